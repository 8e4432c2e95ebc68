import Verif.Kv.Model
import Verif.Borsh.Handle

/-!
# The key-value store on the bytes of its storage

`kv-store-contract/src/lib.rs` as it runs on chain: a call reads and decodes the record under `STATE`, works on the map through
its handle, and writes the record back.  A view does not write.  A call that panics leaves the storage as it was.
-/

namespace Verif.Kv.Bytes

open Verif Storage Disk Borsh

/-- `env::state_read` with `PanicOnDefault` (`lib.rs:13`) -/
def load (D : Disk) : Res KvRec :=
  match D STATE with
  | none => .error (.assert "The contract is not initialized")
  | some b => expect (kvRec.read b) "Cannot deserialize the contract state."

/-- `env::state_write` -/
def save (D : Disk) (s : KvRec) : Disk := upd D STATE (some (kvRec.enc s))

/-- `lib.rs:29-36`; the prefix of the map is the number of the variant (`lib.rs:21-24`) -/
def new (D : Disk) (owner_id operator_id : String) : Res Disk := do
  require ((D STATE).isSome = false) "The contract is already initialized"
  pure (save D ⟨owner_id, operator_id, .at [0] 0⟩)

/-- `lib.rs:57-62` -/
def assert_only_owner (s : KvRec) (c : Ctx) : Res Unit :=
  require (s.owner_id = c.predecessor) "Only the owner can call this function."

/-- `lib.rs:63-68` -/
def assert_operator (s : KvRec) (c : Ctx) : Res Unit :=
  require (s.operator_id = c.predecessor) "Only the operator can call this function."

/-- `lib.rs:42-46` -/
def set_operator_id (s : KvRec) (c : Ctx) (operator_id : String) : Res KvRec := do
  State.assert_one_yocto c
  assert_only_owner s c
  pure { s with operator_id := operator_id }

/-- `lib.rs:48-52` -/
def set_owner_id (s : KvRec) (c : Ctx) (owner_id : String) : Res KvRec := do
  State.assert_one_yocto c
  assert_only_owner s c
  pure { s with owner_id := owner_id }

/-- `lib.rs:75-78` -/
def set_value (D : Disk) (s : KvRec) (c : Ctx) (key value : String) : Res (Disk × KvRec) := do
  assert_operator s c
  let r ← MapH.insert string string D s.associated_user_data key value
  pure (r.1, { s with associated_user_data := r.2 })

/-- `lib.rs:80-86` -/
def set_values (D : Disk) (s : KvRec) (c : Ctx) (kv_array : List (String × String)) : Res (Disk × KvRec) := do
  assert_operator s c
  let r ← kv_array.foldlM (fun (x : Disk × MapH) kv => MapH.insert string string x.1 x.2 kv.1 kv.2)
    (D, s.associated_user_data)
  pure (r.1, { s with associated_user_data := r.2 })

/-- `lib.rs:87-90` -/
def remove_value (D : Disk) (s : KvRec) (c : Ctx) (key : String) : Res (Disk × KvRec × Option String) := do
  assert_operator s c
  let r ← MapH.remove string string D s.associated_user_data key
  pure (r.1, { s with associated_user_data := r.2.1 }, r.2.2)

/-- A call: deposit check of `#[near_bindgen]`, state read, method, state written. -/
def exec (D : Disk) (c : Ctx) (k : Call) : Res (Disk × Option String) := do
  require (k.payable = true ∨ c.deposit = 0) "Method doesn't accept deposit"
  let s ← load D
  match k with
  | .set_operator_id a => do let s ← set_operator_id s c a; pure (save D s, none)
  | .set_owner_id a => do let s ← set_owner_id s c a; pure (save D s, none)
  | .set_value k v => do let r ← set_value D s c k v; pure (save r.1 r.2, none)
  | .set_values l => do let r ← set_values D s c l; pure (save r.1 r.2, none)
  | .remove_value k => do let r ← remove_value D s c k; pure (save r.1 r.2.1, r.2.2)

/-- Calls one after the other, with their answers; a call that panics changes nothing. -/
def runs (D : Disk) : List (Ctx × Call) → Disk × List (Res (Option String))
  | [] => (D, [])
  | (c, k) :: l => match exec D c k with
    | .ok r => ((runs r.1 l).1, .ok r.2 :: (runs r.1 l).2)
    | .error e => ((runs D l).1, .error e :: (runs D l).2)

/-! ## Views -/

/-- `lib.rs:97-99` -/
def get_value (D : Disk) (key : String) : Res (Option String) := do
  let s ← load D
  MapH.get string string D s.associated_user_data key

/-- `lib.rs:102-114` -/
def get_values (D : Disk) (from_index limit : Nat) : Res (List (String × String)) := do
  let s ← load D
  (List.range (min (from_index + limit) s.associated_user_data.keys.len - from_index)).mapM (fun i => do
    let k ← MapH.keyAt string D s.associated_user_data (from_index + i)
    let key ← expect k "called `Option::unwrap()` on a `None` value"
    let v ← MapH.get string string D s.associated_user_data key
    let value ← expect v "called `Option::unwrap()` on a `None` value"
    pure (key, value))

/-- `lib.rs:120-122` -/
def get_owner_id (D : Disk) : Res String := do pure (← load D).owner_id
/-- `lib.rs:123-125` -/
def get_operator_id (D : Disk) : Res String := do pure (← load D).operator_id
/-- `lib.rs:126-128` -/
def get_kv_count (D : Disk) : Res Nat := do pure (← load D).associated_user_data.keys.len

end Verif.Kv.Bytes
