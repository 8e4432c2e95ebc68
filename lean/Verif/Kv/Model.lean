import Verif.Base.Res
import Verif.Base.UMap

/-!
# Model of `kv-store-contract/src/lib.rs`

All methods are modelled.  Account ids are strings (`AccountId` validation is part of JSON decoding, which is not
modelled: a call is rejected before the method runs if it fails).
-/

namespace Verif.Kv

open Verif

/-- `lib.rs:15-19` -/
structure State where
  owner_id : String
  operator_id : String
  associated_user_data : UMap String String

/-- What a method sees of a call. -/
structure Ctx where
  predecessor : String
  deposit : Nat
  deriving DecidableEq

/-- `lib.rs:29-36`; `exists_` is `env::state_exists()` -/
def new (exists_ : Bool) (owner_id operator_id : String) : Res State := do
  require (exists_ = false) "The contract is already initialized"
  pure ⟨owner_id, operator_id, UMap.empty⟩

namespace State

/-- `lib.rs:57-62` -/
def assert_only_owner (s : State) (c : Ctx) : Res Unit :=
  require (s.owner_id = c.predecessor) "Only the owner can call this function."

/-- `lib.rs:63-68` -/
def assert_operator (s : State) (c : Ctx) : Res Unit :=
  require (s.operator_id = c.predecessor) "Only the operator can call this function."

/-- `near_sdk::assert_one_yocto` -/
def assert_one_yocto (c : Ctx) : Res Unit :=
  require (c.deposit = 1) "Requires attached deposit of exactly 1 yoctoNEAR"

/-- `lib.rs:42-46` -/
def set_operator_id (s : State) (c : Ctx) (operator_id : String) : Res State := do
  assert_one_yocto c
  s.assert_only_owner c
  pure { s with operator_id := operator_id }

/-- `lib.rs:48-52` -/
def set_owner_id (s : State) (c : Ctx) (owner_id : String) : Res State := do
  assert_one_yocto c
  s.assert_only_owner c
  pure { s with owner_id := owner_id }

/-- `lib.rs:75-78` -/
def set_value (s : State) (c : Ctx) (key value : String) : Res State := do
  s.assert_operator c
  pure { s with associated_user_data := s.associated_user_data.insert key value }

/-- `lib.rs:80-86` -/
def set_values (s : State) (c : Ctx) (kv_array : List (String × String)) : Res State := do
  s.assert_operator c
  pure { s with associated_user_data := kv_array.foldl (fun m kv => m.insert kv.1 kv.2) s.associated_user_data }

/-- `lib.rs:87-90` -/
def remove_value (s : State) (c : Ctx) (key : String) : Res (State × Option String) := do
  s.assert_operator c
  pure ({ s with associated_user_data := s.associated_user_data.remove key }, s.associated_user_data.get key)

/-- `lib.rs:97-99` -/
def get_value (s : State) (key : String) : Option String := s.associated_user_data.get key

/-- `lib.rs:102-114`; the sum of two `u32` fits `u64`, both `unwrap`s are kept -/
def get_values (s : State) (from_index limit : Nat) : Res (List (String × String)) :=
  (List.range (min (from_index + limit) s.associated_user_data.len - from_index)).mapM (fun i => do
    let key ← expect s.associated_user_data.keys[from_index + i]? "called `Option::unwrap()` on a `None` value"
    let value ← expect (s.associated_user_data.get key) "called `Option::unwrap()` on a `None` value"
    pure (key, value))

/-- `lib.rs:120-122` -/
def get_owner_id (s : State) : String := s.owner_id
/-- `lib.rs:123-125` -/
def get_operator_id (s : State) : String := s.operator_id
/-- `lib.rs:126-128` -/
def get_kv_count (s : State) : Nat := s.associated_user_data.len

end State

/-- The calls that change the state. -/
inductive Call where
  | set_operator_id (operator_id : String)
  | set_owner_id (owner_id : String)
  | set_value (key value : String)
  | set_values (kv_array : List (String × String))
  | remove_value (key : String)
  deriving DecidableEq

/-- `#[payable]` (`lib.rs:41,47`) -/
def Call.payable : Call → Bool
  | .set_operator_id _ | .set_owner_id _ => true
  | _ => false

/-- A call: deposit check of `#[near_bindgen]`, then the method; the result is that of `remove_value`. -/
def exec (s : State) (c : Ctx) (k : Call) : Res (State × Option String) := do
  require (k.payable = true ∨ c.deposit = 0) "Method doesn't accept deposit"
  match k with
  | .set_operator_id a => do let s' ← s.set_operator_id c a; pure (s', none)
  | .set_owner_id a => do let s' ← s.set_owner_id c a; pure (s', none)
  | .set_value k v => do let s' ← s.set_value c k v; pure (s', none)
  | .set_values l => do let s' ← s.set_values c l; pure (s', none)
  | .remove_value k => s.remove_value c k

/-- The state and the accepted calls, newest first. -/
structure World where
  st : State
  log : List (Ctx × Call)

/-- Reachable from an initialization by `owner`, `operator`. -/
inductive Reach (owner operator : String) : World → Prop
  | init {s : State} (h : new false owner operator = .ok s) : Reach owner operator ⟨s, []⟩
  | step {w : World} {c : Ctx} {k : Call} {s' : State} {r : Option String} (h : Reach owner operator w)
      (he : exec w.st c k = .ok (s', r)) : Reach owner operator ⟨s', (c, k) :: w.log⟩

end Verif.Kv
