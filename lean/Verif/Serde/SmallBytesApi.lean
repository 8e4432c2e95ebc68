import Verif.Serde.SmallViews
import Verif.Serde.SmallApi
import Verif.Serde.Base64
import Verif.Kv.Bytes
import Verif.Token.Bytes

/-!
# The key-value store and the token with inputs, storage and answers in bytes
-/

namespace Verif.Kv.Bytes

open Verif Storage Disk Borsh Serde

/-- `kv-store-contract/src/lib.rs:29` -/
def newArgs : Fields (String × String) := Fields.one "owner_id" account ⊗ Fields.one "operator_id" account

/-- `new` by its input. -/
def newJson (D : Disk) (b : Bytes) : Res Disk := do
  let x ← expect (argsOf newArgs id b) "Failed to deserialize input from JSON."
  new D x.1 x.2

/-- A view on the bytes of storage. -/
def answer (D : Disk) : (v : View) → Res v.Out
  | .get_value key => get_value D key
  | .get_values from_index limit => get_values D from_index limit
  | .get_owner_id => get_owner_id D
  | .get_operator_id => get_operator_id D
  | .get_kv_count => get_kv_count D

/-- A view by name and input, answered in JSON. -/
def viewAll (D : Disk) (name : String) (b : Bytes) : Res Bytes := do
  let v ← expect (View.read name b) "Failed to deserialize input from JSON."
  let r ← answer D v
  pure (v.ty.encode r)

/-- What a call returns: only `remove_value` has a result (`lib.rs:87`), the others return nothing. -/
def returned : Call → Option String → Bytes
  | .remove_value _, r => (opt str str_ne_null).encode r
  | _, _ => []

/-- A call by name and input. -/
def callJson (D : Disk) (c : Ctx) (name : String) (b : Bytes) : Res (Disk × Bytes) := do
  let k ← expect (Call.read name b) "Failed to deserialize input from JSON."
  let r ← exec D c k
  pure (r.1, returned k r.2)

/-- Calls one after the other, with what they return; a call that panics changes nothing. -/
def runsJson (D : Disk) : List (Ctx × String × Bytes) → Disk × List (Res Bytes)
  | [] => (D, [])
  | (c, name, b) :: l => match callJson D c name b with
    | .ok r => ((runsJson r.1 l).1, .ok r.2 :: (runsJson r.1 l).2)
    | .error e => ((runsJson D l).1, .error e :: (runsJson D l).2)

end Verif.Kv.Bytes

namespace Verif.Token.Bytes

open Verif Storage Disk Borsh Serde

/-- A view on the bytes of storage. -/
def answer (D : Disk) : (v : View) → Res v.Out
  | .get_owner_id => get_owner_id D
  | .get_minters => get_minters D
  | .ft_total_supply => ft_total_supply D
  | .ft_balance_of account_id => ft_balance_of D account_id
  | .storage_balance_bounds => storage_balance_bounds D
  | .storage_balance_of account_id => storage_balance_of D account_id

/-- `FungibleTokenMetadata` of near-contract-standards. -/
def metadataTy : Ty Metadata := struct
  ((Fields.one "spec" str ⊗ Fields.one "name" str ⊗ Fields.one "symbol" str ⊗ Fields.opt "icon" str str_ne_null ⊗
    Fields.opt "reference" str str_ne_null ⊗ Fields.opt "reference_hash" base64Ty base64_ne_null ⊗
    Fields.one "decimals" Serde.u8).iso (fun (a, b, c, d, e, f, g) => ⟨a, b, c, d, e, f, g⟩)
    (fun m => (m.spec, m.name, m.symbol, m.icon, m.reference, m.reference_hash, m.decimals)) (fun _ => rfl) (fun _ => rfl))

/-- `test-meta-token/src/lib.rs:47` -/
def ICON : String :=
  "data:image/svg+xml,%3csvg width='96' height='96' viewBox='0 0 96 96' fill='none' xmlns='http://www.w3.org/2000/svg'%3e%3crect width='96' height='96' rx='48' fill='white'/%3e%3cpath d='M29.2241 28.7456C28.396 27.9423 27.0094 28.5289 27.0091 29.6825L27 66.6773C26.9997 67.8501 28.4257 68.4286 29.2426 67.5872L48.6529 47.5943L29.2241 28.7456Z' fill='%23231B51'/%3e%3cpath d='M66.7759 28.7456C67.604 27.9423 68.9906 28.5289 68.9909 29.6825L69 66.6773C69.0003 67.8501 67.5743 68.4286 66.7574 67.5872L47.3471 47.5943L66.7759 28.7456Z' fill='%23231B51'/%3e%3c/svg%3e"

/-- `lib.rs:65-73` -/
def default_meta : Metadata := ⟨"ft-1.0.0", "metapool.app DAO Governance Token", "mpDAO", some ICON, none, none, 6⟩

/-- `lib.rs:61` -/
def newDefaultArgs : Fields (String × Nat) := Fields.one "owner_id" account ⊗ Fields.one "total_supply" Serde.u128

/-- `lib.rs:80` -/
def newArgs : Fields (String × Nat × Metadata) :=
  Fields.one "owner_id" account ⊗ Fields.one "total_supply" Serde.u128 ⊗ Fields.one "metadata" metadataTy

/-- Owner, supply and metadata of an installation by name and input. -/
def initRead (name : String) (b : Bytes) : Option (String × Nat × Metadata) :=
  match name with
  | "new_default_meta" => argsOf newDefaultArgs (fun x => (x.1, x.2, default_meta)) b
  | "new" => argsOf newArgs id b
  | _ => none

/-- The installation by name and input. -/
def initJson (D : Disk) (name : String) (b : Bytes) : Res (Disk × List Line) := do
  let x ← expect (initRead name b) "Failed to deserialize input from JSON."
  new D x.1 x.2.1 x.2.2

/-- A view by name and input, answered in JSON.  `ft_metadata` has no arguments and does not look at the input. -/
def viewAll (D : Disk) (name : String) (b : Bytes) : Res Bytes :=
  if name = "ft_metadata" then do
    let m ← ft_metadata D
    pure (metadataTy.encode m)
  else do
    let v ← expect (View.read name b) "Failed to deserialize input from JSON."
    let r ← answer D v
    pure (v.ty.encode r)

/-- A call by name and input. -/
def callJson (D : Disk) (c : Ctx) (name : String) (b : Bytes) : Res (Disk × List Promise × List Line) := do
  let k ← expect (Call.read name b) "Failed to deserialize input from JSON."
  exec D c k

/-- What happens to the contract: a call by name and input, or the answer to the transfer-call with the given number, in bytes or
a failure. -/
inductive JInput where
  | call (c : Ctx) (name : String) (b : Bytes)
  | settle (i : Nat) (r : Option Bytes)

/-- As `runs`.  The resolution of a transfer-call is the bytes that the contract wrote for itself.  The answer of the receiver is
read as a `U128`; one that is not is as a failure (near-contract-standards, `fungible_token/core_impl.rs`,
`internal_ft_resolve_transfer`). -/
def runsJson (me : AccountId) (w : BWorld) : List JInput → BWorld × List Line
  | [] => (w, [])
  | .call c name b :: l =>
    if c.current = me ∧ c.predecessor ≠ me then
      match callJson w.disk c name b with
      | .ok r => let x := runsJson me ⟨r.1, w.pending ++ notified r.2.1⟩ l; (x.1, r.2.2 ++ x.2)
      | .error _ => runsJson me w l
    else runsJson me w l
  | .settle i r :: l =>
    match w.pending[i]? with
    | none => runsJson me w l
    | some p =>
      let k := Call.ft_resolve_transfer p.sender p.receiver p.amount
      match callJson w.disk ⟨me, me, 0, r.bind Serde.u128.decode⟩ k.write.1 k.write.2 with
      | .ok x => let y := runsJson me ⟨x.1, w.pending.eraseIdx i⟩ l; (y.1, x.2.2 ++ y.2)
      | .error _ => runsJson me ⟨w.disk, w.pending.eraseIdx i⟩ l

end Verif.Token.Bytes
