import Verif.Serde.Views
import Verif.Token.Model
import Verif.Kv.Model

/-!
# The views of the key-value store and of the token by name and JSON input, with their JSON answers
-/

namespace Verif.Kv

open Verif Storage Serde MetaVote

/-- The views (file and line of each in `View.read`). -/
inductive View where
  | get_value (key : String)
  | get_values (from_index : Nat) (limit : Nat)
  | get_owner_id
  | get_operator_id
  | get_kv_count

namespace View

/-- The type of the answer. -/
def Out : View → Type
  | .get_value _ => Option String
  | .get_values _ _ => List (String × String)
  | .get_owner_id => String
  | .get_operator_id => String
  | .get_kv_count => Nat

/-- How the answer is written. -/
def ty : (v : View) → Ty v.Out
  | .get_value _ => opt str str_ne_null
  | .get_values _ _ => list (pair str str)
  | .get_owner_id => str
  | .get_operator_id => str
  | .get_kv_count => u64s

/-- Arguments of the types of the method. -/
def valid : View → Prop
  | .get_values from_index limit => from_index ≤ U32_MAX ∧ limit ≤ U32_MAX
  | _ => True

/-- Name and input as a client writes them. -/
def write : View → String × Bytes
  | .get_value key => ("get_value", argsTo (Fields.one "key" str) key)
  | .get_values from_index limit => ("get_values", argsTo (Fields.one "from_index" u32 ⊗ Fields.one "limit" u32) (from_index, limit))
  | .get_owner_id => ("get_owner_id", [])
  | .get_operator_id => ("get_operator_id", [])
  | .get_kv_count => ("get_kv_count", [])

/-- The view called and its arguments.  A view without arguments does not look at the input. -/
def read (name : String) (b : Bytes) : Option View :=
  match name with
  | "get_value" => -- `kv-store-contract/src/lib.rs:97`
    argsOf (Fields.one "key" str) (fun key => .get_value key) b
  | "get_values" => -- `lib.rs:102`
    argsOf (Fields.one "from_index" u32 ⊗ Fields.one "limit" u32) (fun (from_index, limit) => .get_values from_index limit) b
  | "get_owner_id" => some .get_owner_id -- `lib.rs:120`
  | "get_operator_id" => some .get_operator_id -- `lib.rs:123`
  | "get_kv_count" => some .get_kv_count -- `lib.rs:126`
  | _ => none

end View

/-- The answer of a view. -/
def State.view (s : State) : (v : View) → Res v.Out
  | .get_value key => pure (s.get_value key)
  | .get_values from_index limit => s.get_values from_index limit
  | .get_owner_id => pure s.get_owner_id
  | .get_operator_id => pure s.get_operator_id
  | .get_kv_count => pure s.get_kv_count

/-- A view by name and input: the answer as `#[near_bindgen]` returns it (`serde_json::to_vec` of the result). -/
def viewAll (s : State) (name : String) (b : Bytes) : Res Bytes := do
  let v ← expect (View.read name b) "Failed to deserialize input from JSON."
  let r ← s.view v
  pure (v.ty.encode r)

theorem View.read_write {v : View} (h : v.valid) : View.read v.write.1 v.write.2 = some v := by
  cases v
  all_goals
    simp only [View.write, View.read]
    try (refine argsOf_argsTo ?_ (by decide); first
      | exact trivial
      | exact h)

theorem View.read_ok {name : String} {b : Bytes} {v : View} (h : View.read name b = some v) : v.valid ∧ v.write.1 = name := by
  unfold View.read at h
  split at h
  all_goals first
    | cases h; exact ⟨trivial, rfl⟩
    | cases h
    | obtain ⟨a, ha, rfl⟩ := argsOf_ok h
      first
        | exact ⟨trivial, rfl⟩
        | exact ⟨ha, rfl⟩

theorem View.depth (v : View) : v.ty.depth ≤ 127 := by
  cases v <;> exact Nat.le_of_ble_eq_true rfl

end Verif.Kv

namespace Verif.Token

open Verif Storage Serde MetaVote

/-- `StorageBalanceBounds` of near-contract-standards. -/
def boundsTy : Ty (Nat × Option Nat) := struct (Fields.one "min" u128 ⊗ Fields.opt "max" u128 ustr_ne_null)

/-- `StorageBalance` of near-contract-standards. -/
def balanceTy : Ty (Nat × Nat) := struct (Fields.one "total" u128 ⊗ Fields.one "available" u128)

/-- The views (file and line of each in `View.read`). -/
inductive View where
  | get_owner_id
  | get_minters
  | ft_total_supply
  | ft_balance_of (account_id : String)
  | storage_balance_bounds
  | storage_balance_of (account_id : String)

namespace View

/-- The type of the answer. -/
def Out : View → Type
  | .get_owner_id => String
  | .get_minters => List String
  | .ft_total_supply => Nat
  | .ft_balance_of _ => Nat
  | .storage_balance_bounds => Nat × Option Nat
  | .storage_balance_of _ => Option (Nat × Nat)

/-- How the answer is written. -/
def ty : (v : View) → Ty v.Out
  | .get_owner_id => str
  | .get_minters => list str
  | .ft_total_supply => u128
  | .ft_balance_of _ => u128
  | .storage_balance_bounds => boundsTy
  | .storage_balance_of _ => opt balanceTy struct_ne_null

/-- Arguments of the types of the method. -/
def valid : View → Prop
  | .ft_balance_of account_id => validAccount account_id = true
  | .storage_balance_of account_id => validAccount account_id = true
  | _ => True

/-- Name and input as a client writes them. -/
def write : View → String × Bytes
  | .get_owner_id => ("get_owner_id", [])
  | .get_minters => ("get_minters", [])
  | .ft_total_supply => ("ft_total_supply", [])
  | .ft_balance_of account_id => ("ft_balance_of", argsTo (Fields.one "account_id" account) account_id)
  | .storage_balance_bounds => ("storage_balance_bounds", [])
  | .storage_balance_of account_id => ("storage_balance_of", argsTo (Fields.one "account_id" account) account_id)

/-- The view called and its arguments.  A view without arguments does not look at the input. -/
def read (name : String) (b : Bytes) : Option View :=
  match name with
  | "get_owner_id" => some .get_owner_id -- `test-meta-token/src/lib.rs:107`
  | "get_minters" => some .get_minters -- `lib.rs:141`
  | "ft_total_supply" => some .ft_total_supply -- `lib.rs:197`
  | "ft_balance_of" => -- `lib.rs:201`
    argsOf (Fields.one "account_id" account) (fun account_id => .ft_balance_of account_id) b
  | "storage_balance_bounds" => some .storage_balance_bounds -- `lib.rs:252`
  | "storage_balance_of" => -- `lib.rs:256`
    argsOf (Fields.one "account_id" account) (fun account_id => .storage_balance_of account_id) b
  | _ => none

end View

/-- The answer of a view. -/
def State.view (s : State) : (v : View) → Res v.Out
  | .get_owner_id => pure s.get_owner_id
  | .get_minters => pure s.get_minters
  | .ft_total_supply => pure s.ft_total_supply
  | .ft_balance_of account_id => pure (s.ft_balance_of account_id)
  | .storage_balance_bounds => pure s.storage_balance_bounds
  | .storage_balance_of account_id => pure (s.storage_balance_of account_id)

/-- A view by name and input: the answer as `#[near_bindgen]` returns it (`serde_json::to_vec` of the result). -/
def viewAll (s : State) (name : String) (b : Bytes) : Res Bytes := do
  let v ← expect (View.read name b) "Failed to deserialize input from JSON."
  let r ← s.view v
  pure (v.ty.encode r)

theorem View.read_write {v : View} (h : v.valid) : View.read v.write.1 v.write.2 = some v := by
  cases v
  all_goals
    simp only [View.write, View.read]
    try (refine argsOf_argsTo ?_ (by decide); first
      | exact trivial
      | exact h)

theorem View.read_ok {name : String} {b : Bytes} {v : View} (h : View.read name b = some v) : v.valid ∧ v.write.1 = name := by
  unfold View.read at h
  split at h
  all_goals first
    | cases h; exact ⟨trivial, rfl⟩
    | cases h
    | obtain ⟨a, ha, rfl⟩ := argsOf_ok h
      first
        | exact ⟨trivial, rfl⟩
        | exact ⟨ha, rfl⟩

theorem View.depth (v : View) : v.ty.depth ≤ 127 := by
  cases v <;> exact Nat.le_of_ble_eq_true rfl

end Verif.Token
