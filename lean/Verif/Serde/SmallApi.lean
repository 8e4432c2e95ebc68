import Verif.Serde.Types
import Verif.Serde.MetaVoteApi
import Verif.Token.Model
import Verif.Kv.Model

/-!
# The methods of the token and of the key-value store by name and JSON input
-/

namespace Verif.Token

open Verif Storage Serde MetaVote

namespace Args

/-- `test-meta-token/src/lib.rs:111` -/
def set_owner_id : Fields String := Fields.one "owner_id" account
/-- `lib.rs:119`, `130`, `145` -/
def minter : Fields String := Fields.one "account_id" account
/-- `lib.rs:151`, `166` -/
def supply : Fields (Nat × Option String) := Fields.one "amount" u128 ⊗ Fields.opt "memo" str (fun _ => by simp [str])
/-- `lib.rs:182` -/
def ft_transfer : Fields (String × Nat × Option String) :=
  Fields.one "receiver_id" account ⊗ Fields.one "amount" u128 ⊗ Fields.opt "memo" str (fun _ => by simp [str])
/-- `lib.rs:187-193` -/
def ft_transfer_call : Fields (String × Nat × Option String × String) :=
  Fields.one "receiver_id" account ⊗ Fields.one "amount" u128 ⊗ Fields.opt "memo" str (fun _ => by simp [str]) ⊗
    Fields.one "msg" str
/-- `lib.rs:209-214` -/
def ft_resolve_transfer : Fields (String × String × Nat) :=
  Fields.one "sender_id" account ⊗ Fields.one "receiver_id" account ⊗ Fields.one "amount" u128
/-- `lib.rs:228-232` -/
def storage_deposit : Fields (Option String × Option Bool) :=
  Fields.opt "account_id" account (fun _ => by simp [account]) ⊗ Fields.opt "registration_only" Serde.bool (fun _ => by simp [Serde.bool])
/-- `lib.rs:237`; `NearToken` is written like `U128` -/
def storage_withdraw : Fields (Option Nat) := Fields.opt "amount" u128 (fun _ => by simp [u128, ustr])
/-- `lib.rs:242` -/
def storage_unregister : Fields (Option Bool) := Fields.opt "force" Serde.bool (fun _ => by simp [Serde.bool])

end Args

/-- Account ids are valid, text is UTF-8, amounts fit. -/
def Call.valid : Call → Prop
  | .set_owner_id a | .add_minter a | .remove_minter a | .assert_minter a | .ft_transfer a _ => validAccount a = true
  | .ft_transfer_call a _ m => validAccount a = true ∧ utf8 (textOf m) = m
  | .ft_resolve_transfer a b _ => validAccount a = true ∧ validAccount b = true
  | .storage_deposit a _ => ∀ x, a = some x → validAccount x = true
  | .storage_withdraw a => ∀ x, a = some x → x ≤ U128_MAX
  | _ => True

/-- Name and input with which a call is made, without a memo. -/
def Call.write : Call → String × Bytes
  | .set_owner_id a => ("set_owner_id", argsTo Args.set_owner_id a)
  | .add_minter a => ("add_minter", argsTo Args.minter a)
  | .remove_minter a => ("remove_minter", argsTo Args.minter a)
  | .assert_minter a => ("assert_minter", argsTo Args.minter a)
  | .ft_mint n => ("ft_mint", argsTo Args.supply (n, none))
  | .ft_burn n => ("ft_burn", argsTo Args.supply (n, none))
  | .ft_transfer r n => ("ft_transfer", argsTo Args.ft_transfer (r, n, none))
  | .ft_transfer_call r n m => ("ft_transfer_call", argsTo Args.ft_transfer_call (r, n, none, textOf m))
  | .ft_resolve_transfer a b n => ("ft_resolve_transfer", argsTo Args.ft_resolve_transfer (a, b, n))
  | .storage_deposit a r => ("storage_deposit", argsTo Args.storage_deposit (a, r))
  | .storage_withdraw a => ("storage_withdraw", argsTo Args.storage_withdraw a)
  | .storage_unregister f => ("storage_unregister", argsTo Args.storage_unregister f)

/-- The call that a method name and an input stand for; the memo is dropped (it only goes to the events). -/
def Call.read (name : String) (b : Bytes) : Option Call :=
  match name with
  | "set_owner_id" => argsOf Args.set_owner_id .set_owner_id b
  | "add_minter" => argsOf Args.minter .add_minter b
  | "remove_minter" => argsOf Args.minter .remove_minter b
  | "assert_minter" => argsOf Args.minter .assert_minter b
  | "ft_mint" => argsOf Args.supply (fun a => .ft_mint a.1) b
  | "ft_burn" => argsOf Args.supply (fun a => .ft_burn a.1) b
  | "ft_transfer" => argsOf Args.ft_transfer (fun a => .ft_transfer a.1 a.2.1) b
  | "ft_transfer_call" => argsOf Args.ft_transfer_call (fun a => .ft_transfer_call a.1 a.2.1 (utf8 a.2.2.2)) b
  | "ft_resolve_transfer" => argsOf Args.ft_resolve_transfer (fun a => .ft_resolve_transfer a.1 a.2.1 a.2.2) b
  | "storage_deposit" => argsOf Args.storage_deposit (fun a => .storage_deposit a.1 a.2) b
  | "storage_withdraw" => argsOf Args.storage_withdraw .storage_withdraw b
  | "storage_unregister" => argsOf Args.storage_unregister .storage_unregister b
  | _ => none

theorem Call.read_write {k : Call} (hr : k.in_range = true) (hv : k.valid) : Call.read k.write.1 k.write.2 = some k := by
  have nov : ∀ {α : Type} {p : α → Prop} (x : α), (none : Option α) = some x → p x := by intro _ _ x h; cases h
  cases k
  case ft_transfer_call a n m =>
    simp only [Call.write, Call.read]
    rw [argsOf_argsTo]
    · simp only [Call.valid] at hv; simp [hv.2]
    · simp only [Call.in_range, decide_eq_true_eq] at hr
      exact ⟨hv.1, hr, nov, trivial⟩
    · decide
  all_goals
    simp only [Call.write, Call.read]
    refine argsOf_argsTo ?_ (by decide)
    simp only [Call.in_range, decide_eq_true_eq] at hr
    first
      | exact hv
      | exact ⟨hr, nov⟩
      | exact ⟨hv, hr, nov⟩
      | exact ⟨hv.1, hv.2, hr⟩
      | exact ⟨hv, fun _ _ => trivial⟩
      | exact fun _ _ => trivial

/-- What is read is a call of that method with arguments of the right types. -/
theorem Call.read_ok {name : String} {b : Bytes} {k : Call} (h : Call.read name b = some k) :
    k.in_range = true ∧ k.valid ∧ k.write.1 = name := by
  unfold Call.read at h
  split at h
  case h_13 => cases h
  all_goals
    obtain ⟨a, ha, rfl⟩ := argsOf_ok h
    first
      | exact ⟨rfl, trivial, rfl⟩
      | exact ⟨rfl, ha, rfl⟩
      | exact ⟨rfl, ha.1, rfl⟩
      | exact ⟨decide_eq_true ha.1, trivial, rfl⟩
      | exact ⟨decide_eq_true ha.2.1, ha.1, rfl⟩
      | exact ⟨decide_eq_true ha.2.1, ⟨ha.1, congrArg utf8 (textOf_utf8 a.2.2.2)⟩, rfl⟩
      | exact ⟨decide_eq_true ha.2.2, ⟨ha.1, ha.2.1⟩, rfl⟩

end Verif.Token

namespace Verif.Kv

open Verif Storage Serde

namespace Args

/-- `kv-store-contract/src/lib.rs:42` -/
def set_operator_id : Fields String := Fields.one "operator_id" account
/-- `lib.rs:48` -/
def set_owner_id : Fields String := Fields.one "owner_id" account
/-- `lib.rs:75` -/
def set_value : Fields (String × String) := Fields.one "key" str ⊗ Fields.one "value" str
/-- `lib.rs:80` -/
def set_values : Fields (List (String × String)) := Fields.one "kv_array" (list (pair str str))
/-- `lib.rs:87` -/
def remove_value : Fields String := Fields.one "key" str

end Args

/-- Account ids are valid. -/
def Call.valid : Call → Prop
  | .set_operator_id a | .set_owner_id a => validAccount a = true
  | _ => True

/-- Name and input with which a call is made. -/
def Call.write : Call → String × Bytes
  | .set_operator_id a => ("set_operator_id", argsTo Args.set_operator_id a)
  | .set_owner_id a => ("set_owner_id", argsTo Args.set_owner_id a)
  | .set_value k v => ("set_value", argsTo Args.set_value (k, v))
  | .set_values l => ("set_values", argsTo Args.set_values l)
  | .remove_value k => ("remove_value", argsTo Args.remove_value k)

/-- The call that a method name and an input stand for. -/
def Call.read (name : String) (b : Bytes) : Option Call :=
  match name with
  | "set_operator_id" => argsOf Args.set_operator_id .set_operator_id b
  | "set_owner_id" => argsOf Args.set_owner_id .set_owner_id b
  | "set_value" => argsOf Args.set_value (fun a => .set_value a.1 a.2) b
  | "set_values" => argsOf Args.set_values .set_values b
  | "remove_value" => argsOf Args.remove_value .remove_value b
  | _ => none

theorem Call.read_write {k : Call} (hv : k.valid) : Call.read k.write.1 k.write.2 = some k := by
  cases k
  all_goals
    simp only [Call.write, Call.read]
    refine argsOf_argsTo ?_ (by decide)
    first
      | exact hv
      | trivial
      | exact ⟨trivial, trivial⟩
      | exact fun _ _ => ⟨trivial, trivial⟩

/-- What is read is a call of that method with arguments of the right types. -/
theorem Call.read_ok {name : String} {b : Bytes} {k : Call} (h : Call.read name b = some k) : k.valid ∧ k.write.1 = name := by
  unfold Call.read at h
  split at h
  case h_6 => cases h
  all_goals
    obtain ⟨a, ha, rfl⟩ := argsOf_ok h
    first
      | exact ⟨trivial, rfl⟩
      | exact ⟨ha, rfl⟩

end Verif.Kv
