import Verif.Serde.Types
import Verif.MetaVote.Step
import Verif.MetaVote.Views

/-!
# The methods of meta-vote by name and JSON input

The code that `#[near_bindgen]` generates for every public method, up to the call of the method: the input is read as JSON
into the arguments.
-/

namespace Verif.MetaVote

open Verif Storage Serde

/-- Text of bytes, if they are UTF-8. -/
def textOf (m : Bytes) : String := (String.fromUTF8? ⟨m.toArray⟩).getD ""

theorem textOf_utf8 (s : String) : textOf (utf8 s) = s := by
  unfold textOf
  rw [fromUTF8_utf8]
  rfl

/-! ## Arguments of the methods -/

namespace Args

/-- `lib.rs:71-83` -/
def new_ : Fields (String × String × Nat × Nat × Nat × Nat × Nat × String × String × Nat × String) :=
  Fields.one "owner_id" account ⊗ Fields.one "operator_id" account ⊗ Fields.one "min_unbond_period" u16 ⊗
    Fields.one "max_unbond_period" u16 ⊗ Fields.one "min_deposit_amount" u128 ⊗ Fields.one "max_locking_positions" u8 ⊗
    Fields.one "max_voting_positions" u8 ⊗ Fields.one "mpdao_token_contract_address" account ⊗
    Fields.one "stnear_token_contract_address" account ⊗ Fields.one "registration_cost" u128 ⊗
    Fields.one "prev_governance_contract" str

/-- `lib.rs:124` -/
def set_stnear_contract : Fields (String) := Fields.one "stnear_contract" account

/-- `lib.rs:130` -/
def set_operator_id : Fields (String) := Fields.one "operator_id" account

/-- `lib.rs:136` -/
def set_owner_id : Fields (String) := Fields.one "owner_id" account

/-- `lib.rs:147` -/
def update_registration_cost : Fields (Nat) := Fields.one "new_cost" u128

/-- `lib.rs:166` -/
def update_airdrop_user_data : Fields (String) := Fields.one "encrypted_data" str

/-- `lib.rs:180` -/
def operator_multi_set_airdrop_data : Fields (List (String × String)) := Fields.one "data" (list (pair str str))

/-- `lib.rs:208` -/
def claim_and_lock : Fields (Nat × Nat) := Fields.one "amount" u128 ⊗ Fields.one "locking_period" u16

/-- `lib.rs:219` -/
def claim_stnear : Fields (Nat) := Fields.one "amount" u128

/-- `lib.rs:231` -/
def unlock_position : Fields (Nat) := Fields.one "index" u64

/-- `lib.rs:256` -/
def unlock_partial_position : Fields (Nat × Nat) := Fields.one "index" u64 ⊗ Fields.one "amount" u128

/-- `lib.rs:312` -/
def locking_position_extend_days : Fields (Nat × Nat) := Fields.one "index" u64 ⊗ Fields.one "new_locking_period" u16

/-- `lib.rs:357-362` -/
def relock_position : Fields (Nat × Nat × Nat) :=
  Fields.one "index" u64 ⊗ Fields.one "locking_period" u16 ⊗ Fields.one "amount_from_balance" u128

/-- `lib.rs:406-412` -/
def relock_partial_position : Fields (Nat × Nat × Nat × Nat) :=
  Fields.one "index" u64 ⊗ Fields.one "amount_from_position" u128 ⊗ Fields.one "locking_period" u16 ⊗
    Fields.one "amount_from_balance" u128

/-- `lib.rs:483` -/
def relock_from_balance : Fields (Nat × Nat) := Fields.one "locking_period" u16 ⊗ Fields.one "amount_from_balance" u128

/-- `lib.rs:511` -/
def clear_locking_position : Fields (List Nat) := Fields.one "position_index_list" (list u64)

/-- `lib.rs:523-528` -/
def vote : Fields (Nat × String × String) :=
  Fields.one "voting_power" u128 ⊗ Fields.one "contract_address" str ⊗ Fields.one "votable_object_id" str

/-- `lib.rs:602-607` -/
def rebalance : Fields (Nat × String × String) :=
  Fields.one "voting_power" u128 ⊗ Fields.one "contract_address" str ⊗ Fields.one "votable_object_id" str

/-- `lib.rs:717` -/
def unvote : Fields (String × String) := Fields.one "contract_address" str ⊗ Fields.one "votable_object_id" str

/-- `lib.rs:757-762` -/
def set_lock_in_vote_filters : Fields (Nat × Nat × Option String) :=
  Fields.one "end_timestamp_ms" u64 ⊗ Fields.one "votable_numeric_id" u16 ⊗
    Fields.opt "votable_address" str (fun _ => by simp [str])

/-- `lib.rs:777` -/
def update_min_unbond_period : Fields (Nat) := Fields.one "new_min_unbond_period" u16

/-- `lib.rs:783` -/
def update_max_unbond_period : Fields (Nat) := Fields.one "new_max_unbond_period" u16

/-- `lib.rs:789` -/
def set_prev_gov_contract : Fields (String) := Fields.one "contract_id" str

/-- `lib.rs:799-804` -/
def migration_create_lps : Fields (String × List (Nat × Nat) × Option String) :=
  Fields.one "voter_id" str ⊗ Fields.one "locking_positions" (list (pair u128 u16)) ⊗
    Fields.opt "encrypted_associated_user_data" str (fun _ => by simp [str])

/-- `lib.rs:834-838` -/
def operator_mirror_lps : Fields (String × List (Nat × Nat)) :=
  Fields.one "external_address" str ⊗ Fields.one "locking_positions" (list (pair u16 u128))

/-- `withdraw.rs:44-48` -/
def withdraw : Fields (List Nat × Nat) := Fields.one "position_index_list" (list u64) ⊗ Fields.one "amount_from_balance" u128

/-- `withdraw.rs:79` -/
def after_transfer_mpdao_callback : Fields (String × Nat) := Fields.one "voter_id" str ⊗ Fields.one "amount" u128

/-- `withdraw.rs:126` -/
def after_transfer_stnear_callback : Fields (String × Nat) := Fields.one "source" str ⊗ Fields.one "amount" u128

/-- `deposit.rs:13-18` -/
def ft_on_transfer : Fields (String × Nat × String) :=
  Fields.one "sender_id" account ⊗ Fields.one "amount" u128 ⊗ Fields.one "msg" str

/-- `evm_delegate.rs:13` -/
def pre_delegate_evm_address : Fields (String × String) := Fields.one "evm_address" str ⊗ Fields.one "signature" str

/-- `evm_delegate.rs:31` -/
def operator_remove_pre_delegate_evm_address : Fields (String) := Fields.one "evm_address" str

/-- `evm_delegate.rs:38` -/
def operator_confirm_delegated_evm_address : Fields (String) := Fields.one "evm_address" str

/-- `evm_delegate.rs:78-82` -/
def delegated_claim_stnear : Fields (String × Nat) := Fields.one "evm_address" str ⊗ Fields.one "amount" u128

/-- `evm_delegate.rs:113-119` -/
def vote_delegated : Fields (String × Nat × String × String) :=
  Fields.one "evm_address" str ⊗ Fields.one "voting_power" u128 ⊗ Fields.one "contract_address" str ⊗
    Fields.one "votable_object_id" str

/-- `evm_delegate.rs:130-135` -/
def unvote_delegated : Fields (String × String × String) :=
  Fields.one "evm_address" str ⊗ Fields.one "contract_address" str ⊗ Fields.one "votable_object_id" str

/-- `evm_delegate.rs:142` -/
def remove_delegated_evm_address : Fields (String) := Fields.one "evm_address" str

end Args

/-- What the types of the arguments ask for beside the ranges of the integers: account ids are valid, text is UTF-8. -/
def Call.valid : Call → Prop
  | .new_ a b _ _ _ _ _ h i _ _ => validAccount a = true ∧ validAccount b = true ∧ validAccount h = true ∧ validAccount i = true
  | .set_stnear_contract a => validAccount a = true
  | .set_operator_id a => validAccount a = true
  | .set_owner_id a => validAccount a = true
  | .ft_on_transfer a _ m => validAccount a = true ∧ utf8 (textOf m) = m
  | _ => True

/-- Name and input with which a call is made. -/
def Call.write : Call → String × Bytes
  | .new_ a b c d e f g h i j k => ("new", argsTo Args.new_ (a, b, c, d, e, f, g, h, i, j, k))
  | .migrate => ("migrate", [])
  | .set_stnear_contract a => ("set_stnear_contract", argsTo Args.set_stnear_contract a)
  | .set_operator_id a => ("set_operator_id", argsTo Args.set_operator_id a)
  | .set_owner_id a => ("set_owner_id", argsTo Args.set_owner_id a)
  | .update_registration_cost a => ("update_registration_cost", argsTo Args.update_registration_cost a)
  | .update_airdrop_user_data a => ("update_airdrop_user_data", argsTo Args.update_airdrop_user_data a)
  | .operator_multi_set_airdrop_data a => ("operator_multi_set_airdrop_data", argsTo Args.operator_multi_set_airdrop_data a)
  | .claim_and_lock a b => ("claim_and_lock", argsTo Args.claim_and_lock (a, b))
  | .claim_stnear a => ("claim_stnear", argsTo Args.claim_stnear a)
  | .unlock_position a => ("unlock_position", argsTo Args.unlock_position a)
  | .unlock_partial_position a b => ("unlock_partial_position", argsTo Args.unlock_partial_position (a, b))
  | .locking_position_extend_days a b => ("locking_position_extend_days", argsTo Args.locking_position_extend_days (a, b))
  | .relock_position a b c => ("relock_position", argsTo Args.relock_position (a, b, c))
  | .relock_partial_position a b c d => ("relock_partial_position", argsTo Args.relock_partial_position (a, b, c, d))
  | .relock_from_balance a b => ("relock_from_balance", argsTo Args.relock_from_balance (a, b))
  | .clear_locking_position a => ("clear_locking_position", argsTo Args.clear_locking_position a)
  | .vote a b c => ("vote", argsTo Args.vote (a, b, c))
  | .rebalance a b c => ("rebalance", argsTo Args.rebalance (a, b, c))
  | .unvote a b => ("unvote", argsTo Args.unvote (a, b))
  | .set_lock_in_vote_filters a b c => ("set_lock_in_vote_filters", argsTo Args.set_lock_in_vote_filters (a, b, c))
  | .update_min_unbond_period a => ("update_min_unbond_period", argsTo Args.update_min_unbond_period a)
  | .update_max_unbond_period a => ("update_max_unbond_period", argsTo Args.update_max_unbond_period a)
  | .set_prev_gov_contract a => ("set_prev_gov_contract", argsTo Args.set_prev_gov_contract a)
  | .migration_create_lps a b c => ("migration_create_lps", argsTo Args.migration_create_lps (a, b, c))
  | .operator_mirror_lps a b => ("operator_mirror_lps", argsTo Args.operator_mirror_lps (a, b))
  | .withdraw a b => ("withdraw", argsTo Args.withdraw (a, b))
  | .withdraw_all => ("withdraw_all", [])
  | .after_transfer_mpdao_callback a b => ("after_transfer_mpdao_callback", argsTo Args.after_transfer_mpdao_callback (a, b))
  | .after_transfer_stnear_callback a b => ("after_transfer_stnear_callback", argsTo Args.after_transfer_stnear_callback (a, b))
  | .ft_on_transfer a b m => ("ft_on_transfer", argsTo Args.ft_on_transfer (a, b, textOf m))
  | .pre_delegate_evm_address a b => ("pre_delegate_evm_address", argsTo Args.pre_delegate_evm_address (a, b))
  | .operator_remove_pre_delegate_evm_address a =>
    ("operator_remove_pre_delegate_evm_address", argsTo Args.operator_remove_pre_delegate_evm_address a)
  | .operator_confirm_delegated_evm_address a =>
    ("operator_confirm_delegated_evm_address", argsTo Args.operator_confirm_delegated_evm_address a)
  | .delegated_claim_stnear a b => ("delegated_claim_stnear", argsTo Args.delegated_claim_stnear (a, b))
  | .vote_delegated a b c d => ("vote_delegated", argsTo Args.vote_delegated (a, b, c, d))
  | .unvote_delegated a b c => ("unvote_delegated", argsTo Args.unvote_delegated (a, b, c))
  | .remove_delegated_evm_address a => ("remove_delegated_evm_address", argsTo Args.remove_delegated_evm_address a)

/-- The call that a method name and an input stand for; `none`: no such method, or the input is refused. -/
def Call.read (name : String) (b : Bytes) : Option Call :=
  match name with
  | "new" => argsOf Args.new_ (fun (a, b, c, d, e, f, g, h, i, j, k) => .new_ a b c d e f g h i j k) b
  | "migrate" => some .migrate
  | "set_stnear_contract" => argsOf Args.set_stnear_contract (.set_stnear_contract) b
  | "set_operator_id" => argsOf Args.set_operator_id (.set_operator_id) b
  | "set_owner_id" => argsOf Args.set_owner_id (.set_owner_id) b
  | "update_registration_cost" => argsOf Args.update_registration_cost (.update_registration_cost) b
  | "update_airdrop_user_data" => argsOf Args.update_airdrop_user_data (.update_airdrop_user_data) b
  | "operator_multi_set_airdrop_data" => argsOf Args.operator_multi_set_airdrop_data (.operator_multi_set_airdrop_data) b
  | "claim_and_lock" => argsOf Args.claim_and_lock (fun (a, b) => .claim_and_lock a b) b
  | "claim_stnear" => argsOf Args.claim_stnear (.claim_stnear) b
  | "unlock_position" => argsOf Args.unlock_position (.unlock_position) b
  | "unlock_partial_position" => argsOf Args.unlock_partial_position (fun (a, b) => .unlock_partial_position a b) b
  | "locking_position_extend_days" => argsOf Args.locking_position_extend_days (fun (a, b) => .locking_position_extend_days a b) b
  | "relock_position" => argsOf Args.relock_position (fun (a, b, c) => .relock_position a b c) b
  | "relock_partial_position" => argsOf Args.relock_partial_position (fun (a, b, c, d) => .relock_partial_position a b c d) b
  | "relock_from_balance" => argsOf Args.relock_from_balance (fun (a, b) => .relock_from_balance a b) b
  | "clear_locking_position" => argsOf Args.clear_locking_position (.clear_locking_position) b
  | "vote" => argsOf Args.vote (fun (a, b, c) => .vote a b c) b
  | "rebalance" => argsOf Args.rebalance (fun (a, b, c) => .rebalance a b c) b
  | "unvote" => argsOf Args.unvote (fun (a, b) => .unvote a b) b
  | "set_lock_in_vote_filters" => argsOf Args.set_lock_in_vote_filters (fun (a, b, c) => .set_lock_in_vote_filters a b c) b
  | "update_min_unbond_period" => argsOf Args.update_min_unbond_period (.update_min_unbond_period) b
  | "update_max_unbond_period" => argsOf Args.update_max_unbond_period (.update_max_unbond_period) b
  | "set_prev_gov_contract" => argsOf Args.set_prev_gov_contract (.set_prev_gov_contract) b
  | "migration_create_lps" => argsOf Args.migration_create_lps (fun (a, b, c) => .migration_create_lps a b c) b
  | "operator_mirror_lps" => argsOf Args.operator_mirror_lps (fun (a, b) => .operator_mirror_lps a b) b
  | "withdraw" => argsOf Args.withdraw (fun (a, b) => .withdraw a b) b
  | "withdraw_all" => some .withdraw_all
  | "after_transfer_mpdao_callback" =>
    argsOf Args.after_transfer_mpdao_callback (fun (a, b) => .after_transfer_mpdao_callback a b) b
  | "after_transfer_stnear_callback" =>
    argsOf Args.after_transfer_stnear_callback (fun (a, b) => .after_transfer_stnear_callback a b) b
  | "ft_on_transfer" => argsOf Args.ft_on_transfer (fun (a, b, m) => .ft_on_transfer a b (utf8 m)) b
  | "pre_delegate_evm_address" => argsOf Args.pre_delegate_evm_address (fun (a, b) => .pre_delegate_evm_address a b) b
  | "operator_remove_pre_delegate_evm_address" =>
    argsOf Args.operator_remove_pre_delegate_evm_address (.operator_remove_pre_delegate_evm_address) b
  | "operator_confirm_delegated_evm_address" =>
    argsOf Args.operator_confirm_delegated_evm_address (.operator_confirm_delegated_evm_address) b
  | "delegated_claim_stnear" => argsOf Args.delegated_claim_stnear (fun (a, b) => .delegated_claim_stnear a b) b
  | "vote_delegated" => argsOf Args.vote_delegated (fun (a, b, c, d) => .vote_delegated a b c d) b
  | "unvote_delegated" => argsOf Args.unvote_delegated (fun (a, b, c) => .unvote_delegated a b c) b
  | "remove_delegated_evm_address" => argsOf Args.remove_delegated_evm_address (.remove_delegated_evm_address) b
  | _ => none

theorem Call.read_write {k : Call} (hr : k.in_range = true) (hv : k.valid) : Call.read k.write.1 k.write.2 = some k := by
  cases k
  case migrate => rfl
  case withdraw_all => rfl
  case ft_on_transfer a b m =>
    simp only [Call.write, Call.read]
    rw [argsOf_argsTo]
    · simp only [Call.valid] at hv; simp [hv.2]
    · simp only [Call.valid] at hv
      simpa [Args.ft_on_transfer, Fields.and, Fields.one, u128, ustr, account, str, hv.1, Call.in_range] using hr
    · decide
  all_goals
    simp only [Call.write, Call.read]
    refine argsOf_argsTo ?_ (by decide)
    simp only [Call.valid, Call.in_range, decide_eq_true_eq, Bool.and_eq_true, List.all_eq_true] at hv hr
    first
      | trivial
      | exact hr
      | exact hv
      | exact ⟨hr, trivial⟩
      | exact ⟨trivial, hr⟩
      | exact ⟨trivial, trivial⟩
      | exact ⟨hr, trivial, trivial⟩
      | exact ⟨trivial, trivial, trivial⟩
      | exact ⟨trivial, hr, trivial, trivial⟩
      | exact ⟨hr.1, hr.2, fun _ _ => trivial⟩
      | exact ⟨trivial, fun p hp => hr p hp, fun _ _ => trivial⟩
      | exact fun p _ => ⟨trivial, trivial⟩
      | exact ⟨hv.1, hv.2.1, hr.1, hr.2.1, hr.2.2.1, hr.2.2.2.1, hr.2.2.2.2.1, hv.2.2.1, hv.2.2.2, hr.2.2.2.2.2, trivial⟩

/-- What is read is a call of that method with arguments of the right types. -/
theorem Call.read_ok {name : String} {b : Bytes} {k : Call} (h : Call.read name b = some k) :
    k.in_range = true ∧ k.valid ∧ k.write.1 = name := by
  unfold Call.read at h
  split at h
  case h_39 => cases h
  all_goals first
    | (cases h; exact ⟨rfl, trivial, rfl⟩)
    | (obtain ⟨a, ha, rfl⟩ := argsOf_ok h
       first
         | exact ⟨rfl, trivial, rfl⟩
         | exact ⟨rfl, ha, rfl⟩
         | exact ⟨decide_eq_true ha, trivial, rfl⟩
         | exact ⟨decide_eq_true ha.1, trivial, rfl⟩
         | exact ⟨decide_eq_true ha.2, trivial, rfl⟩
         | exact ⟨decide_eq_true ha.2.1, trivial, rfl⟩
         | exact ⟨decide_eq_true ⟨ha.1, ha.2.1⟩, trivial, rfl⟩
         | exact ⟨List.all_eq_true.2 fun x hx => decide_eq_true (ha x hx), trivial, rfl⟩
         | exact ⟨List.all_eq_true.2 fun x hx => decide_eq_true (ha.2 x hx), trivial, rfl⟩
         | exact ⟨List.all_eq_true.2 fun x hx => decide_eq_true (ha.2.1 x hx), trivial, rfl⟩
         | exact ⟨Bool.and_eq_true_iff.2 ⟨List.all_eq_true.2 fun x hx => decide_eq_true (ha.1 x hx), decide_eq_true ha.2⟩,
             trivial, rfl⟩
         | exact ⟨decide_eq_true ha.2.1, ⟨ha.1, congrArg utf8 (textOf_utf8 a.2.2)⟩, rfl⟩
         | exact ⟨decide_eq_true ⟨ha.2.2.1, ha.2.2.2.1, ha.2.2.2.2.1, ha.2.2.2.2.2.1, ha.2.2.2.2.2.2.1,
             ha.2.2.2.2.2.2.2.2.2.1⟩, ⟨ha.1, ha.2.1, ha.2.2.2.2.2.2.2.1, ha.2.2.2.2.2.2.2.2.1⟩, rfl⟩)

end Verif.MetaVote
