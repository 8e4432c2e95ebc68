import Verif.Serde.Types
import Verif.Mpip.Step

/-!
# The methods of the mpip contract by name and JSON input

The code that `#[near_bindgen]` generates for every public method, up to the call of the method: the input is read as JSON
into the arguments.
-/

namespace Verif.Mpip

open Verif Storage Serde

/-- Names of the variants, `vote.rs:9-13`. -/
def VoteType.name : VoteType → String
  | .against => "Against"
  | .for_ => "For"
  | .abstain => "Abstain"

/-- `VoteType`, `vote.rs:7-13`. -/
def voteType : Ty VoteType := enum VoteType.name [.against, .for_, .abstain] (by intro a; cases a <;> decide)

/-! ## Arguments of the methods -/

namespace Args

/-- `lib.rs:66-75` -/
def new_ : Fields (String × String × String × String × Nat × Nat × Nat × Nat) :=
  Fields.one "admin_id" account ⊗ Fields.one "operator_id" account ⊗ Fields.one "meta_token_contract_address" account ⊗
    Fields.one "meta_vote_contract_address" account ⊗ Fields.one "voting_period" u64s ⊗
    Fields.one "min_voting_power_amount" u128 ⊗ Fields.one "mpip_storage_near" u128 ⊗ Fields.one "quorum_floor" u16

/-- `lib.rs:108` -/
def update_open_for_new_mpips : Fields (Bool) := Fields.one "new_value" bool

/-- `lib.rs:114` -/
def update_operator_role : Fields (String) := Fields.one "new_value" account

/-- `lib.rs:120` -/
def update_admin_role : Fields (String) := Fields.one "new_value" account

/-- `lib.rs:125` -/
def pay_to_account : Fields (Nat × String) := Fields.one "amount" u128 ⊗ Fields.one "to" account

/-- `lib.rs:135` -/
def update_voting_period : Fields (Nat) := Fields.one "new_value" u64s

/-- `lib.rs:148` -/
def update_min_meta_amount : Fields (Nat) := Fields.one "new_value" u128

/-- `lib.rs:154` -/
def update_min_voting_power_amount : Fields (Nat) := Fields.one "new_value" u128

/-- `lib.rs:160` -/
def update_mpip_storage_near : Fields (Nat) := Fields.one "new_value" u128

/-- `lib.rs:166` -/
def update_quorum_floor : Fields (Nat) := Fields.one "new_value" u16

/-- `lib.rs:177` -/
def start_voting_period : Fields (Nat) := Fields.one "mpip_id" u32

/-- `lib.rs:192` -/
def start_voting_period_callback : Fields (Nat) := Fields.one "mpip_id" u32

/-- `lib.rs:208-215` -/
def create_proposal : Fields (String × String × String × String × String) :=
  Fields.one "title" str ⊗ Fields.one "short_description" str ⊗ Fields.one "body" str ⊗ Fields.one "data" str ⊗
    Fields.one "extra" str

/-- `lib.rs:230-237` -/
def create_proposal_callback : Fields (String × String × String × String × String) :=
  Fields.one "title" str ⊗ Fields.one "short_description" str ⊗ Fields.one "body" str ⊗ Fields.one "data" str ⊗
    Fields.one "extra" str

/-- `lib.rs:245` -/
def cancel_proposal : Fields (Nat) := Fields.one "mpip_id" u32

/-- `lib.rs:253-261` -/
def update_proposal : Fields (Nat × String × String × String × String × String) :=
  Fields.one "mpip_id" u32 ⊗ Fields.one "title" str ⊗ Fields.one "short_description" str ⊗ Fields.one "body" str ⊗
    Fields.one "data" str ⊗ Fields.one "extra" str

/-- `lib.rs:273` -/
def update_meta_vote_contract_address : Fields (String) := Fields.one "new_meta_vote_contract_address" account

/-- `lib.rs:372-377` -/
def vote_proposal : Fields (Nat × VoteType × String) :=
  Fields.one "mpip_id" u32 ⊗ Fields.one "vote" voteType ⊗ Fields.one "memo" str

/-- `lib.rs:397-403` -/
def vote_proposal_callback : Fields (Nat × String × VoteType × String) :=
  Fields.one "mpip_id" u32 ⊗ Fields.one "voter_id" account ⊗ Fields.one "vote_type" voteType ⊗ Fields.one "memo" str

/-- `lib.rs:439` -/
def remove_vote_proposal : Fields (Nat) := Fields.one "mpip_id" u32

/-- `lib.rs:493` -/
def process_voting_status : Fields (Nat) := Fields.one "mpip_id" u32

end Args

/-- What the types of the arguments ask for beside the ranges of the integers: account ids are valid, text is UTF-8. -/
def Call.valid : Call → Prop
  | .new_ a b c d _ _ _ _ => validAccount a = true ∧ validAccount b = true ∧ validAccount c = true ∧ validAccount d = true
  | .update_operator_role a => validAccount a = true
  | .update_admin_role a => validAccount a = true
  | .pay_to_account _ b => validAccount b = true
  | .update_meta_vote_contract_address a => validAccount a = true
  | .vote_proposal_callback _ b _ _ => validAccount b = true
  | _ => True

/-- Name and input with which a call is made. -/
def Call.write : Call → String × Bytes
  | .new_ a b c d e f g h => ("new", argsTo Args.new_ (a, b, c, d, e, f, g, h))
  | .update_open_for_new_mpips a => ("update_open_for_new_mpips", argsTo Args.update_open_for_new_mpips a)
  | .update_operator_role a => ("update_operator_role", argsTo Args.update_operator_role a)
  | .update_admin_role a => ("update_admin_role", argsTo Args.update_admin_role a)
  | .pay_to_account a b => ("pay_to_account", argsTo Args.pay_to_account (a, b))
  | .update_voting_period a => ("update_voting_period", argsTo Args.update_voting_period a)
  | .update_min_meta_amount a => ("update_min_meta_amount", argsTo Args.update_min_meta_amount a)
  | .update_min_voting_power_amount a => ("update_min_voting_power_amount", argsTo Args.update_min_voting_power_amount a)
  | .update_mpip_storage_near a => ("update_mpip_storage_near", argsTo Args.update_mpip_storage_near a)
  | .update_quorum_floor a => ("update_quorum_floor", argsTo Args.update_quorum_floor a)
  | .start_voting_period a => ("start_voting_period", argsTo Args.start_voting_period a)
  | .start_voting_period_callback a => ("start_voting_period_callback", argsTo Args.start_voting_period_callback a)
  | .create_proposal x => ("create_proposal", argsTo Args.create_proposal (x.title, x.short_description, x.body, x.data, x.extra))
  | .create_proposal_callback x =>
    ("create_proposal_callback", argsTo Args.create_proposal_callback (x.title, x.short_description, x.body, x.data, x.extra))
  | .cancel_proposal a => ("cancel_proposal", argsTo Args.cancel_proposal a)
  | .update_proposal a x =>
    ("update_proposal", argsTo Args.update_proposal (a, x.title, x.short_description, x.body, x.data, x.extra))
  | .update_meta_vote_contract_address a => ("update_meta_vote_contract_address", argsTo Args.update_meta_vote_contract_address a)
  | .vote_proposal a b c => ("vote_proposal", argsTo Args.vote_proposal (a, b, c))
  | .vote_proposal_callback a b c d => ("vote_proposal_callback", argsTo Args.vote_proposal_callback (a, b, c, d))
  | .remove_vote_proposal a => ("remove_vote_proposal", argsTo Args.remove_vote_proposal a)
  | .process_voting_status a => ("process_voting_status", argsTo Args.process_voting_status a)

/-- The call that a method name and an input stand for; `none`: no such method, or the input is refused. -/
def Call.read (name : String) (b : Bytes) : Option Call :=
  match name with
  | "new" => argsOf Args.new_ (fun (a, b, c, d, e, f, g, h) => .new_ a b c d e f g h) b
  | "update_open_for_new_mpips" => argsOf Args.update_open_for_new_mpips (.update_open_for_new_mpips) b
  | "update_operator_role" => argsOf Args.update_operator_role (.update_operator_role) b
  | "update_admin_role" => argsOf Args.update_admin_role (.update_admin_role) b
  | "pay_to_account" => argsOf Args.pay_to_account (fun (a, b) => .pay_to_account a b) b
  | "update_voting_period" => argsOf Args.update_voting_period (.update_voting_period) b
  | "update_min_meta_amount" => argsOf Args.update_min_meta_amount (.update_min_meta_amount) b
  | "update_min_voting_power_amount" => argsOf Args.update_min_voting_power_amount (.update_min_voting_power_amount) b
  | "update_mpip_storage_near" => argsOf Args.update_mpip_storage_near (.update_mpip_storage_near) b
  | "update_quorum_floor" => argsOf Args.update_quorum_floor (.update_quorum_floor) b
  | "start_voting_period" => argsOf Args.start_voting_period (.start_voting_period) b
  | "start_voting_period_callback" => argsOf Args.start_voting_period_callback (.start_voting_period_callback) b
  | "create_proposal" => argsOf Args.create_proposal (fun (p, q, r, s, t) => .create_proposal ⟨p, q, r, s, t⟩) b
  | "create_proposal_callback" =>
    argsOf Args.create_proposal_callback (fun (p, q, r, s, t) => .create_proposal_callback ⟨p, q, r, s, t⟩) b
  | "cancel_proposal" => argsOf Args.cancel_proposal (.cancel_proposal) b
  | "update_proposal" => argsOf Args.update_proposal (fun (a, p, q, r, s, t) => .update_proposal a ⟨p, q, r, s, t⟩) b
  | "update_meta_vote_contract_address" => argsOf Args.update_meta_vote_contract_address (.update_meta_vote_contract_address) b
  | "vote_proposal" => argsOf Args.vote_proposal (fun (a, b, c) => .vote_proposal a b c) b
  | "vote_proposal_callback" => argsOf Args.vote_proposal_callback (fun (a, b, c, d) => .vote_proposal_callback a b c d) b
  | "remove_vote_proposal" => argsOf Args.remove_vote_proposal (.remove_vote_proposal) b
  | "process_voting_status" => argsOf Args.process_voting_status (.process_voting_status) b
  | _ => none

theorem Call.read_write {k : Call} (hr : k.in_range = true) (hv : k.valid) : Call.read k.write.1 k.write.2 = some k := by
  cases k
  all_goals
    simp only [Call.write, Call.read]
    refine argsOf_argsTo ?_ (by decide)
    simp only [Call.valid, Call.in_range, decide_eq_true_eq] at hv hr
    first
      | trivial
      | exact hr
      | exact hv
      | exact ⟨hr, hv⟩
      | exact ⟨hr, trivial, trivial⟩
      | exact ⟨hr, hv, trivial, trivial⟩
      | exact ⟨trivial, trivial, trivial, trivial, trivial⟩
      | exact ⟨hr, trivial, trivial, trivial, trivial, trivial⟩
      | exact ⟨hv.1, hv.2.1, hv.2.2.1, hv.2.2.2, hr⟩

/-- What is read is a call of that method with arguments of the right types. -/
theorem Call.read_ok {name : String} {b : Bytes} {k : Call} (h : Call.read name b = some k) :
    k.in_range = true ∧ k.valid ∧ k.write.1 = name := by
  unfold Call.read at h
  split at h
  case h_22 => cases h
  all_goals
    obtain ⟨a, ha, rfl⟩ := argsOf_ok h
    first
      | exact ⟨rfl, trivial, rfl⟩
      | exact ⟨rfl, ha, rfl⟩
      | exact ⟨decide_eq_true ha, trivial, rfl⟩
      | exact ⟨decide_eq_true ha.1, trivial, rfl⟩
      | exact ⟨decide_eq_true ha.1, ha.2, rfl⟩
      | exact ⟨decide_eq_true ha.1, ha.2.1, rfl⟩
      | exact ⟨decide_eq_true ha.2.2.2.2, ⟨ha.1, ha.2.1, ha.2.2.1, ha.2.2.2.1⟩, rfl⟩

end Verif.Mpip
