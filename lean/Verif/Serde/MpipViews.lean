import Verif.Serde.Views
import Verif.Serde.MpipApi
import Verif.Mpip.Views

/-!
# The views of mpip by name and JSON input, with their JSON answers
-/

namespace Verif.Mpip

open Verif Storage Serde

/-- Names of the variants, `mpip.rs:11-19`. -/
def MpipState.name : MpipState → String
  | .draft => "Draft"
  | .active => "Active"
  | .votingProcess => "VotingProcess"
  | .accepted => "Accepted"
  | .rejected => "Rejected"
  | .executed => "Executed"
  | .canceled => "Canceled"

/-- `MpipState`, `mpip.rs:9-19`. -/
def mpipState : Ty MpipState := enum MpipState.name
  [.draft, .active, .votingProcess, .accepted, .rejected, .executed, .canceled] (by intro a; cases a <;> decide)

/-- `VoteJson`, `vote.rs:15-24`, `51-60`: the vote with the id of its voter.  `AccountId` is written as its text; for reading
back a client needs no more than a string. -/
def voteTy : Ty (String × Vote) := struct
  ((Fields.one "mpip_id" u32 ⊗ Fields.one "voter_id" str ⊗ Fields.one "vote_type" voteType ⊗ Fields.one "voting_power" u128 ⊗
    Fields.one "memo" str).iso (fun (a, b, c, d, e) => (b, ⟨a, c, d, e⟩))
    (fun p => (p.2.mpip_id, p.1, p.2.vote_type, p.2.voting_power, p.2.memo)) (fun _ => rfl) (fun _ => rfl))

/-- `VoterJson`, `voter.rs:11-15`. -/
def voterTy : Ty (List (String × Vote)) := struct (Fields.one "votes" (list voteTy))

/-- `ProposalVoteJson`, `vote_counting.rs:9-16`. -/
def proposalVoteTy : Ty ProposalVoteJson := struct
  ((Fields.one "for_votes" u128 ⊗ Fields.one "against_votes" u128 ⊗ Fields.one "abstain_votes" u128 ⊗
    Fields.one "has_voted" (list voteTy)).iso (fun (a, b, c, d) => ⟨a, b, c, d⟩)
    (fun p => (p.for_votes, p.against_votes, p.abstain_votes, p.has_voted)) (fun _ => rfl) (fun _ => rfl))

/-- `MpipJSON`, `mpip.rs:21-38`, `86-108`. -/
def proposalTy : Ty Proposal := struct
  ((Fields.one "mpip_id" u32 ⊗ Fields.one "title" str ⊗ Fields.one "short_description" str ⊗ Fields.one "body" str ⊗
    Fields.one "data" str ⊗ Fields.one "extra" str ⊗ Fields.one "creator_id" str ⊗
    Fields.opt "vote_start_timestamp" u64 uint_ne_null ⊗ Fields.opt "vote_end_timestamp" u64 uint_ne_null ⊗
    Fields.one "draft" Serde.bool ⊗ Fields.one "executed" Serde.bool ⊗ Fields.one "canceled" Serde.bool ⊗
    Fields.opt "v_power_quorum_to_reach" u128 ustr_ne_null).iso
    (fun (a, b, c, d, e, f, g, h, i, j, k, l, m) => ⟨a, ⟨b, c, d, e, f⟩, g, h, i, j, k, l, m⟩)
    (fun p => (p.mpip_id, p.content.title, p.content.short_description, p.content.body, p.content.data, p.content.extra,
      p.creator_id, p.vote_start_timestamp, p.vote_end_timestamp, p.draft, p.executed, p.canceled, p.v_power_quorum_to_reach))
    (fun _ => rfl) (fun _ => rfl))

/-- The views (file and line of each in `View.read`). -/
inductive View where
  | get_my_proposals (proposer_id : String)
  | check_proposal_threshold (voting_power : Nat)
  | get_mpip_storage_near
  | get_proposal_votes (mpip_id : Nat)
  | get_quorum_reached (mpip_id : Nat)
  | get_proposal_vote_succeeded (mpip_id : Nat)
  | get_proposal_state (mpip_id : Nat)
  | get_proposal (mpip_id : Nat)
  | get_proposals (from_index : Nat) (limit : Nat)
  | get_user_proposals_ids (proposer_id : String)
  | get_last_proposal_id
  | get_quorum_floor
  | get_proposal_threshold
  | get_total_voters
  | get_proposal_is_active_or_draft (mpip_id : Nat)
  | has_voted (voter_id : String) (mpip_id : Nat)
  | get_my_vote (voter_id : String) (mpip_id : Nat)
  | get_voter (voter_id : String)

namespace View

/-- The type of the answer. -/
def Out : View → Type
  | .get_my_proposals _ => List Nat
  | .check_proposal_threshold _ => Bool
  | .get_mpip_storage_near => Nat
  | .get_proposal_votes _ => ProposalVoteJson
  | .get_quorum_reached _ => Bool
  | .get_proposal_vote_succeeded _ => Bool
  | .get_proposal_state _ => MpipState
  | .get_proposal _ => Proposal
  | .get_proposals _ _ => Option (List Proposal)
  | .get_user_proposals_ids _ => List Nat
  | .get_last_proposal_id => Option Nat
  | .get_quorum_floor => Nat
  | .get_proposal_threshold => Nat
  | .get_total_voters => Nat
  | .get_proposal_is_active_or_draft _ => Bool
  | .has_voted _ _ => Bool
  | .get_my_vote _ _ => Option (String × Vote)
  | .get_voter _ => List (String × Vote)

/-- How the answer is written. -/
def ty : (v : View) → Ty v.Out
  | .get_my_proposals _ => list u32
  | .check_proposal_threshold _ => Serde.bool
  | .get_mpip_storage_near => u128
  | .get_proposal_votes _ => proposalVoteTy
  | .get_quorum_reached _ => Serde.bool
  | .get_proposal_vote_succeeded _ => Serde.bool
  | .get_proposal_state _ => mpipState
  | .get_proposal _ => proposalTy
  | .get_proposals _ _ => opt (list proposalTy) list_ne_null
  | .get_user_proposals_ids _ => list u32
  | .get_last_proposal_id => opt u32 uint_ne_null
  | .get_quorum_floor => u16
  | .get_proposal_threshold => u128
  | .get_total_voters => u64s
  | .get_proposal_is_active_or_draft _ => Serde.bool
  | .has_voted _ _ => Serde.bool
  | .get_my_vote _ _ => opt voteTy struct_ne_null
  | .get_voter _ => voterTy

/-- Arguments of the types of the method. -/
def valid : View → Prop
  | .get_my_proposals proposer_id => validAccount proposer_id = true
  | .check_proposal_threshold voting_power => voting_power ≤ U128_MAX
  | .get_proposal_votes mpip_id => mpip_id ≤ U32_MAX
  | .get_quorum_reached mpip_id => mpip_id ≤ U32_MAX
  | .get_proposal_vote_succeeded mpip_id => mpip_id ≤ U32_MAX
  | .get_proposal_state mpip_id => mpip_id ≤ U32_MAX
  | .get_proposal mpip_id => mpip_id ≤ U32_MAX
  | .get_proposals from_index limit => from_index ≤ U32_MAX ∧ limit ≤ U32_MAX
  | .get_user_proposals_ids proposer_id => validAccount proposer_id = true
  | .get_proposal_is_active_or_draft mpip_id => mpip_id ≤ U32_MAX
  | .has_voted voter_id mpip_id => validAccount voter_id = true ∧ mpip_id ≤ U32_MAX
  | .get_my_vote voter_id mpip_id => validAccount voter_id = true ∧ mpip_id ≤ U32_MAX
  | .get_voter voter_id => validAccount voter_id = true
  | _ => True

/-- Name and input as a client writes them. -/
def write : View → String × Bytes
  | .get_my_proposals proposer_id => ("get_my_proposals", argsTo (Fields.one "proposer_id" account) proposer_id)
  | .check_proposal_threshold voting_power => ("check_proposal_threshold", argsTo (Fields.one "voting_power" u128) voting_power)
  | .get_mpip_storage_near => ("get_mpip_storage_near", [])
  | .get_proposal_votes mpip_id => ("get_proposal_votes", argsTo (Fields.one "mpip_id" u32) mpip_id)
  | .get_quorum_reached mpip_id => ("get_quorum_reached", argsTo (Fields.one "mpip_id" u32) mpip_id)
  | .get_proposal_vote_succeeded mpip_id => ("get_proposal_vote_succeeded", argsTo (Fields.one "mpip_id" u32) mpip_id)
  | .get_proposal_state mpip_id => ("get_proposal_state", argsTo (Fields.one "mpip_id" u32) mpip_id)
  | .get_proposal mpip_id => ("get_proposal", argsTo (Fields.one "mpip_id" u32) mpip_id)
  | .get_proposals from_index limit => ("get_proposals", argsTo (Fields.one "from_index" u32 ⊗ Fields.one "limit" u32) (from_index, limit))
  | .get_user_proposals_ids proposer_id => ("get_user_proposals_ids", argsTo (Fields.one "proposer_id" account) proposer_id)
  | .get_last_proposal_id => ("get_last_proposal_id", [])
  | .get_quorum_floor => ("get_quorum_floor", [])
  | .get_proposal_threshold => ("get_proposal_threshold", [])
  | .get_total_voters => ("get_total_voters", [])
  | .get_proposal_is_active_or_draft mpip_id => ("get_proposal_is_active_or_draft", argsTo (Fields.one "mpip_id" u32) mpip_id)
  | .has_voted voter_id mpip_id => ("has_voted", argsTo (Fields.one "voter_id" account ⊗ Fields.one "mpip_id" u32) (voter_id, mpip_id))
  | .get_my_vote voter_id mpip_id => ("get_my_vote", argsTo (Fields.one "voter_id" account ⊗ Fields.one "mpip_id" u32) (voter_id, mpip_id))
  | .get_voter voter_id => ("get_voter", argsTo (Fields.one "voter_id" account) voter_id)

/-- The view called and its arguments.  A view without arguments does not look at the input. -/
def read (name : String) (b : Bytes) : Option View :=
  match name with
  | "get_my_proposals" => -- `lib.rs:278`
    argsOf (Fields.one "proposer_id" account) (fun proposer_id => .get_my_proposals proposer_id) b
  | "check_proposal_threshold" => -- `lib.rs:288`
    argsOf (Fields.one "voting_power" u128) (fun voting_power => .check_proposal_threshold voting_power) b
  | "get_mpip_storage_near" => some .get_mpip_storage_near -- `lib.rs:292`
  | "get_proposal_votes" => -- `lib.rs:296`
    argsOf (Fields.one "mpip_id" u32) (fun mpip_id => .get_proposal_votes mpip_id) b
  | "get_quorum_reached" => -- `lib.rs:301`
    argsOf (Fields.one "mpip_id" u32) (fun mpip_id => .get_quorum_reached mpip_id) b
  | "get_proposal_vote_succeeded" => -- `lib.rs:307`
    argsOf (Fields.one "mpip_id" u32) (fun mpip_id => .get_proposal_vote_succeeded mpip_id) b
  | "get_proposal_state" => -- `lib.rs:312`
    argsOf (Fields.one "mpip_id" u32) (fun mpip_id => .get_proposal_state mpip_id) b
  | "get_proposal" => -- `lib.rs:316`
    argsOf (Fields.one "mpip_id" u32) (fun mpip_id => .get_proposal mpip_id) b
  | "get_proposals" => -- `lib.rs:321`
    argsOf (Fields.one "from_index" u32 ⊗ Fields.one "limit" u32) (fun (from_index, limit) => .get_proposals from_index limit) b
  | "get_user_proposals_ids" => -- `lib.rs:340`
    argsOf (Fields.one "proposer_id" account) (fun proposer_id => .get_user_proposals_ids proposer_id) b
  | "get_last_proposal_id" => some .get_last_proposal_id -- `lib.rs:344`
  | "get_quorum_floor" => some .get_quorum_floor -- `lib.rs:352`
  | "get_proposal_threshold" => some .get_proposal_threshold -- `lib.rs:356`
  | "get_total_voters" => some .get_total_voters -- `lib.rs:360`
  | "get_proposal_is_active_or_draft" => -- `lib.rs:364`
    argsOf (Fields.one "mpip_id" u32) (fun mpip_id => .get_proposal_is_active_or_draft mpip_id) b
  | "has_voted" => -- `lib.rs:469`
    argsOf (Fields.one "voter_id" account ⊗ Fields.one "mpip_id" u32) (fun (voter_id, mpip_id) => .has_voted voter_id mpip_id) b
  | "get_my_vote" => -- `lib.rs:473`
    argsOf (Fields.one "voter_id" account ⊗ Fields.one "mpip_id" u32) (fun (voter_id, mpip_id) => .get_my_vote voter_id mpip_id) b
  | "get_voter" => -- `lib.rs:484`
    argsOf (Fields.one "voter_id" account) (fun voter_id => .get_voter voter_id) b
  | _ => none

end View

/-- The answer of a view. -/
def State.view (s : State) (c : Ctx) : (v : View) → Res v.Out
  | .get_my_proposals proposer_id => pure (s.get_my_proposals proposer_id)
  | .check_proposal_threshold voting_power => pure (s.check_proposal_threshold voting_power)
  | .get_mpip_storage_near => pure s.get_mpip_storage_near
  | .get_proposal_votes mpip_id => pure (s.get_proposal_votes mpip_id)
  | .get_quorum_reached mpip_id => s.get_quorum_reached c mpip_id
  | .get_proposal_vote_succeeded mpip_id => pure (s.get_proposal_vote_succeeded mpip_id)
  | .get_proposal_state mpip_id => s.get_proposal_state c.now mpip_id
  | .get_proposal mpip_id => s.get_proposal mpip_id
  | .get_proposals from_index limit => s.get_proposals from_index limit
  | .get_user_proposals_ids proposer_id => pure (s.get_user_proposals_ids proposer_id)
  | .get_last_proposal_id => s.get_last_proposal_id
  | .get_quorum_floor => pure s.get_quorum_floor
  | .get_proposal_threshold => pure s.get_proposal_threshold
  | .get_total_voters => pure s.get_total_voters
  | .get_proposal_is_active_or_draft mpip_id => s.get_proposal_is_active_or_draft c.now mpip_id
  | .has_voted voter_id mpip_id => pure (s.has_voted voter_id mpip_id)
  | .get_my_vote voter_id mpip_id => do let r ← s.get_my_vote voter_id mpip_id; pure (r.map fun x => (voter_id, x))
  | .get_voter voter_id => pure ((s.get_voter voter_id).map fun x => (voter_id, x))

/-- A view by name and input: the answer as `#[near_bindgen]` returns it (`serde_json::to_vec` of the result). -/
def viewAll (s : State) (c : Ctx) (name : String) (b : Bytes) : Res Bytes := do
  let v ← expect (View.read name b) "Failed to deserialize input from JSON."
  let r ← s.view c v
  pure (v.ty.encode r)

theorem View.read_write {v : View} (h : v.valid) : View.read v.write.1 v.write.2 = some v := by
  cases v
  all_goals
    simp only [View.write, View.read]
    try (refine argsOf_argsTo ?_ (by decide); first
      | exact trivial
      | exact h)

theorem View.read_ok {name : String} {b : Bytes} {v : View} (h : View.read name b = some v) : v.valid ∧ v.write.1 = name := by
  unfold View.read at h
  split at h
  all_goals first
    | cases h; exact ⟨trivial, rfl⟩
    | cases h
    | obtain ⟨a, ha, rfl⟩ := argsOf_ok h
      first
        | exact ⟨trivial, rfl⟩
        | exact ⟨ha, rfl⟩

theorem View.depth (v : View) : v.ty.depth ≤ 127 := by
  cases v <;> exact Nat.le_of_ble_eq_true rfl

end Verif.Mpip
