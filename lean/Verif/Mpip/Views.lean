import Verif.Mpip.Step

/-!
# mpip contract: views

`now` is `get_current_epoch_millis()`.  The JSON wrappers of the stored records (`MpipJSON`, `VoteJson`,
`VoterJson`, `mpip.rs:86-107`, `vote.rs:51-60`, `voter.rs:25-34`) have the same fields as the records, so the
record (with the voter id where it is added) stands for them.
-/

namespace Verif.Mpip

open Verif

/-- `mpip.rs:11-19` -/
inductive MpipState where
  | draft
  | active
  | votingProcess
  | accepted
  | rejected
  | executed
  | canceled
  deriving DecidableEq, Repr

/-- `vote_counting.rs:11-16` -/
structure ProposalVoteJson where
  for_votes : Nat
  against_votes : Nat
  abstain_votes : Nat
  has_voted : List (AccountId × Vote)
  deriving DecidableEq, Repr

namespace State

/-- `lib.rs:278-280` -/
def get_my_proposals (s : State) (proposer_id : AccountId) : List Nat := s.internal_get_proposer proposer_id

/-- `lib.rs:288-290` -/
def check_proposal_threshold (s : State) (voting_power : Nat) : Bool :=
  s.internal_check_proposal_threshold voting_power

/-- `lib.rs:292-294` -/
def get_mpip_storage_near (s : State) : Nat := s.mpip_storage_near

/-- `lib.rs:296-299`, `vote_counting.rs:38-53` -/
def get_proposal_votes (s : State) (mpip_id : Nat) : ProposalVoteJson :=
  let pv := s.internal_get_proposal_vote mpip_id
  ⟨pv.for_votes, pv.against_votes, pv.abstain_votes, pv.has_voted.entries⟩

/-- `lib.rs:301-305` -/
def get_quorum_reached (s : State) (c : Ctx) (mpip_id : Nat) : Res Bool := do
  s.assert_only_operator c
  s.internal_is_quorum_reached mpip_id

/-- `lib.rs:307-310` -/
def get_proposal_vote_succeeded (s : State) (mpip_id : Nat) : Bool :=
  let pv := s.internal_get_proposal_vote mpip_id
  decide (pv.against_votes < pv.for_votes)

/-- `lib.rs:312-314`, `mpip.rs:131-157` -/
def get_proposal_state (s : State) (now mpip_id : Nat) : Res MpipState := do
  let proposal ← s.internal_get_proposal mpip_id
  if proposal.executed then pure .executed
  else if proposal.canceled then pure .canceled
  else if proposal.draft then pure .draft
  else do
    let v ← s.internal_proposal_is_on_voting now mpip_id
    if v then pure .votingProcess
    else do
      let a ← s.internal_proposal_is_active now mpip_id
      if a then pure .active
      else do
        let q ← s.internal_is_quorum_reached mpip_id
        if q && s.get_proposal_vote_succeeded mpip_id then pure .accepted else pure .rejected

/-- `lib.rs:316-319` -/
def get_proposal (s : State) (mpip_id : Nat) : Res Proposal := s.internal_get_proposal mpip_id

/-- `lib.rs:321-338`: `None` behind the end; `start + limit` are `u32` values added as `u64`. -/
def get_proposals (s : State) (from_index limit : Nat) : Res (Option (List Proposal)) :=
  if s.proposals.len ≤ from_index then pure none
  else do
    let l ← (List.range (min (from_index + limit) s.proposals.len - from_index)).mapM (fun i => do
      let k ← expect s.proposals.keys[from_index + i]? "called `Option::unwrap()` on a `None` value"
      expect (s.proposals.get k) "called `Option::unwrap()` on a `None` value")
    pure (some l)

/-- `lib.rs:340-342` -/
def get_user_proposals_ids (s : State) (proposer_id : AccountId) : List Nat := (s.proposers.get proposer_id).getD []

/-- `lib.rs:344-350`; `len() as u32` truncates and the subtraction is checked. -/
def get_last_proposal_id (s : State) : Res (Option Nat) :=
  if 0 < s.proposals.len then do
    let n ← subU (s.proposals.len % 4294967296) 1
    pure (some n)
  else pure none

/-- `lib.rs:352-354` -/
def get_quorum_floor (s : State) : Nat := s.quorum_floor

/-- `lib.rs:356-358` -/
def get_proposal_threshold (s : State) : Nat := s.min_voting_power_amount

/-- `lib.rs:360-362` -/
def get_total_voters (s : State) : Nat := s.voters.len

/-- `lib.rs:364-366` -/
def get_proposal_is_active_or_draft (s : State) (now mpip_id : Nat) : Res Bool :=
  s.internal_proposal_is_active_or_draft now mpip_id

/-- `lib.rs:469-471` -/
def has_voted (s : State) (voter_id : AccountId) (mpip_id : Nat) : Bool := s.internal_has_voted mpip_id voter_id

/-- `lib.rs:473-482` -/
def get_my_vote (s : State) (voter_id : AccountId) (mpip_id : Nat) : Res (Option Vote) :=
  if s.internal_has_voted mpip_id voter_id then do
    let v ← s.internal_get_voter_vote mpip_id voter_id
    pure (some v)
  else pure none

/-- `lib.rs:484-487`, `voter.rs:25-34` -/
def get_voter (s : State) (voter_id : AccountId) : List Vote := (s.internal_get_voter voter_id).votes.values

end State

end Verif.Mpip
