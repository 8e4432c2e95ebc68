import Verif.Mpip.Views

/-!
# Specification of the mpip contract

What users count on, in terms of views, accepted calls and replies.  Nothing here is used by the model.
-/

namespace Verif.Mpip

open Verif

/-! ## Power -/

/-- Sum of the voting power of the positions reported as locked. -/
def lockedSum (l : List MetaVote.LockingPositionJSON) : Nat :=
  (l.map (fun p => if p.is_locked then p.voting_power else 0)).sum

/-- The voting power a reply of meta-vote stands for: the positions it reports as locked. -/
def replyPower (J : Json) (r : Reply) : Nat :=
  match r with
  | .failed => 0
  | .successful b => match J.read_positions b with
    | some l => lockedSum l
    | none => 0

/-! ## Votes, replayed from the log of accepted calls and replies (newest first) -/

/-- The standing vote of `v` on proposal `i`: the last counted one, unless removed since. -/
def recordOf (J : Json) : List Entry → Nat → AccountId → Option Vote
  | [], _, _ => none
  | .call c (.remove_vote_proposal j) _ :: l, i, v =>
    if j = i ∧ c.predecessor = v then none else recordOf J l i v
  | .replied ⟨_, _, .vote_proposal_callback j a t m, _⟩ _ r true :: l, i, v =>
    if j = i ∧ a = v then some ⟨i, t, replyPower J r, m⟩ else recordOf J l i v
  | _ :: l, i, v => recordOf J l i v

/-- Power added to the tally of type `t` of proposal `i` by the votes of the accounts `who`. -/
def credited (J : Json) (who : AccountId → Bool) : List Entry → Nat → VoteType → Nat
  | [], _, _ => 0
  | .replied ⟨_, _, .vote_proposal_callback j a t' _, _⟩ _ r true :: l, i, t =>
    (if j = i ∧ who a ∧ t' = t then replyPower J r else 0) + credited J who l i t
  | _ :: l, i, t => credited J who l i t

/-- Power taken from the tally of type `t` of proposal `i` by removals of the accounts `who`: each removal
takes back the standing vote. -/
def debited (J : Json) (who : AccountId → Bool) : List Entry → Nat → VoteType → Nat
  | [], _, _ => 0
  | .call c (.remove_vote_proposal j) _ :: l, i, t =>
    (match recordOf J l i c.predecessor with
      | some x => if j = i ∧ who c.predecessor ∧ x.vote_type = t then x.voting_power else 0
      | none => 0) + debited J who l i t
  | _ :: l, i, t => debited J who l i t

/-- Tally of one type. -/
def ProposalVoteJson.tally (pv : ProposalVoteJson) : VoteType → Nat
  | .for_ => pv.for_votes
  | .against => pv.against_votes
  | .abstain => pv.abstain_votes

/-- Tally of one type. -/
def ProposalVote.tally (pv : ProposalVote) : VoteType → Nat
  | .for_ => pv.for_votes
  | .against => pv.against_votes
  | .abstain => pv.abstain_votes

/-- Sum of the listed votes of one type. -/
def listed (l : List (AccountId × Vote)) (t : VoteType) : Nat :=
  (l.map (fun x => if x.2.vote_type = t then x.2.voting_power else 0)).sum

/-! ## Windows -/

/-- Neither started before `now`, nor canceled, nor executed: may be edited, canceled or started. -/
def Editable (p : Proposal) (now : Nat) : Prop :=
  (∀ t, p.vote_start_timestamp = some t → now ≤ t) ∧ p.canceled = false ∧ p.executed = false

/-- In its voting window. -/
def OnVoting (p : Proposal) (now : Nat) : Prop :=
  ∃ t e, p.vote_start_timestamp = some t ∧ p.vote_end_timestamp = some e ∧ t ≤ now ∧ now ≤ e ∧
    p.draft = false ∧ p.canceled = false ∧ p.executed = false

/-- The documented states of a proposal. -/
def stateOf (p : Proposal) (votes : ProposalVoteJson) (now : Nat) : MpipState :=
  if p.executed then .executed
  else if p.canceled then .canceled
  else if p.draft then .draft
  else
    let start := p.vote_start_timestamp.getD 0
    let stop := p.vote_end_timestamp.getD 0
    if start ≤ now ∧ now ≤ stop then .votingProcess
    else if now ≤ start then .active
    else if p.v_power_quorum_to_reach.getD 0 ≤ votes.for_votes + votes.abstain_votes ∧
      votes.against_votes < votes.for_votes then .accepted
    else .rejected

/-! ## Guards -/

/-- Nobody votes on a proposal while an earlier vote of theirs on it is in flight. -/
def NoOverlap (w : World) (c : Ctx) (k : Call) : Prop :=
  ∀ i t m, k = .vote_proposal i t m →
    ∀ p ∈ w.pending, ∀ t' m', p.callback ≠ .vote_proposal_callback i c.predecessor t' m'

/-- The voting of a proposal is started at most once: not while a start is in flight, nor in the very
millisecond in which it started. -/
def StartOnce (w : World) (_ : Ctx) (k : Call) : Prop :=
  ∀ i, k = .start_voting_period i →
    (∀ p ∈ w.pending, p.callback ≠ .start_voting_period_callback i) ∧
    ∀ q, w.st.get_proposal i = .ok q → q.vote_start_timestamp = none

/-- Worlds reachable with calls that satisfy `G`. -/
inductive ReachG (J : Json) (me : AccountId) (G : World → Ctx → Call → Prop) : World → Prop
  | init {w : World} (h : Init w) : ReachG J me G w
  | step {w w' : World} (h : ReachG J me G w) (hs : Step J me w w')
      (hg : ∀ c k out, w'.log = .call c k out :: w.log → G w c k) : ReachG J me G w'

theorem ReachG.reach {J : Json} {me : AccountId} {G : World → Ctx → Call → Prop} {w : World}
    (h : ReachG J me G w) : Reach J me w := by
  induction h with
  | init h => exact .init h
  | step _ hs _ ih => exact .step ih hs

end Verif.Mpip
