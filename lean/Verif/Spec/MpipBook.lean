import Verif.Spec.MpipReplay

/-!
# The books of the mpip contract

Everything the contract keeps, as plain functions without an order of entries, and what each accepted call does to
them.  Nothing here is used by the model.
-/

namespace Verif.Mpip

open Verif

/-- The books. -/
structure MBook where
  settings : Settings
  /-- number of proposals -/
  count : Nat
  proposal : Nat → Option Proposal
  /-- counted power for each answer -/
  tally : Nat → VoteType → Nat
  /-- the standing vote of an account on a proposal -/
  vote : Nat → AccountId → Option Vote

/-- The books of a state. -/
def State.mbook (s : State) : MBook :=
  ⟨s.settings, s.proposals.len, fun i => s.proposals.get i, fun i t => (s.get_proposal_votes i).tally t,
    fun i v => ((s.voters.get v).map (·.votes)).bind (·.get i)⟩

namespace MBook

variable (b : MBook)

/-- One proposal is changed. -/
def edit (i : Nat) (f : Proposal → Proposal) : MBook :=
  { b with proposal := fun j => if j = i then (b.proposal i).map f else b.proposal j }

/-- The positions and the total that the answer to this callback reports. -/
def reply (c : Ctx) : Reply := c.results.headD .failed

/-- The total that the answer reports. -/
def total (J : Json) (c : Ctx) : Nat := match reply c with
  | .successful x => (J.read_total x).getD 0
  | .failed => 0

/-- A proposal is added with the next id; ids are `u32` values. -/
def create (t : Content) (creator : AccountId) : MBook :=
  let id := b.count % 2 ^ 32
  { b with
    count := if (b.proposal id).isSome then b.count else b.count + 1
    proposal := fun j => if j = id then some ⟨id, t, creator, none, none, true, false, false, none⟩ else b.proposal j }

/-- A vote is counted. -/
def count_vote (i : Nat) (v : AccountId) (x : Vote) : MBook :=
  { b with
    tally := fun j t => if j = i ∧ t = x.vote_type then b.tally i t + x.voting_power else b.tally j t
    vote := fun j u => if j = i ∧ u = v then some x else b.vote j u }

/-- A vote is taken back. -/
def remove_vote (i : Nat) (v : AccountId) : MBook := match b.vote i v with
  | some x => { b with
    tally := fun j t => if j = i ∧ t = x.vote_type then b.tally i t - x.voting_power else b.tally j t
    vote := fun j u => if j = i ∧ u = v then none else b.vote j u }
  | none => b

/-- The books after an accepted call. -/
def after (J : Json) (c : Ctx) (k : Call) : MBook := match k with
  | .start_voting_period_callback i => b.edit i fun p => { p with
      vote_start_timestamp := some c.now
      vote_end_timestamp := some (c.now + b.settings.period)
      draft := false
      v_power_quorum_to_reach := some (total J c * b.settings.floor / 10000) }
  | .create_proposal_callback t => b.create t c.signer
  | .cancel_proposal i => b.edit i fun p => { p with canceled := true }
  | .update_proposal i t => b.edit i fun p => { p with content := t }
  | .vote_proposal_callback i v t m => b.count_vote i v ⟨i, t, replyPower J (reply c), m⟩
  | .remove_vote_proposal i => b.remove_vote i c.predecessor
  | .process_voting_status i => b.edit i fun p =>
      if executes p (b.tally i .for_) (b.tally i .abstain) c.now then { p with executed := true } else p
  | k => { b with settings := settingsAfter b.settings k }

/-- The books of a fresh contract. -/
def fresh (x : Settings) : MBook := ⟨x, 0, fun _ => none, fun _ _ => 0, fun _ _ => none⟩

/-- The books after a history (newest first). -/
def replay (J : Json) (me : AccountId) (b : MBook) : List Entry → MBook
  | [] => b
  | .call c k _ :: l => (replay J me b l).after J c k
  | .replied p ts r accepted :: l =>
    if accepted then (replay J me b l).after J (replyCtx me p ts r) p.callback else replay J me b l

end MBook

end Verif.Mpip
