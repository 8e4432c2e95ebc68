import Verif.Mpip.Effects

/-!
# mpip contract: invariant of the vote records
-/

namespace Verif.Mpip

open Verif

variable {J : Json} {s s' : State} {c : Ctx} {k : Call} {out : List Promise} {me : AccountId}

/-- The record on the proposal's side. -/
def State.slot (s : State) (i : Nat) (v : AccountId) : Option Vote := (s.internal_get_proposal_vote i).has_voted.get v

/-- Tally of a proposal. -/
def State.tally (s : State) (i : Nat) (t : VoteType) : Nat := (s.internal_get_proposal_vote i).tally t

/-- Sum of the recorded votes of one type. -/
def State.recorded (s : State) (i : Nat) (t : VoteType) : Nat :=
  (s.internal_get_proposal_vote i).has_voted.sum (fun _ x => if x.vote_type = t then x.voting_power else 0)

theorem counted_pv (s : State) (i j : Nat) (v : AccountId) (x : Vote) :
    (s.counted i v x).internal_get_proposal_vote j = if i = j then
      ({ s.internal_get_proposal_vote i with
        has_voted := (s.internal_get_proposal_vote i).has_voted.insert v x } : ProposalVote).setTally x.vote_type
        ((s.internal_get_proposal_vote i).tally x.vote_type + x.voting_power)
      else s.internal_get_proposal_vote j := by
  simp only [State.internal_get_proposal_vote, State.counted, UMap.get_insert]
  split <;> simp

theorem uncounted_pv (s : State) (i j : Nat) (v : AccountId) (x : Vote) :
    (s.uncounted i v x).internal_get_proposal_vote j = if i = j then
      { (s.internal_get_proposal_vote i).setTally x.vote_type
      ((s.internal_get_proposal_vote i).tally x.vote_type - x.voting_power) with
        has_voted := (s.internal_get_proposal_vote i).has_voted.remove v }
      else s.internal_get_proposal_vote j := by
  simp only [State.internal_get_proposal_vote, State.uncounted, UMap.get_insert]
  split <;> simp

theorem counted_slot (s : State) (i j : Nat) (v u : AccountId) (x : Vote) :
    (s.counted i v x).slot j u = if i = j ∧ v = u then some x else s.slot j u := by
  simp only [State.slot, counted_pv]
  by_cases h : i = j
  · subst h; simp [UMap.get_insert]
  · simp [h]

theorem uncounted_slot (s : State) (i j : Nat) (v u : AccountId) (x : Vote) :
    (s.uncounted i v x).slot j u = if i = j ∧ v = u then none else s.slot j u := by
  simp only [State.slot, uncounted_pv]
  by_cases h : i = j
  · subst h; simp [UMap.get_remove]
  · simp [h]

theorem tally_with_has_voted (pv : ProposalVote) (m : UMap AccountId Vote) (t : VoteType) :
    ({ pv with has_voted := m } : ProposalVote).tally t = pv.tally t := by cases t <;> rfl

theorem counted_tally (s : State) (i j : Nat) (v : AccountId) (x : Vote) (t : VoteType) :
    (s.counted i v x).tally j t = s.tally j t + if i = j ∧ x.vote_type = t then x.voting_power else 0 := by
  simp only [State.tally, counted_pv]
  by_cases h : i = j
  · subst h
    by_cases ht : x.vote_type = t
    · subst ht; simp
    · simp [ht, tally_with_has_voted]
  · simp [h]

theorem uncounted_tally (s : State) (i j : Nat) (v : AccountId) (x : Vote) (t : VoteType) :
    (s.uncounted i v x).tally j t = s.tally j t - if i = j ∧ x.vote_type = t then x.voting_power else 0 := by
  simp only [State.tally, uncounted_pv]
  by_cases h : i = j
  · subst h
    by_cases ht : x.vote_type = t
    · subst ht; simp [tally_with_has_voted]
    · simp [ht, tally_with_has_voted]
  · simp [h]

theorem counted_record (s : State) (i j : Nat) (v u : AccountId) (x : Vote) :
    (s.counted i v x).record j u = if i = j ∧ v = u then some x else s.record j u := by
  simp only [State.record, State.counted, UMap.get_insert]
  by_cases hv : v = u
  · subst hv
    simp only [if_true, Option.bind_some, UMap.get_insert, and_true, State.internal_get_voter]
    by_cases h : i = j
    · simp [h]
    · cases s.voters.get v <;> simp [h]
  · simp [hv]

theorem voter_votes (s : State) (v : AccountId) (j : Nat) :
    (s.internal_get_voter v).votes.get j = s.record j v := by
  simp only [State.record, State.internal_get_voter]
  cases s.voters.get v <;> simp

theorem uncounted_record (s : State) (i j : Nat) (v u : AccountId) (x : Vote) :
    (s.uncounted i v x).record j u = if i = j ∧ v = u then none else s.record j u := by
  have hr : (s.uncounted i v x).record j u =
    ((if ((s.internal_get_voter v).votes.remove i).isEmpty then s.voters.remove v
    else s.voters.insert v ⟨(s.internal_get_voter v).votes.remove i⟩).get u).bind (·.votes.get j) := rfl
  rw [hr]
  by_cases he : ((s.internal_get_voter v).votes.remove i).isEmpty = true
  · rw [if_pos he, UMap.get_remove]
    by_cases hv : v = u
    · subst hv
      have := UMap.isEmpty_iff_get.1 he j
      rw [UMap.get_remove, voter_votes] at this
      by_cases h : i = j
      · simp [h]
      · rw [if_neg h] at this; simp [h, this]
    · simp [hv, State.record]
  · rw [if_neg he, UMap.get_insert]
    by_cases hv : v = u
    · subst hv
      simp [UMap.get_remove, voter_votes]
    · simp [hv, State.record]

theorem counted_recorded (s : State) (i j : Nat) (v : AccountId) (x : Vote) (t : VoteType) :
    (s.counted i v x).recorded j t + (if i = j then match s.slot i v with
        | some y => if y.vote_type = t then y.voting_power else 0
        | none => 0 else 0) = s.recorded j t + if i = j ∧ x.vote_type = t then x.voting_power else 0 := by
  simp only [State.recorded, counted_pv]
  by_cases h : i = j
  · subst h
    simp only [if_true, setTally_has_voted, true_and]
    have := UMap.sum_insert (s.internal_get_proposal_vote i).has_voted
      (fun _ x => if x.vote_type = t then x.voting_power else 0) v x
    rw [← this]
    simp only [State.slot, UMap.at']
    cases (s.internal_get_proposal_vote i).has_voted.get v <;> rfl
  · simp [h]

theorem uncounted_recorded (s : State) (i j : Nat) (v : AccountId) (x : Vote) (t : VoteType) :
    (s.uncounted i v x).recorded j t + (if i = j then match s.slot i v with
        | some y => if y.vote_type = t then y.voting_power else 0
        | none => 0 else 0) = s.recorded j t := by
  simp only [State.recorded, uncounted_pv]
  by_cases h : i = j
  · subst h
    simp only [if_true]
    have := UMap.sum_remove (s.internal_get_proposal_vote i).has_voted
      (fun _ x => if x.vote_type = t then x.voting_power else 0) v
    rw [← this]
    simp only [State.slot, UMap.at']
    cases (s.internal_get_proposal_vote i).has_voted.get v <;> rfl
  · simp [h]

/-- The parts of the state that hold votes are the same. -/
theorem votes_frame (hv : s'.votes = s.votes) (hr : s'.voters = s.voters) :
    (∀ i v, s'.slot i v = s.slot i v) ∧ (∀ i v, s'.record i v = s.record i v) ∧
    (∀ i t, s'.tally i t = s.tally i t) ∧ (∀ i t, s'.recorded i t = s.recorded i t) := by
  simp [State.slot, State.record, State.tally, State.recorded, State.internal_get_proposal_vote, hv, hr]

/-- Invariant of the vote records. -/
structure VoteInv (s : State) : Prop where
  /-- both sides agree -/
  agree : ∀ i v, s.record i v = s.slot i v
  /-- tallies cover the records -/
  cover : ∀ i t, s.recorded i t ≤ s.tally i t
  /-- a record is for its proposal and has positive power -/
  good : ∀ i v x, s.slot i v = some x → x.mpip_id = i ∧ 0 < x.voting_power
  /-- voters without votes are not kept -/
  nonempty : ∀ v x, s.voters.get v = some x → x.votes.isEmpty = false

/-- How an accepted call affects votes. -/
inductive VoteChange (J : Json) (s : State) (c : Ctx) : Call → State → Prop
  | none {k : Call} {s' : State} (hv : s'.votes = s.votes) (hr : s'.voters = s.voters)
      (h1 : ∀ i v t m, k ≠ .vote_proposal_callback i v t m) (h2 : ∀ i, k ≠ .remove_vote_proposal i) :
      VoteChange J s c k s'
  | voted {i : Nat} {v : AccountId} {t : VoteType} {m : String} {b : List UInt8}
      {l : List MetaVote.LockingPositionJSON} (hb : c.results = [.successful b])
      (hl : J.read_positions b = some l) (hpos : 0 < lockedSum l) (hmax : lockedSum l ≤ U128_MAX)
      (hfit : s.tally i t + lockedSum l ≤ U128_MAX) :
      VoteChange J s c (.vote_proposal_callback i v t m) (s.counted i v ⟨i, t, lockedSum l, m⟩)
  | unvoted {i : Nat} {p : Proposal} {x : Vote} (hp : s.proposals.get i = some p) (ho : OnVoting p c.now)
      (hvd : (s.record i c.predecessor).isSome) (hx : s.slot i c.predecessor = some x)
      (hle : x.voting_power ≤ s.tally i x.vote_type) :
      VoteChange J s c (.remove_vote_proposal i) (s.uncounted i c.predecessor x)

theorem exec_vote_change (h : exec J s c k = .ok (s', out)) : VoteChange J s c k s' := by
  have hc := exec_change h
  cases hc with
  | config hp hv hr hc hq =>
    refine .none hv hr ?_ ?_
    · rintro i v t m rfl
      obtain ⟨-, -, -, hx⟩ := exec_ok.1 h
      simp only [run, quiet_ok, State.vote_proposal_callback, bind_ok_iff, user_power_ok, require_ok_iff, add_tally_ok,
        pure_ok_iff] at hx
      obtain ⟨⟨n, ⟨b, l, hb, hl, rfl, hmax⟩, -, hpos, pv, ⟨hfit, rfl⟩, rfl⟩, -⟩ := hx
      have h1 : (ProposalVote.tally { s.internal_get_proposal_vote i with
        has_voted := (s.internal_get_proposal_vote i).has_voted.insert v ⟨i, t, lockedSum l, m⟩ } t) =
        (s.internal_get_proposal_vote i).tally t := tally_with_has_voted ..
      have h2 := congrArg (fun u => (UMap.get u i).map (fun pv => pv.tally t)) hv
      simp only [UMap.get_insert_self, Option.map_some, tally_setTally, if_true, h1] at h2
      cases hg : s.votes.get i with
      | none => simp [hg] at h2
      | some pv0 =>
        simp only [hg, Option.map_some, State.internal_get_proposal_vote, Option.getD_some, Option.some.injEq] at h2
        omega
    · rintro i rfl
      obtain ⟨-, -, -, hx⟩ := exec_ok.1 h
      simp only [run, quiet_ok, State.remove_vote_proposal, bind_ok_iff, assert_on_voting_ok, State.assert_has_voted,
        require_ok_iff, expect_ok_iff, sub_tally_ok, pure_ok_iff, has_voted_eq] at hx
      obtain ⟨⟨-, ⟨p, hp, ho⟩, -, hvd, x, hx, pv, ⟨hle, rfl⟩, rfl⟩, -⟩ := hx
      have h2 := congrArg (fun u => (UMap.get u i).bind (fun pv => pv.has_voted.get c.predecessor)) hv
      simp only [UMap.get_insert_self, Option.bind_some, setTally_has_voted, UMap.get_remove_self] at h2
      cases hg : s.votes.get i with
      | none =>
        simp [State.internal_get_proposal_vote, hg, ProposalVote.new] at hx
      | some pv0 =>
        simp [State.internal_get_proposal_vote, hg] at hx
        simp [hg, hx] at h2
  | voted hb hl hmax hpos hfit => exact .voted hb hl hpos hmax hfit
  | unvoted hp ho hvd hx hle => exact .unvoted hp ho hvd hx hle
  | started => exact .none rfl rfl (by simp) (by simp)
  | created => exact .none rfl rfl (by simp) (by simp)
  | canceled => exact .none rfl rfl (by simp) (by simp)
  | edited => exact .none rfl rfl (by simp) (by simp)
  | executed => exact .none rfl rfl (by simp) (by simp)

theorem VoteInv.step (hi : VoteInv s) (h : VoteChange J s c k s') : VoteInv s' := by
  cases h with
  | none hv hr h1 h2 =>
    obtain ⟨e1, e2, e3, e4⟩ := votes_frame hv hr
    exact ⟨by simpa [e1, e2] using hi.agree, by simpa [e3, e4] using hi.cover, by simpa [e1] using hi.good,
      by rw [hr]; exact hi.nonempty⟩
  | @voted i v t m b l hb hl hpos hmax hfit =>
    refine ⟨?_, ?_, ?_, ?_⟩
    · intro j u; rw [counted_record, counted_slot, hi.agree]
    · intro j t'
      have h1 := counted_recorded s i j v ⟨i, t, lockedSum l, m⟩ t'
      have h2 := counted_tally s i j v ⟨i, t, lockedSum l, m⟩ t'
      have h3 := hi.cover j t'
      omega
    · intro j u x hx
      rw [counted_slot] at hx
      split at hx
      · cases hx; rename_i h; exact ⟨h.1, hpos⟩
      · exact hi.good _ _ _ hx
    · intro u x hx
      simp only [State.counted, UMap.get_insert] at hx
      split at hx
      · cases hx
        rw [Bool.eq_false_iff]
        intro he
        have := UMap.isEmpty_iff_get.1 he i
        simp at this
      · exact hi.nonempty _ _ hx
  | @unvoted i p x hp ho hvd hx hle =>
    refine ⟨?_, ?_, ?_, ?_⟩
    · intro j u; rw [uncounted_record, uncounted_slot, hi.agree]
    · intro j t'
      have h1 := uncounted_recorded s i j c.predecessor x t'
      have h2 := uncounted_tally s i j c.predecessor x t'
      have h3 := hi.cover j t'
      simp only [hx] at h1
      by_cases h : i = j
      · subst h
        simp only [if_true, true_and] at h1 h2
        omega
      · simp only [h, if_false, false_and] at h1 h2
        omega
    · intro j u y hy
      rw [uncounted_slot] at hy
      split at hy
      · simp at hy
      · exact hi.good _ _ _ hy
    · intro u y hy
      simp only [State.uncounted] at hy
      split at hy
      · rw [UMap.get_remove] at hy
        split at hy
        · simp at hy
        · exact hi.nonempty _ _ hy
      · rename_i he
        rw [UMap.get_insert] at hy
        split at hy
        · cases hy; simpa using he
        · exact hi.nonempty _ _ hy

theorem vote_inv_init {w : World} (h : Init w) : VoteInv w.st := by
  obtain ⟨-, hv, hr, -⟩ := h.empty
  refine ⟨?_, ?_, ?_, ?_⟩ <;>
    simp [State.record, State.slot, State.recorded, State.tally, State.internal_get_proposal_vote, hv, hr,
      ProposalVote.new]

theorem reach_vote_inv {w : World} (h : Reach J me w) : VoteInv w.st := by
  induction h with
  | init h => exact vote_inv_init h
  | step h hs ih =>
    rcases hs.cases_change with h | ⟨c, k, out, -, -, -, -, h, -⟩ | ⟨p, ts, r, out, -, -, -, h, -⟩
    · rw [h]; exact ih
    · exact ih.step (exec_vote_change h)
    · exact ih.step (exec_vote_change h)

end Verif.Mpip
