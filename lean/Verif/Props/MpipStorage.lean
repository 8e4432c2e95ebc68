import Verif.MpipStorage.Store
import Verif.Props.MpipVotes

/-!
# C79: the stored collections of mpip behave like tables

The contract over storage entries (`Verif/MpipStorage/Contract.lean`) and the contract over values
(`Verif/Mpip`) have the same executions: the same calls are accepted, with the same promises, panics and views.
-/

namespace Verif.MpipStorage

open Verif Storage Mpip

variable {J : Json} {me : AccountId}

/-- The world with the state stored. -/
noncomputable def storeW (w : World) : SWorld := ⟨store w.st, w.pending, w.clock, w.log⟩

theorem store_empty {a o t v : AccountId} {p m st q : Nat} :
    new false a o t v p m st q = (Mpip.new false a o t v p m st q).map store := by
  simp only [new, Mpip.new, bind_map]
  congr 1; funext _
  congr 1; funext _
  simp only [pure, Except.pure, Except.map, store]
  have h1 : hasVotedOf (⟨a, o, t, v, UMap.empty, UMap.empty, UMap.empty, UMap.empty, p, 0, 0, m, 0, st, true, q⟩ : State) =
      fun _ => Cells.empty := by
    funext r
    unfold hasVotedOf
    split
    · exact Cells.of_empty
    · rfl
  rw [h1]
  rfl

theorem map_ok {α β : Type} {r : Res α} {g : α → β} {b : β} : r.map g = .ok b ↔ ∃ a, r = .ok a ∧ g a = b := by
  cases r <;> simp [Except.map]

theorem getOr_map {α β : Type} (r : Res α) (g : α → β) (a : α) : Res.getOr (r.map g) (g a) = g (r.getOr a) := by
  cases r <;> rfl

theorem isOk_map {α β : Type} (r : Res α) (g : α → β) : Res.isOk (r.map g) = r.isOk := by cases r <;> rfl

/-- Over storage, a call on a stored state does what the call on the state does: same acceptance, same panic, same
promises, and the new state stored. -/
theorem C79_exec (J : Json) (s : State) (c : Ctx) (k : Call) :
    exec J (store s) c k = (Mpip.exec J s c k).map (fun r => (store r.1, r.2)) := exec_store J s c k

theorem step_store {w w' : World} (h : Step J me w w') : SStep J me (storeW w) (storeW w') := by
  cases h with
  | call c k s' out hme hres hclock hu64 hexec =>
    refine .call (storeW w) c k (store s') out hme hres hclock hu64 ?_
    show exec J (store w.st) c k = _
    rw [C79_exec, hexec]; rfl
  | reply pre post p r ts hpend hclock hu64 =>
    have := SStep.reply (J := J) (me := me) (storeW w) pre post p r ts hpend hclock hu64
    have e : exec J (storeW w).st (replyCtx me p ts r) p.callback =
      (Mpip.exec J w.st (replyCtx me p ts r) p.callback).map stored := exec_store J w.st _ _
    rw [e, isOk_map, show ((storeW w).st, ([] : List Promise)) = stored (w.st, []) from rfl, getOr_map] at this
    exact this
  | tick ts hclock hu64 => exact .tick (storeW w) ts hclock hu64

theorem step_of_store {w : World} {W' : SWorld} (h : SStep J me (storeW w) W') : ∃ w', Step J me w w' ∧ storeW w' = W' := by
  generalize hW : storeW w = W at h
  cases h with
  | call c k S' out hme hres hclock hu64 hexec =>
    subst hW
    have hexec' : exec J (store w.st) c k = .ok (S', out) := hexec
    rw [exec_store, map_ok] at hexec'
    obtain ⟨⟨s', o⟩, he, hx⟩ := hexec'
    cases hx
    exact ⟨_, .call w c k s' o hme hres hclock hu64 he, rfl⟩
  | reply pre post p r ts hpend hclock hu64 =>
    subst hW
    refine ⟨_, .reply w pre post p r ts hpend hclock hu64, ?_⟩
    have e : exec J (storeW w).st (replyCtx me p ts r) p.callback =
      (Mpip.exec J w.st (replyCtx me p ts r) p.callback).map stored := exec_store J w.st _ _
    rw [e, isOk_map, show ((storeW w).st, ([] : List Promise)) = stored (w.st, []) from rfl, getOr_map]
    rfl
  | tick ts hclock hu64 => subst hW; exact ⟨_, .tick w ts hclock hu64, rfl⟩

/-- C79: the worlds that can be reached over storage are exactly the stored worlds of the model with values. -/
theorem C79_reach (W : SWorld) : SReach J me W ↔ ∃ w, Reach J me w ∧ storeW w = W := by
  constructor
  · intro h
    induction h with
    | init h =>
      obtain ⟨a, o, t, v, p, m, st, q, ts, S, hr, hts, hn⟩ := h
      rw [store_empty, map_ok] at hn
      obtain ⟨s, hs, rfl⟩ := hn
      exact ⟨_, .init (.mk a o t v p m st q ts s hr hts hs), rfl⟩
    | step _ hs ih =>
      obtain ⟨w, hw, rfl⟩ := ih
      obtain ⟨w', hs', rfl⟩ := step_of_store hs
      exact ⟨w', hw.step hs', rfl⟩
  · rintro ⟨w, hw, rfl⟩
    induction hw with
    | init h =>
      obtain ⟨a, o, t, v, p, m, st, q, ts, s, hr, hts, hn⟩ := h
      exact .init (.mk a o t v p m st q ts (store s) hr hts (by rw [store_empty, hn]; rfl))
    | step _ hs ih => exact ih.step (step_store hs)

/-- C79: every view over storage shows what the view of the model with values shows. -/
theorem C79_views (s : State) (c : Ctx) (now i n m : Nat) (a : AccountId) :
    (store s).get_proposal_votes i = .ok (s.get_proposal_votes i) ∧
    (store s).has_voted a i = .ok (s.has_voted a i) ∧
    (store s).get_my_vote a i = s.get_my_vote a i ∧
    (store s).get_voter a = .ok (s.get_voter a) ∧
    (store s).get_total_voters = s.get_total_voters ∧
    (store s).get_proposal i = s.get_proposal i ∧
    (store s).get_proposals n m = s.get_proposals n m ∧
    (store s).get_last_proposal_id = s.get_last_proposal_id ∧
    (store s).get_my_proposals a = .ok (s.get_my_proposals a) ∧
    (store s).get_proposal_state now i = s.get_proposal_state now i ∧
    (store s).get_proposal_is_active_or_draft now i = s.get_proposal_is_active_or_draft now i ∧
    (store s).get_proposal_vote_succeeded i = .ok (s.get_proposal_vote_succeeded i) ∧
    (store s).get_quorum_reached c i = s.get_quorum_reached c i :=
  ⟨votes_store s i, hasVoted_store s i a, my_vote_store s a i, voter_store s a, rfl, getProposal_store s i,
    proposals_store s n m, rfl, getProposer_store s a, state_store s now i, active_or_draft_store s now i,
    by simp only [SState.get_proposal_vote_succeeded, getTally_store, ok_bind]; rfl,
    by simp only [SState.get_quorum_reached, State.get_quorum_reached, quorum_reached_store]; rfl⟩

/-- C79: over storage, in every execution, the votes on a proposal can be listed, no voter is listed twice, the list
agrees with what each voter sees, and the tallies are at least the sums of the listed votes. -/
theorem C79_votes {W : SWorld} (h : SReach J me W) (i : Nat) : ∃ r, W.st.get_proposal_votes i = .ok r ∧
    (r.has_voted.map Prod.fst).Nodup ∧ (∀ t, listed r.has_voted t ≤ r.tally t) ∧
    (∀ a, ∃ o, W.st.get_my_vote a i = .ok o ∧ ∀ x, o = some x ↔ (a, x) ∈ r.has_voted) ∧
    (∀ a, ∃ b, W.st.has_voted a i = .ok b ∧ (b = true ↔ ∃ x, (a, x) ∈ r.has_voted)) ∧
    (∀ a, ∃ l, W.st.get_voter a = .ok l ∧ ((∃ x ∈ l, x.mpip_id = i) ↔ ∃ x, (a, x) ∈ r.has_voted)) := by
  obtain ⟨w, hw, rfl⟩ := (C79_reach W).1 h
  refine ⟨_, votes_store w.st i, C47_one_listed _ _, fun t => C46_at_least hw i t, ?_, ?_, ?_⟩
  · intro a
    obtain ⟨o, ho, hx⟩ := (C48_agree hw i a).1
    exact ⟨o, (my_vote_store w.st a i).trans ho, hx⟩
  · intro a
    exact ⟨_, hasVoted_store w.st i a, (C48_agree hw i a).2⟩
  · intro a
    refine ⟨_, voter_store w.st a, ?_⟩
    have h1 := (C48_voter hw a).1
    constructor
    · rintro ⟨x, hx, rfl⟩; exact ⟨x, (h1 x).1 hx⟩
    · rintro ⟨x, hx⟩
      have hi := (reach_vote_inv hw).good
      have hid : x.mpip_id = i := by
        obtain ⟨o, ho, ho'⟩ := (C48_agree hw i a).1
        have := (slot_view w.st i a x).1 hx
        exact (hi _ _ _ this).1
      exact ⟨x, (h1 x).2 (by rw [hid]; exact hx), hid⟩

/-! ## Examples -/

/-- A reachable world with two proposals and two votes, seen through the storage. -/
example : SReach demoJ "me" (storeW demo) ∧ (storeW demo).st.has_voted "bob" 0 = .ok true ∧
    (storeW demo).st.has_voted "carol" 0 = .ok false ∧ (storeW demo).st.get_total_voters = 2 :=
  ⟨(C79_reach _).2 ⟨_, demo_reach, rfl⟩, (hasVoted_store _ _ _).trans (by decide +kernel),
    (hasVoted_store _ _ _).trans (by decide +kernel), by show demo.st.voters.len = 2; decide +kernel⟩

/-- Calls, one after the other; `none` if one is rejected. -/
def runAll (J : Json) (S : SState) : List (Ctx × Call) → Option SState
  | [] => some S
  | (c, k) :: l => match exec J S c k with
    | .ok r => runAll J r.1 l
    | .error _ => none

/-- Alice votes, Bob votes, Alice removes the vote (their only one, so the record goes away), votes again with another
power, and votes on a second proposal. -/
def again : Option SState :=
  match new false "admin" "operator" "meta" "vote" 300000 1000 7 3000 with
  | .error _ => none
  | .ok S =>
    let user := fun (a : AccountId) (n : Nat) (k : Call) => ((⟨"me", a, a, 0, n * MS, []⟩ : Ctx), k)
    let answer := fun (a : AccountId) (n : Nat) (r : Reply) (k : Call) => ((⟨"me", "me", a, 0, n * MS, [r]⟩ : Ctx), k)
    runAll demoJ S
      [answer "alice" 1 (tells 8 0) (.create_proposal_callback ⟨"t", "s", "b", "d", "e"⟩),
       answer "alice" 2 (tells 8 0) (.create_proposal_callback ⟨"t2", "s", "b", "d", "e"⟩),
       answer "alice" 3 (tells 40 0) (.start_voting_period_callback 0),
       answer "alice" 3 (tells 40 0) (.start_voting_period_callback 1),
       user "alice" 4 (.vote_proposal 0 .for_ "yes"),
       answer "alice" 5 (tells 8 0) (.vote_proposal_callback 0 "alice" .for_ "yes"),
       answer "bob" 6 (tells 4 1) (.vote_proposal_callback 0 "bob" .against "no"),
       user "alice" 7 (.remove_vote_proposal 0),
       user "alice" 8 (.vote_proposal 0 .abstain "well"),
       answer "alice" 9 (tells 1 0) (.vote_proposal_callback 0 "alice" .abstain "well"),
       answer "alice" 10 (tells 1 0) (.vote_proposal_callback 1 "alice" .for_ "")]

example : again.isSome = true ∧
    (again.map fun S => S.get_proposal_votes 0) =
      some (.ok ⟨0, 1025, 256, [("bob", ⟨0, .against, 1025, "no"⟩), ("alice", ⟨0, .abstain, 256, "well"⟩)]⟩) ∧
    (again.map fun S => S.get_voter "alice") = some (.ok [⟨0, .abstain, 256, "well"⟩, ⟨1, .for_, 256, ""⟩]) ∧
    (again.map fun S => S.get_total_voters) = some 2 := by
  decide +kernel

end Verif.MpipStorage
