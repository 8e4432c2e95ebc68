import Verif.Props.Power
import Verif.Props.Votes
import Verif.Props.Positions
import Verif.Props.Transfers

/-!
# C74: everything can be recovered

A voter who waits for the end of the lock-in of votes, unvotes, unlocks, waits and withdraws gets everything back, with no
help from anybody, if the voter never unlocked a position that was already unlocking.  Otherwise part of the funds can be
lost for ever.
-/

namespace Verif.MetaVote

open Verif

/-- Actions that need nobody but `id`: calls of `id`, and waiting. -/
def Action.own (id : String) : Action → Prop
  | .call p _ _ _ => p = id
  | .resolve .. => False
  | .tick _ => True

/-- `w'` is reached from `w` by actions that satisfy `P`. -/
def Goes (J : Json) (me : AccountId) (P : Action → Prop) (w w' : World) : Prop :=
  ∃ l : List Action, (∀ a ∈ l, P a) ∧ runs J me w l = some w'

/-- The preparations of a voter who leaves: waiting, unlocking, and unvoting apps in `A`. -/
def Action.leaving (A : String → String → Prop) (id : String) : Action → Prop
  | .call p _ _ (.unvote app _) => p = id ∧ A id app
  | .call p _ _ (.unlock_position _) => p = id
  | .tick _ => True
  | _ => False

theorem Action.leaving_own {A : String → String → Prop} {id : String} {a : Action} (h : a.leaving A id) : a.own id := by
  unfold Action.leaving at h
  split at h
  · exact h.1
  · exact h
  · trivial
  · exact h.elim

section
variable {J : Json} {me : AccountId} {id : String} {w w' : World} {P : Action → Prop} {A : String → String → Prop}

theorem runs_append : ∀ {l l' : List Action} {w w1 w2 : World}, runs J me w l = some w1 → runs J me w1 l' = some w2 →
    runs J me w (l ++ l') = some w2
  | [], _, w, w1, w2, h, h' => by cases h; exact h'
  | a :: l, l', w, w1, w2, h, h' => by
    simp only [runs, List.cons_append] at h ⊢
    split at h
    · exact runs_append h h'
    · simp at h

theorem Goes.refl (w : World) : Goes J me P w w := ⟨[], by simp, rfl⟩

theorem Goes.trans {w1 w2 : World} (h : Goes J me P w w1) (h' : Goes J me P w1 w2) : Goes J me P w w2 := by
  obtain ⟨l, h1, h2⟩ := h
  obtain ⟨l', h1', h2'⟩ := h'
  refine ⟨l ++ l', ?_, runs_append h2 h2'⟩
  intro a ha
  rcases List.mem_append.1 ha with ha | ha
  · exact h1 a ha
  · exact h1' a ha

theorem Goes.tick {ts : Nat} (hp : P (.tick ts)) (h : w.clock ≤ ts)
    (h' : ts ≤ U64_MAX) : Goes J me P w { w with clock := ts } :=
  ⟨[.tick ts], by simpa using hp, by simp [runs, act, h, h']⟩

theorem Goes.call {d ts : Nat} {k : Call} {s' : State} {out : List Transfer} (hp : P (.call id d ts k))
    (hm : ¬ mirrored id) (h : w.clock ≤ ts)
    (h' : ts ≤ U64_MAX) (hx : exec J w.st ⟨me, id, d, ts, []⟩ k = .ok (s', out)) :
    Goes J me P w ⟨s', w.pending ++ out, ts, .call ⟨me, id, d, ts, []⟩ k out :: w.log⟩ :=
  ⟨[.call id d ts k], by simpa using hp, by simp [runs, act, hm, h, h', hx]⟩

theorem Goes.mono {Q : Action → Prop} (h : Goes J me P w w') (hq : ∀ a, P a → Q a) : Goes J me Q w w' := by
  obtain ⟨l, h1, h2⟩ := h
  exact ⟨l, fun a ha => hq a (h1 a ha), h2⟩

theorem Goes.steps (h : Goes J me P w w') : Steps J me w w' := by
  obtain ⟨l, -, h⟩ := h
  exact steps_of_runs h

theorem Steps.mpdao (h : Steps J me w w') : w'.st.mpdao_token_contract_address = w.st.mpdao_token_contract_address := by
  induction h with
  | refl => rfl
  | @step w1 w2 _ hs ih =>
    cases hs with
    | call c k s' out hme hres hm hclock hu64 hexec => rw [← ih]; exact (exec_max hexec).2.2.2
    | resolve pre post t ok ts hpend hclock hu64 =>
      simp only
      cases hr : exec J w1.st ⟨me, me, 0, ts, [ok]⟩ t.callbackCall with
      | error e => exact ih
      | ok r => rw [← ih]; exact (exec_max (s' := r.1) (out := r.2) hr).2.2.2
    | tick ts hclock hu64 => exact ih

theorem vsum_pos {m : UMap String (UMap String Nat)} (h : vsum m ≠ 0) : ∃ c o, vget m c o ≠ 0 := by
  by_contra hn
  push Not at hn
  apply h
  refine UMap.sum_eq_zero fun c x hx => UMap.sum_eq_zero fun o n ho => ?_
  have := hn c o
  rw [vget_eq, hx] at this
  simpa [ho] using this

/-- Unvoting everything. -/
theorem unvote_all (hm : ¬ mirrored id) : ∀ (n : Nat) (w : World), ReachG J me (ownUnlocks id) w → w.clock ≤ U64_MAX →
    w.st.lock_votes_in_end_timestamp_ms ≤ w.clock / 1000000 → (∀ app obj, (w.st.voterD id).votesOf app obj ≠ 0 → A id app) →
    (w.st.voterD id).used = n →
    ∃ w', Goes J me (Action.leaving A id) w w' ∧ ReachG J me (ownUnlocks id) w' ∧ w'.clock = w.clock ∧ w'.pending = w.pending ∧
      (w'.st.voterD id).balance = (w.st.voterD id).balance ∧
      (w'.st.voterD id).locking_positions = (w.st.voterD id).locking_positions ∧ (w'.st.voterD id).used = 0 := by
  intro n
  induction n using Nat.strong_induction_on with
  | _ n ih =>
    intro w h hu he hA hn
    by_cases h0 : n = 0
    · exact ⟨w, .refl w, h, rfl, rfl, rfl, rfl, by omega⟩
    obtain ⟨app, obj, hv⟩ := vsum_pos (show vsum (w.st.voterD id).vote_positions ≠ 0 by unfold Voter.used at hn; omega)
    obtain ⟨⟨s1, out⟩, hx⟩ := C17_unvote_possible_partial h.reach ⟨me, id, 0, w.clock, []⟩ (app := app) (obj := obj) rfl
      (by rw [get_votes_for_object_eq]; exact hv)
      (by
        rintro ⟨-, h2, -⟩
        simp only [State.get_lock_in_vote_filters, Ctx.now] at h2
        omega)
    obtain ⟨rfl, h1, h1', -, ho⟩ := C15_unvote_effect_partial hx
    have hs : Step J me w ⟨s1, w.pending ++ [], w.clock, .call ⟨me, id, 0, w.clock, []⟩ (.unvote app obj) [] :: w.log⟩ :=
      .call w ⟨me, id, 0, w.clock, []⟩ _ s1 [] rfl rfl hm le_rfl hu hx
    have hr := ReachG.step h hs (by
      intro c k out hl
      simp only [List.cons.injEq, Entry.call.injEq, and_true] at hl
      obtain ⟨rfl, rfl, -⟩ := hl
      exact fun _ => trivial)
    have e1 := reachG_exact h
    have e2 := reachG_exact hr
    simp only [Voter.power, get_available_eq, get_votes_for_object_eq] at e1 e2 h1
    have hpos := ho.positions
    have hbal := ho.balance
    simp only at hpos hbal
    simp only [Voter.lockedVp, hpos] at e1 e2
    have hv' : (w.st.voterD id).votesOf app obj ≠ 0 := hv
    obtain ⟨w', g1, g2, g3, g4, g5, g6, g7⟩ := ih (s1.voterD id).used (by omega) _ hr hu
      (by
        have := ho.rest
        rw [show s1.lock_votes_in_end_timestamp_ms = w.st.lock_votes_in_end_timestamp_ms by rw [this]]
        exact he) (by
        intro a o hao
        have hvs := ho.votes a o
        simp only [get_votes_for_object_eq] at hvs h1' hao
        by_cases hc : a = app ∧ o = obj
        · rw [hc.1]; exact hA app obj hv
        · rw [hvs hc] at hao; exact hA a o hao) rfl
    refine ⟨w', (Goes.call ⟨rfl, hA app obj hv⟩ hm le_rfl hu hx).trans g1, g2, g3, ?_, ?_, ?_, g7⟩
    · rw [g4]; simp
    · rw [g5]; exact hbal
    · rw [g6]; exact hpos

/-- How many positions are locked. -/
def lockedCount (l : List LockingPosition) : Nat := posSum (fun p => if p.unlocking_started_at = none then 1 else 0) l

/-- Unlocking everything. -/
theorem unlock_all (hm : ¬ mirrored id) : ∀ (n : Nat) (w : World), ReachG J me (ownUnlocks id) w → w.clock ≤ U64_MAX →
    (w.st.voterD id).used = 0 → lockedCount (w.st.voterD id).locking_positions = n →
    ∃ w', Goes J me (Action.leaving A id) w w' ∧ ReachG J me (ownUnlocks id) w' ∧ w'.clock = w.clock ∧ w'.pending = w.pending ∧
      (w'.st.voterD id).held = (w.st.voterD id).held ∧
      (∀ p ∈ (w'.st.voterD id).locking_positions, p.unlocking_started_at ≠ none) := by
  intro n
  induction n with
  | zero =>
    intro w h hu h0 hn
    refine ⟨w, .refl w, h, rfl, rfl, rfl, ?_⟩
    intro p hp hl
    obtain ⟨i, hi⟩ := List.mem_iff_getElem?.1 hp
    have := posSum_le_of_mem (fun p => if p.unlocking_started_at = none then 1 else 0) _ i p hi
    unfold lockedCount at hn
    simp only [hl, if_true] at this
    omega
  | succ n ih =>
    intro w h hu h0 hn
    obtain ⟨p, hp, hl⟩ : ∃ p ∈ (w.st.voterD id).locking_positions, p.unlocking_started_at = none := by
      by_contra hc
      push Not at hc
      have : lockedCount (w.st.voterD id).locking_positions = 0 := by
        unfold lockedCount posSum
        rw [List.map_congr_left (g := fun _ => 0) (fun p hp => by simp [hc p hp])]
        simp
      omega
    obtain ⟨i, hi⟩ := List.mem_iff_getElem?.1 hp
    have hi64 : i ≤ U64_MAX := by
      have h1 := lreach_count h.reach.loose id
      have h2 := getElem?_lt hi
      simp only [U8_MAX, U64_MAX] at *
      omega
    obtain ⟨⟨s1, out⟩, hx⟩ := C34_can_unlock_partial (c := ⟨me, id, 0, w.clock, []⟩) h i
      (p.to_json (w.clock / 1000000) (some i)) rfl hi64 (by rw [reach_used h.reach, h0])
      (by simp only [State.get_locking_position, internal_get_voter_eq, hi]; rfl) ((is_locked_iff p).2 hl)
    obtain ⟨rfl, hun⟩ := C35_unlock h.reach hx hi
    have hs : Step J me w ⟨s1, w.pending ++ [], w.clock, .call ⟨me, id, 0, w.clock, []⟩ (.unlock_position i) [] :: w.log⟩ :=
      .call w ⟨me, id, 0, w.clock, []⟩ _ s1 [] rfl rfl hm le_rfl hu hx
    have hr := ReachG.step h hs (by
      intro c k out hl'
      simp only [List.cons.injEq, Entry.call.injEq, and_true] at hl'
      obtain ⟨rfl, rfl, -⟩ := hl'
      intro _ q hq
      rw [hi] at hq
      cases hq
      exact hl)
    have hv := hun.voter
    simp only at hv
    obtain ⟨w', g1, g2, g3, g4, g5, g6⟩ := ih _ hr hu (by
        simp only [hv, Voter.used] at h0 ⊢; exact h0) (by
        simp only [hv]
        have := posSum_set (fun p => if p.unlocking_started_at = none then 1 else 0) _ i p
          ⟨p.amount, p.locking_period, p.voting_power, some (w.clock / 1000000)⟩ hi
        simp only [hl, if_true, reduceCtorEq, if_false] at this
        unfold lockedCount at hn ⊢
        simp only [Ctx.now]
        omega)
    have hp : Action.leaving A id (.call id 0 w.clock (.unlock_position i)) := rfl
    refine ⟨w', (Goes.call hp hm le_rfl hu hx).trans g1, g2, g3, ?_, ?_, g6⟩
    · rw [g4]; simp
    · rw [g5]
      simp only [hv, Voter.held, Voter.inPositions]
      have := posSum_set (·.amount) _ i p ⟨p.amount, p.locking_period, p.voting_power, some (w.clock / 1000000)⟩ hi
      simp only at this
      simp only [Ctx.now]
      omega

/-- The way out: preparations after which everything is matured at a later time `T`. -/
theorem way_out (h : ReachG J me (ownUnlocks id) w) (hm : ¬ mirrored id)
    (hA : ∀ app obj, (w.st.voterD id).votesOf app obj ≠ 0 → A id app)
    (htime : max w.clock (w.st.get_lock_in_vote_filters.1 * 1000000) + 3600 * 86400000000000 ≤ U64_MAX) :
    ∃ w' T, Goes J me (Action.leaving A id) w w' ∧ Reach J me w' ∧ w'.clock ≤ T ∧ T ≤ U64_MAX ∧ w'.pending = w.pending ∧
      (w'.st.voterD id).held = (w.st.voterD id).held ∧
      ∀ p ∈ (w'.st.voterD id).locking_positions, p.matured (T / 1000000) := by
  have hT : ∃ T, T = max w.clock (w.st.get_lock_in_vote_filters.1 * 1000000) := ⟨_, rfl⟩
  obtain ⟨T, hT⟩ := hT
  rw [← hT] at htime
  have hT1 : w.clock ≤ T := by rw [hT]; exact le_max_left _ _
  have hT2 : w.st.lock_votes_in_end_timestamp_ms ≤ T / 1000000 := by
    rw [Nat.le_div_iff_mul_le (by decide), hT]; exact le_max_right _ _
  have hTu : T ≤ U64_MAX := by omega
  have tick : ∀ {w : World} {ts : Nat}, ReachG J me (ownUnlocks id) w → w.clock ≤ ts → ts ≤ U64_MAX →
      ReachG J me (ownUnlocks id) { w with clock := ts } := by
    intro w ts h h1 h2
    refine h.step (.tick w ts h1 h2) ?_
    intro c k out hl
    have := congrArg List.length hl
    simp at this
  have g0 : Goes J me (Action.leaving A id) w { w with clock := T } := .tick trivial hT1 hTu
  obtain ⟨w1, g1, r1, c1, p1, b1, l1, u1⟩ := unvote_all (A := A) hm _ _ (tick h hT1 hTu) hTu hT2 hA rfl
  simp only at c1 p1 b1 l1
  obtain ⟨w2, g2, r2, c2, p2, h2, s2⟩ := unlock_all (A := A) hm _ w1 r1 (by rw [c1]; exact hTu) u1 rfl
  have hclock : w2.clock = T := by rw [c2, c1]
  refine ⟨w2, T + 3600 * 86400000000000, (g0.trans g1).trans g2, r2.reach, by omega, htime, by rw [p2, p1], ?_, ?_⟩
  · rw [h2]; simp only [Voter.held, Voter.inPositions, b1, l1]
  have hfu := lreach_fundOK r2.reach.loose id
  have h3600 := C30_below_partial r2.reach.loose id
  intro p hp
  have hs := s2 p hp
  have hd := h3600 p hp
  cases ht : p.unlocking_started_at with
  | none => exact absurd ht hs
  | some t =>
    have := hfu.2 p hp t ht
    rw [hclock] at this
    exact ⟨t, ht, by omega⟩

/-- When everything is matured, `withdraw_all` pays everything and removes the record. -/
theorem last_withdrawal {s : State} {T : Nat} (hfu : (s.voterD id).balance ≤ U128_MAX) (h0 : 0 < (s.voterD id).held)
    (hfit : (s.voterD id).held ≤ U128_MAX) (hmat : ∀ p ∈ (s.voterD id).locking_positions, p.matured (T / 1000000)) :
    ∃ s', exec J s ⟨me, id, 1, T, []⟩ .withdraw_all = .ok (s', [⟨s.mpdao_token_contract_address, id, (s.voterD id).held,
      .after_transfer_mpdao id (s.voterD id).held⟩]) ∧ s'.voters.get id = none := by
  have hwd : (s.voterD id).withdrawable (T / 1000000) = (s.voterD id).held := by
    unfold Voter.withdrawable Voter.held Voter.inPositions posSum
    rw [List.map_congr_left (g := fun p => p.amount) (fun p hp => by simp [hmat p hp])]
  obtain ⟨⟨s3, out⟩, hx⟩ := (C25_accepted (J := J) (s := s) (c := ⟨me, id, 1, T, []⟩) hfu).2
    ⟨rfl, (s.voterD id).held, h0, (get_balance_ok_iff _ _ _ _).2 (by
      simp only [Ctx.now]; rw [hwd]; exact ⟨hfit, rfl⟩)⟩
  obtain ⟨x, hw, hb, -, -, -, hgone⟩ := C25_withdraw_all (s := s) hfu hx
  have hxe : x = (s.voterD id).held := by
    have := ((get_balance_ok_iff _ _ _ _).1 hb).2
    simp only [Ctx.now] at this
    rw [this, hwd]
  subst hxe
  refine ⟨s3, ?_, hgone.2 ?_⟩
  · rw [hx, hw.out]
  · unfold notMatured
    rw [List.filter_eq_nil_iff]
    intro p hp
    exact fun hd => of_decide_eq_true hd (hmat p hp)

/-- **C74** (partial): a voter who has never unlocked a position that was already unlocking can always recover everything
alone: there are calls of the voter after which one transfer of everything the voter held is on its way and the record of the
voter is gone. -/
theorem C74_exit_partial (h : ReachG J me (ownUnlocks id) w) (hm : ¬ mirrored id) (h0 : 0 < (w.st.voterD id).held)
    (hfit : (w.st.voterD id).held ≤ U128_MAX)
    (htime : max w.clock (w.st.get_lock_in_vote_filters.1 * 1000000) + 3600 * 86400000000000 ≤ U64_MAX) :
    ∃ w', Goes J me (Action.own id) w w' ∧ w'.st.voters.get id = none ∧
      w'.pending = w.pending ++ [⟨w.st.mpdao_token_contract_address, id, (w.st.voterD id).held,
        .after_transfer_mpdao id (w.st.voterD id).held⟩] := by
  obtain ⟨w2, T, g, hr, hc, hT, hp, hh, hmat⟩ := way_out (A := fun _ _ => True) h hm (fun _ _ _ => trivial) htime
  rw [← hh] at h0 hfit
  obtain ⟨s', hx, hg⟩ := last_withdrawal (J := J) (me := me) (lreach_fundOK hr.loose id).1 h0 hfit hmat
  refine ⟨_, (g.mono fun a => Action.leaving_own).trans (Goes.call rfl hm hc hT hx), hg, ?_⟩
  simp only [hp, hh, g.steps.mpdao]

/-- The hypotheses are met by a voter with locked and unlocking positions and votes. -/
example : ∃ w, ReachG demoJ "me" (ownUnlocks "alice") w ∧ 0 < (w.st.voterD "alice").held ∧
    (w.st.voterD "alice").held ≤ U128_MAX ∧ (w.st.voterD "alice").used ≠ 0 ∧
    max w.clock (w.st.get_lock_in_vote_filters.1 * 1000000) + 3600 * 86400000000000 ≤ U64_MAX :=
  ⟨(runsG demoJ "me" (ownUnlocks "alice") demo0 demoActs).get (by decide +kernel),
    reachG_of_runs (.init demo0_init) (Option.some_get _).symm, by decide +kernel, by decide +kernel, by decide +kernel,
    by decide +kernel⟩

theorem steps_short (hr : Reach J me w) {f : String → Nat} (h : Short f w.st) (hf : ∀ id, mirrored id → f id = 0)
    (hs : Steps J me w w') : ∃ f', Short f' w'.st ∧ (∀ id, mirrored id → f' id = 0) ∧ ∀ id, f id ≤ f' id := by
  induction hs with
  | refl => exact ⟨f, h, hf, fun _ => le_rfl⟩
  | step h1 hs ih =>
    obtain ⟨f1, a, b, c⟩ := ih
    obtain ⟨f2, a', b', c', -⟩ := hs.short a (reach_vinv (hr.steps h1)) b
    exact ⟨f2, a', b', fun id => le_trans (c id) (c' id)⟩

/-- **C74** is false of the code: after unlocking a position that was already unlocking, whatever anybody does, part of the
funds stays in locked positions, of at least the power that was taken away. -/
theorem C74_false : ∃ w, Reach demoJ "me" w ∧ ∀ w', Steps demoJ "me" w w' → ∀ now,
    1666666666666666666666666 ≤ lockedPower (w'.st.get_all_locking_positions now "alice") := by
  refine ⟨doubleUnlockW, reach_of_runs demo0_init (Option.some_get _).symm, fun w' hs now => ?_⟩
  have hr : Reach demoJ "me" doubleUnlockW := reach_of_runs demo0_init (Option.some_get _).symm
  obtain ⟨f, h1, h2⟩ := reach_short hr
  obtain ⟨f', h1', -, h3⟩ := steps_short hr h1 h2 hs
  have a := h1 "alice"
  have b := h1' "alice"
  have c := h3 "alice"
  rw [lockedPower_view]
  have d : (doubleUnlockW.st.voterD "alice").power + 1666666666666666666666666 = (doubleUnlockW.st.voterD "alice").lockedVp := by
    decide +kernel
  omega

end

end Verif.MetaVote
