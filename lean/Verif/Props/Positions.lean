import Verif.MetaVote.PosInv
import Verif.MetaVote.Config
import Verif.MetaVote.LooseGuard
import Verif.Props.Deposits
import Mathlib.Data.List.Perm.Basic

/-!
# Properties of locking positions: unbonding, limits, relocking, mirroring

C10, C30, C31, C32, C33 and C37 of `properties.jsonl`.
-/

namespace Verif.MetaVote

open Verif

/-! ## C10: the unbonding period cannot be bypassed -/

/-- mpDAO that has left (or is leaving) the contract for `id`: transfers that succeeded, plus the
transfers still in flight. -/
def taken (id : String) (w : World) : Nat := logPaid (mpOf id) w.log + amounts (mpOf id) w.pending

/-- What can happen from `w0` while `P` holds. -/
inductive While (J : Json) (me : AccountId) (P : World → Prop) (w0 : World) : World → Prop
  | start (h : P w0) : While J me P w0 w0
  | step {w w' : World} (h : While J me P w0 w) (hs : LStep J me w w') (hp : P w') : While J me P w0 w'

theorem While.now {J : Json} {me : AccountId} {P : World → Prop} {w0 w : World} (h : While J me P w0 w) :
    P w ∧ w0.clock ≤ w.clock := by
  induction h with
  | start h => exact ⟨h, le_rfl⟩
  | step h hs hp ih => exact ⟨hp, ih.2.trans (by cases hs <;> assumption)⟩

theorem While.reach {J : Json} {me : AccountId} {P : World → Prop} {w0 w : World} (h : While J me P w0 w)
    (h0 : LReach J me w0) : LReach J me w := by
  induction h with
  | start h => exact h0
  | step h hs hp ih => exact .step ih hs

/-- The `D` days that follow `w0`, while the minimum unbonding period is at least `D`. -/
def inWindow (D : Nat) (w0 w : World) : Prop :=
  D ≤ w.st.min_unbond_period ∧ w.clock / 1000000 < w0.clock / 1000000 + D * 86400000

/-- **C10.** Take any reachable world `w0` and any account all of whose locked positions have a period of
at least `D` days.  Whatever calls, callbacks and transfers happen during the following `D` days (with the
minimum unbonding period at least `D`), the mpDAO taken out for the account is at most its balance plus
the positions already unlocking whose unbonding ends within these days.  The bound accounts for refunds
of transfers that were in flight. -/
theorem C10_unbonding {J : Json} {me : AccountId} {w0 w : World} (h0 : LReach J me w0) {id : String}
    (hid : ¬ mirrored id) {D : Nat}
    (hlock : ∀ p ∈ (w0.st.voterD id).locking_positions, p.unlocking_started_at = none → D ≤ p.locking_period)
    (h : While J me (inWindow D w0) w0 w) :
    taken id w + (w.st.voterD id).withdrawable (w0.clock / 1000000 + D * 86400000)
        ≤ taken id w0 + (w0.st.voterD id).withdrawable (w0.clock / 1000000 + D * 86400000) := by
  suffices taken id w + due (w0.clock / 1000000 + D * 86400000) (w.st.voterD id).balance
      (w.st.voterD id).locking_positions ≤ taken id w0 + due (w0.clock / 1000000 + D * 86400000)
      (w0.st.voterD id).balance (w0.st.voterD id).locking_positions ∧
      LongLocked D (w.st.voterD id).locking_positions from this.1
  induction h with
  | start h => exact ⟨le_rfl, hlock⟩
  | @step w w' h hs hp ih =>
    obtain ⟨⟨hD, hnow⟩, hge⟩ := h.now
    obtain ⟨hD', hnow'⟩ := hp
    have hr := h.reach h0
    have hf := lreach_fundOK hr id
    have hL := lreach_ledger hr
    obtain ⟨ih1, ih2⟩ := ih
    cases hs with
    | call c k s' out hme hres hm hclock hu64 hran =>
      have he := hran.edits id
      rw [(call_not_callback k hres id).1] at he
      obtain ⟨h1, h2⟩ := Edits.due (H := w0.clock / 1000000 + D * 86400000) he hid hnow'
        (by have : w0.clock / 1000000 ≤ c.timestamp / 1000000 := Nat.div_le_div_right (hge.trans hclock)
            simp only [Ctx.now]; omega) hD ih2
        (hf.mono (Nat.div_le_div_right hclock))
      refine ⟨?_, h2⟩
      unfold taken at *
      simp only [amounts_append, logPaid_call]
      omega
    | resolve pre post t ok ts hpend hclock hu64 =>
      have hback := (callback_restores (J := J) (hL.pending t (by rw [hpend]; simp)) ⟨me, me, 0, ts, [ok]⟩ id).1
      unfold taken at *
      rw [hpend] at ih1
      simp only [amounts_append, amounts_cons, logPaid_resolved] at *
      cases hx : exec J w.st ⟨me, me, 0, ts, [ok]⟩ t.callbackCall with
      | error e =>
        simp only [Res.getOr]
        refine ⟨?_, ih2⟩
        cases ok <;> cases hm : mpOf id t <;> simp [hm] at ih1 ⊢ <;> omega
      | ok r =>
        simp only [Res.getOr]
        have he := exec_edits (s' := r.1) (out := r.2) hx id
        obtain ⟨h1, h2⟩ := Edits.due (H := w0.clock / 1000000 + D * 86400000) he hid hnow'
          (by have : w0.clock / 1000000 ≤ ts / 1000000 := Nat.div_le_div_right (hge.trans hclock)
              simp only [Ctx.now]; omega) hD ih2
          (hf.mono (Nat.div_le_div_right hclock))
        refine ⟨?_, h2⟩
        rw [hback] at h1
        cases ok <;> cases hm : mpOf id t <;> simp [hm] at ih1 h1 ⊢ <;> omega
    | tick ts hclock hu64 => exact ⟨ih1, ih2⟩

/-- **C10**, the bound on what leaves. -/
theorem C10_bound {J : Json} {me : AccountId} {w0 w : World} (h0 : LReach J me w0) {id : String}
    (hid : ¬ mirrored id) {D : Nat}
    (hlock : ∀ p ∈ (w0.st.voterD id).locking_positions, p.unlocking_started_at = none → D ≤ p.locking_period)
    (h : While J me (inWindow D w0) w0 w) :
    taken id w ≤ taken id w0 + (w0.st.voterD id).withdrawable (w0.clock / 1000000 + D * 86400000) :=
  (Nat.le_add_right _ _).trans (C10_unbonding h0 hid hlock h)

/-- Runs inside a window. -/
def runsWhile (J : Json) (me : AccountId) (P : World → Prop) [DecidablePred P] (w : World) :
    List Action → Option World
  | [] => some w
  | a :: l => match act J me w a with
    | some w' => if P w' then runsWhile J me P w' l else none
    | none => none

theorem while_of_runs {J : Json} {me : AccountId} {P : World → Prop} [DecidablePred P] {w0 : World} :
    ∀ {l : List Action} {w w' : World}, While J me P w0 w → runsWhile J me P w l = some w' →
      While J me P w0 w'
  | [], w, w', hw, h => by cases h; exact hw
  | a :: l, w, w', hw, h => by
    simp only [runsWhile] at h
    split at h
    · rename_i w1 hw1
      split at h
      · rename_i hp
        exact while_of_runs (hw.step (step_of_act hw1).loose hp) h
      · simp at h
    · simp at h

instance (D : Nat) (w0 : World) : DecidablePred (inWindow D w0) := fun _ => by
  unfold inWindow; infer_instance

/-- A contract with a minimum of 20 days; alice unlocks 10 of its 70 mpDAO, five days pass. -/
def windowStart : World := (runs demoJ "me" (initWorld 20 300 1000000 3 2)
  [ .call "mpdao" 0 1000 (.ft_on_transfer "alice" 60000000 (ascii "60")),
    .call "mpdao" 0 3000 (.ft_on_transfer "alice" 10000000 (ascii "20")),
    .call "alice" 0 11000 (.unlock_position 1),
    .tick (5 * DAY) ]).get (by decide +kernel)

theorem windowStart_reach : Reach demoJ "me" windowStart :=
  (Reach.init (initWorld_init (by decide))).steps (steps_of_runs (Option.some_get _).symm)

/-- Within the 20 days that follow, alice unlocks more, splits, relocks, and withdraws all it can. -/
def windowEnd : World := (runsWhile demoJ "me" (inWindow 20 windowStart) windowStart
  [ .call "alice" 0 (5 * DAY) (.unlock_partial_position 0 20000000),
    .call "alice" 0 (6 * DAY) (.unlock_position 0),
    .call "alice" 0 (7 * DAY) (.relock_position 0 70 0),
    .call "alice" 1 (21 * DAY) .withdraw_all,
    .resolve 0 true (22 * DAY),
    .call "alice" 0 (22 * DAY) (.unlock_position 1) ]).get (by decide +kernel)

/-- The hypotheses of C10 are met, and its bound is reached. -/
example : While demoJ "me" (inWindow 20 windowStart) windowStart windowEnd ∧
    (∀ p ∈ (windowStart.st.voterD "alice").locking_positions, p.unlocking_started_at = none → 20 ≤ p.locking_period) ∧
    taken "alice" windowStart = 0 ∧ taken "alice" windowEnd = 10000000 ∧
    (windowStart.st.voterD "alice").withdrawable (windowStart.clock / 1000000 + 20 * 86400000) = 10000000 :=
  ⟨while_of_runs (.start (by decide +kernel)) (Option.some_get _).symm, by decide +kernel, by decide +kernel,
    by decide +kernel, by decide +kernel⟩

/-! ## C30: periods within the limits -/

/-- **C30** (part): in every reachable world every position has a period below 3600 days. -/
theorem C30_below_partial {J : Json} {me : AccountId} {w : World} (h : LReach J me w) (id : String) :
    ∀ p ∈ (w.st.voterD id).locking_positions, p.locking_period < 3600 := by
  refine h.state_inv (P := fun s => ∀ p ∈ (s.voterD id).locking_positions, p.locking_period < 3600) ?_ ?_
  · intro w h
    cases h with
    | mk o op a b d l v m st r p ts s hr hts hn =>
      obtain ⟨-, -, rfl⟩ := new_ok hn
      simp [State.voterD]
  · intro s c k s' out hs hx
    exact (hx.edits id).periods (Q := (· < 3600)) (fun _ _ _ h => power_period h.power)
      (fun _ _ _ _ _ _ _ _ h => power_period h) (fun _ _ _ _ h => power_period h) hs

/-- **C30** (part): every call except `locking_position_extend_days` only sets periods within the limits in
force: a period of a position after the call was there before or is within the limits.  An extension
can only set the period it is given, which exceeds that of an existing position and is below 3600. -/
theorem C30_step_partial {J : Json} {s s' : State} {c : Ctx} {k : Call} {out : List Transfer}
    (hx : exec J s c k = .ok (s', out)) {id : String} (hid : ¬ mirrored id) :
    ∀ p ∈ (s'.voterD id).locking_positions,
      (∃ q ∈ (s.voterD id).locking_positions, q.locking_period = p.locking_period) ∨
      (s.min_unbond_period ≤ p.locking_period ∧ p.locking_period ≤ s.max_unbond_period) ∨
      (id = c.predecessor ∧ p.locking_period < 3600 ∧
        ∃ i, k = .locking_position_extend_days i p.locking_period) := by
  refine (exec_edits hx id).periods (Q := fun d => (∃ q ∈ (s.voterD id).locking_positions, q.locking_period = d) ∨
      (s.min_unbond_period ≤ d ∧ d ≤ s.max_unbond_period) ∨
      (id = c.predecessor ∧ d < 3600 ∧ ∃ i, k = .locking_position_extend_days i d)) ?_ ?_ ?_ ?_
  · exact fun _ _ _ h => .inr (.inl ⟨h.min, h.max⟩)
  · exact fun i p d vp hk hid _ _ hvp => .inr (.inr ⟨hid, power_period hvp, i, hk⟩)
  · exact fun hm => absurd hm hid
  · exact fun p hp => .inl ⟨p, hp, rfl⟩

/-- Neither an extension nor a change of the limits. -/
def limitsKept (_ : State) (_ : Ctx) : Call → Prop
  | .locking_position_extend_days .. | .update_min_unbond_period _ | .update_max_unbond_period _ => False
  | _ => True

instance (s : State) (c : Ctx) (k : Call) : Decidable (limitsKept s c k) := by
  cases k <;> simp only [limitsKept] <;> infer_instance

/-- **C30** (part): without extensions and changes of the limits, every position of an account that is not
mirrored has a period within the limits. -/
theorem C30_limits_partial {J : Json} {me : AccountId} {w : World} (h : LReachG J me limitsKept w) {id : String}
    (hid : ¬ mirrored id) : ∀ p ∈ (w.st.voterD id).locking_positions,
      w.st.min_unbond_period ≤ p.locking_period ∧ p.locking_period ≤ w.st.max_unbond_period := by
  refine h.state_inv (P := fun s => ∀ p ∈ (s.voterD id).locking_positions,
      s.min_unbond_period ≤ p.locking_period ∧ p.locking_period ≤ s.max_unbond_period) ?_ ?_ ?_
  · intro w h
    cases h with
    | mk o op a b d l v m st r p ts s hr hts hn =>
      obtain ⟨-, -, rfl⟩ := new_ok hn
      simp [State.voterD]
  · intro s c t
    unfold Transfer.callbackCall
    cases t.callback <;> trivial
  · intro s c k s' out hs hg hx
    have hcfg := hx.config
    have hlim : s'.min_unbond_period = s.min_unbond_period ∧ s'.max_unbond_period = s.max_unbond_period := by
      have h1 : s'.config.minUnbond = (configAfter s.config k).minUnbond := by rw [hcfg]
      have h2 : s'.config.maxUnbond = (configAfter s.config k).maxUnbond := by rw [hcfg]
      cases k <;> first | exact ⟨h1, h2⟩ | exact hg.elim
    rw [hlim.1, hlim.2]
    refine (hx.edits id).periods (Q := fun d => s.min_unbond_period ≤ d ∧ d ≤ s.max_unbond_period)
      (fun _ _ _ h => ⟨h.min, h.max⟩) ?_ (fun hm => absurd hm hid) hs
    rintro i p d vp rfl
    exact hg.elim

/-- **C30** fails: after an extension to 500 days, with the maximum at 300, the position is locked for 500. -/
theorem C30_false : ∃ w : World, Reach demoJ "me" w ∧ ∃ p ∈ (w.st.voterD "alice").locking_positions,
    p.unlocking_started_at = none ∧ w.st.max_unbond_period < p.locking_period := by
  refine ⟨(runs demoJ "me" demo [.call "alice" 0 (2 * DAY) (.locking_position_extend_days 0 500)]).get
    (by decide +kernel), demo_reach.steps (steps_of_runs (Option.some_get _).symm), ?_⟩
  exact ⟨⟨60000000, 500, 500000000000000000000000000, none⟩, by decide +kernel, rfl, by decide +kernel⟩

/-- A guarded run with positions: the hypothesis of `C30_limits_partial` can be met. -/
def limitsRun : World := (runsG demoJ "me" limitsKept demo0
  [ .call "mpdao" 0 1000 (.ft_on_transfer "alice" 60000000 (ascii "60")),
    .call "alice" 0 2000 (.unlock_position 0),
    .call "alice" 0 3000 (.relock_partial_position 0 20000000 90 0) ]).get (by decide +kernel)

example : LReachG demoJ "me" limitsKept limitsRun ∧
    (limitsRun.st.voterD "alice").locking_positions.map (·.locking_period) = [60, 90] :=
  ⟨(reachG_of_runs (.init demo0_init) (Option.some_get _).symm).loose, by decide +kernel⟩

/-! ## C31: one locked position per period -/

/-- An extension does not choose the period of another locked position of the caller. -/
def extendsApart (s : State) (c : Ctx) : Call → Prop
  | .locking_position_extend_days _ d =>
    ∀ p ∈ (s.voterD c.predecessor).locking_positions, p.unlocking_started_at = none → p.locking_period ≠ d
  | _ => True

instance (s : State) (c : Ctx) (k : Call) : Decidable (extendsApart s c k) := by
  cases k <;> simp only [extendsApart] <;> infer_instance

/-- **C31** (part): as long as nobody extends a position to the period of another of its locked positions,
no two locked positions of an account (mirrored or not) have the same period. -/
theorem C31_one_per_period_partial {J : Json} {me : AccountId} {w : World} (h : LReachG J me extendsApart w)
    (id : String) {i j : Nat} {p q : LockingPosition}
    (hp : (w.st.voterD id).locking_positions[i]? = some p) (hq : (w.st.voterD id).locking_positions[j]? = some q)
    (hpl : p.unlocking_started_at = none) (hql : q.unlocking_started_at = none)
    (hd : p.locking_period = q.locking_period) : i = j := by
  have hpw : (w.st.voterD id).locking_positions.Pairwise Apart := by
    refine h.state_inv (P := fun s => (s.voterD id).locking_positions.Pairwise Apart) ?_ ?_ ?_
    · intro w h
      cases h with
      | mk o op a b d l v m st r p ts s hr hts hn =>
        obtain ⟨-, -, rfl⟩ := new_ok hn
        simp [State.voterD]
    · intro s c t
      unfold Transfer.callbackCall
      cases t.callback <;> trivial
    · intro s c k s' out hs hg hx
      refine (hx.edits id).apart ?_ hs
      rintro i d rfl rfl
      exact hg
  rw [List.pairwise_iff_getElem] at hpw
  obtain ⟨hi, rfl⟩ := List.getElem?_eq_some_iff.1 hp
  obtain ⟨hj, rfl⟩ := List.getElem?_eq_some_iff.1 hq
  rcases Nat.lt_trichotomy i j with h1 | h1 | h1
  · exact absurd ⟨hpl, hql, hd⟩ (hpw i j hi hj h1)
  · exact h1
  · exact absurd ⟨hql, hpl, hd.symm⟩ (hpw j i hj hi h1)

/-- **C31** fails: alice extends a 10-day position to 60 days while holding another of 60 days. -/
theorem C31_false : ∃ w : World, Reach demoJ "me" w ∧ ∃ p q : LockingPosition,
    (w.st.voterD "alice").locking_positions = [p, q] ∧ p.unlocking_started_at = none ∧
    q.unlocking_started_at = none ∧ p.locking_period = q.locking_period := by
  refine ⟨(runs demoJ "me" demo0
    [ .call "mpdao" 0 1000 (.ft_on_transfer "alice" 60000000 (ascii "60")),
      .call "mpdao" 0 3000 (.ft_on_transfer "alice" 10000000 (ascii "10")),
      .call "alice" 0 4000 (.locking_position_extend_days 1 60) ]).get
    (by decide +kernel), reach_of_runs demo0_init (Option.some_get _).symm, ?_⟩
  exact ⟨⟨60000000, 60, 60000000000000000000000000, none⟩, ⟨10000000, 60, 10000000000000000000000000, none⟩,
    by decide +kernel, rfl, rfl, rfl⟩

example : ∃ w, LReachG demoJ "me" extendsApart w ∧
    (w.st.voterD "alice").locking_positions.map (·.locking_period) = [60, 90, 80] := by
  refine ⟨(runsG demoJ "me" extendsApart demo0
    [ .call "mpdao" 0 1000 (.ft_on_transfer "alice" 60000000 (ascii "60")),
      .call "mpdao" 0 3000 (.ft_on_transfer "alice" 10000000 (ascii "10")),
      .call "mpdao" 0 3000 (.ft_on_transfer "alice" 10000000 (ascii "80")),
      .call "mpdao" 0 3000 (.ft_on_transfer "alice" 10000000 (ascii "80")),
      .call "alice" 0 4000 (.locking_position_extend_days 1 90) ]).get (by decide +kernel),
    (reachG_of_runs (.init demo0_init) (Option.some_get _).symm).loose, by decide +kernel⟩

/-! ## C32: the minimum deposit -/

/-- `relock_position` is used for at least the minimum, and so are the positions migrated. -/
def relocksMinimum (s : State) (c : Ctx) : Call → Prop
  | .relock_position i _ x => ∀ p ∈ (s.voterD c.predecessor).locking_positions[i]?, s.min_deposit_amount ≤ p.amount + x
  | .migration_create_lps _ l _ => ∀ lp ∈ l, s.min_deposit_amount ≤ lp.1 / 1000000000000000000
  | _ => True

instance (s : State) (c : Ctx) (k : Call) : Decidable (relocksMinimum s c k) := by
  cases k <;> simp only [relocksMinimum] <;> infer_instance

/-- **C32** (part): every locked position of an account that is not mirrored holds at least the minimum, as
long as `relock_position` is only used for at least the minimum and so are migrations.  (All the other
entry points, `relock_partial_position` included, enforce the minimum for locked positions.) -/
theorem C32_minimum_partial {J : Json} {me : AccountId} {w : World} (h : LReachG J me relocksMinimum w)
    {id : String} (hid : ¬ mirrored id) {p : LockingPosition}
    (hp : p ∈ (w.st.voterD id).locking_positions) (hl : p.unlocking_started_at = none) :
    w.st.min_deposit_amount ≤ p.amount := by
  suffices H : AtLeast w.st.min_deposit_amount (w.st.voterD id).locking_positions from H p hp hl
  refine h.state_inv (P := fun s => AtLeast s.min_deposit_amount (s.voterD id).locking_positions) ?_ ?_ ?_
  · intro w h
    cases h with
    | mk o op a b d l v m st r p ts s hr hts hn =>
      obtain ⟨-, -, rfl⟩ := new_ok hn
      simp [State.voterD, AtLeast]
  · intro s c t
    unfold Transfer.callbackCall
    cases t.callback <;> trivial
  · intro s c k s' out hs hg hx
    have hmin : s'.min_deposit_amount = s.min_deposit_amount := by
      have h1 : s'.config.minDeposit = (configAfter s.config k).minDeposit := by rw [hx.config]
      cases k <;> exact h1
    rw [hmin]
    refine (hx.edits id).atLeast hid ?_ ?_ hs
    · intro a d hk
      cases k <;> try exact hk.elim
      obtain ⟨lp, hlp, rfl, rfl⟩ := hk
      exact hg lp hlp
    · rintro i d x p rfl rfl hp
      exact hg p hp

/-- **C32** fails: a partial relock leaves half an mpDAO unlocking, and `relock_position` locks it again. -/
theorem C32_false : ∃ w : World, Reach demoJ "me" w ∧ ∃ p ∈ (w.st.voterD "alice").locking_positions,
    p.unlocking_started_at = none ∧ p.amount < w.st.min_deposit_amount := by
  refine ⟨(runs demoJ "me" demo0
    [ .call "mpdao" 0 1000 (.ft_on_transfer "alice" 60000000 (ascii "60")),
      .call "alice" 0 2000 (.unlock_position 0),
      .call "alice" 0 3000 (.relock_partial_position 0 59500000 90 0),
      .call "alice" 0 4000 (.relock_position 0 70 0) ]).get
    (by decide +kernel), reach_of_runs demo0_init (Option.some_get _).symm, ?_⟩
  exact ⟨⟨500000, 70, 583333333333333333333333, none⟩, by decide +kernel, rfl, by decide +kernel⟩

example : ∃ w, LReachG demoJ "me" relocksMinimum w ∧
    (w.st.voterD "alice").locking_positions.map (fun p => (p.amount, p.locking_period)) = [(20000000, 90), (40000000, 100)] := by
  refine ⟨(runsG demoJ "me" relocksMinimum demo0
    [ .call "mpdao" 0 1000 (.ft_on_transfer "alice" 60000000 (ascii "60")),
      .call "alice" 0 2000 (.unlock_position 0),
      .call "alice" 0 3000 (.relock_partial_position 0 20000000 90 0),
      .call "alice" 0 4000 (.relock_position 0 100 0) ]).get (by decide +kernel),
    (reachG_of_runs (.init demo0_init) (Option.some_get _).symm).loose, by decide +kernel⟩

/-! ## C33: re-locking -/

theorem notLocked_of_started {p : LockingPosition} {t : Nat} (h : p.unlocking_started_at = some t) (d : Nat) :
    isLockedFor d p = false := by simp [isLockedFor, h]

theorem swapRemove_locked {l : List LockingPosition} {i t d : Nat} {p : LockingPosition} (hp : l[i]? = some p)
    (ht : p.unlocking_started_at = some t) :
    lockedAmount d (swapRemove l i) = lockedAmount d l ∧
    (p :: restPositions d (swapRemove l i)).Perm (restPositions d l) := by
  have hn := notLocked_of_started ht d
  constructor
  · have := posSum_swapRemove (fun p => if isLockedFor d p then p.amount else 0) l i p hp
    simp only [hn] at this
    unfold lockedAmount
    simpa using this
  · obtain ⟨hi, rfl⟩ := List.getElem?_eq_some_iff.1 hp
    have := (swapRemove_perm l i hi).filter (fun p => !isLockedFor d p)
    rw [List.filter_cons_of_pos (by simp [hn])] at this
    exact this.symm

theorem set_locked {l : List LockingPosition} {i t d : Nat} {p q : LockingPosition} (hp : l[i]? = some p)
    (ht : p.unlocking_started_at = some t) (hq : q.unlocking_started_at = some t) :
    lockedAmount d (l.set i q) = lockedAmount d l ∧
    (p :: restPositions d (l.set i q)).Perm (q :: restPositions d l) := by
  have hn := notLocked_of_started ht d
  have hm := notLocked_of_started hq d
  constructor
  · have := posSum_set (fun p => if isLockedFor d p then p.amount else 0) l i p q hp
    simp only [hn, hm] at this
    unfold lockedAmount
    simpa using this
  · obtain ⟨hi, rfl⟩ := List.getElem?_eq_some_iff.1 hp
    have h1 := (List.set_perm_cons_eraseIdx hi q).filter (fun p => !isLockedFor d p)
    have h2 := (List.getElem_cons_eraseIdx_perm hi).filter (fun p => !isLockedFor d p)
    rw [List.filter_cons_of_pos (by simp [hm])] at h1
    rw [List.filter_cons_of_pos (by simp [hn])] at h2
    exact (h1.cons _).trans ((List.Perm.swap _ _ _).trans (h2.cons _))

/-- The caller locks `a` mpDAO for `d` days; `before`/`after` are its positions other than those locked for
`d` days. -/
structure Relocked (s s' : State) (id : String) (a d : Nat) (out : List Transfer) : Prop where
  out : out = []
  min : s.min_unbond_period ≤ d
  max : d ≤ s.max_unbond_period
  amount : lockedAmount d (s'.voterD id).locking_positions
    = lockedAmount d (s.voterD id).locking_positions + a
  avail : (s'.voterD id).available_voting_power
    = (s.voterD id).available_voting_power + a * 10 ^ 18 * d / 60
  total : s'.total_voting_power = s.total_voting_power + a * 10 ^ 18 * d / 60
  votes : (s'.voterD id).vote_positions = (s.voterD id).vote_positions
  others : ∀ i, i ≠ id → s'.voters.get i = s.voters.get i
  frame : s' = { s with voters := s'.voters, total_voting_power := s'.total_voting_power }

/-- End of the unbonding of a position that started at `t`. -/
def LockingPosition.endOf (p : LockingPosition) (t : Nat) : Nat := t + p.locking_period * 86400000

theorem deposit_relocked {s s' : State} {v v' : Voter} {a d : Nat} {id : String}
    (h : s.deposit_locking_position a d id v = .ok (s', v'))
    (hl : lockedAmount d v.locking_positions = lockedAmount d (s.voterD id).locking_positions)
    (ha : v.available_voting_power = (s.voterD id).available_voting_power)
    (hv : v.vote_positions = (s.voterD id).vote_positions) :
    Relocked s s' id a d [] ∧ (s'.voterD id).balance = v.balance ∧
      restPositions d (s'.voterD id).locking_positions = restPositions d v.locking_positions := by
  obtain ⟨vp, ps, h1, h2, -, -, h5, rfl, rfl⟩ := deposit_ok h
  obtain ⟨-, -, -, rfl⟩ := (C01_formula _ _ _).1 h1
  obtain ⟨l1, l2, l3⟩ := h5.locked
  rw [hl] at l1
  refine ⟨⟨rfl, h2.1, h2.2, ?_, ?_, rfl, ?_, fun i hi => UMap.get_insert_ne _ _ hi, rfl⟩, ?_, ?_⟩
  · simpa [State.voterD] using l1
  · simp only [State.voterD, UMap.get_insert_self, Option.getD_some] at ha ⊢; rw [ha]
  · simp only [State.voterD, UMap.get_insert_self, Option.getD_some] at hv ⊢; rw [hv]
  · simp [State.voterD]
  · simpa [State.voterD] using l3

/-- **C33**: an accepted `relock_position(i, d, x)`: the position was unlocking, and if its unbonding has not
ended the new period is longer than what remains; its whole amount plus `x` from the balance are now locked
for `d` days, and nothing else changes. -/
theorem C33_relock {J : Json} {s s' : State} {c : Ctx} {i d x : Nat} {out : List Transfer}
    (hx : exec J s c (.relock_position i d x) = .ok (s', out)) :
    ∃ p t, (s.voterD c.predecessor).locking_positions[i]? = some p ∧ p.unlocking_started_at = some t ∧
      (c.now < p.endOf t → p.endOf t - c.now < d * 86400000) ∧
      Relocked s s' c.predecessor (p.amount + x) d out ∧
      (s'.voterD c.predecessor).balance + x = (s.voterD c.predecessor).balance ∧
      (p :: restPositions d (s'.voterD c.predecessor).locking_positions).Perm
        (restPositions d (s.voterD c.predecessor).locking_positions) := by
  obtain ⟨-, -, -, hr⟩ := exec_ok.1 hx
  simp only [run, quiet_ok] at hr
  obtain ⟨hr, rfl⟩ := hr
  simp only [State.relock_position, bind_ok_iff, get_position_ok, require_ok_iff,
    subU_ok_iff, addU128_ok_iff, pure_ok_iff, expect_ok_iff, LockingPosition.locking_period_millis,
    millis_eq] at hr
  obtain ⟨v, hv, p, hp, -, hb, st, hst, -, hlong, am, ⟨-, rfl⟩, b, ⟨hb2, rfl⟩, ⟨s1, v1⟩, hd, rfl⟩ := hr
  obtain ⟨hv, rfl⟩ := get_voter_ok hv
  obtain ⟨e1, e2⟩ := swapRemove_locked (d := d) hp hst
  obtain ⟨h1, h2, h3⟩ := deposit_relocked hd e1 rfl rfl
  refine ⟨p, st, hp, hst, hlong, h1, ?_, ?_⟩
  · rw [h2]; simp only [Voter.remove_position] at hb ⊢; omega
  · rw [h3]; exact e2

/-- **C33**: an accepted `relock_partial_position(i, a, d, x)`: the position was unlocking and holds at least
`a`; `a + x` is at least the minimum and is now locked for `d` days.  If the unbonding has not ended, the new
period is longer than what remains, the position keeps a positive rest with the same start and period;
otherwise the position is gone and its rest goes to the balance.  Nothing else changes. -/
theorem C33_relock_part {J : Json} {s s' : State} {c : Ctx} {i a d x : Nat} {out : List Transfer}
    (hx : exec J s c (.relock_partial_position i a d x) = .ok (s', out)) :
    ∃ p t, (s.voterD c.predecessor).locking_positions[i]? = some p ∧ p.unlocking_started_at = some t ∧
      a ≤ p.amount ∧ s.min_deposit_amount ≤ x + a ∧ x ≤ (s.voterD c.predecessor).balance ∧
      Relocked s s' c.predecessor (x + a) d out ∧
      (c.now < p.endOf t → p.endOf t - c.now < d * 86400000 ∧ a < p.amount ∧
        (s'.voterD c.predecessor).balance + x = (s.voterD c.predecessor).balance ∧
        (p :: restPositions d (s'.voterD c.predecessor).locking_positions).Perm
          (⟨p.amount - a, p.locking_period, (p.amount - a) * 10 ^ 18 * p.locking_period / 60, some t⟩ ::
            restPositions d (s.voterD c.predecessor).locking_positions)) ∧
      (p.endOf t ≤ c.now →
        (s'.voterD c.predecessor).balance + x = (s.voterD c.predecessor).balance + (p.amount - a) ∧
        (p :: restPositions d (s'.voterD c.predecessor).locking_positions).Perm
          (restPositions d (s.voterD c.predecessor).locking_positions)) := by
  obtain ⟨-, -, -, hr⟩ := exec_ok.1 hx
  simp only [run, quiet_ok] at hr
  obtain ⟨hr, rfl⟩ := hr
  simp only [State.relock_partial_position, bind_ok_iff, get_position_ok, require_ok_iff,
    subU_ok_iff, addU128_ok_iff, pure_ok_iff, expect_ok_iff, LockingPosition.locking_period_millis,
    millis_eq] at hr
  obtain ⟨v, hv, p, hp, -, hb, -, hap, am, ⟨-, rfl⟩, -, hmin, st, hst, v1, hv1, b, ⟨hb1, rfl⟩, ⟨s1, v2⟩, hd,
    rfl⟩ := hr
  obtain ⟨hv, rfl⟩ := get_voter_ok hv
  refine ⟨p, st, hp, hst, hap, hmin, hb, ?_⟩
  split at hv1
  · rename_i hnow
    simp only [bind_ok_iff, require_ok_iff, subU_ok_iff, pure_ok_iff] at hv1
    obtain ⟨-, hlong, na, ⟨-, rfl⟩, -, -, -, hpos, vp2, hvp2, rfl⟩ := hv1
    obtain ⟨-, -, -, rfl⟩ := (C01_formula _ _ _).1 hvp2
    obtain ⟨e1, e2⟩ := set_locked (d := d) (q := ⟨p.amount - a, p.locking_period,
      (p.amount - a) * 10 ^ 18 * p.locking_period / 60, some st⟩) hp hst rfl
    rw [show ({ p with amount := p.amount - a, voting_power := (p.amount - a) * 10 ^ 18 * p.locking_period / 60 } :
      LockingPosition) = ⟨p.amount - a, p.locking_period, (p.amount - a) * 10 ^ 18 * p.locking_period / 60, some st⟩ by
        rw [hst]] at hd
    obtain ⟨h1, h2, h3⟩ := deposit_relocked hd e1 rfl rfl
    refine ⟨h1, fun _ => ⟨hlong, by omega, ?_, ?_⟩, fun h => ?_⟩
    · rw [h2]; simp only [Voter.replace_position] at hb ⊢; omega
    · rw [h3]; exact e2
    · unfold LockingPosition.endOf at h; omega
  · rename_i hnow
    simp only [bind_ok_iff, addU128_ok_iff, subU_ok_iff, pure_ok_iff] at hv1
    obtain ⟨re, ⟨-, rfl⟩, nb, ⟨hfit, rfl⟩, rfl⟩ := hv1
    obtain ⟨e1, e2⟩ := swapRemove_locked (d := d) hp hst
    obtain ⟨h1, h2, h3⟩ := deposit_relocked hd e1 rfl rfl
    refine ⟨h1, fun h => ?_, fun _ => ⟨?_, ?_⟩⟩
    · unfold LockingPosition.endOf at h; omega
    · rw [h2]; simp only [Voter.remove_position] at hb hb1 ⊢; omega
    · rw [h3]; exact e2

/-- **C33**: an accepted `relock_from_balance(d, x)` locks exactly `x`, at least the minimum, of the balance. -/
theorem C33_from_balance {J : Json} {s s' : State} {c : Ctx} {d x : Nat} {out : List Transfer}
    (hx : exec J s c (.relock_from_balance d x) = .ok (s', out)) :
    s.min_deposit_amount ≤ x ∧ Relocked s s' c.predecessor x d out ∧
      (s'.voterD c.predecessor).balance + x = (s.voterD c.predecessor).balance ∧
      restPositions d (s'.voterD c.predecessor).locking_positions
        = restPositions d (s.voterD c.predecessor).locking_positions := by
  obtain ⟨-, -, -, hr⟩ := exec_ok.1 hx
  simp only [run, quiet_ok] at hr
  obtain ⟨hr, rfl⟩ := hr
  simp only [State.relock_from_balance, bind_ok_iff, require_ok_iff, subU_ok_iff, pure_ok_iff] at hr
  obtain ⟨v, hv, -, hb, -, hm, b, ⟨-, rfl⟩, ⟨s1, v1⟩, hd, rfl⟩ := hr
  obtain ⟨hv, rfl⟩ := get_voter_ok hv
  obtain ⟨h1, h2, h3⟩ := deposit_relocked hd rfl rfl rfl
  exact ⟨hm, h1, by rw [h2]; simp only; omega, h3⟩

/-- Relocks accepted: before and after the end of the unbonding, whole and partial, and from the balance. -/
example : Res.isOk (exec demoJ demo.st ⟨"me", "alice", 0, 5 * DAY, []⟩ (.relock_position 1 60 0)) = true ∧
    Res.isOk (exec demoJ demo.st ⟨"me", "alice", 0, 5 * DAY, []⟩ (.relock_position 1 5 0)) = false ∧
    Res.isOk (exec demoJ demo.st ⟨"me", "alice", 0, 5 * DAY, []⟩ (.relock_partial_position 1 3000000 6 0)) = true ∧
    Res.isOk (exec demoJ demo.st ⟨"me", "alice", 0, 11 * DAY, []⟩ (.relock_partial_position 1 3000000 6 2000000)) = false ∧
    Res.isOk (exec demoJ demo.st ⟨"me", "alice", 0, 11 * DAY, []⟩ (.relock_partial_position 1 3000000 6 0)) = true ∧
    (∃ r, exec demoJ demo.st ⟨"me", "alice", 0, 11 * DAY, []⟩ (.clear_locking_position [1]) = .ok r ∧
      Res.isOk (exec demoJ r.1 ⟨"me", "alice", 0, 11 * DAY, []⟩ (.relock_from_balance 6 3000000)) = true) := by
  refine ⟨by decide +kernel, by decide +kernel, by decide +kernel, by decide +kernel, by decide +kernel, ?_⟩
  cases h : exec demoJ demo.st ⟨"me", "alice", 0, 11 * DAY, []⟩ (.clear_locking_position [1]) with
  | error e =>
    have : Res.isOk (exec demoJ demo.st ⟨"me", "alice", 0, 11 * DAY, []⟩ (.clear_locking_position [1])) = true := by
      decide +kernel
    rw [h] at this; cases this
  | ok r =>
    refine ⟨r, rfl, ?_⟩
    have : (match exec demoJ demo.st ⟨"me", "alice", 0, 11 * DAY, []⟩ (.clear_locking_position [1]) with
      | .ok r => Res.isOk (exec demoJ r.1 ⟨"me", "alice", 0, 11 * DAY, []⟩ (.relock_from_balance 6 3000000))
      | .error _ => false) = true := by decide +kernel
    rw [h] at this
    exact this

end Verif.MetaVote
