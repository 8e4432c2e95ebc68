import Verif.MetaVote.Edit
import Verif.MetaVote.Ledger

/-!
# The unbonding period: what can leave an account before a date
-/

namespace Verif.MetaVote

open Verif

/-- Amount of the position if its unbonding ends before `H`. -/
def dueBy (H : Nat) (p : LockingPosition) : Nat := if p.matured H then p.amount else 0

/-- Balance plus the positions due before `H`. -/
def due (H b : Nat) (l : List LockingPosition) : Nat := b + posSum (dueBy H) l

theorem dueBy_locked {H : Nat} {p : LockingPosition} (h : p.unlocking_started_at = none) : dueBy H p = 0 := by
  unfold dueBy
  rw [if_neg]
  rintro ⟨t, ht, -⟩
  rw [h] at ht; cases ht

theorem dueBy_started {H t : Nat} {p : LockingPosition} (h : p.unlocking_started_at = some t) :
    dueBy H p = if t + p.locking_period * 86400000 < H then p.amount else 0 := by
  unfold dueBy LockingPosition.matured
  simp only [h, Option.some.injEq, exists_eq_left']

theorem dueBy_le (H : Nat) (p : LockingPosition) : dueBy H p ≤ p.amount := by
  unfold dueBy; split <;> omega

/-- Every locked position has a period of at least `D` days. -/
def LongLocked (D : Nat) (l : List LockingPosition) : Prop :=
  ∀ p ∈ l, p.unlocking_started_at = none → D ≤ p.locking_period

theorem Dep.due {l ps : List LockingPosition} {m a d vp : Nat} (h : Dep l m a d vp ps) (H : Nat) :
    posSum (dueBy H) ps = posSum (dueBy H) l := by
  cases h with
  | increase i p hf hp hd hl ha hv =>
    have := posSum_set (dueBy H) _ i p ⟨p.amount + a, d, p.voting_power + vp, none⟩ hp
    rw [dueBy_locked hl, dueBy_locked (p := ⟨p.amount + a, d, p.voting_power + vp, none⟩) rfl] at this
    simpa using this
  | create hf hlen =>
    rw [posSum_append, posSum_single, dueBy_locked rfl]; rfl

theorem Dep.long {l ps : List LockingPosition} {m a d vp D : Nat} (h : Dep l m a d vp ps) (hd : D ≤ d)
    (hl : LongLocked D l) : LongLocked D ps := by
  cases h with
  | increase i p hf hp hd' hlk ha hv =>
    intro q hq hn
    rcases List.mem_or_eq_of_mem_set hq with hq | rfl
    · exact hl q hq hn
    · exact hd
  | create hf hlen =>
    intro q hq hn
    rcases List.mem_append.1 hq with hq | hq
    · exact hl q hq hn
    · rw [List.mem_singleton] at hq; subst hq; exact hd

theorem LongLocked.swapRemove {l : List LockingPosition} {D i : Nat} {p : LockingPosition}
    (h : LongLocked D l) (hp : l[i]? = some p) : LongLocked D (swapRemove l i) :=
  fun q hq => h q (swapRemove_mem hp hq)

theorem LongLocked.set {l : List LockingPosition} {D i : Nat} {q : LockingPosition}
    (h : LongLocked D l) (hq : q.unlocking_started_at = none → D ≤ q.locking_period) :
    LongLocked D (l.set i q) := by
  intro r hr hn
  rcases List.mem_or_eq_of_mem_set hr with hr | rfl
  · exact h r hr hn
  · exact hq hn

/-- An elementary change before `H` cannot raise what is due by `H`, except for refunds. -/
theorem Edit.due {s : State} {c : Ctx} {k : Call} {id : String} {b b' : Nat} {l l' : List LockingPosition}
    {x y D H : Nat} (h : Edit s c k id b l b' l' x y) (hm : ¬ mirrored id) (hnow : c.now < H)
    (hH : H ≤ c.now + D * 86400000) (hD : D ≤ s.min_unbond_period) (hl : LongLocked D l)
    (hf : FundOK c.now b l) :
    MetaVote.due H b' l' + x ≤ MetaVote.due H b l + y ∧ LongLocked D l' := by
  unfold MetaVote.due
  cases h with
  | @clear i p hp hmat hb =>
    refine ⟨?_, hl.swapRemove hp⟩
    have := posSum_swapRemove (dueBy H) l i p hp
    obtain ⟨t, ht, hlt⟩ := hmat
    rw [dueBy_started ht, if_pos (by omega)] at this
    omega
  | pay h0 h => exact ⟨by omega, hl⟩
  | back h => exact ⟨by omega, hl⟩
  | deposit hok hmin hd => exact ⟨by rw [hd.due], hd.long (hD.trans hok.min) hl⟩
  | migrate hk hok hd => exact ⟨by rw [hd.due], hd.long (hD.trans hok.min) hl⟩
  | @unlock i p hk hp =>
    refine ⟨?_, hl.set (fun h => by cases h)⟩
    have := posSum_set (dueBy H) l i p { p with unlocking_started_at := some c.now } hp
    rw [dueBy_started (p := { p with unlocking_started_at := some c.now }) rfl] at this
    cases hs : p.unlocking_started_at with
    | none =>
      have hper := hl p (List.mem_of_getElem? hp) hs
      have : ¬ c.now + p.locking_period * 86400000 < H := by
        have := Nat.mul_le_mul_right 86400000 hper; omega
      simp only [this, if_false] at *
      omega
    | some t =>
      have ht := hf.2 p (List.mem_of_getElem? hp) t hs
      rw [dueBy_started hs] at this
      simp only at this
      split at this <;> split at this <;> omega
  | @split i a vp p hk hp ha hmin h1 hvp hle hlen =>
    have hp' : (l ++ [(⟨a, p.locking_period, vp, some c.now⟩ : LockingPosition)])[i]? = some p := by
      rw [List.getElem?_append_left (List.getElem?_eq_some_iff.1 hp).1]; exact hp
    have hset := posSum_set (dueBy H) _ i p
      { p with voting_power := p.voting_power - vp, amount := p.amount - a } hp'
    rw [posSum_append, posSum_single, dueBy_started (p := ⟨a, p.locking_period, vp, some c.now⟩) rfl] at hset
    constructor
    · cases hs : p.unlocking_started_at with
      | none =>
        have hper := hl p (List.mem_of_getElem? hp) hs
        have hnd : ¬ c.now + p.locking_period * 86400000 < H := by
          have := Nat.mul_le_mul_right 86400000 hper; omega
        rw [dueBy_locked hs, dueBy_locked (p := { p with voting_power := p.voting_power - vp, amount := p.amount - a }) hs]
          at hset
        simp only [hnd, if_false] at hset
        rw [hs] at hset
        omega
      | some t =>
        have ht := hf.2 p (List.mem_of_getElem? hp) t hs
        rw [dueBy_started hs, dueBy_started (p := { p with voting_power := p.voting_power - vp, amount := p.amount - a }) hs]
          at hset
        simp only at hset
        rw [hs] at hset
        split at hset <;> split at hset <;> omega
    · refine LongLocked.set ?_ (fun h => hl p (List.mem_of_getElem? hp) h)
      intro q hq hn
      rcases List.mem_append.1 hq with hq | hq
      · exact hl q hq hn
      · rw [List.mem_singleton] at hq; subst hq; cases hn
  | @extend i d vp p hk hid hs hp hlk hd hvp =>
    refine ⟨?_, hl.set (fun _ => by have := hl p (List.mem_of_getElem? hp) hlk; simp only; omega)⟩
    have := posSum_set (dueBy H) l i p { p with locking_period := d, voting_power := vp } hp
    rw [dueBy_locked hlk, dueBy_locked (p := { p with locking_period := d, voting_power := vp }) hlk] at this
    omega
  | relock hk hid hs hp ht hx hlong hok hd =>
    refine ⟨?_, hd.long (hD.trans hok.min) (hl.swapRemove hp)⟩
    have := posSum_swapRemove (dueBy H) l _ _ hp
    rw [hd.due]; omega
  | @relockPart _ i a d x t _ vp2 p hk hp ht hx ha hmin hnow' hlong hvp2 hok hd =>
    refine ⟨?_, hd.long (hD.trans hok.min) (hl.set (fun h => by rw [show _ = none from h] at ht; cases ht))⟩
    have := posSum_set (dueBy H) l i p { p with amount := p.amount - a, voting_power := vp2 } hp
    rw [hd.due]
    rw [dueBy_started ht, dueBy_started (p := { p with amount := p.amount - a, voting_power := vp2 }) ht] at this
    simp only at this
    split at this <;> omega
  | relockEnded hk hp ht hx ha hmin hnow' hfit hok hd =>
    refine ⟨?_, hd.long (hD.trans hok.min) (hl.swapRemove hp)⟩
    have := posSum_swapRemove (dueBy H) l _ _ hp
    rw [dueBy_started ht, if_pos (by omega)] at this
    rw [hd.due]; omega
  | relockBalance hk hx hmin hok hd => exact ⟨by rw [hd.due]; omega, hd.long (hD.trans hok.min) hl⟩
  | mirror hk hmm => exact absurd hmm hm

theorem Edits.due {s : State} {c : Ctx} {k : Call} {id : String} {b b' : Nat} {l l' : List LockingPosition}
    {x y D H : Nat} (h : Edits s c k id b l b' l' x y) (hm : ¬ mirrored id) (hnow : c.now < H)
    (hH : H ≤ c.now + D * 86400000) (hD : D ≤ s.min_unbond_period) (hl : LongLocked D l)
    (hf : FundOK c.now b l) :
    MetaVote.due H b' l' + x ≤ MetaVote.due H b l + y ∧ LongLocked D l' := by
  induction h with
  | refl => exact ⟨le_rfl, hl⟩
  | step h hs ih =>
    obtain ⟨h1, h2⟩ := ih hl hf
    obtain ⟨h3, h4⟩ := hs.due hm hnow hH hD h2 (h.fundOK hf)
    exact ⟨by omega, h4⟩

end Verif.MetaVote
