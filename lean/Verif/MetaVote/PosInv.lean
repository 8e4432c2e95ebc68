import Verif.MetaVote.Unbond
import Verif.MetaVote.Guard

/-!
# Invariants of positions under elementary changes
-/

namespace Verif.MetaVote

open Verif

theorem power_period {a d vp : Nat} (h : calculate_voting_power a d = .ok vp) : d < 3600 := by
  simp only [calculate_voting_power, bind_ok_iff, require_ok_iff] at h
  obtain ⟨_, _, _, h, _⟩ := h
  exact h

theorem Dep.all {l ps : List LockingPosition} {m a d vp : Nat} (h : Dep l m a d vp ps)
    {Q : LockingPosition → Prop} (hl : ∀ p ∈ l, Q p)
    (h1 : ∀ p ∈ l, p.locking_period = d → p.unlocking_started_at = none →
      Q ⟨p.amount + a, d, p.voting_power + vp, none⟩)
    (h2 : Q ⟨a, d, vp, none⟩) : ∀ p ∈ ps, Q p := by
  cases h with
  | increase i p hf hp hd hlk ha hv =>
    intro q hq
    rcases List.mem_or_eq_of_mem_set hq with hq | rfl
    · exact hl q hq
    · exact h1 p (List.mem_of_getElem? hp) hd hlk
  | create hf hlen =>
    intro q hq
    rcases List.mem_append.1 hq with hq | hq
    · exact hl q hq
    · rw [List.mem_singleton] at hq; subst hq; exact h2

theorem all_set {l : List LockingPosition} {i : Nat} {q : LockingPosition} {Q : LockingPosition → Prop}
    (hl : ∀ p ∈ l, Q p) (hq : Q q) : ∀ p ∈ l.set i q, Q p := by
  intro p hp
  rcases List.mem_or_eq_of_mem_set hp with hp | rfl
  · exact hl p hp
  · exact hq

theorem all_swapRemove {l : List LockingPosition} {i : Nat} {p : LockingPosition} {Q : LockingPosition → Prop}
    (hp : l[i]? = some p) (hl : ∀ p ∈ l, Q p) : ∀ p ∈ swapRemove l i, Q p :=
  fun q hq => hl q (swapRemove_mem hp hq)

/-- A property of the period only: kept by every change that sets periods satisfying it. -/
theorem Edit.periods {s : State} {c : Ctx} {k : Call} {id : String} {b b' : Nat} {l l' : List LockingPosition}
    {x y : Nat} (h : Edit s c k id b l b' l' x y) {Q : Nat → Prop}
    (hdep : ∀ a d vp, DepOK s a d vp → Q d)
    (hext : ∀ i (p : LockingPosition) d vp, k = .locking_position_extend_days i d → id = c.predecessor → p ∈ l →
      p.locking_period < d → calculate_voting_power p.amount d = .ok vp → Q d)
    (hmir : mirrored id → ∀ a d vp, calculate_voting_power a d = .ok vp → Q d)
    (hl : ∀ p ∈ l, Q p.locking_period) : ∀ p ∈ l', Q p.locking_period := by
  cases h with
  | clear hp hm hfit => exact all_swapRemove hp hl
  | pay h0 h => exact hl
  | back h => exact hl
  | deposit hok hmin hd => exact hd.all (Q := fun p => Q p.locking_period) hl (fun p hp he hn => hdep _ _ _ hok) (hdep _ _ _ hok)
  | migrate hk hok hd => exact hd.all (Q := fun p => Q p.locking_period) hl (fun p hp he hn => hdep _ _ _ hok) (hdep _ _ _ hok)
  | unlock hk hp =>
    have h0 := hl _ (List.mem_of_getElem? hp)
    exact all_set (Q := fun p => Q p.locking_period) hl h0
  | split hk hp ha hmin h1 hvp hle hlen =>
    have h0 := hl _ (List.mem_of_getElem? hp)
    refine all_set (Q := fun p => Q p.locking_period) ?_ h0
    intro q hq
    rcases List.mem_append.1 hq with hq | hq
    · exact hl q hq
    · rw [List.mem_singleton] at hq; subst hq; exact h0
  | extend hk hid hs hp hlk hd hvp =>
    exact all_set (Q := fun p => Q p.locking_period) hl (hext _ _ _ _ hk hid (List.mem_of_getElem? hp) hd hvp)
  | relock hk hid hs hp ht hx hlong hok hd =>
    exact hd.all (Q := fun p => Q p.locking_period) (all_swapRemove hp hl) (fun p hp he hn => hdep _ _ _ hok) (hdep _ _ _ hok)
  | relockPart hk hp ht hx ha hmin hnow hlong hvp2 hok hd =>
    have h0 := hl _ (List.mem_of_getElem? hp)
    exact hd.all (Q := fun p => Q p.locking_period)
      (all_set (Q := fun p => Q p.locking_period) hl h0)
      (fun p hp he hn => hdep _ _ _ hok) (hdep _ _ _ hok)
  | relockEnded hk hp ht hx ha hmin hnow hfit hok hd =>
    exact hd.all (Q := fun p => Q p.locking_period) (all_swapRemove hp hl) (fun p hp he hn => hdep _ _ _ hok) (hdep _ _ _ hok)
  | relockBalance hk hx hmin hok hd =>
    exact hd.all (Q := fun p => Q p.locking_period) hl (fun p hp he hn => hdep _ _ _ hok) (hdep _ _ _ hok)
  | mirror hk hm hps hnd => exact fun p hp => hmir hm _ _ _ (hps p hp).2

/-- The changes of one call: either none is an extension, or there is just one. -/
theorem Edits.periods {s : State} {c : Ctx} {k : Call} {id : String} {b b' : Nat} {l l' : List LockingPosition}
    {x y : Nat} (h : Edits s c k id b l b' l' x y) {Q : Nat → Prop}
    (hdep : ∀ a d vp, DepOK s a d vp → Q d)
    (hext : ∀ i (p : LockingPosition) d vp, k = .locking_position_extend_days i d → id = c.predecessor → Q p.locking_period →
      p.locking_period < d → calculate_voting_power p.amount d = .ok vp → Q d)
    (hmir : mirrored id → ∀ a d vp, calculate_voting_power a d = .ok vp → Q d)
    (hl : ∀ p ∈ l, Q p.locking_period) : ∀ p ∈ l', Q p.locking_period := by
  induction h with
  | refl => exact hl
  | step h hs ih =>
    exact hs.periods hdep (fun i p d vp h1 h2 hp h3 h4 => hext i p d vp h1 h2 (ih hl p hp) h3 h4) hmir (ih hl)

/-! ## One locked position per period -/

/-- Two positions that do not clash. -/
def Apart (p q : LockingPosition) : Prop :=
  ¬ (p.unlocking_started_at = none ∧ q.unlocking_started_at = none ∧ p.locking_period = q.locking_period)

theorem Apart.symm {p q : LockingPosition} (h : Apart p q) : Apart q p :=
  fun ⟨h1, h2, h3⟩ => h ⟨h2, h1, h3.symm⟩

theorem pairwise_set {l : List LockingPosition} {i : Nat} {q : LockingPosition}
    (hl : l.Pairwise Apart) (h : ∀ j r, l[j]? = some r → j ≠ i → Apart r q) : (l.set i q).Pairwise Apart := by
  rw [List.pairwise_iff_getElem] at hl ⊢
  intro a b ha hb hab
  simp only [List.length_set] at ha hb
  rw [List.getElem_set, List.getElem_set]
  by_cases h1 : i = a
  · subst h1
    rw [if_pos rfl, if_neg (by omega)]
    exact (h b _ (List.getElem?_eq_getElem hb) (by omega)).symm
  · rw [if_neg h1]
    by_cases h2 : i = b
    · subst h2
      rw [if_pos rfl]
      exact h a _ (List.getElem?_eq_getElem ha) (by omega)
    · rw [if_neg h2]; exact hl a b ha hb hab

/-- Replacing a position by one that clashes with no more positions. -/
theorem pairwise_set_mono {l : List LockingPosition} {i : Nat} {p q : LockingPosition} (hp : l[i]? = some p)
    (hl : l.Pairwise Apart) (h : ∀ r, Apart r p → Apart r q) : (l.set i q).Pairwise Apart := by
  refine pairwise_set hl fun j r hr hj => h r ?_
  rw [List.pairwise_iff_getElem] at hl
  obtain ⟨hi, rfl⟩ := List.getElem?_eq_some_iff.1 hp
  obtain ⟨hj', rfl⟩ := List.getElem?_eq_some_iff.1 hr
  rcases Nat.lt_or_gt_of_ne hj with h1 | h1
  · exact hl j i hj' hi h1
  · exact (hl i j hi hj' h1).symm

theorem pairwise_swapRemove {l : List LockingPosition} {i : Nat} {p : LockingPosition} (hp : l[i]? = some p)
    (hl : l.Pairwise Apart) : (swapRemove l i).Pairwise Apart := by
  have := (swapRemove_perm l i (List.getElem?_eq_some_iff.1 hp).1).pairwise hl (fun h => h.symm)
  exact this.of_cons

theorem Dep.apart {l ps : List LockingPosition} {m a d vp : Nat} (h : Dep l m a d vp ps)
    (hl : l.Pairwise Apart) : ps.Pairwise Apart := by
  cases h with
  | increase i p hf hp hd hlk ha hv =>
    refine pairwise_set_mono hp hl fun r hr => ?_
    rintro ⟨h1, h2, h3⟩
    exact hr ⟨h1, hlk, h3.trans hd.symm⟩
  | create hf hlen =>
    rw [List.pairwise_append]
    refine ⟨hl, by simp, ?_⟩
    intro p hp q hq
    rw [List.mem_singleton] at hq; subst hq
    rintro ⟨h1, -, h3⟩
    exact find_locked_none hf p hp h3 h1

/-- Every change keeps the locked positions apart, if extensions do. -/
theorem Edit.apart {s : State} {c : Ctx} {k : Call} {id : String} {b b' : Nat} {l l' : List LockingPosition}
    {x y : Nat} (h : Edit s c k id b l b' l' x y)
    (hext : ∀ i d, k = .locking_position_extend_days i d → id = c.predecessor →
      ∀ p ∈ (s.voterD id).locking_positions, p.unlocking_started_at = none → p.locking_period ≠ d)
    (hl : l.Pairwise Apart) : l'.Pairwise Apart := by
  cases h with
  | clear hp hm hfit => exact pairwise_swapRemove hp hl
  | pay h0 h => exact hl
  | back h => exact hl
  | deposit hok hmin hd => exact hd.apart hl
  | migrate hk hok hd => exact hd.apart hl
  | unlock hk hp => exact pairwise_set_mono hp hl fun r _ ⟨_, h, _⟩ => by cases h
  | @split i a vp p hk hp ha hmin h1 hvp hle hlen =>
    have hp' : (l ++ [(⟨a, p.locking_period, vp, some c.now⟩ : LockingPosition)])[i]? = some p := by
      rw [List.getElem?_append_left (List.getElem?_eq_some_iff.1 hp).1]; exact hp
    refine pairwise_set_mono hp' ?_ fun r hr h => hr h
    rw [List.pairwise_append]
    refine ⟨hl, by simp, ?_⟩
    intro q _ r hr
    rw [List.mem_singleton] at hr; subst hr
    rintro ⟨-, h, -⟩; cases h
  | extend hk hid hs hp hlk hd hvp =>
    subst hs
    refine pairwise_set hl fun j r hr hj => ?_
    rintro ⟨h1, h2, h3⟩
    exact hext _ _ hk hid r (List.mem_of_getElem? hr) h1 h3
  | relock hk hid hs hp ht hx hlong hok hd => exact hd.apart (pairwise_swapRemove hp hl)
  | relockPart hk hp ht hx ha hmin hnow hlong hvp2 hok hd =>
    exact hd.apart (pairwise_set_mono hp hl fun r hr h => hr h)
  | relockEnded hk hp ht hx ha hmin hnow hfit hok hd => exact hd.apart (pairwise_swapRemove hp hl)
  | relockBalance hk hx hmin hok hd => exact hd.apart hl
  | mirror hk hm hps hnd =>
    rw [List.Nodup, List.pairwise_map] at hnd
    exact hnd.imp fun h ⟨_, _, h3⟩ => h h3

theorem Edits.apart {s : State} {c : Ctx} {k : Call} {id : String} {b b' : Nat} {l l' : List LockingPosition}
    {x y : Nat} (h : Edits s c k id b l b' l' x y)
    (hext : ∀ i d, k = .locking_position_extend_days i d → id = c.predecessor →
      ∀ p ∈ (s.voterD id).locking_positions, p.unlocking_started_at = none → p.locking_period ≠ d)
    (hl : l.Pairwise Apart) : l'.Pairwise Apart := by
  induction h with
  | refl => exact hl
  | step h hs ih => exact hs.apart hext (ih hl)

/-! ## The minimum -/

/-- Every locked position holds at least `m`. -/
def AtLeast (m : Nat) (l : List LockingPosition) : Prop :=
  ∀ p ∈ l, p.unlocking_started_at = none → m ≤ p.amount

theorem Edit.atLeast {s : State} {c : Ctx} {k : Call} {id : String} {b b' : Nat} {l l' : List LockingPosition}
    {x y : Nat} (h : Edit s c k id b l b' l' x y) (hid : ¬ mirrored id)
    (hmig : ∀ a d, k.migrates a d → s.min_deposit_amount ≤ a)
    (hre : ∀ i d x p, k = .relock_position i d x → id = c.predecessor →
      (s.voterD id).locking_positions[i]? = some p → s.min_deposit_amount ≤ p.amount + x)
    (hl : AtLeast s.min_deposit_amount l) : AtLeast s.min_deposit_amount l' := by
  have dep : ∀ {l ps : List LockingPosition} {m a d vp : Nat}, Dep l m a d vp ps →
      s.min_deposit_amount ≤ a → AtLeast s.min_deposit_amount l → AtLeast s.min_deposit_amount ps := by
    intro l ps m a d vp h h1 h2
    exact h.all (Q := fun p => p.unlocking_started_at = none → s.min_deposit_amount ≤ p.amount) h2
      (fun p hp _ hn _ => by have := h2 p hp hn; simp only; omega) (fun _ => h1)
  cases h with
  | clear hp hm hfit => exact all_swapRemove hp hl
  | pay h0 h => exact hl
  | back h => exact hl
  | deposit hok hmin hd => exact dep hd hmin hl
  | migrate hk hok hd => exact dep hd (hmig _ _ hk) hl
  | unlock hk hp => exact all_set hl (fun h => by cases h)
  | @split i a vp p hk hp ha hmin h1 hvp hle hlen =>
    refine all_set ?_ (fun _ => hmin)
    intro q hq
    rcases List.mem_append.1 hq with hq | hq
    · exact hl q hq
    · rw [List.mem_singleton] at hq; subst hq; intro h; cases h
  | extend hk hid hs hp hlk hd hvp =>
    have h0 := hl _ (List.mem_of_getElem? hp) hlk
    exact all_set hl (fun _ => h0)
  | relock hk hid' hs hp ht hx hlong hok hd =>
    exact dep hd (hre _ _ _ _ hk hid' (hs ▸ hp)) (all_swapRemove hp hl)
  | relockPart hk hp ht hx ha hmin hnow hlong hvp2 hok hd =>
    exact dep hd hmin (all_set hl (fun h => by rw [show _ = none from h] at ht; cases ht))
  | relockEnded hk hp ht hx ha hmin hnow hfit hok hd => exact dep hd hmin (all_swapRemove hp hl)
  | relockBalance hk hx hmin hok hd => exact dep hd hmin hl
  | mirror hk hm hps hnd => exact absurd hm hid

theorem Edits.atLeast {s : State} {c : Ctx} {k : Call} {id : String} {b b' : Nat} {l l' : List LockingPosition}
    {x y : Nat} (h : Edits s c k id b l b' l' x y) (hid : ¬ mirrored id)
    (hmig : ∀ a d, k.migrates a d → s.min_deposit_amount ≤ a)
    (hre : ∀ i d x p, k = .relock_position i d x → id = c.predecessor →
      (s.voterD id).locking_positions[i]? = some p → s.min_deposit_amount ≤ p.amount + x)
    (hl : AtLeast s.min_deposit_amount l) : AtLeast s.min_deposit_amount l' := by
  induction h with
  | refl => exact hl
  | step h hs ih => exact hs.atLeast hid hmig hre (ih hl)

end Verif.MetaVote
