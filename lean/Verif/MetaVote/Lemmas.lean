import Verif.Spec.MetaVote

/-!
# Lemmas on position lists and two-level vote maps
-/

namespace Verif.MetaVote

open Verif

theorem posSum_append (g : LockingPosition → Nat) (l l' : List LockingPosition) :
    posSum g (l ++ l') = posSum g l + posSum g l' := by simp [posSum]

@[simp] theorem posSum_nil (g : LockingPosition → Nat) : posSum g [] = 0 := rfl

@[simp] theorem posSum_single (g : LockingPosition → Nat) (p : LockingPosition) :
    posSum g [p] = g p := by simp [posSum]

theorem posSum_set (g : LockingPosition → Nat) : ∀ (l : List LockingPosition) (i : Nat)
    (p q : LockingPosition), l[i]? = some p → posSum g (l.set i q) + g p = posSum g l + g q
  | [], _, _, _, h => by simp at h
  | a :: l, 0, p, q, h => by
    simp at h; subst h; simp [posSum]; omega
  | a :: l, i + 1, p, q, h => by
    have := posSum_set g l i p q (by simpa using h)
    simp [posSum] at *; omega

theorem posSum_swapRemove (g : LockingPosition → Nat) (l : List LockingPosition) (i : Nat)
    (p : LockingPosition) (h : l[i]? = some p) : posSum g (swapRemove l i) + g p = posSum g l := by
  obtain ⟨hi, hp⟩ := List.getElem?_eq_some_iff.1 h
  have hperm := swapRemove_perm l i hi
  have := perm_sum (hperm.map g)
  simp only [List.map_cons, List.sum_cons] at this
  rw [hp] at this
  simp [posSum]; omega

theorem posSum_le_of_mem (g : LockingPosition → Nat) (l : List LockingPosition) (i : Nat)
    (p : LockingPosition) (h : l[i]? = some p) : g p ≤ posSum g l := by
  have := posSum_swapRemove g l i p h; omega

/-! ## Two-level maps -/

theorem vget_of_none {m : UMap String (UMap String Nat)} {c : String} (h : m.get c = none) (o : String) :
    vget m c o = 0 := by simp [vget, h]

theorem vget_eq (m : UMap String (UMap String Nat)) (c o : String) :
    vget m c o = ((((m.get c).getD UMap.empty).get o).getD 0) := by
  unfold vget; cases m.get c <;> simp

theorem vget_insert (m : UMap String (UMap String Nat)) (c c' : String) (x : UMap String Nat) (o : String) :
    vget (m.insert c x) c' o = if c' = c then (x.get o).getD 0 else vget m c' o := by
  by_cases h : c' = c
  · subst h; simp [vget]
  · simp [vget, h]

theorem vget_remove (m : UMap String (UMap String Nat)) (c c' : String) (o : String) :
    vget (m.remove c) c' o = if c' = c then 0 else vget m c' o := by
  by_cases h : c' = c
  · subst h; simp [vget]
  · simp [vget, h]

/-- Write one entry. -/
def vset (m : UMap String (UMap String Nat)) (c o : String) (n : Nat) : UMap String (UMap String Nat) :=
  m.insert c (((m.get c).getD UMap.empty).insert o n)

/-- Delete one entry, and the contract when it was the last one. -/
def vdel (m : UMap String (UMap String Nat)) (c o : String) : UMap String (UMap String Nat) :=
  if (((m.get c).getD UMap.empty).remove o).isEmpty then m.remove c
  else m.insert c (((m.get c).getD UMap.empty).remove o)

theorem vget_vset (m : UMap String (UMap String Nat)) (c o c' o' : String) (n : Nat) :
    vget (vset m c o n) c' o' = if c' = c ∧ o' = o then n else vget m c' o' := by
  unfold vset
  rw [vget_insert]
  by_cases hc : c' = c
  · subst hc
    by_cases ho : o' = o
    · subst ho; simp
    · simp [ho, vget_eq]
  · simp [hc]

theorem vget_vdel (m : UMap String (UMap String Nat)) (c o c' o' : String) :
    vget (vdel m c o) c' o' = if c' = c ∧ o' = o then 0 else vget m c' o' := by
  unfold vdel
  split
  · rename_i h
    rw [vget_remove]
    by_cases hc : c' = c
    · subst hc
      by_cases ho : o' = o
      · simp [ho]
      · have := UMap.isEmpty_iff_get.1 h o'
        rw [UMap.get_remove_ne _ ho] at this
        simp [ho, vget_eq, this]
    · simp [hc]
  · rw [vget_insert]
    by_cases hc : c' = c
    · subst hc
      by_cases ho : o' = o
      · subst ho; simp
      · simp [ho, vget_eq]
    · simp [hc]

theorem sum_at_get (m : UMap String Nat) (o : String) :
    m.at' (fun _ n => n) o = (m.get o).getD 0 := by
  cases h : m.get o with
  | none => simp [UMap.at_of_none h]
  | some v => simp [UMap.at_of_some h]

theorem vsum_at (m : UMap String (UMap String Nat)) (c : String) :
    m.at' (fun _ x => x.sum (fun _ n => n)) c = ((m.get c).getD UMap.empty).sum (fun _ n => n) := by
  cases h : m.get c with
  | none => simp [UMap.at_of_none h]
  | some v => simp [UMap.at_of_some h]

theorem vsum_vset (m : UMap String (UMap String Nat)) (c o : String) (n : Nat) :
    vsum (vset m c o n) + vget m c o = vsum m + n := by
  have h1 := UMap.sum_insert m (fun _ x => x.sum (fun _ n => n)) c
    (((m.get c).getD UMap.empty).insert o n)
  have h2 := UMap.sum_insert ((m.get c).getD UMap.empty) (fun _ n => n) o n
  rw [vsum_at] at h1
  rw [sum_at_get] at h2
  rw [vget_eq]
  simp only [vsum, vset] at *
  omega

theorem vsum_vdel (m : UMap String (UMap String Nat)) (c o : String) :
    vsum (vdel m c o) + vget m c o = vsum m := by
  have h2 := UMap.sum_remove ((m.get c).getD UMap.empty) (fun _ n => n) o
  rw [sum_at_get] at h2
  rw [vget_eq]
  unfold vdel
  split
  · rename_i h
    have h1 := UMap.sum_remove m (fun _ x => x.sum (fun _ n => n)) c
    rw [vsum_at] at h1
    have h3 : (((m.get c).getD UMap.empty).remove o).sum (fun _ n => n) = 0 := by
      rw [UMap.eq_empty_of_isEmpty h]; rfl
    simp only [vsum] at *
    omega
  · have h1 := UMap.sum_insert m (fun _ x => x.sum (fun _ n => n)) c
      (((m.get c).getD UMap.empty).remove o)
    rw [vsum_at] at h1
    simp only [vsum] at *
    omega

theorem vget_le_vsum (m : UMap String (UMap String Nat)) (c o : String) : vget m c o ≤ vsum m := by
  have := vsum_vdel m c o; omega

theorem vclean_empty : vclean UMap.empty := by intro c x h; simp at h

theorem vclean_vset {m : UMap String (UMap String Nat)} (h : vclean m) (c o : String) (n : Nat) :
    vclean (vset m c o n) := by
  intro c' x hx
  unfold vset at hx
  rw [UMap.get_insert] at hx
  split at hx
  · cases hx
    by_contra hne
    rw [Bool.not_eq_false, UMap.isEmpty_iff_get] at hne
    have := hne o
    simp at this
  · exact h c' x hx

theorem vclean_vdel {m : UMap String (UMap String Nat)} (h : vclean m) (c o : String) :
    vclean (vdel m c o) := by
  intro c' x hx
  unfold vdel at hx
  split at hx
  · rw [UMap.get_remove] at hx
    split at hx
    · simp at hx
    · exact h c' x hx
  · rename_i hne
    rw [UMap.get_insert] at hx
    split at hx
    · cases hx; simpa using hne
    · exact h c' x hx

/-! ## Checked sums -/

theorem le_sum_mem {l : List Nat} {x : Nat} (h : x ∈ l) : x ≤ l.sum := by
  induction l with
  | nil => simp at h
  | cons a t ih =>
    rw [List.sum_cons]
    rcases List.mem_cons.1 h with rfl | h
    · omega
    · have := ih h; omega

theorem sumU128_ok_iff : ∀ {l : List Nat} {n : Nat},
    sumU128 l = .ok n ↔ l.sum ≤ U128_MAX ∧ n = l.sum
  | [], n => by
    simp only [sumU128, pure_ok_iff, List.sum_nil]
    exact ⟨fun h => ⟨Nat.zero_le _, h.symm⟩, fun h => h.2.symm⟩
  | x :: t, n => by
    simp only [sumU128, bind_ok_iff, sumU128_ok_iff, addU128_ok_iff, List.sum_cons]
    constructor
    · rintro ⟨a, ⟨h1, rfl⟩, h2, rfl⟩; exact ⟨h2, rfl⟩
    · rintro ⟨h, rfl⟩; exact ⟨_, ⟨by omega, rfl⟩, h, rfl⟩

theorem mapM_ok_iff {α β : Type} {f : α → Res β} : ∀ {l : List α} {r : List β},
    l.mapM f = .ok r ↔ List.Forall₂ (fun a b => f a = .ok b) l r
  | [], r => by cases r <;> simp [List.mapM_nil]
  | a :: l, r => by
    rw [List.mapM_cons]
    simp only [bind_ok_iff, pure_ok_iff, mapM_ok_iff]
    constructor
    · rintro ⟨b, hb, bs, hbs, rfl⟩; exact .cons hb hbs
    · rintro (_ | ⟨hb, hbs⟩); exact ⟨_, hb, _, hbs, rfl⟩

theorem foldlM_ok_nil {α β : Type} {f : β → α → Res β} {b r : β} :
    List.foldlM f b [] = .ok r ↔ b = r := by simp [List.foldlM_nil]

theorem foldlM_ok_cons {α β : Type} {f : β → α → Res β} {a : α} {l : List α} {b r : β} :
    List.foldlM f b (a :: l) = .ok r ↔ ∃ b', f b a = .ok b' ∧ List.foldlM f b' l = .ok r := by
  simp [List.foldlM_cons]

/-- Invariants along a monadic fold. -/
theorem foldlM_inv {α β : Type} {f : β → α → Res β} (P : β → Prop)
    (hstep : ∀ b a b', P b → f b a = .ok b' → P b') :
    ∀ (l : List α) (b r : β), P b → l.foldlM f b = .ok r → P r
  | [], b, r, hb, h => by rw [foldlM_ok_nil] at h; exact h ▸ hb
  | a :: l, b, r, hb, h => by
    rw [foldlM_ok_cons] at h
    obtain ⟨b', h1, h2⟩ := h
    exact foldlM_inv P hstep l b' r (hstep b a b' hb h1) h2

theorem sum_used_votes_ok {v : Voter} {n : Nat} (h : v.sum_used_votes = .ok n) : n = v.used := by
  simp only [Voter.sum_used_votes, bind_ok_iff, mapM_ok_iff, sumU128_ok_iff] at h
  obtain ⟨l, hl, -, rfl⟩ := h
  unfold Voter.used vsum UMap.sum
  unfold UMap.values at hl
  generalize v.vote_positions.entries = es at hl
  induction es generalizing l with
  | nil => cases hl; rfl
  | cons e es ih =>
    simp only [List.map_cons] at hl
    cases hl with
    | cons h1 h2 =>
      simp only [List.sum_cons, List.map_cons]
      rw [ih _ h2, h1.2]

end Verif.MetaVote
