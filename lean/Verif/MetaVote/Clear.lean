import Verif.MetaVote.Reach
import Verif.MetaVote.Views
import Verif.Spec.Positions

/-!
# Clearing of matured positions
-/

namespace Verif.MetaVote

open Verif

theorem millis_eq (d : Nat) : days_to_millis d = d * 86400000 := by unfold days_to_millis; omega

theorem is_unlocked_iff (p : LockingPosition) (now : Nat) : p.is_unlocked now = true ↔ p.matured now := by
  unfold LockingPosition.is_unlocked LockingPosition.matured LockingPosition.locking_period_millis
  cases p.unlocking_started_at <;> simp [millis_eq]

theorem is_unlocking_iff (p : LockingPosition) (now : Nat) : p.is_unlocking now = true ↔ p.maturing now := by
  unfold LockingPosition.is_unlocking LockingPosition.maturing LockingPosition.locking_period_millis
  cases p.unlocking_started_at <;> simp [millis_eq]

theorem is_locked_iff (p : LockingPosition) : p.is_locked = true ↔ p.unlocking_started_at = none := by
  unfold LockingPosition.is_locked; cases p.unlocking_started_at <;> simp

theorem filter_sum (f : LockingPosition → Bool) (l : List LockingPosition) :
    ((l.filter f).map (·.amount)).sum = posSum (fun p => if f p = true then p.amount else 0) l := by
  induction l with
  | nil => rfl
  | cons p t ih =>
    simp only [posSum, List.map_cons, List.sum_cons] at *
    rw [List.filter_cons]
    split <;> simp [ih]

theorem get_balance_ok_iff (s : State) (now : Nat) (id : String) (b : Nat) :
    s.get_balance now id = .ok b ↔ (s.voterD id).withdrawable now ≤ U128_MAX ∧
      b = (s.voterD id).withdrawable now := by
  simp only [State.get_balance, bind_ok_iff, internal_get_voter_eq, Voter.sum_unlocked, sumU128_ok_iff,
    addU128_ok_iff, filter_sum, is_unlocked_iff]
  unfold Voter.withdrawable
  constructor
  · rintro ⟨u, ⟨h1, rfl⟩, h2, rfl⟩; exact ⟨h2, rfl⟩
  · rintro ⟨h, rfl⟩; exact ⟨_, ⟨by omega, rfl⟩, h, rfl⟩

/-- What clearing does to the positions: some matured positions were removed, and their amounts were added
to the balance. -/
def Took (now : Nat) (v v' : Voter) : Prop :=
  ∃ r : List LockingPosition, (∀ p ∈ r, p.matured now) ∧
    v.locking_positions.Perm (r ++ v'.locking_positions) ∧ v'.balance = v.balance + posSum (·.amount) r

theorem Took.refl (now : Nat) (v : Voter) : Took now v v := ⟨[], by simp, by simp, rfl⟩

theorem posSum_perm (g : LockingPosition → Nat) {a b : List LockingPosition} (h : a.Perm b) :
    posSum g a = posSum g b := (h.map g).sum_nat

theorem Took.trans {now : Nat} {a b c : Voter} (h : Took now a b) (h' : Took now b c) : Took now a c := by
  obtain ⟨r, h1, h2, h3⟩ := h
  obtain ⟨r', h1', h2', h3'⟩ := h'
  refine ⟨r ++ r', ?_, ?_, ?_⟩
  · intro p hp; rcases List.mem_append.1 hp with hp | hp
    · exact h1 p hp
    · exact h1' p hp
  · rw [List.append_assoc]; exact h2.trans (h2'.append_left r)
  · rw [h3', h3, posSum_append]; omega

theorem clear_one_took {now i : Nat} {v v' : Voter} (h : Voter.clear_one now v i = .ok v') :
    Took now v v' := by
  obtain ⟨p, hp, ⟨hu, -, rfl⟩ | ⟨-, rfl⟩⟩ := clear_one_ok h
  · obtain ⟨hi, he⟩ := List.getElem?_eq_some_iff.1 hp
    refine ⟨[p], ?_, ?_, ?_⟩
    · intro q hq; simp only [List.mem_singleton] at hq; subst hq; exact (is_unlocked_iff _ _).1 hu
    · have := swapRemove_perm v.locking_positions i hi
      rw [he] at this; exact this
    · simp [posSum]
  · exact .refl _ _

theorem clear_took {now : Nat} {l : List Nat} {v v' : Voter}
    (h : v.clear_fully_unlocked_positions now l = .ok v') : Took now v v' :=
  foldlM_inv (fun x => Took now v x) (fun _ _ _ hb hs => hb.trans (clear_one_took hs)) _ _ _
    (Took.refl _ _) h

theorem Took.notMatured {now : Nat} {v v' : Voter} (h : Took now v v') :
    (notMatured now v.locking_positions).Perm (notMatured now v'.locking_positions) := by
  obtain ⟨r, h1, h2, -⟩ := h
  have := h2.filter (fun p => decide (¬ p.matured now))
  rw [List.filter_append] at this
  have h0 : r.filter (fun p => decide (¬ p.matured now)) = [] := by
    rw [List.filter_eq_nil_iff]; intro p hp; simp [h1 p hp]
  rw [h0] at this
  exact this

theorem Took.withdrawable {now : Nat} {v v' : Voter} (h : Took now v v') :
    v'.withdrawable now = v.withdrawable now := by
  obtain ⟨r, h1, h2, h3⟩ := h
  unfold Voter.withdrawable
  rw [posSum_perm _ h2, posSum_append, h3]
  have : posSum (fun p => if p.matured now then p.amount else 0) r = posSum (·.amount) r := by
    unfold posSum
    congr 1
    exact List.map_congr_left fun p hp => by simp [h1 p hp]
  omega

/-! ## All the matured positions -/

theorem swapRemove_get {α : Type} (l : List α) (i j : Nat) (hi : i < l.length)
    (hj : j < (swapRemove l i).length) :
    (swapRemove l i)[j]? = if j = i then l[l.length - 1]? else l[j]? := by
  have hlen := swapRemove_length l i hi
  have hne : l ≠ [] := by intro h0; simp [h0] at hi
  have hl : l.getLast? = some (l.getLast hne) := List.getLast?_eq_some_getLast hne
  unfold swapRemove
  rw [hl]
  simp only
  rw [List.getElem?_dropLast]
  simp only [List.length_set]
  rw [if_pos (by omega), List.getElem?_set]
  by_cases h : i = j
  · subst h; rw [if_pos rfl, if_pos rfl, if_pos hi, ← List.getLast?_eq_getElem?, hl]
  · rw [if_neg h, if_neg (Ne.symm h)]

theorem clear_all_aux {now : Nat} : ∀ (l : List Nat) (v v' : Voter), l.Pairwise (· > ·) →
    (∀ i p, v.locking_positions[i]? = some p → (p.matured now ↔ i ∈ l)) →
    l.foldlM (Voter.clear_one now) v = .ok v' → ∀ p ∈ v'.locking_positions, ¬ p.matured now
  | [], v, v', _, hm, h => by
    simp only [List.foldlM_nil, pure_ok_iff] at h
    subst h
    intro p hp
    obtain ⟨i, hi⟩ := List.mem_iff_getElem?.1 hp
    have := hm i p hi
    simpa using this
  | i :: l, v, v', hs, hm, h => by
    rw [List.foldlM_cons] at h
    simp only [bind_ok_iff] at h
    obtain ⟨v1, h1, h2⟩ := h
    obtain ⟨hgt, hs'⟩ := List.pairwise_cons.1 hs
    obtain ⟨p, hp, ⟨hu, -, rfl⟩ | ⟨hu, rfl⟩⟩ := clear_one_ok h1
    · obtain ⟨hi, -⟩ := List.getElem?_eq_some_iff.1 hp
      refine clear_all_aux l _ v' hs' ?_ h2
      intro j q hq
      obtain ⟨hj, -⟩ := List.getElem?_eq_some_iff.1 hq
      have hlen := swapRemove_length v.locking_positions i hi
      simp only at hq hj
      rw [swapRemove_get _ _ _ hi hj] at hq
      by_cases hji : j = i
      · subst hji
        rw [if_pos rfl] at hq
        rw [hm _ q hq]
        have h3 : ∀ x, x ∈ j :: l → x ≤ j := by
          intro x hx; rcases List.mem_cons.1 hx with rfl | hx
          · exact le_refl _
          · exact le_of_lt (hgt x hx)
        constructor
        · intro hx; have := h3 _ hx; omega
        · intro hx; exact absurd (hgt j hx) (lt_irrefl j)
      · rw [if_neg hji] at hq
        rw [hm _ q hq]
        simp [hji]
    · have h3 : ¬ p.matured now := by rw [← is_unlocked_iff, hu]; simp
      exact absurd ((hm i p hp).2 (by simp)) h3

theorem sortDesc_pairwise {l : List Nat} (h : l.Nodup) : (Voter.sortDesc l).Pairwise (· > ·) := by
  unfold Voter.sortDesc
  have h1 := List.pairwise_insertionSort (fun a b : Nat => b ≤ a) l
  have h2 : (l.insertionSort (fun a b : Nat => b ≤ a)).Nodup :=
    (List.perm_insertionSort _ l).nodup_iff.2 h
  refine (h1.and h2).imp ?_
  rintro a b ⟨hab, hne⟩
  exact lt_of_le_of_ne hab (Ne.symm hne)

/-- The matured positions among those at the given indexes. -/
def listed (now : Nat) (ps : List LockingPosition) (l : List Nat) : List LockingPosition :=
  (l.filterMap (fun i => ps[i]?)).filter (fun p => decide (p.matured now))

theorem clear_listed_aux {now : Nat} : ∀ (l : List Nat) (v v' : Voter), l.Pairwise (· > ·) →
    l.foldlM (Voter.clear_one now) v = .ok v' →
    v.locking_positions.Perm (listed now v.locking_positions l ++ v'.locking_positions) ∧
      v'.balance = v.balance + posSum (·.amount) (listed now v.locking_positions l)
  | [], v, v', _, h => by
    simp only [List.foldlM_nil, pure_ok_iff] at h
    subst h
    simp [listed, posSum]
  | i :: l, v, v', hs, h => by
    rw [List.foldlM_cons] at h
    simp only [bind_ok_iff] at h
    obtain ⟨v1, h1, h2⟩ := h
    obtain ⟨hgt, hs'⟩ := List.pairwise_cons.1 hs
    obtain ⟨h3, h4⟩ := clear_listed_aux l v1 v' hs' h2
    obtain ⟨p, hp, ⟨hu, -, rfl⟩ | ⟨hu, rfl⟩⟩ := clear_one_ok h1
    · obtain ⟨hi, he⟩ := List.getElem?_eq_some_iff.1 hp
      have hlen := swapRemove_length v.locking_positions i hi
      have hsame : listed now (swapRemove v.locking_positions i) l = listed now v.locking_positions l := by
        unfold listed
        congr 1
        refine List.filterMap_congr fun j hj => ?_
        have := hgt j hj
        rw [swapRemove_get _ _ _ hi (by omega), if_neg (by omega)]
      have hcons : listed now v.locking_positions (i :: l) = p :: listed now v.locking_positions l := by
        unfold listed
        rw [List.filterMap_cons, hp]
        simp only
        rw [List.filter_cons, if_pos (by simpa using (is_unlocked_iff p now).1 hu)]
      simp only at h3 h4
      rw [hsame] at h3 h4
      rw [hcons]
      constructor
      · have hperm := swapRemove_perm v.locking_positions i hi
        rw [he] at hperm
        exact hperm.trans (h3.cons p)
      · rw [h4]; simp only [posSum, List.map_cons, List.sum_cons]; omega
    · have hn : ¬ p.matured now := by rw [← is_unlocked_iff, hu]; simp
      have hcons : listed now v1.locking_positions (i :: l) = listed now v1.locking_positions l := by
        unfold listed
        rw [List.filterMap_cons, hp]
        simp only
        rw [List.filter_cons, if_neg (by simpa using hn)]
      rw [hcons]
      exact ⟨h3, h4⟩

/-- Clearing a list of distinct indexes removes exactly the matured positions at these indexes. -/
theorem clear_listed {now : Nat} {l : List Nat} {v v' : Voter} (hl : l.Nodup)
    (h : v.clear_fully_unlocked_positions now l = .ok v') :
    v.locking_positions.Perm (listed now v.locking_positions l ++ v'.locking_positions) ∧
      v'.balance = v.balance + posSum (·.amount) (listed now v.locking_positions l) := by
  obtain ⟨h1, h2⟩ := clear_listed_aux _ v v' (sortDesc_pairwise hl) h
  have hp : (listed now v.locking_positions (Voter.sortDesc l)).Perm (listed now v.locking_positions l) :=
    ((List.perm_insertionSort _ l).filterMap _).filter _
  exact ⟨h1.trans (hp.append_right _), by rw [h2, posSum_perm _ hp]⟩

/-- `withdraw_all` clears every matured position. -/
theorem clear_all {now : Nat} {v v' : Voter}
    (h : v.clear_fully_unlocked_positions now (v.get_unlocked_position_indexes now) = .ok v') :
    ∀ p ∈ v'.locking_positions, ¬ p.matured now := by
  refine clear_all_aux _ v v' (sortDesc_pairwise (List.nodup_range.filter _)) ?_ h
  intro i p hp
  unfold Voter.sortDesc
  rw [(List.perm_insertionSort _ _).mem_iff]
  obtain ⟨hi, -⟩ := List.getElem?_eq_some_iff.1 hp
  simp only [List.mem_filter, List.mem_range, hp, is_unlocked_iff, hi, true_and]

theorem indexes_nil {now : Nat} {v : Voter} (h : v.get_unlocked_position_indexes now = []) :
    ∀ p ∈ v.locking_positions, ¬ p.matured now := by
  intro p hp hm
  obtain ⟨i, hi⟩ := List.mem_iff_getElem?.1 hp
  obtain ⟨hlt, -⟩ := List.getElem?_eq_some_iff.1 hi
  have : i ∈ v.get_unlocked_position_indexes now := by
    unfold Voter.get_unlocked_position_indexes
    simp only [List.mem_filter, List.mem_range, hi, is_unlocked_iff, hlt, true_and, hm]
  rw [h] at this
  simp at this

theorem withdrawable_none {now : Nat} {v : Voter} (h : ∀ p ∈ v.locking_positions, ¬ p.matured now) :
    v.withdrawable now = v.balance := by
  unfold Voter.withdrawable
  have : posSum (fun p => if p.matured now then p.amount else 0) v.locking_positions = 0 := by
    unfold posSum
    rw [List.map_congr_left (g := fun _ => 0) (fun p hp => by simp [h p hp])]
    simp
  omega

theorem clear_fits {now : Nat} : ∀ (l : List Nat) (v : Voter), l.Pairwise (· > ·) →
    (∀ i ∈ l, i < v.locking_positions.length) → v.withdrawable now ≤ U128_MAX →
    ∃ v', l.foldlM (Voter.clear_one now) v = .ok v'
  | [], v, _, _, _ => ⟨v, rfl⟩
  | i :: l, v, hs, hlt, hf => by
    obtain ⟨hgt, hs'⟩ := List.pairwise_cons.1 hs
    have hi := hlt i (by simp)
    have hp : v.locking_positions[i]? = some v.locking_positions[i] := List.getElem?_eq_getElem hi
    have h1 : ∃ v1, Voter.clear_one now v i = .ok v1 ∧ ∀ j ∈ l, j < v1.locking_positions.length := by
      simp only [Voter.clear_one, bind_ok_iff, get_position_ok]
      by_cases hu : v.locking_positions[i].is_unlocked now = true
      · have hle := posSum_le_of_mem (fun p => if p.matured now then p.amount else 0) _ i _ hp
        rw [if_pos ((is_unlocked_iff _ _).1 hu)] at hle
        have hfit : v.balance + v.locking_positions[i].amount ≤ U128_MAX := by
          unfold Voter.withdrawable at hf; omega
        refine ⟨Voter.remove_position { v with balance := v.balance + v.locking_positions[i].amount } i, ⟨_, hp, ?_⟩, ?_⟩
        · rw [if_pos hu]
          simp only [bind_ok_iff, addU128_ok_iff, pure_ok_iff]
          exact ⟨_, ⟨hfit, rfl⟩, rfl⟩
        · intro j hj
          have := hgt j hj
          have := swapRemove_length v.locking_positions i hi
          simp only [Voter.remove_position]
          omega
      · refine ⟨v, ⟨_, hp, ?_⟩, fun j hj => hlt j (by simp [hj])⟩
        rw [if_neg hu]; rfl
    obtain ⟨v1, h1, h2⟩ := h1
    have hw := (clear_one_took h1).withdrawable
    obtain ⟨v', hv'⟩ := clear_fits l v1 hs' h2 (by rw [hw]; exact hf)
    refine ⟨v', ?_⟩
    rw [List.foldlM_cons]
    simp only [bind_ok_iff]
    exact ⟨v1, h1, hv'⟩

/-- The matured positions can be cleared if everything withdrawable fits the balance. -/
theorem clear_all_fits {now : Nat} {v : Voter} (h : v.withdrawable now ≤ U128_MAX) :
    ∃ v', v.clear_fully_unlocked_positions now (v.get_unlocked_position_indexes now) = .ok v' := by
  refine clear_fits _ v (sortDesc_pairwise (List.nodup_range.filter _)) ?_ h
  intro i hi
  unfold Voter.sortDesc at hi
  rw [(List.perm_insertionSort _ _).mem_iff] at hi
  exact List.mem_range.1 (List.mem_filter.1 hi).1

theorem withdrawable_done {now : Nat} {v : Voter} (h : ∀ p ∈ v.locking_positions, ¬ p.matured now) :
    v.withdrawable now = v.balance := by
  unfold Voter.withdrawable posSum
  have : v.locking_positions.map (fun p => if p.matured now then p.amount else 0) = v.locking_positions.map (fun _ => 0) :=
    List.map_congr_left fun p hp => by simp [h p hp]
  rw [this]; simp

end Verif.MetaVote
