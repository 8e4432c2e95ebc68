import Verif.Base.Res
import Mathlib.Data.List.Nodup
import Mathlib.Data.List.Perm.Basic

/-!
# near-sdk collections

`UMap` models `near_sdk::collections::UnorderedMap` (a keys vector, a values vector and an index):
the list of entries is in the iteration order of the Rust container, `insert` replaces in place or
appends, `remove` is a swap-remove (the last entry takes the place of the removed one).
`swapRemove` models `near_sdk::collections::Vector::swap_remove`.

near-sdk is not part of `/repo`; its behaviour is part of the trusted base (DESIGN.md).
-/

namespace Verif

theorem perm_sum {l l' : List Nat} (h : l.Perm l') : l.sum = l'.sum := by
  induction h with
  | nil => rfl
  | cons _ _ ih => simp [ih]
  | swap _ _ _ => simp; omega
  | trans _ _ h1 h2 => exact h1.trans h2

/-! ## `Vector::swap_remove` -/

/-- `Vector::swap_remove(i)`: element `i` is replaced by the last one, the vector shrinks by one.
(In Rust it panics when `i` is out of range; callers check the range.) -/
def swapRemove {α : Type} (l : List α) (i : Nat) : List α :=
  match l.getLast? with
  | none => l
  | some x => (l.set i x).dropLast

theorem swapRemove_perm {α : Type} (l : List α) (i : Nat) (h : i < l.length) :
    l.Perm (l[i] :: swapRemove l i) := by
  have hne : l ≠ [] := by intro h0; simp [h0] at h
  have hl : l.getLast? = some (l.getLast hne) := List.getLast?_eq_some_getLast hne
  unfold swapRemove
  rw [hl]
  simp only
  obtain ⟨t, x, rfl⟩ : ∃ t x, l = t ++ [x] :=
    ⟨l.dropLast, l.getLast hne, (List.dropLast_append_getLast hne).symm⟩
  simp only [List.getLast_append_singleton]
  by_cases hi : i < t.length
  · rw [List.set_append_left _ _ hi, List.dropLast_concat, List.getElem_append_left hi]
    have h1 : t = t.take i ++ t[i] :: t.drop (i + 1) := by
      rw [← List.drop_eq_getElem_cons hi, List.take_append_drop]
    have h2 : t.set i x = t.take i ++ x :: t.drop (i + 1) := List.set_eq_take_append_cons_drop .. |>.trans (by simp [hi])
    rw [h2]
    conv_lhs => rw [h1]
    refine List.Perm.trans (l₂ := (t[i] :: t.drop (i+1)) ++ t.take i ++ [x]) ?_ ?_
    · exact List.Perm.append_right _ List.perm_append_comm
    · simp only [List.cons_append, List.append_assoc]
      refine List.Perm.cons _ ?_
      refine List.Perm.trans (l₂ := (List.take i t ++ [x]) ++ t.drop (i+1)) List.perm_append_comm ?_
      simp
  · have : i = t.length := by simp at h; omega
    subst this
    simp [List.set_append_right]

theorem swapRemove_length {α : Type} (l : List α) (i : Nat) (h : i < l.length) :
    (swapRemove l i).length + 1 = l.length := by
  have := (swapRemove_perm l i h).length_eq
  simp at this; omega

/-! ## Entry lists -/

variable {K V : Type} [DecidableEq K]

/-- First value stored under `k`. -/
def findL : List (K × V) → K → Option V
  | [], _ => none
  | (k', v) :: t, k => if k' = k then some v else findL t k

/-- Replace in place, or append. -/
def insertL : List (K × V) → K → V → List (K × V)
  | [], k, v => [(k, v)]
  | (k', v') :: t, k, v => if k' = k then (k, v) :: t else (k', v') :: insertL t k v

/-- Position of key `k`. -/
def indexL : List (K × V) → K → Nat
  | [], _ => 0
  | (k', _) :: t, k => if k' = k then 0 else indexL t k + 1

/-- Swap-remove the entry of key `k`, if present. -/
def removeL (l : List (K × V)) (k : K) : List (K × V) :=
  if k ∈ l.map Prod.fst then swapRemove l (indexL l k) else l

theorem insertL_keys (l : List (K × V)) (k : K) (v : V) :
    (insertL l k v).map Prod.fst = if k ∈ l.map Prod.fst then l.map Prod.fst else l.map Prod.fst ++ [k] := by
  induction l with
  | nil => simp [insertL]
  | cons p t ih =>
    obtain ⟨k', v'⟩ := p
    by_cases h : k' = k
    · simp [insertL, h]
    · simp only [insertL, h, if_false, List.map_cons, ih, List.mem_cons]
      have h' : ¬ k = k' := fun e => h e.symm
      simp only [h', false_or]
      split <;> simp

theorem indexL_lt {l : List (K × V)} {k : K} (h : k ∈ l.map Prod.fst) : indexL l k < l.length := by
  induction l with
  | nil => simp at h
  | cons p t ih =>
    obtain ⟨k', v'⟩ := p
    by_cases e : k' = k
    · simp [indexL, e]
    · have h' : ¬ k = k' := fun e' => e e'.symm
      simp only [List.map_cons, List.mem_cons, h', false_or] at h
      simp only [indexL, e, if_false, List.length_cons]
      have := ih h; omega

theorem indexL_key {l : List (K × V)} {k : K} (h : k ∈ l.map Prod.fst) :
    (l[indexL l k]'(indexL_lt h)).1 = k := by
  induction l with
  | nil => simp at h
  | cons p t ih =>
    obtain ⟨k', v'⟩ := p
    by_cases e : k' = k
    · simp [indexL, e]
    · have h' : ¬ k = k' := fun e' => e e'.symm
      simp only [List.map_cons, List.mem_cons, h', false_or] at h
      simp only [indexL, e, if_false]
      exact ih h

theorem findL_eq_some_iff {l : List (K × V)} (hn : (l.map Prod.fst).Nodup) {k : K} {v : V} :
    findL l k = some v ↔ (k, v) ∈ l := by
  induction l with
  | nil => simp [findL]
  | cons p t ih =>
    obtain ⟨k', v'⟩ := p
    simp only [List.map_cons, List.nodup_cons] at hn
    by_cases e : k' = k
    · subst e
      simp only [findL, if_true, Option.some.injEq, List.mem_cons, Prod.mk.injEq, true_and]
      constructor
      · intro h; exact Or.inl h.symm
      · rintro (h | h)
        · exact h.symm
        · exact absurd (List.mem_map_of_mem h) hn.1
    · simp only [findL, e, if_false, ih hn.2, List.mem_cons, Prod.mk.injEq]
      constructor
      · exact Or.inr
      · rintro (⟨h, _⟩ | h)
        · exact absurd h.symm e
        · exact h

theorem findL_eq_none_iff {l : List (K × V)} {k : K} :
    findL l k = none ↔ k ∉ l.map Prod.fst := by
  induction l with
  | nil => simp [findL]
  | cons p t ih =>
    obtain ⟨k', v'⟩ := p
    by_cases e : k' = k
    · simp [findL, e]
    · have h' : ¬ k = k' := fun e' => e e'.symm
      simp [findL, e, ih, h']

theorem findL_insertL (l : List (K × V)) (k k' : K) (v : V) :
    findL (insertL l k v) k' = if k = k' then some v else findL l k' := by
  induction l with
  | nil => simp [insertL, findL]
  | cons p t ih =>
    obtain ⟨k₀, v₀⟩ := p
    by_cases e : k₀ = k
    · subst e
      by_cases e' : k₀ = k' <;> simp [insertL, findL, e']
    · simp only [insertL, e, if_false, findL, ih]
      by_cases e' : k₀ = k'
      · subst e'
        have : ¬ k = k₀ := fun h => e h.symm
        simp [this]
      · simp [e']

theorem removeL_perm {l : List (K × V)} {k : K} (h : k ∈ l.map Prod.fst) :
    ∃ v, findL l k = some v ∧ l.Perm ((k, v) :: removeL l k) := by
  have hp := swapRemove_perm l (indexL l k) (indexL_lt h)
  have hk := indexL_key h
  refine ⟨(l[indexL l k]'(indexL_lt h)).2, ?_, ?_⟩
  · clear hp
    induction l with
    | nil => simp at h
    | cons p t ih =>
      obtain ⟨k', v'⟩ := p
      by_cases e : k' = k
      · simp [indexL, findL, e]
      · have h' : ¬ k = k' := fun e' => e e'.symm
        simp only [List.map_cons, List.mem_cons, h', false_or] at h
        simp only [findL, indexL, e, if_false]
        exact ih h (indexL_key h)
  · simp only [removeL, h, if_true]
    have : (k, (l[indexL l k]'(indexL_lt h)).2) = l[indexL l k]'(indexL_lt h) := by
      rw [Prod.ext_iff]; exact ⟨hk.symm, rfl⟩
    rw [this]; exact hp

theorem removeL_nodup {l : List (K × V)} (k : K) (hn : (l.map Prod.fst).Nodup) :
    ((removeL l k).map Prod.fst).Nodup := by
  by_cases h : k ∈ l.map Prod.fst
  · obtain ⟨v, _, hp⟩ := removeL_perm h
    have := (hp.map Prod.fst).nodup_iff.mp hn
    simp only [List.map_cons, List.nodup_cons] at this
    exact this.2
  · simpa [removeL, h] using hn

/-! ## `UMap` -/

/-- Model of `near_sdk::collections::UnorderedMap<K, V>`: entries in iteration order. -/
structure UMap (K V : Type) [DecidableEq K] where
  /-- key/value pairs, in the order of `keys_as_vector()` / `iter()` -/
  entries : List (K × V)
  /-- a key is stored once (invariant of the near-sdk container) -/
  nodup : (entries.map Prod.fst).Nodup

namespace UMap

/-- Maps are equal when their entry lists are. -/
@[ext] theorem ext' {m n : UMap K V} (h : m.entries = n.entries) : m = n := by
  cases m; cases n; simp_all

instance [DecidableEq V] : DecidableEq (UMap K V) := fun m n =>
  if h : m.entries = n.entries then isTrue (ext' h) else isFalse (fun e => h (by rw [e]))

/-- `UnorderedMap::new(prefix)` -/
def empty : UMap K V := ⟨[], by simp⟩
/-- `map.get(&k)` -/
def get (m : UMap K V) (k : K) : Option V := findL m.entries k
/-- `map.insert(&k, &v)` -/
def insert (m : UMap K V) (k : K) (v : V) : UMap K V :=
  ⟨insertL m.entries k v, by
    rw [insertL_keys]; split
    · exact m.nodup
    · rename_i h
      rw [List.nodup_append]
      refine ⟨m.nodup, by simp, ?_⟩
      intro a ha b hb
      simp only [List.mem_singleton] at hb
      subst hb; intro e; subst e; exact h ha⟩
/-- `map.remove(&k)` -/
def remove (m : UMap K V) (k : K) : UMap K V := ⟨removeL m.entries k, removeL_nodup k m.nodup⟩
/-- `map.len()` -/
def len (m : UMap K V) : Nat := m.entries.length
/-- `map.is_empty()` -/
def isEmpty (m : UMap K V) : Bool := m.entries.isEmpty
/-- `map.keys_as_vector()` -/
def keys (m : UMap K V) : List K := m.entries.map Prod.fst
/-- `map.values()` -/
def values (m : UMap K V) : List V := m.entries.map Prod.snd

@[simp] theorem get_empty (k : K) : (empty : UMap K V).get k = none := rfl

@[simp] theorem get_insert_self (m : UMap K V) (k : K) (v : V) : (m.insert k v).get k = some v := by
  simp [get, insert, findL_insertL]

theorem get_insert (m : UMap K V) (k k' : K) (v : V) :
    (m.insert k v).get k' = if k = k' then some v else m.get k' := by
  simp [get, insert, findL_insertL]

@[simp] theorem get_insert_ne (m : UMap K V) {k k' : K} (v : V) (h : k' ≠ k) :
    (m.insert k v).get k' = m.get k' := by
  rw [get_insert, if_neg (Ne.symm h)]

theorem get_eq_some_iff {m : UMap K V} {k : K} {v : V} : m.get k = some v ↔ (k, v) ∈ m.entries :=
  findL_eq_some_iff m.nodup

theorem get_eq_none_iff {m : UMap K V} {k : K} : m.get k = none ↔ k ∉ m.keys :=
  findL_eq_none_iff

theorem remove_perm {m : UMap K V} {k : K} {v : V} (h : m.get k = some v) :
    m.entries.Perm ((k, v) :: (m.remove k).entries) := by
  have hk : k ∈ m.entries.map Prod.fst := by
    by_contra hc
    have h0 := findL_eq_none_iff.mpr hc
    rw [get, h0] at h; simp at h
  obtain ⟨w, hw, hp⟩ := removeL_perm hk
  rw [get, hw] at h
  cases h
  exact hp

theorem remove_of_none {m : UMap K V} {k : K} (h : m.get k = none) : m.remove k = m := by
  apply ext'
  have := findL_eq_none_iff.mp h
  simp [remove, removeL]
  intro x hx
  exact absurd (List.mem_map_of_mem (f := Prod.fst) hx) this

@[simp] theorem get_remove_self (m : UMap K V) (k : K) : (m.remove k).get k = none := by
  cases h : m.get k with
  | none => rw [remove_of_none h, h]
  | some v =>
    have hp := (remove_perm h).map Prod.fst
    have hn := hp.nodup_iff.mp m.nodup
    simp only [List.map_cons, List.nodup_cons] at hn
    exact get_eq_none_iff.mpr hn.1

@[simp] theorem get_remove_ne (m : UMap K V) {k k' : K} (h : k' ≠ k) :
    (m.remove k).get k' = m.get k' := by
  cases hk : m.get k with
  | none => rw [remove_of_none hk]
  | some v =>
    have hp := remove_perm hk
    apply Option.ext
    intro w
    rw [get_eq_some_iff, get_eq_some_iff, hp.mem_iff]
    simp [h]

theorem get_remove (m : UMap K V) (k k' : K) :
    (m.remove k).get k' = if k = k' then none else m.get k' := by
  by_cases h : k = k'
  · subst h; simp
  · simp [h, get_remove_ne m (Ne.symm h)]

theorem mem_keys_iff {m : UMap K V} {k : K} : k ∈ m.keys ↔ ∃ v, m.get k = some v := by
  rw [← not_iff_not, ← get_eq_none_iff]
  cases m.get k <;> simp

theorem isEmpty_iff {m : UMap K V} : m.isEmpty = true ↔ m.entries = [] := by
  simp [isEmpty]

theorem isEmpty_iff_get {m : UMap K V} : m.isEmpty = true ↔ ∀ k, m.get k = none := by
  rw [isEmpty_iff]
  constructor
  · intro h k; simp [get, h, findL]
  · intro h
    match he : m.entries with
    | [] => rfl
    | (k, v) :: t =>
      have := h k
      simp [get, he, findL] at this

theorem eq_empty_of_isEmpty {m : UMap K V} (h : m.isEmpty = true) : m = empty := by
  apply ext'; exact isEmpty_iff.mp h

theorem len_insert (m : UMap K V) (k : K) (v : V) :
    (m.insert k v).len = if (m.get k).isSome then m.len else m.len + 1 := by
  have h := congrArg List.length (insertL_keys m.entries k v)
  simp only [List.length_map] at h
  have hk : (m.get k).isSome = true ↔ k ∈ m.entries.map Prod.fst := by
    rw [Option.isSome_iff_ne_none, ne_eq, get_eq_none_iff, not_not]; rfl
  simp only [len, insert, h]
  by_cases hc : k ∈ m.entries.map Prod.fst
  · rw [if_pos hc, if_pos (hk.mpr hc)]; simp
  · rw [if_neg hc, if_neg (fun h => hc (hk.mp h))]; simp

theorem len_remove (m : UMap K V) (k : K) :
    (m.remove k).len = if (m.get k).isSome then m.len - 1 else m.len := by
  cases h : m.get k with
  | none => simp [remove_of_none h]
  | some v =>
    have := (remove_perm h).length_eq
    simp only [List.length_cons] at this
    simp [len, this]

/-! ### Sums over a map -/

/-- Sum of `f key value` over all entries. -/
def sum (m : UMap K V) (f : K → V → Nat) : Nat := (m.entries.map (fun p => f p.1 p.2)).sum

@[simp] theorem sum_empty (f : K → V → Nat) : (empty : UMap K V).sum f = 0 := rfl

/-- What the entry of `k` contributes to a sum. -/
def at' (m : UMap K V) (f : K → V → Nat) (k : K) : Nat :=
  match m.get k with
  | some v => f k v
  | none => 0

theorem at_of_some {m : UMap K V} {f : K → V → Nat} {k : K} {v : V} (h : m.get k = some v) :
    m.at' f k = f k v := by simp [at', h]

theorem at_of_none {m : UMap K V} {f : K → V → Nat} {k : K} (h : m.get k = none) :
    m.at' f k = 0 := by simp [at', h]

theorem sum_insertL (l : List (K × V)) (f : K → V → Nat) (k : K) (v : V) :
    ((insertL l k v).map (fun p => f p.1 p.2)).sum + (match findL l k with | some w => f k w | none => 0)
      = (l.map (fun p => f p.1 p.2)).sum + f k v := by
  induction l with
  | nil => simp [insertL, findL]
  | cons p t ih =>
    obtain ⟨k', v'⟩ := p
    by_cases e : k' = k
    · subst e; simp [insertL, findL]; omega
    · simp only [insertL, findL, e, if_false, List.map_cons, List.sum_cons]; omega

theorem sum_insert (m : UMap K V) (f : K → V → Nat) (k : K) (v : V) :
    (m.insert k v).sum f + m.at' f k = m.sum f + f k v :=
  sum_insertL m.entries f k v

theorem sum_remove (m : UMap K V) (f : K → V → Nat) (k : K) :
    (m.remove k).sum f + m.at' f k = m.sum f := by
  cases h : m.get k with
  | none => rw [remove_of_none h, at_of_none h]; rfl
  | some v =>
    have hp := ((remove_perm h).map (fun p => f p.1 p.2)) |> perm_sum
    simp only [List.map_cons, List.sum_cons] at hp
    rw [at_of_some h]; simp only [sum]; omega

theorem at_le_sum (m : UMap K V) (f : K → V → Nat) (k : K) : m.at' f k ≤ m.sum f := by
  have := sum_remove m f k; omega

theorem le_sum_of_get {m : UMap K V} {f : K → V → Nat} {k : K} {v : V} (h : m.get k = some v) :
    f k v ≤ m.sum f := by
  rw [← at_of_some (f := f) h]; exact at_le_sum m f k

theorem sum_add (m : UMap K V) (f g : K → V → Nat) :
    m.sum (fun k v => f k v + g k v) = m.sum f + m.sum g := by
  unfold sum
  induction m.entries with
  | nil => simp
  | cons p t ih => simp only [List.map_cons, List.sum_cons, ih]; omega

theorem sum_congr {m : UMap K V} {f g : K → V → Nat} (h : ∀ k v, m.get k = some v → f k v = g k v) :
    m.sum f = m.sum g := by
  unfold sum
  congr 1
  apply List.map_congr_left
  intro p hp
  exact h p.1 p.2 (get_eq_some_iff.mpr hp)

theorem sum_le {m : UMap K V} {f g : K → V → Nat} (h : ∀ k v, m.get k = some v → f k v ≤ g k v) :
    m.sum f ≤ m.sum g := by
  have h' : ∀ p ∈ m.entries, f p.1 p.2 ≤ g p.1 p.2 := fun p hp => h p.1 p.2 (get_eq_some_iff.mpr hp)
  unfold sum
  revert h'
  generalize m.entries = l
  intro h'
  induction l with
  | nil => simp
  | cons p t ih =>
    simp only [List.map_cons, List.sum_cons]
    have h1 := h' p (by simp)
    have h2 := ih (fun q hq => h' q (by simp [hq]))
    omega

theorem sum_eq_zero {m : UMap K V} {f : K → V → Nat} (h : ∀ k v, m.get k = some v → f k v = 0) :
    m.sum f = 0 := by
  have := sum_le (m := m) (f := f) (g := fun _ _ => 0) (fun k v hv => by rw [h k v hv]; exact Nat.le_refl 0)
  have h0 : m.sum (fun _ _ => 0) = 0 := by
    unfold sum; induction m.entries <;> simp_all
  omega

theorem len_eq_sum (m : UMap K V) : m.len = m.sum (fun _ _ => 1) := by
  unfold len sum; induction m.entries <;> simp_all; omega

/-- Two maps with the same lookups have the same sums. -/
theorem sum_eq_of_get_eq {m n : UMap K V} (f : K → V → Nat) (h : ∀ k, m.get k = n.get k) :
    m.sum f = n.sum f := by
  have hp : m.entries.Perm n.entries := by
    rw [List.perm_ext_iff_of_nodup (m.nodup.of_map _) (n.nodup.of_map _)]
    rintro ⟨k, v⟩
    rw [← get_eq_some_iff, ← get_eq_some_iff, h]
  exact perm_sum (hp.map _)

end UMap

end Verif
