import Verif.Base.Res
import Verif.Base.UMap

/-!
# `near_sdk::collections::UnorderedMap` over contract storage

The container keeps, under its prefix, three families of storage entries: the position of a key, the key at a position,
and the value at a position; the number of elements is part of the container value itself (its *handle*), not of the
storage (near-sdk 4, `collections/unordered_map/mod.rs`, `collections/vector.rs`; modelled after the published source,
which is not in `/repo`).  `Cells` are the entries under one prefix.  The operations below follow the source, including
its panics on an inconsistent storage.  Simplifications: keys and values are not serialized (that distinct keys have
distinct storage keys is C43); the lengths of the two vectors of a map are one number, since they change together.

`of` is the storage of a map that was filled from empty storage; on it the operations do what `UMap` says.
-/

namespace Verif.Storage

open Verif

/-- Change one entry. -/
def upd {α β : Type} [DecidableEq α] (f : α → β) (a : α) (b : β) : α → β := fun x => if x = a then b else f x

@[simp] theorem upd_self {α β : Type} [DecidableEq α] (f : α → β) (a : α) (b : β) : upd f a b a = b := by simp [upd]

@[simp] theorem upd_ne {α β : Type} [DecidableEq α] (f : α → β) {a x : α} (b : β) (h : x ≠ a) : upd f a b x = f x := by
  simp [upd, h]

/-- Storage entries under one prefix: `prefix ++ "i" ++ key`, `prefix ++ "k" ++ index`, `prefix ++ "v" ++ index`. -/
structure Cells (K V : Type) where
  index : K → Option Nat
  keys : Nat → Option K
  vals : Nat → Option V

/-- `env::panic_str(ERR_INCONSISTENT_STATE)` -/
def inconsistent {α : Type} : Res α := .error (.assert "The collection is an inconsistent state. Did previous smart contract execution terminate unexpectedly?")

/-- `Vector::get_raw` -/
def vecGet {α : Type} (f : Nat → Option α) (len i : Nat) : Res (Option α) :=
  if i < len then match f i with
    | some x => pure (some x)
    | none => inconsistent
  else pure none

/-- `Vector::replace_raw` -/
def vecReplace {α : Type} (f : Nat → Option α) (len i : Nat) (x : α) : Res (Nat → Option α) := do
  require (i < len) "Index out of bounds"
  match f i with
  | some _ => pure (upd f i (some x))
  | none => inconsistent

/-- `Vector::swap_remove_raw` (with `pop_raw`); the length goes down by one. -/
def vecSwapRemove {α : Type} (f : Nat → Option α) (len i : Nat) : Res (Nat → Option α) := do
  require (i < len) "Index out of bounds"
  match f (len - 1) with
  | none => inconsistent
  | some last =>
    let g := upd f (len - 1) none
    if i + 1 = len then pure g
    else match g i with
      | none => inconsistent
      | some _ => pure (upd g i (some last))

namespace Cells

variable {K V : Type} [DecidableEq K]

/-- Untouched storage. -/
def empty : Cells K V := ⟨fun _ => none, fun _ => none, fun _ => none⟩

/-- `UnorderedMap::get` -/
def get (m : Cells K V) (len : Nat) (k : K) : Res (Option V) :=
  match m.index k with
  | none => pure none
  | some i => do
    match ← vecGet m.vals len i with
    | some v => pure (some v)
    | none => inconsistent

/-- `UnorderedMap::insert`; also the new length. -/
def insert (m : Cells K V) (len : Nat) (k : K) (v : V) : Res (Cells K V × Nat) :=
  match m.index k with
  | some i => do
    let vals ← vecReplace m.vals len i v
    pure ({ m with vals := vals }, len)
  | none => pure (⟨upd m.index k (some len), upd m.keys len (some k), upd m.vals len (some v)⟩, len + 1)

/-- `UnorderedMap::remove`; also the new length. -/
def remove (m : Cells K V) (len : Nat) (k : K) : Res (Cells K V × Nat) :=
  match m.index k with
  | none => pure (m, len)
  | some i => do
    let index ← (if len = 1 then pure (upd m.index k none)
      else do
        let n ← subU len 1
        match ← vecGet m.keys len n with
        | none => inconsistent
        | some last =>
          let f := upd m.index k none
          pure (if last = k then f else upd f last (some i)) : Res (K → Option Nat))
    let keys ← vecSwapRemove m.keys len i
    let vals ← vecSwapRemove m.vals len i
    pure (⟨index, keys, vals⟩, len - 1)

/-- `keys_as_vector().get(i)` -/
def keyAt (m : Cells K V) (len i : Nat) : Res (Option K) := vecGet m.keys len i

/-- `values()` collected -/
def values (m : Cells K V) (len : Nat) : Res (List V) :=
  (List.range len).mapM (fun i => match m.vals i with
    | some v => pure v
    | none => inconsistent)

/-- `iter()` collected -/
def entries (m : Cells K V) (len : Nat) : Res (List (K × V)) :=
  (List.range len).mapM (fun i => match m.keys i, m.vals i with
    | some k, some v => pure (k, v)
    | _, _ => inconsistent)

/-- The storage of a map that was filled from untouched storage. -/
def of (u : UMap K V) : Cells K V where
  index k := if k ∈ u.keys then some (indexL u.entries k) else none
  keys i := u.entries[i]?.map Prod.fst
  vals i := u.entries[i]?.map Prod.snd

theorem of_empty : of (UMap.empty : UMap K V) = empty := by
  unfold of empty; congr

/-! ## Entry lists -/

theorem insertL_mem {l : List (K × V)} {k : K} (h : k ∈ l.map Prod.fst) (v : V) :
    insertL l k v = l.set (indexL l k) (k, v) := by
  induction l with
  | nil => simp at h
  | cons p t ih =>
    obtain ⟨k', v'⟩ := p
    by_cases e : k' = k
    · simp [insertL, indexL, e]
    · have h' : k ∈ t.map Prod.fst := by
        rw [List.map_cons, List.mem_cons] at h
        exact h.resolve_left (fun e' => e e'.symm)
      simp [insertL, indexL, e, ih h']

theorem insertL_not_mem {l : List (K × V)} {k : K} (h : k ∉ l.map Prod.fst) (v : V) :
    insertL l k v = l ++ [(k, v)] := by
  induction l with
  | nil => rfl
  | cons p t ih =>
    obtain ⟨k', v'⟩ := p
    simp only [List.map_cons, List.mem_cons, not_or] at h
    simp [insertL, Ne.symm h.1, ih h.2]

theorem indexL_eq {l : List (K × V)} (hn : (l.map Prod.fst).Nodup) {k : K} {v : V} {i : Nat} (h : l[i]? = some (k, v)) :
    indexL l k = i := by
  induction l generalizing i with
  | nil => simp at h
  | cons p t ih =>
    obtain ⟨k', v'⟩ := p
    obtain ⟨h1, h2⟩ := List.nodup_cons.1 hn
    cases i with
    | zero => simp at h; simp [indexL, h.1]
    | succ i =>
      simp only [List.getElem?_cons_succ] at h
      have : k' ≠ k := by
        rintro rfl
        exact h1 (List.mem_map.2 ⟨_, List.mem_of_getElem? h, rfl⟩)
      simp [indexL, this, ih h2 h]

theorem index_iff (u : UMap K V) (k : K) (i : Nat) : (of u).index k = some i ↔ ∃ v, u.entries[i]? = some (k, v) := by
  simp only [of]
  constructor
  · intro h
    split at h
    · rename_i hk
      simp only [Option.some.injEq] at h
      subst h
      refine ⟨(u.entries[indexL u.entries k]'(indexL_lt hk)).2, ?_⟩
      rw [List.getElem?_eq_getElem (indexL_lt hk)]
      congr 1
      rw [Prod.ext_iff]
      exact ⟨indexL_key hk, rfl⟩
    · simp at h
  · rintro ⟨v, hv⟩
    have hk : k ∈ u.keys := List.mem_map_of_mem (f := Prod.fst) (List.mem_of_getElem? hv)
    rw [if_pos hk, indexL_eq u.nodup hv]

theorem index_none_iff (u : UMap K V) (k : K) : (of u).index k = none ↔ u.get k = none := by
  rw [UMap.get_eq_none_iff]
  simp only [of]
  split <;> simp_all

theorem of_ext {a : K → Option Nat} {b : Nat → Option K} {c : Nat → Option V} {u : UMap K V}
    (h1 : ∀ k i, a k = some i ↔ ∃ v, u.entries[i]? = some (k, v))
    (h2 : ∀ i, b i = u.entries[i]?.map Prod.fst) (h3 : ∀ i, c i = u.entries[i]?.map Prod.snd) :
    (⟨a, b, c⟩ : Cells K V) = of u := by
  have e1 : a = (of u).index := by
    funext k
    apply Option.ext
    intro i
    rw [index_iff]; exact h1 k i
  have e2 : b = (of u).keys := funext h2
  have e3 : c = (of u).vals := funext h3
  rw [e1, e2, e3]

/-! ## The operations on clean storage -/

theorem get_of (u : UMap K V) (k : K) : (of u).get u.len k = .ok (u.get k) := by
  unfold get
  cases h : (of u).index k with
  | none => rw [(index_none_iff u k).1 h]; rfl
  | some i =>
    obtain ⟨v, hv⟩ := (index_iff u k i).1 h
    have hlt : i < u.len := by
      unfold UMap.len
      exact (List.getElem?_eq_some_iff.1 hv).1
    have hg : u.get k = some v := UMap.get_eq_some_iff.2 (List.mem_of_getElem? hv)
    have hval : (of u).vals i = some v := by simp [of, hv]
    simp [vecGet, hlt, hval, hg, bind, Except.bind, pure, Except.pure]

theorem insert_of (u : UMap K V) (k : K) (v : V) :
    (of u).insert u.len k v = .ok (of (u.insert k v), (u.insert k v).len) := by
  unfold insert
  cases h : (of u).index k with
  | none =>
    have hk : u.get k = none := (index_none_iff u k).1 h
    have hm : k ∉ u.entries.map Prod.fst := UMap.get_eq_none_iff.1 hk
    have he : (u.insert k v).entries = u.entries ++ [(k, v)] := insertL_not_mem hm v
    have hl : (u.insert k v).len = u.len + 1 := by simp [UMap.len, he]
    rw [hl]
    simp only [pure, Except.pure]
    congr 2
    apply of_ext
    · intro k' i
      rw [he]
      by_cases e : k' = k
      · subst e
        rw [upd_self]
        constructor
        · rintro ⟨⟩
          exact ⟨v, by simp [UMap.len]⟩
        · rintro ⟨v', hv⟩
          rw [List.getElem?_append] at hv
          split at hv
          · exact absurd (List.mem_map_of_mem (f := Prod.fst) (List.mem_of_getElem? hv)) hm
          · rename_i hi
            have : i - u.entries.length = 0 := by
              by_contra hc
              rw [List.getElem?_eq_none (by simp; omega)] at hv
              simp at hv
            simp [UMap.len]; omega
      · rw [upd_ne _ _ e, index_iff]
        refine exists_congr fun v' => ?_
        rw [List.getElem?_append]
        split
        · rfl
        · rename_i hi
          rw [List.getElem?_eq_none (by omega)]
          constructor
          · simp
          · intro hv
            have := List.mem_of_getElem? hv
            simp at this
            exact absurd this.1 e
    · intro i
      rw [he]
      by_cases e : i = u.len
      · subst e; simp [UMap.len]
      · rw [upd_ne _ _ e]
        simp only [of, List.getElem?_append]
        unfold UMap.len at e
        split
        · rfl
        · rw [List.getElem?_eq_none (by omega), List.getElem?_eq_none (by simp; omega)]
    · intro i
      rw [he]
      by_cases e : i = u.len
      · subst e; simp [UMap.len]
      · rw [upd_ne _ _ e]
        simp only [of, List.getElem?_append]
        unfold UMap.len at e
        split
        · rfl
        · rw [List.getElem?_eq_none (by omega), List.getElem?_eq_none (by simp; omega)]
  | some j =>
    obtain ⟨w, hw⟩ := (index_iff u k j).1 h
    have hlt : j < u.entries.length := (List.getElem?_eq_some_iff.1 hw).1
    have hm : k ∈ u.entries.map Prod.fst := List.mem_map_of_mem (f := Prod.fst) (List.mem_of_getElem? hw)
    have hj : indexL u.entries k = j := indexL_eq u.nodup hw
    have he : (u.insert k v).entries = u.entries.set j (k, v) := by
      rw [← hj]; exact insertL_mem hm v
    have hl : (u.insert k v).len = u.len := by simp [UMap.len, he]
    have hval : (of u).vals j = some w := by simp [of, hw]
    have hlt' : j < u.len := hlt
    rw [hl]
    simp only [vecReplace, require, hlt', hval, if_true, bind, Except.bind, pure, Except.pure]
    congr 2
    apply of_ext
    · intro k' i
      rw [index_iff, he, List.getElem?_set]
      by_cases e : j = i
      · subst e
        rw [if_pos rfl, if_pos hlt, hw]
        simp
      · rw [if_neg e]
    · intro i
      rw [he, List.getElem?_set]
      by_cases e : j = i
      · subst e
        rw [if_pos rfl, if_pos hlt]; simp [of, hw]
      · rw [if_neg e]; rfl
    · intro i
      rw [he, List.getElem?_set]
      by_cases e : j = i
      · subst e
        rw [if_pos rfl, if_pos hlt]; simp
      · rw [if_neg e, upd_ne _ _ (Ne.symm e)]; rfl

theorem getElem?_swapRemove {α : Type} {l : List α} {i : Nat} (h : i < l.length) (j : Nat) :
    (swapRemove l i)[j]? = if j + 1 < l.length then (if j = i then l[l.length - 1]? else l[j]?) else none := by
  have hne : l ≠ [] := by rintro rfl; simp at h
  unfold swapRemove
  rw [List.getLast?_eq_some_getLast hne]
  simp only [List.getElem?_dropLast, List.length_set, List.getElem?_set]
  by_cases hj : j + 1 < l.length
  · rw [if_pos (by omega), if_pos hj]
    by_cases e : i = j
    · subst e
      rw [if_pos rfl, if_pos h, if_pos rfl, List.getElem?_eq_getElem (by omega), List.getLast_eq_getElem]
    · rw [if_neg e, if_neg (Ne.symm e)]
  · rw [if_neg (by omega), if_neg hj]

theorem vecSwapRemove_of {α β : Type} (l : List α) (p : α → β) {i : Nat} (h : i < l.length) :
    vecSwapRemove (fun j => l[j]?.map p) l.length i = .ok (fun j => (swapRemove l i)[j]?.map p) := by
  have hl : l[l.length - 1]? = some l[l.length - 1] := List.getElem?_eq_getElem (by omega)
  unfold vecSwapRemove
  simp only [require, h, if_true, bind, Except.bind, hl, Option.map_some, pure, Except.pure]
  split
  · rename_i e
    congr 1
    funext j
    rw [getElem?_swapRemove h]
    by_cases hj : j = l.length - 1
    · subst hj
      rw [upd_self, if_neg (by omega)]; rfl
    · rw [upd_ne _ _ hj]
      by_cases hj' : j + 1 < l.length
      · rw [if_pos hj', if_neg (by omega)]
      · rw [if_neg hj', List.getElem?_eq_none (by omega)]
  · rename_i e
    have hi : i ≠ l.length - 1 := by omega
    rw [upd_ne _ _ hi, List.getElem?_eq_getElem h]
    simp only [Option.map_some]
    congr 1
    funext j
    rw [getElem?_swapRemove h]
    by_cases hj : j = i
    · subst hj
      rw [upd_self, if_pos (by omega), if_pos rfl, hl]; rfl
    · rw [upd_ne _ _ hj]
      by_cases hj2 : j = l.length - 1
      · subst hj2
        rw [upd_self, if_neg (by omega)]; rfl
      · rw [upd_ne _ _ hj2]
        by_cases hj' : j + 1 < l.length
        · rw [if_pos hj', if_neg hj]
        · rw [if_neg hj', List.getElem?_eq_none (by omega)]

theorem remove_of (u : UMap K V) (k : K) :
    (of u).remove u.len k = .ok (of (u.remove k), (u.remove k).len) := by
  unfold remove
  cases h : (of u).index k with
  | none =>
    rw [UMap.remove_of_none ((index_none_iff u k).1 h)]; rfl
  | some i =>
    obtain ⟨w, hw⟩ := (index_iff u k i).1 h
    have hlt : i < u.entries.length := (List.getElem?_eq_some_iff.1 hw).1
    have hm : k ∈ u.entries.map Prod.fst := List.mem_map_of_mem (f := Prod.fst) (List.mem_of_getElem? hw)
    have hi : indexL u.entries k = i := indexL_eq u.nodup hw
    have he : (u.remove k).entries = swapRemove u.entries i := by
      simp only [UMap.remove, removeL, if_pos hm, hi]
    have hl : (u.remove k).len = u.len - 1 := by
      have := swapRemove_length u.entries i hlt
      simp only [UMap.len, he]; omega
    rw [hl]
    have hv1 := vecSwapRemove_of u.entries Prod.fst hlt
    have hv2 := vecSwapRemove_of u.entries Prod.snd hlt
    have hkeys : (of u).keys = fun j => u.entries[j]?.map Prod.fst := rfl
    have hvals : (of u).vals = fun j => u.entries[j]?.map Prod.snd := rfl
    have hlen : u.len = u.entries.length := rfl
    obtain ⟨last, hlast⟩ : ∃ p, u.entries[u.entries.length - 1]? = some p :=
      ⟨_, List.getElem?_eq_getElem (by omega)⟩
    -- the new index
    have hidx : (if u.len = 1 then pure (upd (of u).index k none)
      else do
        let n ← subU u.len 1
        match ← vecGet (of u).keys u.len n with
        | none => inconsistent
        | some last =>
          pure (if last = k then upd (of u).index k none else upd (upd (of u).index k none) last (some i)) : Res (K → Option Nat))
        = .ok (of (u.remove k)).index := by
      have hif : ∀ (f : K → Option Nat), (∀ k' j, f k' = some j ↔ ∃ v, (u.remove k).entries[j]? = some (k', v)) →
          f = (of (u.remove k)).index := by
        intro f hf
        funext k'
        apply Option.ext
        intro j
        rw [index_iff]; exact hf k' j
      split
      · rename_i h1
        simp only [pure, Except.pure]
        congr 1
        apply hif
        intro k' j
        rw [he, getElem?_swapRemove hlt, if_neg (by omega)]
        by_cases e : k' = k
        · subst e; simp
        · rw [upd_ne _ _ e, index_iff]
          constructor
          · rintro ⟨v, hv⟩
            have hj : j < u.entries.length := (List.getElem?_eq_some_iff.1 hv).1
            have : j = i := by omega
            subst this
            rw [hw] at hv
            simp at hv
            exact absurd hv.1.symm e
          · rintro ⟨v, hv⟩; simp at hv
      · rename_i h1
        have hsub : subU u.len 1 = .ok (u.len - 1) := by
          rw [subU_ok_iff]; exact ⟨by omega, rfl⟩
        have hvg : vecGet (of u).keys u.len (u.len - 1) = .ok (some last.1) := by
          unfold vecGet
          rw [if_pos (by omega), hkeys]
          simp only [hlen, hlast, Option.map_some]; rfl
        simp only [hsub, hvg, bind, Except.bind, pure, Except.pure]
        congr 1
        apply hif
        intro k' j
        rw [he, getElem?_swapRemove hlt]
        have hlk : last.1 = k → i = u.entries.length - 1 := by
          rintro rfl
          rw [← hi]
          exact indexL_eq u.nodup (v := last.2) hlast
        have hkl : i = u.entries.length - 1 → last.1 = k := by
          rintro rfl
          rw [hlast] at hw
          simp at hw
          rw [hw]
        by_cases hli : last.1 = k
        · rw [if_pos hli]
          have hi' := hlk hli
          by_cases e : k' = k
          · subst e
            rw [upd_self]
            constructor
            · simp
            · rintro ⟨v, hv⟩
              split at hv
              · rw [if_neg (by omega)] at hv
                have := indexL_eq u.nodup hv
                omega
              · simp at hv
          · rw [upd_ne _ _ e, index_iff]
            refine exists_congr fun v => ?_
            by_cases hj : j + 1 < u.entries.length
            · rw [if_pos hj, if_neg (by omega)]
            · rw [if_neg hj]
              constructor
              · intro hv
                have hj2 : j < u.entries.length := (List.getElem?_eq_some_iff.1 hv).1
                have : j = i := by omega
                subst this
                rw [hw] at hv
                simp at hv
                exact absurd hv.1.symm e
              · simp
        · rw [if_neg hli]
          have hi' : i ≠ u.entries.length - 1 := fun e => hli (hkl e)
          by_cases e1 : k' = last.1
          · subst e1
            rw [upd_self]
            constructor
            · rintro ⟨⟩
              exact ⟨last.2, by rw [if_pos (by omega), if_pos rfl]; exact hlast⟩
            · rintro ⟨v, hv⟩
              split at hv
              · split at hv
                · rename_i e; rw [e]
                · have h1 := indexL_eq u.nodup hv
                  have h2 := indexL_eq u.nodup (k := last.1) (v := last.2) hlast
                  omega
              · simp at hv
          · rw [upd_ne _ _ e1]
            by_cases e : k' = k
            · subst e
              rw [upd_self]
              constructor
              · simp
              · rintro ⟨v, hv⟩
                split at hv
                · split at hv
                  · rw [hlast] at hv
                    simp at hv
                    rw [hv] at e1
                    exact absurd rfl e1
                  · rename_i hji
                    exact absurd (indexL_eq u.nodup hv) (by omega)
                · simp at hv
            · rw [upd_ne _ _ e, index_iff]
              refine exists_congr fun v => ?_
              by_cases hj : j + 1 < u.entries.length
              · rw [if_pos hj]
                by_cases hji : j = i
                · subst hji
                  rw [if_pos rfl, hw, hlast]
                  constructor
                  · intro hv; simp at hv; exact absurd hv.1.symm e
                  · intro hv; simp at hv; rw [hv] at e1; exact absurd rfl e1
                · rw [if_neg hji]
              · rw [if_neg hj]
                constructor
                · intro hv
                  have hj2 : j < u.entries.length := (List.getElem?_eq_some_iff.1 hv).1
                  have : j = u.entries.length - 1 := by omega
                  subst this
                  rw [hlast] at hv
                  simp at hv
                  rw [hv] at e1
                  exact absurd rfl e1
                · simp
    simp only
    rw [hidx, hkeys, hvals, hlen, hv1, hv2]
    simp only [bind, Except.bind, pure, Except.pure]
    congr 2
    apply of_ext
    · intro k' j; exact index_iff _ _ _
    · intro j; rw [he]
    · intro j; rw [he]

theorem mapM_range {α β : Type} (l : List α) (f : Nat → Res β) (g : α → β) (h : ∀ i (hi : i < l.length), f i = .ok (g l[i])) :
    (List.range l.length).mapM f = .ok (l.map g) := by
  have key : ∀ n, n ≤ l.length → (List.range n).mapM f = .ok ((l.take n).map g) := by
    intro n
    induction n with
    | zero => intro _; rfl
    | succ n ih =>
      intro hn
      rw [List.range_succ, List.mapM_append, ih (by omega)]
      have hlt : n < l.length := by omega
      rw [List.take_add_one, List.getElem?_eq_getElem hlt]
      simp only [List.mapM_cons, List.mapM_nil, h n hlt, bind, Except.bind, pure, Except.pure, Option.toList_some,
        List.map_append, List.map_cons, List.map_nil]
  have := key l.length (Nat.le_refl _)
  rwa [List.take_length] at this

theorem values_of (u : UMap K V) : (of u).values u.len = .ok u.values := by
  unfold values UMap.values UMap.len
  refine mapM_range u.entries _ Prod.snd ?_
  intro i hi
  simp [of, List.getElem?_eq_getElem hi, pure, Except.pure]

theorem entries_of (u : UMap K V) : (of u).entries u.len = .ok u.entries := by
  unfold entries UMap.len
  have := mapM_range u.entries (fun i => match (of u).keys i, (of u).vals i with
    | some k, some v => pure (k, v)
    | _, _ => inconsistent) id ?_
  · rwa [List.map_id] at this
  intro i hi
  simp [of, List.getElem?_eq_getElem hi, pure, Except.pure]

theorem keyAt_of (u : UMap K V) (i : Nat) : (of u).keyAt u.len i = .ok u.keys[i]? := by
  unfold keyAt vecGet
  by_cases h : i < u.len
  · have h' : i < u.entries.length := h
    rw [if_pos h]
    simp [of, UMap.keys, List.getElem?_eq_getElem h', pure, Except.pure]
  · rw [if_neg h]
    have : u.keys[i]? = none := List.getElem?_eq_none (by simpa [UMap.keys, UMap.len] using h)
    rw [this]; rfl

end Cells

end Verif.Storage
