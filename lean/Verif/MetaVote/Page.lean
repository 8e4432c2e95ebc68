import Verif.MetaVote.ViewLemmas

/-!
# Pages are slices of the list of entries
-/

namespace Verif.MetaVote

open Verif

theorem mapM_ok_map {α β : Type} {f : α → Res β} {g : α → β} {l : List α}
    (h : ∀ a ∈ l, f a = .ok (g a)) : l.mapM f = .ok (l.map g) := by
  rw [mapM_ok_iff]
  induction l with
  | nil => exact .nil
  | cons a t ih =>
    exact .cons (h a (by simp)) (ih fun b hb => h b (by simp [hb]))

theorem key_at {V : Type} (m : UMap String V) (i : Nat) :
    m.keys[i]? = (m.entries[i]?).map Prod.fst := by
  unfold UMap.keys; rw [List.getElem?_map]

theorem slice_eq {α : Type} (l : List α) (d : α) (a n : Nat) (hn : n ≤ l.length - a) :
    (List.range n).map (fun i => (l[a + i]?).getD d) = (l.drop a).take n := by
  apply List.ext_getElem?
  intro i
  rw [List.getElem?_map, List.getElem?_take, List.getElem?_drop]
  by_cases hi : i < n
  · rw [List.getElem?_range hi, if_pos hi]
    have h2 : a + i < l.length := by omega
    simp [List.getElem?_eq_getElem h2]
  · rw [if_neg hi, List.getElem?_eq_none (by simpa using hi)]
    rfl

theorem read_ok {V R : Type} (m : UMap String V) (f : String → V → R) (i : Nat) (e : String × V)
    (h : m.entries[i]? = some e) :
    (do
      let k ← expect m.keys[i]? "called `Option::unwrap()` on a `None` value"
      let v ← expect (m.get k) "called `Option::unwrap()` on a `None` value"
      pure (f k v) : Res R) = .ok (f e.1 e.2) := by
  simp only [bind_ok_iff, expect_ok_iff, pure_ok_iff]
  refine ⟨e.1, by rw [key_at, h]; rfl, e.2, ?_, rfl⟩
  exact UMap.get_eq_some_iff.2 (List.mem_of_getElem? h)

/-- A page is the corresponding slice of the entries; it never panics. -/
theorem page_eq {V R : Type} (m : UMap String V) (f : String → V → R) (a n : Nat) :
    page m f a n = .ok (((m.entries.drop a).take n).map (fun e => f e.1 e.2)) := by
  unfold page
  have hlen : m.len = m.entries.length := rfl
  cases hm : m.entries with
  | nil =>
    rw [hlen, hm]
    simp only [List.length_nil, Nat.min_zero, Nat.zero_sub, List.range_zero, List.drop_nil, List.take_nil,
      List.map_nil]
    rfl
  | cons d t =>
    rw [mapM_ok_map (g := fun i => f ((m.entries[a + i]?).getD d).1 ((m.entries[a + i]?).getD d).2)]
    · rw [← hm]
      have h1 : (List.range (min (a + n) m.len - a)).map
          (fun i => f ((m.entries[a + i]?).getD d).1 ((m.entries[a + i]?).getD d).2)
          = ((List.range (min (a + n) m.len - a)).map (fun i => (m.entries[a + i]?).getD d)).map
            (fun e => f e.1 e.2) := by rw [List.map_map]; rfl
      rw [h1, slice_eq m.entries d a _ (by omega), hlen]
      congr 2
      apply List.ext_getElem?
      intro i
      rw [List.getElem?_take, List.getElem?_take, List.getElem?_drop]
      by_cases h2 : a + i < m.entries.length
      · by_cases h3 : i < n
        · rw [if_pos h3, if_pos (by omega)]
        · rw [if_neg h3, if_neg (by omega)]
      · rw [List.getElem?_eq_none (by omega)]; simp
    · intro i hi
      simp only [List.mem_range] at hi
      have : a + i < m.entries.length := by omega
      rw [List.getElem?_eq_getElem this]
      exact read_ok m f (a + i) _ (List.getElem?_eq_getElem this)

end Verif.MetaVote
