import Verif.Spec.Kv

/-!
# C61–C63: the key-value store
-/

namespace Verif.Kv

open Verif

variable {owner operator : String}

theorem exec_ok {s s' : State} {c : Ctx} {k : Call} {r : Option String} (h : exec s c k = .ok (s', r)) :
    (k.payable = true ∨ c.deposit = 0) ∧
    match k with
    | .set_operator_id a => c.deposit = 1 ∧ s.owner_id = c.predecessor ∧ s' = { s with operator_id := a } ∧ r = none
    | .set_owner_id a => c.deposit = 1 ∧ s.owner_id = c.predecessor ∧ s' = { s with owner_id := a } ∧ r = none
    | .set_value k v => s.operator_id = c.predecessor ∧
        s' = { s with associated_user_data := s.associated_user_data.insert k v } ∧ r = none
    | .set_values l => s.operator_id = c.predecessor ∧
        s' = { s with associated_user_data := l.foldl (fun m kv => m.insert kv.1 kv.2) s.associated_user_data } ∧
        r = none
    | .remove_value k => s.operator_id = c.predecessor ∧
        s' = { s with associated_user_data := s.associated_user_data.remove k } ∧ r = s.associated_user_data.get k := by
  simp only [exec, bind_ok_iff, require_ok_iff] at h
  obtain ⟨-, h1, h⟩ := h
  refine ⟨h1, ?_⟩
  cases k <;> simp only [State.set_operator_id, State.set_owner_id, State.set_value, State.set_values,
    State.remove_value, State.assert_one_yocto, State.assert_only_owner, State.assert_operator, bind_ok_iff,
    require_ok_iff, pure_ok_iff, Prod.mk.injEq] at h
  · obtain ⟨_, ⟨-, h2, -, h3, rfl⟩, rfl, rfl⟩ := h; exact ⟨h2, h3, rfl, rfl⟩
  · obtain ⟨_, ⟨-, h2, -, h3, rfl⟩, rfl, rfl⟩ := h; exact ⟨h2, h3, rfl, rfl⟩
  · obtain ⟨_, ⟨-, h3, rfl⟩, rfl, rfl⟩ := h; exact ⟨h3, rfl, rfl⟩
  · obtain ⟨_, ⟨-, h3, rfl⟩, rfl, rfl⟩ := h; exact ⟨h3, rfl, rfl⟩
  · obtain ⟨-, h3, rfl, rfl⟩ := h; exact ⟨h3, rfl, rfl⟩

theorem get_foldl (l : List (String × String)) (m : UMap String String) (key : String) :
    (l.foldl (fun m kv => m.insert kv.1 kv.2) m).get key = match l.reverse.find? (fun kv => kv.1 = key) with
      | some kv => some kv.2
      | none => m.get key := by
  induction l generalizing m with
  | nil => rfl
  | cons a l ih =>
    rw [List.foldl_cons, ih, List.reverse_cons, List.find?_append]
    cases hf : l.reverse.find? (fun kv => kv.1 = key) with
    | some kv => simp
    | none =>
      simp only [Option.none_or, List.find?_cons, List.find?_nil]
      by_cases hk : a.1 = key
      · simp [hk]
      · simp [hk, UMap.get_insert]

/-! ## C61 -/

/-- C61: the value of a key is that of the newest write, unless it was removed after that. -/
theorem C61_value {w : World} (h : Reach owner operator w) (key : String) :
    w.st.get_value key = valueOf key w.log := by
  induction h with
  | init h => simp [new, require, bind, Except.bind, pure, Except.pure] at h; subst h; rfl
  | @step w c k s' r h he ih =>
    obtain ⟨-, hk⟩ := exec_ok he
    unfold State.get_value at *
    cases k <;> simp only at hk
    · obtain ⟨-, -, rfl, -⟩ := hk; exact ih
    · obtain ⟨-, -, rfl, -⟩ := hk; exact ih
    · obtain ⟨-, rfl, -⟩ := hk
      simp only [valueOf, effect, UMap.get_insert]
      split <;> simp_all
    · obtain ⟨-, rfl, -⟩ := hk
      simp only [valueOf, effect, get_foldl]
      cases List.find? (fun (kv : String × String) => decide (kv.1 = key)) _ with
      | some kv => rfl
      | none => exact ih
    · obtain ⟨-, rfl, -⟩ := hk
      simp only [valueOf, effect, UMap.get_remove]
      split <;> simp_all

/-- C61: `remove_value` returns the previous value and removes exactly that key. -/
theorem C61_remove {s s' : State} {c : Ctx} {key : String} {r : Option String}
    (h : exec s c (.remove_value key) = .ok (s', r)) : r = s.get_value key ∧ s'.get_value key = none ∧
      ∀ k, k ≠ key → s'.get_value k = s.get_value k := by
  obtain ⟨-, -, rfl, rfl⟩ := exec_ok h
  refine ⟨rfl, by simp [State.get_value], ?_⟩
  intro k hk
  simp [State.get_value, UMap.get_remove, hk.symm]

/-- C61: the count is the number of present keys: the length of any duplicate-free list of them. -/
theorem C61_count (s : State) (l : List String) (hn : l.Nodup) (hl : ∀ k, k ∈ l ↔ (s.get_value k).isSome) :
    s.get_kv_count = l.length := by
  have hp : s.associated_user_data.keys.Perm l := by
    refine (List.perm_ext_iff_of_nodup s.associated_user_data.nodup hn).2 ?_
    intro k
    rw [hl, Option.isSome_iff_exists]; exact UMap.mem_keys_iff
  have := hp.length_eq
  simpa [State.get_kv_count, UMap.len, UMap.keys] using this

/-- C61: the operator's writes and removals are always accepted. -/
theorem C61_accepted (s : State) (c : Ctx) (k : Call) (hw : writes k = true) (hd : c.deposit = 0)
    (ho : c.predecessor = s.operator_id) : ∃ r, exec s c k = .ok r := by
  cases k <;> simp [writes] at hw <;>
    simp [exec, require, hd, bind, Except.bind, State.set_value, State.set_values, State.remove_value,
      State.assert_operator, ho, pure, Except.pure]

/-! ## C62 -/

/-- C62: in every history, owner and operator are those of the newest accepted change, or the initial ones. -/
theorem C62_roles {w : World} (h : Reach owner operator w) : w.st.get_owner_id = ownerOf owner w.log ∧
    w.st.get_operator_id = operatorOf operator w.log := by
  induction h with
  | init h => simp [new, require, bind, Except.bind, pure, Except.pure] at h; subst h; exact ⟨rfl, rfl⟩
  | @step w c k s' r h he ih =>
    obtain ⟨-, hk⟩ := exec_ok he
    cases k <;> simp only at hk
    · obtain ⟨-, -, rfl, -⟩ := hk; exact ⟨ih.1, rfl⟩
    · obtain ⟨-, -, rfl, -⟩ := hk; exact ⟨rfl, ih.2⟩
    · obtain ⟨-, rfl, -⟩ := hk; exact ih
    · obtain ⟨-, rfl, -⟩ := hk; exact ih
    · obtain ⟨-, rfl, -⟩ := hk; exact ih

/-- C62: every accepted call of every history was made by the operator of that moment, if it writes, and else by the
owner of that moment with one yocto attached. -/
theorem C62_authorized {w : World} (h : Reach owner operator w) : ∀ pre c k post, w.log = pre ++ (c, k) :: post →
    if writes k then c.predecessor = operatorOf operator post ∧ c.deposit = 0
    else c.predecessor = ownerOf owner post ∧ c.deposit = 1 := by
  induction h with
  | init h => intro pre c k post he; simp at he
  | @step w c0 k0 s' r h he ih =>
    intro pre c k post hl
    cases pre with
    | cons x pre =>
      simp only [List.cons_append, List.cons.injEq] at hl
      exact ih pre c k post hl.2
    | nil =>
      simp only [List.nil_append, List.cons.injEq, Prod.mk.injEq] at hl
      obtain ⟨⟨rfl, rfl⟩, rfl⟩ := hl
      obtain ⟨r1, r2⟩ := C62_roles h
      unfold State.get_owner_id at r1
      unfold State.get_operator_id at r2
      obtain ⟨hd, hk⟩ := exec_ok he
      cases k0 <;> simp only at hk <;> simp only [writes, if_true, Bool.false_eq_true, if_false] <;>
        simp only [Call.payable, Bool.false_eq_true, false_or] at hd
      · exact ⟨by rw [← hk.2.1, r1], hk.1⟩
      · exact ⟨by rw [← hk.2.1, r1], hk.1⟩
      · exact ⟨by rw [← hk.1, r2], hd⟩
      · exact ⟨by rw [← hk.1, r2], hd⟩
      · exact ⟨by rw [← hk.1, r2], hd⟩

/-! ## C63 -/

/-- C63: all pages are slices of one duplicate-free enumeration of the present keys with their values. -/
theorem C63_pages (s : State) : ∃ all : List (String × String), (all.map Prod.fst).Nodup ∧
    (∀ k v, (k, v) ∈ all ↔ s.get_value k = some v) ∧ all.length = s.get_kv_count ∧
    ∀ from_index limit, s.get_values from_index limit = .ok ((all.drop from_index).take limit) := by
  refine ⟨s.associated_user_data.entries, s.associated_user_data.nodup,
    fun k v => UMap.get_eq_some_iff.symm, rfl, ?_⟩
  intro from_index limit
  generalize hm : s.associated_user_data = m
  have key : ∀ n, n ≤ m.len - from_index → (List.range n).mapM (fun i => do
      let key ← expect m.keys[from_index + i]? "called `Option::unwrap()` on a `None` value"
      let value ← expect (m.get key) "called `Option::unwrap()` on a `None` value"
      pure (key, value)) = (.ok ((m.entries.drop from_index).take n) : Res _) := by
    intro n
    induction n with
    | zero => intro _; rfl
    | succ n ih =>
      intro hn
      have hlt : from_index + n < m.entries.length := by unfold UMap.len at hn; omega
      rw [List.range_succ, List.mapM_append, ih (by omega)]
      have h1 : m.keys[from_index + n]? = some (m.entries[from_index + n]).1 := by
        simp [UMap.keys, List.getElem?_map, List.getElem?_eq_getElem hlt]
      have h2 : m.get (m.entries[from_index + n]).1 = some (m.entries[from_index + n]).2 :=
        UMap.get_eq_some_iff.2 (List.getElem_mem hlt)
      have h3 : (m.entries.drop from_index).take (n + 1) =
          (m.entries.drop from_index).take n ++ [m.entries[from_index + n]] := by
        rw [List.take_add_one, List.getElem?_drop, List.getElem?_eq_getElem hlt]; rfl
      rw [h3]
      simp [h1, h2, expect, bind, Except.bind, pure, Except.pure]
  unfold State.get_values
  rw [hm, key _ (by omega)]
  congr 1
  apply List.take_eq_take_iff.2
  simp only [List.length_drop, UMap.len]
  omega

/-! ## An execution -/

/-- Run calls. -/
def runs (w : World) : List (Ctx × Call) → Option World
  | [] => some w
  | (c, k) :: l => match exec w.st c k with
    | .ok r => runs ⟨r.1, (c, k) :: w.log⟩ l
    | .error _ => none

theorem reach_of_runs {l : List (Ctx × Call)} : ∀ {w w' : World}, Reach owner operator w → runs w l = some w' →
    Reach owner operator w' := by
  induction l with
  | nil => intro w w' h hr; cases hr; exact h
  | cons a l ih =>
    intro w w' h hr
    obtain ⟨c, k⟩ := a
    simp only [runs] at hr
    split at hr
    · rename_i r he; exact ih (h.step (r := r.2) he) hr
    · simp at hr

/-- Two writes, a list of writes, a removal, a new operator, another write. -/
def demo : World := (runs ⟨⟨"own", "op", UMap.empty⟩, []⟩
  [(⟨"op", 0⟩, .set_value "a" "1"), (⟨"op", 0⟩, .set_values [("b", "2"), ("c", "3"), ("b", "4")]),
   (⟨"op", 0⟩, .remove_value "a"), (⟨"own", 1⟩, .set_operator_id "op2"),
   (⟨"op2", 0⟩, .set_value "d" "5")]).get (by decide +kernel)

theorem demo_reach : Reach "own" "op" demo := reach_of_runs (.init rfl) (Option.some_get _).symm

example : Reach "own" "op" demo ∧ demo.st.get_value "b" = some "4" ∧ demo.st.get_value "a" = none ∧
    demo.st.get_kv_count = 3 ∧ (demo.st.get_values 1 5).getOr [] = [("b", "4"), ("d", "5")] ∧
    demo.log.length = 5 ∧ (∃ r, exec demo.st ⟨"op2", 0⟩ (.remove_value "c") = .ok r) ∧
    ["b", "c", "d"].Nodup ∧ (exec demo.st ⟨"op", 0⟩ (.remove_value "c")).isOk = false :=
  ⟨demo_reach, by decide +kernel, by decide +kernel, by decide +kernel, by decide +kernel, by decide +kernel,
    C61_accepted _ _ _ rfl rfl (by decide +kernel), by decide, by decide +kernel⟩

end Verif.Kv
