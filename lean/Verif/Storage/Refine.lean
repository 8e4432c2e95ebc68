import Verif.Storage.Contract
import Verif.Storage.Frame

/-!
# When the stored vote maps are the maps of the model

`Stores A vm tot M`: the storage `M` holds exactly the vote maps `vm` of the voters and the totals `tot`, where the
pairs of voter and app that are used satisfy `A`.  If `join` is injective on `A`, every operation on the stored maps does
what the operation on the values does.
-/

namespace Verif.Storage

open Verif MetaVote

/-- Votes per app and object. -/
abbrev VMap := UMap String (UMap String Nat)

/-- Both fail with the same panic, or both succeed with results related by `P`. -/
def Sim {α β : Type} (P : α → β → Prop) : Res α → Res β → Prop
  | .ok a, .ok b => P a b
  | .error e, .error e' => e = e'
  | _, _ => False

theorem Sim.bind {α β γ δ : Type} {P : α → β → Prop} {Q : γ → δ → Prop} {x : Res α} {y : Res β} {f : α → Res γ}
    {g : β → Res δ} (h : Sim P x y) (hf : ∀ a b, P a b → Sim Q (f a) (g b)) : Sim Q (x >>= f) (y >>= g) := by
  cases x <;> cases y <;> simp only [Sim] at h
  · subst h; rfl
  · exact hf _ _ h

theorem Sim.same {α γ δ : Type} {Q : γ → δ → Prop} (x : Res α) {f : α → Res γ} {g : α → Res δ}
    (hf : ∀ a, x = .ok a → Sim Q (f a) (g a)) : Sim Q (x >>= f) (x >>= g) := by
  cases x
  · rfl
  · exact hf _ rfl

theorem Sim.pure {α β : Type} {P : α → β → Prop} {a : α} {b : β} (h : P a b) : Sim P (pure a) (pure b) := h

theorem Sim.mono {α β : Type} {P Q : α → β → Prop} {x : Res α} {y : Res β} (h : Sim P x y) (hf : ∀ a b, P a b → Q a b) :
    Sim Q x y := by
  cases x <;> cases y <;> simp only [Sim] at h ⊢
  · exact h
  · exact hf _ _ h

/-- Inner map, empty when absent. -/
def inner (m : VMap) (c : String) : UMap String Nat := (m.get c).getD UMap.empty

/-- The storage holds these vote maps. -/
structure Stores (A : String → String → Prop) (vm : String → VMap) (tot : VMap) (M : Mem) : Prop where
  vp : ∀ v, M.vp v = Cells.of ((vm v).mapV (fun c m => ⟨join v c, m.len⟩))
  vv : ∀ v c, A v c → M.vv (join v c) = Cells.of (inner (vm v) c)
  allowed : ∀ v c m, (vm v).get c = some m → A v c
  vt : M.vt = tot.mapV (fun _ m => m.len)
  cv : ∀ c, M.cv c = Cells.of (inner tot c)

/-- Distinct pairs have distinct regions. -/
def Joins (A : String → String → Prop) : Prop :=
  ∀ v c v' c', A v c → A v' c' → join v c = join v' c' → v = v' ∧ c = c'

theorem inner_insert (m : VMap) (c c' : String) (x : UMap String Nat) :
    inner (m.insert c x) c' = if c' = c then x else inner m c' := by
  unfold inner; rw [UMap.get_insert]; by_cases e : c' = c
  · simp [e]
  · simp [e, Ne.symm e]

theorem inner_remove (m : VMap) (c c' : String) :
    inner (m.remove c) c' = if c' = c then UMap.empty else inner m c' := by
  unfold inner; rw [UMap.get_remove]; by_cases e : c' = c
  · simp [e]
  · simp [e, Ne.symm e]

theorem inner_len (m : VMap) (c : String) : ((m.mapV (fun _ x => x.len)).get c).getD 0 = (inner m c).len := by
  rw [UMap.get_mapV]; unfold inner; cases m.get c <;> rfl

theorem len_eq_zero {K V : Type} [DecidableEq K] (m : UMap K V) : m.len = 0 ↔ m.isEmpty = true := by
  rw [UMap.isEmpty_iff]; simp [UMap.len]

variable {A : String → String → Prop} {vm : String → VMap} {tot : VMap} {M : Mem}

theorem Stores.position (h : Stores A vm tot M) (id c : String) :
    M.position id (vm id).len c = .ok ⟨join id c, (inner (vm id) c).len⟩ := by
  unfold Mem.position
  rw [h.vp id]
  have := Cells.get_of ((vm id).mapV (fun c m => (⟨join id c, m.len⟩ : Handle))) c
  rw [UMap.len_mapV] at this
  rw [this, UMap.get_mapV]
  unfold inner
  cases (vm id).get c <;> rfl

theorem Stores.voteIn (h : Stores A vm tot M) {id c : String} (ha : A id c) (o : String) :
    M.voteIn ⟨join id c, (inner (vm id) c).len⟩ o = .ok ((inner (vm id) c).get o) := by
  unfold Mem.voteIn
  rw [h.vv id c ha]
  exact Cells.get_of _ _

/-- Replacing the inner map of one pair by a nonempty one. -/
theorem Stores.put (hj : Joins A) (h : Stores A vm tot M) {id c : String} (ha : A id c) (x : UMap String Nat) :
    Stores A (upd vm id ((vm id).insert c x)) tot
      { M with
        vv := upd M.vv (join id c) (Cells.of x)
        vp := upd M.vp id (Cells.of (((vm id).insert c x).mapV (fun c m => ⟨join id c, m.len⟩))) } := by
  refine ⟨?_, ?_, ?_, h.vt, h.cv⟩
  · intro v
    by_cases e : v = id
    · subst e; simp
    · simp [e, h.vp v]
  · intro v c' ha'
    by_cases e : v = id
    · subst e
      simp only [upd_self, inner_insert]
      by_cases ec : c' = c
      · subst ec; simp
      · rw [if_neg ec, upd_ne _ _ (fun e => ec (hj _ _ _ _ ha' ha e).2)]; exact h.vv v c' ha'
    · rw [upd_ne _ _ e]
      simp only
      rw [upd_ne _ _ (fun e' => e (hj _ _ _ _ ha' ha e').1)]; exact h.vv v c' ha'
  · intro v c' m hm
    by_cases e : v = id
    · subst e
      rw [upd_self, UMap.get_insert] at hm
      by_cases ec : c' = c
      · subst ec; exact ha
      · rw [if_neg (Ne.symm ec)] at hm; exact h.allowed v c' m hm
    · rw [upd_ne _ _ e] at hm; exact h.allowed v c' m hm

/-- Removing the inner map of one pair. -/
theorem Stores.drop (hj : Joins A) (h : Stores A vm tot M) {id c : String} (ha : A id c) :
    Stores A (upd vm id ((vm id).remove c)) tot
      { M with
        vv := upd M.vv (join id c) (Cells.of UMap.empty)
        vp := upd M.vp id (Cells.of (((vm id).remove c).mapV (fun c m => ⟨join id c, m.len⟩))) } := by
  refine ⟨?_, ?_, ?_, h.vt, h.cv⟩
  · intro v
    by_cases e : v = id
    · subst e; simp
    · simp [e, h.vp v]
  · intro v c' ha'
    by_cases e : v = id
    · subst e
      simp only [upd_self, inner_remove]
      by_cases ec : c' = c
      · subst ec; simp
      · rw [if_neg ec, upd_ne _ _ (fun e => ec (hj _ _ _ _ ha' ha e).2)]; exact h.vv v c' ha'
    · rw [upd_ne _ _ e]
      simp only
      rw [upd_ne _ _ (fun e' => e (hj _ _ _ _ ha' ha e').1)]; exact h.vv v c' ha'
  · intro v c' m hm
    by_cases e : v = id
    · subst e
      rw [upd_self, UMap.get_remove] at hm
      split at hm
      · simp at hm
      · exact h.allowed v c' m hm
    · rw [upd_ne _ _ e] at hm; exact h.allowed v c' m hm

theorem vp_insert (h : Stores A vm tot M) (id c : String) (x : UMap String Nat) :
    (M.vp id).insert (vm id).len c ⟨join id c, x.len⟩ =
      .ok (Cells.of (((vm id).insert c x).mapV (fun c m => ⟨join id c, m.len⟩)), ((vm id).insert c x).len) := by
  rw [h.vp id]
  have := Cells.insert_of ((vm id).mapV (fun c m => (⟨join id c, m.len⟩ : Handle))) c ⟨join id c, x.len⟩
  rw [UMap.len_mapV, ← UMap.mapV_insert (fun c (m : UMap String Nat) => (⟨join id c, m.len⟩ : Handle)) (vm id) c x,
    UMap.len_mapV] at this
  exact this

theorem vp_remove (h : Stores A vm tot M) (id c : String) :
    (M.vp id).remove (vm id).len c =
      .ok (Cells.of (((vm id).remove c).mapV (fun c m => ⟨join id c, m.len⟩)), ((vm id).remove c).len) := by
  rw [h.vp id]
  have := Cells.remove_of ((vm id).mapV (fun c m => (⟨join id c, m.len⟩ : Handle))) c
  rw [UMap.len_mapV, ← UMap.mapV_remove, UMap.len_mapV] at this
  exact this

theorem Stores.setVote (hj : Joins A) (h : Stores A vm tot M) {id c : String} (ha : A id c) (o : String) (n : Nat) :
    ∃ M', M.setVote id (vm id).len c ⟨join id c, (inner (vm id) c).len⟩ o n =
        .ok (M', (vset (vm id) c o n).len) ∧
      Stores A (upd vm id (vset (vm id) c o n)) tot M' := by
  refine ⟨_, ?_, Stores.put hj h ha ((inner (vm id) c).insert o n)⟩
  unfold Mem.setVote
  simp only [h.vv id c ha, Cells.insert_of, bind, Except.bind, vp_insert h]
  rfl

/-- The map after a removal. -/
theorem Stores.delVote (hj : Joins A) (h : Stores A vm tot M) {id c : String} (ha : A id c) (o : String) :
    ∃ M', M.delVote id (vm id).len c ⟨join id c, (inner (vm id) c).len⟩ o = .ok (M', (vdel (vm id) c o).len) ∧
      Stores A (upd vm id (vdel (vm id) c o)) tot M' := by
  by_cases he : ((inner (vm id) c).remove o).isEmpty = true
  · have hd : vdel (vm id) c o = (vm id).remove c := by unfold vdel; exact if_pos he
    rw [hd]
    refine ⟨_, ?_, Stores.drop hj h ha⟩
    unfold Mem.delVote
    simp only [h.vv id c ha, Cells.remove_of, bind, Except.bind, (len_eq_zero _).2 he, if_true, vp_remove h]
    rw [UMap.eq_empty_of_isEmpty he]
    rfl
  · have hd : vdel (vm id) c o = (vm id).insert c ((inner (vm id) c).remove o) := by unfold vdel; exact if_neg he
    rw [hd]
    refine ⟨_, ?_, Stores.put hj h ha ((inner (vm id) c).remove o)⟩
    unfold Mem.delVote
    simp only [h.vv id c ha, Cells.remove_of, bind, Except.bind, if_neg (fun e => he ((len_eq_zero _).1 e)), vp_insert h]
    rfl

/-- Replacing the totals of one app. -/
theorem Stores.putTotal (h : Stores A vm tot M) (c : String) (x : UMap String Nat) :
    Stores A vm (tot.insert c x) { M with cv := upd M.cv c (Cells.of x), vt := M.vt.insert c x.len } := by
  refine ⟨h.vp, h.vv, h.allowed, ?_, ?_⟩
  · simp only [h.vt]; rw [UMap.mapV_insert]
  · intro c'
    rw [inner_insert]
    by_cases e : c' = c
    · subst e; simp
    · simp [e, h.cv c']

theorem Stores.dropTotal (h : Stores A vm tot M) (c : String) :
    Stores A vm (tot.remove c) { M with cv := upd M.cv c (Cells.of UMap.empty), vt := M.vt.remove c } := by
  refine ⟨h.vp, h.vv, h.allowed, ?_, ?_⟩
  · simp only [h.vt]; rw [UMap.mapV_remove]
  · intro c'
    rw [inner_remove]
    by_cases e : c' = c
    · subst e; simp
    · simp [e, h.cv c']

theorem Stores.increase {s : State} (h : Stores A vm s.votes M) (n : Nat) (c o : String) :
    Sim (fun M' s' => Stores A vm s'.votes M' ∧ s' = { s with votes := s'.votes })
      (M.increaseTotal n c o) (s.internal_increase_total_votes n c o) := by
  unfold Mem.increaseTotal State.internal_increase_total_votes
  simp only [h.vt, inner_len, h.cv c, Cells.get_of, Cells.insert_of]
  refine Sim.same (addU128 _ n) ?_
  intro v _
  refine Sim.pure ⟨?_, rfl⟩
  have := h.putTotal c ((inner s.votes c).insert o v)
  rw [h.vt] at this
  exact this

theorem Stores.decrease {s : State} (h : Stores A vm s.votes M) (n : Nat) (c o : String) :
    Sim (fun M' s' => Stores A vm s'.votes M' ∧ s' = { s with votes := s'.votes })
      (M.decreaseTotal n c o) (s.state_internal_decrease_total_votes_for_address n c o) := by
  unfold Mem.decreaseTotal State.state_internal_decrease_total_votes_for_address
  simp only [h.vt, inner_len, h.cv c, Cells.get_of, Cells.insert_of, Cells.remove_of]
  refine Sim.same (expect ((inner s.votes c).get o) _) ?_
  intro old _
  refine Sim.same _ ?_
  intro _ _
  refine Sim.same _ ?_
  intro left _
  show Sim _ _ (if (if left = 0 then (inner s.votes c).remove o else (inner s.votes c).insert o left).isEmpty = true
    then _ else pure { s with votes := s.votes.insert c (if left = 0 then (inner s.votes c).remove o
      else (inner s.votes c).insert o left) })
  have key : ∀ x : UMap String Nat, Sim (fun M' s' => Stores A vm s'.votes M' ∧ s' = { s with votes := s'.votes })
      (pure { M with
        cv := upd M.cv c (Cells.of x)
        vt := if x.len = 0 then (s.votes.mapV (fun _ x => x.len)).remove c
          else (s.votes.mapV (fun _ x => x.len)).insert c x.len } : Res Mem)
      (if x.isEmpty = true then pure { s with votes := s.votes.remove c }
        else pure { s with votes := s.votes.insert c x }) := by
    intro x
    rw [← h.vt]
    by_cases he : x.isEmpty = true
    · rw [if_pos he, if_pos ((len_eq_zero x).2 he), UMap.eq_empty_of_isEmpty he]
      exact Sim.pure ⟨h.dropTotal c, rfl⟩
    · rw [if_neg he, if_neg (fun e => he ((len_eq_zero x).1 e))]
      exact Sim.pure ⟨h.putTotal c x, rfl⟩
  by_cases hl : left = 0
  · simp only [if_pos hl]; exact key _
  · simp only [if_neg hl]; exact key _

end Verif.Storage
