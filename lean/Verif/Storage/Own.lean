import Verif.Storage.Power
import Verif.Storage.Views
import Verif.Props.StorageRefines

/-!
# The stored votes of one voter

The storage of the votes of a voter is written only by calls that vote for this voter, and by those that vote for another one
whose name overlaps.  So the votes of a voter can be followed without any assumption on what the others do to theirs.
-/

namespace Verif.Storage

open Verif MetaVote

/-- The maps of `u` are not stored where those of `id` are. -/
def Away (id u : String) : Prop := ∀ a b, join u a ≠ join id b

/-- Every stored handle of a voter is of a region of this voter. -/
def Regions (M : Mem) : Prop := ∀ v i h, (M.vp v).vals i = some h → ∃ a, h.region = join v a

/-- What an operation on the votes of `u` leaves alone. -/
structure Moved (u : String) (M M' : Mem) : Prop where
  vp : ∀ v, v ≠ u → M'.vp v = M.vp v
  vv : ∀ r, (∀ b, r ≠ join u b) → M'.vv r = M.vv r
  regions : Regions M → Regions M'

theorem Moved.same {u : String} {M M' : Mem} (h1 : M'.vp = M.vp) (h2 : M'.vv = M.vv) : Moved u M M' :=
  ⟨fun _ _ => by rw [h1], fun _ _ => by rw [h2], fun h v i x hx => h v i x (by rw [← h1]; exact hx)⟩

theorem Moved.refl (u : String) (M : Mem) : Moved u M M := .same rfl rfl

theorem Moved.trans {u : String} {M M' M'' : Mem} (h : Moved u M M') (h' : Moved u M' M'') : Moved u M M'' :=
  ⟨fun v hv => (h'.vp v hv).trans (h.vp v hv), fun r hr => (h'.vv r hr).trans (h.vv r hr), fun hr => h'.regions (h.regions hr)⟩

/-! ## Operations on one map -/

section Ops

theorem Cells.get_vals {K V : Type} {m : Cells K V} {len : Nat} {k : K} {v : V} (h : m.get len k = .ok (some v)) :
    ∃ i, m.vals i = some v := by
  unfold Cells.get at h
  split at h
  · cases h
  · rename_i i _
    simp only [bind_ok_iff] at h
    obtain ⟨x, hx, h⟩ := h
    unfold Storage.vecGet at hx
    split at hx
    · split at hx
      · cases hx; cases h; rename_i hv; exact ⟨i, hv⟩
      · cases hx
    · cases hx; cases h

variable {K V : Type} [DecidableEq K]

theorem vecReplace_vals {α : Type} {f g : Nat → Option α} {len i j : Nat} {x y : α} (h : vecReplace f len i x = .ok g)
    (hj : g j = some y) : f j = some y ∨ y = x := by
  simp only [vecReplace, bind_ok_iff] at h
  obtain ⟨-, -, h⟩ := h
  split at h
  · cases h
    by_cases e : j = i
    · subst e; rw [upd_self] at hj; cases hj; exact .inr rfl
    · rw [upd_ne _ _ e] at hj; exact .inl hj
  · cases h

theorem Cells.insert_vals {m : Cells K V} {len : Nat} {k : K} {v : V} {q : Cells K V × Nat} (h : m.insert len k v = .ok q)
    {i : Nat} {x : V} (hx : q.1.vals i = some x) : (∃ j, m.vals j = some x) ∨ x = v := by
  unfold Cells.insert at h
  split at h
  · simp only [bind_ok_iff, pure_ok_iff] at h
    obtain ⟨vals, hv, rfl⟩ := h
    exact (vecReplace_vals hv hx).imp (fun h => ⟨i, h⟩) id
  · cases h
    simp only at hx
    by_cases e : i = len
    · subst e; rw [upd_self] at hx; cases hx; exact .inr rfl
    · rw [upd_ne _ _ e] at hx; exact .inl ⟨i, hx⟩

theorem vecSwapRemove_vals {α : Type} {f g : Nat → Option α} {len i j : Nat} {y : α} (h : vecSwapRemove f len i = .ok g)
    (hj : g j = some y) : ∃ j, f j = some y := by
  simp only [vecSwapRemove, bind_ok_iff] at h
  obtain ⟨-, -, h⟩ := h
  split at h
  · cases h
  · rename_i last hl
    have h0 : ∀ {j}, upd f (len - 1) none j = some y → ∃ j, f j = some y := by
      intro j hj
      by_cases e : j = len - 1
      · subst e; rw [upd_self] at hj; cases hj
      · rw [upd_ne _ _ e] at hj; exact ⟨j, hj⟩
    split at h
    · cases h; exact h0 hj
    · split at h
      · cases h
      · cases h
        by_cases e : j = i
        · subst e; rw [upd_self] at hj; cases hj; exact ⟨_, hl⟩
        · rw [upd_ne _ _ e] at hj; exact h0 hj

theorem Cells.remove_vals {m : Cells K V} {len : Nat} {k : K} {q : Cells K V × Nat} (h : m.remove len k = .ok q)
    {i : Nat} {x : V} (hx : q.1.vals i = some x) : ∃ j, m.vals j = some x := by
  unfold Cells.remove at h
  split at h
  · cases h; exact ⟨i, hx⟩
  · simp only [bind_ok_iff, pure_ok_iff] at h
    obtain ⟨_, _, _, _, vals, hv, rfl⟩ := h
    exact vecSwapRemove_vals hv hx

end Ops

theorem position_region {M : Mem} (hr : Regions M) {u a : String} {l : Nat} {h : Handle} (hp : M.position u l a = .ok h) :
    ∃ b, h.region = join u b := by
  simp only [Mem.position, bind_ok_iff, pure_ok_iff] at hp
  obtain ⟨o, ho, rfl⟩ := hp
  cases o with
  | none => exact ⟨a, rfl⟩
  | some x =>
    obtain ⟨i, hi⟩ := Cells.get_vals ho
    exact hr u i x hi

/-- Writing a map of `u` and a handle of it. -/
theorem moved_write {M : Mem} (hr : Regions M) {u b r : String} {x : Cells String Nat} {q : Cells String Handle}
    (hb : r = join u b) (hq : ∀ i h, q.vals i = some h → (∃ j, (M.vp u).vals j = some h) ∨ h.region = r) :
    Moved u M { M with vv := upd M.vv r x, vp := upd M.vp u q } := by
  refine ⟨fun v hv => upd_ne _ _ hv, fun r' hr' => upd_ne _ _ (fun e => hr' b (e.trans hb)), fun _ v i h hx => ?_⟩
  by_cases e : v = u
  · subst e
    simp only [upd_self] at hx
    rcases hq i h hx with ⟨j, hj⟩ | hh
    · exact hr v j h hj
    · exact ⟨b, hh.trans hb⟩
  · simp only [upd_ne _ _ e] at hx
    exact hr v i h hx

theorem moved_set {M : Mem} (hr : Regions M) {u a o : String} {l n : Nat} {h : Handle} {r : Mem × Nat}
    (hh : ∃ b, h.region = join u b) (hx : M.setVote u l a h o n = .ok r) : Moved u M r.1 := by
  simp only [Mem.setVote, bind_ok_iff, pure_ok_iff] at hx
  obtain ⟨x, hx, q, hq, rfl⟩ := hx
  obtain ⟨b, hb⟩ := hh
  exact moved_write hr hb (fun i y hy => (Cells.insert_vals hq hy).imp id (fun e => by rw [e]))

theorem moved_del {M : Mem} (hr : Regions M) {u a o : String} {l : Nat} {h : Handle} {r : Mem × Nat}
    (hh : ∃ b, h.region = join u b) (hx : M.delVote u l a h o = .ok r) : Moved u M r.1 := by
  simp only [Mem.delVote, bind_ok_iff, pure_ok_iff] at hx
  obtain ⟨x, hx, q, hq, rfl⟩ := hx
  obtain ⟨b, hb⟩ := hh
  refine moved_write hr hb (fun i y hy => ?_)
  split at hq
  · exact .inl (Cells.remove_vals hq hy)
  · exact (Cells.insert_vals hq hy).imp id (fun e => by rw [e])

theorem moved_increase {M M' : Mem} {n : Nat} {c o : String} (u : String) (hx : M.increaseTotal n c o = .ok M') :
    Moved u M M' := by
  simp only [Mem.increaseTotal, bind_ok_iff, pure_ok_iff] at hx
  obtain ⟨_, _, _, _, _, _, rfl⟩ := hx
  exact .same rfl rfl

theorem moved_decrease {M M' : Mem} {n : Nat} {c o : String} (u : String) (hx : M.decreaseTotal n c o = .ok M') :
    Moved u M M' := by
  simp only [Mem.decreaseTotal, bind_ok_iff, pure_ok_iff] at hx
  obtain ⟨_, _, _, _, _, _, _, _, _, _, rfl⟩ := hx
  exact .same rfl rfl

/-! ## Calls that vote -/

/-- Storage and lengths after an operation on the votes of `u`. -/
def MovedS (u : String) (S S' : SState) : Prop := Moved u S.mem S'.mem ∧ ∀ v, v ≠ u → S'.vlen v = S.vlen v

theorem MovedS.save {u : String} {S S' : SState} (h : Moved u S.mem S'.mem) (hl : S'.vlen = S.vlen) (v : Voter) (l : Nat) :
    MovedS u S (S'.save u v l) :=
  ⟨h, fun w hw => by simp only [SState.save, upd_ne _ _ hw, hl]⟩

theorem vote_moved {S S' : SState} (hr : Regions S.mem) {u : String} {n : Nat} {a o : String}
    (hx : S.internal_vote u n a o = .ok S') : MovedS u S S' := by
  simp only [SState.internal_vote, SState.internal_create_voting_position, bind_ok_iff, pure_ok_iff] at hx
  obtain ⟨v, hv, r, ⟨-, -, -, -, h, hh, _, -, x, -, _, -, q, hq, m, hm, rfl⟩, rfl⟩ := hx
  exact MovedS.save (S' := { S with mem := m })
    ((moved_set hr (position_region hr hh) hq).trans (moved_increase u hm)) rfl _ _

theorem remove_moved {S : SState} (hr : Regions S.mem) {u : String} {v : Voter} {l : Nat} {a o : String}
    {r : SState × Voter × Nat} (hx : S.internal_remove_voting_position u v l a o = .ok r) :
    Moved u S.mem r.1.mem ∧ r.1.vlen = S.vlen := by
  simp only [SState.internal_remove_voting_position, bind_ok_iff, pure_ok_iff] at hx
  obtain ⟨hd, hhd, old, hold, n, -, x, -, q, hq, m, hm, rfl⟩ := hx
  exact ⟨(moved_del hr (position_region hr hhd) hq).trans (moved_decrease u hm), rfl⟩

theorem unvote_moved {S S' : SState} (hr : Regions S.mem) {c : Ctx} {u a o : String}
    (hx : S.internal_unvote c u a o = .ok S') : MovedS u S S' := by
  simp only [SState.internal_unvote, bind_ok_iff, pure_ok_iff] at hx
  obtain ⟨-, -, v, hv, r, h, rfl⟩ := hx
  obtain ⟨h1, h2⟩ := remove_moved hr h
  exact MovedS.save h1 h2 _ _

theorem rebalance_moved {S S' : SState} (hr : Regions S.mem) {c : Ctx} {n : Nat} {a o : String}
    (hx : S.rebalance c n a o = .ok S') : MovedS c.predecessor S S' := by
  simp only [SState.rebalance, bind_ok_iff] at hx
  obtain ⟨v, hv, h, hh, _, _, k, _, _, _, hx⟩ := hx
  split at hx
  · exact unvote_moved hr hx
  · simp only [bind_ok_iff, pure_ok_iff] at hx
    obtain ⟨r, h1, q, hq, rfl⟩ := hx
    have hm : Moved c.predecessor S.mem r.1 := by
      split at h1
      · simp only [bind_ok_iff, pure_ok_iff] at h1
        obtain ⟨_, _, _, _, _, _, _, _, m, hm, rfl⟩ := h1
        exact moved_increase _ hm
      · simp only [bind_ok_iff, pure_ok_iff] at h1
        obtain ⟨_, _, _, _, _, _, m, hm, rfl⟩ := h1
        exact moved_decrease _ hm
    exact MovedS.save (S' := { S with mem := q.1 })
      (hm.trans (moved_set (hm.regions hr) (position_region hr hh) hq)) rfl _ _

theorem loop_moved {u : String} {n : Nat} : ∀ (fuel : Nat) {S : SState} {v : Voter} {l x : Nat}
    {r : SState × Voter × Nat × Nat}, Regions S.mem → SState.mirror_remove_votes u n fuel S v l x = .ok r →
    Moved u S.mem r.1.mem ∧ r.1.vlen = S.vlen
  | fuel, S, v, l, x, r, hr, hx => by
    unfold SState.mirror_remove_votes at hx
    split at hx
    · cases fuel with
      | zero => simp at hx
      | succ fuel =>
        simp only [bind_ok_iff] at hx
        obtain ⟨_, _, _, _, _, _, _, _, _, _, _, _, _, _, _, _, q, hq, _, _, hx⟩ := hx
        obtain ⟨h1, h2⟩ := remove_moved hr hq
        obtain ⟨h3, h4⟩ := loop_moved fuel (h1.regions hr) hx
        exact ⟨h1.trans h3, h4.trans h2⟩
    · simp only [pure_ok_iff] at hx; rw [← hx]; exact ⟨.refl _ _, rfl⟩

theorem mirror_moved {S S' : SState} (hr : Regions S.mem) {c : Ctx} {e : String} {l : List (Nat × Nat)}
    (hx : S.operator_mirror_lps c e l = .ok S') : MovedS (pseudo_near_address e) S S' := by
  simp only [SState.operator_mirror_lps, bind_ok_iff, pure_ok_iff] at hx
  obtain ⟨_, _, _, _, _, _, _, _, _, _, _, _, r, h, sv, _, n, _, t, _, rfl⟩ := hx
  obtain ⟨h1, h2⟩ := loop_moved _ hr h
  exact MovedS.save (S' := { r.1 with st := { sv.1 with total_voting_power := t } }) h1 h2
    { sv.2 with available_voting_power := n } _

/-- The voter whose votes a call changes. -/
def voterOf (c : Ctx) : Call → Option String
  | .vote .. | .rebalance .. | .unvote .. => some c.predecessor
  | .vote_delegated e .. | .unvote_delegated e .. | .operator_mirror_lps e _ => some (pseudo_near_address e)
  | _ => none

theorem voterOf_none {c : Ctx} {k : Call} : voterOf c k = none ↔ k.votes = false := by
  cases k <;> simp [voterOf, Call.votes]

theorem sexec_moved {J : Json} {S S' : SState} (hr : Regions S.mem) {c : Ctx} {k : Call} {out : List Transfer} {u : String}
    (hu : voterOf c k = some u) (hx : sexec J S c k = .ok (S', out)) : MovedS u S S' := by
  simp only [sexec, bind_ok_iff, require_ok_iff] at hx
  obtain ⟨-, -, -, -, -, -, hx⟩ := hx
  cases k <;> simp only [voterOf, Option.some.injEq, reduceCtorEq] at hu <;> subst hu <;>
    simp only [srun, SState.quiet, bind_ok_iff, pure_ok_iff, Prod.mk.injEq] at hx
  case vote => obtain ⟨S1, hx, rfl, -⟩ := hx; exact vote_moved hr hx
  case rebalance => obtain ⟨S1, hx, rfl, -⟩ := hx; exact rebalance_moved hr hx
  case unvote => obtain ⟨S1, hx, rfl, -⟩ := hx; exact unvote_moved hr hx
  case operator_mirror_lps => obtain ⟨S1, hx, rfl, -⟩ := hx; exact mirror_moved hr hx
  case vote_delegated =>
    obtain ⟨S1, ⟨p, hp, hx⟩, rfl, -⟩ := hx
    obtain ⟨-, rfl⟩ := verify_delegate_ok hp
    exact vote_moved hr hx
  case unvote_delegated =>
    obtain ⟨S1, ⟨p, hp, hx⟩, rfl, -⟩ := hx
    obtain ⟨-, rfl⟩ := verify_delegate_ok hp
    exact unvote_moved hr hx

theorem sexec_same_mem {J : Json} {S S' : SState} {c : Ctx} {k : Call} {out : List Transfer} (hk : k.votes = false)
    (hx : sexec J S c k = .ok (S', out)) : S'.mem = S.mem ∧
      ∀ id, S'.vlen id = if (S'.st.voters.get id).isSome then S.vlen id else 0 := by
  have hr : srun J S c k = S.other J c k := by cases k <;> first | rfl | simp [Call.votes] at hk
  simp only [sexec, hr, bind_ok_iff, require_ok_iff, SState.other, pure_ok_iff, Prod.mk.injEq] at hx
  obtain ⟨-, h1, -, h2, -, h3, r, hr, rfl, rfl⟩ := hx
  exact ⟨rfl, fun _ => rfl⟩

theorem sexec_regions {J : Json} {S S' : SState} (hr : Regions S.mem) {c : Ctx} {k : Call} {out : List Transfer}
    (hx : sexec J S c k = .ok (S', out)) : Regions S'.mem := by
  cases hu : voterOf c k with
  | none => rw [(sexec_same_mem (voterOf_none.1 hu) hx).1]; exact hr
  | some u => exact (sexec_moved hr hu hx).1.regions hr

theorem sreach_regions {J : Json} {me : AccountId} {w : SWorld} (h : SReach J me w) : Regions w.S.mem := by
  induction h with
  | init h => cases h with | mk w0 h => intro v i x hx; cases hx
  | step h hs ih =>
    cases hs with
    | call c k S' out hme hres hm hclock hu64 hexec => exact sexec_regions ih hexec
    | resolve pre post t ok ts hpend hclock hu64 =>
      cases hx : sexec J _ ⟨me, me, 0, ts, [ok]⟩ t.callbackCall with
      | ok r => exact sexec_regions (out := r.2) ih hx
      | error e => exact ih
    | tick ts hclock hu64 => exact ih

/-! ## The maps of one voter -/

/-- The storage holds the vote map `vm` of voter `id`. -/
structure Own (id : String) (vm : VMap) (M : Mem) : Prop where
  vp : M.vp id = Cells.of (vm.mapV (fun c m => ⟨join id c, m.len⟩))
  vv : ∀ c, M.vv (join id c) = Cells.of (inner vm c)

variable {id : String} {vm : VMap} {M : Mem}

/-- Others do not touch it. -/
theorem Own.moved (h : Own id vm M) {u : String} {M' : Mem} (hm : Moved u M M') (hu : u ≠ id) (ha : Away id u) : Own id vm M' :=
  ⟨(hm.vp id (Ne.symm hu)).trans h.vp, fun c => (hm.vv _ (fun b e => ha b c e.symm)).trans (h.vv c)⟩

theorem Own.totals (h : Own id vm M) {M' : Mem} (h1 : M'.vp = M.vp) (h2 : M'.vv = M.vv) : Own id vm M' :=
  ⟨by rw [h1]; exact h.vp, fun c => by rw [h2]; exact h.vv c⟩

theorem Own.position (h : Own id vm M) (c : String) : M.position id vm.len c = .ok ⟨join id c, (inner vm c).len⟩ := by
  unfold Mem.position
  rw [h.vp]
  have := Cells.get_of (vm.mapV (fun c m => (⟨join id c, m.len⟩ : Handle))) c
  rw [UMap.len_mapV] at this
  rw [this, UMap.get_mapV]
  unfold inner
  cases vm.get c <;> rfl

theorem Own.voteIn (h : Own id vm M) (c o : String) :
    M.voteIn ⟨join id c, (inner vm c).len⟩ o = .ok ((inner vm c).get o) := by
  unfold Mem.voteIn
  rw [h.vv c]
  exact Cells.get_of _ _

theorem Own.put (h : Own id vm M) (c : String) (x : UMap String Nat) :
    Own id (vm.insert c x)
      { M with
        vv := upd M.vv (join id c) (Cells.of x)
        vp := upd M.vp id (Cells.of ((vm.insert c x).mapV (fun c m => ⟨join id c, m.len⟩))) } := by
  refine ⟨by simp, fun c' => ?_⟩
  simp only [inner_insert]
  by_cases ec : c' = c
  · subst ec; simp
  · rw [if_neg ec, upd_ne _ _ (fun e => ec (C44_voter_partial e))]; exact h.vv c'

theorem Own.drop (h : Own id vm M) (c : String) :
    Own id (vm.remove c)
      { M with
        vv := upd M.vv (join id c) (Cells.of UMap.empty)
        vp := upd M.vp id (Cells.of ((vm.remove c).mapV (fun c m => ⟨join id c, m.len⟩))) } := by
  refine ⟨by simp, fun c' => ?_⟩
  simp only [inner_remove]
  by_cases ec : c' = c
  · subst ec; simp
  · rw [if_neg ec, upd_ne _ _ (fun e => ec (C44_voter_partial e))]; exact h.vv c'

theorem Own.vp_insert (h : Own id vm M) (c : String) (x : UMap String Nat) :
    (M.vp id).insert vm.len c ⟨join id c, x.len⟩ =
      .ok (Cells.of ((vm.insert c x).mapV (fun c m => ⟨join id c, m.len⟩)), (vm.insert c x).len) := by
  rw [h.vp]
  have := Cells.insert_of (vm.mapV (fun c m => (⟨join id c, m.len⟩ : Handle))) c ⟨join id c, x.len⟩
  rw [UMap.len_mapV, ← UMap.mapV_insert (fun c (m : UMap String Nat) => (⟨join id c, m.len⟩ : Handle)) vm c x,
    UMap.len_mapV] at this
  exact this

theorem Own.vp_remove (h : Own id vm M) (c : String) :
    (M.vp id).remove vm.len c =
      .ok (Cells.of ((vm.remove c).mapV (fun c m => ⟨join id c, m.len⟩)), (vm.remove c).len) := by
  rw [h.vp]
  have := Cells.remove_of (vm.mapV (fun c m => (⟨join id c, m.len⟩ : Handle))) c
  rw [UMap.len_mapV, ← UMap.mapV_remove, UMap.len_mapV] at this
  exact this

theorem Own.setVote (h : Own id vm M) {c o : String} {n : Nat} {r : Mem × Nat}
    (hx : M.setVote id vm.len c ⟨join id c, (inner vm c).len⟩ o n = .ok r) :
    Own id (vset vm c o n) r.1 ∧ r.2 = (vset vm c o n).len := by
  unfold Mem.setVote at hx
  simp only [h.vv c, Cells.insert_of, bind, Except.bind, h.vp_insert, pure, Except.pure, Except.ok.injEq] at hx
  rw [← hx]
  exact ⟨h.put c ((inner vm c).insert o n), rfl⟩

theorem Own.delVote (h : Own id vm M) {c o : String} {r : Mem × Nat}
    (hx : M.delVote id vm.len c ⟨join id c, (inner vm c).len⟩ o = .ok r) :
    Own id (vdel vm c o) r.1 ∧ r.2 = (vdel vm c o).len := by
  by_cases he : ((inner vm c).remove o).isEmpty = true
  · have hd : vdel vm c o = vm.remove c := by unfold vdel; exact if_pos he
    rw [hd]
    unfold Mem.delVote at hx
    simp only [h.vv c, Cells.remove_of, bind, Except.bind, (len_eq_zero _).2 he, if_true, h.vp_remove, pure, Except.pure,
      Except.ok.injEq] at hx
    rw [← hx]
    have := h.drop c
    rw [← UMap.eq_empty_of_isEmpty he] at this
    exact ⟨this, rfl⟩
  · have hd : vdel vm c o = vm.insert c ((inner vm c).remove o) := by unfold vdel; exact if_neg he
    rw [hd]
    unfold Mem.delVote at hx
    simp only [h.vv c, Cells.remove_of, bind, Except.bind, if_neg (fun e => he ((len_eq_zero _).1 e)), h.vp_insert, pure,
      Except.pure, Except.ok.injEq] at hx
    rw [← hx]
    exact ⟨h.put c ((inner vm c).remove o), rfl⟩

theorem own_increase {M' : Mem} {n : Nat} {c o : String} (h : Own id vm M) (hx : M.increaseTotal n c o = .ok M') :
    Own id vm M' := by
  simp only [Mem.increaseTotal, bind_ok_iff, pure_ok_iff] at hx
  obtain ⟨_, _, _, _, _, _, rfl⟩ := hx
  exact h.totals rfl rfl

theorem own_decrease {M' : Mem} {n : Nat} {c o : String} (h : Own id vm M) (hx : M.decreaseTotal n c o = .ok M') :
    Own id vm M' := by
  simp only [Mem.decreaseTotal, bind_ok_iff, pure_ok_iff] at hx
  obtain ⟨_, _, _, _, _, _, _, _, _, _, rfl⟩ := hx
  exact h.totals rfl rfl

/-! ## Voting of this voter -/

/-- Storage, length and record of `id` afterwards. -/
structure After (id : String) (vm : VMap) (avail : Nat) (ps : List LockingPosition) (S : SState) : Prop where
  own : Own id vm S.mem
  len : S.vlen id = vm.len
  avail : (S.st.voterD id).available_voting_power = avail
  positions : (S.st.voterD id).locking_positions = ps
  known : (S.st.voters.get id).isSome

theorem After.save {S : SState} {vm : VMap} (h : Own id vm S.mem) (v : Voter) {l : Nat} (hl : l = vm.len) :
    After id vm v.available_voting_power v.locking_positions (S.save id v l) := by
  refine ⟨h, ?_, ?_, ?_, ?_⟩ <;> simp [SState.save, State.voterD, hl]

theorem own_vote {S S' : SState} {n : Nat} {a o : String} (h : Own id vm S.mem) (hl : S.vlen id = vm.len)
    (hx : S.internal_vote id n a o = .ok S') :
    n ≤ (S.st.voterD id).available_voting_power ∧
    After id (vset vm a o (vget vm a o + n)) ((S.st.voterD id).available_voting_power - n)
      (S.st.voterD id).locking_positions S' := by
  simp only [SState.internal_vote, SState.internal_create_voting_position, bind_ok_iff, pure_ok_iff, require_ok_iff,
    subU_ok_iff, hl, h.position, Except.ok.injEq] at hx
  obtain ⟨v, hv, r, ⟨-, hle, -, -, hd, rfl, old, hold, x, ⟨-, rfl⟩, y, hy, q, hq, m, hm, rfl⟩, rfl⟩ := hx
  obtain ⟨-, rfl⟩ := get_voter_ok hv
  rw [h.voteIn, Except.ok.injEq] at hold
  subst hold
  rw [addU128_ok_iff] at hy
  obtain ⟨-, rfl⟩ := hy
  rw [show ((inner vm a).get o).getD 0 = vget vm a o from (vget_eq vm a o).symm] at hq
  obtain ⟨h1, h2⟩ := h.setVote hq
  exact ⟨hle, After.save (S := { S with mem := m }) (own_increase h1 hm)
    { S.st.voterD id with available_voting_power := (S.st.voterD id).available_voting_power - n } h2⟩

theorem own_remove {S : SState} {v : Voter} {a o : String} {r : SState × Voter × Nat} (h : Own id vm S.mem)
    (hx : S.internal_remove_voting_position id v vm.len a o = .ok r) :
    (inner vm a).get o = some (vget vm a o) ∧ Own id (vdel vm a o) r.1.mem ∧ r.2.2 = (vdel vm a o).len ∧
      r.2.1 = { v with available_voting_power := v.available_voting_power + vget vm a o } ∧ r.1.st = S.st := by
  simp only [SState.internal_remove_voting_position, bind_ok_iff, pure_ok_iff, expect_ok_iff, addU128_ok_iff, h.position,
    Except.ok.injEq] at hx
  obtain ⟨hd, rfl, old, hold, n, rfl, x, ⟨-, rfl⟩, q, hq, m, hm, rfl⟩ := hx
  rw [h.voteIn, Except.ok.injEq] at hold
  have hg : vget vm a o = n := by rw [vget_eq]; show ((inner vm a).get o).getD 0 = n; rw [hold]; rfl
  obtain ⟨h1, h2⟩ := h.delVote hq
  rw [hg]
  exact ⟨hold, own_decrease h1 hm, h2, rfl, rfl⟩

theorem own_unvote {S S' : SState} {c : Ctx} {a o : String} (h : Own id vm S.mem) (hl : S.vlen id = vm.len)
    (hx : S.internal_unvote c id a o = .ok S') :
    (inner vm a).get o = some (vget vm a o) ∧
    After id (vdel vm a o) ((S.st.voterD id).available_voting_power + vget vm a o)
      (S.st.voterD id).locking_positions S' := by
  simp only [SState.internal_unvote, bind_ok_iff, pure_ok_iff, hl] at hx
  obtain ⟨-, -, v, hv, r, hr, rfl⟩ := hx
  obtain ⟨-, rfl⟩ := get_voter_ok hv
  obtain ⟨h1, h2, h3, h4, -⟩ := own_remove h hr
  rw [h4]
  exact ⟨h1, After.save h2 { S.st.voterD id with
    available_voting_power := (S.st.voterD id).available_voting_power + vget vm a o } h3⟩

theorem own_rebalance {S S' : SState} {c : Ctx} {n : Nat} {a o : String} (h : Own c.predecessor vm S.mem)
    (hl : S.vlen c.predecessor = vm.len) (hx : S.rebalance c n a o = .ok S') :
    (inner vm a).get o = some (vget vm a o) ∧
    ((n = 0 ∧ After c.predecessor (vdel vm a o) ((S.st.voterD c.predecessor).available_voting_power + vget vm a o)
      (S.st.voterD c.predecessor).locking_positions S') ∨
    (n ≠ 0 ∧ n ≤ (S.st.voterD c.predecessor).available_voting_power + vget vm a o ∧
      After c.predecessor (vset vm a o n) ((S.st.voterD c.predecessor).available_voting_power + vget vm a o - n)
        (S.st.voterD c.predecessor).locking_positions S')) := by
  simp only [SState.rebalance, bind_ok_iff, hl, h.position, Except.ok.injEq, expect_ok_iff] at hx
  obtain ⟨v, hv, hd, rfl, old, hold, k, rfl, -, -, hx⟩ := hx
  obtain ⟨-, rfl⟩ := get_voter_ok hv
  rw [h.voteIn, Except.ok.injEq] at hold
  have hg : vget vm a o = k := by rw [vget_eq]; show ((inner vm a).get o).getD 0 = k; rw [hold]; rfl
  rw [hg]
  refine ⟨hold, ?_⟩
  split at hx
  · obtain ⟨h1, h2⟩ := own_unvote h hl hx
    rw [hg] at h2
    exact .inl ⟨by assumption, h2⟩
  · rename_i hn
    refine .inr ⟨hn, ?_⟩
    simp only [bind_ok_iff, pure_ok_iff] at hx
    obtain ⟨r, hr, q, hq, rfl⟩ := hx
    have hr' : Own c.predecessor vm r.1 ∧ n ≤ (S.st.voterD c.predecessor).available_voting_power + k ∧
        r.2.1 = (S.st.voterD c.predecessor).available_voting_power + k - n ∧ r.2.2 = n := by
      split at hr
      · simp only [bind_ok_iff, require_ok_iff, subU_ok_iff, addU128_ok_iff, pure_ok_iff] at hr
        obtain ⟨ad, ⟨-, rfl⟩, -, hav, av, ⟨-, rfl⟩, vo, ⟨-, rfl⟩, m, hm, rfl⟩ := hr
        refine ⟨own_increase h hm, ?_, ?_, ?_⟩ <;> (try simp only) <;> omega
      · simp only [bind_ok_iff, subU_ok_iff, addU128_ok_iff, pure_ok_iff] at hr
        obtain ⟨ad, ⟨-, rfl⟩, av, ⟨-, rfl⟩, vo, ⟨-, rfl⟩, m, hm, rfl⟩ := hr
        refine ⟨own_decrease h hm, ?_, ?_, ?_⟩ <;> (try simp only) <;> omega
    obtain ⟨h1, h2, h3, h4⟩ := hr'
    rw [h4] at hq
    obtain ⟨h5, h6⟩ := h1.setVote hq
    rw [h3]
    exact ⟨h2, After.save (S := { S with mem := q.1 }) h5 { S.st.voterD c.predecessor with
      available_voting_power := (S.st.voterD c.predecessor).available_voting_power + k - n } h6⟩

theorem own_loop {n : Nat} : ∀ (fuel : Nat) {vm : VMap} {S : SState} {v : Voter} {u : Nat}
    {r : SState × Voter × Nat × Nat}, Own id vm S.mem → SState.mirror_remove_votes id n fuel S v vm.len u = .ok r →
    ∃ vm', Trimmed vm vm' ∧ Own id vm' r.1.mem ∧ r.2.2.1 = vm'.len ∧ r.2.2.2 + vsum vm = u + vsum vm' ∧ r.1.st = S.st
  | fuel, vm, S, v, u, r, h, hx => by
    unfold SState.mirror_remove_votes at hx
    split at hx
    · cases fuel with
      | zero => simp at hx
      | succ fuel =>
        simp only [bind_ok_iff, expect_ok_iff, subU_ok_iff] at hx
        obtain ⟨_, _, app, rfl, _, hh, hd, rfl, _, _, obj, rfl, _, hvo, k, rfl, q, hq, u', ⟨hle, rfl⟩, hx⟩ := hx
        obtain ⟨h1, h2, h3, h4, h5⟩ := own_remove h hq
        have hk : k = vget vm app obj := by
          have hp := h.position app
          unfold Mem.position at hp
          rw [hh] at hp
          cases hp
          rw [h.voteIn, h1] at hvo
          cases hvo; rfl
        rw [h3] at hx
        obtain ⟨vm', g1, g2, g3, g4, g5⟩ := own_loop fuel h2 hx
        have := vsum_vdel vm app obj
        exact ⟨vm', .del app obj g1, g2, g3, by omega, g5.trans h5⟩
    · simp only [pure_ok_iff] at hx; rw [← hx]; exact ⟨vm, .refl _, h, rfl, rfl, rfl⟩

end Verif.Storage
