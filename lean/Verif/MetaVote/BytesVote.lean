import Verif.MetaVote.BytesDelegate

/-!
# Voting, in bytes and over the vote maps
-/

namespace Verif.Storage.Cells

variable {K V : Type} [DecidableEq K] {C : Cells K V} {len : Nat} {k : K} {v : V}

theorem vecGet_some {α : Type} {g : Nat → Option α} {len i : Nat} {x : α} (h : vecGet g len i = .ok (some x)) :
    i < len ∧ g i = some x := by
  unfold vecGet at h
  split at h
  · rename_i hi
    cases e : g i with
    | none => rw [e] at h; cases h
    | some y => rw [e] at h; cases h; exact ⟨hi, rfl⟩
  · cases h

omit [DecidableEq K] in
theorem get_some (h : C.get len k = .ok (some v)) : ∃ i, C.index k = some i ∧ i < len ∧ C.vals i = some v := by
  unfold get at h
  cases e : C.index k with
  | none => rw [e] at h; cases h
  | some i =>
    rw [e] at h
    obtain ⟨o, h1, h2⟩ := bind_ok_iff.1 h
    cases o with
    | none => cases h2
    | some w =>
      cases h2
      exact ⟨i, rfl, vecGet_some h1⟩

theorem insert_grows {r : Cells K V × Nat} (h : C.insert len k v = .ok r) :
    r.2 ≤ len + 1 ∧ ((C.index k).isSome → r.2 = len) := by
  unfold insert at h
  cases e : C.index k with
  | none => rw [e] at h; cases h; exact ⟨Nat.le_refl _, fun h => by simp at h⟩
  | some i =>
    rw [e] at h
    simp only [bind_ok_iff, pure_ok_iff] at h
    obtain ⟨g, -, rfl⟩ := h
    exact ⟨Nat.le_succ _, fun _ => rfl⟩

theorem remove_shrinks {r : Cells K V × Nat} (h : C.remove len k = .ok r) : r.2 ≤ len := by
  unfold remove at h
  cases e : C.index k with
  | none => rw [e] at h; cases h; exact Nat.le_refl _
  | some i =>
    rw [e] at h
    simp only [bind_ok_iff, pure_ok_iff] at h
    obtain ⟨_, -, _, -, _, -, rfl⟩ := h
    exact Nat.sub_le _ _

omit [DecidableEq K] in
theorem values_mem {l : List V} (h : C.values len = .ok l) : ∀ v ∈ l, ∃ i, C.vals i = some v := by
  unfold values at h
  revert l
  induction List.range len with
  | nil => intro l h; cases h; intro v hv; cases hv
  | cons x xs ih =>
    intro l h
    rw [List.mapM_cons] at h
    simp only [bind_ok_iff, pure_ok_iff] at h
    obtain ⟨a, h1, l', h2, rfl⟩ := h
    intro v hv
    rcases List.mem_cons.1 hv with rfl | hv
    · refine ⟨x, ?_⟩
      cases e : C.vals x with
      | none => rw [e] at h1; cases h1
      | some w => rw [e] at h1; cases h1; rfl
    · exact ih h2 v hv

end Verif.Storage.Cells

namespace Verif.MetaVote.Bytes

open Verif Storage Disk Borsh

variable {H : Hash} {N : Names} {f f' : Nat} {vl : String → Nat} {m : Mem} {s : State} {D : Disk} {id : String} {v : Voter}
  {n : Nat} {app obj : String}

/-- The handle in bytes. -/
def hnd (H : Hash) (h : Handle) : MapH := .at (pre H (.voterVotes h.region)) h.len

/-- Handles that may be in use. -/
def HOK (N : Names) (f : Nat) (h : Handle) : Prop := N.U (.voterVotes h.region) ∧ Room f h.len

theorem HOK.mono {h : Handle} (hh : HOK N f h) (hf : f' ≤ f) : HOK N f' h := ⟨hh.1, hh.2.mono hf⟩

theorem rootOf_vt {m' : Mem} (h : m'.vt = m.vt) : rootOf H s m' = rootOf H s m := by simp [rootOf, h]

theorem Room.zero (h : Room f n) : Room f 0 := by unfold Room at *; omega

theorem Mid.vp (h : Mid H N f vl m id s v n D) : TLike (handles H N f) D (pre H (.votePosition id)) (m.vp id) :=
  h.tabs.vp h.vid

theorem Mid.getHandle (h : Mid H N f vl m id s v n D) (happ : N.app app ∧ StrFits app) :
    MapH.get string mapH D (recOf H id v n).vote_positions app = ((m.vp id).get n app).map (Option.map (hnd H)) :=
  h.vp.get n (k := app) happ

theorem Mid.handleOK (h : Mid H N f vl m id s v n D) {a : Handle} (ha : (m.vp id).get n app = .ok (some a)) : HOK N f a := by
  obtain ⟨i, -, -, hv⟩ := Cells.get_some ha
  exact h.vp.vok i a hv

theorem Mid.position_eq (h : Mid H N f vl m id s v n D) (happ : N.app app ∧ StrFits app) :
    get_vote_position_for_address H D (recOf H id v n) id app = (m.position id n app).map (hnd H) := by
  unfold get_vote_position_for_address Mem.position
  rw [h.getHandle happ]
  cases (m.vp id).get n app with
  | error e => rfl
  | ok o => cases o <;> rfl

theorem Mid.positionOK (h : Mid H N f vl m id s v n D) (happ : N.app app) {a : Handle} (ha : m.position id n app = .ok a) :
    HOK N f a := by
  unfold Mem.position at ha
  simp only [bind_ok_iff, pure_ok_iff] at ha
  obtain ⟨o, h1, rfl⟩ := ha
  cases o with
  | none => exact ⟨⟨id, app, h.vid, happ, rfl⟩, h.room.zero⟩
  | some a => exact h.handleOK h1

/-- A map with votes in it is registered. -/
theorem position_index {a : Handle} {x : Nat} (ha : m.position id n app = .ok a) (hx : m.voteIn a obj = .ok (some x)) :
    ((m.vp id).index app).isSome := by
  unfold Mem.position at ha
  simp only [bind_ok_iff, pure_ok_iff] at ha
  obtain ⟨o, h1, rfl⟩ := ha
  cases o with
  | some a =>
    obtain ⟨i, hi, -⟩ := Cells.get_some h1
    simp [hi]
  | none =>
    obtain ⟨i, -, hi, -⟩ := Cells.get_some hx
    simp at hi

theorem Mid.voteIn_eq (h : Mid H N f vl m id s v n D) {a : Handle} (ha : HOK N f a) (ho : StrFits obj) :
    MapH.get string u128 D (hnd H a) obj = m.voteIn a obj := by
  have := (h.tabs.vv ha.1).get a.len (k := obj) ho
  rw [show MapH.get string u128 D (hnd H a) obj = _ from this]
  show ((m.vv a.region).get a.len obj).map (Option.map fun n => n) = (m.vv a.region).get a.len obj
  cases (m.vv a.region).get a.len obj with
  | error e => rfl
  | ok o => cases o <;> rfl

theorem Mid.voteLt (h : Mid H N f vl m id s v n D) {a : Handle} (ha : HOK N f a) {x : Nat} (hx : m.voteIn a obj = .ok (some x)) :
    x < 2 ^ 128 := by
  obtain ⟨i, -, -, hv⟩ := Cells.get_some hx
  exact (h.tabs.vv ha.1).vok i x hv

/-- The vote maps change, on both sides. -/
def RM (H : Hash) (N : Names) (f : Nat) (vl : String → Nat) (m : Mem) (id : String) (s : State) (v : Voter) (a : Mem × Nat)
    (b : Disk × VoterRec) : Prop :=
  b.2 = recOf H id v a.2 ∧ Mid H N f vl a.1 id s v a.2 b.1 ∧ a.1.vt = m.vt

theorem Mid.setHandle (hN : N.OK H) (h : Mid H N f vl m id s v n D) (happ : N.app app ∧ StrFits app) {a : Handle} (ha : HOK N f a)
    (hr : ∀ r, (m.vp id).insert n app a = .ok r → Room f r.2) :
    Rel (RM H N f vl m id s v)
      ((m.vp id).insert n app a >>= fun q => pure ({ m with vp := upd m.vp id q.1 }, q.2))
      (MapH.insert string mapH D (recOf H id v n).vote_positions app (hnd H a) >>= fun y =>
        pure (y.1, { recOf H id v n with vote_positions := y.2 })) := by
  refine (h.vp.insert (len := n) h.room.lt (k := app) (v := a) happ ha).bind ?_
  rintro r ⟨D', b'⟩ hr' ⟨h1, h2, h3⟩
  simp only at h1 h2 h3
  subst h1
  exact ⟨rfl, ⟨h.tabs.setVp hN h.vid h2 h3, h.fit, h.bal, h.avp, h.vid, hr r hr'⟩, rfl⟩

theorem Mid.dropHandle (hN : N.OK H) (h : Mid H N f vl m id s v n D) (happ : N.app app ∧ StrFits app) :
    Rel (RM H N f vl m id s v)
      ((m.vp id).remove n app >>= fun q => pure ({ m with vp := upd m.vp id q.1 }, q.2))
      (MapH.remove string mapH D (recOf H id v n).vote_positions app >>= fun y =>
        pure (y.1, { recOf H id v n with vote_positions := y.2.1 })) := by
  refine (h.vp.remove (len := n) h.room.lt.le (k := app) happ).bind ?_
  rintro r ⟨D', b', x⟩ hr' ⟨h1, h2, h3⟩
  simp only at h1 h2 h3
  subst h1
  refine ⟨rfl, ⟨h.tabs.setVp hN h.vid h2 h3, h.fit, h.bal, h.avp, h.vid, ?_⟩, rfl⟩
  have := Cells.remove_shrinks hr'
  have h4 := h.room
  unfold Room at *; omega

theorem Mid.set_vote (hN : N.OK H) (h : Mid H N (f + 1) vl m id s v n D) (happ : N.app app) (ho : StrFits obj) {a : Handle}
    (ha : HOK N (f + 1) a) {x : Nat} (hx : x < 2 ^ 128) :
    Rel (RM H N f vl m id s v) (m.setVote id n app a obj x) (set_vote D (recOf H id v n) app (hnd H a) obj x) := by
  unfold Mem.setVote Bytes.set_vote
  refine ((h.tabs.vv ha.1).insert (len := a.len) ha.2.lt (k := obj) (v := x) ho hx).bind ?_
  rintro r ⟨D', b'⟩ hr' ⟨h1, h2, h3⟩
  simp only at h1 h2 h3
  subst h1
  have hm : Mid H N (f + 1) vl { m with vv := upd m.vv a.region r.1 } id s v n D' :=
    ⟨h.tabs.setVv hN ha.1 h2 h3, h.fit, h.bal, h.avp, h.vid, h.room⟩
  have hl := (Cells.insert_grows hr').1
  have h5 := ha.2
  refine (hm.mono (Nat.le_succ f)).setHandle (a := ⟨a.region, r.2⟩) hN ⟨happ, hN.app _ happ⟩
    ⟨ha.1, by unfold Room at *; show r.2 + f < _; omega⟩ ?_
  intro q hq
  have h6 := (Cells.insert_grows hq).1
  have h7 := h.room
  unfold Room at *; omega

theorem Mid.del_vote (hN : N.OK H) (h : Mid H N f vl m id s v n D) (happ : N.app app) (ho : StrFits obj) {a : Handle}
    (ha : HOK N f a) (hi : ((m.vp id).index app).isSome) :
    Rel (RM H N f vl m id s v) (m.delVote id n app a obj) (del_vote D (recOf H id v n) app (hnd H a) obj) := by
  unfold Mem.delVote Bytes.del_vote
  refine ((h.tabs.vv ha.1).remove (len := a.len) ha.2.lt.le (k := obj) ho).bind ?_
  rintro r ⟨D', b', x⟩ hr' ⟨h1, h2, h3⟩
  simp only at h1 h2 h3
  subst h1
  have hm : Mid H N f vl { m with vv := upd m.vv a.region r.1 } id s v n D' :=
    ⟨h.tabs.setVv hN ha.1 h2 h3, h.fit, h.bal, h.avp, h.vid, h.room⟩
  have hl := Cells.remove_shrinks hr'
  have h5 := ha.2
  show Rel _ (do
      let q ← (if r.2 = 0 then (m.vp id).remove n app else (m.vp id).insert n app ⟨a.region, r.2⟩)
      pure ({ m with vv := upd m.vv a.region r.1, vp := upd m.vp id q.1 }, q.2))
    (do
      let y ← (if r.2 = 0 then do
          let y ← MapH.remove string mapH D' (recOf H id v n).vote_positions app
          pure (y.1, y.2.1)
        else MapH.insert string mapH D' (recOf H id v n).vote_positions app (hnd H ⟨a.region, r.2⟩) : Res (Disk × MapH))
      pure (y.1, { recOf H id v n with vote_positions := y.2 }))
  by_cases hz : r.2 = 0
  · simp only [if_pos hz, bind_assoc, pure_bind]
    exact hm.dropHandle hN ⟨happ, hN.app _ happ⟩
  · simp only [if_neg hz]
    refine hm.setHandle (a := ⟨a.region, r.2⟩) hN ⟨happ, hN.app _ happ⟩ ⟨ha.1, by unfold Room at *; show r.2 + f < _; omega⟩ ?_
    intro q hq
    rw [(Cells.insert_grows hq).2 hi]
    exact h.room

/-! ## Totals -/

/-- Handle of the totals of an app. -/
def tot (H : Hash) (app : String) (n : Nat) : MapH := .at (pre H (.contractVotes app)) n

/-- The totals change, on both sides. -/
def RI (H : Hash) (N : Names) (f : Nat) (vl : String → Nat) (id : String) (s : State) (v : Voter) (n : Nat) (a : Mem)
    (b : Disk × StateRec) : Prop :=
  b.2 = rootOf H s a ∧ Mid H N f vl a id s v n b.1

theorem Mid.getTotal (hN : N.OK H) (h : Mid H N f vl m id s v n D) (happ : N.app app) :
    internal_get_total_votes_for_address H D (rootOf H s m) app = .ok (tot H app ((m.vt.get app).getD 0)) ∧
      Room f ((m.vt.get app).getD 0) := by
  unfold internal_get_total_votes_for_address
  rw [show MapH.get string mapH D (rootOf H s m).votes app = _ from h.tabs.getVotes (hN.app _ happ)]
  show Except.ok (((m.vt.get app).map _).getD _) = _ ∧ _
  cases e : m.vt.get app with
  | none => exact ⟨rfl, h.room.zero⟩
  | some k => exact ⟨rfl, h.tabs.votesFits e⟩

theorem Mid.getCv (h : Mid H N f vl m id s v n D) (happ : N.app app) (ho : StrFits obj) (k : Nat) :
    MapH.get string u128 D (tot H app k) obj = (m.cv app).get k obj := by
  have := (h.tabs.cv happ).get k (k := obj) ho
  rw [show MapH.get string u128 D (tot H app k) obj = _ from this]
  show ((m.cv app).get k obj).map (Option.map fun n => n) = (m.cv app).get k obj
  cases (m.cv app).get k obj with
  | error e => rfl
  | ok o => cases o <;> rfl

theorem Mid.increase_total (hN : N.OK H) (h : Mid H N (f + 1) vl m id s v n D) (happ : N.app app) (ho : StrFits obj) (p : Nat) :
    Rel (RI H N f vl id s v n) (m.increaseTotal p app obj)
      (internal_increase_total_votes H D (rootOf H s m) p app obj) := by
  unfold Mem.increaseTotal internal_increase_total_votes
  obtain ⟨e1, hl⟩ := h.getTotal hN happ
  refine Rel.ok e1 ?_
  rw [h.getCv happ ho]
  refine Rel.step _ fun old _ => ?_
  refine Rel.step _ fun x hx => ?_
  refine ((h.tabs.cv happ).insert (len := (m.vt.get app).getD 0) hl.lt (k := obj) (v := x) ho (add_lt hx)).bind ?_
  rintro r ⟨D', b'⟩ hr' ⟨h1, h2, h3⟩
  simp only at h1 h2 h3
  subst h1
  have h4 := (Cells.insert_grows hr').1
  obtain ⟨D2, e2, h5⟩ := (h.tabs.setCv hN happ h2 h3).insertVotes hN happ (n := r.2) (by unfold Room at *; omega)
  refine Rel.ok e2 ?_
  exact ⟨rfl, h5, h.fit, h.bal, h.avp, h.vid, h.room.mono (Nat.le_succ f)⟩

theorem Mid.decrease_total (hN : N.OK H) (h : Mid H N f vl m id s v n D) (happ : N.app app) (ho : StrFits obj) (p : Nat) :
    Rel (RI H N f vl id s v n) (m.decreaseTotal p app obj)
      (state_internal_decrease_total_votes_for_address H D (rootOf H s m) p app obj) := by
  unfold Mem.decreaseTotal state_internal_decrease_total_votes_for_address
  obtain ⟨e1, hl⟩ := h.getTotal hN happ
  refine Rel.ok e1 ?_
  rw [h.getCv happ ho]
  refine Rel.step _ fun old hold => ?_
  refine Rel.step _ fun x hx => ?_
  rw [expect_ok_iff] at hx
  subst hx
  obtain ⟨i, hi, hil, hiv⟩ := Cells.get_some hold
  have hx := (h.tabs.cv happ).vok i x hiv
  have hs : (m.vt.get app).isSome := by
    cases e : m.vt.get app with
    | none => rw [e] at hil; simp at hil
    | some k => rfl
  refine Rel.step _ fun _ _ => ?_
  refine Rel.step _ fun y hy => ?_
  have h0 : Rel (fun r b => (b.2 = tot H app r.2 ∧ At H N f (tabOf s vl { m with cv := upd m.cv app r.1 }
        (upd (lpOf s) id v.locking_positions)) b.1) ∧ r.2 ≤ (m.vt.get app).getD 0)
      (if y = 0 then (m.cv app).remove ((m.vt.get app).getD 0) obj
        else (m.cv app).insert ((m.vt.get app).getD 0) obj y)
      (if y = 0 then do
          let x ← MapH.remove string u128 D (tot H app ((m.vt.get app).getD 0)) obj
          pure (x.1, x.2.1)
        else MapH.insert string u128 D (tot H app ((m.vt.get app).getD 0)) obj y : Res (Disk × MapH)) := by
    by_cases hz : y = 0
    · simp only [if_pos hz]
      refine Rel.right (((h.tabs.cv happ).remove (len := (m.vt.get app).getD 0) hl.lt.le (k := obj) ho).imp
        (S := fun r b => (b.2.1 = tot H app r.2 ∧ At H N f (tabOf s vl { m with cv := upd m.cv app r.1 }
          (upd (lpOf s) id v.locking_positions)) b.1) ∧ r.2 ≤ (m.vt.get app).getD 0) ?_) fun _ _ h => h
      rintro r ⟨D', b', x⟩ hr' ⟨h1, h2, h3⟩
      exact ⟨⟨h1, h.tabs.setCv hN happ h2 h3⟩, Cells.remove_shrinks hr'⟩
    · simp only [if_neg hz]
      refine ((h.tabs.cv happ).insert (len := (m.vt.get app).getD 0) hl.lt (k := obj) (v := y) ho (sub_lt hy hx)).imp ?_
      rintro r ⟨D', b'⟩ hr' ⟨h1, h2, h3⟩
      exact ⟨⟨h1, h.tabs.setCv hN happ h2 h3⟩, Nat.le_of_eq ((Cells.insert_grows hr').2 (by show (((m.cv app).index obj).isSome = true); rw [hi]; rfl))⟩
  refine h0.bind ?_
  rintro r ⟨D', b'⟩ - ⟨⟨h1, h2⟩, h3⟩
  simp only at h1 h2 h3
  subst h1
  by_cases hz : r.2 = 0
  · obtain ⟨D2, x, e2, h5⟩ := h2.removeVotes hN (hN.app _ happ)
    have hz' : (tot H app r.2).keys.len = 0 := hz
    simp only [if_pos hz, if_pos hz']
    refine Rel.ok (c := (D2, (rootOf H s { m with cv := upd m.cv app r.1, vt := m.vt.remove app }).votes)) (by
      rw [show MapH.remove string mapH D' (rootOf H s m).votes app = _ from e2]; rfl) ?_
    exact ⟨rfl, h5, h.fit, h.bal, h.avp, h.vid, h.room⟩
  · obtain ⟨D2, e2, h5⟩ := h2.replaceVotes hN happ (n := r.2) (by unfold Room at *; omega) hs
    have hz' : ¬ (tot H app r.2).keys.len = 0 := hz
    simp only [if_neg hz, if_neg hz']
    refine Rel.ok e2 ?_
    exact ⟨rfl, h5, h.fit, h.bal, h.avp, h.vid, h.room⟩

/-! ## Calls that vote -/

/-- The state, the record of the voter and the length of its vote maps, on both sides. -/
def RSV (H : Hash) (N : Names) (f : Nat) (S : SState) (id : String) (a : SState × Voter × Nat) (b : Disk × StateRec × VoterRec) :
    Prop :=
  b.2.1 = rootOf H a.1.st a.1.mem ∧ b.2.2 = recOf H id a.2.1 a.2.2 ∧
    Mid H N f a.1.vlen a.1.mem id a.1.st a.2.1 a.2.2 b.1 ∧ a.1.st = S.st ∧ a.1.vlen = S.vlen

/-- The state of the vote maps and of the rest, on both sides. -/
def RSS (H : Hash) (N : Names) (f : Nat) (S : SState) (b : Disk × StateRec) : Prop :=
  b.2 = rootOf H S.st S.mem ∧ Rep H N f S.vlen S.mem S.st b.1 ∧ Fresh S.st S.vlen

theorem RSS.mono {S : SState} {b : Disk × StateRec} (h : RSS H N f S b) (hf : f' ≤ f) : RSS H N f' S b :=
  ⟨h.1, h.2.1.mono hf, h.2.2⟩

variable {S : SState}

theorem fresh_save (hz : Fresh S.st S.vlen) : Fresh (S.save id v n).st (S.save id v n).vlen := by
  intro k hk
  change (S.st.voters.insert id v).get k = none at hk
  show upd S.vlen id n k = 0
  by_cases e : k = id
  · subst e; rw [UMap.get_insert] at hk; simp at hk
  · rw [upd_ne _ _ e]
    rw [UMap.get_insert, if_neg (Ne.symm e)] at hk
    exact hz k hk

theorem Mid.saveS (hN : N.OK H) (h : Mid H N (f + 1) S.vlen S.mem id S.st v n D) (hz : Fresh S.st S.vlen) :
    Rel (RSS H N f) (pure (S.save id v n)) (insert_voter D (rootOf H S.st S.mem) id (recOf H id v n)) := by
  obtain ⟨D', e, hr⟩ := h.save hN
  rw [e]
  exact ⟨rfl, hr, fresh_save hz⟩

theorem Mid.create_vote (hN : N.OK H) (h : Mid H N (f + 2) S.vlen S.mem id S.st v n D) (happ : N.app app) (ho : StrFits obj) (p : Nat) :
    Rel (RSV H N f S id) (S.internal_create_voting_position id v n p app obj)
      (internal_create_voting_position H D (rootOf H S.st S.mem) id (recOf H id v n) p app obj) := by
  unfold SState.internal_create_voting_position Bytes.internal_create_voting_position
  refine Rel.step _ fun _ _ => ?_
  refine Rel.step _ fun _ _ => ?_
  rw [h.position_eq ⟨happ, hN.app _ happ⟩]
  refine Rel.map _ _ fun a ha => ?_
  have hok := h.positionOK happ ha
  rw [h.voteIn_eq hok ho]
  refine Rel.step _ fun old _ => ?_
  refine Rel.step _ fun avp havp => ?_
  refine Rel.step _ fun votes hvotes => ?_
  have hm : Mid H N (f + 2) S.vlen S.mem id S.st { v with available_voting_power := avp } n D :=
    h.scalar h.bal (sub_lt havp h.avp)
  refine (hm.set_vote hN happ ho hok (add_lt hvotes)).bind ?_
  rintro ⟨m', n'⟩ ⟨D', w'⟩ - ⟨h1, h2, h3⟩
  simp only at h1 h2 h3
  subst h1
  simp only [← rootOf_vt (H := H) (s := S.st) h3]
  refine (h2.increase_total hN happ ho p).bind ?_
  rintro m2 ⟨D2, r2⟩ - ⟨h4, h5⟩
  simp only at h4 h5
  subst h4
  exact ⟨rfl, rfl, h5, rfl, rfl⟩

theorem Rep.internal_vote (hN : N.OK H) (h : Rep H N (f + 3) S.vlen S.mem S.st D) (hz : Fresh S.st S.vlen) (hid : StrFits id)
    (happ : N.app app) (ho : StrFits obj) (p : Nat) :
    Rel (RSS H N f) (S.internal_vote id p app obj) (internal_vote H D (rootOf H S.st S.mem) id p app obj) := by
  unfold SState.internal_vote Bytes.internal_vote
  refine h.or_panic hid fun v hv hm => ?_
  refine (hm.create_vote hN happ ho p).bind ?_
  rintro ⟨S', v', n'⟩ ⟨D', r', w'⟩ - ⟨h1, h2, h3, h4, h5⟩
  simp only at h1 h2 h3 h4 h5
  subst h1; subst h2
  exact h3.saveS hN (by rw [h4, h5]; exact hz)

theorem Mid.remove_vote (hN : N.OK H) (h : Mid H N f S.vlen S.mem id S.st v n D) (happ : N.app app) (ho : StrFits obj) :
    Rel (RSV H N f S id) (S.internal_remove_voting_position id v n app obj)
      (internal_remove_voting_position H D (rootOf H S.st S.mem) id (recOf H id v n) app obj) := by
  unfold SState.internal_remove_voting_position Bytes.internal_remove_voting_position
  rw [h.position_eq ⟨happ, hN.app _ happ⟩]
  refine Rel.map _ _ fun a ha => ?_
  have hok := h.positionOK happ ha
  rw [h.voteIn_eq hok ho]
  refine Rel.step _ fun old hold => ?_
  refine Rel.step _ fun votes hvotes => ?_
  rw [expect_ok_iff] at hvotes
  subst hvotes
  refine Rel.step _ fun avp havp => ?_
  have hm : Mid H N f S.vlen S.mem id S.st { v with available_voting_power := avp } n D :=
    h.scalar h.bal (add_lt havp)
  refine (hm.del_vote hN happ ho hok (position_index ha hold)).bind ?_
  rintro ⟨m', n'⟩ ⟨D', w'⟩ - ⟨h1, h2, h3⟩
  simp only at h1 h2 h3
  subst h1
  simp only [← rootOf_vt (H := H) (s := S.st) h3]
  refine (h2.decrease_total hN happ ho votes).bind ?_
  rintro m2 ⟨D2, r2⟩ - ⟨h4, h5⟩
  simp only at h4 h5
  subst h4
  exact ⟨rfl, rfl, h5, rfl, rfl⟩

theorem Rep.internal_unvote (hN : N.OK H) (c : Ctx) (h : Rep H N (f + 1) S.vlen S.mem S.st D) (hz : Fresh S.st S.vlen)
    (hid : StrFits id) (happ : N.app app) (ho : StrFits obj) :
    Rel (RSS H N f) (S.internal_unvote c id app obj) (internal_unvote H D (rootOf H S.st S.mem) c id app obj) := by
  unfold SState.internal_unvote Bytes.internal_unvote
  refine Rel.step _ fun _ _ => ?_
  refine h.or_panic hid fun v hv hm => ?_
  refine (hm.remove_vote hN happ ho).bind ?_
  rintro ⟨S', v', n'⟩ ⟨D', r', w'⟩ - ⟨h1, h2, h3, h4, h5⟩
  simp only at h1 h2 h3 h4 h5
  subst h1; subst h2
  exact h3.saveS hN (by rw [h4, h5]; exact hz)

theorem Rep.rebalance (hN : N.OK H) (c : Ctx) (hc : StrFits c.predecessor) (h : Rep H N (f + 3) S.vlen S.mem S.st D)
    (hz : Fresh S.st S.vlen) (happ : N.app app) (ho : StrFits obj) (p : Nat) :
    Rel (RSS H N f) (S.rebalance c p app obj) (rebalance H D (rootOf H S.st S.mem) c p app obj) := by
  unfold SState.rebalance Bytes.rebalance
  refine h.or_panic hc fun v hv hm => ?_
  rw [hm.position_eq ⟨happ, hN.app _ happ⟩]
  refine Rel.map _ _ fun a ha => ?_
  have hok := hm.positionOK happ ha
  rw [hm.voteIn_eq hok ho]
  refine Rel.step _ fun old hold => ?_
  refine Rel.step _ fun votes hvotes => ?_
  rw [expect_ok_iff] at hvotes
  subst hvotes
  have hlt := hm.voteLt hok hold
  refine Rel.step _ fun _ _ => ?_
  by_cases hp : p = 0
  · simp only [if_pos hp]
    exact (h.internal_unvote (f := f + 2) hN c hz hc happ ho).imp fun _ _ _ h => h.mono (by omega)
  simp only [if_neg hp]
  have h0 : Rel (fun a b => b.2.1 = rootOf H S.st a.1 ∧ b.2.2 = a.2 ∧ a.2.1 < 2 ^ 128 ∧ a.2.2 < 2 ^ 128 ∧
        Mid H N (f + 2) S.vlen a.1 c.predecessor S.st v (S.vlen c.predecessor) b.1)
      (if votes < p then do
        let additional_votes ← subU p votes
        require (additional_votes ≤ v.available_voting_power) "Not enough free voting power to unlock!"
        let avp ← subU v.available_voting_power additional_votes
        let votes ← addU128 votes additional_votes
        let m ← S.mem.increaseTotal additional_votes app obj
        pure (m, avp, votes)
      else do
        let remove_votes ← subU votes p
        let avp ← addU128 v.available_voting_power remove_votes
        let votes ← subU votes remove_votes
        let m ← S.mem.decreaseTotal remove_votes app obj
        pure (m, avp, votes) : Res (Mem × Nat × Nat))
      (if votes < p then do
        let additional_votes ← subU p votes
        require (additional_votes ≤ v.available_voting_power) "Not enough free voting power to unlock!"
        let avp ← subU v.available_voting_power additional_votes
        let votes ← addU128 votes additional_votes
        let y ← internal_increase_total_votes H D (rootOf H S.st S.mem) additional_votes app obj
        pure (y.1, y.2, avp, votes)
      else do
        let remove_votes ← subU votes p
        let avp ← addU128 v.available_voting_power remove_votes
        let votes ← subU votes remove_votes
        let y ← state_internal_decrease_total_votes_for_address H D (rootOf H S.st S.mem) remove_votes app obj
        pure (y.1, y.2, avp, votes) : Res (Disk × StateRec × Nat × Nat)) := by
    by_cases hq : votes < p
    · simp only [if_pos hq]
      refine Rel.step _ fun more _ => ?_
      refine Rel.step _ fun _ _ => ?_
      refine Rel.step _ fun avp havp => ?_
      refine Rel.step _ fun x hx => ?_
      refine (hm.increase_total hN happ ho more).bind ?_
      rintro m2 ⟨D2, r2⟩ - ⟨h4, h5⟩
      exact ⟨h4, rfl, sub_lt havp hm.avp, add_lt hx, h5⟩
    · simp only [if_neg hq]
      refine Rel.step _ fun less _ => ?_
      refine Rel.step _ fun avp havp => ?_
      refine Rel.step _ fun x hx => ?_
      refine ((hm.mono (f' := f + 2) (by omega)).decrease_total hN happ ho less).bind ?_
      rintro m2 ⟨D2, r2⟩ - ⟨h4, h5⟩
      exact ⟨h4, rfl, add_lt havp, sub_lt hx hlt, h5⟩
  refine h0.bind ?_
  rintro ⟨m', avp, x⟩ ⟨D', r', y'⟩ - ⟨h1, h2, h3, h4, h5⟩
  simp only at h1 h2 h3 h4 h5
  subst h1; subst h2
  have hm' : Mid H N (f + 2) S.vlen m' c.predecessor S.st { v with available_voting_power := avp } (S.vlen c.predecessor) D' :=
    h5.scalar h5.bal h3
  refine (hm'.set_vote hN happ ho (hok.mono (by omega)) h4).bind ?_
  rintro ⟨m2, n2⟩ ⟨D2, w2⟩ - ⟨h6, h7, h8⟩
  simp only at h6 h7 h8
  subst h6
  simp only [← rootOf_vt (H := H) (s := S.st) h8]
  exact Mid.saveS (S := { S with mem := m2 }) hN h7 hz

/-! ## Mirroring -/

theorem mapM_map {α β γ : Type} {g : α → β} {F : α → Res γ} {G : β → Res γ} {l : List α} (h : ∀ x ∈ l, G (g x) = F x) :
    (l.map g).mapM G = l.mapM F := by
  induction l with
  | nil => rfl
  | cons x xs ih =>
    rw [List.map_cons, List.mapM_cons, List.mapM_cons, h x List.mem_cons_self, ih fun y hy => h y (List.mem_cons_of_mem _ hy)]

theorem Mid.handles_eq (h : Mid H N f vl m id s v n D) :
    MapH.valueList mapH D (recOf H id v n).vote_positions = ((m.vp id).values n).map (List.map (hnd H)) :=
  h.vp.values h.room.lt.le

theorem Mid.sum_used (h : Mid H N f vl m id s v n D) : sum_used_votes D (recOf H id v n) = m.usedVotes id n := by
  unfold sum_used_votes Mem.usedVotes
  rw [h.handles_eq]
  cases e : (m.vp id).values n with
  | error e => rfl
  | ok l =>
    show (do
      let sums ← (l.map (hnd H)).mapM (fun h => do
        let l ← MapH.valueList u128 D h
        sumU128 l)
      sumU128 sums) = (do
      let sums ← l.mapM (fun h => do
        let l ← (m.vv h.region).values h.len
        sumU128 l)
      sumU128 sums)
    rw [mapM_map]
    intro a ha
    obtain ⟨i, hi⟩ := Cells.values_mem e a ha
    obtain ⟨h1, h2⟩ : HOK N f a := h.vp.vok i a hi
    have h3 := (h.tabs.vv h1).values (len := a.len) h2.lt.le
    rw [show MapH.valueList u128 D (hnd H a) = _ from h3]
    show (((m.vv a.region).values a.len).map (List.map fun n => n) >>= sumU128) = _
    cases (m.vv a.region).values a.len with
    | error e => rfl
    | ok l =>
      show sumU128 (l.map fun n => n) = sumU128 l
      rw [List.map_id']

theorem Mid.entryCount_eq (h : Mid H N f S.vlen S.mem id S.st v n D) : entryCount D (recOf H id v n) = S.entryCount id n := by
  unfold entryCount SState.entryCount
  rw [h.handles_eq]
  cases (S.mem.vp id).values n with
  | error e => rfl
  | ok l =>
    show Except.ok (((l.map (hnd H)).map (·.keys.len)).sum) = Except.ok ((l.map (·.len)).sum)
    rw [List.map_map]
    rfl

/-- The loop, on both sides. -/
def RL (H : Hash) (N : Names) (f : Nat) (S : SState) (id : String) (a : SState × Voter × Nat × Nat)
    (b : Disk × StateRec × VoterRec × Nat) : Prop :=
  RSV H N f S id (a.1, a.2.1, a.2.2.1) (b.1, b.2.1, b.2.2.1) ∧ b.2.2.2 = a.2.2.2

theorem Mid.mirror_loop (hN : N.OK H) (p : Nat) : ∀ (fuel : Nat) {S : SState} {v : Voter} {n : Nat} {D : Disk} (used : Nat),
    Mid H N f S.vlen S.mem id S.st v n D →
    Rel (RL H N f S id) (SState.mirror_remove_votes id p fuel S v n used)
      (mirror_remove_votes H id p fuel D (rootOf H S.st S.mem) (recOf H id v n) used)
  | 0, S, v, n, D, used, h => by
    unfold SState.mirror_remove_votes Bytes.mirror_remove_votes
    by_cases hp : p < used
    · simp only [if_pos hp]; rfl
    · simp only [if_neg hp]; exact ⟨⟨rfl, rfl, h, rfl, rfl⟩, rfl⟩
  | fuel + 1, S, v, n, D, used, h => by
    unfold SState.mirror_remove_votes Bytes.mirror_remove_votes
    by_cases hp : p < used
    · simp only [if_pos hp]
      rw [show MapH.keyAt string D (recOf H id v n).vote_positions 0 = _ from h.vp.keyAt n (i := 0) (by decide)]
      refine Rel.step _ fun k hk => ?_
      refine Rel.step _ fun app happ => ?_
      rw [expect_ok_iff] at happ
      subst happ
      have happ : N.app app ∧ StrFits app := h.vp.kok 0 app (Cells.vecGet_some hk).2
      rw [h.getHandle happ]
      refine Rel.map _ _ fun o ho => ?_
      cases o with
      | none => rfl
      | some a =>
        have hok := h.handleOK ho
        show Rel _ ((S.mem.vv a.region).keyAt a.len 0 >>= _) (MapH.keyAt string D (hnd H a) 0 >>= _)
        rw [show MapH.keyAt string D (hnd H a) 0 = _ from (h.tabs.vv hok.1).keyAt a.len (i := 0) (by decide)]
        refine Rel.step _ fun k hk => ?_
        refine Rel.step _ fun obj hobj => ?_
        rw [expect_ok_iff] at hobj
        subst hobj
        have hobj : StrFits obj := (h.tabs.vv hok.1).kok 0 obj (Cells.vecGet_some hk).2
        rw [h.voteIn_eq hok hobj]
        refine Rel.step _ fun votes _ => ?_
        refine Rel.step _ fun votes _ => ?_
        refine (h.remove_vote hN happ.1 hobj).bind ?_
        rintro ⟨S', v', n'⟩ ⟨D', r', w'⟩ - ⟨h1, h2, h3, h4, h5⟩
        simp only at h1 h2 h3 h4 h5
        subst h1; subst h2
        refine Rel.step _ fun used' _ => ?_
        refine (Mid.mirror_loop hN p fuel used' h3).imp ?_
        rintro x y - ⟨⟨g1, g2, g3, g4, g5⟩, g6⟩
        exact ⟨⟨g1, g2, g3, g4.trans h4, g5.trans h5⟩, g6⟩
    · simp only [if_neg hp]; exact ⟨⟨rfl, rfl, h, rfl, rfl⟩, rfl⟩

theorem Mid.mirror_steps (hN : N.OK H) {l : List (Nat × Nat)} (h : Mid H N (f + l.length) vl m id s v n D) :
    Rel (RV H N f vl m id n) (l.foldlM State.mirror_step (s, v)) (l.foldlM mirror_step (D, rootOf H s m, recOf H id v n)) := by
  induction l generalizing s v D with
  | nil => exact ⟨rfl, rfl, h⟩
  | cons x xs ih =>
    rw [List.foldlM_cons, List.foldlM_cons]
    refine ((h.mono (f' := f + xs.length + 1) (by simp; omega)).create hN x.2 x.1).bind ?_
    rintro ⟨s', v'⟩ ⟨D', r', w'⟩ - ⟨h1, h2, h3⟩
    simp only at h1 h2 h3
    subst h1; subst h2
    exact ih h3

/-- A new position leaves the registered voters as they are. -/
theorem create_voters {v : Voter} {a d : Nat} {r : State × Voter} (h : s.internal_create_locking_position v a d = .ok r) :
    r.1.voters = s.voters := by
  unfold State.internal_create_locking_position at h
  simp only [bind_ok_iff, pure_ok_iff, require_ok_iff] at h
  obtain ⟨-, -, -, -, -, -, -, -, -, -, rfl⟩ := h
  rfl

theorem mirror_voters {l : List (Nat × Nat)} {x r : State × Voter} (h : l.foldlM State.mirror_step x = .ok r) :
    r.1.voters = x.1.voters := by
  induction l generalizing x with
  | nil => cases h; rfl
  | cons y ys ih =>
    rw [List.foldlM_cons] at h
    obtain ⟨z, h1, h2⟩ := bind_ok_iff.1 h
    exact (ih h2).trans (create_voters h1)

theorem Rep.operator_mirror_lps (hN : N.OK H) (c : Ctx) {e : String} {l : List (Nat × Nat)}
    (h : Rep H N (f + 1 + l.length) S.vlen S.mem S.st D) (hz : Fresh S.st S.vlen) (he : N.voter (pseudo_near_address e)) :
    Rel (RSS H N f) (S.operator_mirror_lps c e l) (operator_mirror_lps H D (rootOf H S.st S.mem) c e l) := by
  unfold SState.operator_mirror_lps Bytes.operator_mirror_lps
  refine Rel.step _ fun _ _ => ?_
  obtain ⟨e1, hm⟩ := h.get_voter hN he (hz _) h.room0
  refine Rel.ok e1 ?_
  rw [hm.sum_used, hm.entryCount_eq]
  refine Rel.step _ fun used _ => ?_
  refine Rel.step _ fun prev _ => ?_
  refine Rel.step _ fun vps _ => ?_
  refine Rel.step _ fun p _ => ?_
  refine Rel.step _ fun fuel _ => ?_
  refine (hm.mirror_loop hN p fuel used).bind ?_
  rintro ⟨S', v', n', u'⟩ ⟨D', r', w', u2⟩ - ⟨⟨h1, h2, h3, h4, h5⟩, h6⟩
  simp only at h1 h2 h3 h4 h5 h6
  subst h1; subst h2; subst h6
  obtain ⟨D2, e2, hc⟩ := h3.clear hN
  simp only [e2]
  refine (hc.mirror_steps (f := f + 1) hN).bind ?_
  rintro ⟨s3, v3⟩ ⟨D3, r3, w3⟩ hs3 ⟨g1, g2, g3⟩
  simp only at g1 g2 g3
  subst g1; subst g2
  refine Rel.step _ fun avp havp => ?_
  refine Rel.step _ fun total htotal => ?_
  have hv := mirror_voters hs3
  simp only at hv
  have hm3 : Mid H N (f + 1) S'.vlen S'.mem (pseudo_near_address e) { s3 with total_voting_power := total }
      { v3 with available_voting_power := avp } n' D3 :=
    (g3.scalar g3.bal (sub_lt havp g3.avp)).total (sub_lt htotal g3.fit.total)
  refine Mid.saveS (S := { S' with st := { s3 with total_voting_power := total } }) hN hm3 ?_
  show Fresh _ _
  intro k hk
  change s3.voters.get k = none at hk
  show S'.vlen k = 0
  rw [hv, h4] at hk
  rw [h5]
  exact hz k hk

theorem Rep.vote_delegated (hN : N.OK H) (c : Ctx) (hc : StrFits c.predecessor) (h : Rep H N (f + 3) S.vlen S.mem S.st D)
    (hz : Fresh S.st S.vlen) {e : String} (he : StrFits (pseudo_near_address e)) (happ : N.app app) (ho : StrFits obj) (p : Nat) :
    Rel (RSS H N f) (S.st.verify_delegate c e >>= fun a => S.internal_vote a p app obj)
      (vote_delegated H D (rootOf H S.st S.mem) c e p app obj) := by
  unfold Bytes.vote_delegated
  rw [h.verify c hc]
  refine Rel.step _ fun a ha => ?_
  rw [verified ha]
  exact h.internal_vote hN hz he happ ho p

theorem Rep.unvote_delegated (hN : N.OK H) (c : Ctx) (hc : StrFits c.predecessor) (h : Rep H N (f + 1) S.vlen S.mem S.st D)
    (hz : Fresh S.st S.vlen) {e : String} (he : StrFits (pseudo_near_address e)) (happ : N.app app) (ho : StrFits obj) :
    Rel (RSS H N f) (S.st.verify_delegate c e >>= fun a => S.internal_unvote c a app obj)
      (unvote_delegated H D (rootOf H S.st S.mem) c e app obj) := by
  unfold Bytes.unvote_delegated
  rw [h.verify c hc]
  refine Rel.step _ fun a ha => ?_
  rw [verified ha]
  exact h.internal_unvote hN c hz he happ ho

end Verif.MetaVote.Bytes
