import Verif.MetaVote.BytesVoter

/-!
# Locking, unlocking and claims, in bytes and in the state
-/

namespace Verif.MetaVote.Bytes

open Verif Storage Disk Borsh

variable {H : Hash} {N : Names} {f f' : Nat} {vl : String → Nat} {m : Mem} {s : State} {D : Disk} {id : String} {v : Voter}
  {n : Nat}

theorem power_lt {a d x : Nat} (h : calculate_voting_power a d = .ok x) : a < 2 ^ 128 ∧ d < 2 ^ 16 ∧ x < 2 ^ 128 := by
  simp only [calculate_voting_power, proportional, bind_ok_iff, mulU128_ok_iff, require_ok_iff, pure_ok_iff] at h
  obtain ⟨b, ⟨h1, rfl⟩, -, h2, -, -, -, h3, rfl⟩ := h
  refine ⟨?_, by omega, lt_of_max h3⟩
  have := lt_of_max h1
  simp only [E18] at this
  omega

theorem Mid.scalar (h : Mid H N f vl m id s v n D) {b a : Nat} (hb : b < 2 ^ 128) (ha : a < 2 ^ 128) :
    Mid H N f vl m id s { v with balance := b, available_voting_power := a } n D := ⟨h.tabs, h.fit, hb, ha, h.vid, h.room⟩

theorem Mid.total (h : Mid H N f vl m id s v n D) {x : Nat} (hx : x < 2 ^ 128) :
    Mid H N f vl m id { s with total_voting_power := x } v n D :=
  ⟨h.tabs, { h.fit with total := hx }, h.bal, h.avp, h.vid, h.room⟩

/-- A deposit: also the voter is stored. -/
def RD (H : Hash) (N : Names) (f : Nat) (vl : String → Nat) (m : Mem) (id : String) (a : State × Voter)
    (b : Disk × StateRec × VoterRec) : Prop :=
  b.2.1 = rootOf H a.1 m ∧ b.2.2 = recOf H id a.2 (vl id) ∧ Rep H N f vl m a.1 b.1 ∧ a.1.voters.get id = some a.2

theorem Mid.increase (hN : N.OK H) (h : Mid H N f vl m id s v n D) {i : Nat} (hi : i < 2 ^ 64) (a d : Nat) :
    Rel (RV H N f vl m id n) (s.increase_locking_position v i a d)
      (increase_locking_position D (rootOf H s m) (recOf H id v n) i a d) := by
  unfold State.increase_locking_position increase_locking_position
  refine Rel.step _ fun vp hvp => ?_
  refine h.position hi fun p e he hp => ?_
  refine Rel.step _ fun am ham => ?_
  refine Rel.step _ fun pw hpw => ?_
  obtain ⟨D', e1, h1⟩ := h.replace hN hi e (p := { p with amount := am, voting_power := pw })
    ⟨add_lt ham, hp.2.1, add_lt hpw, hp.2.2.2⟩
  refine Rel.ok e1 ?_
  refine Rel.step _ fun avp havp => ?_
  refine Rel.step _ fun t ht => ?_
  exact ⟨rfl, by rw [show recOf H id _ n = recOf H id { v.replace_position i _ with available_voting_power := avp } n from rfl]
                 simp [recOf, Voter.replace_position], (h1.scalar h1.bal (add_lt havp)).total (add_lt ht)⟩

theorem Mid.create (hN : N.OK H) (h : Mid H N (f + 1) vl m id s v n D) (a d : Nat) :
    Rel (RV H N f vl m id n) (s.internal_create_locking_position v a d)
      (internal_create_locking_position D (rootOf H s m) (recOf H id v n) a d) := by
  unfold State.internal_create_locking_position internal_create_locking_position
  refine Rel.step _ fun _ _ => ?_
  refine Rel.ok (h.find d) ?_
  refine Rel.step _ fun _ _ => ?_
  refine Rel.step _ fun vp hvp => ?_
  obtain ⟨ha, hd, hv⟩ := power_lt hvp
  obtain ⟨D', e1, h1⟩ := h.push hN (p := ⟨a, d, vp, none⟩) ⟨ha, hd, hv, by simp⟩
  rw [e1]
  refine Rel.step _ fun avp havp => ?_
  refine Rel.step _ fun t ht => ?_
  exact ⟨rfl, rfl, (h1.scalar h1.bal (add_lt havp)).total (add_lt ht)⟩

theorem findIdx_lt {l : List LockingPosition} {P : LockingPosition → Bool} {i : Nat} (h : l.findIdx? P = some i) : i < l.length :=
  (List.findIdx?_eq_some_iff_findIdx_eq.1 h).1

theorem Mid.deposit (hN : N.OK H) (h : Mid H N (f + 2) vl m id s v (vl id) D) (a d : Nat) :
    Rel (RD H N f vl m id) (s.deposit_locking_position a d id v)
      (deposit_locking_position D (rootOf H s m) a d id (recOf H id v (vl id))) := by
  unfold State.deposit_locking_position deposit_locking_position
  refine Rel.step _ fun _ _ => ?_
  refine Rel.ok (h.find d) ?_
  have h0 : Rel (RV H N (f + 1) vl m id (vl id))
      (match v.find_locked_position d with
        | some index => s.increase_locking_position v index a d
        | none => s.internal_create_locking_position v a d : Res (State × Voter))
      (match v.find_locked_position d with
        | some index => increase_locking_position D (rootOf H s m) (recOf H id v (vl id)) index a d
        | none => internal_create_locking_position D (rootOf H s m) (recOf H id v (vl id)) a d) := by
    cases e : v.find_locked_position d with
    | none => exact h.create hN a d
    | some i =>
      refine (h.mono (Nat.le_succ _)).increase hN ?_ a d
      exact Nat.lt_trans (findIdx_lt e) h.vec.2.lt
  refine h0.bind ?_
  rintro ⟨s', v'⟩ ⟨D', r', w'⟩ - ⟨h1, h2, h3⟩
  simp only at h1 h2 h3
  subst h1; subst h2
  obtain ⟨D'', e, hr⟩ := h3.save hN
  refine Rel.ok e ⟨rfl, rfl, ?_, ?_⟩
  · rw [upd_same] at hr; exact hr
  · simp

theorem RD.first {a : State × Voter} {b : Disk × StateRec × VoterRec} (h : RD H N f vl m id a b) :
    RS H N f vl m a.1 (b.1, b.2.1) := ⟨h.1, h.2.2.1⟩

/-! ## Claims -/

theorem Rep.addMpdao (hN : N.OK H) (h : Rep H N (f + 1) vl m s D) {a : String} (ha : StrFits a) (n : Nat) :
    Rel (RS H N f vl m) (s.add_claimable_mpdao a n) (add_claimable_mpdao D (rootOf H s m) a n) := by
  unfold State.add_claimable_mpdao add_claimable_mpdao
  refine Rel.step _ fun _ _ => ?_
  unfold MetaVote.add_claimable add_claimable
  simp only [bind_assoc]
  refine Rel.ok (h.tabs.getMpdao ha) ?_
  refine Rel.step _ fun x hx => ?_
  obtain ⟨D', e, ht⟩ := h.tabs.insertMpdao hN ha (add_lt hx)
  refine Rel.ok e ?_
  refine Rel.step _ fun t htt => ?_
  exact ⟨rfl, ht, { h.fit with unclaimed_mpdao := add_lt htt }⟩

theorem Rep.addStnear (hN : N.OK H) (h : Rep H N (f + 1) vl m s D) {a : String} (ha : StrFits a) (n : Nat) :
    Rel (RS H N f vl m) (s.add_claimable_stnear a n) (add_claimable_stnear D (rootOf H s m) a n) := by
  unfold State.add_claimable_stnear add_claimable_stnear
  refine Rel.step _ fun _ _ => ?_
  unfold MetaVote.add_claimable add_claimable
  simp only [bind_assoc]
  refine Rel.ok (h.tabs.getStnear ha) ?_
  refine Rel.step _ fun x hx => ?_
  obtain ⟨D', e, ht⟩ := h.tabs.insertStnear hN ha (add_lt hx)
  refine Rel.ok e ?_
  refine Rel.step _ fun t htt => ?_
  exact ⟨rfl, ht, { h.fit with unclaimed_stnear := add_lt htt }⟩

theorem Rep.mpdaoLt (h : Rep H N f vl m s D) (a : String) : (s.claimable_mpdao.get a).getD 0 < 2 ^ 128 := by
  cases e : s.claimable_mpdao.get a with
  | none => exact Nat.two_pow_pos 128
  | some x =>
    obtain ⟨⟨-, ok, -⟩, -⟩ := h.tabs .claimable trivial
    exact u128_ok.1 (ok _ (UMap.get_eq_some_iff.1 e)).2

theorem Rep.stnearLt (h : Rep H N f vl m s D) (a : String) : (s.claimable_stnear.get a).getD 0 < 2 ^ 128 := by
  cases e : s.claimable_stnear.get a with
  | none => exact Nat.two_pow_pos 128
  | some x =>
    obtain ⟨⟨-, ok, -⟩, -⟩ := h.tabs .claimableStNear trivial
    exact u128_ok.1 (ok _ (UMap.get_eq_some_iff.1 e)).2

theorem Rep.removeMpdao (hN : N.OK H) (h : Rep H N (f + 1) vl m s D) {a : String} (ha : StrFits a) (n : Nat) :
    Rel (RS H N f vl m) (s.remove_claimable_mpdao a n) (remove_claimable_mpdao D (rootOf H s m) a n) := by
  unfold State.remove_claimable_mpdao remove_claimable_mpdao MetaVote.remove_claimable remove_claimable
  simp only [bind_assoc]
  refine Rel.ok (h.tabs.getMpdao ha) ?_
  refine Rel.step _ fun _ _ => ?_
  refine Rel.step _ fun x hx => ?_
  by_cases hz : x = 0
  · obtain ⟨D', y, e, ht⟩ := (h.tabs.mono (Nat.le_succ f)).removeMpdao hN ha
    simp only [if_pos hz]
    refine Rel.ok (c := (D', _)) (y := MapH.remove string u128 D (rootOf H s m).claimable_mpdao a >>= fun x => pure (x.1, x.2.1)) (by
      rw [show MapH.remove string u128 D (rootOf H s m).claimable_mpdao a = _ from e]; rfl) ?_
    refine Rel.step _ fun t htt => ?_
    exact ⟨rfl, ht, { h.fit with unclaimed_mpdao := sub_lt htt h.fit.unclaimed_mpdao }⟩
  · obtain ⟨D', e, ht⟩ := h.tabs.insertMpdao hN ha (sub_lt hx (h.mpdaoLt a))
    simp only [if_neg hz]
    refine Rel.ok e ?_
    refine Rel.step _ fun t htt => ?_
    exact ⟨rfl, ht, { h.fit with unclaimed_mpdao := sub_lt htt h.fit.unclaimed_mpdao }⟩

theorem Rep.removeStnear (hN : N.OK H) (h : Rep H N (f + 1) vl m s D) {a : String} (ha : StrFits a) (n : Nat) :
    Rel (RS H N f vl m) (s.remove_claimable_stnear a n) (remove_claimable_stnear D (rootOf H s m) a n) := by
  unfold State.remove_claimable_stnear remove_claimable_stnear MetaVote.remove_claimable remove_claimable
  simp only [bind_assoc]
  refine Rel.ok (h.tabs.getStnear ha) ?_
  refine Rel.step _ fun _ _ => ?_
  refine Rel.step _ fun x hx => ?_
  by_cases hz : x = 0
  · obtain ⟨D', y, e, ht⟩ := (h.tabs.mono (Nat.le_succ f)).removeStnear hN ha
    simp only [if_pos hz]
    refine Rel.ok (c := (D', _)) (y := MapH.remove string u128 D (rootOf H s m).claimable_stnear a >>= fun x => pure (x.1, x.2.1)) (by
      rw [show MapH.remove string u128 D (rootOf H s m).claimable_stnear a = _ from e]; rfl) ?_
    refine Rel.step _ fun t htt => ?_
    exact ⟨rfl, ht, { h.fit with unclaimed_stnear := sub_lt htt h.fit.unclaimed_stnear }⟩
  · obtain ⟨D', e, ht⟩ := h.tabs.insertStnear hN ha (sub_lt hx (h.stnearLt a))
    simp only [if_neg hz]
    refine Rel.ok e ?_
    refine Rel.step _ fun t htt => ?_
    exact ⟨rfl, ht, { h.fit with unclaimed_stnear := sub_lt htt h.fit.unclaimed_stnear }⟩

/-! ## Methods of `lib.rs` -/

theorem Rep.claim_and_lock (hN : N.OK H) (h : Rep H N (f + 3) vl m s D) (c : Ctx) (hc : StrFits c.predecessor) (a p : Nat) :
    Rel (RS H N f vl m) (s.claim_and_lock c a p) (claim_and_lock D (rootOf H s m) c a p) := by
  unfold State.claim_and_lock Bytes.claim_and_lock
  refine Rel.step _ fun _ _ => ?_
  refine (h.removeMpdao hN hc a).bind ?_
  rintro s' ⟨D', r'⟩ - ⟨rfl, h'⟩
  refine h'.or_panic hc fun v _ hm => ?_
  refine (hm.deposit hN a p).bind ?_
  rintro x y - hx
  exact hx.first

theorem Rep.unlock_position (hN : N.OK H) (h : Rep H N (f + 1) vl m s D) (c : Ctx) (hc : StrFits c.predecessor) (hn : c.now < 2 ^ 64)
    {i : Nat} (hi : i < 2 ^ 64) :
    Rel (RS H N f vl m) (s.unlock_position c i) (unlock_position D (rootOf H s m) c i) := by
  unfold State.unlock_position Bytes.unlock_position
  refine h.or_panic hc fun v _ hm => ?_
  refine hm.position hi fun p e he hp => ?_
  refine Rel.step _ fun _ _ => ?_
  obtain ⟨D', e1, h1⟩ := hm.replace hN hi e (p := { p with unlocking_started_at := some c.now })
    ⟨hp.1, hp.2.1, hp.2.2.1, by simpa using hn⟩
  refine Rel.ok e1 ?_
  refine Rel.step _ fun avp havp => ?_
  have h2 := ((h1.scalar h1.bal (sub_lt havp h1.avp)).total
    (Nat.lt_of_le_of_lt (Nat.sub_le s.total_voting_power p.voting_power) h.fit.total)).saved' hN
  have e2 : recOf H c.predecessor { v.replace_position i { p with unlocking_started_at := some c.now } with
      available_voting_power := avp } (vl c.predecessor) =
      { recOf H c.predecessor v (vl c.predecessor) with available_voting_power := avp } := by
    simp [recOf, Voter.replace_position]
  rw [e2] at h2
  exact h2

end Verif.MetaVote.Bytes
