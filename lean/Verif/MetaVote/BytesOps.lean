import Verif.MetaVote.BytesRep

/-!
# Operations on the collections of meta-vote, in bytes and on the tables
-/

namespace Verif.MetaVote.Bytes

open Verif Storage Disk Borsh

variable {H : Hash} {N : Names} {f : Nat} {t : Tab} {D : Disk}

/-- Other tables stay. -/
local macro "others" : tactic => `(tactic| (intro d hd h; cases d <;> first | exact h | exact absurd rfl hd))

/-! ## `voters` -/

theorem At.getVoter (h : At H N f t D) {id : String} (hid : StrFits id) :
    MapH.get string voterRec D (.at (pre H .voters) t.voters.len) id =
      .ok ((t.voters.get id).map fun v => recOf H id v (t.vl id)) := by
  have := (h .voters trivial).1.get (str_ok.2 hid)
  rw [this, UMap.mapE_get]

theorem recOf_ok {id : String} {v : Voter} {n : Nat} (hb : v.balance < 2 ^ 128) (ha : v.available_voting_power < 2 ^ 128)
    (hl : v.locking_positions.length < 2 ^ 64) (hn : n < 2 ^ 64) : voterRec.ok (recOf H id v n) := by
  refine ⟨u128_ok.2 hb, vecH_ok.2 ⟨hl, ?_⟩, u128_ok.2 ha, mapH_ok.2 (mapAt_fits ?_ hn)⟩ <;>
    simp [recOf, pre, prefixOf, Coll.id, H.length]

theorem At.insertVoter (hN : N.OK H) (h : At H N (f + 1) t D) {id : String} (hid : N.voter id) {v : Voter} {n : Nat}
    (hb : v.balance < 2 ^ 128) (ha : v.available_voting_power < 2 ^ 128) (hl : v.locking_positions.length < 2 ^ 64)
    (hn : Room f n) :
    ∃ D', MapH.insert string voterRec D (.at (pre H .voters) t.voters.len) id (recOf H id v n) =
        .ok (D', .at (pre H .voters) (t.voters.insert id v).len) ∧
      At H N f { t with voters := t.voters.insert id v, vl := upd t.vl id n } D' := by
  have h0 := h .voters trivial
  have hlen := h0.2.1
  obtain ⟨D', h', e, hm, fr⟩ := h0.1.insert (by rw [UMap.mapE_len]; exact hlen.lt) (str_ok.2 (hN.voter id hid))
    (recOf_ok (H := H) (id := id) hb ha hl hn.lt)
  have hh : h' = .at (pre H .voters) (t.voters.insert id v).len := by
    rw [hm.1, show recOf H id v n = (fun a w => recOf H a w (upd t.vl id n a)) id v by simp,
      UMap.mapE_insert t.voters (g' := fun a w => recOf H a w (upd t.vl id n a))
        (fun a ha => by simp only [upd_ne _ _ ha]), UMap.mapE_len]
  subst hh
  refine ⟨D', e, h.change hN (c := .voters) trivial fr (Nat.le_succ f) ⟨?_, ?_, ?_⟩ (by others)⟩
  · rw [show recOf H id v n = (fun a w => recOf H a w (upd t.vl id n a)) id v by simp,
      UMap.mapE_insert t.voters (g' := fun a w => recOf H a w (upd t.vl id n a))
        (fun a ha => by simp only [upd_ne _ _ ha])] at hm
    exact hm
  · have := UMap.len_insert_le t.voters id v
    unfold Room at hlen ⊢; show (t.voters.insert id v).len + f < _; omega
  · intro a w hw
    show N.voter a ∧ Room f (upd t.vl id n a)
    by_cases e : a = id
    · subst e; rw [upd_self]; exact ⟨hid, hn⟩
    · rw [upd_ne _ _ e]
      have hw' : t.voters.get a = some w := by
        rw [← UMap.get_insert_ne t.voters v e]; exact hw
      exact ⟨(h0.2.2 a w hw').1, (h0.2.2 a w hw').2.mono (Nat.le_succ f)⟩

theorem At.removeVoter (hN : N.OK H) (h : At H N f t D) {id : String} (hid : StrFits id) :
    ∃ D' x, MapH.remove string voterRec D (.at (pre H .voters) t.voters.len) id =
        .ok (D', .at (pre H .voters) (t.voters.remove id).len, x) ∧
      At H N f { t with voters := t.voters.remove id } D' := by
  have h0 := h .voters trivial
  have hlen := h0.2.1
  obtain ⟨D', h', e, hm, fr⟩ := h0.1.remove (by rw [UMap.mapE_len]; exact hlen.lt.le) (str_ok.2 hid)
  rw [UMap.mapE_remove] at hm
  have hh : h' = .at (pre H .voters) (t.voters.remove id).len := by rw [hm.1, UMap.mapE_len]
  subst hh
  refine ⟨D', _, e, h.change hN (c := .voters) trivial fr (Nat.le_refl f) ⟨hm, ?_, ?_⟩ (by others)⟩
  · have := UMap.len_remove_le t.voters id
    unfold Room at hlen ⊢; show (t.voters.remove id).len + f < _; omega
  · intro a w hw
    change (t.voters.remove id).get a = some w at hw
    rw [UMap.get_remove] at hw
    split at hw
    · cases hw
    · exact h0.2.2 a w hw

/-! ## Positions -/

theorem At.lpOther {f' : Nat} {t : Tab} {id : String} {l : List LockingPosition} {D : Disk} :
    ∀ d, d ≠ Coll.lockingPosition id → TabOK H N f' t D d → TabOK H N f' { t with lp := upd t.lp id l } D d := by
  intro d hd h
  cases d with
  | lockingPosition a =>
    have e : a ≠ id := fun e => hd (by rw [e])
    show IsVec _ _ _ (upd t.lp id l a) ∧ Room _ (upd t.lp id l a).length
    rw [upd_ne _ _ e]; exact h
  | _ => exact h

theorem At.pos (h : At H N f t D) {id : String} (hid : N.voter id) :
    IsVec lockingPosition D (pre H (.lockingPosition id)) (t.lp id) ∧ Room f (t.lp id).length := h (.lockingPosition id) hid

theorem At.setPos (hN : N.OK H) {f' : Nat} (h : At H N f t D) {id : String} (hid : N.voter id) (hf : f' ≤ f) {D' : Disk}
    {l : List LockingPosition} (hv : IsVec lockingPosition D' (pre H (.lockingPosition id)) l)
    (fr : Frame .vector (pre H (.lockingPosition id)) D D') (hl : Room f' l.length) :
    At H N f' { t with lp := upd t.lp id l } D' := by
  refine h.change hN (c := .lockingPosition id) hid fr hf ?_ At.lpOther
  show IsVec _ _ _ (upd t.lp id l id) ∧ Room _ (upd t.lp id l id).length
  rw [upd_self]; exact ⟨hv, hl⟩

/-! ## Maps that were filled from untouched storage -/

theorem At.getMpdao (h : At H N f t D) {k : String} (hk : StrFits k) :
    MapH.get string u128 D (.at (pre H .claimable) t.mpdao.len) k = .ok (t.mpdao.get k) :=
  (h .claimable trivial).1.get (str_ok.2 hk)

theorem At.insertMpdao (hN : N.OK H) (h : At H N (f + 1) t D) {k : String} (hk : StrFits k) {n : Nat} (hn : n < 2 ^ 128) :
    ∃ D', MapH.insert string u128 D (.at (pre H .claimable) t.mpdao.len) k n =
        .ok (D', .at (pre H .claimable) (t.mpdao.insert k n).len) ∧ At H N f { t with mpdao := t.mpdao.insert k n } D' := by
  have h0 := h .claimable trivial
  have hlen := h0.2
  obtain ⟨D', h', e, hm, fr⟩ := h0.1.insert hlen.lt (str_ok.2 hk) (u128_ok.2 hn)
  obtain rfl := hm.1
  refine ⟨D', e, h.change hN (c := .claimable) trivial fr (Nat.le_succ f) ⟨hm, ?_⟩ (by others)⟩
  have := UMap.len_insert_le t.mpdao k n
  unfold Room at hlen ⊢; show (t.mpdao.insert k n).len + f < _; omega

theorem At.removeMpdao (hN : N.OK H) (h : At H N f t D) {k : String} (hk : StrFits k) :
    ∃ D' x, MapH.remove string u128 D (.at (pre H .claimable) t.mpdao.len) k =
        .ok (D', .at (pre H .claimable) (t.mpdao.remove k).len, x) ∧ At H N f { t with mpdao := t.mpdao.remove k } D' := by
  have h0 := h .claimable trivial
  have hlen := h0.2
  obtain ⟨D', h', e, hm, fr⟩ := h0.1.remove hlen.lt.le (str_ok.2 hk)
  obtain rfl := hm.1
  refine ⟨D', _, e, h.change hN (c := .claimable) trivial fr (Nat.le_refl f) ⟨hm, ?_⟩ (by others)⟩
  have := UMap.len_remove_le t.mpdao k
  unfold Room at hlen ⊢; show (t.mpdao.remove k).len + f < _; omega

theorem At.getStnear (h : At H N f t D) {k : String} (hk : StrFits k) :
    MapH.get string u128 D (.at (pre H .claimableStNear) t.stnear.len) k = .ok (t.stnear.get k) :=
  (h .claimableStNear trivial).1.get (str_ok.2 hk)

theorem At.insertStnear (hN : N.OK H) (h : At H N (f + 1) t D) {k : String} (hk : StrFits k) {n : Nat} (hn : n < 2 ^ 128) :
    ∃ D', MapH.insert string u128 D (.at (pre H .claimableStNear) t.stnear.len) k n =
        .ok (D', .at (pre H .claimableStNear) (t.stnear.insert k n).len) ∧
      At H N f { t with stnear := t.stnear.insert k n } D' := by
  have h0 := h .claimableStNear trivial
  have hlen := h0.2
  obtain ⟨D', h', e, hm, fr⟩ := h0.1.insert hlen.lt (str_ok.2 hk) (u128_ok.2 hn)
  obtain rfl := hm.1
  refine ⟨D', e, h.change hN (c := .claimableStNear) trivial fr (Nat.le_succ f) ⟨hm, ?_⟩ (by others)⟩
  have := UMap.len_insert_le t.stnear k n
  unfold Room at hlen ⊢; show (t.stnear.insert k n).len + f < _; omega

theorem At.removeStnear (hN : N.OK H) (h : At H N f t D) {k : String} (hk : StrFits k) :
    ∃ D' x, MapH.remove string u128 D (.at (pre H .claimableStNear) t.stnear.len) k =
        .ok (D', .at (pre H .claimableStNear) (t.stnear.remove k).len, x) ∧
      At H N f { t with stnear := t.stnear.remove k } D' := by
  have h0 := h .claimableStNear trivial
  have hlen := h0.2
  obtain ⟨D', h', e, hm, fr⟩ := h0.1.remove hlen.lt.le (str_ok.2 hk)
  obtain rfl := hm.1
  refine ⟨D', _, e, h.change hN (c := .claimableStNear) trivial fr (Nat.le_refl f) ⟨hm, ?_⟩ (by others)⟩
  have := UMap.len_remove_le t.stnear k
  unfold Room at hlen ⊢; show (t.stnear.remove k).len + f < _; omega

theorem At.getData (h : At H N f t D) {k : String} (hk : StrFits k) :
    MapH.get string string D (.at (pre H .airdropData) t.data.len) k = .ok (t.data.get k) :=
  (h .airdropData trivial).1.get (str_ok.2 hk)

theorem At.insertData (hN : N.OK H) (h : At H N (f + 1) t D) {k : String} (hk : StrFits k) {d : String} (hd : StrFits d) :
    ∃ D', MapH.insert string string D (.at (pre H .airdropData) t.data.len) k d =
        .ok (D', .at (pre H .airdropData) (t.data.insert k d).len) ∧ At H N f { t with data := t.data.insert k d } D' := by
  have h0 := h .airdropData trivial
  have hlen := h0.2
  obtain ⟨D', h', e, hm, fr⟩ := h0.1.insert hlen.lt (str_ok.2 hk) (str_ok.2 hd)
  obtain rfl := hm.1
  refine ⟨D', e, h.change hN (c := .airdropData) trivial fr (Nat.le_succ f) ⟨hm, ?_⟩ (by others)⟩
  have := UMap.len_insert_le t.data k d
  unfold Room at hlen ⊢; show (t.data.insert k d).len + f < _; omega

/-! ## Delegations -/

theorem At.getDele (h : At H N f t D) {k : String} (hk : StrFits k) :
    MapH.get string addresses D (.at (pre H .evmDelegates) t.dele.len) k = .ok (t.dele.get k) :=
  (h .evmDelegates trivial).1.get (str_ok.2 hk)

theorem addresses_ok {l : List String} (hl : l.length < 2 ^ 32) (hs : ∀ a ∈ l, StrFits a) : addresses.ok l :=
  ⟨by rw [show (256 : Nat) ^ 4 = 2 ^ 32 from rfl]; exact hl, fun a ha => str_ok.2 (hs a ha)⟩

/-- The addresses that are stored. -/
theorem At.deleFits (h : At H N f t D) {k : String} {l : List String} (hl : t.dele.get k = some l) :
    Room f l.length ∧ ∀ a ∈ l, StrFits a := by
  obtain ⟨⟨-, ok, -⟩, -, h2⟩ := h .evmDelegates trivial
  exact ⟨h2 k l hl, fun a ha => str_ok.1 ((ok _ (UMap.get_eq_some_iff.1 hl)).2.2 a ha)⟩

theorem At.insertDele (hN : N.OK H) (h : At H N (f + 1) t D) {k : String} (hk : StrFits k) {l : List String}
    (hl : Room f l.length) (hs : ∀ a ∈ l, StrFits a) :
    ∃ D', MapH.insert string addresses D (.at (pre H .evmDelegates) t.dele.len) k l =
        .ok (D', .at (pre H .evmDelegates) (t.dele.insert k l).len) ∧ At H N f { t with dele := t.dele.insert k l } D' := by
  have h0 := h .evmDelegates trivial
  have hlen := h0.2.1
  obtain ⟨D', h', e, hm, fr⟩ := h0.1.insert hlen.lt (str_ok.2 hk)
    (addresses_ok (by unfold Room at hl; omega) hs)
  obtain rfl := hm.1
  refine ⟨D', e, h.change hN (c := .evmDelegates) trivial fr (Nat.le_succ f) ⟨hm, ?_, ?_⟩ (by others)⟩
  · have := UMap.len_insert_le t.dele k l
    unfold Room at hlen ⊢; show (t.dele.insert k l).len + f < _; omega
  · intro a w hw
    change (t.dele.insert k l).get a = some w at hw
    rw [UMap.get_insert] at hw
    split at hw
    · cases hw; exact hl
    · exact (h0.2.2 a w hw).mono (Nat.le_succ f)

theorem At.removeDele (hN : N.OK H) (h : At H N f t D) {k : String} (hk : StrFits k) :
    ∃ D' x, MapH.remove string addresses D (.at (pre H .evmDelegates) t.dele.len) k =
        .ok (D', .at (pre H .evmDelegates) (t.dele.remove k).len, x) ∧ At H N f { t with dele := t.dele.remove k } D' := by
  have h0 := h .evmDelegates trivial
  have hlen := h0.2.1
  obtain ⟨D', h', e, hm, fr⟩ := h0.1.remove hlen.lt.le (str_ok.2 hk)
  obtain rfl := hm.1
  refine ⟨D', _, e, h.change hN (c := .evmDelegates) trivial fr (Nat.le_refl f) ⟨hm, ?_, ?_⟩ (by others)⟩
  · have := UMap.len_remove_le t.dele k
    unfold Room at hlen ⊢; show (t.dele.remove k).len + f < _; omega
  · intro a w hw
    change (t.dele.remove k).get a = some w at hw
    rw [UMap.get_remove] at hw
    split at hw
    · cases hw
    · exact h0.2.2 a w hw

theorem At.getSigs (h : At H N f t D) {k : String} (hk : StrFits k) :
    LookupH.get string delegation D ⟨pre H .evmDelegationSignatures⟩ k = .ok (t.sigs.get k) :=
  IsLook.get (h .evmDelegationSignatures trivial) (str_ok.2 hk)

theorem At.sigsFits (h : At H N f t D) {k : String} {x : String × String} (hx : t.sigs.get k = some x) :
    StrFits x.1 ∧ StrFits x.2 := by
  have := IsLook.ok (h .evmDelegationSignatures trivial) k x hx
  exact ⟨str_ok.1 this.1, str_ok.1 this.2⟩

theorem At.insertSigs (hN : N.OK H) (h : At H N f t D) {k : String} (hk : StrFits k) {x : String × String}
    (h1 : StrFits x.1) (h2 : StrFits x.2) :
    At H N f { t with sigs := t.sigs.insert k x } (LookupH.insert string delegation D ⟨pre H .evmDelegationSignatures⟩ k x) := by
  have h0 := h .evmDelegationSignatures trivial
  obtain ⟨hm, fr⟩ := IsLook.insert h0 (str_ok.2 hk) (v := x) ⟨str_ok.2 h1, str_ok.2 h2⟩
  exact h.change hN (c := .evmDelegationSignatures) trivial fr (Nat.le_refl f) hm (by others)

theorem At.removeSigs (hN : N.OK H) (h : At H N f t D) {k : String} (hk : StrFits k) :
    At H N f { t with sigs := t.sigs.remove k } (LookupH.remove string D ⟨pre H .evmDelegationSignatures⟩ k) := by
  have h0 := h .evmDelegationSignatures trivial
  obtain ⟨hm, fr⟩ := IsLook.remove h0 (str_ok.2 hk)
  exact h.change hN (c := .evmDelegationSignatures) trivial fr (Nat.le_refl f) hm (by others)

theorem At.getPres (h : At H N f t D) {k : String} (hk : StrFits k) :
    LookupH.get string delegation D ⟨pre H .evmPreDelegation⟩ k = .ok (t.pres.get k) :=
  IsLook.get (h .evmPreDelegation trivial) (str_ok.2 hk)

theorem At.presFits (h : At H N f t D) {k : String} {x : String × String} (hx : t.pres.get k = some x) :
    StrFits x.1 ∧ StrFits x.2 := by
  have := IsLook.ok (h .evmPreDelegation trivial) k x hx
  exact ⟨str_ok.1 this.1, str_ok.1 this.2⟩

theorem At.insertPres (hN : N.OK H) (h : At H N f t D) {k : String} (hk : StrFits k) {x : String × String}
    (h1 : StrFits x.1) (h2 : StrFits x.2) :
    At H N f { t with pres := t.pres.insert k x } (LookupH.insert string delegation D ⟨pre H .evmPreDelegation⟩ k x) := by
  have h0 := h .evmPreDelegation trivial
  obtain ⟨hm, fr⟩ := IsLook.insert h0 (str_ok.2 hk) (v := x) ⟨str_ok.2 h1, str_ok.2 h2⟩
  exact h.change hN (c := .evmPreDelegation) trivial fr (Nat.le_refl f) hm (by others)

theorem At.removePres (hN : N.OK H) (h : At H N f t D) {k : String} (hk : StrFits k) :
    At H N f { t with pres := t.pres.remove k } (LookupH.remove string D ⟨pre H .evmPreDelegation⟩ k) := by
  have h0 := h .evmPreDelegation trivial
  obtain ⟨hm, fr⟩ := IsLook.remove h0 (str_ok.2 hk)
  exact h.change hN (c := .evmPreDelegation) trivial fr (Nat.le_refl f) hm (by others)

/-! ## Vote maps -/

theorem At.getVotes (h : At H N f t D) {a : String} (ha : StrFits a) :
    MapH.get string mapH D (.at (pre H .votes) t.mem.vt.len) a =
      .ok ((t.mem.vt.get a).map fun n => .at (pre H (.contractVotes a)) n) := by
  have := (h .votes trivial).1.get (str_ok.2 ha)
  rw [this, UMap.mapE_get]

theorem At.votesFits (h : At H N f t D) {a : String} {n : Nat} (hn : t.mem.vt.get a = some n) : Room f n :=
  ((h .votes trivial).2.2 a n hn).2

theorem At.insertVotes (hN : N.OK H) (h : At H N (f + 1) t D) {a : String} (ha : N.app a) {n : Nat} (hn : Room f n) :
    ∃ D', MapH.insert string mapH D (.at (pre H .votes) t.mem.vt.len) a (.at (pre H (.contractVotes a)) n) =
        .ok (D', .at (pre H .votes) (t.mem.vt.insert a n).len) ∧
      At H N f { t with mem := { t.mem with vt := t.mem.vt.insert a n } } D' := by
  have h0 := h .votes trivial
  have hlen := h0.2.1
  have hok : mapH.ok (.at (pre H (.contractVotes a)) n) :=
    mapH_ok.2 (mapAt_fits (by simp [pre, prefixOf, Coll.id, H.length]) hn.lt)
  obtain ⟨D', h', e, hm, fr⟩ := h0.1.insert (by rw [UMap.mapE_len]; exact hlen.lt) (str_ok.2 (hN.app a ha)) hok
  have hi := UMap.mapE_insert t.mem.vt (g := fun a n => MapH.at (pre H (.contractVotes a)) n)
    (g' := fun a n => MapH.at (pre H (.contractVotes a)) n) (k := a) (fun _ _ => rfl) n
  beta_reduce at hi
  rw [hi] at hm
  have hh : h' = .at (pre H .votes) (t.mem.vt.insert a n).len := by rw [hm.1, UMap.mapE_len]
  subst hh
  refine ⟨D', e, h.change hN (c := .votes) trivial fr (Nat.le_succ f) ⟨hm, ?_, ?_⟩ (by others)⟩
  · have := UMap.len_insert_le t.mem.vt a n
    unfold Room at hlen ⊢; show (t.mem.vt.insert a n).len + f < _; omega
  · intro b w hw
    change (t.mem.vt.insert a n).get b = some w at hw
    rw [UMap.get_insert] at hw
    split at hw
    · rename_i e; cases hw; subst e; exact ⟨ha, hn⟩
    · exact ⟨(h0.2.2 b w hw).1, (h0.2.2 b w hw).2.mono (Nat.le_succ f)⟩

/-- A value that is replaced takes no room. -/
theorem At.replaceVotes (hN : N.OK H) (h : At H N f t D) {a : String} (ha : N.app a) {n : Nat} (hn : Room f n)
    (hs : (t.mem.vt.get a).isSome) :
    ∃ D', MapH.insert string mapH D (.at (pre H .votes) t.mem.vt.len) a (.at (pre H (.contractVotes a)) n) =
        .ok (D', .at (pre H .votes) (t.mem.vt.insert a n).len) ∧
      At H N f { t with mem := { t.mem with vt := t.mem.vt.insert a n } } D' := by
  have h0 := h .votes trivial
  have hlen := h0.2.1
  have hok : mapH.ok (.at (pre H (.contractVotes a)) n) :=
    mapH_ok.2 (mapAt_fits (by simp [pre, prefixOf, Coll.id, H.length]) hn.lt)
  obtain ⟨D', h', e, hm, fr⟩ := h0.1.insert (by rw [UMap.mapE_len]; exact hlen.lt) (str_ok.2 (hN.app a ha)) hok
  have hi := UMap.mapE_insert t.mem.vt (g := fun a n => MapH.at (pre H (.contractVotes a)) n)
    (g' := fun a n => MapH.at (pre H (.contractVotes a)) n) (k := a) (fun _ _ => rfl) n
  beta_reduce at hi
  rw [hi] at hm
  have hh : h' = .at (pre H .votes) (t.mem.vt.insert a n).len := by rw [hm.1, UMap.mapE_len]
  subst hh
  refine ⟨D', e, h.change hN (c := .votes) trivial fr (Nat.le_refl f) ⟨hm, ?_, ?_⟩ (by others)⟩
  · have := UMap.len_insert t.mem.vt a n
    rw [if_pos hs] at this
    unfold Room at hlen ⊢; show (t.mem.vt.insert a n).len + f < _; omega
  · intro b w hw
    change (t.mem.vt.insert a n).get b = some w at hw
    rw [UMap.get_insert] at hw
    split at hw
    · rename_i e; cases hw; subst e; exact ⟨ha, hn⟩
    · exact h0.2.2 b w hw

theorem At.removeVotes (hN : N.OK H) (h : At H N f t D) {a : String} (ha : StrFits a) :
    ∃ D' x, MapH.remove string mapH D (.at (pre H .votes) t.mem.vt.len) a =
        .ok (D', .at (pre H .votes) (t.mem.vt.remove a).len, x) ∧
      At H N f { t with mem := { t.mem with vt := t.mem.vt.remove a } } D' := by
  have h0 := h .votes trivial
  have hlen := h0.2.1
  obtain ⟨D', h', e, hm, fr⟩ := h0.1.remove (by rw [UMap.mapE_len]; exact hlen.lt.le) (str_ok.2 ha)
  rw [UMap.mapE_remove] at hm
  have hh : h' = .at (pre H .votes) (t.mem.vt.remove a).len := by rw [hm.1, UMap.mapE_len]
  subst hh
  refine ⟨D', _, e, h.change hN (c := .votes) trivial fr (Nat.le_refl f) ⟨hm, ?_, ?_⟩ (by others)⟩
  · have := UMap.len_remove_le t.mem.vt a
    unfold Room at hlen ⊢; show (t.mem.vt.remove a).len + f < _; omega
  · intro b w hw
    change (t.mem.vt.remove a).get b = some w at hw
    rw [UMap.get_remove] at hw
    split at hw
    · cases hw
    · exact h0.2.2 b w hw

theorem At.cv (h : At H N f t D) {a : String} (ha : N.app a) : TLike amounts D (pre H (.contractVotes a)) (t.mem.cv a) :=
  h (.contractVotes a) ha

theorem At.setCv (hN : N.OK H) (h : At H N f t D) {a : String} (ha : N.app a) {D' : Disk} {C : Cells String Nat}
    (hv : TLike amounts D' (pre H (.contractVotes a)) C) (fr : Frame .map (pre H (.contractVotes a)) D D') :
    At H N f { t with mem := { t.mem with cv := upd t.mem.cv a C } } D' := by
  refine h.change hN (c := .contractVotes a) ha fr (Nat.le_refl f) ?_ ?_
  · show TLike _ _ _ (upd t.mem.cv a C a)
    rw [upd_self]; exact hv
  · intro d hd h
    cases d with
    | contractVotes b =>
      have e : b ≠ a := fun e => hd (by rw [e])
      show TLike _ _ _ (upd t.mem.cv a C b)
      rw [upd_ne _ _ e]; exact h
    | _ => exact h

theorem At.vv (h : At H N f t D) {x : String} (hx : N.U (.voterVotes x)) :
    TLike amounts D (pre H (.voterVotes x)) (t.mem.vv x) := h (.voterVotes x) hx

theorem At.setVv (hN : N.OK H) (h : At H N f t D) {x : String} (hx : N.U (.voterVotes x)) {D' : Disk} {C : Cells String Nat}
    (hv : TLike amounts D' (pre H (.voterVotes x)) C) (fr : Frame .map (pre H (.voterVotes x)) D D') :
    At H N f { t with mem := { t.mem with vv := upd t.mem.vv x C } } D' := by
  refine h.change hN (c := .voterVotes x) hx fr (Nat.le_refl f) ?_ ?_
  · show TLike _ _ _ (upd t.mem.vv x C x)
    rw [upd_self]; exact hv
  · intro d hd h
    cases d with
    | voterVotes y =>
      have e : y ≠ x := fun e => hd (by rw [e])
      show TLike _ _ _ (upd t.mem.vv x C y)
      rw [upd_ne _ _ e]; exact h
    | _ => exact h

theorem At.vp (h : At H N f t D) {id : String} (hid : N.voter id) :
    TLike (handles H N f) D (pre H (.votePosition id)) (t.mem.vp id) := h (.votePosition id) hid

theorem At.setVp (hN : N.OK H) (h : At H N f t D) {id : String} (hid : N.voter id) {D' : Disk} {C : Cells String Handle}
    (hv : TLike (handles H N f) D' (pre H (.votePosition id)) C) (fr : Frame .map (pre H (.votePosition id)) D D') :
    At H N f { t with mem := { t.mem with vp := upd t.mem.vp id C } } D' := by
  refine h.change hN (c := .votePosition id) hid fr (Nat.le_refl f) ?_ ?_
  · show TLike _ _ _ (upd t.mem.vp id C id)
    rw [upd_self]; exact hv
  · intro d hd h
    cases d with
    | votePosition y =>
      have e : y ≠ id := fun e => hd (by rw [e])
      show TLike _ _ _ (upd t.mem.vp id C y)
      rw [upd_ne _ _ e]; exact h
    | _ => exact h

end Verif.MetaVote.Bytes
