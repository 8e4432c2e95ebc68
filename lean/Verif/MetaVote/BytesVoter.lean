import Verif.MetaVote.BytesOps

/-!
# Records and positions of voters, in bytes and in the state
-/

namespace Verif.MetaVote.Bytes

open Verif Storage Disk Borsh

/-- Positions of the registered voters. -/
def lpOf (s : State) (id : String) : List LockingPosition := ((s.voters.get id).getD Voter.new).locking_positions

/-- The tables of a state; `vl` and `m` are the vote maps, `lp` the positions in storage. -/
def tabOf (s : State) (vl : String → Nat) (m : Mem) (lp : String → List LockingPosition) : Tab :=
  ⟨s.voters, vl, lp, m, s.claimable_mpdao, s.claimable_stnear, s.associated_user_data, s.evm_delegates,
    s.evm_delegation_signatures, s.evm_pre_delegation⟩

/-- The record of a state. -/
def rootOf (H : Hash) (s : State) (m : Mem) : StateRec where
  owner_id := s.owner_id
  operator_id := s.operator_id
  voters := .at (pre H .voters) s.voters.len
  votes := .at (pre H .votes) m.vt.len
  min_unbond_period := s.min_unbond_period
  max_unbond_period := s.max_unbond_period
  min_deposit_amount := s.min_deposit_amount
  max_locking_positions := s.max_locking_positions
  max_voting_positions := s.max_voting_positions
  mpdao_token_contract_address := s.mpdao_token_contract_address
  total_voting_power := s.total_voting_power
  claimable_mpdao := .at (pre H .claimable) s.claimable_mpdao.len
  accumulated_mpdao_distributed_for_claims := s.accumulated_mpdao_distributed_for_claims
  total_unclaimed_mpdao := s.total_unclaimed_mpdao
  stnear_token_contract_address := s.stnear_token_contract_address
  claimable_stnear := .at (pre H .claimableStNear) s.claimable_stnear.len
  accum_distributed_stnear_for_claims := s.accum_distributed_stnear_for_claims
  total_unclaimed_stnear := s.total_unclaimed_stnear
  registration_cost := s.registration_cost
  associated_user_data := .at (pre H .airdropData) s.associated_user_data.len
  prev_governance_contract := s.prev_governance_contract
  evm_delegates := .at (pre H .evmDelegates) s.evm_delegates.len
  evm_pre_delegation := ⟨pre H .evmPreDelegation⟩
  evm_delegation_signatures := ⟨pre H .evmDelegationSignatures⟩
  lock_votes_in_end_timestamp_ms := s.lock_votes_in_end_timestamp_ms
  lock_votes_in_address := s.lock_votes_in_address
  lock_votes_in_numeric_id := s.lock_votes_in_numeric_id

/-- Numbers and strings of the record are of their types. -/
structure RFit (s : State) : Prop where
  owner_id : StrFits s.owner_id
  operator_id : StrFits s.operator_id
  min_unbond_period : s.min_unbond_period < 2 ^ 16
  max_unbond_period : s.max_unbond_period < 2 ^ 16
  min_deposit_amount : s.min_deposit_amount < 2 ^ 128
  max_locking_positions : s.max_locking_positions < 2 ^ 8
  max_voting_positions : s.max_voting_positions < 2 ^ 8
  mpdao : StrFits s.mpdao_token_contract_address
  total : s.total_voting_power < 2 ^ 128
  accumulated_mpdao : s.accumulated_mpdao_distributed_for_claims < 2 ^ 128
  unclaimed_mpdao : s.total_unclaimed_mpdao < 2 ^ 128
  stnear : StrFits s.stnear_token_contract_address
  accumulated_stnear : s.accum_distributed_stnear_for_claims < 2 ^ 128
  unclaimed_stnear : s.total_unclaimed_stnear < 2 ^ 128
  registration_cost : s.registration_cost < 2 ^ 128
  prev_gov : StrFits s.prev_governance_contract
  lock_end : s.lock_votes_in_end_timestamp_ms < 2 ^ 64
  lock_address : ∀ a, s.lock_votes_in_address = some a → StrFits a
  lock_id : s.lock_votes_in_numeric_id < 2 ^ 16

/-- Between calls: the storage is the state. -/
structure Rep (H : Hash) (N : Names) (f : Nat) (vl : String → Nat) (m : Mem) (s : State) (D : Disk) : Prop where
  tabs : At H N f (tabOf s vl m (lpOf s)) D
  fit : RFit s

/-- Within a call: the voter `v` was read and is not yet written, its positions are in storage. -/
structure Mid (H : Hash) (N : Names) (f : Nat) (vl : String → Nat) (m : Mem) (id : String) (s : State) (v : Voter) (n : Nat)
    (D : Disk) : Prop where
  tabs : At H N f (tabOf s vl m (upd (lpOf s) id v.locking_positions)) D
  fit : RFit s
  bal : v.balance < 2 ^ 128
  avp : v.available_voting_power < 2 ^ 128
  vid : N.voter id
  room : Room f n

/-- Results of methods. -/
def RS (H : Hash) (N : Names) (f : Nat) (vl : String → Nat) (m : Mem) (s : State) (b : Disk × StateRec) : Prop :=
  b.2 = rootOf H s m ∧ Rep H N f vl m s b.1

def RV (H : Hash) (N : Names) (f : Nat) (vl : String → Nat) (m : Mem) (id : String) (n : Nat) (a : State × Voter)
    (b : Disk × StateRec × VoterRec) : Prop :=
  b.2.1 = rootOf H a.1 m ∧ b.2.2 = recOf H id a.2 n ∧ Mid H N f vl m id a.1 a.2 n b.1

variable {H : Hash} {N : Names} {f f' : Nat} {vl : String → Nat} {m : Mem} {s : State} {D : Disk} {id : String} {v : Voter}
  {n : Nat}

theorem Rep.mono (h : Rep H N f vl m s D) (hf : f' ≤ f) : Rep H N f' vl m s D := ⟨h.tabs.mono hf, h.fit⟩

theorem Mid.mono (h : Mid H N f vl m id s v n D) (hf : f' ≤ f) : Mid H N f' vl m id s v n D :=
  ⟨h.tabs.mono hf, h.fit, h.bal, h.avp, h.vid, h.room.mono hf⟩

theorem lt_of_max {n : Nat} (h : n ≤ U128_MAX) : n < 2 ^ 128 := by unfold U128_MAX at h; omega

theorem add_lt {a b x : Nat} (h : addU128 a b = .ok x) : x < 2 ^ 128 := by
  obtain ⟨h1, rfl⟩ := addU128_ok_iff.1 h
  exact lt_of_max h1

theorem mul_lt {a b x : Nat} (h : mulU128 a b = .ok x) : x < 2 ^ 128 := by
  obtain ⟨h1, rfl⟩ := mulU128_ok_iff.1 h
  exact lt_of_max h1

theorem sub_lt {a b x : Nat} (h : subU a b = .ok x) (ha : a < 2 ^ 128) : x < 2 ^ 128 := by
  obtain ⟨h1, rfl⟩ := subU_ok_iff.1 h
  omega

theorem upd_same {α β : Type} [DecidableEq α] (g : α → β) (a : α) : upd g a (g a) = g := by
  funext x
  by_cases e : x = a
  · subst e; simp
  · rw [upd_ne _ _ e]

theorem upd_upd {α β : Type} [DecidableEq α] (g : α → β) (a : α) (x y : β) : upd (upd g a x) a y = upd g a y := by
  funext z
  by_cases e : z = a
  · subst e; simp
  · rw [upd_ne _ _ e, upd_ne _ _ e, upd_ne _ _ e]

theorem lpOf_insert (s : State) (vs : UMap String Voter) (id : String) (v : Voter) (hs : vs = s.voters.insert id v) :
    lpOf { s with voters := vs } = upd (lpOf s) id v.locking_positions := by
  subst hs
  funext a
  unfold lpOf
  by_cases e : a = id
  · subst e; simp
  · rw [upd_ne _ _ e]
    show ((s.voters.insert id v).get a |>.getD Voter.new).locking_positions = _
    rw [UMap.get_insert_ne _ _ e]

theorem lpOf_remove (s : State) (vs : UMap String Voter) (id : String) (hs : vs = s.voters.remove id) :
    lpOf { s with voters := vs } = upd (lpOf s) id [] := by
  subst hs
  funext a
  unfold lpOf
  by_cases e : a = id
  · subst e; simp [Voter.new]
  · rw [upd_ne _ _ e]
    show ((s.voters.remove id).get a |>.getD Voter.new).locking_positions = _
    rw [UMap.get_remove_ne _ e]

/-! ## Reading a voter -/

theorem Rep.toMid (h : Rep H N f vl m s D) (hid : N.voter id) (hl : v.locking_positions = lpOf s id) (hb : v.balance < 2 ^ 128)
    (ha : v.available_voting_power < 2 ^ 128) (hn : Room f n) : Mid H N f vl m id s v n D := by
  refine ⟨?_, h.fit, hb, ha, hid, hn⟩
  rw [hl, upd_same]; exact h.tabs

theorem Rep.voterFits (h : Rep H N f vl m s D) (hv : s.voters.get id = some v) :
    v.balance < 2 ^ 128 ∧ v.available_voting_power < 2 ^ 128 ∧ Room f (vl id) ∧ N.voter id := by
  obtain ⟨⟨-, ok, -⟩, -, h2⟩ := h.tabs .voters trivial
  have hg : (s.voters.mapE fun id v => recOf H id v (vl id)).get id = some (recOf H id v (vl id)) := by
    rw [UMap.mapE_get, hv]; rfl
  have := (ok _ (UMap.get_eq_some_iff.1 hg)).2
  exact ⟨u128_ok.1 this.1, u128_ok.1 this.2.2.1, (h2 id v hv).2, (h2 id v hv).1⟩

theorem Rep.voter (h : Rep H N f vl m s D) (hv : s.voters.get id = some v) : Mid H N f vl m id s v (vl id) D := by
  obtain ⟨h1, h2, h3, h4⟩ := h.voterFits hv
  exact h.toMid h4 (by simp [lpOf, hv]) h1 h2 h3

theorem Rep.get_or_panic (h : Rep H N f vl m s D) (hid : StrFits id) :
    internal_get_voter_or_panic D (rootOf H s m) id =
      (s.internal_get_voter_or_panic id).map (fun v => recOf H id v (vl id)) := by
  unfold internal_get_voter_or_panic State.internal_get_voter_or_panic
  rw [show MapH.get string voterRec D (rootOf H s m).voters id = _ from h.tabs.getVoter hid]
  show expect ((s.voters.get id).map _) _ = _
  cases s.voters.get id <;> rfl

theorem ok_of_or_panic (h : s.internal_get_voter_or_panic id = .ok v) : s.voters.get id = some v := by
  unfold State.internal_get_voter_or_panic expect at h
  split at h
  · rename_i e; cases h; exact e
  · cases h

/-- Reading a voter that must be registered, on both sides. -/
theorem Rep.or_panic {γ δ : Type} {S : γ → δ → Prop} (h : Rep H N f vl m s D) (hid : StrFits id) {F : Voter → Res γ}
    {G : VoterRec → Res δ}
    (hf : ∀ v, s.voters.get id = some v → Mid H N f vl m id s v (vl id) D → Rel S (F v) (G (recOf H id v (vl id)))) :
    Rel S (s.internal_get_voter_or_panic id >>= F) (internal_get_voter_or_panic D (rootOf H s m) id >>= G) := by
  rw [h.get_or_panic hid]
  exact Rel.map _ _ fun v hv => hf v (ok_of_or_panic hv) (h.voter (ok_of_or_panic hv))

theorem recOf_new : recOf H id Voter.new 0 = newVoter H id := rfl

/-- Reading a voter, or a new one. -/
theorem Rep.get_voter (h : Rep H N f vl m s D) (hN : N.OK H) (hid : N.voter id) (hz : s.voters.get id = none → vl id = 0)
    (hf : Room f 0) :
    internal_get_voter H D (rootOf H s m) id = .ok (recOf H id (s.internal_get_voter id) (vl id)) ∧
      Mid H N f vl m id s (s.internal_get_voter id) (vl id) D := by
  have e : MapH.get string voterRec D (rootOf H s m).voters id = _ := h.tabs.getVoter (hN.voter id hid)
  unfold internal_get_voter State.internal_get_voter
  rw [e]
  show (Except.ok (((s.voters.get id).map _).getD _) : Res VoterRec) = _ ∧ _
  cases hv : s.voters.get id with
  | some v => exact ⟨rfl, h.voter hv⟩
  | none =>
    have hz := hz hv
    refine ⟨?_, ?_⟩
    · show Except.ok (newVoter H id) = Except.ok (recOf H id Voter.new (vl id))
      rw [hz]; rfl
    · refine h.toMid hid (by simp [lpOf, hv]) (by decide) (by decide) ?_
      rw [hz]; exact hf

/-! ## Writing a voter -/

theorem Mid.save (hN : N.OK H) (h : Mid H N (f + 1) vl m id s v n D) :
    ∃ D', insert_voter D (rootOf H s m) id (recOf H id v n) =
        .ok (D', rootOf H { s with voters := s.voters.insert id v } m) ∧
      Rep H N f (upd vl id n) m { s with voters := s.voters.insert id v } D' := by
  have hl := (h.tabs.pos h.vid).2
  change Room _ (upd (lpOf s) id v.locking_positions id).length at hl
  rw [upd_self] at hl
  obtain ⟨D', e, ht⟩ := h.tabs.insertVoter hN h.vid h.bal h.avp hl.lt (h.room.mono (Nat.le_succ f))
  refine ⟨D', ?_, ?_, ?_⟩
  · unfold insert_voter
    rw [show MapH.insert string voterRec D (rootOf H s m).voters id (recOf H id v n) = _ from e]
    rfl
  · rw [lpOf_insert s _ id v rfl]; exact ht
  · exact { h.fit with }

/-- The end of most methods. -/
theorem Mid.saved (hN : N.OK H) (h : Mid H N (f + 1) vl m id s v n D) :
    Rel (RS H N f (upd vl id n) m) (pure { s with voters := s.voters.insert id v })
      (insert_voter D (rootOf H s m) id (recOf H id v n)) := by
  obtain ⟨D', e, hr⟩ := h.save hN
  rw [e]
  exact ⟨rfl, hr⟩

theorem Mid.saved' (hN : N.OK H) (h : Mid H N (f + 1) vl m id s v (vl id) D) :
    Rel (RS H N f vl m) (pure { s with voters := s.voters.insert id v })
      (insert_voter D (rootOf H s m) id (recOf H id v (vl id))) := by
  have := h.saved hN
  rwa [upd_same] at this

/-! ## Positions -/

theorem positionOk {p : LockingPosition} : lockingPosition.ok p ↔ PositionFits p :=
  and_congr u128_ok (and_congr u16_ok (and_congr u128_ok (option_ok.trans (by simp only [u64_ok]))))

theorem Mid.vec (h : Mid H N f vl m id s v n D) :
    IsVec lockingPosition D (pre H (.lockingPosition id)) v.locking_positions ∧ Room f v.locking_positions.length := by
  have := h.tabs.pos h.vid
  change IsVec _ _ _ (upd (lpOf s) id v.locking_positions id) ∧ Room _ (upd (lpOf s) id v.locking_positions id).length at this
  rwa [upd_self] at this

theorem Mid.fits (h : Mid H N f vl m id s v n D) {p : LockingPosition} (hp : p ∈ v.locking_positions) : PositionFits p :=
  positionOk.1 (h.vec.1.ok p hp)

theorem Mid.setVec (hN : N.OK H) (h : Mid H N f vl m id s v n D) (hf : f' ≤ f) {D' : Disk} {v' : Voter}
    (hv : IsVec lockingPosition D' (pre H (.lockingPosition id)) v'.locking_positions)
    (fr : Frame .vector (pre H (.lockingPosition id)) D D') (hl : Room f' v'.locking_positions.length)
    (hb : v'.balance < 2 ^ 128) (ha : v'.available_voting_power < 2 ^ 128) : Mid H N f' vl m id s v' n D' := by
  refine ⟨?_, h.fit, hb, ha, h.vid, h.room.mono hf⟩
  have := h.tabs.setPos hN h.vid hf hv fr hl
  have e : upd (lpOf s) id v'.locking_positions = upd (upd (lpOf s) id v.locking_positions) id v'.locking_positions :=
    (upd_upd _ _ _ _).symm
  rw [e]
  exact this

theorem Mid.get_position (h : Mid H N f vl m id s v n D) {i : Nat} (hi : i < 2 ^ 64) :
    get_position D (recOf H id v n) i = v.get_position i := by
  unfold Bytes.get_position Voter.get_position
  rw [show VecH.get lockingPosition D (recOf H id v n).locking_positions i = _ from h.vec.1.get hi]
  rfl

theorem mem_of_get {i : Nat} {p : LockingPosition} (h : v.get_position i = .ok p) :
    ∃ e : i < v.locking_positions.length, v.locking_positions[i] = p := by
  unfold Voter.get_position expect at h
  split at h
  · rename_i e; cases h
    obtain ⟨h1, h2⟩ := List.getElem?_eq_some_iff.1 e
    exact ⟨h1, h2⟩
  · cases h

/-- Reading a position, on both sides. -/
theorem Mid.position {γ δ : Type} {S : γ → δ → Prop} (h : Mid H N f vl m id s v n D) {i : Nat} (hi : i < 2 ^ 64)
    {F : LockingPosition → Res γ} {G : LockingPosition → Res δ}
    (hf : ∀ p, (e : i < v.locking_positions.length) → v.locking_positions[i] = p → PositionFits p → Rel S (F p) (G p)) :
    Rel S (v.get_position i >>= F) (Bytes.get_position D (recOf H id v n) i >>= G) := by
  rw [h.get_position hi]
  refine Rel.step _ fun p hp => ?_
  obtain ⟨e, he⟩ := mem_of_get hp
  exact hf p e he (h.fits (he ▸ List.getElem_mem e))

theorem Mid.replace (hN : N.OK H) (h : Mid H N f vl m id s v n D) {i : Nat} (hi : i < 2 ^ 64)
    (e : i < v.locking_positions.length) {p : LockingPosition} (hp : PositionFits p) :
    ∃ D', replace_position D (recOf H id v n) i p = .ok D' ∧ Mid H N f vl m id s (v.replace_position i p) n D' := by
  obtain ⟨D', h1, h2, h3⟩ := h.vec.1.replace hi e (positionOk.2 hp)
  refine ⟨D', h1, h.setVec hN (Nat.le_refl f) h2 h3 ?_ h.bal h.avp⟩
  have := h.vec.2
  simpa [Voter.replace_position] using this

theorem recOf_replace (i : Nat) (p : LockingPosition) : recOf H id (v.replace_position i p) n = recOf H id v n := by
  simp [recOf, Voter.replace_position]

theorem Mid.remove (hN : N.OK H) (h : Mid H N f vl m id s v n D) {i : Nat} (hi : i < 2 ^ 64)
    (e : i < v.locking_positions.length) :
    ∃ D', remove_position D (recOf H id v n) i = .ok (D', recOf H id (v.remove_position i) n) ∧
      Mid H N f vl m id s (v.remove_position i) n D' := by
  obtain ⟨D', h1, h2, h3⟩ := h.vec.1.swapRemove hi e h.vec.2.lt.le
  refine ⟨D', ?_, h.setVec hN (Nat.le_refl f) h2 h3 ?_ h.bal h.avp⟩
  · unfold remove_position
    rw [show VecH.swapRemove lockingPosition D (recOf H id v n).locking_positions i = _ from h1]
    rfl
  · have h4 := h.vec.2
    have := swapRemove_length v.locking_positions i e
    unfold Room at *
    show (swapRemove v.locking_positions i).length + f < _
    omega

/-- The voter with a position added. -/
def pushed (v : Voter) (p : LockingPosition) : Voter := { v with locking_positions := v.locking_positions ++ [p] }

theorem Mid.push (hN : N.OK H) (h : Mid H N (f + 1) vl m id s v n D) {p : LockingPosition} (hp : PositionFits p) :
    ∃ D', push_position D (recOf H id v n) p = (D', recOf H id (pushed v p) n) ∧ Mid H N f vl m id s (pushed v p) n D' := by
  obtain ⟨D', h1, h2, h3⟩ := h.vec.1.push h.vec.2.lt (positionOk.2 hp)
  refine ⟨D', ?_, h.setVec hN (Nat.le_succ f) h2 h3 ?_ h.bal h.avp⟩
  · unfold push_position
    rw [show VecH.push lockingPosition D (recOf H id v n).locking_positions p = _ from h1]
    rfl
  · have h4 := h.vec.2
    unfold Room at *
    show (v.locking_positions ++ [p]).length + f < _
    simp; omega

theorem Mid.clear (hN : N.OK H) (h : Mid H N f vl m id s v n D) :
    ∃ D', VecH.clear D (recOf H id v n).locking_positions = (D', ⟨0, pre H (.lockingPosition id)⟩) ∧
      Mid H N f vl m id s { v with locking_positions := [], available_voting_power := 0 } n D' := by
  obtain ⟨D', h1, h2, h3⟩ := h.vec.1.clear h.vec.2.lt.le
  refine ⟨D', h1, h.setVec hN (Nat.le_refl f) h2 h3 ?_ h.bal (Nat.two_pow_pos 128)⟩
  have h4 := h.vec.2
  unfold Room at *
  show ([] : List LockingPosition).length + f < _
  simp; omega

theorem find_from_eq {D : Disk} {p : Bytes} {l : List LockingPosition} (h : IsVec lockingPosition D p l) (hl : l.length < 2 ^ 64)
    (v : VoterRec) (hv : v.locking_positions = ⟨l.length, p⟩) (d : Nat) : ∀ k i, i + k = l.length →
    find_from D v d k i = .ok ((l.drop i).findIdx? (fun q => q.locking_period == d && q.is_locked) |>.map (· + i)) := by
  intro k
  induction k with
  | zero =>
    intro i hi
    rw [List.drop_eq_nil_of_le (by omega)]
    rfl
  | succ k ih =>
    intro i hi
    have e : i < l.length := by omega
    unfold find_from
    rw [hv, h.item (by omega) e, List.drop_eq_getElem_cons e, List.findIdx?_cons]
    show (if _ then _ else _) = _
    by_cases hc : (l[i].locking_period == d && l[i].is_locked) = true
    · rw [if_pos hc, if_pos hc]; simp
    · rw [if_neg hc, if_neg hc, ih (i + 1) (by omega), Option.map_map]
      congr 2
      funext x
      simp only [Function.comp]; omega

theorem Mid.find (h : Mid H N f vl m id s v n D) (d : Nat) :
    find_locked_position D (recOf H id v n) d = .ok (v.find_locked_position d) := by
  unfold find_locked_position
  rw [find_from_eq h.vec.1 h.vec.2.lt (recOf H id v n) rfl d _ 0 (by simp [recOf])]
  simp [Voter.find_locked_position]

theorem Mid.unlocked (h : Mid H N f vl m id s v n D) (now : Nat) :
    get_unlocked_position_indexes D (recOf H id v n) now = .ok (v.get_unlocked_position_indexes now) := by
  unfold get_unlocked_position_indexes
  have hm : (List.range (recOf H id v n).locking_positions.len).mapM (fun i => do
      let p ← VecH.get lockingPosition D (recOf H id v n).locking_positions i
      expect p "Locking position not found!") = .ok v.locking_positions := by
    have h1 : ∀ k, k ≤ v.locking_positions.length → (List.range k).mapM (fun i => do
        let p ← VecH.get lockingPosition D (recOf H id v n).locking_positions i
        expect p "Locking position not found!") = .ok (v.locking_positions.take k) := by
      intro k
      induction k with
      | zero => intro _; rfl
      | succ k ih =>
        intro hk
        rw [List.range_succ, List.mapM_append, ih (by omega)]
        have e : k < v.locking_positions.length := by omega
        have hg : VecH.get lockingPosition D (recOf H id v n).locking_positions k = .ok (some v.locking_positions[k]) := by
          rw [show VecH.get lockingPosition D (recOf H id v n).locking_positions k = _ from
            h.vec.1.get (Nat.lt_trans e h.vec.2.lt), List.getElem?_eq_getElem e]
        simp only [List.mapM_cons, List.mapM_nil, hg, List.take_succ_eq_append_getElem e]
        rfl
    have := h1 _ (Nat.le_refl _)
    rwa [List.take_length] at this
  rw [hm]
  rfl

/-! ## Clearing unlocked positions -/

/-- Clearing, on both sides. -/
def RC (H : Hash) (N : Names) (f : Nat) (vl : String → Nat) (m : Mem) (id : String) (s : State) (n : Nat) (v : Voter)
    (b : Disk × VoterRec) : Prop := b.2 = recOf H id v n ∧ Mid H N f vl m id s v n b.1

theorem Mid.clear_one (hN : N.OK H) (h : Mid H N f vl m id s v n D) (now : Nat) {i : Nat} (hi : i < 2 ^ 64) :
    Rel (RC H N f vl m id s n) (v.clear_one now i) (clear_one now (D, recOf H id v n) i) := by
  unfold Voter.clear_one Bytes.clear_one
  refine h.position hi fun p e he hp => ?_
  by_cases hu : p.is_unlocked now = true
  · simp only [hu, if_true]
    refine Rel.step _ fun b hb => ?_
    have hb' : b < 2 ^ 128 := add_lt hb
    have h' : Mid H N f vl m id s { v with balance := b } n D := ⟨h.tabs, h.fit, hb', h.avp, h.vid, h.room⟩
    obtain ⟨D', h1, h2⟩ := h'.remove hN hi e
    rw [show remove_position D { recOf H id v n with balance := b } i = _ from h1]
    exact ⟨rfl, h2⟩
  · rw [if_neg hu, if_neg hu]
    exact ⟨rfl, h⟩

theorem foldlM_rel {α β γ : Type} {R : α → β → Prop} {F : α → γ → Res α} {G : β → γ → Res β} {l : List γ}
    (h : ∀ x ∈ l, ∀ a b, R a b → Rel R (F a x) (G b x)) {a : α} {b : β} (hab : R a b) :
    Rel R (l.foldlM F a) (l.foldlM G b) := by
  induction l generalizing a b with
  | nil => exact hab
  | cons x xs ih =>
    rw [List.foldlM_cons, List.foldlM_cons]
    exact (h x List.mem_cons_self a b hab).bind fun a' b' _ h' => ih (fun y hy => h y (List.mem_cons_of_mem _ hy)) h'

theorem Mid.clear_fully (hN : N.OK H) (h : Mid H N f vl m id s v n D) (now : Nat) {l : List Nat} (hl : ∀ i ∈ l, i < 2 ^ 64) :
    Rel (RC H N f vl m id s n) (v.clear_fully_unlocked_positions now l)
      (clear_fully_unlocked_positions D (recOf H id v n) now l) := by
  unfold Voter.clear_fully_unlocked_positions clear_fully_unlocked_positions
  refine foldlM_rel (R := RC H N f vl m id s n) ?_ ⟨rfl, h⟩
  rintro i hi v ⟨D, r⟩ ⟨rfl, hv⟩
  exact hv.clear_one hN now (hl i ((List.perm_insertionSort _ _).mem_iff.1 hi))

end Verif.MetaVote.Bytes
