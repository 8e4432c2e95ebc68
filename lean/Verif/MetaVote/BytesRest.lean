import Verif.MetaVote.BytesLock

/-!
# The other methods that do not vote, in bytes and in the state
-/

namespace Verif.MetaVote.Bytes

open Verif Storage Disk Borsh

variable {H : Hash} {N : Names} {f f' : Nat} {vl : String → Nat} {m : Mem} {s : State} {D : Disk} {id : String} {v : Voter}
  {n : Nat}

theorem RS.mono {a : State} {b : Disk × StateRec} (h : RS H N f vl m a b) (hf : f' ≤ f) : RS H N f' vl m a b :=
  ⟨h.1, h.2.mono hf⟩

theorem recOf_set (i : Nat) (p : LockingPosition) (b a : Nat) :
    recOf H id { v.replace_position i p with balance := b, available_voting_power := a } n =
      { recOf H id v n with balance := b, available_voting_power := a } := by
  simp [recOf, Voter.replace_position]

theorem Rep.unlock_partial_position (hN : N.OK H) (h : Rep H N (f + 2) vl m s D) (c : Ctx) (hc : StrFits c.predecessor)
    (hn : c.now < 2 ^ 64) {i : Nat} (hi : i < 2 ^ 64) {a : Nat} (ha : a < 2 ^ 128) :
    Rel (RS H N f vl m) (s.unlock_partial_position c i a) (unlock_partial_position D (rootOf H s m) c i a) := by
  unfold State.unlock_partial_position Bytes.unlock_partial_position
  refine h.or_panic hc fun v _ hm => ?_
  refine hm.position hi fun p e he hp => ?_
  by_cases hz : a = p.amount
  · simp only [if_pos hz]
    exact (h.mono (Nat.le_succ _)).unlock_position hN c hc hn hi
  simp only [if_neg hz]
  refine Rel.step _ fun _ _ => ?_
  refine Rel.step _ fun rest hrest => ?_
  refine Rel.step _ fun _ _ => ?_
  refine Rel.step _ fun _ _ => ?_
  refine Rel.step _ fun rv hrv => ?_
  refine Rel.step _ fun _ _ => ?_
  refine Rel.step _ fun _ _ => ?_
  unfold State.create_unlocking_position create_unlocking_position
  simp only [bind_assoc, pure_bind]
  refine Rel.step _ fun _ _ => ?_
  obtain ⟨D', e1, h1⟩ := hm.push hN (p := ⟨a, p.locking_period, rv, some c.now⟩) ⟨ha, hp.2.1, (power_lt hrv).2.2, by simpa using hn⟩
  rw [e1]
  refine Rel.step _ fun vp hvp => ?_
  refine Rel.step _ fun am ham => ?_
  refine Rel.step _ fun _ _ => ?_
  obtain ⟨D2, e2, h2⟩ := h1.replace hN hi (i := i) (by simp [pushed]; omega) (p := { p with voting_power := vp, amount := am })
    ⟨sub_lt ham hp.1, hp.2.1, sub_lt hvp hp.2.2.1, hp.2.2.2⟩
  refine Rel.ok e2 ?_
  refine Rel.step _ fun avp havp => ?_
  have h3 := ((h2.scalar h2.bal (sub_lt havp h2.avp)).total
    (Nat.lt_of_le_of_lt (Nat.sub_le s.total_voting_power rv) h.fit.total)).saved' hN
  rw [recOf_set] at h3
  exact h3

theorem Rep.extend (hN : N.OK H) (h : Rep H N (f + 1) vl m s D) (c : Ctx) (hc : StrFits c.predecessor)
    {i : Nat} (hi : i < 2 ^ 64) (d : Nat) :
    Rel (RS H N f vl m) (s.locking_position_extend_days c i d) (locking_position_extend_days D (rootOf H s m) c i d) := by
  unfold State.locking_position_extend_days locking_position_extend_days
  refine h.or_panic hc fun v _ hm => ?_
  refine hm.position hi fun p e he hp => ?_
  refine Rel.step _ fun _ _ => ?_
  refine Rel.step _ fun _ _ => ?_
  refine Rel.step _ fun nv hnv => ?_
  refine Rel.step _ fun de _ => ?_
  refine Rel.step _ fun t ht => ?_
  refine Rel.step _ fun avp havp => ?_
  obtain ⟨D2, e2, h2⟩ := hm.replace hN hi e (p := { p with locking_period := d, voting_power := nv })
    ⟨hp.1, (power_lt hnv).2.1, (power_lt hnv).2.2, hp.2.2.2⟩
  refine Rel.ok e2 ?_
  have h3 := ((h2.scalar h2.bal (add_lt havp)).total (add_lt ht)).saved' hN
  rw [recOf_set] at h3
  exact h3

/-- Depositing what is in hand. -/
theorem Mid.deposited (hN : N.OK H) (h : Mid H N (f + 2) vl m id s v (vl id) D) (a d : Nat) :
    Rel (RS H N f vl m) (s.deposit_locking_position a d id v >>= fun r => pure r.1)
      (deposit_locking_position D (rootOf H s m) a d id (recOf H id v (vl id)) >>= fun y => pure (y.1, y.2.1)) := by
  refine (h.deposit hN a d).bind ?_
  rintro x y - hx
  exact hx.first

theorem Rep.relock_position (hN : N.OK H) (h : Rep H N (f + 2) vl m s D) (c : Ctx) (hc : StrFits c.predecessor)
    {i : Nat} (hi : i < 2 ^ 64) (d b : Nat) :
    Rel (RS H N f vl m) (s.relock_position c i d b) (relock_position D (rootOf H s m) c i d b) := by
  unfold State.relock_position Bytes.relock_position
  refine h.or_panic hc fun v _ hm => ?_
  refine hm.position hi fun p e he hp => ?_
  refine Rel.step _ fun _ _ => ?_
  refine Rel.step _ fun _ _ => ?_
  refine Rel.step _ fun _ _ => ?_
  refine Rel.step _ fun am _ => ?_
  obtain ⟨D2, e2, h2⟩ := hm.remove hN hi e
  refine Rel.ok e2 ?_
  refine Rel.step _ fun ba hba => ?_
  exact (h2.scalar (sub_lt hba h2.bal) h2.avp).deposited hN am d

theorem Rep.relock_partial_position (hN : N.OK H) (h : Rep H N (f + 2) vl m s D) (c : Ctx) (hc : StrFits c.predecessor)
    {i : Nat} (hi : i < 2 ^ 64) (a d b : Nat) :
    Rel (RS H N f vl m) (s.relock_partial_position c i a d b) (relock_partial_position D (rootOf H s m) c i a d b) := by
  unfold State.relock_partial_position Bytes.relock_partial_position
  refine h.or_panic hc fun v _ hm => ?_
  refine hm.position hi fun p e he hp => ?_
  refine Rel.step _ fun _ _ => ?_
  refine Rel.step _ fun _ _ => ?_
  refine Rel.step _ fun am _ => ?_
  refine Rel.step _ fun _ _ => ?_
  refine Rel.step _ fun st _ => ?_
  have last : ∀ v' b', RC H N (f + 2) vl m c.predecessor s (vl c.predecessor) v' b' →
      Rel (RS H N f vl m) (do
          let balance ← subU v'.balance b
          let r ← s.deposit_locking_position am d c.predecessor { v' with balance := balance }
          pure r.1)
        (do
          let balance ← subU b'.2.balance b
          let y ← deposit_locking_position b'.1 (rootOf H s m) am d c.predecessor { b'.2 with balance := balance }
          pure (y.1, y.2.1)) := by
    rintro v' ⟨D', r'⟩ ⟨h1, h2⟩
    simp only at h1 h2
    subst h1
    refine Rel.step _ fun ba hba => ?_
    exact (h2.scalar (sub_lt hba h2.bal) h2.avp).deposited hN am d
  by_cases hz : c.now < st + p.locking_period_millis
  · simp only [if_pos hz]
    refine Rel.bind (R := RC H N (f + 2) vl m c.predecessor s (vl c.predecessor)) ?_ fun v' b' _ hr => last v' b' hr
    refine Rel.step _ fun _ _ => ?_
    refine Rel.step _ fun na hna => ?_
    refine Rel.step _ fun _ _ => ?_
    refine Rel.step _ fun _ _ => ?_
    refine Rel.step _ fun vp hvp => ?_
    obtain ⟨D2, e2, h2⟩ := hm.replace hN hi e (p := { p with amount := na, voting_power := vp })
      ⟨(power_lt hvp).1, hp.2.1, (power_lt hvp).2.2, hp.2.2.2⟩
    refine Rel.ok e2 ⟨(recOf_replace _ _).symm, h2⟩
  · simp only [if_neg hz]
    refine Rel.bind (R := RC H N (f + 2) vl m c.predecessor s (vl c.predecessor)) ?_ fun v' b' _ hr => last v' b' hr
    refine Rel.step _ fun re _ => ?_
    refine Rel.step _ fun ba hba => ?_
    obtain ⟨D2, e2, h2⟩ := (hm.scalar (add_lt hba) hm.avp).remove hN hi e
    have e3 : remove_position D { recOf H c.predecessor v (vl c.predecessor) with balance := ba } i = .ok _ := e2
    rw [e3]
    exact ⟨rfl, h2⟩

theorem Rep.relock_from_balance (hN : N.OK H) (h : Rep H N (f + 2) vl m s D) (c : Ctx) (hc : StrFits c.predecessor) (d b : Nat) :
    Rel (RS H N f vl m) (s.relock_from_balance c d b) (relock_from_balance D (rootOf H s m) c d b) := by
  unfold State.relock_from_balance Bytes.relock_from_balance
  refine h.or_panic hc fun v _ hm => ?_
  refine Rel.step _ fun _ _ => ?_
  refine Rel.step _ fun _ _ => ?_
  refine Rel.step _ fun ba hba => ?_
  exact (hm.scalar (sub_lt hba hm.bal) hm.avp).deposited hN b d

theorem Rep.clear_locking_position (hN : N.OK H) (h : Rep H N (f + 1) vl m s D) (c : Ctx) (hc : StrFits c.predecessor)
    {l : List Nat} (hl : ∀ i ∈ l, i < 2 ^ 64) :
    Rel (RS H N f vl m) (s.clear_locking_position c l) (clear_locking_position D (rootOf H s m) c l) := by
  unfold State.clear_locking_position Bytes.clear_locking_position
  refine Rel.step _ fun _ _ => ?_
  refine h.or_panic hc fun v _ hm => ?_
  refine (hm.clear_fully hN c.now hl).bind ?_
  rintro v' ⟨D', r'⟩ - ⟨h1, h2⟩
  simp only at h1 h2
  subst h1
  exact h2.saved' hN

/-! ## Airdrop data -/

theorem Rep.insert_data (hN : N.OK H) (h : Rep H N (f + 1) vl m s D) {k d : String} (hk : StrFits k) (hd : StrFits d) :
    ∃ D', insert_data (D, rootOf H s m) (k, d) =
        .ok (D', rootOf H { s with associated_user_data := s.associated_user_data.insert k d } m) ∧
      Rep H N f vl m { s with associated_user_data := s.associated_user_data.insert k d } D' := by
  obtain ⟨D', e, ht⟩ := h.tabs.insertData hN hk hd
  refine ⟨D', ?_, ht, { h.fit with }⟩
  unfold Bytes.insert_data
  rw [show MapH.insert string string D (rootOf H s m).associated_user_data k d = _ from e]
  rfl

theorem Rep.update_airdrop (hN : N.OK H) (h : Rep H N (f + 1) vl m s D) (c : Ctx) (hc : StrFits c.predecessor) {d : String}
    (hd : StrFits d) :
    Rel (RS H N f vl m) (s.update_airdrop_user_data c d) (update_airdrop_user_data D (rootOf H s m) c d) := by
  unfold State.update_airdrop_user_data update_airdrop_user_data
  refine Rel.step _ fun _ _ => ?_
  obtain ⟨D', e, h'⟩ := h.insert_data hN hc hd
  rw [e]
  exact ⟨rfl, h'⟩

theorem Rep.multi_airdrop (hN : N.OK H) (c : Ctx) {l : List (String × String)} (hl : ∀ x ∈ l, StrFits x.1 ∧ StrFits x.2)
    (h : Rep H N (f + l.length) vl m s D) :
    Rel (RS H N f vl m) (s.operator_multi_set_airdrop_data c l) (operator_multi_set_airdrop_data D (rootOf H s m) c l) := by
  unfold State.operator_multi_set_airdrop_data operator_multi_set_airdrop_data
  refine Rel.step _ fun _ h0 => ?_
  clear h0
  induction l generalizing s D with
  | nil => exact ⟨rfl, h⟩
  | cons x xs ih =>
    obtain ⟨D', e, h'⟩ := (h.mono (f' := f + xs.length + 1) (by simp; omega)).insert_data hN (hl x List.mem_cons_self).1
      (hl x List.mem_cons_self).2
    rw [List.foldlM_cons]
    refine Rel.ok e ?_
    exact ih (fun y hy => hl y (List.mem_cons_of_mem _ hy)) h'

/-! ## Transfers -/

/-- Results of methods that start a transfer. -/
def RT (H : Hash) (N : Names) (f : Nat) (vl : String → Nat) (m : Mem) (a : State × Transfer) (b : Disk × StateRec × Transfer) :
    Prop := RS H N f vl m a.1 (b.1, b.2.1) ∧ b.2.2 = a.2

theorem Rep.internal_withdraw (hN : N.OK H) (h : Rep H N (f + 1) vl m s D) (c : Ctx) (hid : StrFits id) {l : List Nat}
    (hl : ∀ i ∈ l, i < 2 ^ 64) (o : Option Nat) :
    Rel (RT H N f vl m) (s.internal_withdraw c id l o) (internal_withdraw D (rootOf H s m) c id l o) := by
  unfold State.internal_withdraw Bytes.internal_withdraw
  refine Rel.step _ fun _ _ => ?_
  refine h.or_panic hid fun v _ hm => ?_
  have h0 : Rel (RC H N (f + 1) vl m id s (vl id))
      (if l ≠ [] then v.clear_fully_unlocked_positions c.now l else pure v)
      (if l ≠ [] then clear_fully_unlocked_positions D (recOf H id v (vl id)) c.now l else pure (D, recOf H id v (vl id))) := by
    by_cases hz : l ≠ []
    · rw [if_pos hz, if_pos hz]; exact hm.clear_fully hN c.now hl
    · rw [if_neg hz, if_neg hz]; exact ⟨rfl, hm⟩
  refine h0.bind ?_
  rintro v' ⟨D', r'⟩ - ⟨h1, h2⟩
  simp only at h1 h2
  subst h1
  refine Rel.step _ fun _ _ => ?_
  refine Rel.step _ fun _ _ => ?_
  refine Rel.step _ fun ba hba => ?_
  have h3 := h2.scalar (sub_lt hba h2.bal) h2.avp
  have hr : is_empty { recOf H id v' (vl id) with balance := ba } = Voter.is_empty { v' with balance := ba } := by
    simp only [is_empty, Voter.is_empty, recOf]
    congr 1
    rw [Bool.eq_iff_iff]
    simp
  by_cases hz : Voter.is_empty { v' with balance := ba } = true
  · obtain ⟨D2, x, e, ht⟩ := (h3.tabs.mono (Nat.le_succ f)).removeVoter hN hid
    simp only [hr, if_pos hz]
    refine Rel.ok (c := (D2, rootOf H { s with voters := s.voters.remove id } m)) (by
      rw [show MapH.remove string voterRec D' (rootOf H s m).voters id = _ from e]; rfl) ?_
    refine ⟨⟨rfl, ?_, { h.fit with }⟩, rfl⟩
    rw [lpOf_remove s _ id rfl]
    have hv : v'.locking_positions = [] := by
      simp [Voter.is_empty] at hz
      exact hz.2
    have ht' : At H N f (tabOf { s with voters := s.voters.remove id } vl m (upd (lpOf s) id v'.locking_positions)) D2 := ht
    rw [hv] at ht'
    exact ht'
  · simp only [hr, if_neg hz]
    obtain ⟨D2, e, h4⟩ := h3.save hN
    rw [upd_same] at h4
    refine Rel.ok e ⟨⟨rfl, h4⟩, rfl⟩

theorem Rep.withdraw (hN : N.OK H) (h : Rep H N (f + 1) vl m s D) (c : Ctx) (hc : StrFits c.predecessor) {l : List Nat}
    (hl : ∀ i ∈ l, i < 2 ^ 64) (a : Nat) :
    Rel (RT H N f vl m) (s.withdraw c l a) (withdraw D (rootOf H s m) c l a) := h.internal_withdraw hN c hc hl _

theorem Rep.withdraw_all (hN : N.OK H) (h : Rep H N (f + 1) vl m s D) (c : Ctx) (hc : StrFits c.predecessor) :
    Rel (RT H N f vl m) (s.withdraw_all c) (withdraw_all D (rootOf H s m) c) := by
  unfold State.withdraw_all Bytes.withdraw_all
  refine h.or_panic hc fun v _ hm => ?_
  refine Rel.ok (hm.unlocked c.now) ?_
  refine h.internal_withdraw hN c hc (fun i hi => ?_) none
  unfold Voter.get_unlocked_position_indexes at hi
  have := (List.mem_filter.1 hi).1
  exact Nat.lt_trans (List.mem_range.1 this) hm.vec.2.lt

/-- Voters that are not registered have no vote maps. -/
def Fresh (s : State) (vl : String → Nat) : Prop := ∀ id, s.voters.get id = none → vl id = 0

theorem Rep.room0 (h : Rep H N f vl m s D) : Room f 0 := by
  have := (h.tabs .voters trivial).2.1
  unfold Room at *; omega

theorem Rep.mpdao_callback (hN : N.OK H) (h : Rep H N (f + 1) vl m s D) (hz : Fresh s vl) (c : Ctx) (hid : N.voter id) (a : Nat) :
    Rel (RS H N f vl m) (s.after_transfer_mpdao_callback c id a) (after_transfer_mpdao_callback H D (rootOf H s m) c id a) := by
  unfold State.after_transfer_mpdao_callback after_transfer_mpdao_callback
  refine Rel.step _ fun ok _ => ?_
  cases ok with
  | true => exact ⟨rfl, h.mono (Nat.le_succ f)⟩
  | false =>
    simp only [Bool.false_eq_true, if_false]
    unfold State.restore_transfer_to_mpdao restore_transfer_to_mpdao
    obtain ⟨e, hm⟩ := h.get_voter hN hid (hz id) h.room0
    refine Rel.ok e ?_
    refine Rel.step _ fun ba hba => ?_
    exact (hm.scalar (add_lt hba) hm.avp).saved' hN

theorem Rep.stnear_callback (hN : N.OK H) (h : Rep H N (f + 1) vl m s D) (c : Ctx) (hid : StrFits id) (a : Nat) :
    Rel (RS H N f vl m) (s.after_transfer_stnear_callback c id a) (after_transfer_stnear_callback D (rootOf H s m) c id a) := by
  unfold State.after_transfer_stnear_callback after_transfer_stnear_callback
  refine Rel.step _ fun ok _ => ?_
  cases ok with
  | true => exact ⟨rfl, h.mono (Nat.le_succ f)⟩
  | false => exact h.addStnear hN hid a

theorem Rep.claim_stnear (hN : N.OK H) (h : Rep H N (f + 1) vl m s D) (c : Ctx) (hc : StrFits c.predecessor) (a : Nat) :
    Rel (RT H N f vl m) (s.claim_stnear c a) (claim_stnear D (rootOf H s m) c a) := by
  unfold State.claim_stnear Bytes.claim_stnear
  refine (h.removeStnear hN hc a).bind ?_
  rintro s' ⟨D', r'⟩ - ⟨h1, h2⟩
  simp only at h1 h2
  subst h1
  exact ⟨⟨rfl, h2⟩, rfl⟩

/-! ## Deposits -/

/-- Distribution, on both sides. -/
def RN (H : Hash) (N : Names) (f : Nat) (vl : String → Nat) (m : Mem) (a : State × Nat) (b : (Disk × StateRec) × Nat) : Prop :=
  RS H N f vl m a.1 b.1 ∧ b.2 = a.2

theorem Rep.distribute_mpdao (hN : N.OK H) {l : List (String × Nat)} (hl : ∀ x ∈ l, StrFits x.1) (h : Rep H N (f + l.length) vl m s D)
    (t : Nat) : Rel (RN H N f vl m) (l.foldlM State.distribute_mpdao_step (s, t)) (l.foldlM distribute_mpdao_step ((D, rootOf H s m), t)) := by
  induction l generalizing s D t with
  | nil => exact ⟨⟨rfl, h⟩, rfl⟩
  | cons x xs ih =>
    rw [List.foldlM_cons, List.foldlM_cons]
    unfold State.distribute_mpdao_step distribute_mpdao_step
    simp only [bind_assoc, pure_bind]
    refine Rel.step _ fun a _ => ?_
    refine ((h.mono (f' := f + xs.length + 1) (by simp; omega)).addMpdao hN (hl x List.mem_cons_self) a).bind ?_
    rintro s' ⟨D', r'⟩ - ⟨h1, h2⟩
    simp only at h1 h2
    subst h1
    refine Rel.step _ fun t' _ => ?_
    exact ih (fun y hy => hl y (List.mem_cons_of_mem _ hy)) h2 t'

theorem Rep.distribute_stnear (hN : N.OK H) {l : List (String × Nat)} (hl : ∀ x ∈ l, StrFits x.1) (h : Rep H N (f + l.length) vl m s D)
    (t : Nat) : Rel (RN H N f vl m) (l.foldlM State.distribute_stnear_step (s, t)) (l.foldlM distribute_stnear_step ((D, rootOf H s m), t)) := by
  induction l generalizing s D t with
  | nil => exact ⟨⟨rfl, h⟩, rfl⟩
  | cons x xs ih =>
    rw [List.foldlM_cons, List.foldlM_cons]
    unfold State.distribute_stnear_step distribute_stnear_step
    simp only [bind_assoc, pure_bind]
    refine Rel.step _ fun a _ => ?_
    refine ((h.mono (f' := f + xs.length + 1) (by simp; omega)).addStnear hN (hl x List.mem_cons_self) a).bind ?_
    rintro s' ⟨D', r'⟩ - ⟨h1, h2⟩
    simp only at h1 h2
    subst h1
    refine Rel.step _ fun t' _ => ?_
    exact ih (fun y hy => hl y (List.mem_cons_of_mem _ hy)) h2 t'

theorem Rep.distribute (hN : N.OK H) (c : Ctx) {l : List (String × Nat)} (hl : ∀ x ∈ l, StrFits x.1)
    (h : Rep H N (f + l.length) vl m s D) (a : Nat) :
    Rel (RS H N f vl m) (s.distribute_for_claims c a l) (distribute_for_claims D (rootOf H s m) c a l) := by
  unfold State.distribute_for_claims distribute_for_claims
  have h0 : Rel (RN H N f vl m)
      (if c.predecessor = s.mpdao_token_contract_address then do
          let r ← l.foldlM State.distribute_mpdao_step (s, 0)
          let acc ← addU128 r.1.accumulated_mpdao_distributed_for_claims r.2
          pure ({ r.1 with accumulated_mpdao_distributed_for_claims := acc }, r.2)
        else if c.predecessor = s.stnear_token_contract_address then do
          let r ← l.foldlM State.distribute_stnear_step (s, 0)
          let acc ← addU128 r.1.accum_distributed_stnear_for_claims r.2
          pure ({ r.1 with accum_distributed_stnear_for_claims := acc }, r.2)
        else .error (.assert "Unknown token address") : Res (State × Nat))
      (if c.predecessor = s.mpdao_token_contract_address then do
          let x ← l.foldlM distribute_mpdao_step ((D, rootOf H s m), 0)
          let acc ← addU128 x.1.2.accumulated_mpdao_distributed_for_claims x.2
          pure ((x.1.1, { x.1.2 with accumulated_mpdao_distributed_for_claims := acc }), x.2)
        else if c.predecessor = s.stnear_token_contract_address then do
          let x ← l.foldlM distribute_stnear_step ((D, rootOf H s m), 0)
          let acc ← addU128 x.1.2.accum_distributed_stnear_for_claims x.2
          pure ((x.1.1, { x.1.2 with accum_distributed_stnear_for_claims := acc }), x.2)
        else .error (.assert "Unknown token address") : Res ((Disk × StateRec) × Nat)) := by
    by_cases h1 : c.predecessor = s.mpdao_token_contract_address
    · rw [if_pos h1, if_pos h1]
      refine (h.distribute_mpdao hN hl 0).bind ?_
      rintro ⟨s', t⟩ ⟨⟨D', r'⟩, t'⟩ - ⟨⟨h1, h2⟩, h3⟩
      simp only at h1 h2 h3
      subst h1; subst h3
      refine Rel.step _ fun acc hacc => ?_
      exact ⟨⟨rfl, h2.tabs, { h2.fit with accumulated_mpdao := add_lt hacc }⟩, rfl⟩
    · rw [if_neg h1, if_neg h1]
      by_cases h2 : c.predecessor = s.stnear_token_contract_address
      · rw [if_pos h2, if_pos h2]
        refine (h.distribute_stnear hN hl 0).bind ?_
        rintro ⟨s', t⟩ ⟨⟨D', r'⟩, t'⟩ - ⟨⟨h1, h2⟩, h3⟩
        simp only at h1 h2 h3
        subst h1; subst h3
        refine Rel.step _ fun acc hacc => ?_
        exact ⟨⟨rfl, h2.tabs, { h2.fit with accumulated_stnear := add_lt hacc }⟩, rfl⟩
      · rw [if_neg h2, if_neg h2]; rfl
  refine h0.bind ?_
  rintro ⟨s', t⟩ ⟨b, t'⟩ - ⟨h2, h3⟩
  simp only at h2 h3
  subst h3
  refine Rel.step _ fun _ _ => ?_
  exact h2

/-- Names in the message of a transfer, and what it adds. -/
structure MsgOK (N : Names) (J : Json) (sender : String) (msg : List UInt8) : Prop where
  sender : N.voter sender
  pair : ∀ p, J.parse_pair msg = some p → N.voter p.1
  claims : ∀ l, J.parse_claims (msg.drop 11) = some l → ∀ x ∈ l, StrFits x.1

/-- Number of receivers in the message of a transfer. -/
def msgLen (J : Json) (msg : List UInt8) : Nat := ((J.parse_claims (msg.drop 11)).getD []).length

theorem target_ok {J : Json} {sender : String} {msg : List UInt8} (hm : MsgOK N J sender msg) {t : String × Nat}
    (h : s.deposit_target J sender msg = .ok t) : N.voter t.1 := by
  simp only [State.deposit_target, bind_ok_iff] at h
  obtain ⟨b, -, h⟩ := h
  split at h
  · simp only [bind_ok_iff, expect_ok_iff, require_ok_iff, pure_ok_iff] at h
    obtain ⟨p, h1, -, -, rfl⟩ := h
    exact hm.pair p h1
  · simp only [bind_ok_iff, pure_ok_iff] at h
    obtain ⟨d, -, rfl⟩ := h
    exact hm.sender

theorem Rep.ft_on_transfer (hN : N.OK H) (J : Json) (c : Ctx) {sender : String} {msg : List UInt8} (hm : MsgOK N J sender msg)
    (h : Rep H N (f + 2 + msgLen J msg) vl m s D) (hz : Fresh s vl) (a : Nat) :
    Rel (RS H N f vl m) (s.ft_on_transfer J c sender a msg) (ft_on_transfer H J D (rootOf H s m) c sender a msg) := by
  unfold State.ft_on_transfer Bytes.ft_on_transfer
  refine Rel.step _ fun b _ => ?_
  cases b with
  | true =>
    refine Rel.step _ fun l hl => ?_
    have hl := expect_ok_iff.1 hl
    refine Rep.distribute hN c (hm.claims l hl) (h.mono ?_) a
    simp [msgLen, hl]
  | false =>
    refine Rel.step _ fun _ _ => ?_
    refine Rel.step _ fun t ht => ?_
    refine Rel.step _ fun _ _ => ?_
    have h' := h.mono (f' := f + 2) (by omega)
    obtain ⟨e, hm'⟩ := h'.get_voter hN (target_ok hm ht) (hz t.1) h'.room0
    refine Rel.ok e ?_
    exact hm'.deposited hN a t.2

/-! ## Migration -/

theorem migration_steps (hN : N.OK H) {l : List (Nat × Nat)} (h : Mid H N (f + 2 * l.length) vl m id s v (vl id) D)
    (hl : l ≠ []) :
    Rel (RD H N f vl m id) (l.foldlM (State.migration_step id) (s, v))
      (l.foldlM (migration_step id) (D, rootOf H s m, recOf H id v (vl id))) := by
  induction l generalizing s D v with
  | nil => exact absurd rfl hl
  | cons x xs ih =>
    rw [List.foldlM_cons, List.foldlM_cons]
    refine ((h.mono (f' := f + 2 * xs.length + 2) (by simp; omega)).deposit hN (x.1 / 1000000000000000000) x.2).bind ?_
    rintro ⟨s', v'⟩ ⟨D', r', w'⟩ - ⟨h1, h2, h3, h4⟩
    simp only at h1 h2 h3 h4
    subst h1; subst h2
    cases xs with
    | nil => exact ⟨rfl, rfl, h3, h4⟩
    | cons y ys => exact ih (h3.voter h4) (by simp)

theorem Rep.migration (hN : N.OK H) (c : Ctx) (hc : StrFits c.predecessor) {l : List (Nat × Nat)} {o : Option String}
    (ho : ∀ d, o = some d → StrFits d) (hid : N.voter id) (h : Rep H N (f + 1 + 2 * l.length) vl m s D) (hz : Fresh s vl) :
    Rel (RS H N f vl m) (s.migration_create_lps c id l o) (migration_create_lps H D (rootOf H s m) c id l o) := by
  unfold State.migration_create_lps migration_create_lps
  refine Rel.step _ fun _ _ => ?_
  obtain ⟨e, hm⟩ := h.get_voter hN hid (hz id) h.room0
  refine Rel.ok e ?_
  have h0 : Rel (fun a b => b.2.1 = rootOf H a.1 m ∧ Rep H N (f + 1) vl m a.1 b.1)
      (l.foldlM (State.migration_step id) (s, s.internal_get_voter id))
      (l.foldlM (migration_step id) (D, rootOf H s m, recOf H id (s.internal_get_voter id) (vl id))) := by
    cases l with
    | nil => exact ⟨rfl, h⟩
    | cons x xs =>
      refine (migration_steps hN hm (by simp)).imp ?_
      rintro a b - ⟨h1, -, h2, -⟩
      exact ⟨h1, h2⟩
  refine h0.bind ?_
  rintro ⟨s', v'⟩ ⟨D', r', w'⟩ - ⟨h1, h2⟩
  simp only at h1 h2
  subst h1
  cases o with
  | none => exact ⟨rfl, h2.mono (Nat.le_succ f)⟩
  | some d =>
    refine Rel.ok (h2.tabs.getData hc) ?_
    by_cases hd : s'.associated_user_data.get c.predecessor = none
    · simp only [show (tabOf s' vl m (lpOf s')).data.get c.predecessor = none from hd, hd, if_true]
      obtain ⟨D2, e2, h3⟩ := h2.insert_data hN hc (ho d rfl)
      rw [e2]
      exact ⟨rfl, h3⟩
    · simp only [show ¬ (tabOf s' vl m (lpOf s')).data.get c.predecessor = none from hd, hd, if_false]
      exact ⟨rfl, h2.mono (Nat.le_succ f)⟩

end Verif.MetaVote.Bytes
