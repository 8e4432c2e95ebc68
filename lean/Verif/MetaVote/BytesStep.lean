import Verif.MetaVote.BytesVote

/-!
# Calls of meta-vote, in bytes and over the vote maps
-/

namespace Verif.MetaVote.Bytes

open Verif Storage Disk Borsh

/-- Names in the arguments of a call are among the names that occur, other strings are short enough to be stored. -/
def CallOK (N : Names) (J : Json) : Call → Prop
  | .set_stnear_contract a | .set_operator_id a | .set_owner_id a | .set_prev_gov_contract a => StrFits a
  | .update_airdrop_user_data d => StrFits d
  | .operator_multi_set_airdrop_data l => ∀ x ∈ l, StrFits x.1 ∧ StrFits x.2
  | .vote _ a o | .rebalance _ a o | .unvote a o => N.app a ∧ StrFits o
  | .set_lock_in_vote_filters _ _ a => ∀ x, a = some x → StrFits x
  | .migration_create_lps v _ d => N.voter v ∧ ∀ x, d = some x → StrFits x
  | .operator_mirror_lps e _ => N.voter (pseudo_near_address e)
  | .after_transfer_mpdao_callback v _ => N.voter v
  | .after_transfer_stnear_callback v _ => StrFits v
  | .ft_on_transfer se _ m => MsgOK N J se m
  | .pre_delegate_evm_address e g => StrFits e ∧ StrFits g
  | .operator_remove_pre_delegate_evm_address e | .operator_confirm_delegated_evm_address e
  | .remove_delegated_evm_address e => StrFits e
  | .delegated_claim_stnear e _ => StrFits (pseudo_near_address e)
  | .vote_delegated e _ a o | .unvote_delegated e a o => StrFits (pseudo_near_address e) ∧ N.app a ∧ StrFits o
  | _ => True

/-- How many entries a call may add to one collection, at most. -/
def weight (J : Json) : Call → Nat
  | .operator_multi_set_airdrop_data l => 3 + 2 * l.length
  | .migration_create_lps _ l _ => 3 + 2 * l.length
  | .operator_mirror_lps _ l => 3 + 2 * l.length
  | .ft_on_transfer _ _ m => 3 + 2 * msgLen J m
  | _ => 3

/-- The methods of `#[init]` (`lib.rs:70-71`, `migrate.rs:42-44`). -/
def isInit : Call → Bool
  | .new_ .. | .migrate => true
  | _ => false

/-- The storage holds the state. -/
structure Stored (H : Hash) (N : Names) (f : Nat) (S : SState) (D : Disk) : Prop where
  state : D STATE = some (stateRec.enc (rootOf H S.st S.mem))
  rep : Rep H N f S.vlen S.mem S.st D
  fresh : Fresh S.st S.vlen

/-- A call that panics with the same message on both sides, or answers with the same transfers and leaves the same state. -/
def RX (H : Hash) (N : Names) (f : Nat) (a : SState × List Transfer) (b : Disk × List Transfer) : Prop :=
  b.2 = a.2 ∧ Stored H N f a.1 b.1

/-- A method. -/
def RO (H : Hash) (N : Names) (f : Nat) (a : SState × List Transfer) (b : Disk × StateRec × List Transfer) : Prop :=
  b.2.2 = a.2 ∧ RSS H N f a.1 (b.1, b.2.1)

variable {H : Hash} {N : Names} {f f' : Nat} {vl : String → Nat} {m : Mem} {s : State} {D : Disk} {S : SState} {J : Json}

theorem Stored.mono (h : Stored H N f S D) (hf : f' ≤ f) : Stored H N f' S D := ⟨h.state, h.rep.mono hf, h.fresh⟩

/-- Lengths kept for accounts that are not registered are of no account. -/
theorem Rep.lens (h : Rep H N f vl m s D) {vl' : String → Nat} (hv : ∀ id, (s.voters.get id).isSome → vl' id = vl id) :
    Rep H N f vl' m s D := by
  refine ⟨⟨fun c hc => ?_, h.tabs.rest⟩, h.fit⟩
  have h0 := h.tabs c hc
  cases c with
  | voters =>
    obtain ⟨h1, h2, h3⟩ := h0
    refine ⟨?_, h2, fun id v hid => ⟨(h3 id v hid).1, ?_⟩⟩
    · change IsMap string voterRec D _ _ (s.voters.mapE fun id v => recOf H id v (vl' id))
      rw [UMap.mapE_congr s.voters (g' := fun id v => recOf H id v (vl id)) fun k v hk => by
        rw [hv k (by rw [hk]; rfl)]]
      exact h1
    · show Room f (vl' id)
      rw [hv id (by rw [show s.voters.get id = some v from hid]; rfl)]
      exact (h3 id v hid).2
  | _ => exact h0

/-- The record can be stored. -/
theorem Rep.root_fits (h : Rep H N f vl m s D) : (rootOf H s m).Fits := by
  have hp : ∀ c : Coll, (pre H c).length < 2 ^ 31 := by
    intro c
    cases c <;> simp [pre, prefixOf, Coll.id, H.length]
  have hm : ∀ (c : Coll) (n : Nat), Room f n → (MapH.at (pre H c) n).Fits := fun c n hn => mapAt_fits (hp c) hn.lt
  have hl : ∀ c : Coll, (⟨pre H c⟩ : LookupH).Fits := fun c => Nat.lt_trans (hp c) (by decide)
  exact ⟨⟨h.fit.owner_id, h.fit.operator_id, hm _ _ (h.tabs .voters trivial).2.1, hm _ _ (h.tabs .votes trivial).2.1,
    h.fit.min_unbond_period, h.fit.max_unbond_period, h.fit.min_deposit_amount, h.fit.max_locking_positions,
    h.fit.max_voting_positions, h.fit.mpdao, h.fit.total, hm _ _ (h.tabs .claimable trivial).2, h.fit.accumulated_mpdao,
    h.fit.unclaimed_mpdao, h.fit.stnear, hm _ _ (h.tabs .claimableStNear trivial).2, h.fit.accumulated_stnear,
    h.fit.unclaimed_stnear, h.fit.registration_cost, hm _ _ (h.tabs .airdropData trivial).2, h.fit.prev_gov,
    hm _ _ (h.tabs .evmDelegates trivial).2.1, hl _, hl _⟩, h.fit.lock_end, h.fit.lock_address, h.fit.lock_id⟩

theorem Stored.load (h : Stored H N f S D) : load D = .ok (rootOf H S.st S.mem) := by
  unfold Bytes.load
  rw [h.state]
  show expect (stateRec.read _) _ = _
  rw [C88_state.2 ⟨h.rep.root_fits, rfl⟩]
  rfl

theorem RSS.save {b : Disk × StateRec} (h : RSS H N f S b) : Stored H N f S (save b.1 b.2) := by
  obtain ⟨D, r⟩ := b
  obtain ⟨h1, h2, h3⟩ := h
  simp only at h1 h2
  subst h1
  exact ⟨upd_self _ _ _, ⟨h2.tabs.state _, h2.fit⟩, h3⟩

/-! ## Methods of the state without the vote maps -/

/-- A method of the rest of the state. -/
def RW (H : Hash) (N : Names) (f : Nat) (vl : String → Nat) (m : Mem) (a : State × List Transfer)
    (b : Disk × StateRec × List Transfer) : Prop :=
  b.2.2 = a.2 ∧ RS H N f vl m a.1 (b.1, b.2.1)

theorem Rel.quiet {x : Res State} {y : Res (Disk × StateRec)} (h : Rel (RS H N f vl m) x y) :
    Rel (RW H N f vl m) (MetaVote.quiet x) (Bytes.quiet y) := by
  unfold MetaVote.quiet Bytes.quiet
  refine Rel.bind h ?_
  rintro a ⟨D, r⟩ - h
  exact ⟨rfl, h⟩

theorem Rel.onRec {x : Res State} {y : Res StateRec} (h : Rel (RR H N f vl m D) x y) :
    Rel (RW H N f vl m) (MetaVote.quiet x) (Bytes.onRec D y) := by
  unfold MetaVote.quiet Bytes.onRec
  refine Rel.bind h ?_
  rintro a r - h
  exact ⟨rfl, h⟩

theorem Rel.sends {x : Res (State × Transfer)} {y : Res (Disk × StateRec × Transfer)} (h : Rel (RT H N f vl m) x y) :
    Rel (RW H N f vl m) (MetaVote.sends x) (Bytes.sends y) := by
  unfold MetaVote.sends Bytes.sends
  refine Rel.bind h ?_
  rintro a ⟨D, r, t⟩ - ⟨h1, h2⟩
  simp only at h2
  subst h2
  exact ⟨rfl, h1⟩

theorem Rel.other {c : Ctx} {k : Call} {y : Res (Disk × StateRec × List Transfer)}
    (h : Rel (RW H N f S.vlen S.mem) (MetaVote.run J S.st c k) y) : Rel (RO H N f) (S.other J c k) y := by
  unfold SState.other
  cases e : MetaVote.run J S.st c k with
  | error x =>
    rw [e] at h
    cases y with
    | error z => exact h
    | ok b => exact h.elim
  | ok a =>
    rw [e] at h
    cases y with
    | error x => exact h.elim
    | ok b =>
      obtain ⟨h1, h2, h3⟩ := h
      refine ⟨h1, h2, Rep.lens h3 fun id hid => if_pos hid, fun id hid => ?_⟩
      show (if (a.1.voters.get id).isSome then S.vlen id else 0) = 0
      rw [show a.1.voters.get id = none from hid]
      rfl

theorem Rel.squiet {x : Res SState} {y : Res (Disk × StateRec)} (h : Rel (RSS H N f) x y) :
    Rel (RO H N f) (SState.quiet x) (Bytes.quiet y) := by
  unfold SState.quiet Bytes.quiet
  refine Rel.bind h ?_
  rintro a ⟨D, r⟩ - h
  exact ⟨rfl, h⟩

theorem lt16 {a : Nat} (h : a ≤ U16_MAX) : a < 2 ^ 16 := by unfold U16_MAX at h; omega
theorem lt64 {a : Nat} (h : a ≤ U64_MAX) : a < 2 ^ 64 := by unfold U64_MAX at h; omega
theorem lt128 {a : Nat} (h : a ≤ U128_MAX) : a < 2 ^ 128 := by unfold U128_MAX at h; omega

theorem now_lt {c : Ctx} (h : c.timestamp ≤ U64_MAX) : c.now < 2 ^ 64 :=
  Nat.lt_of_le_of_lt (Nat.div_le_self _ _) (lt64 h)

theorem all64 {l : List Nat} (h : l.all (fun i => decide (i ≤ U64_MAX)) = true) : ∀ i ∈ l, i < 2 ^ 64 := by
  intro i hi
  exact lt64 (of_decide_eq_true (List.all_eq_true.1 h i hi))

/-- Methods, apart from `new` and `migrate`. -/
theorem Rep.run (hN : N.OK H) {c : Ctx} {k : Call} (hw : weight J k + f ≤ f') (h : Rep H N f' S.vlen S.mem S.st D)
    (hz : Fresh S.st S.vlen) (hc : StrFits c.predecessor) (ht : c.timestamp ≤ U64_MAX) (hr : k.in_range = true) (hk : CallOK N J k)
    (hn : isInit k = false) :
    Rel (RO H N f) (srun J S c k) (Bytes.run H J D (rootOf H S.st S.mem) c k) := by
  have hm : ∀ g, g ≤ f' → Rep H N g S.vlen S.mem S.st D := fun g hg => h.mono hg
  have h3 : f + 3 ≤ f' := by
    refine Nat.le_trans ?_ hw
    cases k <;> simp only [weight] <;> omega
  have r0 := hm f (by omega)
  have r1 := hm (f + 1) (by omega)
  have r2 := hm (f + 2) (by omega)
  have r3 := hm (f + 3) (by omega)
  have hnow := now_lt ht
  cases k with
  | new_ => simp [isInit] at hn
  | migrate => simp [isInit] at hn
  | set_stnear_contract a => exact Rel.other (Rel.onRec (r0.set_stnear_contract c hk))
  | set_operator_id a => exact Rel.other (Rel.onRec (r0.set_operator_id c hk))
  | set_owner_id a => exact Rel.other (Rel.onRec (r0.set_owner_id c hk))
  | update_registration_cost n =>
    exact Rel.other (Rel.onRec (r0.update_registration_cost c (lt128 (of_decide_eq_true hr))))
  | update_airdrop_user_data d => exact Rel.other (Rel.quiet (r1.update_airdrop hN c hc hk))
  | operator_multi_set_airdrop_data l =>
    simp only [weight] at hw
    exact Rel.other (Rel.quiet (Rep.multi_airdrop hN c hk (hm _ (by omega))))
  | claim_and_lock a p => exact Rel.other (Rel.quiet (r3.claim_and_lock hN c hc a p))
  | claim_stnear a => exact Rel.other (Rel.sends (r1.claim_stnear hN c hc a))
  | unlock_position i => exact Rel.other (Rel.quiet (r1.unlock_position hN c hc hnow (lt64 (of_decide_eq_true hr))))
  | unlock_partial_position i a =>
    have hr := of_decide_eq_true hr
    exact Rel.other (Rel.quiet (r2.unlock_partial_position hN c hc hnow (lt64 hr.1) (lt128 hr.2)))
  | locking_position_extend_days i p =>
    have hr := of_decide_eq_true hr
    exact Rel.other (Rel.quiet (r1.extend hN c hc (lt64 hr.1) p))
  | relock_position i p b =>
    have hr := of_decide_eq_true hr
    exact Rel.other (Rel.quiet (r2.relock_position hN c hc (lt64 hr.1) p b))
  | relock_partial_position i a p b =>
    have hr := of_decide_eq_true hr
    exact Rel.other (Rel.quiet (r2.relock_partial_position hN c hc (lt64 hr.1) a p b))
  | relock_from_balance p b => exact Rel.other (Rel.quiet (r2.relock_from_balance hN c hc p b))
  | clear_locking_position l => exact Rel.other (Rel.quiet (r1.clear_locking_position hN c hc (all64 hr)))
  | vote n a o => exact Rel.squiet (r3.internal_vote hN hz hc hk.1 hk.2 n)
  | rebalance n a o => exact Rel.squiet (r3.rebalance hN c hc hz hk.1 hk.2 n)
  | unvote a o => exact Rel.squiet (r1.internal_unvote hN c hz hc hk.1 hk.2)
  | set_lock_in_vote_filters t n a =>
    have hr := of_decide_eq_true hr
    exact Rel.other (Rel.onRec (r0.set_filters c (lt64 hr.1) (lt16 hr.2) hk))
  | update_min_unbond_period d => exact Rel.other (Rel.onRec (r0.update_min_unbond_period c (lt16 (of_decide_eq_true hr))))
  | update_max_unbond_period d => exact Rel.other (Rel.onRec (r0.update_max_unbond_period c (lt16 (of_decide_eq_true hr))))
  | set_prev_gov_contract i => exact Rel.other (Rel.onRec (r0.set_prev_gov_contract c hk))
  | migration_create_lps v l d =>
    simp only [weight] at hw
    exact Rel.other (Rel.quiet (Rep.migration hN c hc hk.2 hk.1 (hm _ (by omega)) hz))
  | operator_mirror_lps e l =>
    simp only [weight] at hw
    exact Rel.squiet (Rep.operator_mirror_lps hN c (hm (f + 1 + l.length) (by omega)) hz hk)
  | withdraw l a =>
    have hr := (Bool.and_eq_true_iff.1 hr).1
    exact Rel.other (Rel.sends (r1.withdraw hN c hc (all64 hr) a))
  | withdraw_all => exact Rel.other (Rel.sends (r1.withdraw_all hN c hc))
  | after_transfer_mpdao_callback v a => exact Rel.other (Rel.quiet (r1.mpdao_callback hN hz c hk a))
  | after_transfer_stnear_callback v a => exact Rel.other (Rel.quiet (r1.stnear_callback hN c hk a))
  | ft_on_transfer se a msg =>
    simp only [weight] at hw
    exact Rel.other (Rel.quiet (Rep.ft_on_transfer hN J c hk (hm _ (by omega)) hz a))
  | pre_delegate_evm_address e g => exact Rel.other (Rel.quiet (r0.pre_delegate hN c hc hk.1 hk.2))
  | operator_remove_pre_delegate_evm_address e => exact Rel.other (Rel.quiet (r0.remove_pre hN c hk))
  | operator_confirm_delegated_evm_address e => exact Rel.other (Rel.quiet (r2.confirm hN c hk))
  | delegated_claim_stnear e a => exact Rel.other (Rel.sends (r1.delegated_claim hN c hc hk a))
  | vote_delegated e n a o => exact Rel.squiet (r3.vote_delegated hN c hc hz hk.1 hk.2.1 hk.2.2 n)
  | unvote_delegated e a o => exact Rel.squiet (r1.unvote_delegated hN c hc hz hk.1 hk.2.1 hk.2.2)
  | remove_delegated_evm_address e => exact Rel.other (Rel.quiet (r1.remove_delegated hN c hc hk))

/-- Calls. -/
theorem Stored.exec (hN : N.OK H) {c : Ctx} {k : Call} (hw : weight J k + f ≤ f') (h : Stored H N f' S D)
    (hc : StrFits c.predecessor) (ht : c.timestamp ≤ U64_MAX) (hk : CallOK N J k) :
    Rel (RX H N f) (sexec J S c k) (exec H J D c k) := by
  unfold sexec Bytes.exec
  refine Rel.step _ fun _ _ => ?_
  refine Rel.step _ fun _ _ => ?_
  refine Rel.step _ fun _ hr => ?_
  have hr : k.in_range = true := by simpa using hr
  by_cases hn : isInit k = false
  · have h0 := h.rep.run hN hw h.fresh hc ht hr hk hn
    have h1 : Rel (RX H N f) (srun J S c k) (do
        let r ← Bytes.load D
        let x ← Bytes.run H J D r c k
        pure (Bytes.save x.1 x.2.1, x.2.2)) := by
      refine Rel.ok h.load ?_
      exact Rel.right h0 fun a b hab => ⟨hab.1, RSS.save hab.2⟩
    cases k with
    | new_ => simp [isInit] at hn
    | migrate => simp [isInit] at hn
    | _ => exact h1
  · cases k with
    | new_ o op a b d l v m st r p =>
      show Rel _ (S.other J c _) (Bytes.new H D o op a b d l v m st r p >>= _)
      unfold SState.other MetaVote.run Bytes.new
      have e1 : require (D STATE = none) "The contract is already initialized" =
          .error (.assert "The contract is already initialized") := by
        rw [h.state]; rfl
      rw [e1]
      rfl
    | migrate =>
      show Rel _ (S.other J c .migrate) (Bytes.migrate D c >>= _)
      unfold SState.other MetaVote.run Bytes.migrate MetaVote.migrate
      simp only [MetaVote.quiet, bind_assoc]
      refine Rel.step _ fun _ _ => ?_
      rw [h.state]
      have := (C88_once h.rep.root_fits (o := (rootOf H S.st S.mem).old) h.rep.root_fits.1).1
      simp only [expect]
      show Rel _ _ (migrateRec _ >>= _)
      rw [this]
      rfl
    | _ => simp [isInit] at hn

end Verif.MetaVote.Bytes
