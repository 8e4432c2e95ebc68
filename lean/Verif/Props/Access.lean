import Verif.MetaVote.Config
import Verif.MetaVote.Trace
import Verif.MetaVote.Loose
import Verif.MetaVote.VoteEffects

/-!
# Privileges, configuration, isolation and airdrop data (C18–C20, C42)
-/

namespace Verif.MetaVote

open Verif

/-! ## C18: privileged calls -/

/-- Who may make a call, and with which deposit. -/
structure Authorized (s : State) (c : Ctx) (k : Call) : Prop where
  owner : k.ownerOnly = true → c.predecessor = s.owner_id
  operator : k.operatorOnly = true → c.predecessor = s.operator_id
  yocto : k.oneYocto = true → c.deposit = 1
  governance : (∃ v l d, k = .migration_create_lps v l d) → c.predecessor = s.prev_governance_contract
  callback : (∃ v a, k = .after_transfer_mpdao_callback v a ∨ k = .after_transfer_stnear_callback v a) →
    c.predecessor = c.current
  token : (∃ se a m, k = .ft_on_transfer se a m) →
    c.predecessor = s.mpdao_token_contract_address ∨ c.predecessor = s.stnear_token_contract_address
  fee : (∃ d, k = .update_airdrop_user_data d) → c.deposit = s.registration_cost
  initialized : k ≠ .migrate ∧ ∀ a b d e f g h i j l m, k ≠ .new_ a b d e f g h i j l m
  /-- methods that are not payable accept no deposit -/
  unpaid : k.payable = false → c.deposit = 0

/-- **C18**: every accepted call is authorized.  (The initialization is the only call of `new`.) -/
theorem C18_authorized {J : Json} {s s' : State} {c : Ctx} {k : Call} {out : List Transfer}
    (hx : exec J s c k = .ok (s', out)) : Authorized s c k := by
  obtain ⟨hd, hp, -, hr⟩ := exec_ok.1 hx
  refine ⟨?_, ?_, ?_, ?_, ?_, ?_, ?_, ?_, ?_⟩
  · intro hk
    cases k <;> simp only [Call.ownerOnly, Bool.false_eq_true] at hk <;>
      simp only [run, quiet_ok, State.set_stnear_contract, State.set_operator_id, State.set_owner_id,
        State.update_registration_cost, State.update_min_unbond_period, State.update_max_unbond_period,
        State.set_prev_gov_contract, State.assert_only_owner, assert_one_yocto, bind_ok_iff, require_ok_iff] at hr <;>
      grind
  · intro hk
    cases k <;> simp only [Call.operatorOnly, Bool.false_eq_true] at hk <;>
      simp only [run, quiet_ok, State.set_lock_in_vote_filters, State.operator_multi_set_airdrop_data,
        State.operator_mirror_lps, State.operator_remove_pre_delegate_evm_address,
        State.operator_confirm_delegated_evm_address, State.assert_operator, assert_one_yocto, bind_ok_iff,
        require_ok_iff] at hr <;>
      grind
  · intro hk
    cases k <;> simp only [Call.oneYocto, Bool.false_eq_true] at hk <;>
      simp only [run, quiet_ok, sends_ok, State.set_stnear_contract, State.set_operator_id, State.set_owner_id,
        State.update_min_unbond_period, State.update_max_unbond_period, State.set_prev_gov_contract,
        State.withdraw, State.withdraw_all, State.internal_withdraw, State.pre_delegate_evm_address, State.remove_delegated_evm_address,
        State.operator_remove_pre_delegate_evm_address, State.operator_confirm_delegated_evm_address,
        assert_one_yocto, bind_ok_iff, require_ok_iff] at hr <;>
      grind
  · rintro ⟨v, l, d, rfl⟩
    simp only [run, quiet_ok] at hr
    exact (migration_ok hr.1).1
  · rintro ⟨v, a, rfl | rfl⟩ <;> exact hp rfl
  · rintro ⟨se, a, m, rfl⟩
    simp only [run, quiet_ok] at hr
    rcases ft_on_transfer_ok hr.1 with ⟨info, -, -, hd⟩ | ⟨t, v', -, hp, -⟩
    · rcases distribute_ok hd with ⟨hp, -⟩ | ⟨-, hp, -⟩
      · exact .inl hp
      · exact .inr hp
    · exact .inl hp
  · rintro ⟨d, rfl⟩
    simp only [run, quiet_ok, State.update_airdrop_user_data, bind_ok_iff, require_ok_iff] at hr
    exact hr.1.choose_spec.1
  · refine ⟨?_, ?_⟩
    · rintro rfl; simp [run, quiet_ok, migrate, expect, bind_ok_iff] at hr
    · rintro a b d e f g h i j l m rfl; simp [run, quiet_ok, new] at hr
  · intro hk
    rcases hd with hd | hd
    · rw [hk] at hd; exact absurd hd (by simp)
    · exact hd

/-- **C18**: the calls of the owner are accepted exactly from the owner, with one yocto where required. -/
theorem C18_owner {J : Json} {s : State} {c : Ctx} {k : Call} (hk : k.ownerOnly = true) :
    (∃ r, exec J s c k = .ok r) ↔
      c.predecessor = s.owner_id ∧ c.deposit = (if k.oneYocto then 1 else 0) ∧ k.in_range = true := by
  constructor
  · rintro ⟨⟨s', out⟩, hx⟩
    have h := C18_authorized hx
    obtain ⟨-, -, hi, -⟩ := exec_ok.1 hx
    refine ⟨h.owner hk, ?_, hi⟩
    split
    · rename_i hy; exact h.yocto hy
    · rename_i hy
      refine h.unpaid ?_
      cases k <;> first | (simp [Call.ownerOnly] at hk; done) | (simp [Call.oneYocto] at hy; done) | rfl
  · rintro ⟨ho, hd, hi⟩
    cases k <;> first
      | (simp [Call.ownerOnly] at hk; done)
      | (simp only [Call.oneYocto, if_true] at hd
         exact ⟨(_, []), exec_ok.2 ⟨.inl rfl, by simp [Call.is_private], hi, by
           simp only [run, quiet_ok, State.set_stnear_contract, State.set_operator_id, State.set_owner_id,
             State.update_registration_cost, State.update_min_unbond_period, State.update_max_unbond_period,
             State.set_prev_gov_contract, State.assert_only_owner, assert_one_yocto, bind_ok_iff,
             require_ok_iff, pure_ok_iff]
           exact ⟨⟨(), hd, (), ho.symm, rfl⟩, trivial⟩⟩⟩)
      | (simp only [Call.oneYocto, Bool.false_eq_true, if_false] at hd
         exact ⟨(_, []), exec_ok.2 ⟨.inr hd, by simp [Call.is_private], hi, by
           simp only [run, quiet_ok, State.update_registration_cost, State.assert_only_owner, bind_ok_iff,
             require_ok_iff, pure_ok_iff]
           exact ⟨⟨(), ho.symm, rfl⟩, trivial⟩⟩⟩)

/-- The owner of the demo contract raises the minimum period; the operator may not. -/
example : Res.isOk (exec demoJ demo.st ⟨"me", "owner", 1, 5, []⟩ (.update_min_unbond_period 7)) = true ∧
    Res.isOk (exec demoJ demo.st ⟨"me", "operator", 1, 5, []⟩ (.update_min_unbond_period 7)) = false ∧
    Res.isOk (exec demoJ demo.st ⟨"me", "owner", 0, 5, []⟩ (.update_min_unbond_period 7)) = false := by
  decide +kernel

/-! ## C19: configuration -/

/-- **C19**: the configuration after an accepted call is that before, changed by exactly the eight privileged
setters; these change nothing else.  In particular no call changes the minimum deposit, the maximum numbers
of positions and apps, or the mpDAO token. -/
theorem C19_step {J : Json} {s s' : State} {c : Ctx} {k : Call} {out : List Transfer}
    (hx : exec J s c k = .ok (s', out)) :
    s'.config = configAfter s.config k ∧
    (s'.config ≠ s.config → (c.predecessor = s.owner_id ∧ k.ownerOnly = true ∨
        c.predecessor = s.operator_id ∧ k.operatorOnly = true) ∧
      s' = s.withConfig (configAfter s.config k) ∧ out = []) := by
  have hc := exec_config hx
  have ha := C18_authorized hx
  refine ⟨hc, fun hne => ?_⟩
  rw [hc] at hne
  obtain ⟨-, -, -, hr⟩ := exec_ok.1 hx
  cases k <;> first
    | (exact absurd rfl hne)
    | (refine ⟨.inl ⟨ha.owner rfl, rfl⟩, ?_⟩
       simp only [run, quiet_ok, State.update_registration_cost, bind_ok_iff, pure_ok_iff] at hr
       obtain ⟨⟨-, -, rfl⟩, rfl⟩ := hr
       exact ⟨rfl, rfl⟩)
    | (refine ⟨.inl ⟨ha.owner rfl, rfl⟩, ?_⟩
       simp only [run, quiet_ok, State.set_stnear_contract, State.set_operator_id, State.set_owner_id,
         State.update_min_unbond_period, State.update_max_unbond_period, State.set_prev_gov_contract,
         bind_ok_iff, pure_ok_iff] at hr
       obtain ⟨⟨-, -, -, -, rfl⟩, rfl⟩ := hr
       exact ⟨rfl, rfl⟩)
    | (refine ⟨.inr ⟨ha.operator rfl, rfl⟩, ?_⟩
       simp only [run, quiet_ok, State.set_lock_in_vote_filters, bind_ok_iff, pure_ok_iff] at hr
       obtain ⟨⟨-, -, rfl⟩, rfl⟩ := hr
       exact ⟨rfl, rfl⟩)

theorem callback_config {J : Json} {s s' : State} {c : Ctx} {t : Transfer} {out : List Transfer}
    (hx : exec J s c t.callbackCall = .ok (s', out)) : s'.config = s.config := by
  rw [exec_config hx]
  unfold Transfer.callbackCall
  cases t.callback <;> rfl

/-- **C19**: over every history, the configuration is the initial one (or that of any earlier world) changed
by the accepted calls in order; so a value is kept as long as its setter is not called. -/
theorem C19_history {J : Json} {me : AccountId} {w w' : World} (h : LSteps J me w w') :
    ∃ l, w'.log = l ++ w.log ∧ w'.st.config = (acceptedCalls l).foldr (fun k cf => configAfter cf k) w.st.config := by
  induction h with
  | refl => exact ⟨[], rfl, rfl⟩
  | step h hs ih =>
    obtain ⟨l, hl, hc⟩ := ih
    cases hs with
    | call c k s' out hme hres hm hclock hu64 hran =>
      refine ⟨.call c k out :: l, by simp [hl], ?_⟩
      simp only [acceptedCalls, List.foldr_cons, ← hc]
      exact hran.config
    | resolve pre post t ok ts hpend hclock hu64 =>
      refine ⟨_ :: l, by simp only [hl, List.cons_append]; rfl, ?_⟩
      simp only [acceptedCalls, ← hc]
      cases hx : exec J _ ⟨me, me, 0, ts, [ok]⟩ t.callbackCall with
      | error e => simp [Res.getOr]
      | ok r => simp only [Res.getOr]; exact callback_config (s' := r.1) (out := r.2) hx
    | tick ts hclock hu64 => exact ⟨l, hl, hc⟩

/-- **C19**: values without a setter never change after the initialization. -/
theorem C19_fixed {J : Json} {me : AccountId} {w w' : World} (h : LSteps J me w w') :
    w'.st.min_deposit_amount = w.st.min_deposit_amount ∧
    w'.st.max_locking_positions = w.st.max_locking_positions ∧
    w'.st.max_voting_positions = w.st.max_voting_positions ∧
    w'.st.mpdao_token_contract_address = w.st.mpdao_token_contract_address := by
  obtain ⟨l, -, hc⟩ := C19_history h
  have key : ∀ (ks : List Call) (cf : Config),
      (ks.foldr (fun k cf => configAfter cf k) cf).minDeposit = cf.minDeposit ∧
      (ks.foldr (fun k cf => configAfter cf k) cf).maxPositions = cf.maxPositions ∧
      (ks.foldr (fun k cf => configAfter cf k) cf).maxApps = cf.maxApps ∧
      (ks.foldr (fun k cf => configAfter cf k) cf).mpdao = cf.mpdao := by
    intro ks cf
    induction ks with
    | nil => exact ⟨rfl, rfl, rfl, rfl⟩
    | cons k ks ih =>
      rw [List.foldr_cons]
      cases k <;> exact ih
  obtain ⟨h1, h2, h3, h4⟩ := key (acceptedCalls l) w.st.config
  rw [← hc] at h1 h2 h3 h4
  exact ⟨h1, h2, h3, h4⟩

/-- A history with two changes of the configuration and a deposit. -/
example : ∃ w, Steps demoJ "me" demo0 w ∧ w.st.config =
    { demo0.st.config with operator := "op2", minUnbond := 7 } :=
  ⟨(runs demoJ "me" demo0
    [ .call "owner" 1 10 (.set_operator_id "op2"),
      .call "mpdao" 0 1000 (.ft_on_transfer "alice" 60000000 (ascii "60")),
      .call "owner" 1 2000 (.update_min_unbond_period 7) ]).get (by decide +kernel),
    steps_of_runs (Option.some_get _).symm, by decide +kernel⟩

/-! ## C20: other accounts -/

/-- The record (balance, positions, votes, power) and the claims of `id` are the same. -/
structure Kept (s s' : State) (id : String) : Prop where
  record : s'.voters.get id = s.voters.get id
  mpdao : s'.get_claimable_mpdao id = s.get_claimable_mpdao id
  stnear : s'.get_claimable_stnear id = s.get_claimable_stnear id

/-- The claims of `id` are the same. -/
structure KeptClaims (s s' : State) (id : String) : Prop where
  mpdao : s'.get_claimable_mpdao id = s.get_claimable_mpdao id
  stnear : s'.get_claimable_stnear id = s.get_claimable_stnear id

/-- The ways in which a call can change something of an account other than the caller. -/
inductive ByOther (s s' : State) (c : Ctx) (id : String) : Call → Prop
  /-- the mpDAO token reports a deposit of `id` itself, or of the owner: `id` gets all of it -/
  | deposit (se : String) (a : Nat) (m : List UInt8) (hc : c.predecessor = s.mpdao_token_contract_address)
      (hs : se = id ∨ se = s.owner_id) (hcl : KeptClaims s s' id)
      (hheld : (s'.voterD id).held = (s.voterD id).held + a)
      (hv : (s'.voterD id).vote_positions = (s.voterD id).vote_positions) :
      ByOther s s' c id (.ft_on_transfer se a m)
  /-- rewards only increase claims -/
  | reward (se : String) (a : Nat) (m : List UInt8)
      (hc : c.predecessor = s.mpdao_token_contract_address ∨ c.predecessor = s.stnear_token_contract_address)
      (hr : s'.voters.get id = s.voters.get id)
      (hm : s.get_claimable_mpdao id ≤ s'.get_claimable_mpdao id)
      (hst : s.get_claimable_stnear id ≤ s'.get_claimable_stnear id) :
      ByOther s s' c id (.ft_on_transfer se a m)
  | migration (l : List (Nat × Nat)) (d : Option String) (hc : c.predecessor = s.prev_governance_contract)
      (hcl : KeptClaims s s' id) (hheld : (s.voterD id).held ≤ (s'.voterD id).held)
      (hv : (s'.voterD id).vote_positions = (s.voterD id).vote_positions) :
      ByOther s s' c id (.migration_create_lps id l d)
  | mirror (e : String) (l : List (Nat × Nat)) (hc : c.predecessor = s.operator_id)
      (hid : id = pseudo_near_address e) (hcl : KeptClaims s s' id) :
      ByOther s s' c id (.operator_mirror_lps e l)
  /-- a delegate moves votes, not funds or positions -/
  | votes (e : String) (k : Call) (hid : id = pseudo_near_address e)
      (he : e ∈ s.get_delegating_evm_addresses c.predecessor)
      (hk : (∃ n a o, k = .vote_delegated e n a o) ∨ (∃ a o, k = .unvote_delegated e a o))
      (hcl : KeptClaims s s' id) (hb : (s'.voterD id).balance = (s.voterD id).balance)
      (hp : (s'.voterD id).locking_positions = (s.voterD id).locking_positions) : ByOther s s' c id k
  /-- a delegate claims stNEAR -/
  | claim (e : String) (a : Nat) (hid : id = pseudo_near_address e)
      (he : e ∈ s.get_delegating_evm_addresses c.predecessor)
      (hr : s'.voters.get id = s.voters.get id)
      (hm : s'.get_claimable_mpdao id = s.get_claimable_mpdao id)
      (hst : s'.get_claimable_stnear id + a = s.get_claimable_stnear id) :
      ByOther s s' c id (.delegated_claim_stnear e a)
  /-- the contract puts back what a failed transfer took -/
  | restoreMpdao (a : Nat) (hc : c.predecessor = c.current) (hcl : KeptClaims s s' id)
      (hv : s'.voterD id = { s.voterD id with balance := (s.voterD id).balance + a }) :
      ByOther s s' c id (.after_transfer_mpdao_callback id a)
  | restoreStnear (a : Nat) (hc : c.predecessor = c.current) (hr : s'.voters.get id = s.voters.get id)
      (hm : s'.get_claimable_mpdao id = s.get_claimable_mpdao id)
      (hst : s'.get_claimable_stnear id = s.get_claimable_stnear id + a) :
      ByOther s s' c id (.after_transfer_stnear_callback id a)

theorem VFrame.keptClaims {i id : String} {s s' : State} (h : VFrame i s s') : KeptClaims s s' id := by
  constructor
  · rw [State.get_claimable_mpdao, h.state]; rfl
  · rw [State.get_claimable_stnear, h.state]; rfl

theorem VFrame.kept {i id : String} {s s' : State} (h : VFrame i s s') (hne : id ≠ i) : Kept s s' id :=
  ⟨h.others id hne, h.keptClaims.mpdao, h.keptClaims.stnear⟩

/-- **C20**: an accepted call of one account leaves the record and the claims of every other account
unchanged, except in the ways listed in `ByOther`. -/
theorem C20_isolation {J : Json} {s s' : State} {c : Ctx} {k : Call} {out : List Transfer}
    (hx : exec J s c k = .ok (s', out)) {id : String} (hid : id ≠ c.predecessor) :
    Kept s s' id ∨ ByOther s s' c id k := by
  obtain ⟨-, hpriv, -, hr⟩ := exec_ok.1 hx
  cases k <;> simp only [run, quiet_ok, sends_ok] at hr
  case new_ => simp [new] at hr
  case migrate => simp [migrate, expect, bind_ok_iff] at hr
  case claim_and_lock =>
    obtain ⟨hr, rfl⟩ := hr
    obtain ⟨-, s1, v, h1, hv, v', h2⟩ := claim_and_lock_ok hr
    obtain ⟨-, -, rfl⟩ := remove_claimable_mpdao_ok h1
    obtain ⟨vp, ps, -, -, -, -, -, -, rfl⟩ := deposit_ok h2
    refine .inl ⟨UMap.get_insert_ne _ _ hid, ?_, rfl⟩
    simp [State.get_claimable_mpdao, take_get, hid]
  case claim_stnear =>
    obtain ⟨t, ht, rfl⟩ := hr
    obtain ⟨h, rfl⟩ := claim_stnear_ok ht
    obtain ⟨-, -, rfl⟩ := remove_claimable_stnear_ok h
    exact .inl ⟨rfl, rfl, by simp [State.get_claimable_stnear, take_get, hid]⟩
  case unlock_position => exact .inl ((unlock_position_veffect hr.1).toVFrame.kept hid)
  case unlock_partial_position => exact .inl ((unlock_partial_veffect hr.1).toVFrame.kept hid)
  case locking_position_extend_days => exact .inl ((extend_veffect hr.1).toVFrame.kept hid)
  case relock_position => exact .inl ((relock_position_veffect hr.1).toVFrame.kept hid)
  case relock_partial_position => exact .inl ((relock_partial_veffect hr.1).toVFrame.kept hid)
  case relock_from_balance => exact .inl ((relock_from_balance_veffect hr.1).toVFrame.kept hid)
  case clear_locking_position => exact .inl ((clear_veffect hr.1).toVFrame.kept hid)
  case vote => exact .inl ((internal_vote_veffect hr.1).toVFrame.kept hid)
  case rebalance => exact .inl ((rebalance_veffect hr.1).toVFrame.kept hid)
  case unvote => exact .inl ((internal_unvote_veffect hr.1).toVFrame.kept hid)
  case migration_create_lps v l d =>
    have hv := exec_votes hx id
    obtain ⟨hr, rfl⟩ := hr
    obtain ⟨hp, r, hf, hs⟩ := migration_ok hr
    have hfr := migration_fold_veffect hf
    have hvo : s'.voters = r.1.voters := by rw [hs]
    have hcl : KeptClaims s s' id := by
      have := hfr.toVFrame.keptClaims (id := id)
      exact ⟨by rw [← this.mpdao, hs]; rfl, by rw [← this.stnear, hs]; rfl⟩
    by_cases hvid : id = v
    · subst hvid
      refine .inr (.migration l d hp hcl ?_ ?_)
      · have := hfr.held
        rw [show s'.voterD id = r.1.voterD id by rw [State.voterD, hvo, State.voterD]]
        omega
      · generalize (s'.voterD id).vote_positions = x at hv
        cases hv with
        | same => rfl
        | vote _ n a o hk => rcases hk with ⟨hk, -⟩ | ⟨e, hk, -⟩ <;> simp at hk
        | unvote _ a o hk => rcases hk with ⟨hk, -⟩ | ⟨e, hk, -⟩ <;> simp at hk
        | gone _ hk => rcases hk with ⟨_, _, hk⟩ | hk <;> simp at hk
    · exact .inl ⟨by rw [hvo]; exact hfr.others id hvid, hcl.mpdao, hcl.stnear⟩
  case operator_mirror_lps e l =>
    obtain ⟨hp, h⟩ := mirror_vframe hr.1
    by_cases he : id = pseudo_near_address e
    · exact .inr (.mirror e l hp.symm he h.keptClaims)
    · exact .inl (h.kept he)
  case withdraw =>
    obtain ⟨t, ht, rfl⟩ := hr
    exact .inl ((internal_withdraw_veffect ht).toVFrame.kept hid)
  case withdraw_all =>
    obtain ⟨t, ht, rfl⟩ := hr
    obtain ⟨v, -, ht⟩ := withdraw_all_ok ht
    exact .inl ((internal_withdraw_veffect ht).toVFrame.kept hid)
  case after_transfer_mpdao_callback v a =>
    obtain ⟨hr, rfl⟩ := hr
    rcases callback_mpdao_ok hr with ⟨hp, rfl⟩ | ⟨hp, hw⟩
    · exact .inl ⟨rfl, rfl, rfl⟩
    · by_cases hv : id = v
      · subst hv
        refine .inr (.restoreMpdao a (hpriv rfl) (restore_veffect hw).toVFrame.keptClaims ?_)
        simp only [State.restore_transfer_to_mpdao, bind_ok_iff, addU128_ok_iff, pure_ok_iff,
          internal_get_voter_eq] at hw
        obtain ⟨b, ⟨-, rfl⟩, rfl⟩ := hw
        simp [State.voterD]
      · exact .inl ((restore_veffect hw).toVFrame.kept hv)
  case after_transfer_stnear_callback v a =>
    obtain ⟨hr, rfl⟩ := hr
    rcases callback_stnear_ok hr with ⟨hp, rfl⟩ | ⟨hp, hw⟩
    · exact .inl ⟨rfl, rfl, rfl⟩
    · obtain ⟨-, -, rfl⟩ := add_claimable_stnear_ok hw
      by_cases hv : id = v
      · subst hv
        exact .inr (.restoreStnear a (hpriv rfl) rfl rfl (by simp [State.get_claimable_stnear]))
      · exact .inl ⟨rfl, rfl, by simp [State.get_claimable_stnear, UMap.get_insert_ne _ _ hv]⟩
  case ft_on_transfer se a m =>
    obtain ⟨hr, rfl⟩ := hr
    rcases ft_on_transfer_ok hr with ⟨info, hm, -, hd⟩ | ⟨t, v', hm, hp, ht, hmin, hd⟩
    · obtain ⟨-, ⟨hp, -, h1, h2⟩ | ⟨-, hp, -, h1, h2⟩⟩ := distribute_exact hd
      · refine .inr (.reward se a m (.inl hp) (by rw [h2]) ?_ ?_)
        · have := h1 id
          simp only [claimOf, State.get_claimable_mpdao] at *; omega
        · rw [State.get_claimable_stnear, State.get_claimable_stnear, h2]
      · refine .inr (.reward se a m (.inr hp) (by rw [h2]) ?_ ?_)
        · rw [State.get_claimable_mpdao, State.get_claimable_mpdao, h2]
        · have := h1 id
          simp only [claimOf, State.get_claimable_stnear] at *; omega
    · have hfr := deposit_veffect (o := 0) hd rfl _ rfl (Nat.zero_le _)
      by_cases hv : id = t.1
      · subst hv
        refine .inr (.deposit se a m hp ?_ hfr.toVFrame.keptClaims ?_ ?_)
        · rcases deposit_target_ok ht with ⟨-, -, h⟩ | ⟨-, h, -⟩
          · exact .inr h
          · exact .inl h.symm
        · have := hfr.held; omega
        · obtain ⟨vp, ps, -, -, -, -, -, hv', rfl⟩ := deposit_ok hd
          simp only [State.voterD, UMap.get_insert_self, Option.getD_some, hv']
      · exact .inl (hfr.toVFrame.kept hv)
  case operator_confirm_delegated_evm_address =>
    have := confirm_ok hr.1
    exact .inl ⟨by rw [this], by rw [State.get_claimable_mpdao, this]; rfl,
      by rw [State.get_claimable_stnear, this]; rfl⟩
  case delegated_claim_stnear e a =>
    obtain ⟨t, ht, rfl⟩ := hr
    obtain ⟨he, h, rfl⟩ := delegated_claim_ok ht
    obtain ⟨hle, -, rfl⟩ := remove_claimable_stnear_ok h
    by_cases hv : id = pseudo_near_address e
    · refine .inr (.claim e a hv he rfl rfl ?_)
      subst hv
      simp only [State.get_claimable_stnear, take_get, if_true]
      omega
    · exact .inl ⟨rfl, rfl, by simp [State.get_claimable_stnear, take_get, hv]⟩
  case vote_delegated e n a o =>
    simp only [State.vote_delegated, bind_ok_iff] at hr
    obtain ⟨⟨p, hp, hv⟩, rfl⟩ := hr
    obtain ⟨he, rfl⟩ := verify_delegate_ok hp
    have hfr := (internal_vote_veffect hv).toVFrame
    by_cases hi : id = pseudo_near_address e
    · subst hi
      obtain ⟨-, -, -, -, -, rfl⟩ := internal_vote_ok hv
      exact .inr (.votes e _ rfl he (.inl ⟨n, a, o, rfl⟩) hfr.keptClaims (by simp [State.voterD])
        (by simp [State.voterD]))
    · exact .inl (hfr.kept hi)
  case unvote_delegated e a o =>
    simp only [State.unvote_delegated, bind_ok_iff] at hr
    obtain ⟨⟨p, hp, hv⟩, rfl⟩ := hr
    obtain ⟨he, rfl⟩ := verify_delegate_ok hp
    have hfr := (internal_unvote_veffect hv).toVFrame
    by_cases hi : id = pseudo_near_address e
    · subst hi
      obtain ⟨-, -, -, -, -, rfl⟩ := internal_unvote_ok hv
      exact .inr (.votes e _ rfl he (.inr ⟨a, o, rfl⟩) hfr.keptClaims (by simp [State.voterD])
        (by simp [State.voterD]))
    · exact .inl (hfr.kept hi)
  all_goals
    simp only [State.set_stnear_contract, State.set_operator_id, State.set_owner_id,
      State.update_registration_cost, State.update_airdrop_user_data,
      State.operator_multi_set_airdrop_data, State.set_lock_in_vote_filters,
      State.update_min_unbond_period, State.update_max_unbond_period, State.set_prev_gov_contract,
      State.pre_delegate_evm_address, State.operator_remove_pre_delegate_evm_address,
      State.remove_delegated_evm_address, bind_ok_iff, pure_ok_iff] at hr
    obtain ⟨hr, rfl⟩ := hr
    repeat (obtain ⟨_, _, hr⟩ := hr)
    exact .inl ⟨rfl, rfl, rfl⟩

/-- A call that changes the account of somebody else (the owner's deposit for bob): the exceptional case. -/
example : let r := exec demoJ demo.st ⟨"me", "mpdao", 0, 5000, []⟩ (.ft_on_transfer "owner" 5000000 [91, 49])
    r.isOk = true ∧ ((r.getOr (demo.st, [])).1.voterD "bob").held = (demo.st.voterD "bob").held + 5000000 := by
  decide +kernel

/-- A call that leaves the others alone (alice takes back a vote). -/
example : let r := exec demoJ demo.st ⟨"me", "alice", 0, 5000, []⟩ (.unvote "app" "obj2")
    r.isOk = true ∧ (demo.st.voters.get "bob").isSome = true ∧
    ((r.getOr (demo.st, [])).1.voterD "alice").vote_positions ≠ (demo.st.voterD "alice").vote_positions := by
  decide +kernel

/-! ## C42: airdrop data -/

/-- **C42**: the data registered for an account only changes by the account itself paying exactly the
registration cost, by the operator, or by the previous governance contract registering data under its own
name when there is none yet. -/
theorem C42_step {J : Json} {s s' : State} {c : Ctx} {k : Call} {out : List Transfer}
    (hx : exec J s c k = .ok (s', out)) (id : String)
    (hne : s'.associated_user_data.get id ≠ s.associated_user_data.get id) :
    (∃ d, k = .update_airdrop_user_data d ∧ id = c.predecessor ∧ c.deposit = s.registration_cost ∧
      s'.associated_user_data.get id = some d) ∨
    (∃ l d, k = .operator_multi_set_airdrop_data l ∧ c.predecessor = s.operator_id ∧ (id, d) ∈ l ∧
      s'.associated_user_data.get id = some d) ∨
    (∃ v l d, k = .migration_create_lps v l (some d) ∧ id = c.predecessor ∧
      c.predecessor = s.prev_governance_contract ∧ s.associated_user_data.get id = none ∧
      s'.associated_user_data.get id = some d) := by
  have ha := C18_authorized hx
  obtain ⟨-, hpriv, -, hr⟩ := exec_ok.1 hx
  have hframe : ∀ {i : String} {s1 s2 : State}, VFrame i s1 s2 →
      s2.associated_user_data = s1.associated_user_data := fun h => by rw [h.state]
  cases k <;> simp only [run, quiet_ok, sends_ok] at hr
  case update_airdrop_user_data d =>
    left
    simp only [State.update_airdrop_user_data, bind_ok_iff, require_ok_iff, pure_ok_iff] at hr
    obtain ⟨⟨-, hc, rfl⟩, rfl⟩ := hr
    by_cases hid : id = c.predecessor
    · exact ⟨d, rfl, hid, hc, by rw [hid]; exact UMap.get_insert_self _ _ _⟩
    · exact absurd (UMap.get_insert_ne _ _ hid) hne
  case operator_multi_set_airdrop_data l =>
    right; left
    simp only [State.operator_multi_set_airdrop_data, bind_ok_iff, pure_ok_iff] at hr
    obtain ⟨⟨-, -, rfl⟩, rfl⟩ := hr
    have key : ∀ (l : List (String × String)) (m : UMap String String),
        (l.foldl (fun m d => m.insert d.1 d.2) m).get id = m.get id ∨
        ∃ d, (id, d) ∈ l ∧ (l.foldl (fun m d => m.insert d.1 d.2) m).get id = some d := by
      intro l
      induction l with
      | nil => exact fun m => .inl rfl
      | cons x l ih =>
        intro m
        rw [List.foldl_cons]
        rcases ih (m.insert x.1 x.2) with h | ⟨d, hd, h⟩
        · by_cases hid : id = x.1
          · right
            exact ⟨x.2, by rw [hid]; exact List.mem_cons_self, by rw [h, hid]; exact UMap.get_insert_self _ _ _⟩
          · left; rw [h]; exact UMap.get_insert_ne _ _ hid
        · exact .inr ⟨d, List.mem_cons_of_mem _ hd, h⟩
    rcases key l s.associated_user_data with h | ⟨d, hd, h⟩
    · exact absurd h hne
    · exact ⟨l, d, rfl, ha.operator rfl, hd, h⟩
  case migration_create_lps v l d =>
    right; right
    obtain ⟨hr, rfl⟩ := hr
    obtain ⟨hp, r, hf, hs⟩ := migration_ok hr
    rw [hs] at hne
    simp only at hne
    cases d with
    | none => exact absurd rfl hne
    | some d =>
      simp only at hne
      split at hne
      · rename_i hn
        by_cases hid : id = c.predecessor
        · refine ⟨v, l, d, rfl, hid, hp, by rw [hid]; exact hn, ?_⟩
          rw [hs, hid]
          simp only [hn, if_true]
          exact UMap.get_insert_self _ _ _
        · exact absurd (UMap.get_insert_ne _ _ hid) hne
      · exact absurd rfl hne
  all_goals exfalso; apply hne
  case new_ => simp [new] at hr
  case migrate => simp [migrate, expect, bind_ok_iff] at hr
  case claim_and_lock =>
    obtain ⟨hr, rfl⟩ := hr
    obtain ⟨-, s1, v, h1, hv, v', h2⟩ := claim_and_lock_ok hr
    obtain ⟨-, -, rfl⟩ := remove_claimable_mpdao_ok h1
    obtain ⟨vp, ps, -, -, -, -, -, -, rfl⟩ := deposit_ok h2
    rfl
  case claim_stnear =>
    obtain ⟨t, ht, rfl⟩ := hr
    obtain ⟨h, rfl⟩ := claim_stnear_ok ht
    obtain ⟨-, -, rfl⟩ := remove_claimable_stnear_ok h
    rfl
  case unlock_position => rw [hframe (unlock_position_veffect hr.1).toVFrame]
  case unlock_partial_position => rw [hframe (unlock_partial_veffect hr.1).toVFrame]
  case locking_position_extend_days => rw [hframe (extend_veffect hr.1).toVFrame]
  case relock_position => rw [hframe (relock_position_veffect hr.1).toVFrame]
  case relock_partial_position => rw [hframe (relock_partial_veffect hr.1).toVFrame]
  case relock_from_balance => rw [hframe (relock_from_balance_veffect hr.1).toVFrame]
  case clear_locking_position => rw [hframe (clear_veffect hr.1).toVFrame]
  case vote => rw [hframe (internal_vote_veffect hr.1).toVFrame]
  case rebalance => rw [hframe (rebalance_veffect hr.1).toVFrame]
  case unvote => rw [hframe (internal_unvote_veffect hr.1).toVFrame]
  case operator_mirror_lps => rw [hframe (mirror_vframe hr.1).2]
  case withdraw =>
    obtain ⟨t, ht, rfl⟩ := hr
    rw [hframe (internal_withdraw_veffect ht).toVFrame]
  case withdraw_all =>
    obtain ⟨t, ht, rfl⟩ := hr
    obtain ⟨v, -, ht⟩ := withdraw_all_ok ht
    rw [hframe (internal_withdraw_veffect ht).toVFrame]
  case after_transfer_mpdao_callback =>
    rcases callback_mpdao_ok hr.1 with ⟨hp, rfl⟩ | ⟨hp, hw⟩
    · rfl
    · rw [hframe (restore_veffect hw).toVFrame]
  case after_transfer_stnear_callback =>
    rcases callback_stnear_ok hr.1 with ⟨hp, rfl⟩ | ⟨hp, hw⟩
    · rfl
    · obtain ⟨-, -, rfl⟩ := add_claimable_stnear_ok hw
      rfl
  case ft_on_transfer =>
    rcases ft_on_transfer_ok hr.1 with ⟨info, hm, -, hd⟩ | ⟨t, v', hm, hp, ht, hmin, hd⟩
    · rcases distribute_ok hd with ⟨hp, hd⟩ | ⟨hp, hp2, hd⟩ <;> rw [hd.frame.state]
    · rw [hframe (deposit_veffect (o := 0) hd rfl _ rfl (Nat.zero_le _)).toVFrame]
  case operator_confirm_delegated_evm_address => rw [confirm_ok hr.1]
  case delegated_claim_stnear =>
    obtain ⟨t, ht, rfl⟩ := hr
    obtain ⟨he, h, rfl⟩ := delegated_claim_ok ht
    obtain ⟨-, -, rfl⟩ := remove_claimable_stnear_ok h
    rfl
  case vote_delegated =>
    simp only [State.vote_delegated, bind_ok_iff] at hr
    obtain ⟨⟨p, hp, hv⟩, rfl⟩ := hr
    rw [hframe (internal_vote_veffect hv).toVFrame]
  case unvote_delegated =>
    simp only [State.unvote_delegated, bind_ok_iff] at hr
    obtain ⟨⟨p, hp, hv⟩, rfl⟩ := hr
    rw [hframe (internal_unvote_veffect hv).toVFrame]
  all_goals
    simp only [State.set_stnear_contract, State.set_operator_id, State.set_owner_id,
      State.update_registration_cost, State.set_lock_in_vote_filters,
      State.update_min_unbond_period, State.update_max_unbond_period, State.set_prev_gov_contract,
      State.pre_delegate_evm_address, State.operator_remove_pre_delegate_evm_address,
      State.remove_delegated_evm_address, bind_ok_iff, pure_ok_iff] at hr
    obtain ⟨hr, rfl⟩ := hr
    repeat (obtain ⟨_, _, hr⟩ := hr)
    rfl

/-- **C42**: an account that pays the cost is registered with its data, and nobody else is touched. -/
theorem C42_update {J : Json} {s : State} {c : Ctx} {d : String} :
    (∃ r, exec J s c (.update_airdrop_user_data d) = .ok r) ↔ c.deposit = s.registration_cost := by
  constructor
  · rintro ⟨⟨s', out⟩, hx⟩
    exact (C18_authorized hx).fee ⟨d, rfl⟩
  · intro hd
    exact ⟨(_, []), exec_ok.2 ⟨.inl rfl, by simp [Call.is_private], rfl, by
      simp only [run, quiet_ok, State.update_airdrop_user_data, bind_ok_iff, require_ok_iff, pure_ok_iff]
      exact ⟨⟨(), hd, rfl⟩, trivial⟩⟩⟩

/-- **C42**: `check_if_registered_for_airdrops` reports exactly the accounts with data, and
`get_airdrop_account` returns it. -/
theorem C42_registered (s : State) (id : String) :
    (s.check_if_registered_for_airdrops id = true ↔ ∃ d, s.get_airdrop_account id = .ok d) ∧
    ∀ d, s.get_airdrop_account id = .ok d ↔ s.associated_user_data.get id = some d := by
  have h : ∀ d, s.get_airdrop_account id = .ok d ↔ s.associated_user_data.get id = some d := by
    intro d; simp [State.get_airdrop_account]
  refine ⟨?_, h⟩
  simp only [h, State.check_if_registered_for_airdrops, Option.isSome_iff_exists]

/-- Data registered by the account itself, by the operator and by a migration. -/
example : ∃ w, Reach demoJ "me" w ∧ w.st.associated_user_data.entries =
    [("alice", "x"), ("bob", "z"), ("old-gov", "w")] :=
  ⟨(runs demoJ "me" demo0
    [ .call "alice" 0 10 (.update_airdrop_user_data "x"),
      .call "operator" 0 10 (.operator_multi_set_airdrop_data [("bob", "y"), ("bob", "z")]),
      .call "old-gov" 0 10 (.migration_create_lps "carol" [] (some "w")) ]).get (by decide +kernel),
    reach_of_runs demo0_init (Option.some_get _).symm, by decide +kernel⟩

end Verif.MetaVote
