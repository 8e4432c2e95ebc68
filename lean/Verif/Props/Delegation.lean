import Verif.Spec.Delegation
import Verif.Props.Access

/-!
# Delegation of EVM addresses (C21, C22)
-/

namespace Verif.MetaVote

open Verif

/-- Calls that change delegations. -/
def Call.delegates : Call → Bool
  | .pre_delegate_evm_address .. | .operator_remove_pre_delegate_evm_address ..
  | .operator_confirm_delegated_evm_address .. | .remove_delegated_evm_address .. => true
  | _ => false

/-- The three delegation tables. -/
structure SameTables (s s' : State) : Prop where
  delegates : s'.evm_delegates = s.evm_delegates
  pre : s'.evm_pre_delegation = s.evm_pre_delegation
  signatures : s'.evm_delegation_signatures = s.evm_delegation_signatures

theorem VFrame.tables {i : String} {s s' : State} (h : VFrame i s s') : SameTables s s' := by
  constructor <;> rw [h.state]

/-- No other call touches the delegations. -/
theorem exec_tables {J : Json} {s s' : State} {c : Ctx} {k : Call} {out : List Transfer}
    (hx : exec J s c k = .ok (s', out)) (hk : k.delegates = false) : SameTables s s' := by
  obtain ⟨-, hpriv, -, hr⟩ := exec_ok.1 hx
  cases k <;> simp only [Call.delegates, Bool.true_eq_false] at hk <;>
    simp only [run, quiet_ok, sends_ok] at hr
  case new_ => simp [new] at hr
  case migrate => simp [migrate, expect, bind_ok_iff] at hr
  case claim_and_lock =>
    obtain ⟨hr, rfl⟩ := hr
    obtain ⟨-, s1, v, h1, hv, v', h2⟩ := claim_and_lock_ok hr
    obtain ⟨-, -, rfl⟩ := remove_claimable_mpdao_ok h1
    obtain ⟨vp, ps, -, -, -, -, -, -, rfl⟩ := deposit_ok h2
    exact ⟨rfl, rfl, rfl⟩
  case claim_stnear =>
    obtain ⟨t, ht, rfl⟩ := hr
    obtain ⟨h, rfl⟩ := claim_stnear_ok ht
    obtain ⟨-, -, rfl⟩ := remove_claimable_stnear_ok h
    exact ⟨rfl, rfl, rfl⟩
  case unlock_position => exact (unlock_position_veffect hr.1).toVFrame.tables
  case unlock_partial_position => exact (unlock_partial_veffect hr.1).toVFrame.tables
  case locking_position_extend_days => exact (extend_veffect hr.1).toVFrame.tables
  case relock_position => exact (relock_position_veffect hr.1).toVFrame.tables
  case relock_partial_position => exact (relock_partial_veffect hr.1).toVFrame.tables
  case relock_from_balance => exact (relock_from_balance_veffect hr.1).toVFrame.tables
  case clear_locking_position => exact (clear_veffect hr.1).toVFrame.tables
  case vote => exact (internal_vote_veffect hr.1).toVFrame.tables
  case rebalance => exact (rebalance_veffect hr.1).toVFrame.tables
  case unvote => exact (internal_unvote_veffect hr.1).toVFrame.tables
  case operator_mirror_lps => exact (mirror_vframe hr.1).2.tables
  case withdraw =>
    obtain ⟨t, ht, rfl⟩ := hr
    exact (internal_withdraw_veffect ht).toVFrame.tables
  case withdraw_all =>
    obtain ⟨t, ht, rfl⟩ := hr
    obtain ⟨v, -, ht⟩ := withdraw_all_ok ht
    exact (internal_withdraw_veffect ht).toVFrame.tables
  case after_transfer_mpdao_callback =>
    rcases callback_mpdao_ok hr.1 with ⟨hp, rfl⟩ | ⟨hp, hw⟩
    · exact ⟨rfl, rfl, rfl⟩
    · exact (restore_veffect hw).toVFrame.tables
  case after_transfer_stnear_callback =>
    rcases callback_stnear_ok hr.1 with ⟨hp, rfl⟩ | ⟨hp, hw⟩
    · exact ⟨rfl, rfl, rfl⟩
    · obtain ⟨-, -, rfl⟩ := add_claimable_stnear_ok hw
      exact ⟨rfl, rfl, rfl⟩
  case ft_on_transfer =>
    rcases ft_on_transfer_ok hr.1 with ⟨info, hm, -, hd⟩ | ⟨t, v', hm, hp, ht, hmin, hd⟩
    · rcases distribute_ok hd with ⟨hp, hd⟩ | ⟨hp, hp2, hd⟩ <;> constructor <;> rw [hd.frame.state]
    · exact (deposit_veffect (o := 0) hd rfl _ rfl (Nat.zero_le _)).toVFrame.tables
  case migration_create_lps =>
    obtain ⟨hr, rfl⟩ := hr
    obtain ⟨hp, r, hf, hs⟩ := migration_ok hr
    have ht := (migration_fold_veffect hf).toVFrame.tables
    rw [hs]
    exact ⟨ht.delegates, ht.pre, ht.signatures⟩
  case delegated_claim_stnear =>
    obtain ⟨t, ht, rfl⟩ := hr
    obtain ⟨he, h, rfl⟩ := delegated_claim_ok ht
    obtain ⟨-, -, rfl⟩ := remove_claimable_stnear_ok h
    exact ⟨rfl, rfl, rfl⟩
  case vote_delegated =>
    simp only [State.vote_delegated, bind_ok_iff] at hr
    obtain ⟨⟨p, hp, hv⟩, rfl⟩ := hr
    exact (internal_vote_veffect hv).toVFrame.tables
  case unvote_delegated =>
    simp only [State.unvote_delegated, bind_ok_iff] at hr
    obtain ⟨⟨p, hp, hv⟩, rfl⟩ := hr
    exact (internal_unvote_veffect hv).toVFrame.tables
  all_goals
    simp only [State.set_stnear_contract, State.set_operator_id, State.set_owner_id,
      State.update_registration_cost, State.set_lock_in_vote_filters, State.update_airdrop_user_data,
      State.operator_multi_set_airdrop_data,
      State.update_min_unbond_period, State.update_max_unbond_period, State.set_prev_gov_contract,
      bind_ok_iff, pure_ok_iff] at hr
    obtain ⟨hr, rfl⟩ := hr
    repeat (obtain ⟨_, _, hr⟩ := hr)
    exact ⟨rfl, rfl, rfl⟩

/-! ## Effects of the four calls -/

theorem get_delegate_eq (s : State) (e : String) :
    s.get_delegate e = (s.evm_delegation_signatures.get e).map Prod.fst := by
  unfold State.get_delegate
  cases s.evm_delegation_signatures.get e <;> rfl

/-- Everything except the three tables is the same. -/
def OnlyTables (s s' : State) : Prop :=
  s' = { s with
    evm_delegates := s'.evm_delegates
    evm_pre_delegation := s'.evm_pre_delegation
    evm_delegation_signatures := s'.evm_delegation_signatures }

/-- The delegation tables agree with each other. -/
structure DInv (s : State) : Prop where
  agree : ∀ e a, s.get_delegate e = some a ↔ e ∈ s.get_delegating_evm_addresses a
  once : ∀ a, (s.get_delegating_evm_addresses a).Nodup

/-- What a confirmation of a pending request does. -/
structure Confirmed (s s' : State) (e a sig : String) : Prop where
  only : OnlyTables s s'
  request : s'.get_pre_delegate_evm_address e = none
  requests : ∀ e', e' ≠ e → s'.get_pre_delegate_evm_address e' = s.get_pre_delegate_evm_address e'
  delegate : s'.get_delegate e = some a
  delegates : ∀ e', e' ≠ e → s'.get_delegate e' = s.get_delegate e'
  /-- the signature is replaced unless the delegate stays the same -/
  signature : s'.get_delegation_signature e =
    if s.get_delegate e = some a then s.get_delegation_signature e else .ok (a, sig)
  listed : ∀ b, s'.get_delegating_evm_addresses b =
    if s.get_delegate e = some a then s.get_delegating_evm_addresses b
    else if b = a then s.get_delegating_evm_addresses b ++ [e]
    else (s.get_delegating_evm_addresses b).filter (fun x => x ≠ e)

theorem filter_not_mem {l : List String} {e : String} (h : e ∉ l) : l.filter (fun x => x ≠ e) = l := by
  rw [List.filter_eq_self]
  intro x hx
  have : x ≠ e := fun hxe => h (hxe ▸ hx)
  simp [this]

theorem drop_previous_ok {s s' : State} {e p : String} (h : s.drop_previous_delegate e p = .ok s') :
    (s.evm_delegates.get p).isSome ∧
    s'.evm_pre_delegation = s.evm_pre_delegation ∧
    s'.evm_delegation_signatures = s.evm_delegation_signatures ∧ OnlyTables s s' ∧
    ∀ b, s'.get_delegating_evm_addresses b =
      if b = p then (s.get_delegating_evm_addresses b).filter (fun x => x ≠ e)
      else s.get_delegating_evm_addresses b := by
  simp only [State.drop_previous_delegate, bind_ok_iff, expect_ok_iff, pure_ok_iff] at h
  obtain ⟨l, hl, rfl⟩ := h
  refine ⟨by simp [hl], rfl, rfl, rfl, fun b => ?_⟩
  simp only [State.get_delegating_evm_addresses]
  by_cases hb : b = p
  · subst hb
    rw [if_pos rfl, hl]
    split
    · rename_i h0
      rw [UMap.get_remove, if_pos rfl]
      simp only [Option.getD_none, Option.getD_some]
      exact (List.length_eq_zero_iff.1 h0).symm
    · simp
  · rw [if_neg hb]
    split
    · rw [UMap.get_remove, if_neg (Ne.symm hb)]
    · rw [UMap.get_insert, if_neg (Ne.symm hb)]

theorem confirm_cases {s s' : State} {c : Ctx} {e : String} (hi : DInv s)
    (h : s.operator_confirm_delegated_evm_address c e = .ok s') :
    c.deposit = 1 ∧ c.predecessor = s.operator_id ∧
    ((s.get_pre_delegate_evm_address e = none ∧ s' = s) ∨
      ∃ a sig, s.get_pre_delegate_evm_address e = some (a, sig) ∧ Confirmed s s' e a sig) := by
  simp only [State.operator_confirm_delegated_evm_address, assert_one_yocto, State.assert_operator, bind_ok_iff,
    require_ok_iff] at h
  obtain ⟨-, h1, -, h2, h⟩ := h
  refine ⟨h1, h2.symm, ?_⟩
  split at h
  · rename_i hn
    rw [pure_ok_iff] at h
    exact .inl ⟨hn, h.symm⟩
  · rename_i pre hp
    refine .inr ⟨pre.1, pre.2, hp, ?_⟩
    split at h
    · rename_i ex hex
      have hex' : s.evm_delegation_signatures.get e = some ex := hex
      have hde : s.get_delegate e = some ex.1 := by rw [get_delegate_eq, hex']; rfl
      split at h
      · rename_i heq
        rw [pure_ok_iff] at h
        subst h
        have hd : s.get_delegate e = some pre.1 := by rw [hde, heq]
        refine ⟨rfl, ?_, ?_, hd, fun _ _ => rfl, ?_, ?_⟩
        · simp only [State.get_pre_delegate_evm_address, UMap.get_remove, if_true]
        · intro e' he
          simp only [State.get_pre_delegate_evm_address, UMap.get_remove, if_neg (Ne.symm he)]
        · rw [if_pos hd]; rfl
        · intro b; rw [if_pos hd]; rfl
      · rename_i hne
        simp only [bind_ok_iff, pure_ok_iff] at h
        obtain ⟨s1, hs1, rfl⟩ := h
        obtain ⟨-, hpre, hsig, honly, hlist⟩ := drop_previous_ok hs1
        have hnd : s.get_delegate e ≠ some pre.1 := by rw [hde]; simpa using hne
        refine ⟨?_, ?_, ?_, ?_, ?_, ?_, ?_⟩
        · unfold OnlyTables at honly ⊢
          rw [State.add_delegate, honly]
        · simp only [State.get_pre_delegate_evm_address, State.add_delegate, hpre, UMap.get_remove, if_true]
        · intro e' he
          simp only [State.get_pre_delegate_evm_address, State.add_delegate, hpre, UMap.get_remove, if_neg (Ne.symm he)]
        · rw [get_delegate_eq]
          simp [State.add_delegate]
        · intro e' he
          rw [get_delegate_eq, get_delegate_eq]
          simp only [State.add_delegate, hsig, UMap.get_insert, if_neg (Ne.symm he)]
        · rw [if_neg hnd]
          simp [State.get_delegation_signature, State.add_delegate, expect]
        · intro b
          rw [if_neg hnd]
          have hb := hlist b
          by_cases hba : b = pre.1
          · rw [if_pos hba]
            have hbe : b ≠ ex.1 := fun h => hne (by rw [← h, hba])
            rw [if_neg hbe] at hb
            subst hba
            simp only [State.get_delegating_evm_addresses] at hb ⊢
            simp only [State.add_delegate, UMap.get_insert_self, Option.getD_some]
            rw [hb]
          · rw [if_neg hba]
            have hadd : (s1.add_delegate e pre.1 pre.2).get_delegating_evm_addresses b =
                s1.get_delegating_evm_addresses b := by
              simp only [State.get_delegating_evm_addresses, State.add_delegate, UMap.get_insert, if_neg (Ne.symm hba)]
            rw [hadd, hb]
            split
            · rfl
            · rename_i hbe
              refine (filter_not_mem fun hmem => hbe ?_).symm
              have := (hi.agree e b).2 hmem
              rw [hde] at this
              exact (Option.some.inj this).symm
    · rename_i hex
      have hex' : s.evm_delegation_signatures.get e = none := hex
      have hde : s.get_delegate e = none := by rw [get_delegate_eq, hex']; rfl
      rw [pure_ok_iff] at h
      subst h
      have hnd : s.get_delegate e ≠ some pre.1 := by rw [hde]; simp
      refine ⟨rfl, ?_, ?_, ?_, ?_, ?_, ?_⟩
      · simp only [State.get_pre_delegate_evm_address, State.add_delegate, UMap.get_remove, if_true]
      · intro e' he
        simp only [State.get_pre_delegate_evm_address, State.add_delegate, UMap.get_remove, if_neg (Ne.symm he)]
      · rw [get_delegate_eq]
        simp [State.add_delegate]
      · intro e' he
        rw [get_delegate_eq, get_delegate_eq]
        simp only [State.add_delegate, UMap.get_insert, if_neg (Ne.symm he)]
      · rw [if_neg hnd]
        simp [State.get_delegation_signature, State.add_delegate, expect]
      · intro b
        rw [if_neg hnd]
        by_cases hba : b = pre.1
        · rw [if_pos hba]
          subst hba
          simp [State.get_delegating_evm_addresses, State.add_delegate]
        · rw [if_neg hba]
          have : e ∉ s.get_delegating_evm_addresses b := fun hmem => by
            have := (hi.agree e b).2 hmem
            rw [hde] at this
            exact absurd this (by simp)
          rw [filter_not_mem this]
          simp only [State.get_delegating_evm_addresses, State.add_delegate, UMap.get_insert, if_neg (Ne.symm hba)]

theorem Confirmed.inv {s s' : State} {e a sig : String} (h : Confirmed s s' e a sig) (hi : DInv s) : DInv s' := by
  by_cases hd : s.get_delegate e = some a
  · have hl : ∀ b, s'.get_delegating_evm_addresses b = s.get_delegating_evm_addresses b := fun b => by
      rw [h.listed, if_pos hd]
    have hg : ∀ e', s'.get_delegate e' = s.get_delegate e' := fun e' => by
      by_cases he : e' = e
      · rw [he, h.delegate, hd]
      · exact h.delegates e' he
    exact ⟨fun e' b => by rw [hg, hl]; exact hi.agree e' b, fun b => by rw [hl]; exact hi.once b⟩
  · have hl := h.listed
    simp only [if_neg hd] at hl
    have hna : e ∉ s.get_delegating_evm_addresses a := fun hm => hd ((hi.agree e a).2 hm)
    constructor
    · intro e' b
      rw [hl]
      by_cases he : e' = e
      · subst he
        rw [h.delegate]
        by_cases hb : b = a
        · simp [hb]
        · rw [if_neg hb]
          simp [Ne.symm hb]
      · rw [h.delegates e' he, hi.agree]
        by_cases hb : b = a
        · simp [hb, he]
        · rw [if_neg hb]
          simp [he]
    · intro b
      rw [hl]
      split
      · rename_i hb
        subst hb
        rw [List.nodup_append]
        exact ⟨hi.once b, by simp, by
          intro x hx y hy hxy
          rw [List.mem_singleton] at hy
          exact hna (hy ▸ hxy ▸ hx)⟩
      · exact (hi.once b).filter _

/-- What `remove_delegated_evm_address` does. -/
structure Undelegated (s s' : State) (c : Ctx) (e : String) : Prop where
  only : OnlyTables s s'
  requests : ∀ e', s'.get_pre_delegate_evm_address e' = s.get_pre_delegate_evm_address e'
  delegate : s'.get_delegate e = none
  delegates : ∀ e', e' ≠ e → s'.get_delegate e' = s.get_delegate e'
  listed : s'.get_delegating_evm_addresses c.predecessor =
    (s.get_delegating_evm_addresses c.predecessor).filter (fun x => x ≠ e)
  others : ∀ b, b ≠ c.predecessor → s'.get_delegating_evm_addresses b = s.get_delegating_evm_addresses b

theorem remove_delegated_ok {s s' : State} {c : Ctx} {e : String}
    (h : s.remove_delegated_evm_address c e = .ok s') :
    c.deposit = 1 ∧ s.get_delegate e = some c.predecessor ∧ Undelegated s s' c e := by
  simp only [State.remove_delegated_evm_address, assert_one_yocto, bind_ok_iff, require_ok_iff, expect_ok_iff,
    pure_ok_iff] at h
  obtain ⟨-, h1, x, hx, -, h2, l, hl, rfl⟩ := h
  refine ⟨h1, by rw [get_delegate_eq, hx, ← h2]; rfl, rfl, fun _ => rfl, ?_, ?_, ?_, ?_⟩
  · rw [get_delegate_eq]; simp
  · intro e' he
    rw [get_delegate_eq, get_delegate_eq]
    simp only [UMap.get_remove, if_neg (Ne.symm he)]
  · simp [State.get_delegating_evm_addresses, hl]
  · intro b hb
    simp only [State.get_delegating_evm_addresses, UMap.get_insert, if_neg (Ne.symm hb)]

theorem Undelegated.inv {s s' : State} {c : Ctx} {e : String} (h : Undelegated s s' c e)
    (hd : s.get_delegate e = some c.predecessor) (hi : DInv s) : DInv s' := by
  constructor
  · intro e' b
    by_cases he : e' = e
    · subst he
      rw [h.delegate]
      by_cases hb : b = c.predecessor
      · rw [hb, h.listed]; simp
      · rw [h.others b hb, ← hi.agree, hd]
        simp [Ne.symm hb]
    · rw [h.delegates e' he, hi.agree]
      by_cases hb : b = c.predecessor
      · rw [hb, h.listed]; simp [he]
      · rw [h.others b hb]
  · intro b
    by_cases hb : b = c.predecessor
    · rw [hb, h.listed]; exact (hi.once _).filter _
    · rw [h.others b hb]; exact hi.once b

theorem SameTables.inv {s s' : State} (h : SameTables s s') (hi : DInv s) : DInv s' := by
  constructor
  · intro e a
    have := hi.agree e a
    rw [get_delegate_eq] at this ⊢
    unfold State.get_delegating_evm_addresses at this ⊢
    rw [h.signatures, h.delegates]
    exact this
  · intro a
    have := hi.once a
    unfold State.get_delegating_evm_addresses at this ⊢
    rw [h.delegates]
    exact this

theorem exec_dinv {J : Json} {s s' : State} {c : Ctx} {k : Call} {out : List Transfer} (hi : DInv s)
    (hx : exec J s c k = .ok (s', out)) : DInv s' := by
  cases hk : k.delegates
  · exact (exec_tables hx hk).inv hi
  · obtain ⟨-, -, -, hr⟩ := exec_ok.1 hx
    cases k <;> simp only [Call.delegates, Bool.false_eq_true] at hk <;> simp only [run, quiet_ok] at hr
    case pre_delegate_evm_address e sig =>
      simp only [State.pre_delegate_evm_address, bind_ok_iff, pure_ok_iff] at hr
      obtain ⟨⟨-, -, -, -, rfl⟩, -⟩ := hr
      exact ⟨hi.agree, hi.once⟩
    case operator_remove_pre_delegate_evm_address e =>
      simp only [State.operator_remove_pre_delegate_evm_address, bind_ok_iff, pure_ok_iff] at hr
      obtain ⟨⟨-, -, -, -, rfl⟩, -⟩ := hr
      exact ⟨hi.agree, hi.once⟩
    case operator_confirm_delegated_evm_address e =>
      obtain ⟨-, -, ⟨-, rfl⟩ | ⟨a, sig, -, hc⟩⟩ := confirm_cases hi hr.1
      · exact hi
      · exact hc.inv hi
    case remove_delegated_evm_address e =>
      obtain ⟨-, hd, hu⟩ := remove_delegated_ok hr.1
      exact hu.inv hd hi

theorem Call.delegates_votes {k : Call} (h : k.delegates = true) : k.votes = false := by
  cases k <;> simp [Call.delegates] at h <;> rfl

theorem Ran.tables {J : Json} {s s' : State} {c : Ctx} {k : Call} {out : List Transfer}
    (h : Ran J s c k s' out) (hk : k.delegates = false) : SameTables s s' := by
  cases h with
  | exact h => exact exec_tables h hk
  | vote id hk hm hf => rw [hf.state]; exact ⟨rfl, rfl, rfl⟩
  | mirror hop hf => rw [hf.state]; exact ⟨rfl, rfl, rfl⟩

theorem Ran.dinv {J : Json} {s s' : State} {c : Ctx} {k : Call} {out : List Transfer}
    (h : Ran J s c k s' out) (hi : DInv s) : DInv s' := by
  cases hk : k.delegates
  · exact (h.tables hk).inv hi
  · exact exec_dinv hi (h.exec (Call.delegates_votes hk))

/-! ## C21 -/

/-- **C21**: in every reachable state an EVM address is listed under an account exactly when that account is
its delegate, hence under at most one account, and only once. -/
theorem C21_consistent {J : Json} {me : AccountId} {w : World} (h : LReach J me w) :
    (∀ e a, w.st.get_delegate e = some a ↔ e ∈ w.st.get_delegating_evm_addresses a) ∧
    (∀ a, (w.st.get_delegating_evm_addresses a).Nodup) ∧
    (∀ e a b, e ∈ w.st.get_delegating_evm_addresses a → e ∈ w.st.get_delegating_evm_addresses b → a = b) := by
  have hi : DInv w.st := by
    refine h.state_inv DInv ?_ (fun _ _ _ _ _ hi hx => hx.dinv hi)
    intro w hw
    cases hw with
    | mk o op a b d l v m st r p ts s hr hts hn =>
      obtain ⟨-, -, rfl⟩ := new_ok hn
      constructor
      · intro e a
        rw [get_delegate_eq]
        simp [State.get_delegating_evm_addresses]
      · intro a
        simp [State.get_delegating_evm_addresses]
  refine ⟨hi.agree, hi.once, fun e a b ha hb => ?_⟩
  have h1 := (hi.agree e a).2 ha
  rw [(hi.agree e b).2 hb] at h1
  exact (Option.some.inj h1).symm

theorem reach_dinv {J : Json} {me : AccountId} {w : World} (h : LReach J me w) : DInv w.st :=
  ⟨(C21_consistent h).1, (C21_consistent h).2.1⟩

/-- **C21**: the operator's confirmation is always accepted, and does exactly this: a pending request becomes
the delegation (leaving the list of the previous delegate), and without a request nothing changes. -/
theorem C21_confirm {J : Json} {me : AccountId} {w : World} (h : LReach J me w) (c : Ctx) (e : String) :
    ((∃ r, exec J w.st c (.operator_confirm_delegated_evm_address e) = .ok r) ↔
      c.deposit = 1 ∧ c.predecessor = w.st.operator_id) ∧
    ∀ s' out, exec J w.st c (.operator_confirm_delegated_evm_address e) = .ok (s', out) →
      out = [] ∧ ((w.st.get_pre_delegate_evm_address e = none ∧ s' = w.st) ∨
        ∃ a sig, w.st.get_pre_delegate_evm_address e = some (a, sig) ∧ Confirmed w.st s' e a sig) := by
  have hi := reach_dinv h
  refine ⟨⟨?_, ?_⟩, ?_⟩
  · rintro ⟨⟨s', out⟩, hx⟩
    obtain ⟨-, -, -, hr⟩ := exec_ok.1 hx
    simp only [run, quiet_ok] at hr
    obtain ⟨h1, h2, -⟩ := confirm_cases hi hr.1
    exact ⟨h1, h2⟩
  · rintro ⟨h1, h2⟩
    replace h2 := h2.symm
    have : ∃ s', w.st.operator_confirm_delegated_evm_address c e = .ok s' := by
      simp only [State.operator_confirm_delegated_evm_address, assert_one_yocto, State.assert_operator, bind_ok_iff,
        require_ok_iff]
      cases hp : w.st.evm_pre_delegation.get e with
      | none => exact ⟨w.st, (), h1, (), h2, rfl⟩
      | some pre =>
        cases hex : w.st.evm_delegation_signatures.get e with
        | none => exact ⟨_, (), h1, (), h2, rfl⟩
        | some ex =>
          have hmem := (hi.agree e ex.1).1 (by rw [get_delegate_eq, hex]; rfl)
          obtain ⟨l, hl⟩ : ∃ l, w.st.evm_delegates.get ex.1 = some l := by
            cases hl : w.st.evm_delegates.get ex.1 with
            | none => simp [State.get_delegating_evm_addresses, hl] at hmem
            | some l => exact ⟨l, rfl⟩
          by_cases heq : ex.1 = pre.1
          · exact ⟨{ w.st with evm_pre_delegation := w.st.evm_pre_delegation.remove e }, (), h1, (), h2,
              by simp [heq, pure, Except.pure]⟩
          · obtain ⟨s1, hs1⟩ : ∃ s1, ({ w.st with
                evm_pre_delegation := w.st.evm_pre_delegation.remove e }).drop_previous_delegate e ex.1 = .ok s1 := by
              simp only [State.drop_previous_delegate, bind_ok_iff, expect_ok_iff, pure_ok_iff]
              exact ⟨_, l, hl, rfl⟩
            refine ⟨s1.add_delegate e pre.1 pre.2, (), h1, (), h2, ?_⟩
            simp only [heq, if_false, bind_ok_iff, pure_ok_iff]
            exact ⟨s1, hs1, rfl⟩
    obtain ⟨s', hs'⟩ := this
    exact ⟨(s', []), exec_ok.2 ⟨.inl rfl, by simp [Call.is_private], rfl, by
      simp only [run, quiet_ok]; exact ⟨hs', trivial⟩⟩⟩
  · intro s' out hx
    obtain ⟨-, -, -, hr⟩ := exec_ok.1 hx
    simp only [run, quiet_ok] at hr
    exact ⟨hr.2, (confirm_cases hi hr.1).2.2⟩

/-- **C21**: `remove_delegated_evm_address` is accepted exactly for the delegate with one yocto, and takes the
address out of the delegate's list. -/
theorem C21_remove {J : Json} {me : AccountId} {w : World} (h : LReach J me w) (c : Ctx) (e : String) :
    ((∃ r, exec J w.st c (.remove_delegated_evm_address e) = .ok r) ↔
      c.deposit = 1 ∧ w.st.get_delegate e = some c.predecessor) ∧
    ∀ s' out, exec J w.st c (.remove_delegated_evm_address e) = .ok (s', out) →
      out = [] ∧ Undelegated w.st s' c e := by
  have hi := reach_dinv h
  refine ⟨⟨?_, ?_⟩, ?_⟩
  · rintro ⟨⟨s', out⟩, hx⟩
    obtain ⟨-, -, -, hr⟩ := exec_ok.1 hx
    simp only [run, quiet_ok] at hr
    obtain ⟨h1, h2, -⟩ := remove_delegated_ok hr.1
    exact ⟨h1, h2⟩
  · rintro ⟨h1, h2⟩
    have hmem := (hi.agree e _).1 h2
    obtain ⟨l, hl⟩ : ∃ l, w.st.evm_delegates.get c.predecessor = some l := by
      cases hl : w.st.evm_delegates.get c.predecessor with
      | none => simp [State.get_delegating_evm_addresses, hl] at hmem
      | some l => exact ⟨l, rfl⟩
    rw [get_delegate_eq] at h2
    obtain ⟨x, hx, hx2⟩ := Option.map_eq_some_iff.1 h2
    exact ⟨(_, []), exec_ok.2 ⟨.inl rfl, by simp [Call.is_private], rfl, by
      simp only [run, quiet_ok, State.remove_delegated_evm_address, assert_one_yocto, bind_ok_iff, require_ok_iff,
        expect_ok_iff, pure_ok_iff]
      exact ⟨⟨(), h1, x, hx, (), hx2, l, hl, rfl⟩, trivial⟩⟩⟩
  · intro s' out hx
    obtain ⟨-, -, -, hr⟩ := exec_ok.1 hx
    simp only [run, quiet_ok] at hr
    exact ⟨hr.2, (remove_delegated_ok hr.1).2.2⟩

/-- A delegation that moves from carol to dave, and is then given up. -/
def delegationActs : List Action :=
  [ .call "dave" 1 20000 (.pre_delegate_evm_address "0xff" "sig2"),
    .call "operator" 1 20000 (.operator_confirm_delegated_evm_address "0xff"),
    .call "dave" 1 20000 (.pre_delegate_evm_address "0xee" "sig3"),
    .call "operator" 1 20000 (.operator_confirm_delegated_evm_address "0xee"),
    .call "dave" 1 20000 (.remove_delegated_evm_address "0xff") ]

example : demo.st.get_delegate "0xee" = some "carol" ∧
    demo.st.get_delegating_evm_addresses "carol" = ["0xee"] := by decide +kernel

example : ∃ w, Reach demoJ "me" w ∧ w.st.get_delegate "0xee" = some "dave" ∧
    w.st.get_delegating_evm_addresses "dave" = ["0xee"] ∧ w.st.get_delegating_evm_addresses "carol" = [] ∧
    w.st.get_delegate "0xff" = none :=
  ⟨(runs demoJ "me" demo delegationActs).get (by decide +kernel),
    demo_reach.steps (steps_of_runs (Option.some_get _).symm), by decide +kernel⟩

/-! ## C22 -/

/-- **C22**: the delegate and the pending request of every EVM address are what the history of accepted
requests, confirmations and revocations says. -/
theorem C22_history {J : Json} {me : AccountId} {w : World} (h : LReach J me w) (e : String) :
    standing e w.log = ⟨(w.st.get_pre_delegate_evm_address e).map Prod.fst, w.st.get_delegate e⟩ := by
  have hsame : ∀ {s s' : State}, SameTables s s' →
      (⟨(s'.get_pre_delegate_evm_address e).map Prod.fst, s'.get_delegate e⟩ : Standing) =
      ⟨(s.get_pre_delegate_evm_address e).map Prod.fst, s.get_delegate e⟩ := by
    intro s s' hs
    rw [get_delegate_eq, get_delegate_eq]
    simp only [State.get_pre_delegate_evm_address, hs.pre, hs.signatures]
  induction h with
  | init h =>
    cases h with
    | mk o op a b d l v m st r p ts s hr hts hn =>
      obtain ⟨-, -, rfl⟩ := new_ok hn
      simp [standing, State.get_pre_delegate_evm_address, get_delegate_eq]
  | @step w w' h hs ih =>
    have hi := reach_dinv h
    cases hs with
    | tick ts hclock hu64 => exact ih
    | resolve pre post t ok ts hpend hclock hu64 =>
      simp only [standing, ih]
      cases hx : exec J w.st ⟨me, me, 0, ts, [ok]⟩ t.callbackCall with
      | error p => rfl
      | ok r =>
        obtain ⟨s', out⟩ := r
        have ht : SameTables w.st s' := exec_tables hx (by cases t with | mk a b c cb => cases cb <;> rfl)
        exact (hsame ht).symm
    | call c k s' out hme hres hm hclock hu64 hran =>
      simp only [standing, ih]
      cases hk : k.delegates
      · rw [hsame (hran.tables hk)]
        cases k <;> simp [Call.delegates] at hk <;> rfl
      · obtain ⟨-, -, -, hr⟩ := exec_ok.1 (hran.exec (Call.delegates_votes hk))
        cases k <;> simp only [Call.delegates, Bool.false_eq_true] at hk <;> simp only [run, quiet_ok] at hr
        case pre_delegate_evm_address e' sig =>
          simp only [State.pre_delegate_evm_address, bind_ok_iff, pure_ok_iff] at hr
          obtain ⟨⟨-, -, -, -, rfl⟩, -⟩ := hr
          simp only [standingAfter, State.get_pre_delegate_evm_address, UMap.get_insert]
          by_cases he : e = e'
          · subst he
            simp [State.get_delegate]
          · rw [if_neg (Ne.symm he), if_neg (Ne.symm he)]
            rfl
        case operator_remove_pre_delegate_evm_address e' =>
          simp only [State.operator_remove_pre_delegate_evm_address, bind_ok_iff, pure_ok_iff] at hr
          obtain ⟨⟨-, -, -, -, rfl⟩, -⟩ := hr
          simp only [standingAfter, State.get_pre_delegate_evm_address, UMap.get_remove]
          by_cases he : e = e'
          · subst he
            simp [State.get_delegate]
          · rw [if_neg (Ne.symm he), if_neg (Ne.symm he)]
            rfl
        case operator_confirm_delegated_evm_address e' =>
          obtain ⟨-, -, ⟨hn, rfl⟩ | ⟨a, sig, hp, hc⟩⟩ := confirm_cases hi hr.1
          · simp only [standingAfter]
            by_cases he : e' = e
            · subst he
              simp [hn]
            · simp [he]
          · simp only [standingAfter]
            by_cases he : e' = e
            · subst he
              simp [hp, hc.request, hc.delegate]
            · rw [if_neg (fun h => he h.1), hc.requests e (Ne.symm he), hc.delegates e (Ne.symm he)]
        case remove_delegated_evm_address e' =>
          obtain ⟨-, -, hu⟩ := remove_delegated_ok hr.1
          simp only [standingAfter]
          by_cases he : e' = e
          · subst he
            simp [hu.requests, hu.delegate]
          · rw [if_neg he, hu.requests, hu.delegates e (Ne.symm he)]

/-- The log shows that `a` asked for `e`, and nobody asked again and the operator did not act on it since. -/
def AskedIn (e : String) (a : AccountId) (l : List Entry) : Prop :=
  ∃ l1 c sig out l2, l = l1 ++ .call c (.pre_delegate_evm_address e sig) out :: l2 ∧ c.predecessor = a ∧
    ∀ x ∈ l1, ∀ c' k o, x = .call c' k o → touchesRequest e k = false

theorem standing_requested {e a : String} : ∀ {l : List Entry}, (standing e l).requested = some a → AskedIn e a l := by
  intro l
  induction l with
  | nil => intro h; simp [standing] at h
  | cons x l ih =>
    intro h
    have lift : (standing e l).requested = some a → (∀ c' k o, x = .call c' k o → touchesRequest e k = false) →
        AskedIn e a (x :: l) := by
      intro h1 h2
      obtain ⟨l1, c, sig, out, l2, rfl, hc, hl⟩ := ih h1
      exact ⟨x :: l1, c, sig, out, l2, rfl, hc, fun y hy => by
        rcases List.mem_cons.1 hy with rfl | hy
        · exact h2
        · exact hl y hy⟩
    cases x with
    | resolved t ok b => exact lift h (by simp)
    | call c k o =>
      simp only [standing] at h
      have hstep : touchesRequest e k = false → AskedIn e a (.call c k o :: l) := by
        intro ht
        refine lift ?_ (fun c' k' o' hx => by cases hx; exact ht)
        cases k <;> simp only [touchesRequest, decide_eq_false_iff_not] at ht <;>
          simp only [standingAfter, ht, if_false, false_and] at h <;> try exact h
        split at h <;> exact h
      cases k
      case pre_delegate_evm_address e' sig =>
        by_cases he : e' = e
        · subst he
          simp only [standingAfter, if_true, Option.some.injEq] at h
          exact ⟨[], c, sig, o, l, rfl, h, by simp⟩
        · exact hstep (by simp [touchesRequest, he])
      case operator_remove_pre_delegate_evm_address e' =>
        by_cases he : e' = e
        · simp [standingAfter, he] at h
        · exact hstep (by simp [touchesRequest, he])
      case operator_confirm_delegated_evm_address e' =>
        by_cases he : e' = e
        · simp only [standingAfter, he, true_and] at h
          split at h
          · simp at h
          · rename_i hn
            rw [h] at hn
            simp at hn
        · exact hstep (by simp [touchesRequest, he])
      all_goals exact hstep rfl

/-- **C22**: if the contract reports `a` as the delegate of `e`, then `a` itself asked for `e`, the operator
confirmed that very request (the last one at that time), and since then the delegation was not given up. -/
theorem C22_confirmed {J : Json} {me : AccountId} {w : World} (h : LReach J me w) {e a : String}
    (hd : w.st.get_delegate e = some a) :
    ∃ l1 c out l2, w.log = l1 ++ .call c (.operator_confirm_delegated_evm_address e) out :: l2 ∧
      AskedIn e a l2 ∧
      ∀ x ∈ l1, ∀ c' o, x ≠ .call c' (.remove_delegated_evm_address e) o := by
  have key : ∀ {l : List Entry}, (standing e l).delegate = some a →
      ∃ l1 c out l2, l = l1 ++ .call c (.operator_confirm_delegated_evm_address e) out :: l2 ∧
        AskedIn e a l2 ∧ ∀ x ∈ l1, ∀ c' o, x ≠ .call c' (.remove_delegated_evm_address e) o := by
    intro l
    induction l with
    | nil => intro h; simp [standing] at h
    | cons x l ih =>
      intro h
      have lift : (standing e l).delegate = some a → (∀ c' o, x ≠ .call c' (.remove_delegated_evm_address e) o) →
          ∃ l1 c out l2, x :: l = l1 ++ .call c (.operator_confirm_delegated_evm_address e) out :: l2 ∧
            AskedIn e a l2 ∧ ∀ y ∈ l1, ∀ c' o, y ≠ .call c' (.remove_delegated_evm_address e) o := by
        intro h1 h2
        obtain ⟨l1, c, out, l2, rfl, hc, hl⟩ := ih h1
        exact ⟨x :: l1, c, out, l2, rfl, hc, fun y hy => by
          rcases List.mem_cons.1 hy with rfl | hy
          · exact h2
          · exact hl y hy⟩
      cases x with
      | resolved t ok b => exact lift h (by simp)
      | call c k o =>
        simp only [standing] at h
        cases k
        case operator_confirm_delegated_evm_address e' =>
          by_cases he : e' = e
          · subst he
            simp only [standingAfter, true_and] at h
            split at h
            · exact ⟨[], c, o, l, rfl, standing_requested h, by simp⟩
            · exact lift h (by simp)
          · exact lift (by simpa [standingAfter, he] using h) (by simp)
        case remove_delegated_evm_address e' =>
          by_cases he : e' = e
          · simp [standingAfter, he] at h
          · exact lift (by simpa [standingAfter, he] using h) (by simp [he])
        case pre_delegate_evm_address e' sig =>
          refine lift ?_ (by simp)
          simp only [standingAfter] at h
          split at h <;> exact h
        case operator_remove_pre_delegate_evm_address e' =>
          refine lift ?_ (by simp)
          simp only [standingAfter] at h
          split at h <;> exact h
        all_goals exact lift h (by simp)
  refine key ?_
  rw [C22_history h]
  exact hd

/-- **C22**: a delegated vote is accepted exactly when the caller is the delegate and the same vote of the
pseudo account would be, and then does exactly the same. -/
theorem C22_vote {J : Json} {me : AccountId} {w : World} (h : LReach J me w) (c : Ctx) (e : String) (n : Nat)
    (a o : String) (s' : State) (out : List Transfer) :
    exec J w.st c (.vote_delegated e n a o) = .ok (s', out) ↔
      w.st.get_delegate e = some c.predecessor ∧
      exec J w.st { c with predecessor := pseudo_near_address e } (.vote n a o) = .ok (s', out) := by
  have hi := reach_dinv h
  rw [hi.agree, exec_ok, exec_ok]
  simp only [run, quiet_ok, State.vote_delegated, State.verify_delegate, bind_ok_iff, require_ok_iff, pure_ok_iff,
    Call.payable, Call.is_private, Call.in_range, State.vote, State.get_delegating_evm_addresses]
  constructor
  · rintro ⟨h1, -, h3, ⟨p, ⟨-, h4, rfl⟩, h5⟩, h6⟩
    exact ⟨h4, h1, by simp, h3, h5, h6⟩
  · rintro ⟨h4, h1, -, h3, h5, h6⟩
    exact ⟨h1, by simp, h3, ⟨_, ⟨(), h4, rfl⟩, h5⟩, h6⟩

/-- **C22**: the same for taking a vote back. -/
theorem C22_unvote {J : Json} {me : AccountId} {w : World} (h : LReach J me w) (c : Ctx) (e : String)
    (a o : String) (s' : State) (out : List Transfer) :
    exec J w.st c (.unvote_delegated e a o) = .ok (s', out) ↔
      w.st.get_delegate e = some c.predecessor ∧
      exec J w.st { c with predecessor := pseudo_near_address e } (.unvote a o) = .ok (s', out) := by
  have hi := reach_dinv h
  rw [hi.agree, exec_ok, exec_ok]
  simp only [run, quiet_ok, State.unvote_delegated, State.verify_delegate, bind_ok_iff, require_ok_iff, pure_ok_iff,
    Call.payable, Call.is_private, Call.in_range, State.unvote, State.get_delegating_evm_addresses]
  constructor
  · rintro ⟨h1, -, h3, ⟨p, ⟨-, h4, rfl⟩, h5⟩, h6⟩
    exact ⟨h4, h1, by simp, h3, h5, h6⟩
  · rintro ⟨h4, h1, -, h3, h5, h6⟩
    exact ⟨h1, by simp, h3, ⟨_, ⟨(), h4, rfl⟩, h5⟩, h6⟩

/-- **C22**: a delegated claim is accepted exactly for the delegate and at most the amount owed to the pseudo
account; it lowers that claim, starts one transfer of the amount to the delegate, and a failure of the transfer
is given back to the pseudo account. -/
theorem C22_claim {J : Json} {me : AccountId} {w : World} (h : LReach J me w) (c : Ctx) (e : String) (n : Nat)
    (s' : State) (out : List Transfer) :
    exec J w.st c (.delegated_claim_stnear e n) = .ok (s', out) ↔
      w.st.get_delegate e = some c.predecessor ∧
      exec J w.st { c with predecessor := pseudo_near_address e, deposit := 0 } (.claim_stnear n) =
        .ok (s', [⟨w.st.stnear_token_contract_address, pseudo_near_address e, n,
          .after_transfer_stnear (pseudo_near_address e) n⟩]) ∧
      out = [⟨w.st.stnear_token_contract_address, c.predecessor, n,
        .after_transfer_stnear (pseudo_near_address e) n⟩] := by
  have hi := reach_dinv h
  rw [hi.agree, exec_ok, exec_ok]
  simp only [run, sends_ok, Call.in_range, Call.is_private, Call.payable]
  constructor
  · rintro ⟨-, -, h3, t, ht, rfl⟩
    obtain ⟨he, hs, rfl⟩ := delegated_claim_ok ht
    obtain ⟨-, -, h2⟩ := remove_claimable_stnear_ok hs
    refine ⟨he, ⟨.inr trivial, by simp, h3, _, ?_, rfl⟩, rfl⟩
    simp only [State.claim_stnear, bind_ok_iff, pure_ok_iff]
    exact ⟨s', hs, by rw [h2]; rfl⟩
  · rintro ⟨he, ⟨-, -, h3, t, ht, hteq⟩, rfl⟩
    obtain ⟨hs, rfl⟩ := claim_stnear_ok ht
    obtain ⟨-, -, h2⟩ := remove_claimable_stnear_ok hs
    refine ⟨.inl trivial, by simp, h3, _, ?_, rfl⟩
    simp only [State.delegated_claim_stnear, State.verify_delegate, bind_ok_iff, require_ok_iff, pure_ok_iff]
    exact ⟨_, ⟨(), he, rfl⟩, s', hs, by rw [h2]; rfl⟩

/-- carol is the delegate of `0xee` and takes back the vote that was made for it; alice cannot. -/
example : (exec demoJ demo.st ⟨"me", "carol", 0, 20000, []⟩ (.unvote_delegated "0xee" "app" "obj2")).isOk = true ∧
    (exec demoJ demo.st ⟨"me", "alice", 0, 20000, []⟩ (.unvote_delegated "0xee" "app" "obj2")).isOk = false ∧
    standing "0xee" demo.log = ⟨none, some "carol"⟩ := by
  decide +kernel

/-- A pseudo account with a claim of stNEAR, paid to the delegate. -/
example : ∃ w, Reach { demoJ with claims := fun _ => some [("0xee.evmp.near", 5)] } "me" w ∧
    w.pending = [⟨"stnear", "carol", 7, .after_transfer_stnear "0xee.evmp.near" 7⟩] :=
  ⟨(runs { demoJ with claims := fun _ => some [("0xee.evmp.near", 5)] } "me" demo0
    [ .call "stnear" 0 10 (.ft_on_transfer "dist" 500000000000000000000 (FOR_CLAIMS ++ [49])),
      .call "carol" 1 10 (.pre_delegate_evm_address "0xee" "sig"),
      .call "operator" 1 10 (.operator_confirm_delegated_evm_address "0xee"),
      .call "carol" 0 10 (.delegated_claim_stnear "0xee" 7) ]).get (by decide +kernel),
    reach_of_runs demo0_init (Option.some_get _).symm, by decide +kernel⟩

/-! ## C69: what the operator confirms -/

theorem standing_append {e : String} {l' l : List Entry}
    (h : ∀ x ∈ l', ∀ c k o, x = .call c k o → touchesRequest e k = false) :
    (standing e (l' ++ l)).requested = (standing e l).requested := by
  induction l' with
  | nil => rfl
  | cons x l' ih =>
    have ih := ih fun y hy => h y (List.mem_cons_of_mem _ hy)
    cases x with
    | resolved t ok b => exact ih
    | call c k o =>
      have ht := h _ List.mem_cons_self c k o rfl
      rw [List.cons_append, standing, ← ih]
      cases k <;> simp only [touchesRequest, decide_eq_false_iff_not] at ht <;>
        simp only [standingAfter, ht, if_false, false_and]
      split <;> rfl

/-- **C69** (partial: as long as no other request for the address is accepted in between): a request that
the operator has seen is the one that a later confirmation makes effective. -/
theorem C69_seen_partial {J : Json} {me : AccountId} {w w' : World} (h : LReach J me w) (hs : LSteps J me w w')
    {e a : String} {sig : String} (hp : w.st.get_pre_delegate_evm_address e = some (a, sig))
    (hno : ∀ l, w'.log = l ++ w.log → ∀ x ∈ l, ∀ c k o, x = .call c k o → touchesRequest e k = false)
    {c : Ctx} {s' : State} {out : List Transfer}
    (hx : exec J w'.st c (.operator_confirm_delegated_evm_address e) = .ok (s', out)) :
    s'.get_delegate e = some a := by
  obtain ⟨l, hl, -⟩ := C19_history hs
  have h' := h.steps hs
  have h1 := C22_history h e
  have h2 := C22_history h' e
  have h3 := standing_append (l := w.log) (hno l hl)
  rw [← hl, h1, h2] at h3
  simp only [hp, Option.map_some] at h3
  obtain ⟨x, hx1, hx2⟩ := Option.map_eq_some_iff.1 h3
  rcases ((C21_confirm h' c e).2 s' out hx).2 with ⟨hn, -⟩ | ⟨b, sig', hb, hc⟩
  · rw [hn] at hx1; simp at hx1
  · rw [hx1] at hb
    rw [hc.delegate, ← hx2, Option.some.inj hb]

/-- **C69 is false of the code**: between the operator's look at the request of erin (with erin's signature)
and the confirmation, mallory replaces the request, and becomes the delegate of the address. -/
theorem C69_false : ∃ w w', Reach demoJ "me" w ∧ Steps demoJ "me" w w' ∧
    w.st.get_pre_delegate_evm_address "0xaa" = some ("erin", "good signature") ∧
    (exec demoJ w'.st ⟨"me", "operator", 1, 20000, []⟩ (.operator_confirm_delegated_evm_address "0xaa")).isOk = true ∧
    ((exec demoJ w'.st ⟨"me", "operator", 1, 20000, []⟩ (.operator_confirm_delegated_evm_address "0xaa")).getOr
      (w'.st, [])).1.get_delegate "0xaa" = some "mallory" :=
  ⟨(runs demoJ "me" demo [.call "erin" 1 20000 (.pre_delegate_evm_address "0xaa" "good signature")]).get
      (by decide +kernel),
    (runs demoJ "me" ((runs demoJ "me" demo
      [.call "erin" 1 20000 (.pre_delegate_evm_address "0xaa" "good signature")]).get (by decide +kernel))
      [.call "mallory" 1 20000 (.pre_delegate_evm_address "0xaa" "nonsense")]).get (by decide +kernel),
    demo_reach.steps (steps_of_runs (Option.some_get _).symm), steps_of_runs (Option.some_get _).symm,
    by decide +kernel⟩

/-- Somebody else asks for another address in between: the seen request is confirmed. -/
example : ∃ w w', Reach demoJ "me" w ∧ Steps demoJ "me" w w' ∧
    w.st.get_pre_delegate_evm_address "0xaa" = some ("erin", "good signature") ∧
    w'.log.length = w.log.length + 1 ∧
    ((exec demoJ w'.st ⟨"me", "operator", 1, 20000, []⟩ (.operator_confirm_delegated_evm_address "0xaa")).getOr
      (w'.st, [])).1.get_delegate "0xaa" = some "erin" :=
  ⟨(runs demoJ "me" demo [.call "erin" 1 20000 (.pre_delegate_evm_address "0xaa" "good signature")]).get
      (by decide +kernel),
    (runs demoJ "me" ((runs demoJ "me" demo
      [.call "erin" 1 20000 (.pre_delegate_evm_address "0xaa" "good signature")]).get (by decide +kernel))
      [.call "mallory" 1 20000 (.pre_delegate_evm_address "0xbb" "nonsense")]).get (by decide +kernel),
    demo_reach.steps (steps_of_runs (Option.some_get _).symm), steps_of_runs (Option.some_get _).symm,
    by decide +kernel⟩

end Verif.MetaVote
