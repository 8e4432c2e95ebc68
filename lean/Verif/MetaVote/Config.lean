import Verif.MetaVote.Reach
import Verif.Spec.Access

/-!
# Footprint of every call on the configuration
-/

namespace Verif.MetaVote

open Verif

theorem VFrame.config {id : String} {s s' : State} (h : VFrame id s s') : s'.config = s.config := by
  rw [h.state]; rfl

theorem exec_config {J : Json} {s s' : State} {c : Ctx} {k : Call} {out : List Transfer}
    (hx : exec J s c k = .ok (s', out)) : s'.config = configAfter s.config k := by

  obtain ⟨-, -, -, hr⟩ := exec_ok.1 hx
  cases k <;> simp only [run, quiet_ok, sends_ok] at hr
  case new_ => simp [new] at hr
  case migrate => simp [migrate, expect, bind_ok_iff] at hr
  case claim_and_lock =>
    obtain ⟨hr, rfl⟩ := hr
    obtain ⟨-, s1, v, h1, hv, v', h2⟩ := claim_and_lock_ok hr
    obtain ⟨-, -, rfl⟩ := remove_claimable_mpdao_ok h1
    have := (deposit_veffect (o := 0) h2 (by rw [← voterD_of_get hv]; rfl) _ rfl (Nat.zero_le _)).toVFrame.config
    exact this
  case claim_stnear =>
    obtain ⟨t, ht, rfl⟩ := hr
    obtain ⟨h, rfl⟩ := claim_stnear_ok ht
    obtain ⟨-, -, rfl⟩ := remove_claimable_stnear_ok h
    rfl
  case unlock_position => exact (unlock_position_veffect hr.1).toVFrame.config
  case unlock_partial_position => exact (unlock_partial_veffect hr.1).toVFrame.config
  case locking_position_extend_days => exact (extend_veffect hr.1).toVFrame.config
  case relock_position => exact (relock_position_veffect hr.1).toVFrame.config
  case relock_partial_position => exact (relock_partial_veffect hr.1).toVFrame.config
  case relock_from_balance => exact (relock_from_balance_veffect hr.1).toVFrame.config
  case clear_locking_position => exact (clear_veffect hr.1).toVFrame.config
  case vote => exact (internal_vote_veffect hr.1).toVFrame.config
  case rebalance => exact (rebalance_veffect hr.1).toVFrame.config
  case unvote => exact (internal_unvote_veffect hr.1).toVFrame.config
  case migration_create_lps =>
    obtain ⟨hr, rfl⟩ := hr
    obtain ⟨hp, r, hf, hs⟩ := migration_ok hr
    rw [hs]
    exact (migration_fold_veffect hf).toVFrame.config
  case operator_mirror_lps => exact (mirror_vframe hr.1).2.config
  case withdraw =>
    obtain ⟨t, ht, rfl⟩ := hr
    exact (internal_withdraw_veffect ht).toVFrame.config
  case withdraw_all =>
    obtain ⟨t, ht, rfl⟩ := hr
    obtain ⟨v, -, ht⟩ := withdraw_all_ok ht
    exact (internal_withdraw_veffect ht).toVFrame.config
  case after_transfer_mpdao_callback =>
    obtain ⟨hr, rfl⟩ := hr
    rcases callback_mpdao_ok hr with ⟨hp, rfl⟩ | ⟨hp, hw⟩
    · rfl
    · exact (restore_veffect hw).toVFrame.config
  case after_transfer_stnear_callback =>
    obtain ⟨hr, rfl⟩ := hr
    rcases callback_stnear_ok hr with ⟨hp, rfl⟩ | ⟨hp, hw⟩
    · rfl
    · obtain ⟨-, -, rfl⟩ := add_claimable_stnear_ok hw
      rfl
  case ft_on_transfer =>
    obtain ⟨hr, rfl⟩ := hr
    rcases ft_on_transfer_ok hr with ⟨info, hm, -, hd⟩ | ⟨t, v', hm, hp, ht, hmin, hd⟩
    · rcases distribute_ok hd with ⟨hp, hd⟩ | ⟨hp, hp2, hd⟩ <;> (rw [hd.frame.state]; rfl)
    · exact (deposit_veffect (o := 0) hd rfl _ rfl (Nat.zero_le _)).toVFrame.config
  case operator_confirm_delegated_evm_address =>
    rw [confirm_ok hr.1]; rfl
  case delegated_claim_stnear =>
    obtain ⟨t, ht, rfl⟩ := hr
    obtain ⟨he, h, rfl⟩ := delegated_claim_ok ht
    obtain ⟨-, -, rfl⟩ := remove_claimable_stnear_ok h
    rfl
  case vote_delegated =>
    simp only [State.vote_delegated, bind_ok_iff] at hr
    obtain ⟨⟨p, hp, hv⟩, rfl⟩ := hr
    exact (internal_vote_veffect hv).toVFrame.config
  case unvote_delegated =>
    simp only [State.unvote_delegated, bind_ok_iff] at hr
    obtain ⟨⟨p, hp, hv⟩, rfl⟩ := hr
    exact (internal_unvote_veffect hv).toVFrame.config
  all_goals
    simp only [State.set_stnear_contract, State.set_operator_id, State.set_owner_id,
      State.update_registration_cost, State.update_airdrop_user_data,
      State.operator_multi_set_airdrop_data, State.set_lock_in_vote_filters,
      State.update_min_unbond_period, State.update_max_unbond_period, State.set_prev_gov_contract,
      State.pre_delegate_evm_address, State.operator_remove_pre_delegate_evm_address,
      State.remove_delegated_evm_address, bind_ok_iff, pure_ok_iff] at hr
    obtain ⟨hr, rfl⟩ := hr
    repeat (obtain ⟨_, _, hr⟩ := hr)
    rfl

end Verif.MetaVote
