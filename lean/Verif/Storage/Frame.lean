import Verif.MetaVote.VoteEffects
import Verif.Storage.Bare

/-!
# Calls that do not vote leave the totals alone
-/

namespace Verif.MetaVote

open Verif

theorem migration_totals {i : String} : ∀ {l : List (Nat × Nat)} {s : State} {v : Voter} {r : State × Voter},
    l.foldlM (State.migration_step i) (s, v) = .ok r → r.1.votes = s.votes
  | [], s, v, r, hx => by rw [foldlM_ok_nil] at hx; subst hx; rfl
  | lp :: l, s, v, r, hx => by
    rw [foldlM_ok_cons] at hx
    obtain ⟨⟨s1, v1⟩, h1, h2⟩ := hx
    simp only [State.migration_step] at h1
    obtain ⟨vp, ps, -, -, -, -, -, hv1, hs1⟩ := deposit_ok h1
    rw [migration_totals h2, hs1]

theorem withdraw_totals {s s' : State} {x : Ctx} {id : String} {l : List Nat} {am : Option Nat} {t : Transfer}
    (hx : s.internal_withdraw x id l am = .ok (s', t)) : s'.votes = s.votes := by
  obtain ⟨v, v2, hv, -, hc, -, -, -, -, h1, h2, hs⟩ := internal_withdraw_ok hx
  by_cases hcond : v2.balance - am.getD v2.balance = 0 ∧ v2.locking_positions = []
  · rw [if_pos hcond] at hs; rw [hs]
  · rw [if_neg hcond] at hs; rw [hs]

theorem exec_totals {J : Json} {s s' : State} {c : Ctx} {k : Call} {out : List Transfer}
    (hx : exec J s c k = .ok (s', out)) (hk : k.votes = false) : s'.votes = s.votes := by
  obtain ⟨-, -, -, hr⟩ := exec_ok.1 hx
  cases k <;> simp only [Call.votes, Bool.true_eq_false] at hk <;> simp only [run, quiet_ok, sends_ok] at hr
  case new_ => simp [new] at hr
  case migrate => simp [migrate, expect, bind_ok_iff] at hr
  case claim_and_lock =>
    obtain ⟨hr, rfl⟩ := hr
    obtain ⟨-, s1, v, h1, hv, v', h2⟩ := claim_and_lock_ok hr
    obtain ⟨-, -, hs1⟩ := remove_claimable_mpdao_ok h1
    obtain ⟨vp, ps, -, -, -, -, -, rfl, hs⟩ := deposit_ok h2
    rw [hs, hs1]
  case claim_stnear =>
    obtain ⟨t, ht, rfl⟩ := hr
    obtain ⟨h, rfl⟩ := claim_stnear_ok ht
    obtain ⟨-, -, hs⟩ := remove_claimable_stnear_ok h
    rw [hs]
  case delegated_claim_stnear =>
    obtain ⟨t, ht, rfl⟩ := hr
    obtain ⟨he, h, rfl⟩ := delegated_claim_ok ht
    obtain ⟨-, -, hs⟩ := remove_claimable_stnear_ok h
    rw [hs]
  case unlock_position =>
    obtain ⟨hr, rfl⟩ := hr
    simp only [State.unlock_position, bind_ok_iff, pure_ok_iff] at hr
    obtain ⟨_, -, _, -, _, -, _, -, rfl⟩ := hr
    rfl
  case unlock_partial_position =>
    obtain ⟨hr, rfl⟩ := hr
    simp only [State.unlock_partial_position, bind_ok_iff, get_position_ok] at hr
    obtain ⟨v, hv, q, hq, hr⟩ := hr
    split at hr
    · simp only [State.unlock_position, bind_ok_iff, pure_ok_iff] at hr
      obtain ⟨_, -, _, -, _, -, _, -, rfl⟩ := hr
      rfl
    · simp only [bind_ok_iff, require_ok_iff, subU_ok_iff, pure_ok_iff, assert_at_least_1_mpdao,
        State.create_unlocking_position] at hr
      obtain ⟨-, hlt, r, ⟨-, rfl⟩, -, hmin, -, h1m, vp, hvp, -, hvple, -, hav, v2, ⟨-, hlen, rfl⟩, y,
        ⟨-, rfl⟩, z, ⟨-, rfl⟩, -, h1r, w', ⟨-, rfl⟩, rfl⟩ := hr
      rfl
  case locking_position_extend_days =>
    obtain ⟨hr, rfl⟩ := hr
    simp only [State.locking_position_extend_days, bind_ok_iff, get_position_ok, require_ok_iff,
      subU_ok_iff, addU128_ok_iff, pure_ok_iff] at hr
    obtain ⟨v, hv, p, hp, -, hl, -, hd, vp, hvp, de, ⟨hle, rfl⟩, t, ⟨ht, rfl⟩, av, ⟨ha, rfl⟩, rfl⟩ := hr
    rfl
  case relock_position =>
    obtain ⟨hr, rfl⟩ := hr
    simp only [State.relock_position, bind_ok_iff, pure_ok_iff] at hr
    obtain ⟨_, -, _, -, _, -, _, -, _, -, _, -, _, -, ⟨s1, v1⟩, hd, rfl⟩ := hr
    obtain ⟨vp, ps, -, -, -, -, -, -, hs⟩ := deposit_ok hd
    rw [hs]
  case relock_partial_position =>
    obtain ⟨hr, rfl⟩ := hr
    simp only [State.relock_partial_position, bind_ok_iff, get_position_ok, require_ok_iff,
      subU_ok_iff, addU128_ok_iff, pure_ok_iff, expect_ok_iff] at hr
    obtain ⟨v, hv, p, hp, -, hb, -, hap, am, ⟨-, rfl⟩, -, hmin, st, hst, v1, hv1, b, ⟨-, rfl⟩, ⟨s1, v2⟩, hd,
      rfl⟩ := hr
    obtain ⟨vp, ps, -, -, -, -, -, -, hs⟩ := deposit_ok hd
    rw [hs]
  case relock_from_balance =>
    obtain ⟨hr, rfl⟩ := hr
    simp only [State.relock_from_balance, bind_ok_iff, require_ok_iff,
      subU_ok_iff, pure_ok_iff] at hr
    obtain ⟨v, hv, -, hb, -, hm, b, ⟨-, rfl⟩, ⟨s1, v1⟩, hd, rfl⟩ := hr
    obtain ⟨vp, ps, -, -, -, -, -, -, hs⟩ := deposit_ok hd
    rw [hs]
  case clear_locking_position =>
    obtain ⟨hr, rfl⟩ := hr
    simp only [State.clear_locking_position, bind_ok_iff, require_ok_iff, pure_ok_iff] at hr
    obtain ⟨-, -, v, hv, v2, hc, rfl⟩ := hr
    rfl
  case migration_create_lps =>
    obtain ⟨hr, rfl⟩ := hr
    obtain ⟨hp, r, hf, hs⟩ := migration_ok hr
    have := migration_totals hf
    rw [hs]; exact this
  case withdraw =>
    obtain ⟨t, ht, rfl⟩ := hr
    exact withdraw_totals ht
  case withdraw_all =>
    obtain ⟨t, ht, rfl⟩ := hr
    obtain ⟨v, -, ht⟩ := withdraw_all_ok ht
    exact withdraw_totals ht
  case after_transfer_mpdao_callback =>
    obtain ⟨hr, rfl⟩ := hr
    rcases callback_mpdao_ok hr with ⟨hp, rfl⟩ | ⟨hp, hw⟩
    · rfl
    · simp only [State.restore_transfer_to_mpdao, bind_ok_iff, addU128_ok_iff, pure_ok_iff,
        internal_get_voter_eq] at hw
      obtain ⟨b, -, rfl⟩ := hw
      rfl
  case after_transfer_stnear_callback =>
    obtain ⟨hr, rfl⟩ := hr
    rcases callback_stnear_ok hr with ⟨hp, rfl⟩ | ⟨hp, hw⟩
    · rfl
    · obtain ⟨-, -, hs⟩ := add_claimable_stnear_ok hw
      rw [hs]
  case ft_on_transfer =>
    obtain ⟨hr, rfl⟩ := hr
    rcases ft_on_transfer_ok hr with ⟨info, hm, -, hd⟩ | ⟨t, v', hm, hp, ht, hmin, hd⟩
    · rcases distribute_ok hd with ⟨hp, hd⟩ | ⟨hp, hp2, hd⟩ <;> rw [hd.frame.state]
    · obtain ⟨vp, ps, -, -, -, -, -, -, hs⟩ := deposit_ok hd
      rw [hs]
  case operator_confirm_delegated_evm_address =>
    obtain ⟨hr, rfl⟩ := hr
    rw [confirm_ok hr]
  all_goals
    simp only [State.set_stnear_contract, State.set_operator_id, State.set_owner_id,
      State.update_registration_cost, State.update_airdrop_user_data,
      State.operator_multi_set_airdrop_data, State.set_lock_in_vote_filters,
      State.update_min_unbond_period, State.update_max_unbond_period, State.set_prev_gov_contract,
      State.pre_delegate_evm_address, State.operator_remove_pre_delegate_evm_address,
      State.remove_delegated_evm_address, bind_ok_iff, pure_ok_iff] at hr
    obtain ⟨hr, rfl⟩ := hr
    repeat (obtain ⟨_, _, hr⟩ := hr)
    rfl

end Verif.MetaVote
