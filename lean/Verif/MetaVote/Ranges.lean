import Verif.MetaVote.AcceptIff
import Verif.MetaVote.Config
import Verif.MetaVote.PosInv

/-!
# Numbers of reachable states are numbers of their Rust types
-/

namespace Verif.MetaVote

open Verif

/-! ## Positions -/

/-- The numbers of a position other than its date. -/
def PosOK (p : LockingPosition) : Prop :=
  p.amount ≤ U128_MAX ∧ p.locking_period ≤ U16_MAX ∧ p.voting_power ≤ U128_MAX

theorem power_fits {a d vp : Nat} (h : calculate_voting_power a d = .ok vp) :
    a ≤ U128_MAX ∧ d ≤ U16_MAX ∧ vp ≤ U128_MAX := by
  simp only [calculate_voting_power, proportional, bind_ok_iff, require_ok_iff, mulU128_ok_iff, pure_ok_iff] at h
  obtain ⟨_, ⟨h1, rfl⟩, _, h2, _, -, _, h3, rfl⟩ := h
  refine ⟨?_, by unfold U16_MAX; omega, h3⟩
  exact (Nat.le_mul_of_pos_right a (by decide)).trans h1

theorem Dep.posOK {l ps : List LockingPosition} {m a d vp : Nat} (h : Dep l m a d vp ps)
    (hp : calculate_voting_power a d = .ok vp) (hl : ∀ p ∈ l, PosOK p) : ∀ p ∈ ps, PosOK p := by
  have hf := power_fits hp
  cases h with
  | increase i p hfi hp hd hlk ha hv => exact all_set hl ⟨ha, hf.2.1, hv⟩
  | create hfi hlen =>
    intro q hq
    rcases List.mem_append.1 hq with hq | hq
    · exact hl q hq
    · rw [List.mem_singleton] at hq; subst hq; exact hf

theorem Edit.posOK {s : State} {c : Ctx} {k : Call} {id : String} {b b' : Nat} {l l' : List LockingPosition}
    {x y : Nat} (h : Edit s c k id b l b' l' x y) (hl : ∀ p ∈ l, PosOK p) : ∀ p ∈ l', PosOK p := by
  cases h with
  | clear hp hm hfit => exact all_swapRemove hp hl
  | pay h0 h => exact hl
  | back h => exact hl
  | deposit hok hmin hd => exact hd.posOK hok.power hl
  | migrate hk hok hd => exact hd.posOK hok.power hl
  | unlock hk hp =>
    have h0 := hl _ (List.mem_of_getElem? hp)
    exact all_set hl h0
  | split hk hp ha hmin h1 hvp hle hlen =>
    have h0 := hl _ (List.mem_of_getElem? hp)
    refine all_set ?_ ⟨(Nat.sub_le _ _).trans h0.1, h0.2.1, (Nat.sub_le _ _).trans h0.2.2⟩
    intro q hq
    rcases List.mem_append.1 hq with hq | hq
    · exact hl q hq
    · rw [List.mem_singleton] at hq; subst hq; exact power_fits hvp
  | extend hk hid hs hp hlk hd hvp => exact all_set hl (power_fits hvp)
  | relock hk hid hs hp ht hx hlong hok hd => exact hd.posOK hok.power (all_swapRemove hp hl)
  | relockPart hk hp ht hx ha hmin hnow hlong hvp2 hok hd => exact hd.posOK hok.power (all_set hl (power_fits hvp2))
  | relockEnded hk hp ht hx ha hmin hnow hfit hok hd => exact hd.posOK hok.power (all_swapRemove hp hl)
  | relockBalance hk hx hmin hok hd => exact hd.posOK hok.power hl
  | mirror hk hm hps hnd => exact fun p hp => power_fits (hps p hp).2

theorem Edits.posOK {s : State} {c : Ctx} {k : Call} {id : String} {b b' : Nat} {l l' : List LockingPosition}
    {x y : Nat} (h : Edits s c k id b l b' l' x y) (hl : ∀ p ∈ l, PosOK p) : ∀ p ∈ l', PosOK p := by
  induction h with
  | refl => exact hl
  | step h hs ih => exact hs.posOK (ih hl)

theorem reach_posOK {J : Json} {me : AccountId} {w : World} (h : Reach J me w) (id : String) :
    ∀ p ∈ (w.st.voterD id).locking_positions, PosOK p := by
  refine h.state_inv (fun s => ∀ p ∈ (s.voterD id).locking_positions, PosOK p) ?_
    (fun _ _ _ _ _ hi hx => (exec_edits hx id).posOK hi)
  intro w hw
  cases hw with
  | mk o op a b d l v m st r p ts s hr hts hn =>
    obtain ⟨-, -, rfl⟩ := new_ok hn
    intro p hp
    cases hp

theorem reach_clock {J : Json} {me : AccountId} {w : World} (h : Reach J me w) : w.clock ≤ U64_MAX := by
  induction h with
  | init h => cases h; assumption
  | step h hs ih => cases hs <;> assumption

/-! ## Accumulated totals -/

/-- The totals ever distributed. -/
def State.given (s : State) : Nat × Nat :=
  (s.accumulated_mpdao_distributed_for_claims, s.accum_distributed_stnear_for_claims)

theorem VFrame.given {id : String} {s s' : State} (h : VFrame id s s') : s'.given = s.given := by
  rw [h.state]; rfl

theorem exec_given {J : Json} {s s' : State} {c : Ctx} {k : Call} {out : List Transfer}
    (hx : exec J s c k = .ok (s', out)) (hk : ∀ a b m, k ≠ .ft_on_transfer a b m) : s'.given = s.given := by
  obtain ⟨-, -, -, hr⟩ := exec_ok.1 hx
  cases k <;> simp only [run, quiet_ok, sends_ok] at hr
  case new_ => simp [new] at hr
  case migrate => simp [migrate, expect, bind_ok_iff] at hr
  case claim_and_lock =>
    obtain ⟨hr, rfl⟩ := hr
    obtain ⟨-, s1, v, h1, hv, v', h2⟩ := claim_and_lock_ok hr
    obtain ⟨-, -, rfl⟩ := remove_claimable_mpdao_ok h1
    have := (deposit_veffect (o := 0) h2 (by rw [← voterD_of_get hv]; rfl) _ rfl (Nat.zero_le _)).toVFrame.given
    exact this
  case claim_stnear =>
    obtain ⟨t, ht, rfl⟩ := hr
    obtain ⟨h, rfl⟩ := claim_stnear_ok ht
    obtain ⟨-, -, rfl⟩ := remove_claimable_stnear_ok h
    rfl
  case unlock_position => exact (unlock_position_veffect hr.1).toVFrame.given
  case unlock_partial_position => exact (unlock_partial_veffect hr.1).toVFrame.given
  case locking_position_extend_days => exact (extend_veffect hr.1).toVFrame.given
  case relock_position => exact (relock_position_veffect hr.1).toVFrame.given
  case relock_partial_position => exact (relock_partial_veffect hr.1).toVFrame.given
  case relock_from_balance => exact (relock_from_balance_veffect hr.1).toVFrame.given
  case clear_locking_position => exact (clear_veffect hr.1).toVFrame.given
  case vote => exact (internal_vote_veffect hr.1).toVFrame.given
  case rebalance => exact (rebalance_veffect hr.1).toVFrame.given
  case unvote => exact (internal_unvote_veffect hr.1).toVFrame.given
  case migration_create_lps =>
    obtain ⟨hr, rfl⟩ := hr
    obtain ⟨hp, r, hf, hs⟩ := migration_ok hr
    rw [hs]
    exact (migration_fold_veffect hf).toVFrame.given
  case operator_mirror_lps => exact (mirror_vframe hr.1).2.given
  case withdraw =>
    obtain ⟨t, ht, rfl⟩ := hr
    exact (internal_withdraw_veffect ht).toVFrame.given
  case withdraw_all =>
    obtain ⟨t, ht, rfl⟩ := hr
    obtain ⟨v, -, ht⟩ := withdraw_all_ok ht
    exact (internal_withdraw_veffect ht).toVFrame.given
  case after_transfer_mpdao_callback =>
    obtain ⟨hr, rfl⟩ := hr
    rcases callback_mpdao_ok hr with ⟨hp, rfl⟩ | ⟨hp, hw⟩
    · rfl
    · exact (restore_veffect hw).toVFrame.given
  case after_transfer_stnear_callback =>
    obtain ⟨hr, rfl⟩ := hr
    rcases callback_stnear_ok hr with ⟨hp, rfl⟩ | ⟨hp, hw⟩
    · rfl
    · obtain ⟨-, -, rfl⟩ := add_claimable_stnear_ok hw
      rfl
  case ft_on_transfer a b m => exact absurd rfl (hk a b m)
  case operator_confirm_delegated_evm_address =>
    rw [confirm_ok hr.1]; rfl
  case delegated_claim_stnear =>
    obtain ⟨t, ht, rfl⟩ := hr
    obtain ⟨he, h, rfl⟩ := delegated_claim_ok ht
    obtain ⟨-, -, rfl⟩ := remove_claimable_stnear_ok h
    rfl
  case vote_delegated =>
    simp only [State.vote_delegated, bind_ok_iff] at hr
    obtain ⟨⟨p, hp, hv⟩, rfl⟩ := hr
    exact (internal_vote_veffect hv).toVFrame.given
  case unvote_delegated =>
    simp only [State.unvote_delegated, bind_ok_iff] at hr
    obtain ⟨⟨p, hp, hv⟩, rfl⟩ := hr
    exact (internal_unvote_veffect hv).toVFrame.given
  all_goals
    simp only [State.set_stnear_contract, State.set_operator_id, State.set_owner_id,
      State.update_registration_cost, State.update_airdrop_user_data,
      State.operator_multi_set_airdrop_data, State.set_lock_in_vote_filters,
      State.update_min_unbond_period, State.update_max_unbond_period, State.set_prev_gov_contract,
      State.pre_delegate_evm_address, State.operator_remove_pre_delegate_evm_address,
      State.remove_delegated_evm_address, bind_ok_iff, pure_ok_iff] at hr
    obtain ⟨hr, rfl⟩ := hr
    repeat (obtain ⟨_, _, hr⟩ := hr)
    rfl


theorem reach_given {J : Json} {me : AccountId} {w : World} (h : Reach J me w) :
    w.st.given.1 ≤ U128_MAX ∧ w.st.given.2 ≤ U128_MAX := by
  refine (h.state_inv (fun s => CInv s ∧ Fits s ∧ s.given.1 ≤ U128_MAX ∧ s.given.2 ≤ U128_MAX) ?_ ?_).2.2
  · intro w hw
    refine ⟨init_cinv hw, ?_⟩
    cases hw with
    | mk o op a b d l v m st r p ts s hr hts hn =>
      obtain ⟨-, -, rfl⟩ := new_ok hn
      exact ⟨⟨Nat.zero_le _, Nat.zero_le _⟩, Nat.zero_le _, Nat.zero_le _⟩
  · intro s c k s' out ⟨hi, hf, hg⟩ hx
    refine ⟨(Ran.exact hx).cinv hi, (Ran.exact hx).fits hi hf, ?_⟩
    by_cases hk : ∀ a b m, k ≠ .ft_on_transfer a b m
    · rw [exec_given hx hk]; exact hg
    · simp only [ne_eq, not_forall, not_not] at hk
      obtain ⟨se, a, m, rfl⟩ := hk
      obtain ⟨-, -, -, hr⟩ := ft_call_ok hx
      rcases ft_on_transfer_ok hr with ⟨info, -, -, hd⟩ | ⟨t, v', hm', -, -, -, hd⟩
      · obtain ⟨-, h1 | h1⟩ := (distribute_iff hi hf).1 ⟨_, hd⟩
        · obtain ⟨-, ⟨-, -, -, hs⟩ | ⟨hne, -⟩⟩ := distribute_exact hd
          · rw [hs]; exact ⟨h1.2.2.2, hg.2⟩
          · exact absurd h1.1 hne
        · obtain ⟨-, ⟨he, -⟩ | ⟨-, -, -, -, hs⟩⟩ := distribute_exact hd
          · exact absurd he h1.1
          · rw [hs]; exact ⟨hg.1, h1.2.2.2.2⟩
      · rw [(deposit_veffect (o := 0) hd rfl _ rfl (Nat.zero_le _)).toVFrame.given]
        exact hg

/-! ## Settings -/

/-- The settings are in range. -/
def ConfigOK (cf : Config) : Prop :=
  cf.minUnbond ≤ U16_MAX ∧ cf.maxUnbond ≤ U16_MAX ∧ cf.minDeposit ≤ U128_MAX ∧ cf.maxPositions ≤ U8_MAX ∧
  cf.maxApps ≤ U8_MAX ∧ cf.registrationCost ≤ U128_MAX ∧ cf.lockInEnd ≤ U64_MAX ∧ cf.lockInNumber ≤ U16_MAX

theorem reach_configOK {J : Json} {me : AccountId} {w : World} (h : Reach J me w) : ConfigOK w.st.config := by
  refine h.state_inv (fun s => ConfigOK s.config) ?_ ?_
  · intro w hw
    cases hw with
    | mk o op a b d l v m st r p ts s hr hts hn =>
      obtain ⟨-, -, rfl⟩ := new_ok hn
      simp only [Call.in_range, decide_eq_true_eq] at hr
      exact ⟨hr.1, hr.2.1, hr.2.2.1, hr.2.2.2.1, hr.2.2.2.2.1, hr.2.2.2.2.2, Nat.zero_le _, Nat.zero_le _⟩
  · intro s c k s' out hi hx
    rw [exec_config hx]
    obtain ⟨-, -, hr, -⟩ := exec_ok.1 hx
    obtain ⟨h1, h2, h3, h4, h5, h6, h7, h8⟩ := hi
    cases k <;> simp only [configAfter] <;> first
      | exact ⟨h1, h2, h3, h4, h5, h6, h7, h8⟩
      | skip
    all_goals simp only [Call.in_range, decide_eq_true_eq] at hr
    case update_registration_cost => exact ⟨h1, h2, h3, h4, h5, hr, h7, h8⟩
    case set_lock_in_vote_filters => exact ⟨h1, h2, h3, h4, h5, h6, hr.1, hr.2⟩
    case update_min_unbond_period => exact ⟨hr, h2, h3, h4, h5, h6, h7, h8⟩
    case update_max_unbond_period => exact ⟨h1, hr, h3, h4, h5, h6, h7, h8⟩

end Verif.MetaVote
