import Verif.MetaVote.Exact
import Verif.MetaVote.Views

/-!
# What the views report, and the bound on the total voting power
-/

namespace Verif.MetaVote

open Verif

/-! ## Spec vocabulary on view results -/

/-- Power of the positions reported as locked. -/
def lockedPower (l : List LockingPositionJSON) : Nat :=
  ((l.filter (·.is_locked)).map (·.voting_power)).sum

/-- Sum of a quantity over the ids listed by `get_voters`. -/
def sumVoters (s : State) (f : String → Nat) : Nat := (s.voters.keys.map f).sum

theorem positions_json_map (now : Nat) (l : List LockingPosition) :
    (positions_json now l).map (·.voting_power) = l.map (·.voting_power) := by
  unfold positions_json
  rw [List.map_map]
  conv_rhs => rw [← List.zipIdx_map_fst 0 l]
  rw [List.map_map]; rfl

theorem lockedPower_positions (now : Nat) (l : List LockingPosition) :
    lockedPower (positions_json now l)
      = posSum (fun p => if p.unlocking_started_at = none then p.voting_power else 0) l := by
  suffices ∀ (l : List LockingPosition) n, lockedPower ((l.zipIdx n).map
      (fun x => x.1.to_json now (some x.2))) = posSum (fun p =>
        if p.unlocking_started_at = none then p.voting_power else 0) l from this l 0
  intro l
  induction l with
  | nil => intro n; rfl
  | cons p t ih =>
    intro n
    have := ih (n + 1)
    simp only [lockedPower, posSum, List.zipIdx_cons, List.map_cons, List.sum_cons] at *
    rw [List.filter_cons]
    cases hp : p.unlocking_started_at with
    | none => simp [LockingPosition.to_json, LockingPosition.is_locked, hp] at *; exact this
    | some t => simp [LockingPosition.to_json, LockingPosition.is_locked, hp] at *; exact this

theorem lockedPower_view (s : State) (now : Nat) (id : String) :
    lockedPower (s.get_all_locking_positions now id) = (s.voterD id).lockedVp :=
  lockedPower_positions now _

theorem get_available_eq (s : State) (id : String) :
    s.get_available_voting_power id = (s.voterD id).available_voting_power := rfl

theorem get_votes_for_object_eq (s : State) (id c o : String) :
    s.get_votes_for_object id c o = (s.voterD id).votesOf c o := by
  unfold State.get_votes_for_object
  rw [internal_get_voter_eq]
  unfold Voter.votesOf vget
  cases (s.voterD id).vote_positions.get c <;> rfl

theorem get_total_votes_eq (s : State) (c o : String) : s.get_total_votes c o = s.totalVotes c o := by
  unfold State.get_total_votes State.totalVotes vget
  cases s.votes.get c <;> rfl

theorem sum_used_votes_of_le {v : Voter} (h : v.used ≤ U128_MAX) : v.sum_used_votes = .ok v.used := by
  have key : ∀ es : List (String × UMap String Nat),
      (es.map (fun p => p.2.sum (fun _ n => n))).sum ≤ U128_MAX →
      (es.map Prod.snd).mapM (fun m => sumU128 m.values)
        = .ok (es.map (fun p => p.2.sum (fun _ n => n))) := by
    intro es hes
    rw [mapM_ok_iff]
    induction es with
    | nil => exact .nil
    | cons e es ih =>
      simp only [List.map_cons, List.sum_cons] at hes ⊢
      refine .cons ?_ (ih (by omega))
      rw [sumU128_ok_iff]
      have : e.2.values.sum = e.2.sum (fun _ n => n) := rfl
      rw [this]
      exact ⟨by omega, rfl⟩
  have h' : (v.vote_positions.entries.map (fun p => p.2.sum (fun _ n => n))).sum ≤ U128_MAX := h
  simp only [Voter.sum_used_votes, bind_ok_iff]
  refine ⟨_, key _ h', ?_⟩
  rw [sumU128_ok_iff]
  exact ⟨h', rfl⟩

theorem sumVoters_eq (s : State) (f : Voter → Nat) :
    sumVoters s (fun id => f (s.voterD id)) = s.voters.sum (fun _ v => f v) := by
  unfold sumVoters UMap.sum UMap.keys
  rw [List.map_map]
  congr 1
  refine List.map_congr_left fun p hp => ?_
  have : s.voters.get p.1 = some p.2 := UMap.get_eq_some_iff.2 hp
  simp [State.voterD, this]

/-! ## The total voting power is a `u128` -/

theorem deposit_total_le {s s' : State} {v v' : Voter} {a d : Nat} {id : String}
    (hd : s.deposit_locking_position a d id v = .ok (s', v')) : s'.total_voting_power ≤ U128_MAX := by
  obtain ⟨vp, ps, -, -, h, -, -, -, rfl⟩ := deposit_ok hd
  exact h

theorem unlock_position_total {s s' : State} {c : Ctx} {i : Nat}
    (hx : s.unlock_position c i = .ok s') : s'.total_voting_power ≤ s.total_voting_power := by
  simp only [State.unlock_position, bind_ok_iff, get_position_ok, require_ok_iff, subU_ok_iff,
    pure_ok_iff] at hx
  obtain ⟨v, hv, p, hp, -, hle, x, ⟨-, rfl⟩, rfl⟩ := hx
  exact Nat.sub_le _ _

theorem internal_vote_total {s s' : State} {id : String} {n : Nat} {c o : String}
    (hx : s.internal_vote id n c o = .ok s') : s'.total_voting_power = s.total_voting_power := by
  simp only [State.internal_vote, bind_ok_iff, pure_ok_iff] at hx
  obtain ⟨v, hv, ⟨s1, v1⟩, hr, rfl⟩ := hx
  obtain ⟨h1, -, -, -, rfl, rfl⟩ := create_voting_ok hr
  rfl

theorem internal_unvote_total {s s' : State} {x : Ctx} {id c o : String}
    (hx : s.internal_unvote x id c o = .ok s') : s'.total_voting_power = s.total_voting_power := by
  simp only [State.internal_unvote, bind_ok_iff, require_ok_iff, pure_ok_iff] at hx
  obtain ⟨-, -, v, hv, ⟨s1, v1⟩, hr, rfl⟩ := hx
  obtain ⟨-, -, h1, rfl, rfl⟩ := remove_voting_ok hr
  rfl

theorem rebalance_total {s s' : State} {x : Ctx} {n : Nat} {c o : String}
    (hx : s.rebalance x n c o = .ok s') : s'.total_voting_power = s.total_voting_power := by
  simp only [State.rebalance, bind_ok_iff, expect_ok_iff, require_ok_iff] at hx
  obtain ⟨v, hv, k, hk, -, hne, hx⟩ := hx
  split at hx
  · exact internal_unvote_total hx
  · simp only [bind_ok_iff, pure_ok_iff] at hx
    obtain ⟨r, hr, rfl⟩ := hx
    split at hr
    · simp only [bind_ok_iff, require_ok_iff, subU_ok_iff, addU128_ok_iff, pure_ok_iff] at hr
      obtain ⟨ad, ⟨-, rfl⟩, -, hav, av, ⟨-, rfl⟩, vo, ⟨-, rfl⟩, s1, hs1, rfl⟩ := hr
      obtain ⟨-, rfl⟩ := increase_total_ok hs1
      rfl
    · simp only [bind_ok_iff, subU_ok_iff, addU128_ok_iff, pure_ok_iff] at hr
      obtain ⟨ad, ⟨-, rfl⟩, av, ⟨-, rfl⟩, vo, ⟨-, rfl⟩, s1, hs1, rfl⟩ := hr
      obtain ⟨h1, -, rfl⟩ := decrease_total_ok hs1
      rfl

theorem internal_withdraw_total {s s' : State} {x : Ctx} {id : String} {l : List Nat} {am : Option Nat}
    {t : Transfer} (hx : s.internal_withdraw x id l am = .ok (s', t)) :
    s'.total_voting_power = s.total_voting_power := by
  obtain ⟨v, v2, -, rfl, hc, -, -, -, -, -, -, hs⟩ := internal_withdraw_ok hx
  rw [hs]; split <;> rfl

theorem mirror_remove_total {n : Nat} : ∀ (fuel : Nat) (s : State) (v : Voter) (u : Nat)
    (r : State × Voter × Nat), State.mirror_remove_votes n fuel s v u = .ok r →
    r.1.total_voting_power = s.total_voting_power
  | 0, s, v, u, r, h => by
    unfold State.mirror_remove_votes at h
    split at h
    · simp at h
    · simp only [pure_ok_iff] at h; rw [← h]
  | fuel + 1, s, v, u, r, h => by
    unfold State.mirror_remove_votes at h
    split at h
    · simp only [bind_ok_iff, expect_ok_iff] at h
      obtain ⟨app, -, obj, -, ⟨s1, v1⟩, hr, u1, -, h⟩ := h
      obtain ⟨-, -, h1, rfl, rfl⟩ := remove_voting_ok hr
      have := mirror_remove_total fuel _ _ _ _ h
      exact this
    · simp only [pure_ok_iff] at h; rw [← h]

theorem mirror_total {s s' : State} {c : Ctx} {e : String} {l : List (Nat × Nat)}
    (h : s.total_voting_power ≤ U128_MAX)
    (hx : s.operator_mirror_lps c e l = .ok s') : s'.total_voting_power ≤ U128_MAX := by
  simp only [State.operator_mirror_lps, bind_ok_iff, addU128_ok_iff, subU_ok_iff, pure_ok_iff] at hx
  obtain ⟨-, -, u, -, prev, ⟨-, rfl⟩, vps, -, nvp, -, r, hloop, sv, hcr, av,
    ⟨hav, rfl⟩, tot, ⟨htot, rfl⟩, rfl⟩ := hx
  have h1 := mirror_remove_total _ _ _ _ _ hloop
  have h2 : sv.1.total_voting_power ≤ U128_MAX := by
    refine foldlM_inv (fun x : State × Voter => x.1.total_voting_power ≤ U128_MAX) ?_ _ _ _ ?_ hcr
    · rintro b a ⟨s2, v2⟩ - hb
      obtain ⟨vp, -, -, -, h3, -, -, rfl⟩ := create_locking_ok hb
      exact h3
    · simp only; rw [h1]; exact h
  exact (Nat.sub_le _ _).trans h2

theorem exec_total {J : Json} {s s' : State} {c : Ctx} {k : Call} {out : List Transfer}
    (h : s.total_voting_power ≤ U128_MAX) (hx : exec J s c k = .ok (s', out)) :
    s'.total_voting_power ≤ U128_MAX := by
  obtain ⟨-, -, -, hr⟩ := exec_ok.1 hx
  cases k <;> simp only [run, quiet_ok, sends_ok] at hr
  case claim_and_lock =>
    obtain ⟨-, s1, v, h1, hv, v', h2⟩ := claim_and_lock_ok hr.1
    exact deposit_total_le h2
  case unlock_position => exact (unlock_position_total hr.1).trans h
  case unlock_partial_position =>
    have hr := hr.1
    simp only [State.unlock_partial_position, bind_ok_iff, get_position_ok] at hr
    obtain ⟨v, hv, p, hp, hr⟩ := hr
    split at hr
    · exact (unlock_position_total hr).trans h
    · simp only [bind_ok_iff, require_ok_iff, subU_ok_iff, pure_ok_iff,
        State.create_unlocking_position] at hr
      obtain ⟨-, hlt, r, ⟨-, rfl⟩, -, -, -, -, vp, -, -, hvp, -, hav, v2, ⟨-, hlen, rfl⟩, y, ⟨-, rfl⟩,
        z, ⟨-, rfl⟩, -, -, w, ⟨-, rfl⟩, rfl⟩ := hr
      exact (Nat.sub_le _ _).trans h
  case locking_position_extend_days =>
    have hr := hr.1
    simp only [State.locking_position_extend_days, bind_ok_iff, get_position_ok, require_ok_iff,
      subU_ok_iff, addU128_ok_iff, pure_ok_iff] at hr
    obtain ⟨v, hv, p, hp, -, hl, -, -, vp, -, de, ⟨hle, rfl⟩, t, ⟨ht, rfl⟩, av, ⟨-, rfl⟩, rfl⟩ := hr
    exact ht
  case relock_position =>
    have hr := hr.1
    simp only [State.relock_position, bind_ok_iff, pure_ok_iff] at hr
    obtain ⟨_, _, _, _, _, _, _, _, _, _, _, _, _, _, r, hd, rfl⟩ := hr
    exact deposit_total_le (s' := r.1) (v' := r.2) hd
  case relock_partial_position =>
    have hr := hr.1
    simp only [State.relock_partial_position, bind_ok_iff, pure_ok_iff] at hr
    obtain ⟨_, _, _, _, _, _, _, _, _, _, _, _, _, _, _, _, _, _, r, hd, rfl⟩ := hr
    exact deposit_total_le (s' := r.1) (v' := r.2) hd
  case relock_from_balance =>
    have hr := hr.1
    simp only [State.relock_from_balance, bind_ok_iff, pure_ok_iff] at hr
    obtain ⟨_, _, _, _, _, _, _, _, r, hd, rfl⟩ := hr
    exact deposit_total_le (s' := r.1) (v' := r.2) hd
  case clear_locking_position =>
    simp only [State.clear_locking_position, bind_ok_iff, require_ok_iff, pure_ok_iff] at hr
    obtain ⟨⟨-, -, v, hv, v2, hv2, rfl⟩, -⟩ := hr
    exact h
  case vote => exact (internal_vote_total hr.1).trans_le h
  case rebalance => exact (rebalance_total hr.1).trans_le h
  case unvote => exact (internal_unvote_total hr.1).trans_le h
  case vote_delegated =>
    simp only [State.vote_delegated, bind_ok_iff] at hr
    obtain ⟨⟨p, -, hv⟩, -⟩ := hr
    exact (internal_vote_total hv).trans_le h
  case unvote_delegated =>
    simp only [State.unvote_delegated, bind_ok_iff] at hr
    obtain ⟨⟨p, -, hv⟩, -⟩ := hr
    exact (internal_unvote_total hv).trans_le h
  case migration_create_lps =>
    obtain ⟨-, r, hf, hs⟩ := migration_ok hr.1
    rw [hs]
    refine foldlM_inv (fun sv : State × Voter => sv.1.total_voting_power ≤ U128_MAX) ?_ _ _ r h hf
    rintro b lp ⟨s2, v2⟩ - hd
    exact deposit_total_le hd
  case operator_mirror_lps => exact mirror_total h hr.1
  case withdraw =>
    obtain ⟨t, ht, -⟩ := hr
    exact (internal_withdraw_total ht).trans_le h
  case withdraw_all =>
    obtain ⟨t, ht, -⟩ := hr
    obtain ⟨v, -, ht⟩ := withdraw_all_ok ht
    exact (internal_withdraw_total ht).trans_le h
  case after_transfer_mpdao_callback =>
    rcases callback_mpdao_ok hr.1 with ⟨-, rfl⟩ | ⟨-, hw⟩
    · exact h
    · simp only [State.restore_transfer_to_mpdao, bind_ok_iff, addU128_ok_iff, pure_ok_iff] at hw
      obtain ⟨b, ⟨-, rfl⟩, rfl⟩ := hw
      exact h
  case ft_on_transfer =>
    rcases ft_on_transfer_ok hr.1 with ⟨info, -, -, hd⟩ | ⟨t, v', -, -, -, -, hd⟩
    · rcases distribute_ok hd with ⟨-, hd⟩ | ⟨-, -, hd⟩ <;>
        (rw [hd.frame.state]; exact h)
    · exact deposit_total_le hd
  case after_transfer_stnear_callback =>
    rcases callback_stnear_ok hr.1 with ⟨-, rfl⟩ | ⟨-, hw⟩
    · exact h
    · obtain ⟨-, -, rfl⟩ := add_claimable_stnear_ok hw
      exact h
  case claim_stnear =>
    obtain ⟨t, ht, -⟩ := hr
    obtain ⟨-, -, rfl⟩ := remove_claimable_stnear_ok (claim_stnear_ok ht).1
    exact h
  case delegated_claim_stnear =>
    obtain ⟨t, ht, -⟩ := hr
    obtain ⟨-, -, rfl⟩ := remove_claimable_stnear_ok (delegated_claim_ok ht).2.1
    exact h
  case new_ => simp [new] at hr
  case migrate => simp [migrate, expect, bind_ok_iff] at hr
  case operator_confirm_delegated_evm_address =>
    have := confirm_ok hr.1
    rw [this]; exact h
  all_goals
    simp only [State.set_stnear_contract, State.set_operator_id, State.set_owner_id,
      State.update_registration_cost, State.update_airdrop_user_data,
      State.operator_multi_set_airdrop_data, State.set_lock_in_vote_filters,
      State.update_min_unbond_period, State.update_max_unbond_period, State.set_prev_gov_contract,
      State.pre_delegate_evm_address, State.operator_remove_pre_delegate_evm_address,
      State.remove_delegated_evm_address, bind_ok_iff, pure_ok_iff] at hr
    obtain ⟨hr, rfl⟩ := hr
    repeat (obtain ⟨_, _, hr⟩ := hr)
    exact h

theorem reach_total {J : Json} {me : AccountId} {w : World} (h : Reach J me w) :
    w.st.total_voting_power ≤ U128_MAX := by
  refine h.state_inv (fun s => s.total_voting_power ≤ U128_MAX) ?_ (fun _ _ _ _ _ hi hx => exec_total hi hx)
  intro w h
  cases h with
  | mk o op a b d l v m st r p ts s hr hts hn =>
    obtain ⟨-, -, rfl⟩ := new_ok hn
    exact Nat.zero_le _

/-- No voter has more power than the contract total. -/
theorem VInv.power_le_total {s : State} (h : VInv s) (id : String) :
    (s.voterD id).power ≤ s.total_voting_power := by
  rw [h.total, ← at_voterD s id Voter.power rfl]
  exact UMap.at_le_sum _ _ _

/-- In every reachable state the used power is reported without overflow. -/
theorem reach_used {J : Json} {me : AccountId} {w : World} (h : Reach J me w) (id : String) :
    w.st.get_used_voting_power id = .ok (w.st.voterD id).used := by
  refine sum_used_votes_of_le ?_
  have := (reach_vinv h).power_le_total id
  have := reach_total h
  simp only [Voter.power, internal_get_voter_eq] at *
  omega

end Verif.MetaVote
