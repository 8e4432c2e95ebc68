import Verif.Storage.Own

/-!
# The votes of one voter through all executions
-/

namespace Verif.Storage

open Verif MetaVote

/-! ## Calls that do not vote -/

/-- The available power of an account grows by no more than the power of its locked positions. -/
structure Room (s s' : State) : Prop where
  power : ∀ id, (s'.voterD id).available_voting_power + (s.voterD id).lockedVp ≤
    (s.voterD id).available_voting_power + (s'.voterD id).lockedVp
  stays : ∀ id, (s.voters.get id).isSome → (s'.voters.get id).isSome

theorem Room.refl (s : State) : Room s s := ⟨fun _ => Nat.le_refl _, fun _ h => h⟩

theorem Room.trans {a b c : State} (h : Room a b) (h' : Room b c) : Room a c :=
  ⟨fun id => by have := h.power id; have := h'.power id; omega, fun id hi => h'.stays id (h.stays id hi)⟩

theorem Room.congr {s s' : State} (h : s'.voters = s.voters) : Room s s' :=
  ⟨fun _ => by unfold State.voterD; rw [h], fun id hi => by rw [h]; exact hi⟩

theorem Room.update {s s' : State} (id : String) (v : Voter) (h1 : s'.voters = s.voters.insert id v)
    (h2 : v.available_voting_power + (s.voterD id).lockedVp ≤ (s.voterD id).available_voting_power + v.lockedVp) :
    Room s s' := by
  refine ⟨fun j => ?_, fun j hj => ?_⟩
  · by_cases e : j = id
    · subst e
      rw [show s'.voterD j = v by unfold State.voterD; rw [h1, UMap.get_insert_self]; rfl]
      exact h2
    · rw [show s'.voterD j = s.voterD j by unfold State.voterD; rw [h1, UMap.get_insert_ne _ _ e]]
  · by_cases e : j = id
    · subst e; rw [h1, UMap.get_insert_self]; rfl
    · rw [h1, UMap.get_insert_ne _ _ e]; exact hj

theorem deposit_room {s s' : State} {id : String} {v v' : Voter} {a d : Nat}
    (hd : s.deposit_locking_position a d id v = .ok (s', v'))
    (hl : v.lockedVp = (s.voterD id).lockedVp)
    (ha : v.available_voting_power = (s.voterD id).available_voting_power) : Room s s' := by
  obtain ⟨vp, ps, -, -, -, -, hps, rfl, rfl⟩ := deposit_ok hd
  obtain ⟨h1, -⟩ := hps.posSum
  refine Room.update id _ rfl ?_
  simp only [Voter.lockedVp] at *
  omega

theorem unlock_room {s s' : State} {c : Ctx} {i : Nat} (hx : s.unlock_position c i = .ok s') : Room s s' := by
  simp only [State.unlock_position, bind_ok_iff, get_position_ok, require_ok_iff, subU_ok_iff, pure_ok_iff] at hx
  obtain ⟨v, hv, p, hp, -, hle, x, ⟨-, rfl⟩, rfl⟩ := hx
  obtain ⟨hv, rfl⟩ := get_voter_ok hv
  have hs := posSum_set (fun p => if p.unlocking_started_at = none then p.voting_power else 0) _ i p
    { p with unlocking_started_at := some c.now } hp
  simp only [reduceCtorEq, if_false] at hs
  refine Room.update c.predecessor _ rfl ?_
  simp only [Voter.lockedVp, Voter.replace_position] at *
  split at hs <;> omega

theorem unlock_partial_room {s s' : State} {c : Ctx} {i a : Nat} (hx : s.unlock_partial_position c i a = .ok s') :
    Room s s' := by
  simp only [State.unlock_partial_position, bind_ok_iff, get_position_ok] at hx
  obtain ⟨v, hv, p, hp, hx⟩ := hx
  split at hx
  · exact unlock_room hx
  · simp only [bind_ok_iff, require_ok_iff, subU_ok_iff, pure_ok_iff, State.create_unlocking_position] at hx
    obtain ⟨-, hlt, r, ⟨-, rfl⟩, -, -, -, -, vp, -, -, hvp, -, hav, v2, ⟨-, hlen, rfl⟩, y, ⟨-, rfl⟩,
      z, ⟨-, rfl⟩, -, -, w, ⟨-, rfl⟩, rfl⟩ := hx
    obtain ⟨hv, rfl⟩ := get_voter_ok hv
    have hp' : ((s.voterD c.predecessor).locking_positions ++
        [LockingPosition.mk a p.locking_period vp (some c.now)])[i]? = some p := by
      obtain ⟨hi, -⟩ := List.getElem?_eq_some_iff.1 hp
      rw [List.getElem?_append_left hi]; exact hp
    have hs := posSum_set (fun p => if p.unlocking_started_at = none then p.voting_power else 0) _ i p
      { p with voting_power := p.voting_power - vp, amount := p.amount - a } hp'
    simp only [posSum_append, posSum_single, reduceCtorEq, if_false, Nat.add_zero] at hs
    refine Room.update c.predecessor _ rfl ?_
    simp only [Voter.lockedVp, Voter.replace_position] at *
    split at hs <;> omega

theorem extend_room {s s' : State} {c : Ctx} {i d : Nat} (hx : s.locking_position_extend_days c i d = .ok s') :
    Room s s' := by
  simp only [State.locking_position_extend_days, bind_ok_iff, get_position_ok, require_ok_iff,
    subU_ok_iff, addU128_ok_iff, pure_ok_iff] at hx
  obtain ⟨v, hv, p, hp, -, hl, -, -, vp, -, de, ⟨hle, rfl⟩, t, ⟨-, rfl⟩, av, ⟨-, rfl⟩, rfl⟩ := hx
  obtain ⟨hv, rfl⟩ := get_voter_ok hv
  have hs := posSum_set (fun p => if p.unlocking_started_at = none then p.voting_power else 0) _ i p
    { p with locking_period := d, voting_power := vp } hp
  simp only [hl, if_true] at hs
  refine Room.update c.predecessor _ rfl ?_
  simp only [Voter.lockedVp, Voter.replace_position] at *
  simp only [hl] at *
  omega

theorem relock_room {s s' : State} {c : Ctx} {i d b : Nat} (hx : s.relock_position c i d b = .ok s') : Room s s' := by
  simp only [State.relock_position, bind_ok_iff, get_position_ok, require_ok_iff, expect_ok_iff,
    subU_ok_iff, addU128_ok_iff, pure_ok_iff] at hx
  obtain ⟨v, hv, p, hp, -, -, t, ht, -, -, a, ⟨-, rfl⟩, x, ⟨-, rfl⟩, r, hr, rfl⟩ := hx
  obtain ⟨hv, rfl⟩ := get_voter_ok hv
  refine deposit_room (s' := r.1) (v' := r.2) hr ?_ rfl
  exact lockedVp_remove (b := (s.voterD c.predecessor).balance - b) hp (by simp [ht])

theorem relock_partial_room {s s' : State} {c : Ctx} {i a d b : Nat}
    (hx : s.relock_partial_position c i a d b = .ok s') : Room s s' := by
  simp only [State.relock_partial_position, bind_ok_iff, get_position_ok, require_ok_iff,
    expect_ok_iff, subU_ok_iff, addU128_ok_iff, pure_ok_iff] at hx
  obtain ⟨v, hv, p, hp, -, -, -, -, am, ⟨-, rfl⟩, -, -, t, ht, v2, hv2, x, ⟨-, rfl⟩, r, hr, rfl⟩ := hx
  obtain ⟨hv, rfl⟩ := get_voter_ok hv
  split at hv2
  · simp only [bind_ok_iff, require_ok_iff, subU_ok_iff, pure_ok_iff] at hv2
    obtain ⟨-, -, n, ⟨-, rfl⟩, -, -, -, -, vp, -, rfl⟩ := hv2
    refine deposit_room (s' := r.1) (v' := r.2) hr ?_ rfl
    have hs := posSum_set (fun p => if p.unlocking_started_at = none then p.voting_power else 0) _ i p
      { p with amount := p.amount - a, voting_power := vp } hp
    simp only [ht, reduceCtorEq, if_false] at hs
    simp only [Voter.lockedVp, Voter.replace_position] at *
    simp only [ht] at *
    omega
  · simp only [bind_ok_iff, subU_ok_iff, addU128_ok_iff, pure_ok_iff] at hv2
    obtain ⟨n, ⟨-, rfl⟩, y, ⟨-, rfl⟩, rfl⟩ := hv2
    exact deposit_room (s' := r.1) (v' := r.2) hr (lockedVp_remove (b := 0) hp (by simp [ht])) rfl

theorem relock_balance_room {s s' : State} {c : Ctx} {d b : Nat} (hx : s.relock_from_balance c d b = .ok s') :
    Room s s' := by
  simp only [State.relock_from_balance, bind_ok_iff, require_ok_iff, subU_ok_iff, pure_ok_iff] at hx
  obtain ⟨v, hv, -, -, -, -, x, ⟨-, rfl⟩, r, hr, rfl⟩ := hx
  obtain ⟨hv, rfl⟩ := get_voter_ok hv
  exact deposit_room (s' := r.1) (v' := r.2) hr rfl rfl

theorem clear_room {s s' : State} {c : Ctx} {l : List Nat} (hx : s.clear_locking_position c l = .ok s') : Room s s' := by
  simp only [State.clear_locking_position, bind_ok_iff, require_ok_iff, pure_ok_iff] at hx
  obtain ⟨-, -, v, hv, v2, hv2, rfl⟩ := hx
  obtain ⟨hv, rfl⟩ := get_voter_ok hv
  have hc := clear_cleared hv2
  exact Room.update c.predecessor v2 rfl (by rw [hc.avail, hc.locked])

theorem migration_room {s s' : State} {c : Ctx} {id : String} {l : List (Nat × Nat)} {d : Option String}
    (hx : s.migration_create_lps c id l d = .ok s') : Room s s' := by
  simp only [State.migration_create_lps, bind_ok_iff, require_ok_iff] at hx
  obtain ⟨-, -, r, hr, hx⟩ := hx
  have h1 : Room s r.1 := by
    refine (foldlM_inv (fun sv : State × Voter => Room s sv.1 ∧ sv.2 = sv.1.voterD id) ?_ l _ r
      ⟨Room.refl s, rfl⟩ hr).1
    rintro ⟨s1, v1⟩ lp ⟨s2, v2⟩ ⟨h1, hv1⟩ hd
    simp only at h1 hv1
    subst hv1
    refine ⟨h1.trans (deposit_room hd rfl rfl), ?_⟩
    obtain ⟨vp, ps, -, -, -, -, -, -, rfl⟩ := deposit_ok hd
    simp [State.voterD]
  cases d with
  | none => simp only [pure_ok_iff] at hx; exact hx ▸ h1
  | some d =>
    simp only at hx
    split at hx <;> simp only [pure_ok_iff] at hx <;> subst hx
    · exact h1.trans (Room.congr rfl)
    · exact h1

/-- A withdrawal leaves room, or removes the account, which then has no locked position. -/
theorem withdraw_room {s s' : State} {x : Ctx} {id : String} {l : List Nat} {am : Option Nat}
    {t : Transfer} (hx : s.internal_withdraw x id l am = .ok (s', t)) :
    Room s s' ∨ (s'.voters = s.voters.remove id ∧ (s.voterD id).lockedVp = 0) := by
  simp only [State.internal_withdraw, bind_ok_iff, require_ok_iff, subU_ok_iff, pure_ok_iff,
    Prod.mk.injEq] at hx
  obtain ⟨-, -, v, hv, v2, hv2, -, -, -, -, b, ⟨-, rfl⟩, rfl, -⟩ := hx
  obtain ⟨hv, rfl⟩ := get_voter_ok hv
  have hc : Cleared x.now (s.voterD id) v2 := by
    split at hv2
    · exact clear_cleared hv2
    · simp only [pure_ok_iff] at hv2; subst hv2; exact Cleared.refl _ _
  split
  · rename_i he
    refine .inr ⟨rfl, ?_⟩
    have hnil : v2.locking_positions = [] := by
      simp only [Voter.is_empty, Bool.and_eq_true, List.isEmpty_iff] at he
      exact he.2
    rw [← hc.locked]
    simp [Voter.lockedVp, hnil]
  · refine .inl (Room.update id _ rfl ?_)
    have := hc.locked
    simp only [Voter.lockedVp, hc.avail] at *
    omega

/-- Every accepted call that does not vote leaves room, or removes the account of the caller, which then has no locked
position. -/
theorem exec_room {J : Json} {s s' : State} {c : Ctx} {k : Call} {out : List Transfer} (hk : k.votes = false)
    (hx : exec J s c k = .ok (s', out)) :
    Room s s' ∨ (s'.voters = s.voters.remove c.predecessor ∧ (s.voterD c.predecessor).lockedVp = 0) := by
  obtain ⟨-, -, -, hr⟩ := exec_ok.1 hx
  cases k <;> simp only [run, quiet_ok, sends_ok] at hr <;> try (simp [Call.votes] at hk; done)
  case new_ => simp [new] at hr
  case migrate => simp [migrate, expect, bind_ok_iff] at hr
  case withdraw => obtain ⟨t, ht, -⟩ := hr; exact withdraw_room ht
  case withdraw_all =>
    obtain ⟨t, ht, -⟩ := hr
    obtain ⟨v, -, hw⟩ := withdraw_all_ok ht
    exact withdraw_room hw
  all_goals left
  case claim_and_lock =>
    simp only [State.claim_and_lock, State.remove_claimable_mpdao, bind_ok_iff, pure_ok_iff] at hr
    obtain ⟨⟨-, -, s1, ⟨r, hr, rfl⟩, v, hv, r2, hr2, rfl⟩, -⟩ := hr
    obtain ⟨hv, rfl⟩ := get_voter_ok hv
    exact Room.trans (Room.congr (s := s)
      (s' := { s with claimable_mpdao := r.1, total_unclaimed_mpdao := r.2 }) rfl)
      (deposit_room (s' := r2.1) (v' := r2.2) hr2 rfl rfl)
  case claim_stnear =>
    obtain ⟨t, ht, -⟩ := hr
    obtain ⟨-, -, rfl⟩ := remove_claimable_stnear_ok (claim_stnear_ok ht).1
    exact Room.congr rfl
  case unlock_position => exact unlock_room hr.1
  case unlock_partial_position => exact unlock_partial_room hr.1
  case locking_position_extend_days => exact extend_room hr.1
  case relock_position => exact relock_room hr.1
  case relock_partial_position => exact relock_partial_room hr.1
  case relock_from_balance => exact relock_balance_room hr.1
  case clear_locking_position => exact clear_room hr.1
  case migration_create_lps => exact migration_room hr.1
  case after_transfer_mpdao_callback =>
    rcases callback_mpdao_ok hr.1 with ⟨-, rfl⟩ | ⟨-, hw⟩
    · exact Room.refl _
    · simp only [State.restore_transfer_to_mpdao, bind_ok_iff, addU128_ok_iff, pure_ok_iff] at hw
      obtain ⟨b, ⟨-, rfl⟩, rfl⟩ := hw
      exact Room.update _ _ rfl (Nat.le_refl _)
  case after_transfer_stnear_callback =>
    rcases callback_stnear_ok hr.1 with ⟨-, rfl⟩ | ⟨-, hw⟩
    · exact Room.refl _
    · obtain ⟨-, -, rfl⟩ := add_claimable_stnear_ok hw
      exact Room.congr rfl
  case ft_on_transfer =>
    rcases ft_on_transfer_ok hr.1 with ⟨info, -, -, hd⟩ | ⟨t, v', -, -, -, -, hd⟩
    · have hf : ∀ {a b}, Distributed s s' a b → Room s s' := fun hd => by
        have hf := hd.frame.state
        exact Room.congr (by rw [hf])
      rcases distribute_ok hd with ⟨-, hd⟩ | ⟨-, -, hd⟩ <;> exact hf hd
    · exact deposit_room hd rfl rfl
  case operator_confirm_delegated_evm_address =>
    have := confirm_ok hr.1
    exact Room.congr (by rw [this])
  case delegated_claim_stnear =>
    obtain ⟨t, ht, -⟩ := hr
    obtain ⟨-, -, rfl⟩ := remove_claimable_stnear_ok (delegated_claim_ok ht).2.1
    exact Room.congr rfl
  all_goals
    simp only [State.set_stnear_contract, State.set_operator_id, State.set_owner_id,
      State.update_registration_cost, State.update_airdrop_user_data,
      State.operator_multi_set_airdrop_data, State.set_lock_in_vote_filters,
      State.update_min_unbond_period, State.update_max_unbond_period, State.set_prev_gov_contract,
      State.pre_delegate_evm_address, State.operator_remove_pre_delegate_evm_address,
      State.remove_delegated_evm_address, bind_ok_iff, pure_ok_iff] at hr
    obtain ⟨hr, -⟩ := hr
    repeat (obtain ⟨_, _, hr⟩ := hr)
    exact Room.congr rfl

/-! ## Mirroring -/

variable {id : String} {vm : VMap}

theorem own_used {M : Mem} (h : Own id vm M) : M.usedVotes id vm.len = (⟨0, [], 0, vm⟩ : Voter).sum_used_votes := by
  unfold Mem.usedVotes Voter.sum_used_votes
  have hk := Cells.values_of (vm.mapV (fun c m => (⟨join id c, m.len⟩ : Handle)))
  rw [UMap.len_mapV, UMap.values_mapV] at hk
  rw [h.vp, hk]
  simp only [bind, Except.bind]
  rw [← mapM_congr' (f := fun p : String × UMap String Nat => sumU128 p.2.values)]
  · rw [mapM_congr' (f := fun p : String × UMap String Nat => sumU128 p.2.values) (g := fun m => sumU128 m.values) Prod.snd
      (fun _ _ => rfl)]
    rfl
  · rintro ⟨c, m⟩ hp
    have hg := (UMap.get_eq_some_iff (m := vm)).2 hp
    have hvv := h.vv c
    have hi : inner vm c = m := by unfold inner; rw [hg]; rfl
    simp only
    rw [hvv, hi, Cells.values_of]

theorem own_used_ok {M : Mem} {u : Nat} (h : Own id vm M) (hx : M.usedVotes id vm.len = .ok u) : u = vsum vm := by
  rw [own_used h] at hx
  exact sum_used_votes_ok hx

theorem mirror_step_locked {s : State} {v : Voter} {l : List (Nat × Nat)} {sv : State × Voter}
    (h : l.foldlM State.mirror_step (s, v) = .ok sv) :
    sv.2.lockedVp + v.available_voting_power = sv.2.available_voting_power + v.lockedVp := by
  refine foldlM_inv (fun x : State × Voter =>
    x.2.lockedVp + v.available_voting_power = x.2.available_voting_power + v.lockedVp) ?_ _ _ _ ?_ h
  · rintro ⟨s1, v1⟩ lp ⟨s2, v2⟩ h1 hs
    obtain ⟨vp, hvp, hf, hlen, -, -, rfl, rfl⟩ := create_locking_ok hs
    simp only [Voter.lockedVp, posSum_append, posSum_single, if_true] at h1 ⊢
    omega
  · simp only; omega

theorem own_mirror {S S' : SState} {c : Ctx} {e : String} {l : List (Nat × Nat)} (h : Own (pseudo_near_address e) vm S.mem)
    (hl : S.vlen (pseudo_near_address e) = vm.len) (hx : S.operator_mirror_lps c e l = .ok S') :
    ∃ vm', Trimmed vm vm' ∧ Own (pseudo_near_address e) vm' S'.mem ∧ S'.vlen (pseudo_near_address e) = vm'.len ∧
      (S'.st.voterD (pseudo_near_address e)).available_voting_power + vsum vm' =
        (S'.st.voterD (pseudo_near_address e)).lockedVp ∧
      (S'.st.voters.get (pseudo_near_address e)).isSome := by
  simp only [SState.operator_mirror_lps, bind_ok_iff, pure_ok_iff, subU_ok_iff, hl] at hx
  obtain ⟨_, _, u, hu, _, -, _, _, _, _, _, _, r, hr, sv, hsv, n, ⟨hn, rfl⟩, t, ⟨htt, rfl⟩, rfl⟩ := hx
  have hu := own_used_ok h hu
  obtain ⟨vm', h1, h2, h3, h4, h5⟩ := own_loop _ h hr
  have h6 := mirror_step_locked hsv
  simp only [Voter.lockedVp, posSum_nil] at h6
  refine ⟨vm', h1, h2, by simp [SState.save, h3], ?_, by simp [SState.save]⟩
  simp only [SState.save, State.voterD, UMap.get_insert_self, Option.getD_some, Voter.lockedVp]
  omega

theorem mirror_others {S S' : SState} {c : Ctx} {e : String} {l : List (Nat × Nat)}
    (h : S.operator_mirror_lps c e l = .ok S') {j : String} (hj : j ≠ pseudo_near_address e) :
    S'.st.voters.get j = S.st.voters.get j := by
  simp only [SState.operator_mirror_lps, bind_ok_iff, pure_ok_iff] at h
  obtain ⟨u, hop, _, _, _, _, _, _, _, _, _, _, r, hr, sv, hsv, n, _, t, _, rfl⟩ := h
  obtain ⟨h1, -⟩ := mirror_remove_st hr
  obtain ⟨h2, -⟩ := mirror_step_power hsv
  simp only [SState.save]
  rw [UMap.get_insert_ne _ _ hj, h2, h1]

/-! ## The invariant -/

/-- The contract stores the vote map `vm` of `id`, and it is covered by the positions. -/
structure Mine (id : String) (vm : VMap) (S : SState) : Prop where
  own : Own id vm S.mem
  len : S.vlen id = vm.len
  power : (S.st.voterD id).available_voting_power + vsum vm ≤ (S.st.voterD id).lockedVp
  pos : vpos vm
  clean : vclean vm
  fresh : S.st.voters.get id = none → vm = UMap.empty

/-- What a call that votes for a voter does to the map. -/
def Effect (vm vm' : VMap) : Call → Prop
  | .vote n a o | .vote_delegated _ n a o => vm' = vset vm a o (vget vm a o + n)
  | .unvote a o | .unvote_delegated _ a o => vm' = vdel vm a o
  | .rebalance n a o => vm' = if n = 0 then vdel vm a o else vset vm a o n
  | .operator_mirror_lps .. => Trimmed vm vm'
  | _ => False

/-- A call that votes for another voter is one of a voter whose maps are stored elsewhere; one that votes for `id` gives
power. -/
def Apart (id : String) (c : Ctx) (k : Call) : Prop :=
  ∀ u, voterOf c k = some u → (u ≠ id → Away id u) ∧ (u = id → Powered k)

theorem Trimmed.clean {m m' : VMap} (h : Trimmed m m') (hp : vclean m) : vclean m' := by
  induction h with
  | refl m => exact hp
  | del a o _ ih => exact ih (vclean_vdel hp a o)

theorem mine_after {S S' : SState} {vm' : VMap} (h : Mine id vm S) {av : Nat}
    (ha : After id vm' av (S.st.voterD id).locking_positions S')
    (hp : av + vsum vm' = (S.st.voterD id).available_voting_power + vsum vm) (h1 : vpos vm') (h2 : vclean vm') :
    Mine id vm' S' := by
  refine ⟨ha.own, ha.len, ?_, h1, h2, fun hn => ?_⟩
  · have := h.power
    rw [ha.avail]
    simp only [Voter.lockedVp, ha.positions] at *
    omega
  · have := ha.known
    rw [hn] at this; cases this

theorem mine_vote {S S' : SState} {n : Nat} {a o : String} (h : Mine id vm S) (hn : n ≠ 0)
    (hx : S.internal_vote id n a o = .ok S') : Mine id (vset vm a o (vget vm a o + n)) S' := by
  obtain ⟨hle, ha⟩ := own_vote h.own h.len hx
  have := vsum_vset vm a o (vget vm a o + n)
  exact mine_after h ha (by omega) (vpos_vset h.pos a o (by omega)) (vclean_vset h.clean a o _)

theorem mine_unvote {S S' : SState} {c : Ctx} {a o : String} (h : Mine id vm S)
    (hx : S.internal_unvote c id a o = .ok S') : Mine id (vdel vm a o) S' := by
  obtain ⟨-, ha⟩ := own_unvote h.own h.len hx
  have := vsum_vdel vm a o
  exact mine_after h ha (by omega) (vpos_vdel h.pos a o) (vclean_vdel h.clean a o)

theorem mine_rebalance {S S' : SState} {c : Ctx} {n : Nat} {a o : String} (h : Mine c.predecessor vm S)
    (hx : S.rebalance c n a o = .ok S') : Mine c.predecessor (if n = 0 then vdel vm a o else vset vm a o n) S' := by
  obtain ⟨-, ⟨h0, ha⟩ | ⟨h0, hle, ha⟩⟩ := own_rebalance h.own h.len hx
  · have := vsum_vdel vm a o
    rw [if_pos h0]
    exact mine_after h ha (by omega) (vpos_vdel h.pos a o) (vclean_vdel h.clean a o)
  · have := vsum_vset vm a o n
    rw [if_neg h0]
    exact mine_after h ha (by omega) (vpos_vset h.pos a o h0) (vclean_vset h.clean a o _)

theorem mine_empty {S : SState} (h : Mine id vm S) (hl : (S.st.voterD id).lockedVp = 0) : vm = UMap.empty := by
  have := votes_empty (v := { S.st.voterD id with vote_positions := vm })
    (n := (S.st.voterD id).locking_positions.length) ⟨h.power, h.clean, Nat.le_refl _⟩ h.pos hl
  exact this

theorem mine_other {J : Json} {S S' : SState} {c : Ctx} {k : Call} {out : List Transfer} (h : Mine id vm S)
    (hk : k.votes = false) (hx : sexec J S c k = .ok (S', out)) : Mine id vm S' := by
  obtain ⟨hm, hl⟩ := sexec_same_mem hk hx
  have hp := h.power
  rcases exec_room hk ((sexec_ran hx).exec hk) with hr | ⟨hv, h0⟩
  · refine ⟨by rw [hm]; exact h.own, ?_, ?_, h.pos, h.clean, fun hn => ?_⟩
    · rw [hl id]
      split
      · exact h.len
      · rename_i hs
        rw [h.fresh (by
          cases hg : S.st.voters.get id with
          | none => rfl
          | some v => exact absurd (hr.stays id (by rw [hg]; rfl)) hs)]
        rfl
    · have := hr.power id; omega
    · cases hg : S.st.voters.get id with
      | none => exact h.fresh hg
      | some v =>
        have := hr.stays id (by rw [hg]; rfl)
        rw [hn] at this; cases this
  · have hget : ∀ j, S'.st.voters.get j = if j = c.predecessor then none else S.st.voters.get j := by
      intro j
      rw [hv]
      by_cases e : j = c.predecessor
      · subst e; simp
      · rw [if_neg e, UMap.get_remove, if_neg (Ne.symm e)]
    by_cases e : id = c.predecessor
    · have hvm := mine_empty h (by rw [e]; exact h0)
      subst hvm
      refine ⟨by rw [hm]; exact h.own, ?_, ?_, h.pos, h.clean, fun _ => rfl⟩
      · rw [hl id, hget id, if_pos e]; rfl
      · simp only [State.voterD, hget id, if_pos e]; exact Nat.le_refl 0
    · have hd : S'.st.voterD id = S.st.voterD id := by unfold State.voterD; rw [hget id, if_neg e]
      refine ⟨by rw [hm]; exact h.own, ?_, by rw [hd]; exact hp, h.pos, h.clean, fun hn => h.fresh ?_⟩
      · rw [hl id, hget id, if_neg e]
        split
        · exact h.len
        · rename_i hs
          rw [h.fresh (by simpa using hs)]; rfl
      · rw [hget id, if_neg e] at hn; exact hn

/-- A call that votes for another voter keeps the record. -/
theorem others_get {J : Json} {S S' : SState} {c : Ctx} {k : Call} {out : List Transfer} {u : String}
    (hu : voterOf c k = some u) (e : ¬ u = id) (hx : sexec J S c k = .ok (S', out)) :
    S'.st.voters.get id = S.st.voters.get id := by
  cases hm : k.isMirror with
  | false =>
    have hv : k.votes = true := by
      cases hv : k.votes with
      | true => rfl
      | false => rw [voterOf_none.2 hv] at hu; cases hu
    simp only [sexec, bind_ok_iff, require_ok_iff] at hx
    obtain ⟨-, -, -, -, -, -, hx⟩ := hx
    have hf : ∀ {u}, Touched S.st S'.st u → u ≠ id → S'.st.voters.get id = S.st.voters.get id :=
      fun ht hne => ht.frame.others id (Ne.symm hne)
    cases k <;> simp only [voterOf, Option.some.injEq, reduceCtorEq] at hu <;>
      (first | (simp [Call.isMirror] at hm; done) | skip) <;> subst hu <;>
      simp only [srun, SState.quiet, bind_ok_iff, pure_ok_iff, Prod.mk.injEq] at hx
    case vote => obtain ⟨S1, hx, rfl, -⟩ := hx; exact hf (internal_vote_touched hx) e
    case rebalance => obtain ⟨S1, hx, rfl, -⟩ := hx; exact hf (rebalance_touched hx) e
    case unvote => obtain ⟨S1, hx, rfl, -⟩ := hx; exact hf (internal_unvote_touched hx) e
    case vote_delegated =>
      obtain ⟨S1, ⟨p, hq, hx⟩, rfl, -⟩ := hx
      obtain ⟨-, rfl⟩ := verify_delegate_ok hq
      exact hf (internal_vote_touched hx) e
    case unvote_delegated =>
      obtain ⟨S1, ⟨p, hq, hx⟩, rfl, -⟩ := hx
      obtain ⟨-, rfl⟩ := verify_delegate_ok hq
      exact hf (internal_unvote_touched hx) e
  | true =>
    cases k <;> simp only [Call.isMirror, Bool.false_eq_true] at hm
    simp only [voterOf, Option.some.injEq] at hu
    subst hu
    simp only [sexec, srun, SState.quiet, bind_ok_iff, require_ok_iff, pure_ok_iff, Prod.mk.injEq] at hx
    obtain ⟨-, -, -, -, -, -, S1, hx, rfl, -⟩ := hx
    exact mirror_others hx (Ne.symm e)

/-- A call accepted by the contract, for a voter. -/
theorem mine_step {J : Json} {S S' : SState} {c : Ctx} {k : Call} {out : List Transfer} (hr : Regions S.mem) (h : Mine id vm S)
    (ha : Apart id c k) (hx : sexec J S c k = .ok (S', out)) :
    ∃ vm', Mine id vm' S' ∧ (voterOf c k = some id → Effect vm vm' k) ∧ (voterOf c k ≠ some id → vm' = vm) := by
  cases hu : voterOf c k with
  | none => exact ⟨vm, mine_other h (voterOf_none.1 hu) hx, fun e => (by cases e), fun _ => rfl⟩
  | some u =>
    by_cases e : u = id
    · subst e
      have hp := (ha u hu).2 rfl
      simp only [sexec, bind_ok_iff, require_ok_iff] at hx
      obtain ⟨-, -, -, -, -, -, hx⟩ := hx
      have key : ∀ {vm'}, Mine u vm' S' → Effect vm vm' k → ∃ vm', Mine u vm' S' ∧
          (some u = some u → Effect vm vm' k) ∧ (some u ≠ some u → vm' = vm) :=
        fun h1 h2 => ⟨_, h1, fun _ => h2, fun hn => absurd rfl hn⟩
      cases k <;> simp only [voterOf, Option.some.injEq, reduceCtorEq] at hu <;> subst hu <;>
        simp only [srun, SState.quiet, bind_ok_iff, pure_ok_iff, Prod.mk.injEq] at hx
      case vote => obtain ⟨S1, hx, rfl, -⟩ := hx; exact key (mine_vote h (Nat.ne_of_gt hp) hx) rfl
      case rebalance => obtain ⟨S1, hx, rfl, -⟩ := hx; exact key (mine_rebalance h hx) rfl
      case unvote => obtain ⟨S1, hx, rfl, -⟩ := hx; exact key (mine_unvote h hx) rfl
      case operator_mirror_lps =>
        obtain ⟨S1, hx, rfl, -⟩ := hx
        obtain ⟨vm', h1, h2, h3, h4, h5⟩ := own_mirror h.own h.len hx
        refine key (vm' := vm') ⟨h2, h3, Nat.le_of_eq h4, Trimmed.vpos h1 h.pos, Trimmed.clean h1 h.clean, fun hn => ?_⟩ h1
        rw [hn] at h5; cases h5
      case vote_delegated =>
        obtain ⟨S1, ⟨p, hq, hx⟩, rfl, -⟩ := hx
        obtain ⟨-, rfl⟩ := verify_delegate_ok hq
        exact key (mine_vote h (Nat.ne_of_gt hp) hx) rfl
      case unvote_delegated =>
        obtain ⟨S1, ⟨p, hq, hx⟩, rfl, -⟩ := hx
        obtain ⟨-, rfl⟩ := verify_delegate_ok hq
        exact key (mine_unvote h hx) rfl
    · obtain ⟨h1, h2⟩ := sexec_moved hr hu hx
      have hg := others_get hu e hx
      have hd : S'.st.voterD id = S.st.voterD id := by unfold State.voterD; rw [hg]
      exact ⟨vm, ⟨h.own.moved h1 e ((ha u hu).1 e), (h2 id (Ne.symm e)).trans h.len, by rw [hd]; exact h.power, h.pos, h.clean,
        fun hn => h.fresh (hg ▸ hn)⟩, fun he => absurd (Option.some.inj he) e, fun _ => rfl⟩

end Verif.Storage
