import Verif.MetaVote.Reach

/-!
# The gap between locked and spendable power

`Gap v v'`: the difference between the power of the locked positions and the available plus used power
is the same in `v` and `v'`.  Every call keeps it, except unlocking a position that is already
unlocking.
-/

namespace Verif.MetaVote

open Verif

def Gap (v v' : Voter) : Prop := v'.power + v.lockedVp = v.power + v'.lockedVp

theorem Gap.refl (v : Voter) : Gap v v := rfl

/-- Guarded calls: an unlock targets a locked position of the caller. -/
def unlocksLocked (s : State) (c : Ctx) : Call → Prop
  | .unlock_position i => ∀ p, (s.voterD c.predecessor).locking_positions[i]? = some p →
      p.unlocking_started_at = none
  | .unlock_partial_position i _ => ∀ p, (s.voterD c.predecessor).locking_positions[i]? = some p →
      p.unlocking_started_at = none
  | _ => True

/-- Voter `id` lacks exactly `f id` of its locked power; the rest is available or used. -/
def Short (f : String → Nat) (s : State) : Prop := ∀ id, (s.voterD id).power + f id = (s.voterD id).lockedVp

/-- `f` with `n` more for `id`. -/
def bump (f : String → Nat) (id : String) (n : Nat) : String → Nat := fun i => if i = id then f i + n else f i

theorem bump_zero (f : String → Nat) (id : String) : bump f id 0 = f := by
  funext i; simp [bump]

variable {f : String → Nat}

theorem voterD_insert {s' s : State} {id : String} {v : Voter} (h : s'.voters = s.voters.insert id v)
    (i : String) : s'.voterD i = if i = id then v else s.voterD i := by
  unfold State.voterD
  rw [h, UMap.get_insert]
  by_cases hi : id = i
  · subst hi; simp
  · simp [hi, Ne.symm hi]

theorem voterD_remove {s' s : State} {id : String} (h : s'.voters = s.voters.remove id)
    (i : String) : s'.voterD i = if i = id then ⟨0, [], 0, UMap.empty⟩ else s.voterD i := by
  unfold State.voterD
  rw [h, UMap.get_remove]
  by_cases hi : id = i
  · subst hi; simp
  · simp [hi, Ne.symm hi]

theorem Short.insert {s s' : State} (h : Short f s) {id : String} {v : Voter}
    (hv : s'.voters = s.voters.insert id v) (hg : v.power + f id = v.lockedVp) : Short f s' := by
  intro i
  rw [voterD_insert hv]
  split
  · rename_i hi; rw [hi]; exact hg
  · exact h i

theorem Short.gap {s s' : State} (h : Short f s) {id : String} {v : Voter}
    (hv : s'.voters = s.voters.insert id v) (hg : Gap (s.voterD id) v) : Short f s' :=
  h.insert hv (by have := h id; unfold Gap at hg; omega)

theorem Short.bump {s s' : State} (h : Short f s) {id : String} {v : Voter} {n : Nat}
    (hv : s'.voters = s.voters.insert id v)
    (hg : v.power + (s.voterD id).lockedVp + n = (s.voterD id).power + v.lockedVp) : Short (bump f id n) s' := by
  intro i
  rw [voterD_insert hv]
  have := h i
  unfold MetaVote.bump
  split
  · rename_i hi; subst hi; omega
  · exact this

theorem Short.remove {s s' : State} (h : Short f s) {id : String}
    (hv : s'.voters = s.voters.remove id) (hl : (s.voterD id).lockedVp = 0) : Short f s' := by
  intro i
  rw [voterD_remove hv]
  have := h i
  split
  · rename_i hi
    subst hi
    simp only [Voter.power, Voter.used, Voter.lockedVp] at *
    show 0 + f i = 0
    omega
  · exact this

theorem Short.congr {s s' : State} (h : Short f s) (hv : s'.voters = s.voters) : Short f s' := by
  intro i
  have := h i
  simpa only [State.voterD, hv] using this

theorem Short.deposit {s s' : State} (h : Short f s) {id : String} {v v' : Voter} {a d : Nat}
    (hd : s.deposit_locking_position a d id v = .ok (s', v'))
    (hlock : v.lockedVp = (s.voterD id).lockedVp)
    (havail : v.available_voting_power = (s.voterD id).available_voting_power)
    (hvp : v.vote_positions = (s.voterD id).vote_positions) : Short f s' := by
  obtain ⟨vp, ps, -, -, -, -, hps, rfl, rfl⟩ := deposit_ok hd
  obtain ⟨h1, -⟩ := hps.posSum
  refine h.gap rfl ?_
  simp only [Gap, Voter.power, Voter.used, Voter.lockedVp] at *
  rw [h1, hvp]; omega

theorem unlock_position_short {s s' : State} {c : Ctx} {i : Nat} (h : Short f s)
    (hx : s.unlock_position c i = .ok s') : ∃ n, Short (bump f c.predecessor n) s' ∧
      ((∀ p, (s.voterD c.predecessor).locking_positions[i]? = some p → p.unlocking_started_at = none) → n = 0) := by
  simp only [State.unlock_position, bind_ok_iff, get_position_ok, require_ok_iff, subU_ok_iff,
    pure_ok_iff] at hx
  obtain ⟨v, hv, p, hp, -, hle, x, ⟨-, rfl⟩, rfl⟩ := hx
  obtain ⟨hv, rfl⟩ := get_voter_ok hv
  have hs := posSum_set (fun p => if p.unlocking_started_at = none then p.voting_power else 0) _ i p
    { p with unlocking_started_at := some c.now } hp
  refine ⟨if p.unlocking_started_at = none then 0 else p.voting_power, h.bump rfl ?_, fun hg => if_pos (hg p hp)⟩
  split <;> rename_i hl <;> simp only [reduceCtorEq, if_false, hl, if_true] at hs <;>
    simp only [Voter.power, Voter.used, Voter.lockedVp, Voter.replace_position] at * <;> omega

theorem unlock_partial_short {s s' : State} {c : Ctx} {i a : Nat} (h : Short f s)
    (hx : s.unlock_partial_position c i a = .ok s') : ∃ n, Short (bump f c.predecessor n) s' ∧
      ((∀ p, (s.voterD c.predecessor).locking_positions[i]? = some p → p.unlocking_started_at = none) → n = 0) := by
  simp only [State.unlock_partial_position, bind_ok_iff, get_position_ok] at hx
  obtain ⟨v, hv, p, hp, hx⟩ := hx
  split at hx
  · exact unlock_position_short h hx
  · simp only [bind_ok_iff, require_ok_iff, subU_ok_iff, pure_ok_iff,
      State.create_unlocking_position] at hx
    obtain ⟨-, hlt, r, ⟨-, rfl⟩, -, -, -, -, vp, -, -, hvp, -, hav, v2, ⟨-, hlen, rfl⟩, y, ⟨-, rfl⟩,
      z, ⟨-, rfl⟩, -, -, w, ⟨-, rfl⟩, rfl⟩ := hx
    obtain ⟨hv, rfl⟩ := get_voter_ok hv
    have hp' : ((s.voterD c.predecessor).locking_positions ++
        [LockingPosition.mk a p.locking_period vp (some c.now)])[i]? = some p := by
      obtain ⟨hi, -⟩ := List.getElem?_eq_some_iff.1 hp
      rw [List.getElem?_append_left hi]; exact hp
    have hs := posSum_set (fun p => if p.unlocking_started_at = none then p.voting_power else 0) _ i p
      { p with voting_power := p.voting_power - vp, amount := p.amount - a } hp'
    refine ⟨if p.unlocking_started_at = none then 0 else vp, h.bump rfl ?_, fun hg => if_pos (hg p hp)⟩
    split <;> rename_i hl <;>
      simp only [posSum_append, posSum_single, reduceCtorEq, if_false, hl, if_true, Nat.add_zero] at hs <;>
      simp only [Voter.power, Voter.used, Voter.lockedVp, Voter.replace_position, hl] at * <;> omega

theorem extend_short {s s' : State} {c : Ctx} {i d : Nat} (h : Short f s)
    (hx : s.locking_position_extend_days c i d = .ok s') : Short f s' := by
  simp only [State.locking_position_extend_days, bind_ok_iff, get_position_ok, require_ok_iff,
    subU_ok_iff, addU128_ok_iff, pure_ok_iff] at hx
  obtain ⟨v, hv, p, hp, -, hl, -, -, vp, -, de, ⟨hle, rfl⟩, t, ⟨-, rfl⟩, av, ⟨-, rfl⟩, rfl⟩ := hx
  obtain ⟨hv, rfl⟩ := get_voter_ok hv
  have hs := posSum_set (fun p => if p.unlocking_started_at = none then p.voting_power else 0) _ i p
    { p with locking_period := d, voting_power := vp } hp
  simp only [hl, if_true] at hs
  refine h.gap rfl ?_
  simp only [Gap, Voter.power, Voter.used, Voter.lockedVp, Voter.replace_position, hl] at *
  omega

theorem relock_position_short {s s' : State} {c : Ctx} {i d b : Nat} (h : Short f s)
    (hx : s.relock_position c i d b = .ok s') : Short f s' := by
  simp only [State.relock_position, bind_ok_iff, get_position_ok, require_ok_iff, expect_ok_iff,
    subU_ok_iff, addU128_ok_iff, pure_ok_iff] at hx
  obtain ⟨v, hv, p, hp, -, -, t, ht, -, -, a, ⟨-, rfl⟩, x, ⟨-, rfl⟩, r, hr, rfl⟩ := hx
  obtain ⟨hv, rfl⟩ := get_voter_ok hv
  refine h.deposit (s' := r.1) (v' := r.2) hr ?_ rfl rfl
  exact lockedVp_remove (b := (s.voterD c.predecessor).balance - b) hp (by simp [ht])

theorem relock_partial_short {s s' : State} {c : Ctx} {i a d b : Nat} (h : Short f s)
    (hx : s.relock_partial_position c i a d b = .ok s') : Short f s' := by
  simp only [State.relock_partial_position, bind_ok_iff, get_position_ok, require_ok_iff,
    expect_ok_iff, subU_ok_iff, addU128_ok_iff, pure_ok_iff] at hx
  obtain ⟨v, hv, p, hp, -, -, -, -, am, ⟨-, rfl⟩, -, -, t, ht, v2, hv2, x, ⟨-, rfl⟩, r, hr, rfl⟩ := hx
  obtain ⟨hv, rfl⟩ := get_voter_ok hv
  split at hv2
  · simp only [bind_ok_iff, require_ok_iff, subU_ok_iff, pure_ok_iff] at hv2
    obtain ⟨-, -, n, ⟨-, rfl⟩, -, -, -, -, vp, -, rfl⟩ := hv2
    refine h.deposit (s' := r.1) (v' := r.2) hr ?_ rfl rfl
    have hs := posSum_set (fun p => if p.unlocking_started_at = none then p.voting_power else 0) _ i p
      { p with amount := p.amount - a, voting_power := vp } hp
    simp only [ht, reduceCtorEq, if_false] at hs
    simp only [Voter.lockedVp, Voter.replace_position] at *
    simp only [ht] at *
    omega
  · simp only [bind_ok_iff, subU_ok_iff, addU128_ok_iff, pure_ok_iff] at hv2
    obtain ⟨n, ⟨-, rfl⟩, y, ⟨-, rfl⟩, rfl⟩ := hv2
    refine h.deposit (s' := r.1) (v' := r.2) hr ?_ rfl rfl
    exact lockedVp_remove (b := 0) hp (by simp [ht])

theorem relock_from_balance_short {s s' : State} {c : Ctx} {d b : Nat} (h : Short f s)
    (hx : s.relock_from_balance c d b = .ok s') : Short f s' := by
  simp only [State.relock_from_balance, bind_ok_iff, require_ok_iff, subU_ok_iff, pure_ok_iff] at hx
  obtain ⟨v, hv, -, -, -, -, x, ⟨-, rfl⟩, r, hr, rfl⟩ := hx
  obtain ⟨hv, rfl⟩ := get_voter_ok hv
  exact h.deposit (s' := r.1) (v' := r.2) hr rfl rfl rfl

theorem Cleared.gap {now : Nat} {v v' : Voter} (h : Cleared now v v') : Gap v v' := by
  have := h.power; have := h.locked; unfold Gap; omega

theorem internal_vote_short {s s' : State} {id : String} {n : Nat} {c o : String} (h : Short f s)
    (hx : s.internal_vote id n c o = .ok s') : Short f s' := by
  simp only [State.internal_vote, bind_ok_iff, pure_ok_iff] at hx
  obtain ⟨v, hv, ⟨s1, v1⟩, hr, rfl⟩ := hx
  obtain ⟨hv, rfl⟩ := get_voter_ok hv
  obtain ⟨h1, -, -, -, rfl, rfl⟩ := create_voting_ok hr
  refine h.gap rfl ?_
  have hu := vsum_vset (s.voterD id).vote_positions c o ((s.voterD id).votesOf c o + n)
  simp only [Gap, Voter.power, Voter.used, Voter.lockedVp, Voter.votesOf] at *
  omega

theorem internal_unvote_short {s s' : State} {x : Ctx} {id c o : String} (h : Short f s)
    (hx : s.internal_unvote x id c o = .ok s') : Short f s' := by
  simp only [State.internal_unvote, bind_ok_iff, require_ok_iff, pure_ok_iff] at hx
  obtain ⟨-, -, v, hv, ⟨s1, v1⟩, hr, rfl⟩ := hx
  obtain ⟨hv, rfl⟩ := get_voter_ok hv
  obtain ⟨-, -, h1, rfl, rfl⟩ := remove_voting_ok hr
  refine h.gap rfl ?_
  have hu := vsum_vdel (s.voterD id).vote_positions c o
  simp only [Gap, Voter.power, Voter.used, Voter.lockedVp, Voter.votesOf] at *
  omega

theorem rebalance_short {s s' : State} {x : Ctx} {n : Nat} {c o : String} (h : Short f s)
    (hx : s.rebalance x n c o = .ok s') : Short f s' := by
  simp only [State.rebalance, bind_ok_iff, expect_ok_iff, require_ok_iff] at hx
  obtain ⟨v, hv, k, hk, -, hne, hx⟩ := hx
  obtain ⟨hv, rfl⟩ := get_voter_ok hv
  have hk' : vget (s.voterD x.predecessor).vote_positions c o = k := by
    rw [vget_eq]; simp only [Voter.get_vote_position_for_address] at hk; rw [hk]; rfl
  split at hx
  · exact internal_unvote_short h hx
  · simp only [bind_ok_iff, pure_ok_iff] at hx
    obtain ⟨r, hr, rfl⟩ := hx
    split at hr
    · simp only [bind_ok_iff, require_ok_iff, subU_ok_iff, addU128_ok_iff, pure_ok_iff] at hr
      obtain ⟨ad, ⟨-, rfl⟩, -, hav, av, ⟨-, rfl⟩, vo, ⟨-, rfl⟩, s1, hs1, rfl⟩ := hr
      obtain ⟨-, rfl⟩ := increase_total_ok hs1
      refine h.gap rfl ?_
      have hu := vsum_vset (s.voterD x.predecessor).vote_positions c o (k + (n - k))
      simp only [vset, Voter.get_vote_position_for_address] at *
      simp only [Gap, Voter.power, Voter.used, Voter.lockedVp] at *
      omega
    · simp only [bind_ok_iff, subU_ok_iff, addU128_ok_iff, pure_ok_iff] at hr
      obtain ⟨ad, ⟨-, rfl⟩, av, ⟨-, rfl⟩, vo, ⟨-, rfl⟩, s1, hs1, rfl⟩ := hr
      obtain ⟨h1, -, rfl⟩ := decrease_total_ok hs1
      refine h.gap rfl ?_
      have hu := vsum_vset (s.voterD x.predecessor).vote_positions c o (k - (k - n))
      simp only [vset, Voter.get_vote_position_for_address] at *
      simp only [Gap, Voter.power, Voter.used, Voter.lockedVp] at *
      omega

theorem mirror_short {s s' : State} {c : Ctx} {e : String} {l : List (Nat × Nat)} (h : Short f s)
    (hi : VInv s) (hf : f (pseudo_near_address e) = 0) (hx : s.operator_mirror_lps c e l = .ok s') : Short f s' := by
  simp only [State.operator_mirror_lps, bind_ok_iff, addU128_ok_iff, subU_ok_iff, pure_ok_iff,
    internal_get_voter_eq] at hx
  obtain ⟨-, -, u, hu, prev, ⟨-, rfl⟩, vps, -, nvp, -, ⟨s1, v1, u1⟩, hloop, ⟨s2, v2⟩, hcr, av,
    ⟨hav, rfl⟩, tot, ⟨htot, rfl⟩, rfl⟩ := hx
  have hu' := sum_used_votes_ok hu
  have hk := hi.voterOK (pseudo_near_address e)
  have hrel : MirrorRel s (s.voterD (pseudo_near_address e)) s (s.voterD (pseudo_near_address e)) :=
    ⟨rfl, fun _ _ => rfl, hi.clean, hk.clean, rfl, rfl, rfl⟩
  obtain ⟨hr, hru, -⟩ := mirror_loop_rel _ _ _ _ _ hrel hu' hloop
  simp only at hr hru hcr hav htot
  have h8 : s1.max_locking_positions ≤ U8_MAX := by rw [hr.state]; exact hi.max8
  obtain ⟨n, hc⟩ := mirror_create_rel h8 hcr
  obtain ⟨hst, ha, hl, hv, hb, hcnt⟩ := hc
  simp only at hst ha hl hv hb hcnt
  have hvoters : s2.voters = s.voters := by rw [hst, hr.state]
  have hused : v2.used = u1 := by rw [hru]; simp only [Voter.used, hv]
  refine h.insert (id := pseudo_near_address e) (v := { v2 with available_voting_power :=
    v2.available_voting_power - u1 }) (by simp only [hvoters]) ?_
  simp only [Voter.power, Voter.used, Voter.lockedVp] at *
  omega

theorem internal_withdraw_short {s s' : State} {x : Ctx} {id : String} {l : List Nat} {am : Option Nat}
    {t : Transfer} (h : Short f s) (hx : s.internal_withdraw x id l am = .ok (s', t)) : Short f s' := by
  obtain ⟨v, v2, -, rfl, hc, -, -, -, -, -, -, hs⟩ := internal_withdraw_ok hx
  by_cases hr : v2.balance - am.getD v2.balance = 0 ∧ v2.locking_positions = []
  · rw [if_pos hr] at hs
    refine h.remove (by rw [hs]) ?_
    have := hc.locked
    rw [← this]
    simp only [Voter.lockedVp, hr.2, posSum]
    rfl
  · rw [if_neg hr] at hs
    exact h.gap (v := { v2 with balance := v2.balance - am.getD v2.balance }) (by rw [hs]) hc.gap

theorem exec_short {J : Json} {s s' : State} {c : Ctx} {k : Call} {out : List Transfer} (h : Short f s)
    (hi : VInv s) (hf : ∀ e, f (pseudo_near_address e) = 0) (hx : exec J s c k = .ok (s', out)) :
    ∃ n, Short (bump f c.predecessor n) s' ∧ (unlocksLocked s c k → n = 0) := by
  suffices hs : Short f s' ∨ ∃ n, Short (bump f c.predecessor n) s' ∧ (unlocksLocked s c k → n = 0) by
    rcases hs with hs | hs
    · exact ⟨0, by rw [bump_zero]; exact hs, fun _ => rfl⟩
    · exact hs
  obtain ⟨-, -, -, hr⟩ := exec_ok.1 hx
  cases k <;> simp only [run, quiet_ok, sends_ok] at hr
  case unlock_position => exact .inr (unlock_position_short h hr.1)
  case unlock_partial_position => exact .inr (unlock_partial_short h hr.1)
  all_goals left
  case claim_and_lock =>
    obtain ⟨-, s1, v, h1, hv, v', h2⟩ := claim_and_lock_ok hr.1
    have hs : s1.voters = s.voters := by obtain ⟨-, -, rfl⟩ := remove_claimable_mpdao_ok h1; rfl
    have hv' : s1.voterD c.predecessor = v := voterD_of_get (by rw [hs]; exact hv)
    subst hv'
    exact (Short.congr h hs).deposit h2 rfl rfl rfl
  case locking_position_extend_days => exact extend_short h hr.1
  case relock_position => exact relock_position_short h hr.1
  case relock_partial_position => exact relock_partial_short h hr.1
  case relock_from_balance => exact relock_from_balance_short h hr.1
  case clear_locking_position =>
    simp only [State.clear_locking_position, bind_ok_iff, require_ok_iff, pure_ok_iff] at hr
    obtain ⟨⟨-, -, v, hv, v2, hv2, rfl⟩, -⟩ := hr
    obtain ⟨hv, rfl⟩ := get_voter_ok hv
    exact h.gap rfl (clear_cleared hv2).gap
  case vote => exact internal_vote_short h hr.1
  case rebalance => exact rebalance_short h hr.1
  case unvote => exact internal_unvote_short h hr.1
  case vote_delegated =>
    simp only [State.vote_delegated, bind_ok_iff] at hr
    obtain ⟨⟨p, -, hv⟩, -⟩ := hr
    exact internal_vote_short h hv
  case unvote_delegated =>
    simp only [State.unvote_delegated, bind_ok_iff] at hr
    obtain ⟨⟨p, -, hv⟩, -⟩ := hr
    exact internal_unvote_short h hv
  case migration_create_lps =>
    obtain ⟨-, r, hf, hs⟩ := migration_ok hr.1
    refine Short.congr (s := r.1) ?_ (by rw [hs])
    refine (foldlM_inv (fun sv : State × Voter => Short f sv.1 ∧ sv.2 = sv.1.voterD _) ?_ _ _ r
      ⟨h, rfl⟩ hf).1
    rintro ⟨s1, v1⟩ lp ⟨s2, v2⟩ ⟨h1, hv1⟩ hd
    simp only at h1 hv1
    subst hv1
    refine ⟨h1.deposit hd rfl rfl rfl, ?_⟩
    obtain ⟨vp, ps, -, -, -, -, -, -, rfl⟩ := deposit_ok hd
    simp [State.voterD]
  case operator_mirror_lps => exact mirror_short h hi (hf _) hr.1
  case withdraw =>
    obtain ⟨t, ht, -⟩ := hr
    exact internal_withdraw_short h ht
  case withdraw_all =>
    obtain ⟨t, ht, -⟩ := hr
    obtain ⟨v, -, ht⟩ := withdraw_all_ok ht
    exact internal_withdraw_short h ht
  case after_transfer_mpdao_callback =>
    rcases callback_mpdao_ok hr.1 with ⟨-, rfl⟩ | ⟨-, hw⟩
    · exact h
    · simp only [State.restore_transfer_to_mpdao, bind_ok_iff, addU128_ok_iff, pure_ok_iff] at hw
      obtain ⟨b, ⟨-, rfl⟩, rfl⟩ := hw
      exact h.gap rfl rfl
  case ft_on_transfer =>
    rcases ft_on_transfer_ok hr.1 with ⟨info, -, -, hd⟩ | ⟨t, v', -, -, -, -, hd⟩
    · rcases distribute_ok hd with ⟨-, hd⟩ | ⟨-, -, hd⟩ <;>
        exact h.congr (by rw [hd.frame.state])
    · exact h.deposit hd rfl rfl rfl
  case after_transfer_stnear_callback =>
    rcases callback_stnear_ok hr.1 with ⟨-, rfl⟩ | ⟨-, hw⟩
    · exact h
    · obtain ⟨-, -, rfl⟩ := add_claimable_stnear_ok hw
      exact h.congr rfl
  case claim_stnear =>
    obtain ⟨t, ht, -⟩ := hr
    obtain ⟨-, -, rfl⟩ := remove_claimable_stnear_ok (claim_stnear_ok ht).1
    exact h.congr rfl
  case delegated_claim_stnear =>
    obtain ⟨t, ht, -⟩ := hr
    obtain ⟨-, -, rfl⟩ := remove_claimable_stnear_ok (delegated_claim_ok ht).2.1
    exact h.congr rfl
  case new_ => simp [new] at hr
  case migrate => simp [migrate, expect, bind_ok_iff] at hr
  case operator_confirm_delegated_evm_address =>
    have := confirm_ok hr.1
    exact h.congr (by rw [this])
  all_goals
    simp only [State.set_stnear_contract, State.set_operator_id, State.set_owner_id,
      State.update_registration_cost, State.update_airdrop_user_data,
      State.operator_multi_set_airdrop_data, State.set_lock_in_vote_filters,
      State.update_min_unbond_period, State.update_max_unbond_period, State.set_prev_gov_contract,
      State.pre_delegate_evm_address, State.operator_remove_pre_delegate_evm_address,
      State.remove_delegated_evm_address, bind_ok_iff, pure_ok_iff] at hr
    obtain ⟨hr, rfl⟩ := hr
    repeat (obtain ⟨_, _, hr⟩ := hr)
    exact h.congr rfl

end Verif.MetaVote
