import Verif.MetaVote.Effects

/-!
# Invariants of the meta-vote contract: voting power and claims

`VInv` relates voters, votes and the contract totals; `CInv` relates claims and their totals.
Both are preserved by every accepted call (`exec_vinv`, `exec_cinv`).
-/

namespace Verif.MetaVote

open Verif

/-- Conditions on one voter record. -/
structure VoterOK (maxPos : Nat) (v : Voter) : Prop where
  power : v.power ≤ v.lockedVp
  clean : vclean v.vote_positions
  count : v.locking_positions.length ≤ maxPos

structure VInv (s : State) : Prop where
  voters : ∀ id v, s.voters.get id = some v → VoterOK s.max_locking_positions v
  total : s.total_voting_power = s.voters.sum (fun _ v => v.power)
  votes : ∀ c o, s.totalVotes c o = s.voters.sum (fun _ v => v.votesOf c o)
  clean : vclean s.votes
  max8 : s.max_locking_positions ≤ U8_MAX

/-- Claims part. -/
structure CInv (s : State) : Prop where
  mpdao : s.total_unclaimed_mpdao = s.claimable_mpdao.sum (fun _ n => n)
  stnear : s.total_unclaimed_stnear = s.claimable_stnear.sum (fun _ n => n)
  mpdao_pos : ∀ id n, s.claimable_mpdao.get id = some n → 0 < n
  stnear_pos : ∀ id n, s.claimable_stnear.get id = some n → 0 < n

theorem internal_get_voter_eq (s : State) (id : String) : s.internal_get_voter id = s.voterD id := rfl

theorem get_voter_ok {s : State} {id : String} {v : Voter}
    (h : s.internal_get_voter_or_panic id = .ok v) : s.voters.get id = some v ∧ v = s.voterD id := by
  simp only [State.internal_get_voter_or_panic, expect_ok_iff] at h
  exact ⟨h, by simp [State.voterD, h]⟩

theorem voterOK_blank (m : Nat) : VoterOK m ⟨0, [], 0, UMap.empty⟩ :=
  ⟨by simp [Voter.power, Voter.used, vsum], vclean_empty, by simp⟩

theorem VInv.voterOK {s : State} (h : VInv s) (id : String) :
    VoterOK s.max_locking_positions (s.voterD id) := by
  unfold State.voterD
  cases hv : s.voters.get id with
  | none => exact voterOK_blank _
  | some v => exact h.voters id v hv

/-- `at'` of a quantity that vanishes on the blank voter. -/
theorem at_voterD (s : State) (id : String) (f : Voter → Nat) (hf : f ⟨0, [], 0, UMap.empty⟩ = 0) :
    s.voters.at' (fun _ v => f v) id = f (s.voterD id) := by
  unfold State.voterD
  cases hv : s.voters.get id with
  | none => simp [UMap.at_of_none hv, hf]
  | some v => simp [UMap.at_of_some hv]

theorem sum_insert_voter (s : State) (id : String) (v : Voter) (f : Voter → Nat)
    (hf : f ⟨0, [], 0, UMap.empty⟩ = 0) :
    (s.voters.insert id v).sum (fun _ v => f v) + f (s.voterD id)
      = s.voters.sum (fun _ v => f v) + f v := by
  have := UMap.sum_insert s.voters (fun _ v => f v) id v
  rwa [at_voterD s id f hf] at this

theorem sum_remove_voter (s : State) (id : String) (f : Voter → Nat)
    (hf : f ⟨0, [], 0, UMap.empty⟩ = 0) :
    (s.voters.remove id).sum (fun _ v => f v) + f (s.voterD id) = s.voters.sum (fun _ v => f v) := by
  have := UMap.sum_remove s.voters (fun _ v => f v) id
  rwa [at_voterD s id f hf] at this

theorem power_blank : (⟨0, [], 0, UMap.empty⟩ : Voter).power = 0 := rfl
theorem votesOf_blank (c o : String) : (⟨0, [], 0, UMap.empty⟩ : Voter).votesOf c o = 0 := rfl

/-- One voter record, the votes and the total voting power change together. -/
theorem VInv.update {s s' : State} (h : VInv s) (id : String) (v' : Voter)
    (hvoters : s'.voters = s.voters.insert id v')
    (hok : VoterOK s.max_locking_positions v')
    (htot : s'.total_voting_power + (s.voterD id).power = s.total_voting_power + v'.power)
    (hvotes : ∀ c o, s'.totalVotes c o + (s.voterD id).votesOf c o = s.totalVotes c o + v'.votesOf c o)
    (hclean : vclean s'.votes) (hmax : s'.max_locking_positions = s.max_locking_positions) :
    VInv s' := by
  refine ⟨?_, ?_, ?_, hclean, hmax ▸ h.max8⟩
  · intro i v hv
    rw [hvoters, UMap.get_insert] at hv
    rw [hmax]
    split at hv
    · cases hv; exact hok
    · exact h.voters i v hv
  · have := sum_insert_voter s id v' Voter.power power_blank
    rw [hvoters]
    have h2 := h.total
    omega
  · intro c o
    have := sum_insert_voter s id v' (fun v => v.votesOf c o) (votesOf_blank c o)
    rw [hvoters]
    have h2 := h.votes c o
    have h3 := hvotes c o
    omega

/-- As `update`, for a call that changes neither the votes nor the power of the voter. -/
theorem VInv.update_same {s s' : State} (h : VInv s) (id : String) (v' : Voter)
    (hvoters : s'.voters = s.voters.insert id v')
    (hok : VoterOK s.max_locking_positions v')
    (htot : s'.total_voting_power + (s.voterD id).power = s.total_voting_power + v'.power)
    (hvp : v'.vote_positions = (s.voterD id).vote_positions) (hv : s'.votes = s.votes)
    (hmax : s'.max_locking_positions = s.max_locking_positions) : VInv s' :=
  h.update id v' hvoters hok htot
    (by intro c o; simp [State.totalVotes, Voter.votesOf, hvp, hv]) (hv ▸ h.clean) hmax

theorem VInv.congr {s s' : State} (h : VInv s) (h1 : s'.voters = s.voters) (h2 : s'.votes = s.votes)
    (h3 : s'.total_voting_power = s.total_voting_power)
    (h4 : s'.max_locking_positions = s.max_locking_positions) : VInv s' := by
  refine ⟨?_, ?_, ?_, ?_, ?_⟩
  · rw [h1, h4]; exact h.voters
  · rw [h3, h1]; exact h.total
  · intro c o; simp only [State.totalVotes, h1, h2]; exact h.votes c o
  · rw [h2]; exact h.clean
  · rw [h4]; exact h.max8

theorem CInv.congr {s s' : State} (h : CInv s) (h1 : s'.claimable_mpdao = s.claimable_mpdao)
    (h2 : s'.total_unclaimed_mpdao = s.total_unclaimed_mpdao)
    (h3 : s'.claimable_stnear = s.claimable_stnear)
    (h4 : s'.total_unclaimed_stnear = s.total_unclaimed_stnear) : CInv s' :=
  ⟨by rw [h1, h2]; exact h.mpdao, by rw [h3, h4]; exact h.stnear, by rw [h1]; exact h.mpdao_pos,
    by rw [h3]; exact h.stnear_pos⟩

/-! ## Locking -/

/-- Deposit into a voter record `v` derived from the stored one. -/
theorem VInv.deposit {s s' : State} (h : VInv s) {id : String} {v v' : Voter} {a d : Nat}
    (hd : s.deposit_locking_position a d id v = .ok (s', v'))
    (hlock : v.lockedVp = (s.voterD id).lockedVp)
    (havail : v.available_voting_power = (s.voterD id).available_voting_power)
    (hvp : v.vote_positions = (s.voterD id).vote_positions)
    (hlen : v.locking_positions.length ≤ s.max_locking_positions) : VInv s' := by
  obtain ⟨vp, ps, -, -, -, -, hps, rfl, rfl⟩ := deposit_ok hd
  have hk := h.voterOK id
  obtain ⟨h1, -⟩ := hps.posSum
  have hpow := hk.power
  have hl := hps.length_le h.max8 hlen
  refine h.update_same id _ rfl ⟨?_, ?_, hl⟩ ?_ hvp rfl rfl
  · simp only [Voter.power, Voter.used, Voter.lockedVp] at *
    rw [h1, hvp]; omega
  · rw [hvp]; exact hk.clean
  · simp only [Voter.power, Voter.used, hvp, havail]; omega

theorem claim_and_lock_vinv {s s' : State} {c : Ctx} {a d : Nat} (h : VInv s)
    (hx : s.claim_and_lock c a d = .ok s') : VInv s' := by
  simp only [State.claim_and_lock, State.remove_claimable_mpdao, bind_ok_iff, pure_ok_iff] at hx
  obtain ⟨-, -, s1, ⟨r, hr, rfl⟩, v, hv, r2, hr2, rfl⟩ := hx
  obtain ⟨hv, rfl⟩ := get_voter_ok hv
  have h1 : VInv { s with claimable_mpdao := r.1, total_unclaimed_mpdao := r.2 } :=
    h.congr rfl rfl rfl rfl
  exact h1.deposit (s' := r2.1) (v' := r2.2) hr2 rfl rfl rfl (h1.voterOK c.predecessor).count

theorem unlock_position_vinv {s s' : State} {c : Ctx} {i : Nat} (h : VInv s)
    (hx : s.unlock_position c i = .ok s') : VInv s' := by
  simp only [State.unlock_position, bind_ok_iff, get_position_ok, require_ok_iff, subU_ok_iff,
    pure_ok_iff] at hx
  obtain ⟨v, hv, p, hp, -, hle, x, ⟨-, rfl⟩, rfl⟩ := hx
  obtain ⟨hv, rfl⟩ := get_voter_ok hv
  have hk := h.voterOK c.predecessor
  have hs := posSum_set (fun p => if p.unlocking_started_at = none then p.voting_power else 0) _ i p
    { p with unlocking_started_at := some c.now } hp
  have htot : (s.voterD c.predecessor).power ≤ s.total_voting_power := by
    rw [h.total]; exact UMap.le_sum_of_get (f := fun _ v => v.power) hv
  have hpow := hk.power
  simp only [reduceCtorEq, if_false] at hs
  refine h.update_same c.predecessor _ rfl ⟨?_, hk.clean, ?_⟩ ?_ rfl rfl rfl
  · simp only [Voter.power, Voter.used, Voter.lockedVp, Voter.replace_position] at *
    split at hs <;> omega
  · simpa [Voter.replace_position] using hk.count
  · simp only [Voter.power, Voter.used, Voter.replace_position] at *
    omega

theorem unlock_partial_vinv {s s' : State} {c : Ctx} {i a : Nat} (h : VInv s)
    (hx : s.unlock_partial_position c i a = .ok s') : VInv s' := by
  simp only [State.unlock_partial_position, bind_ok_iff, get_position_ok] at hx
  obtain ⟨v, hv, p, hp, hx⟩ := hx
  split at hx
  · exact unlock_position_vinv h hx
  · simp only [bind_ok_iff, require_ok_iff, subU_ok_iff, pure_ok_iff,
      State.create_unlocking_position] at hx
    obtain ⟨-, hlt, r, ⟨-, rfl⟩, -, -, -, -, vp, -, -, hvp, -, hav, v2, ⟨-, hlen, rfl⟩, y, ⟨-, rfl⟩,
      z, ⟨-, rfl⟩, -, -, w, ⟨-, rfl⟩, rfl⟩ := hx
    obtain ⟨hv, rfl⟩ := get_voter_ok hv
    have hk := h.voterOK c.predecessor
    have hp' : ((s.voterD c.predecessor).locking_positions ++
        [LockingPosition.mk a p.locking_period vp (some c.now)])[i]? = some p := by
      obtain ⟨hi, -⟩ := List.getElem?_eq_some_iff.1 hp
      rw [List.getElem?_append_left hi]; exact hp
    have hs := posSum_set (fun p => if p.unlocking_started_at = none then p.voting_power else 0) _ i p
      { p with voting_power := p.voting_power - vp, amount := p.amount - a } hp'
    have htot : (s.voterD c.predecessor).power ≤ s.total_voting_power := by
      rw [h.total]; exact UMap.le_sum_of_get (f := fun _ v => v.power) hv
    have hpow := hk.power
    have hc := hk.count
    have h8 := h.max8
    simp only [posSum_append, posSum_single, reduceCtorEq, if_false, Nat.add_zero] at hs
    refine h.update_same c.predecessor _ rfl ⟨?_, hk.clean, ?_⟩ ?_ rfl rfl rfl
    · simp only [Voter.power, Voter.used, Voter.lockedVp, Voter.replace_position] at *
      split at hs <;> omega
    · simp only [U8_MAX] at h8
      simp [Voter.replace_position]; omega
    · simp only [Voter.power, Voter.used, Voter.replace_position] at *
      omega

theorem extend_vinv {s s' : State} {c : Ctx} {i d : Nat} (h : VInv s)
    (hx : s.locking_position_extend_days c i d = .ok s') : VInv s' := by
  simp only [State.locking_position_extend_days, bind_ok_iff, get_position_ok, require_ok_iff,
    subU_ok_iff, addU128_ok_iff, pure_ok_iff] at hx
  obtain ⟨v, hv, p, hp, -, hl, -, -, vp, -, de, ⟨hle, rfl⟩, t, ⟨-, rfl⟩, av, ⟨-, rfl⟩, rfl⟩ := hx
  obtain ⟨hv, rfl⟩ := get_voter_ok hv
  have hk := h.voterOK c.predecessor
  have hs := posSum_set (fun p => if p.unlocking_started_at = none then p.voting_power else 0) _ i p
    { p with locking_period := d, voting_power := vp } hp
  have hpow := hk.power
  simp only [hl, if_true] at hs
  refine h.update_same c.predecessor _ rfl ⟨?_, hk.clean, ?_⟩ ?_ rfl rfl rfl
  · simp only [Voter.power, Voter.used, Voter.lockedVp, Voter.replace_position] at *
    simp only [hl] at *
    omega
  · simpa [Voter.replace_position] using hk.count
  · simp only [Voter.power, Voter.used, Voter.replace_position] at *
    omega

theorem lockedVp_remove {v : Voter} {i : Nat} {p : LockingPosition} {b : Nat}
    (hp : v.locking_positions[i]? = some p) (hu : p.unlocking_started_at ≠ none) :
    (({ v with balance := b } : Voter).remove_position i).lockedVp = v.lockedVp := by
  have := posSum_swapRemove
    (fun p => if p.unlocking_started_at = none then p.voting_power else 0) _ i p hp
  simp only [hu, if_false] at this
  simp only [Voter.lockedVp, Voter.remove_position]; omega

theorem length_remove {l : List LockingPosition} {i : Nat} {p : LockingPosition} (hp : l[i]? = some p) :
    (swapRemove l i).length ≤ l.length := by
  obtain ⟨hi, -⟩ := List.getElem?_eq_some_iff.1 hp
  have := swapRemove_length l i hi
  omega

theorem relock_position_vinv {s s' : State} {c : Ctx} {i d b : Nat} (h : VInv s)
    (hx : s.relock_position c i d b = .ok s') : VInv s' := by
  simp only [State.relock_position, bind_ok_iff, get_position_ok, require_ok_iff, expect_ok_iff,
    subU_ok_iff, addU128_ok_iff, pure_ok_iff] at hx
  obtain ⟨v, hv, p, hp, -, -, t, ht, -, -, a, ⟨-, rfl⟩, x, ⟨-, rfl⟩, r, hr, rfl⟩ := hx
  obtain ⟨hv, rfl⟩ := get_voter_ok hv
  have hk := h.voterOK c.predecessor
  refine h.deposit (s' := r.1) (v' := r.2) hr ?_ rfl rfl ?_
  · exact lockedVp_remove (b := (s.voterD c.predecessor).balance - b) hp (by simp [ht])
  · exact (length_remove hp).trans hk.count

theorem relock_partial_vinv {s s' : State} {c : Ctx} {i a d b : Nat} (h : VInv s)
    (hx : s.relock_partial_position c i a d b = .ok s') : VInv s' := by
  simp only [State.relock_partial_position, bind_ok_iff, get_position_ok, require_ok_iff,
    expect_ok_iff, subU_ok_iff, addU128_ok_iff, pure_ok_iff] at hx
  obtain ⟨v, hv, p, hp, -, -, -, -, am, ⟨-, rfl⟩, -, -, t, ht, v2, hv2, x, ⟨-, rfl⟩, r, hr, rfl⟩ := hx
  obtain ⟨hv, rfl⟩ := get_voter_ok hv
  have hk := h.voterOK c.predecessor
  split at hv2
  · simp only [bind_ok_iff, require_ok_iff, subU_ok_iff, pure_ok_iff] at hv2
    obtain ⟨-, -, n, ⟨-, rfl⟩, -, -, -, -, vp, -, rfl⟩ := hv2
    refine h.deposit (s' := r.1) (v' := r.2) hr ?_ rfl rfl ?_
    · have hs := posSum_set (fun p => if p.unlocking_started_at = none then p.voting_power else 0) _ i p
        { p with amount := p.amount - a, voting_power := vp } hp
      simp only [ht, reduceCtorEq, if_false] at hs
      simp only [Voter.lockedVp, Voter.replace_position] at *
      simp only [ht] at *
      omega
    · simpa [Voter.replace_position] using hk.count
  · simp only [bind_ok_iff, subU_ok_iff, addU128_ok_iff, pure_ok_iff] at hv2
    obtain ⟨n, ⟨-, rfl⟩, y, ⟨-, rfl⟩, rfl⟩ := hv2
    refine h.deposit (s' := r.1) (v' := r.2) hr ?_ rfl rfl ?_
    · exact lockedVp_remove (b := 0) hp (by simp [ht])
    · exact (length_remove hp).trans hk.count

theorem relock_from_balance_vinv {s s' : State} {c : Ctx} {d b : Nat} (h : VInv s)
    (hx : s.relock_from_balance c d b = .ok s') : VInv s' := by
  simp only [State.relock_from_balance, bind_ok_iff, require_ok_iff, subU_ok_iff, pure_ok_iff] at hx
  obtain ⟨v, hv, -, -, -, -, x, ⟨-, rfl⟩, r, hr, rfl⟩ := hx
  obtain ⟨hv, rfl⟩ := get_voter_ok hv
  exact h.deposit (s' := r.1) (v' := r.2) hr rfl rfl rfl (h.voterOK c.predecessor).count

theorem Cleared.voterOK {m now : Nat} {v v' : Voter} (h : Cleared now v v') (hk : VoterOK m v) :
    VoterOK m v' := by
  refine ⟨?_, by rw [h.votes]; exact hk.clean, h.len.trans hk.count⟩
  have := hk.power
  simp only [Voter.power, Voter.used] at *
  rw [h.avail, h.votes, h.locked]; exact this

theorem Cleared.power {now : Nat} {v v' : Voter} (h : Cleared now v v') : v'.power = v.power := by
  simp only [Voter.power, Voter.used]; rw [h.avail, h.votes]

theorem clear_vinv {s s' : State} {c : Ctx} {l : List Nat} (h : VInv s)
    (hx : s.clear_locking_position c l = .ok s') : VInv s' := by
  simp only [State.clear_locking_position, bind_ok_iff, require_ok_iff, pure_ok_iff] at hx
  obtain ⟨-, -, v, hv, v2, hv2, rfl⟩ := hx
  obtain ⟨hv, rfl⟩ := get_voter_ok hv
  have hc := clear_cleared hv2
  exact h.update_same c.predecessor v2 rfl (hc.voterOK (h.voterOK _)) (by rw [hc.power]) hc.votes rfl rfl

/-! ## Voting -/

theorem VInv.set_vote {s s' : State} (h : VInv s) {id : String} {v' : Voter} {c o : String} {n t : Nat}
    (hvoters : s'.voters = s.voters.insert id v')
    (hlp : v'.locking_positions = (s.voterD id).locking_positions)
    (hvp : v'.vote_positions = vset (s.voterD id).vote_positions c o n)
    (hpow : v'.available_voting_power + n
      = (s.voterD id).available_voting_power + (s.voterD id).votesOf c o)
    (hvotes : s'.votes = vset s.votes c o t)
    (ht : t + (s.voterD id).votesOf c o = s.totalVotes c o + n)
    (htot : s'.total_voting_power = s.total_voting_power)
    (hmax : s'.max_locking_positions = s.max_locking_positions) : VInv s' := by
  have hk := h.voterOK id
  have hu := vsum_vset (s.voterD id).vote_positions c o n
  have hp : v'.power = (s.voterD id).power := by
    simp only [Voter.power, Voter.used, Voter.votesOf, hvp] at *; omega
  refine h.update id v' hvoters ⟨?_, ?_, by rw [hlp]; exact hk.count⟩ (by omega) ?_ ?_ hmax
  · rw [hp]; simp only [Voter.lockedVp, hlp]; exact hk.power
  · rw [hvp]; exact vclean_vset hk.clean _ _ _
  · intro c' o'
    simp only [State.totalVotes, Voter.votesOf, hvotes, hvp, vget_vset] at *
    split
    · rename_i he; obtain ⟨rfl, rfl⟩ := he; exact ht
    · rfl
  · rw [hvotes]; exact vclean_vset h.clean _ _ _

theorem internal_vote_vinv {s s' : State} {id : String} {n : Nat} {c o : String} (h : VInv s)
    (hx : s.internal_vote id n c o = .ok s') : VInv s' := by
  simp only [State.internal_vote, bind_ok_iff, pure_ok_iff] at hx
  obtain ⟨v, hv, ⟨s1, v1⟩, hr, rfl⟩ := hx
  obtain ⟨hv, rfl⟩ := get_voter_ok hv
  obtain ⟨h1, -, -, -, rfl, rfl⟩ := create_voting_ok hr
  exact h.set_vote (id := id) (c := c) (o := o) (n := (s.voterD id).votesOf c o + n)
    (t := s.totalVotes c o + n) rfl rfl rfl (by simp only; omega) rfl (by omega) rfl rfl

/-- `votes` after a decrease that leaves `t`. -/
theorem decreased_vget (m : UMap String (UMap String Nat)) (c o c' o' : String) (t : Nat) :
    vget (if t = 0 then vdel m c o else vset m c o t) c' o'
      = if c' = c ∧ o' = o then t else vget m c' o' := by
  by_cases h : t = 0
  · subst h; simp only [if_true]; rw [vget_vdel]
  · simp only [h, if_false]; rw [vget_vset]

theorem decreased_clean {m : UMap String (UMap String Nat)} (h : vclean m) (c o : String) (t : Nat) :
    vclean (if t = 0 then vdel m c o else vset m c o t) := by
  split
  · exact vclean_vdel h _ _
  · exact vclean_vset h _ _ _

theorem internal_unvote_vinv {s s' : State} {x : Ctx} {id c o : String} (h : VInv s)
    (hx : s.internal_unvote x id c o = .ok s') : VInv s' := by
  simp only [State.internal_unvote, bind_ok_iff, require_ok_iff, pure_ok_iff] at hx
  obtain ⟨-, -, v, hv, ⟨s1, v1⟩, hr, rfl⟩ := hx
  obtain ⟨hv, rfl⟩ := get_voter_ok hv
  obtain ⟨-, -, h1, rfl, rfl⟩ := remove_voting_ok hr
  have hk := h.voterOK id
  have hu := vsum_vdel (s.voterD id).vote_positions c o
  have hpow := hk.power
  refine h.update id _ rfl ⟨?_, vclean_vdel hk.clean _ _, hk.count⟩ ?_ ?_ (decreased_clean h.clean _ _ _) rfl
  · simp only [Voter.power, Voter.used, Voter.lockedVp, Voter.votesOf] at *; omega
  · simp only [Voter.power, Voter.used, Voter.votesOf] at *; omega
  · intro c' o'
    show vget (if s.totalVotes c o - (s.voterD id).votesOf c o = 0 then vdel s.votes c o
        else vset s.votes c o (s.totalVotes c o - (s.voterD id).votesOf c o)) c' o'
      + vget (s.voterD id).vote_positions c' o'
      = vget s.votes c' o' + vget (vdel (s.voterD id).vote_positions c o) c' o'
    rw [decreased_vget, vget_vdel]
    split
    · rename_i he; obtain ⟨rfl, rfl⟩ := he
      simp only [State.totalVotes, Voter.votesOf] at *; omega
    · rfl

theorem rebalance_vinv {s s' : State} {x : Ctx} {n : Nat} {c o : String} (h : VInv s)
    (hx : s.rebalance x n c o = .ok s') : VInv s' := by
  simp only [State.rebalance, bind_ok_iff, expect_ok_iff, require_ok_iff] at hx
  obtain ⟨v, hv, k, hk, -, hne, hx⟩ := hx
  obtain ⟨hv, rfl⟩ := get_voter_ok hv
  have hk' : (s.voterD x.predecessor).votesOf c o = k := by
    rw [Voter.votesOf, vget_eq]; simp only [Voter.get_vote_position_for_address] at hk; rw [hk]; rfl
  split at hx
  · exact internal_unvote_vinv h hx
  · rename_i hn0
    simp only [bind_ok_iff, pure_ok_iff] at hx
    obtain ⟨r, hr, rfl⟩ := hx
    split at hr
    · simp only [bind_ok_iff, require_ok_iff, subU_ok_iff, addU128_ok_iff, pure_ok_iff] at hr
      obtain ⟨ad, ⟨-, rfl⟩, -, hav, av, ⟨-, rfl⟩, vo, ⟨-, rfl⟩, s1, hs1, rfl⟩ := hr
      obtain ⟨-, rfl⟩ := increase_total_ok hs1
      exact h.set_vote (id := x.predecessor) (c := c) (o := o) (n := k + (n - k))
        (t := s.totalVotes c o + (n - k)) rfl rfl rfl (by simp only; omega) rfl (by omega) rfl rfl
    · simp only [bind_ok_iff, subU_ok_iff, addU128_ok_iff, pure_ok_iff] at hr
      obtain ⟨ad, ⟨-, rfl⟩, av, ⟨-, rfl⟩, vo, ⟨-, rfl⟩, s1, hs1, rfl⟩ := hr
      obtain ⟨h1, -, rfl⟩ := decrease_total_ok hs1
      have hle : k ≤ s.totalVotes c o := by
        rw [h.votes c o, ← hk']
        exact UMap.le_sum_of_get (f := fun _ v => v.votesOf c o) hv
      have hpos : s.totalVotes c o - (k - n) ≠ 0 := by omega
      simp only [hpos, if_false]
      exact h.set_vote (id := x.predecessor) (c := c) (o := o) (n := k - (k - n))
        (t := s.totalVotes c o - (k - n)) rfl rfl rfl (by simp only; omega) rfl (by omega) rfl rfl

/-! ## Withdrawals -/

theorem VInv.remove {s s' : State} (h : VInv s) (id : String)
    (hvoters : s'.voters = s.voters.remove id) (hp : (s.voterD id).power = 0)
    (hv : s'.votes = s.votes) (ht : s'.total_voting_power = s.total_voting_power)
    (hmax : s'.max_locking_positions = s.max_locking_positions) : VInv s' := by
  have hvo : ∀ c o, (s.voterD id).votesOf c o = 0 := by
    intro c o
    have := vget_le_vsum (s.voterD id).vote_positions c o
    simp only [Voter.power, Voter.used, Voter.votesOf] at *; omega
  refine ⟨?_, ?_, ?_, by rw [hv]; exact h.clean, by rw [hmax]; exact h.max8⟩
  · intro i v hv
    rw [hvoters, UMap.get_remove] at hv
    rw [hmax]
    split at hv
    · simp at hv
    · exact h.voters i v hv
  · have := sum_remove_voter s id Voter.power power_blank
    rw [hvoters, ht, h.total]; omega
  · intro c o
    have := sum_remove_voter s id (fun v => v.votesOf c o) (votesOf_blank c o)
    have h2 := h.votes c o
    have h3 := hvo c o
    simp only [State.totalVotes, hv] at *
    rw [hvoters]; omega

theorem internal_withdraw_vinv {s s' : State} {x : Ctx} {id : String} {l : List Nat} {am : Option Nat}
    {t : Transfer} (h : VInv s) (hx : s.internal_withdraw x id l am = .ok (s', t)) : VInv s' := by
  simp only [State.internal_withdraw, bind_ok_iff, require_ok_iff, subU_ok_iff, pure_ok_iff,
    Prod.mk.injEq] at hx
  obtain ⟨-, -, v, hv, v2, hv2, -, -, -, -, b, ⟨-, rfl⟩, rfl, -⟩ := hx
  obtain ⟨hv, rfl⟩ := get_voter_ok hv
  have hc : Cleared x.now (s.voterD id) v2 := by
    split at hv2
    · exact clear_cleared hv2
    · simp only [pure_ok_iff] at hv2; subst hv2; exact Cleared.refl _ _
  have hk := hc.voterOK (h.voterOK id)
  split
  · rename_i he
    refine h.remove id rfl ?_ rfl rfl rfl
    have hnil : v2.locking_positions = [] := by
      simp only [Voter.is_empty, Bool.and_eq_true, List.isEmpty_iff] at he
      exact he.2
    have := hk.power
    rw [← hc.power]
    simp only [Voter.lockedVp, hnil, posSum_nil] at this
    omega
  · refine h.update_same id _ rfl ⟨hk.power, hk.clean, hk.count⟩ ?_ hc.votes rfl rfl
    have := hc.power
    simp only [Voter.power, Voter.used] at *
    omega

theorem restore_vinv {s s' : State} {a : Nat} {id : String} (h : VInv s)
    (hx : s.restore_transfer_to_mpdao a id = .ok s') : VInv s' := by
  simp only [State.restore_transfer_to_mpdao, bind_ok_iff, addU128_ok_iff, pure_ok_iff] at hx
  obtain ⟨b, ⟨-, rfl⟩, rfl⟩ := hx
  have hk := h.voterOK id
  exact h.update_same id _ rfl ⟨hk.power, hk.clean, hk.count⟩ rfl rfl rfl rfl

end Verif.MetaVote
