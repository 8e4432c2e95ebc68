import Verif.MetaVote.Inv2
import Verif.Spec.Ledger

/-!
# Footprint of every call, and its effect on the mpDAO held for a voter

`VEffect id s s' i o`: only the voter `id`, the votes and the total voting power may differ between `s`
and `s'`, and the mpDAO held for `id` changed by `+ i - o`.
-/

namespace Verif.MetaVote

open Verif

structure VFrame (id : String) (s s' : State) : Prop where
  state : s' = { s with
    voters := s'.voters
    votes := s'.votes
    total_voting_power := s'.total_voting_power }
  others : ∀ i, i ≠ id → s'.voters.get i = s.voters.get i

structure VEffect (id : String) (s s' : State) (inn out : Nat) : Prop extends VFrame id s s' where
  held : (s'.voterD id).held + out = (s.voterD id).held + inn

theorem voterD_of_get {s : State} {id : String} {v : Voter} (h : s.voters.get id = some v) :
    s.voterD id = v := by simp [State.voterD, h]

/-- A voter record is replaced. -/
theorem VFrame.insert {s s' : State} {id : String} {v : Voter}
    (hs : s' = { s with
      voters := s'.voters
      votes := s'.votes
      total_voting_power := s'.total_voting_power })
    (hv : s'.voters = s.voters.insert id v) : VFrame id s s' :=
  ⟨hs, fun i hi => by rw [hv]; exact UMap.get_insert_ne _ _ hi⟩

theorem VEffect.insert {s s' : State} {id : String} {v : Voter} {i o : Nat}
    (hs : s' = { s with
      voters := s'.voters
      votes := s'.votes
      total_voting_power := s'.total_voting_power })
    (hv : s'.voters = s.voters.insert id v) (hh : v.held + o = (s.voterD id).held + i) :
    VEffect id s s' i o :=
  ⟨.insert hs hv, by rw [voterD_of_get (v := v) (by rw [hv]; simp)]; exact hh⟩

theorem VEffect.refl (id : String) (s : State) : VEffect id s s 0 0 := ⟨⟨rfl, fun _ _ => rfl⟩, rfl⟩

theorem VEffect.trans {id : String} {a b c : State} {i o i' o' : Nat} (h : VEffect id a b i o)
    (h' : VEffect id b c i' o') : VEffect id a c (i + i') (o + o') := by
  refine ⟨⟨?_, fun j hj => (h'.others j hj).trans (h.others j hj)⟩, ?_⟩
  · have h1 := h.state
    have h2 := h'.state
    rw [h1] at h2
    exact h2
  · have := h.held; have := h'.held; omega

theorem deposit_veffect {s s' : State} {v v' : Voter} {a d o : Nat} {id : String}
    (hd : s.deposit_locking_position a d id v = .ok (s', v'))
    (hh : v.held + o = (s.voterD id).held) (i : Nat) (hi : i = a) (hio : o ≤ i) :
    VEffect id s s' (i - o) 0 := by
  obtain ⟨vp, ps, -, -, -, -, hps, rfl, rfl⟩ := deposit_ok hd
  obtain ⟨-, h2⟩ := hps.posSum
  refine .insert rfl rfl ?_
  simp only [Voter.held, Voter.inPositions] at *
  omega

theorem claim_and_lock_ok {s s' : State} {c : Ctx} {a d : Nat} (hx : s.claim_and_lock c a d = .ok s') :
    s.min_deposit_amount ≤ a ∧ ∃ s1 v, s.remove_claimable_mpdao c.predecessor a = .ok s1 ∧
      s.voters.get c.predecessor = some v ∧
      ∃ v', s1.deposit_locking_position a d c.predecessor v = .ok (s', v') := by
  simp only [State.claim_and_lock, State.assert_min_deposit_amount, require_ok_iff, bind_ok_iff,
    pure_ok_iff] at hx
  obtain ⟨-, hm, s1, h1, v, hv, r2, hr2, rfl⟩ := hx
  obtain ⟨hv, -⟩ := get_voter_ok hv
  refine ⟨hm, s1, v, h1, ?_, r2.2, hr2⟩
  obtain ⟨-, -, rfl⟩ := remove_claimable_mpdao_ok h1
  exact hv

theorem unlock_position_veffect {s s' : State} {c : Ctx} {i : Nat}
    (hx : s.unlock_position c i = .ok s') : VEffect c.predecessor s s' 0 0 := by
  simp only [State.unlock_position, bind_ok_iff, get_position_ok, require_ok_iff, subU_ok_iff,
    pure_ok_iff] at hx
  obtain ⟨v, hv, p, hp, -, hle, x, ⟨-, rfl⟩, rfl⟩ := hx
  obtain ⟨hv, rfl⟩ := get_voter_ok hv
  have hs := posSum_set (·.amount) _ i p { p with unlocking_started_at := some c.now } hp
  refine .insert rfl rfl ?_
  simp only [Voter.held, Voter.inPositions, Voter.replace_position] at *
  omega

theorem unlock_partial_veffect {s s' : State} {c : Ctx} {i a : Nat}
    (hx : s.unlock_partial_position c i a = .ok s') : VEffect c.predecessor s s' 0 0 := by
  simp only [State.unlock_partial_position, bind_ok_iff, get_position_ok] at hx
  obtain ⟨v, hv, p, hp, hx⟩ := hx
  split at hx
  · exact unlock_position_veffect hx
  · simp only [bind_ok_iff, require_ok_iff, subU_ok_iff, pure_ok_iff,
      State.create_unlocking_position] at hx
    obtain ⟨-, hlt, r, ⟨-, rfl⟩, -, -, -, -, vp, -, -, hvp, -, hav, v2, ⟨-, hlen, rfl⟩, y, ⟨-, rfl⟩,
      z, ⟨-, rfl⟩, -, -, w, ⟨-, rfl⟩, rfl⟩ := hx
    obtain ⟨hv, rfl⟩ := get_voter_ok hv
    have hp' : ((s.voterD c.predecessor).locking_positions ++
        [LockingPosition.mk a p.locking_period vp (some c.now)])[i]? = some p := by
      obtain ⟨hi, -⟩ := List.getElem?_eq_some_iff.1 hp
      rw [List.getElem?_append_left hi]; exact hp
    have hs := posSum_set (·.amount) _ i p
      { p with voting_power := p.voting_power - vp, amount := p.amount - a } hp'
    simp only [posSum_append, posSum_single] at hs
    refine .insert rfl rfl ?_
    simp only [Voter.held, Voter.inPositions, Voter.replace_position] at *
    omega

theorem extend_veffect {s s' : State} {c : Ctx} {i d : Nat}
    (hx : s.locking_position_extend_days c i d = .ok s') : VEffect c.predecessor s s' 0 0 := by
  simp only [State.locking_position_extend_days, bind_ok_iff, get_position_ok, require_ok_iff,
    subU_ok_iff, addU128_ok_iff, pure_ok_iff] at hx
  obtain ⟨v, hv, p, hp, -, hl, -, -, vp, -, de, ⟨hle, rfl⟩, t, ⟨-, rfl⟩, av, ⟨-, rfl⟩, rfl⟩ := hx
  obtain ⟨hv, rfl⟩ := get_voter_ok hv
  have hs := posSum_set (·.amount) _ i p { p with locking_period := d, voting_power := vp } hp
  refine .insert rfl rfl ?_
  simp only [Voter.held, Voter.inPositions, Voter.replace_position] at *
  omega

theorem relock_position_veffect {s s' : State} {c : Ctx} {i d b : Nat}
    (hx : s.relock_position c i d b = .ok s') : VEffect c.predecessor s s' 0 0 := by
  simp only [State.relock_position, bind_ok_iff, get_position_ok, require_ok_iff, expect_ok_iff,
    subU_ok_iff, addU128_ok_iff, pure_ok_iff] at hx
  obtain ⟨v, hv, p, hp, -, -, t, ht, -, -, a, ⟨-, rfl⟩, x, ⟨hb, rfl⟩, r, hr, rfl⟩ := hx
  obtain ⟨hv, rfl⟩ := get_voter_ok hv
  have h2 := posSum_swapRemove (·.amount) _ i p hp
  have := deposit_veffect (s' := r.1) (v' := r.2) (o := p.amount + b) hr
    (by simp only [Voter.held, Voter.inPositions, Voter.remove_position] at *; omega) _ rfl (le_refl _)
  simpa using this

theorem relock_partial_veffect {s s' : State} {c : Ctx} {i a d b : Nat}
    (hx : s.relock_partial_position c i a d b = .ok s') : VEffect c.predecessor s s' 0 0 := by
  simp only [State.relock_partial_position, bind_ok_iff, get_position_ok, require_ok_iff,
    expect_ok_iff, subU_ok_iff, addU128_ok_iff, pure_ok_iff] at hx
  obtain ⟨v, hv, p, hp, -, hbb, -, haa, am, ⟨-, rfl⟩, -, -, t, ht, v2, hv2, x, ⟨hb, rfl⟩, r, hr, rfl⟩ := hx
  obtain ⟨hv, rfl⟩ := get_voter_ok hv
  have key : v2.held + a = (s.voterD c.predecessor).held := by
    split at hv2
    · simp only [bind_ok_iff, require_ok_iff, subU_ok_iff, pure_ok_iff] at hv2
      obtain ⟨-, -, n, ⟨-, rfl⟩, -, -, -, -, vp, -, rfl⟩ := hv2
      have hs := posSum_set (·.amount) _ i p { p with amount := p.amount - a, voting_power := vp } hp
      simp only [Voter.held, Voter.inPositions, Voter.replace_position] at *
      omega
    · simp only [bind_ok_iff, subU_ok_iff, addU128_ok_iff, pure_ok_iff] at hv2
      obtain ⟨n, ⟨-, rfl⟩, y, ⟨-, rfl⟩, rfl⟩ := hv2
      have h2 := posSum_swapRemove (·.amount) _ i p hp
      simp only [Voter.held, Voter.inPositions, Voter.remove_position] at *
      omega
  have := deposit_veffect (s' := r.1) (v' := r.2) (o := b + a) hr
    (by simp only [Voter.held, Voter.inPositions] at *; omega) _ rfl (le_refl _)
  simpa using this

theorem relock_from_balance_veffect {s s' : State} {c : Ctx} {d b : Nat}
    (hx : s.relock_from_balance c d b = .ok s') : VEffect c.predecessor s s' 0 0 := by
  simp only [State.relock_from_balance, bind_ok_iff, require_ok_iff, subU_ok_iff, pure_ok_iff] at hx
  obtain ⟨v, hv, -, hb, -, -, x, ⟨-, rfl⟩, r, hr, rfl⟩ := hx
  obtain ⟨hv, rfl⟩ := get_voter_ok hv
  have := deposit_veffect (s' := r.1) (v' := r.2) (o := b) hr
    (by simp only [Voter.held, Voter.inPositions] at *; omega) _ rfl (le_refl _)
  simpa using this

theorem clear_veffect {s s' : State} {c : Ctx} {l : List Nat}
    (hx : s.clear_locking_position c l = .ok s') : VEffect c.predecessor s s' 0 0 := by
  simp only [State.clear_locking_position, bind_ok_iff, require_ok_iff, pure_ok_iff] at hx
  obtain ⟨-, -, v, hv, v2, hv2, rfl⟩ := hx
  obtain ⟨hv, rfl⟩ := get_voter_ok hv
  have hc := clear_cleared hv2
  exact .insert rfl rfl (by have := hc.held; omega)

theorem internal_vote_veffect {s s' : State} {id : String} {n : Nat} {c o : String}
    (hx : s.internal_vote id n c o = .ok s') : VEffect id s s' 0 0 := by
  simp only [State.internal_vote, bind_ok_iff, pure_ok_iff] at hx
  obtain ⟨v, hv, ⟨s1, v1⟩, hr, rfl⟩ := hx
  obtain ⟨hv, rfl⟩ := get_voter_ok hv
  obtain ⟨h1, -, -, -, rfl, rfl⟩ := create_voting_ok hr
  exact .insert rfl rfl rfl

theorem internal_unvote_veffect {s s' : State} {x : Ctx} {id c o : String}
    (hx : s.internal_unvote x id c o = .ok s') : VEffect id s s' 0 0 := by
  simp only [State.internal_unvote, bind_ok_iff, require_ok_iff, pure_ok_iff] at hx
  obtain ⟨-, -, v, hv, ⟨s1, v1⟩, hr, rfl⟩ := hx
  obtain ⟨hv, rfl⟩ := get_voter_ok hv
  obtain ⟨-, -, h1, rfl, rfl⟩ := remove_voting_ok hr
  exact .insert rfl rfl rfl

theorem rebalance_veffect {s s' : State} {x : Ctx} {n : Nat} {c o : String}
    (hx : s.rebalance x n c o = .ok s') : VEffect x.predecessor s s' 0 0 := by
  simp only [State.rebalance, bind_ok_iff, expect_ok_iff, require_ok_iff] at hx
  obtain ⟨v, hv, k, hk, -, hne, hx⟩ := hx
  obtain ⟨hv, rfl⟩ := get_voter_ok hv
  split at hx
  · exact internal_unvote_veffect hx
  · simp only [bind_ok_iff, pure_ok_iff] at hx
    obtain ⟨r, hr, rfl⟩ := hx
    split at hr
    · simp only [bind_ok_iff, require_ok_iff, subU_ok_iff, addU128_ok_iff, pure_ok_iff] at hr
      obtain ⟨ad, ⟨-, rfl⟩, -, hav, av, ⟨-, rfl⟩, vo, ⟨-, rfl⟩, s1, hs1, rfl⟩ := hr
      obtain ⟨-, rfl⟩ := increase_total_ok hs1
      exact .insert rfl rfl rfl
    · simp only [bind_ok_iff, subU_ok_iff, addU128_ok_iff, pure_ok_iff] at hr
      obtain ⟨ad, ⟨-, rfl⟩, av, ⟨-, rfl⟩, vo, ⟨-, rfl⟩, s1, hs1, rfl⟩ := hr
      obtain ⟨h1, -, rfl⟩ := decrease_total_ok hs1
      exact .insert rfl rfl rfl

/-- What an accepted withdrawal did. -/
theorem internal_withdraw_ok {s s' : State} {x : Ctx} {id : String} {l : List Nat} {am : Option Nat}
    {t : Transfer} (hx : s.internal_withdraw x id l am = .ok (s', t)) :
    ∃ v v2, s.voters.get id = some v ∧ v = s.voterD id ∧ Cleared x.now v v2 ∧
      (l = [] → v2 = v) ∧ (l ≠ [] → v.clear_fully_unlocked_positions x.now l = .ok v2) ∧
      x.deposit = 1 ∧
      t = ⟨s.mpdao_token_contract_address, id, am.getD v2.balance,
        .after_transfer_mpdao id (am.getD v2.balance)⟩ ∧
      0 < am.getD v2.balance ∧ am.getD v2.balance ≤ v2.balance ∧
      s' = (if v2.balance - am.getD v2.balance = 0 ∧ v2.locking_positions = [] then
          { s with voters := s.voters.remove id }
        else { s with
          voters := s.voters.insert id { v2 with balance := v2.balance - am.getD v2.balance } }) := by
  simp only [State.internal_withdraw, bind_ok_iff, require_ok_iff, subU_ok_iff, pure_ok_iff,
    Prod.mk.injEq, assert_one_yocto] at hx
  obtain ⟨-, hy, v, hv, v2, hv2, -, h1, -, h2, b, ⟨-, rfl⟩, rfl, rfl⟩ := hx
  obtain ⟨hv, rfl⟩ := get_voter_ok hv
  have hl : (l = [] → v2 = s.voterD id) ∧
      (l ≠ [] → (s.voterD id).clear_fully_unlocked_positions x.now l = .ok v2) := by
    split at hv2
    · rename_i hne; exact ⟨fun h => absurd h hne, fun _ => hv2⟩
    · rename_i hne; simp only [pure_ok_iff] at hv2; exact ⟨fun _ => hv2.symm, fun h => absurd h hne⟩
  have hc : Cleared x.now (s.voterD id) v2 := by
    by_cases hne : l = []
    · rw [hl.1 hne]; exact Cleared.refl _ _
    · exact clear_cleared (hl.2 hne)
  refine ⟨_, v2, hv, rfl, hc, hl.1, hl.2, hy, ?_, h1, h2, ?_⟩
  · split <;> rfl
  · by_cases he : v2.balance - am.getD v2.balance = 0 ∧ v2.locking_positions = []
    · rw [if_pos he, if_pos]; simp [Voter.is_empty, he.1, he.2]
    · rw [if_neg he, if_neg]
      intro hh
      simp only [Voter.is_empty, Bool.and_eq_true, List.isEmpty_iff, beq_iff_eq] at hh
      exact he hh

theorem internal_withdraw_veffect {s s' : State} {x : Ctx} {id : String} {l : List Nat} {am : Option Nat}
    {t : Transfer} (hx : s.internal_withdraw x id l am = .ok (s', t)) :
    VEffect id s s' 0 t.amount := by
  obtain ⟨v, v2, hv, rfl, hc, -, -, -, rfl, h1, h2, rfl⟩ := internal_withdraw_ok hx
  have hh := hc.held
  split
  · rename_i he
    refine ⟨⟨rfl, fun i hi => UMap.get_remove_ne _ hi⟩, ?_⟩
    have : State.voterD { s with voters := s.voters.remove id } id = ⟨0, [], 0, UMap.empty⟩ := by
      simp [State.voterD]
    rw [this]
    simp only [Voter.held, Voter.inPositions, he.2, posSum_nil] at *
    omega
  · refine .insert rfl rfl ?_
    simp only [Voter.held, Voter.inPositions] at *
    omega

theorem restore_veffect {s s' : State} {a : Nat} {id : String}
    (hx : s.restore_transfer_to_mpdao a id = .ok s') : VEffect id s s' a 0 := by
  simp only [State.restore_transfer_to_mpdao, bind_ok_iff, addU128_ok_iff, pure_ok_iff] at hx
  obtain ⟨b, ⟨-, rfl⟩, rfl⟩ := hx
  refine .insert rfl rfl ?_
  simp only [Voter.held, Voter.inPositions, internal_get_voter_eq]
  omega

theorem migration_fold_veffect {id : String} : ∀ {l : List (Nat × Nat)} {s : State} {r : State × Voter},
    l.foldlM (State.migration_step id) (s, s.voterD id) = .ok r →
    VEffect id s r.1 (migratedAmount l) 0
  | [], s, r, hx => by
    rw [foldlM_ok_nil] at hx
    subst hx
    exact VEffect.refl id s
  | lp :: l, s, r, hx => by
    rw [foldlM_ok_cons] at hx
    obtain ⟨⟨s1, v1⟩, h1, h2⟩ := hx
    have e1 := deposit_veffect (o := 0) h1 rfl _ rfl (Nat.zero_le _)
    have hv1 : v1 = s1.voterD id := by
      obtain ⟨vp, ps, -, -, -, -, -, -, rfl⟩ := deposit_ok h1
      simp [State.voterD]
    subst hv1
    have := e1.trans (migration_fold_veffect h2)
    simpa [migratedAmount] using this

/-- A migration is a sequence of deposits, plus user data stored under the caller. -/
theorem migration_ok {s s' : State} {c : Ctx} {id : String} {l : List (Nat × Nat)} {d : Option String}
    (hx : s.migration_create_lps c id l d = .ok s') :
    c.predecessor = s.prev_governance_contract ∧
    ∃ r, l.foldlM (State.migration_step id) (s, s.voterD id) = .ok r ∧
      s' = { r.1 with associated_user_data := (match d with
        | some x => if s.associated_user_data.get c.predecessor = none then
            s.associated_user_data.insert c.predecessor x else s.associated_user_data
        | none => s.associated_user_data) } := by
  simp only [State.migration_create_lps, bind_ok_iff, require_ok_iff] at hx
  obtain ⟨-, h1, r, hr, hx⟩ := hx
  refine ⟨h1, r, hr, ?_⟩
  have hd : r.1.associated_user_data = s.associated_user_data := by
    rw [(migration_fold_veffect hr).state]
  cases d with
  | none =>
    simp only [pure_ok_iff] at hx
    subst hx; rw [← hd]
  | some d =>
    simp only [hd] at hx ⊢
    split at hx <;> simp only [pure_ok_iff] at hx <;> subst hx
    · rename_i h; rw [if_pos h]
    · rename_i h; rw [if_neg h, ← hd]

theorem mirror_vframe {s s' : State} {c : Ctx} {e : String} {l : List (Nat × Nat)}
    (hx : s.operator_mirror_lps c e l = .ok s') :
    s.operator_id = c.predecessor ∧ VFrame (pseudo_near_address e) s s' := by
  simp only [State.operator_mirror_lps, State.assert_operator, require_ok_iff, bind_ok_iff,
    addU128_ok_iff, subU_ok_iff, pure_ok_iff, internal_get_voter_eq] at hx
  obtain ⟨-, hop, u, hu, prev, ⟨-, rfl⟩, vps, -, nvp, -, ⟨s1, v1, u1⟩, hloop, ⟨s2, v2⟩, hcr, av,
    ⟨hav, rfl⟩, tot, ⟨htot, rfl⟩, rfl⟩ := hx
  refine ⟨hop, ?_⟩
  have hs1 : s1 = { s with votes := s1.votes } := by
    have : ∀ (fuel : Nat) (n : Nat) (s0 : State) (v : Voter) (used : Nat) (r : State × Voter × Nat),
        State.mirror_remove_votes n fuel s0 v used = .ok r → r.1 = { s0 with votes := r.1.votes } := by
      intro fuel
      induction fuel with
      | zero =>
        intro n s0 v used r h
        unfold State.mirror_remove_votes at h
        split at h
        · simp at h
        · simp only [pure_ok_iff] at h; subst h; rfl
      | succ fuel ih =>
        intro n s0 v used r h
        unfold State.mirror_remove_votes at h
        split at h
        · simp only [bind_ok_iff, expect_ok_iff, subU_ok_iff] at h
          obtain ⟨app, happ, obj, hobj, ⟨s1, v1⟩, hr, u, ⟨-, rfl⟩, hx⟩ := h
          obtain ⟨-, -, -, -, rfl⟩ := remove_voting_ok hr
          have := ih _ _ _ _ _ hx
          exact this
        · simp only [pure_ok_iff] at h; subst h; rfl
    exact this _ _ _ _ _ _ hloop
  have hs2 : s2 = { s1 with total_voting_power := s2.total_voting_power } := by
    refine foldlM_inv (fun sv : State × Voter =>
      sv.1 = { s1 with total_voting_power := sv.1.total_voting_power }) ?_ l _ (s2, v2) rfl hcr
    rintro ⟨sa, va⟩ lp ⟨sb, vb⟩ ha hs
    obtain ⟨vp, -, -, hlt, -, -, rfl, rfl⟩ := create_locking_ok hs
    simp only at ha ⊢
    rw [ha]
  refine .insert (v := { v2 with available_voting_power := v2.available_voting_power - u1 }) ?_ ?_
  · rw [hs2, hs1]
  · rw [hs2, hs1]

end Verif.MetaVote
