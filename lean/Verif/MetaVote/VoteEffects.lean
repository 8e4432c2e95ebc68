import Verif.MetaVote.ViewLemmas
import Verif.MetaVote.Exact

/-!
# What each call does to the votes of each voter
-/

namespace Verif.MetaVote

open Verif

theorem internal_vote_ok {s s' : State} {id : String} {n : Nat} {a o : String}
    (hx : s.internal_vote id n a o = .ok s') :
    s.voters.get id = some (s.voterD id) ∧ n ≤ (s.voterD id).available_voting_power ∧
    (s.voterD id).vote_positions.len ≤ s.max_voting_positions ∧
    (s.voterD id).votesOf a o + n ≤ U128_MAX ∧ s.totalVotes a o + n ≤ U128_MAX ∧
    s' = { s with
      votes := vset s.votes a o (s.totalVotes a o + n)
      voters := s.voters.insert id { s.voterD id with
        available_voting_power := (s.voterD id).available_voting_power - n
        vote_positions := vset (s.voterD id).vote_positions a o ((s.voterD id).votesOf a o + n) } } := by
  simp only [State.internal_vote, bind_ok_iff, pure_ok_iff] at hx
  obtain ⟨v, hv, ⟨s1, v1⟩, hc, rfl⟩ := hx
  obtain ⟨hv, rfl⟩ := get_voter_ok hv
  obtain ⟨h1, h2, h3, h4, rfl, rfl⟩ := create_voting_ok hc
  exact ⟨hv, h1, h2, h3, h4, rfl⟩

theorem internal_unvote_ok {s s' : State} {x : Ctx} {id a o : String}
    (hx : s.internal_unvote x id a o = .ok s') :
    s.is_vote_locked x.now a o = false ∧ s.voters.get id = some (s.voterD id) ∧
    (((s.voterD id).vote_positions.get a).getD UMap.empty).get o = some ((s.voterD id).votesOf a o) ∧
    (s.voterD id).available_voting_power + (s.voterD id).votesOf a o ≤ U128_MAX ∧
    (s.voterD id).votesOf a o ≤ s.totalVotes a o ∧
    s' = { s with
      votes := (if s.totalVotes a o - (s.voterD id).votesOf a o = 0 then vdel s.votes a o
          else vset s.votes a o (s.totalVotes a o - (s.voterD id).votesOf a o))
      voters := s.voters.insert id { s.voterD id with
        available_voting_power := (s.voterD id).available_voting_power + (s.voterD id).votesOf a o
        vote_positions := vdel (s.voterD id).vote_positions a o } } := by
  simp only [State.internal_unvote, bind_ok_iff, pure_ok_iff, require_ok_iff] at hx
  obtain ⟨-, hl, v, hv, ⟨s1, v1⟩, hc, rfl⟩ := hx
  obtain ⟨hv, rfl⟩ := get_voter_ok hv
  obtain ⟨h1, h2, h3, rfl, rfl⟩ := remove_voting_ok hc
  exact ⟨hl, hv, h1, h2, h3, rfl⟩

/-- A rebalance to a non-zero value. -/
theorem rebalance_ok {s s' : State} {x : Ctx} {n : Nat} {a o : String}
    (hx : s.rebalance x n a o = .ok s') :
    (((s.voterD x.predecessor).vote_positions.get a).getD UMap.empty).get o
      = some ((s.voterD x.predecessor).votesOf a o) ∧
    s.voters.get x.predecessor = some (s.voterD x.predecessor) ∧
    (s.voterD x.predecessor).votesOf a o ≠ n ∧
    ((n = 0 ∧ s.internal_unvote x x.predecessor a o = .ok s') ∨
     (n ≠ 0 ∧ n ≤ (s.voterD x.predecessor).available_voting_power + (s.voterD x.predecessor).votesOf a o ∧
      (s.voterD x.predecessor).votesOf a o ≤ s.totalVotes a o + n ∧
      ∃ votes', s' = { s with
        votes := votes'
        voters := s.voters.insert x.predecessor { s.voterD x.predecessor with
          available_voting_power := (s.voterD x.predecessor).available_voting_power
            + (s.voterD x.predecessor).votesOf a o - n
          vote_positions := vset (s.voterD x.predecessor).vote_positions a o n } } ∧
        ∀ a' o', vget votes' a' o' = if a' = a ∧ o' = o then
          s.totalVotes a o + n - (s.voterD x.predecessor).votesOf a o else s.totalVotes a' o')) := by
  simp only [State.rebalance, bind_ok_iff, expect_ok_iff, require_ok_iff] at hx
  obtain ⟨v, hv, k, hk, -, hne, hx⟩ := hx
  obtain ⟨hv, rfl⟩ := get_voter_ok hv
  simp only [Voter.get_vote_position_for_address] at hk
  have hk' : (s.voterD x.predecessor).votesOf a o = k := by
    rw [Voter.votesOf, vget_eq, hk]; rfl
  rw [hk']
  refine ⟨hk, hv, hne, ?_⟩
  split at hx
  · exact .inl ⟨by assumption, hx⟩
  · rename_i hn
    refine .inr ⟨hn, ?_⟩
    simp only [bind_ok_iff, pure_ok_iff] at hx
    obtain ⟨r, hr, rfl⟩ := hx
    split at hr
    · rename_i hlt
      simp only [bind_ok_iff, require_ok_iff, subU_ok_iff, addU128_ok_iff, pure_ok_iff] at hr
      obtain ⟨ad, ⟨-, rfl⟩, -, hav, av, ⟨-, rfl⟩, vo, ⟨-, rfl⟩, s1, hs1, rfl⟩ := hr
      obtain ⟨-, rfl⟩ := increase_total_ok hs1
      refine ⟨by omega, by omega, vset s.votes a o (s.totalVotes a o + (n - k)), ?_, ?_⟩
      · simp only [vset, Voter.get_vote_position_for_address]
        rw [show k + (n - k) = n by omega,
          show (s.voterD x.predecessor).available_voting_power - (n - k)
            = (s.voterD x.predecessor).available_voting_power + k - n by omega]
      · intro a' o'
        rw [vget_vset, show s.totalVotes a o + (n - k) = s.totalVotes a o + n - k by omega]; rfl
    · rename_i hlt
      simp only [bind_ok_iff, subU_ok_iff, addU128_ok_iff, pure_ok_iff] at hr
      obtain ⟨ad, ⟨-, rfl⟩, av, ⟨-, rfl⟩, vo, ⟨-, rfl⟩, s1, hs1, rfl⟩ := hr
      obtain ⟨h1, -, rfl⟩ := decrease_total_ok hs1
      refine ⟨by omega, by omega, (if s.totalVotes a o - (k - n) = 0 then vdel s.votes a o
          else vset s.votes a o (s.totalVotes a o - (k - n))), ?_, ?_⟩
      · simp only [vset, Voter.get_vote_position_for_address]
        rw [show k - (k - n) = n by omega,
          show (s.voterD x.predecessor).available_voting_power + (k - n)
            = (s.voterD x.predecessor).available_voting_power + k - n by omega]
      · intro a' o'
        rw [decreased_vget, show s.totalVotes a o - (k - n) = s.totalVotes a o + n - k by omega]; rfl

/-- Entries are removed one after the other. -/
inductive Trimmed : UMap String (UMap String Nat) → UMap String (UMap String Nat) → Prop
  | refl (m : UMap String (UMap String Nat)) : Trimmed m m
  | del {m m' : UMap String (UMap String Nat)} (a o : String) (h : Trimmed (vdel m a o) m') : Trimmed m m'

/-- What an accepted call did to the vote map of account `id`. -/
inductive VoteEff (s : State) (c : Ctx) (id : String) : Call → UMap String (UMap String Nat) → Prop
  | same (k : Call) : VoteEff s c id k (s.voterD id).vote_positions
  | vote (k : Call) (n : Nat) (a o : String)
      (hk : (k = .vote n a o ∧ id = c.predecessor) ∨
        ∃ e, k = .vote_delegated e n a o ∧ id = pseudo_near_address e ∧
          e ∈ (s.evm_delegates.get c.predecessor).getD [])
      (hav : n ≤ (s.voterD id).available_voting_power)
      (hlen : (s.voterD id).vote_positions.len ≤ s.max_voting_positions) :
      VoteEff s c id k (vset (s.voterD id).vote_positions a o ((s.voterD id).votesOf a o + n))
  | unvote (k : Call) (a o : String)
      (hk : ((k = .unvote a o ∨ k = .rebalance 0 a o) ∧ id = c.predecessor) ∨
        ∃ e, k = .unvote_delegated e a o ∧ id = pseudo_near_address e ∧
          e ∈ (s.evm_delegates.get c.predecessor).getD [])
      (hl : s.is_vote_locked c.now a o = false)
      (hpres : (((s.voterD id).vote_positions.get a).getD UMap.empty).get o ≠ none) :
      VoteEff s c id k (vdel (s.voterD id).vote_positions a o)
  | rebalance (n : Nat) (a o : String) (hid : id = c.predecessor) (hn : n ≠ 0)
      (hpres : (((s.voterD id).vote_positions.get a).getD UMap.empty).get o ≠ none) :
      VoteEff s c id (.rebalance n a o) (vset (s.voterD id).vote_positions a o n)
  | mirror (e : String) (l : List (Nat × Nat)) (m : UMap String (UMap String Nat))
      (hid : id = pseudo_near_address e) (ht : Trimmed (s.voterD id).vote_positions m) :
      VoteEff s c id (.operator_mirror_lps e l) m
  | gone (k : Call) (hk : (∃ l n, k = .withdraw l n) ∨ k = .withdraw_all) (hid : id = c.predecessor)
      (hl : (s.voterD id).lockedVp = 0) : VoteEff s c id k UMap.empty

theorem VoteEff.of_voters {s s' : State} {c : Ctx} {k : Call} (h : s'.voters = s.voters) (id : String) :
    VoteEff s c id k (s'.voterD id).vote_positions := by
  rw [show s'.voterD id = s.voterD id by rw [State.voterD, h, State.voterD]]
  exact .same k

theorem VoteEff.of_insert {s s' : State} {c : Ctx} {k : Call} {i : String} {v : Voter}
    (h : s'.voters = s.voters.insert i v) (hv : v.vote_positions = (s.voterD i).vote_positions)
    (id : String) : VoteEff s c id k (s'.voterD id).vote_positions := by
  rw [voterD_insert h]
  split
  · rename_i hi; subst hi; rw [hv]; exact .same k
  · exact .same k

/-- Replacing the vote map of one voter. -/
theorem VoteEff.of_insert' {s s' : State} {c : Ctx} {k : Call} {i : String} {v : Voter}
    (h : s'.voters = s.voters.insert i v) (hv : VoteEff s c i k v.vote_positions)
    (id : String) : VoteEff s c id k (s'.voterD id).vote_positions := by
  rw [voterD_insert h]
  split
  · rename_i hi; subst hi; exact hv
  · exact .same k

theorem deposit_votes {s s' : State} {v v' : Voter} {a d : Nat} {i : String} {c : Ctx} {k : Call}
    (hd : s.deposit_locking_position a d i v = .ok (s', v'))
    (hv : v.vote_positions = (s.voterD i).vote_positions) (id : String) :
    VoteEff s c id k (s'.voterD id).vote_positions := by
  obtain ⟨vp, ps, -, -, -, -, -, rfl, rfl⟩ := deposit_ok hd
  refine .of_insert rfl ?_ id
  exact hv

theorem migration_votes {i : String} : ∀ {l : List (Nat × Nat)} {s : State} {r : State × Voter},
    l.foldlM (State.migration_step i) (s, s.voterD i) = .ok r →
    ∀ id, (r.1.voterD id).vote_positions = (s.voterD id).vote_positions
  | [], s, r, hx, id => by rw [foldlM_ok_nil] at hx; subst hx; rfl
  | lp :: l, s, r, hx, id => by
    rw [foldlM_ok_cons] at hx
    obtain ⟨⟨s1, v1⟩, h1, h2⟩ := hx
    simp only [State.migration_step] at h1
    obtain ⟨vp, ps, -, -, -, -, -, hv1, hs1⟩ := deposit_ok h1
    have hd := voterD_insert (s := s) (s' := s1) (id := i) (v := v1) (by rw [hs1])
    have hv : v1 = s1.voterD i := by rw [hd]; simp
    rw [hv] at h2
    rw [migration_votes h2 id, hd]
    split
    · rename_i hi; subst hi; rw [hv1]
    · rfl

theorem mirror_trimmed {n : Nat} : ∀ (fuel : Nat) (s : State) (v : Voter) (u : Nat)
    (r : State × Voter × Nat), State.mirror_remove_votes n fuel s v u = .ok r →
    Trimmed v.vote_positions r.2.1.vote_positions
  | 0, s, v, u, r, h => by
    unfold State.mirror_remove_votes at h
    split at h
    · simp at h
    · simp only [pure_ok_iff] at h; rw [← h]; exact .refl _
  | fuel + 1, s, v, u, r, h => by
    unfold State.mirror_remove_votes at h
    split at h
    · simp only [bind_ok_iff, expect_ok_iff] at h
      obtain ⟨app, -, obj, -, ⟨s1, v1⟩, hr, u1, -, h⟩ := h
      obtain ⟨-, -, h1, rfl, rfl⟩ := remove_voting_ok hr
      exact .del app.1 obj.1 (mirror_trimmed fuel _ _ _ _ h)
    · simp only [pure_ok_iff] at h; rw [← h]; exact .refl _

theorem mirror_votes {s s' : State} {c : Ctx} {e : String} {l : List (Nat × Nat)}
    (hx : s.operator_mirror_lps c e l = .ok s') (id : String) :
    VoteEff s c id (.operator_mirror_lps e l) (s'.voterD id).vote_positions := by
  have hfr := (mirror_vframe hx).2
  by_cases hid : id = pseudo_near_address e
  · subst hid
    simp only [State.operator_mirror_lps, State.assert_operator, require_ok_iff, bind_ok_iff,
      addU128_ok_iff, subU_ok_iff, pure_ok_iff, internal_get_voter_eq] at hx
    obtain ⟨-, hop, u, hu, prev, ⟨-, rfl⟩, vps, -, nvp, -, ⟨s1, v1, u1⟩, hloop, ⟨s2, v2⟩, hcr, av,
      ⟨hav, rfl⟩, tot, ⟨htot, rfl⟩, rfl⟩ := hx
    have ht := mirror_trimmed _ _ _ _ _ hloop
    have hv2 : v2.vote_positions = v1.vote_positions := by
      refine foldlM_inv (fun sv : State × Voter => sv.2.vote_positions = v1.vote_positions) ?_ l _
        (s2, v2) rfl hcr
      rintro ⟨sa, va⟩ lp ⟨sb, vb⟩ ha hs
      obtain ⟨vp, -, -, hlt, -, -, rfl, rfl⟩ := create_locking_ok hs
      exact ha
    refine .mirror e l _ rfl ?_
    simp only [State.voterD, UMap.get_insert_self, Option.getD_some]
    rw [hv2]
    exact ht
  · rw [show s'.voterD id = s.voterD id by rw [State.voterD, hfr.others id hid, State.voterD]]
    exact .same _

theorem withdraw_votes {s s' : State} {x : Ctx} {l : List Nat} {am : Option Nat} {k : Call}
    {t : Transfer} (hk : (∃ l n, k = .withdraw l n) ∨ k = .withdraw_all)
    (hx : s.internal_withdraw x x.predecessor l am = .ok (s', t)) (id : String) :
    VoteEff s x id k (s'.voterD id).vote_positions := by
  obtain ⟨v, v2, hv, rfl, hc, -, -, -, rfl, h1, h2, hs⟩ := internal_withdraw_ok hx
  by_cases hcond : v2.balance - am.getD v2.balance = 0 ∧ v2.locking_positions = []
  · rw [if_pos hcond] at hs
    rw [voterD_remove (s := s) (s' := s') (id := x.predecessor) (by rw [hs])]
    split
    · rename_i hi; subst hi
      refine .gone k hk rfl ?_
      rw [← hc.locked, Voter.lockedVp, hcond.2]; rfl
    · exact .same k
  · rw [if_neg hcond] at hs
    exact .of_insert (i := x.predecessor) (v := { v2 with balance := v2.balance - am.getD v2.balance })
      (by rw [hs]) hc.votes id

/-- The effect of an accepted call on the votes of every account. -/
theorem exec_votes {J : Json} {s s' : State} {c : Ctx} {k : Call} {out : List Transfer}
    (hx : exec J s c k = .ok (s', out)) (id : String) :
    VoteEff s c id k (s'.voterD id).vote_positions := by
  obtain ⟨-, -, -, hr⟩ := exec_ok.1 hx
  cases k <;> simp only [run, quiet_ok, sends_ok] at hr
  case new_ => simp [new] at hr
  case migrate => simp [migrate, expect, bind_ok_iff] at hr
  case claim_and_lock =>
    obtain ⟨hr, rfl⟩ := hr
    obtain ⟨-, s1, v, h1, hv, v', h2⟩ := claim_and_lock_ok hr
    obtain ⟨-, -, hs1⟩ := remove_claimable_mpdao_ok h1
    obtain ⟨vp, ps, -, -, -, -, -, rfl, hs⟩ := deposit_ok h2
    refine .of_insert (i := c.predecessor) (by rw [hs, hs1]) ?_ id
    rw [voterD_of_get hv]
  case claim_stnear =>
    obtain ⟨t, ht, rfl⟩ := hr
    obtain ⟨h, rfl⟩ := claim_stnear_ok ht
    obtain ⟨-, -, hs⟩ := remove_claimable_stnear_ok h
    exact .of_voters (by rw [hs]) id
  case delegated_claim_stnear =>
    obtain ⟨t, ht, rfl⟩ := hr
    obtain ⟨he, h, rfl⟩ := delegated_claim_ok ht
    obtain ⟨-, -, hs⟩ := remove_claimable_stnear_ok h
    exact .of_voters (by rw [hs]) id
  case unlock_position =>
    obtain ⟨hr, rfl⟩ := hr
    simp only [State.unlock_position, bind_ok_iff, get_position_ok, require_ok_iff, subU_ok_iff,
      pure_ok_iff] at hr
    obtain ⟨v, hv, q, hq, -, hle, x, ⟨-, rfl⟩, rfl⟩ := hr
    obtain ⟨hv, rfl⟩ := get_voter_ok hv
    refine .of_insert rfl ?_ id
    exact rfl
  case unlock_partial_position =>
    obtain ⟨hr, rfl⟩ := hr
    simp only [State.unlock_partial_position, bind_ok_iff, get_position_ok] at hr
    obtain ⟨v, hv, q, hq, hr⟩ := hr
    obtain ⟨hv, rfl⟩ := get_voter_ok hv
    split at hr
    · simp only [State.unlock_position, bind_ok_iff, get_position_ok, require_ok_iff, subU_ok_iff,
        pure_ok_iff] at hr
      obtain ⟨v, hv, q, hq, -, hle, x, ⟨-, rfl⟩, rfl⟩ := hr
      obtain ⟨hv, rfl⟩ := get_voter_ok hv
      refine .of_insert rfl ?_ id
      exact rfl
    · simp only [bind_ok_iff, require_ok_iff, subU_ok_iff, pure_ok_iff, assert_at_least_1_mpdao,
        State.create_unlocking_position] at hr
      obtain ⟨-, hlt, r, ⟨-, rfl⟩, -, hmin, -, h1m, vp, hvp, -, hvple, -, hav, v2, ⟨-, hlen, rfl⟩, y,
        ⟨-, rfl⟩, z, ⟨-, rfl⟩, -, h1r, w', ⟨-, rfl⟩, rfl⟩ := hr
      refine .of_insert rfl ?_ id
      exact rfl
  case locking_position_extend_days =>
    obtain ⟨hr, rfl⟩ := hr
    simp only [State.locking_position_extend_days, bind_ok_iff, get_position_ok, require_ok_iff,
      subU_ok_iff, addU128_ok_iff, pure_ok_iff] at hr
    obtain ⟨v, hv, p, hp, -, hl, -, hd, vp, hvp, de, ⟨hle, rfl⟩, t, ⟨ht, rfl⟩, av, ⟨ha, rfl⟩, rfl⟩ := hr
    obtain ⟨hv, rfl⟩ := get_voter_ok hv
    refine .of_insert rfl ?_ id
    exact rfl
  case relock_position =>
    obtain ⟨hr, rfl⟩ := hr
    simp only [State.relock_position, bind_ok_iff, get_position_ok, require_ok_iff,
      subU_ok_iff, addU128_ok_iff, pure_ok_iff, expect_ok_iff] at hr
    obtain ⟨v, hv, p, hp, -, hb, st, hst, -, hp2, am, ⟨-, rfl⟩, b, ⟨-, rfl⟩, ⟨s1, v1⟩, hd, rfl⟩ := hr
    obtain ⟨hv, rfl⟩ := get_voter_ok hv
    exact deposit_votes hd rfl id
  case relock_partial_position =>
    obtain ⟨hr, rfl⟩ := hr
    simp only [State.relock_partial_position, bind_ok_iff, get_position_ok, require_ok_iff,
      subU_ok_iff, addU128_ok_iff, pure_ok_iff, expect_ok_iff] at hr
    obtain ⟨v, hv, p, hp, -, hb, -, hap, am, ⟨-, rfl⟩, -, hmin, st, hst, v1, hv1, b, ⟨-, rfl⟩, ⟨s1, v2⟩, hd,
      rfl⟩ := hr
    obtain ⟨hv, rfl⟩ := get_voter_ok hv
    refine deposit_votes hd ?_ id
    split at hv1
    · simp only [bind_ok_iff, require_ok_iff, subU_ok_iff, pure_ok_iff] at hv1
      obtain ⟨-, -, _, ⟨-, rfl⟩, -, -, -, -, _, -, rfl⟩ := hv1
      rfl
    · simp only [bind_ok_iff, addU128_ok_iff, subU_ok_iff, pure_ok_iff] at hv1
      obtain ⟨_, ⟨-, rfl⟩, _, ⟨-, rfl⟩, rfl⟩ := hv1
      rfl
  case relock_from_balance =>
    obtain ⟨hr, rfl⟩ := hr
    simp only [State.relock_from_balance, bind_ok_iff, require_ok_iff,
      subU_ok_iff, pure_ok_iff] at hr
    obtain ⟨v, hv, -, hb, -, hm, b, ⟨-, rfl⟩, ⟨s1, v1⟩, hd, rfl⟩ := hr
    obtain ⟨hv, rfl⟩ := get_voter_ok hv
    exact deposit_votes hd rfl id
  case clear_locking_position =>
    obtain ⟨hr, rfl⟩ := hr
    simp only [State.clear_locking_position, bind_ok_iff, require_ok_iff, pure_ok_iff] at hr
    obtain ⟨-, -, v, hv, v2, hc, rfl⟩ := hr
    obtain ⟨hv, rfl⟩ := get_voter_ok hv
    exact .of_insert rfl (clear_cleared hc).votes id
  case vote =>
    obtain ⟨hr, rfl⟩ := hr
    obtain ⟨hv, hav, hlen, -, -, rfl⟩ := internal_vote_ok hr
    exact .of_insert' rfl (.vote _ _ _ _ (.inl ⟨rfl, rfl⟩) hav hlen) id
  case vote_delegated =>
    simp only [State.vote_delegated, bind_ok_iff] at hr
    obtain ⟨⟨p, hp, hr⟩, rfl⟩ := hr
    obtain ⟨he, rfl⟩ := verify_delegate_ok hp
    obtain ⟨hv, hav, hlen, -, -, rfl⟩ := internal_vote_ok hr
    exact .of_insert' rfl (.vote _ _ _ _ (.inr ⟨_, rfl, rfl, he⟩) hav hlen) id
  case unvote =>
    obtain ⟨hr, rfl⟩ := hr
    obtain ⟨hl, hv, hpres, -, -, rfl⟩ := internal_unvote_ok hr
    exact .of_insert' rfl (.unvote _ _ _ (.inl ⟨.inl rfl, rfl⟩) hl (by simp [hpres])) id
  case unvote_delegated =>
    simp only [State.unvote_delegated, bind_ok_iff] at hr
    obtain ⟨⟨p, hp, hr⟩, rfl⟩ := hr
    obtain ⟨he, rfl⟩ := verify_delegate_ok hp
    obtain ⟨hl, hv, hpres, -, -, rfl⟩ := internal_unvote_ok hr
    exact .of_insert' rfl (.unvote _ _ _ (.inr ⟨_, rfl, rfl, he⟩) hl (by simp [hpres])) id
  case rebalance =>
    obtain ⟨hr, rfl⟩ := hr
    obtain ⟨hpres, -, -, ⟨rfl, hu⟩ | ⟨hn, -, -, vs, rfl, -⟩⟩ := rebalance_ok hr
    · obtain ⟨hl, hv, hpres, -, -, rfl⟩ := internal_unvote_ok hu
      exact .of_insert' rfl (.unvote _ _ _ (.inl ⟨.inr rfl, rfl⟩) hl (by simp [hpres])) id
    · exact .of_insert' rfl (.rebalance _ _ _ rfl hn (by simp [hpres])) id
  case migration_create_lps =>
    obtain ⟨hr, rfl⟩ := hr
    obtain ⟨hp, r, hf, hs⟩ := migration_ok hr
    have := migration_votes hf id
    rw [show s'.voterD id = r.1.voterD id by rw [hs]; rfl, this]
    exact .same _
  case operator_mirror_lps =>
    obtain ⟨hr, rfl⟩ := hr
    exact mirror_votes hr id
  case withdraw =>
    obtain ⟨t, ht, rfl⟩ := hr
    exact withdraw_votes (.inl ⟨_, _, rfl⟩) ht id
  case withdraw_all =>
    obtain ⟨t, ht, rfl⟩ := hr
    obtain ⟨v, -, ht⟩ := withdraw_all_ok ht
    exact withdraw_votes (.inr rfl) ht id
  case after_transfer_mpdao_callback =>
    obtain ⟨hr, rfl⟩ := hr
    rcases callback_mpdao_ok hr with ⟨hp, rfl⟩ | ⟨hp, hw⟩
    · exact .same _
    · simp only [State.restore_transfer_to_mpdao, bind_ok_iff, addU128_ok_iff, pure_ok_iff,
        internal_get_voter_eq] at hw
      obtain ⟨b, -, rfl⟩ := hw
      refine .of_insert rfl ?_ id
      exact rfl
  case after_transfer_stnear_callback =>
    obtain ⟨hr, rfl⟩ := hr
    rcases callback_stnear_ok hr with ⟨hp, rfl⟩ | ⟨hp, hw⟩
    · exact .same _
    · obtain ⟨-, -, hs⟩ := add_claimable_stnear_ok hw
      exact .of_voters (by rw [hs]) id
  case ft_on_transfer =>
    obtain ⟨hr, rfl⟩ := hr
    rcases ft_on_transfer_ok hr with ⟨info, hm, -, hd⟩ | ⟨t, v', hm, hp, ht, hmin, hd⟩
    · rcases distribute_ok hd with ⟨hp, hd⟩ | ⟨hp, hp2, hd⟩
      · exact .of_voters (by rw [hd.frame.state]) id
      · exact .of_voters (by rw [hd.frame.state]) id
    · exact deposit_votes hd rfl id
  case operator_confirm_delegated_evm_address =>
    obtain ⟨hr, rfl⟩ := hr
    have := confirm_ok hr
    exact .of_voters (by rw [this]) id
  all_goals
    simp only [State.set_stnear_contract, State.set_operator_id, State.set_owner_id,
      State.update_registration_cost, State.update_airdrop_user_data,
      State.operator_multi_set_airdrop_data, State.set_lock_in_vote_filters,
      State.update_min_unbond_period, State.update_max_unbond_period, State.set_prev_gov_contract,
      State.pre_delegate_evm_address, State.operator_remove_pre_delegate_evm_address,
      State.remove_delegated_evm_address, bind_ok_iff, pure_ok_iff] at hr
    obtain ⟨hr, rfl⟩ := hr
    repeat (obtain ⟨_, _, hr⟩ := hr)
    exact .same _

theorem len_vset_le (m : UMap String (UMap String Nat)) (a o : String) (n : Nat) :
    (vset m a o n).len ≤ m.len + 1 := by
  rw [vset, UMap.len_insert]; split <;> omega

theorem len_vset_pres {m : UMap String (UMap String Nat)} {a o : String} (n : Nat)
    (h : ((m.get a).getD UMap.empty).get o ≠ none) : (vset m a o n).len = m.len := by
  rw [vset, UMap.len_insert]
  cases hm : m.get a with
  | none => simp [hm] at h
  | some x => simp

theorem len_vdel_le (m : UMap String (UMap String Nat)) (a o : String) : (vdel m a o).len ≤ m.len := by
  unfold vdel
  split
  · rw [UMap.len_remove]; split <;> omega
  · rename_i h
    rw [UMap.len_insert]
    cases hm : m.get a with
    | some x => simp
    | none =>
      rw [hm] at h
      exact absurd (by rfl) h

theorem Trimmed.len_le {m m' : UMap String (UMap String Nat)} (h : Trimmed m m') : m'.len ≤ m.len := by
  induction h with
  | refl m => exact le_refl _
  | del a o _ ih => exact ih.trans (len_vdel_le _ _ _)

theorem Trimmed.le {m m' : UMap String (UMap String Nat)} (h : Trimmed m m') (a o : String) :
    vget m' a o ≤ vget m a o := by
  induction h with
  | refl m => exact le_refl _
  | del a o _ ih => refine ih.trans ?_; rw [vget_vdel]; split <;> omega

/-- The limits fixed at initialisation never change. -/
theorem exec_max {J : Json} {s s' : State} {c : Ctx} {k : Call} {out : List Transfer}
    (hx : exec J s c k = .ok (s', out)) : s'.max_voting_positions = s.max_voting_positions ∧
      s'.max_locking_positions = s.max_locking_positions ∧ s'.min_deposit_amount = s.min_deposit_amount ∧
      s'.mpdao_token_contract_address = s.mpdao_token_contract_address := by
  cases exec_eff hx with
  | voter k s' id h hid => rw [h.state]; exact ⟨rfl, rfl, rfl, rfl⟩
  | claim_and_lock a d s1 s' v v' h1 hv h2 =>
    obtain ⟨-, -, hs1⟩ := remove_claimable_mpdao_ok h1
    obtain ⟨vp, ps, -, -, -, -, -, rfl, hs⟩ := deposit_ok h2
    rw [hs, hs1]; exact ⟨rfl, rfl, rfl, rfl⟩
  | config k s' h => exact ⟨h.maxv, h.maxl, h.min, h.token⟩
  | claim_stnear k a id s' h hid =>
    obtain ⟨-, -, hs1⟩ := remove_claimable_stnear_ok h
    rw [hs1]; exact ⟨rfl, rfl, rfl, rfl⟩
  | withdraw k a s' h hpos hfit => rw [h.state]; exact ⟨rfl, rfl, rfl, rfl⟩
  | restore_mpdao id a s' hp h => rw [h.state]; exact ⟨rfl, rfl, rfl, rfl⟩
  | done_mpdao id a hp => exact ⟨rfl, rfl, rfl, rfl⟩
  | restore_stnear id a s' hp h =>
    obtain ⟨-, -, hs1⟩ := add_claimable_stnear_ok h
    rw [hs1]; exact ⟨rfl, rfl, rfl, rfl⟩
  | done_stnear id a hp => exact ⟨rfl, rfl, rfl, rfl⟩
  | distribute_mpdao se a m s' hm hp h => rw [h.frame.state]; exact ⟨rfl, rfl, rfl, rfl⟩
  | distribute_stnear se a m s' hm hp hp2 h => rw [h.frame.state]; exact ⟨rfl, rfl, rfl, rfl⟩
  | deposit se a m t s' v' hm hp ht hmin h =>
    obtain ⟨vp, ps, -, -, -, -, -, rfl, hs⟩ := deposit_ok h
    rw [hs]; exact ⟨rfl, rfl, rfl, rfl⟩
  | migration id l d s' s1 hp h hs => rw [hs, h.state]; exact ⟨rfl, rfl, rfl, rfl⟩
  | mirror e l s' hop h => rw [h.state]; exact ⟨rfl, rfl, rfl, rfl⟩

/-- Voting positions are bounded by one more than the maximum. -/
theorem reach_votes_len {J : Json} {me : AccountId} {w : World} (h : Reach J me w) (id : String) :
    (w.st.voterD id).vote_positions.len ≤ w.st.max_voting_positions + 1 := by
  refine h.state_inv (fun s => ∀ id, (s.voterD id).vote_positions.len ≤ s.max_voting_positions + 1)
    ?_ ?_ id
  · intro w hw id
    cases hw with
    | mk o op a b d l v m st r p ts s hr hts hn =>
      obtain ⟨-, -, rfl⟩ := new_ok hn
      exact Nat.zero_le _
  · intro s c k s' out ih hx id
    rw [(exec_max hx).1]
    have := ih id
    have hv := exec_votes hx id
    generalize (s'.voterD id).vote_positions = m' at hv ⊢
    cases hv with
    | same k => exact this
    | vote k n a o hk hav hlen =>
      have := len_vset_le (s.voterD id).vote_positions a o ((s.voterD id).votesOf a o + n); omega
    | unvote k a o hk hl hpres =>
      have := len_vdel_le (s.voterD id).vote_positions a o; omega
    | rebalance n a o hid hn hpres =>
      have := len_vset_pres n hpres; omega
    | mirror e l m hid ht => have := ht.len_le; omega
    | gone k hk hid hl => exact Nat.zero_le _

end Verif.MetaVote
