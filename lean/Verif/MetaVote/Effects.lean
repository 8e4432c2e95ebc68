import Verif.MetaVote.Lemmas

/-!
# Effects of the internal functions

Inversion of the shared building blocks: what an accepted run did, as an equation on the state.
-/

namespace Verif.MetaVote

open Verif

theorem find_locked_some {v : Voter} {d i : Nat} (h : v.find_locked_position d = some i) :
    ∃ p, v.locking_positions[i]? = some p ∧ p.locking_period = d ∧ p.unlocking_started_at = none := by
  unfold Voter.find_locked_position at h
  rw [List.findIdx?_eq_some_iff_getElem] at h
  obtain ⟨hi, hp, -⟩ := h
  refine ⟨v.locking_positions[i], List.getElem?_eq_getElem hi, ?_⟩
  simpa [LockingPosition.is_locked] using hp

theorem find_locked_none {v : Voter} {d : Nat} (h : v.find_locked_position d = none) :
    ∀ p ∈ v.locking_positions, p.locking_period = d → p.unlocking_started_at ≠ none := by
  unfold Voter.find_locked_position at h
  rw [List.findIdx?_eq_none_iff] at h
  intro p hp hd hn
  have := h p hp
  simp [LockingPosition.is_locked, hd, hn] at this

@[simp] theorem get_position_ok {v : Voter} {i : Nat} {p : LockingPosition} :
    v.get_position i = .ok p ↔ v.locking_positions[i]? = some p := by
  simp [Voter.get_position]

/-- The positions after a deposit of `a` for `d` days worth `vp`. -/
inductive Deposited (v : Voter) (maxPos a d vp : Nat) : List LockingPosition → Prop
  | increase (i : Nat) (p : LockingPosition) (hf : v.find_locked_position d = some i)
      (hp : v.locking_positions[i]? = some p) (hd : p.locking_period = d)
      (hl : p.unlocking_started_at = none) (ha : p.amount + a ≤ U128_MAX)
      (hv : p.voting_power + vp ≤ U128_MAX) :
      Deposited v maxPos a d vp (v.locking_positions.set i ⟨p.amount + a, d, p.voting_power + vp, none⟩)
  | create (hf : v.find_locked_position d = none) (hl : v.locking_positions.length % 256 < maxPos) :
      Deposited v maxPos a d vp (v.locking_positions ++ [⟨a, d, vp, none⟩])

theorem create_locking_ok {s s' : State} {v v' : Voter} {a d : Nat}
    (h : s.internal_create_locking_position v a d = .ok (s', v')) :
    ∃ vp, calculate_voting_power a d = .ok vp ∧ v.find_locked_position d = none ∧
      v.locking_positions.length % 256 < s.max_locking_positions ∧
      s.total_voting_power + vp ≤ U128_MAX ∧ v.available_voting_power + vp ≤ U128_MAX ∧
      v' = { v with
        locking_positions := v.locking_positions ++ [⟨a, d, vp, none⟩]
        available_voting_power := v.available_voting_power + vp } ∧
      s' = { s with total_voting_power := s.total_voting_power + vp } := by
  simp only [State.internal_create_locking_position, bind_ok_iff, require_ok_iff, addU128_ok_iff,
    pure_ok_iff, Prod.mk.injEq] at h
  obtain ⟨-, h1, -, h2, vp, h3, avp, ⟨h4, rfl⟩, t, ⟨h5, rfl⟩, rfl, rfl⟩ := h
  exact ⟨vp, h3, h2, h1, h5, h4, rfl, rfl⟩

theorem deposit_ok {s s' : State} {v v' : Voter} {a d : Nat} {id : String}
    (h : s.deposit_locking_position a d id v = .ok (s', v')) :
    ∃ vp ps, calculate_voting_power a d = .ok vp ∧
      (s.min_unbond_period ≤ d ∧ d ≤ s.max_unbond_period) ∧
      s.total_voting_power + vp ≤ U128_MAX ∧ v.available_voting_power + vp ≤ U128_MAX ∧
      Deposited v s.max_locking_positions a d vp ps ∧
      v' = { v with
        locking_positions := ps
        available_voting_power := v.available_voting_power + vp } ∧
      s' = { s with
        total_voting_power := s.total_voting_power + vp
        voters := s.voters.insert id v' } := by
  simp only [State.deposit_locking_position, bind_ok_iff, require_ok_iff, pure_ok_iff,
    Prod.mk.injEq] at h
  obtain ⟨-, hd, r, hr, rfl, rfl⟩ := h
  cases hf : v.find_locked_position d with
  | none =>
    rw [hf] at hr
    obtain ⟨vp, h1, h2, h3, h4, h5, h6, h7⟩ := create_locking_ok (s' := r.1) (v' := r.2) hr
    refine ⟨vp, _, h1, hd, h4, h5, .create hf h3, h6, ?_⟩
    rw [h7]
  | some i =>
    rw [hf] at hr
    simp only [State.increase_locking_position, bind_ok_iff, get_position_ok, addU128_ok_iff,
      pure_ok_iff] at hr
    obtain ⟨vp, h1, p, hp, am, ⟨ham, rfl⟩, vpp, ⟨hvp, rfl⟩, avp, ⟨havp, rfl⟩, t, ⟨ht, rfl⟩, rfl⟩ := hr
    obtain ⟨p', hp', hd', hl'⟩ := find_locked_some hf
    rw [hp] at hp'; cases hp'
    refine ⟨vp, _, h1, hd, ht, havp, .increase i p hf hp hd' hl' ham hvp, ?_, rfl⟩
    simp only [Voter.replace_position]
    subst hd'
    cases p
    simp_all

theorem Deposited.posSum {v : Voter} {m a d vp : Nat} {ps : List LockingPosition}
    (h : Deposited v m a d vp ps) :
    posSum (fun p => if p.unlocking_started_at = none then p.voting_power else 0) ps
      = v.lockedVp + vp ∧ posSum (·.amount) ps = v.inPositions + a := by
  cases h with
  | increase i p hf hp hd hl ha hv =>
    have h1 := posSum_set (fun p => if p.unlocking_started_at = none then p.voting_power else 0)
      _ i p ⟨p.amount + a, d, p.voting_power + vp, none⟩ hp
    have h2 := posSum_set (·.amount) _ i p ⟨p.amount + a, d, p.voting_power + vp, none⟩ hp
    simp only [hl, if_true] at h1
    simp only at h2
    simp only [Voter.lockedVp, Voter.inPositions]
    omega
  | create hf hl => simp [posSum_append, Voter.lockedVp, Voter.inPositions]

theorem Deposited.length_le {v : Voter} {m a d vp : Nat} {ps : List LockingPosition}
    (h : Deposited v m a d vp ps) (hm : m ≤ U8_MAX) (hv : v.locking_positions.length ≤ m) :
    ps.length ≤ m := by
  cases h with
  | increase i p hf hp hd hl ha hv' => simpa using hv
  | create hf hl =>
    simp only [U8_MAX] at hm
    simp; omega

/-! ## Votes -/

theorem increase_total_ok {s s' : State} {n : Nat} {c o : String}
    (h : s.internal_increase_total_votes n c o = .ok s') :
    s.totalVotes c o + n ≤ U128_MAX ∧
      s' = { s with votes := vset s.votes c o (s.totalVotes c o + n) } := by
  simp only [State.internal_increase_total_votes, State.internal_get_total_votes_for_address,
    bind_ok_iff, addU128_ok_iff, pure_ok_iff] at h
  obtain ⟨x, ⟨h1, rfl⟩, rfl⟩ := h
  rw [← vget_eq] at h1
  exact ⟨h1, by simp [vset, State.totalVotes, vget_eq]⟩

theorem decrease_total_ok {s s' : State} {n : Nat} {c o : String}
    (h : s.state_internal_decrease_total_votes_for_address n c o = .ok s') :
    n ≤ s.totalVotes c o ∧ (((s.votes.get c).getD UMap.empty).get o ≠ none) ∧
      s' = { s with
        votes := (if s.totalVotes c o - n = 0 then vdel s.votes c o
          else vset s.votes c o (s.totalVotes c o - n)) } := by
  simp only [State.state_internal_decrease_total_votes_for_address,
    State.internal_get_total_votes_for_address, bind_ok_iff, expect_ok_iff, require_ok_iff,
    subU_ok_iff] at h
  obtain ⟨x, hx, -, h1, y, ⟨h2, rfl⟩, h3⟩ := h
  have hx' : s.totalVotes c o = x := by rw [State.totalVotes, vget_eq, hx]; rfl
  rw [hx']
  refine ⟨h1, by rw [hx]; simp, ?_⟩
  by_cases h0 : x - n = 0
  · simp only [h0, if_true] at h3 ⊢
    unfold vdel
    split at h3 <;> simp_all
  · simp only [h0, if_false] at h3 ⊢
    have hne : (((s.votes.get c).getD UMap.empty).insert o (x - n)).isEmpty = false := by
      by_contra hne
      rw [Bool.not_eq_false, UMap.isEmpty_iff_get] at hne
      have := hne o
      simp at this
    rw [hne] at h3
    simp only [Bool.false_eq_true, if_false, pure_ok_iff] at h3
    exact h3.symm

theorem create_voting_ok {s s' : State} {v v' : Voter} {n : Nat} {c o : String}
    (h : s.internal_create_voting_position v n c o = .ok (s', v')) :
    n ≤ v.available_voting_power ∧ v.vote_positions.len ≤ s.max_voting_positions ∧
      v.votesOf c o + n ≤ U128_MAX ∧ s.totalVotes c o + n ≤ U128_MAX ∧
      v' = { v with
        available_voting_power := v.available_voting_power - n
        vote_positions := vset v.vote_positions c o (v.votesOf c o + n) } ∧
      s' = { s with votes := vset s.votes c o (s.totalVotes c o + n) } := by
  simp only [State.internal_create_voting_position, Voter.get_vote_position_for_address,
    bind_ok_iff, require_ok_iff, subU_ok_iff, addU128_ok_iff, pure_ok_iff, Prod.mk.injEq] at h
  obtain ⟨-, h1, -, h2, x, ⟨-, rfl⟩, y, ⟨h3, rfl⟩, s1, h4, rfl, rfl⟩ := h
  obtain ⟨h5, h6⟩ := increase_total_ok h4
  rw [← vget_eq] at h3
  exact ⟨h1, h2, h3, h5, by simp [vset, Voter.votesOf, vget_eq], h6⟩

theorem remove_voting_ok {s s' : State} {v v' : Voter} {c o : String}
    (h : s.internal_remove_voting_position v c o = .ok (s', v')) :
    ((v.vote_positions.get c).getD UMap.empty).get o = some (v.votesOf c o) ∧
      v.available_voting_power + v.votesOf c o ≤ U128_MAX ∧
      v.votesOf c o ≤ s.totalVotes c o ∧
      v' = { v with
        available_voting_power := v.available_voting_power + v.votesOf c o
        vote_positions := vdel v.vote_positions c o } ∧
      s' = { s with
        votes := (if s.totalVotes c o - v.votesOf c o = 0 then vdel s.votes c o
          else vset s.votes c o (s.totalVotes c o - v.votesOf c o)) } := by
  simp only [State.internal_remove_voting_position, Voter.get_vote_position_for_address,
    bind_ok_iff, expect_ok_iff, addU128_ok_iff, pure_ok_iff, Prod.mk.injEq] at h
  obtain ⟨x, hx, y, ⟨h1, rfl⟩, s1, h2, rfl, rfl⟩ := h
  have hx' : v.votesOf c o = x := by rw [Voter.votesOf, vget_eq, hx]; rfl
  obtain ⟨h3, -, h4⟩ := decrease_total_ok h2
  rw [hx']
  exact ⟨hx, h1, h3, rfl, h4⟩

/-! ## Claims -/

theorem add_claimable_ok {m m' : UMap String Nat} {t t' : Nat} {id : String} {n : Nat}
    (h : add_claimable m t id n = .ok (m', t')) :
    (m.get id).getD 0 + n ≤ U128_MAX ∧ t + n ≤ U128_MAX ∧ t' = t + n ∧
      m' = m.insert id ((m.get id).getD 0 + n) := by
  simp only [add_claimable, bind_ok_iff, addU128_ok_iff, pure_ok_iff, Prod.mk.injEq] at h
  obtain ⟨x, ⟨h1, rfl⟩, y, ⟨h2, rfl⟩, rfl, rfl⟩ := h
  exact ⟨h1, h2, rfl, rfl⟩

theorem remove_claimable_ok {m m' : UMap String Nat} {t t' : Nat} {id : String} {n : Nat}
    (h : remove_claimable m t id n = .ok (m', t')) :
    n ≤ (m.get id).getD 0 ∧ n ≤ t ∧ t' = t - n ∧
      m' = if (m.get id).getD 0 - n = 0 then m.remove id
        else m.insert id ((m.get id).getD 0 - n) := by
  simp only [remove_claimable, bind_ok_iff, require_ok_iff, subU_ok_iff, pure_ok_iff,
    Prod.mk.injEq] at h
  obtain ⟨-, h1, x, ⟨-, rfl⟩, y, ⟨h2, rfl⟩, rfl, rfl⟩ := h
  exact ⟨h1, h2, rfl, rfl⟩

theorem claims_sum_insert (m : UMap String Nat) (id : String) (n : Nat) :
    (m.insert id n).sum (fun _ x => x) + (m.get id).getD 0 = m.sum (fun _ x => x) + n := by
  have := UMap.sum_insert m (fun _ x => x) id n
  rwa [sum_at_get] at this

theorem claims_sum_remove (m : UMap String Nat) (id : String) :
    (m.remove id).sum (fun _ x => x) + (m.get id).getD 0 = m.sum (fun _ x => x) := by
  have := UMap.sum_remove m (fun _ x => x) id
  rwa [sum_at_get] at this

/-! ## Clearing positions -/

theorem clear_one_ok {now i : Nat} {v v' : Voter} (h : Voter.clear_one now v i = .ok v') :
    ∃ p, v.locking_positions[i]? = some p ∧
      ((p.is_unlocked now = true ∧ v.balance + p.amount ≤ U128_MAX ∧
        v' = { v with
          balance := v.balance + p.amount
          locking_positions := swapRemove v.locking_positions i }) ∨
       (p.is_unlocked now = false ∧ v' = v)) := by
  simp only [Voter.clear_one, bind_ok_iff, get_position_ok] at h
  obtain ⟨p, hp, h⟩ := h
  refine ⟨p, hp, ?_⟩
  cases hu : p.is_unlocked now with
  | true =>
    simp only [hu, if_true, bind_ok_iff, addU128_ok_iff, pure_ok_iff] at h
    obtain ⟨b, ⟨h1, rfl⟩, rfl⟩ := h
    exact .inl ⟨rfl, h1, rfl⟩
  | false =>
    simp [hu] at h
    exact .inr ⟨rfl, h.symm⟩

/-- What clearing positions preserves. -/
structure Cleared (now : Nat) (v v' : Voter) : Prop where
  avail : v'.available_voting_power = v.available_voting_power
  votes : v'.vote_positions = v.vote_positions
  locked : v'.lockedVp = v.lockedVp
  held : v'.held = v.held
  len : v'.locking_positions.length ≤ v.locking_positions.length
  balance : v.balance ≤ v'.balance

theorem Cleared.refl (now : Nat) (v : Voter) : Cleared now v v := ⟨rfl, rfl, rfl, rfl, le_refl _, le_refl _⟩

theorem Cleared.trans {now : Nat} {a b c : Voter} (h : Cleared now a b) (h' : Cleared now b c) :
    Cleared now a c :=
  ⟨h'.avail.trans h.avail, h'.votes.trans h.votes, h'.locked.trans h.locked, h'.held.trans h.held,
    h'.len.trans h.len, h.balance.trans h'.balance⟩

theorem clear_one_cleared {now i : Nat} {v v' : Voter} (h : Voter.clear_one now v i = .ok v') :
    Cleared now v v' := by
  obtain ⟨p, hp, ⟨hu, -, rfl⟩ | ⟨-, rfl⟩⟩ := clear_one_ok h
  · have h1 := posSum_swapRemove
      (fun p => if p.unlocking_started_at = none then p.voting_power else 0) _ i p hp
    have h2 := posSum_swapRemove (·.amount) _ i p hp
    have hns : p.unlocking_started_at ≠ none := by
      intro hn; simp [LockingPosition.is_unlocked, hn] at hu
    simp only [hns, if_false] at h1
    obtain ⟨hi, -⟩ := List.getElem?_eq_some_iff.1 hp
    have h3 := swapRemove_length v.locking_positions i hi
    refine ⟨rfl, rfl, ?_, ?_, ?_, ?_⟩
    · simp only [Voter.lockedVp]; omega
    · simp only [Voter.held, Voter.inPositions] at *; omega
    · simp only; omega
    · simp
  · exact Cleared.refl _ _

theorem clear_cleared {now : Nat} {l : List Nat} {v v' : Voter}
    (h : v.clear_fully_unlocked_positions now l = .ok v') : Cleared now v v' :=
  foldlM_inv (fun x => Cleared now v x) (fun _ _ _ hb hs => hb.trans (clear_one_cleared hs)) _ _ _
    (Cleared.refl _ _) h

end Verif.MetaVote
