import Verif.MetaVote.Accept
import Verif.Props.Mirror

/-!
# Acceptance of each method, in both directions
-/

namespace Verif.MetaVote

open Verif

section
variable {J : Json} {s : State} {c : Ctx}

theorem reach_sound {me : AccountId} {w : World} (h : Reach J me w) : Sound w.st :=
  ⟨reach_vinv h, reach_cinv h, reach_dinv h.loose, reach_total h, fun id => (reach_fundOK h id).1, lreach_fits h.loose⟩

theorem remove_mpdao_iff (hs : Sound s) {id : String} {a : Nat} :
    (∃ s', s.remove_claimable_mpdao id a = .ok s') ↔ a ≤ s.get_claimable_mpdao id := by
  constructor
  · rintro ⟨s', h⟩; exact (remove_claimable_mpdao_ok h).1
  · intro h
    have h1 : a ≤ (s.claimable_mpdao.get id).getD 0 := h
    have h2 : a ≤ s.total_unclaimed_mpdao := by
      rw [hs.cinv.mpdao]; exact h1.trans (claimOf_le_sum _ _)
    simp only [State.remove_claimable_mpdao, remove_claimable, bind_ok_iff, require_ok_iff, subU_ok_iff, pure_ok_iff]
    exact ⟨_, _, ⟨(), h1, _, ⟨h1, rfl⟩, _, ⟨h2, rfl⟩, rfl⟩, rfl⟩

theorem remove_stnear_iff (hs : Sound s) {id : String} {a : Nat} :
    (∃ s', s.remove_claimable_stnear id a = .ok s') ↔ a ≤ s.get_claimable_stnear id := by
  constructor
  · rintro ⟨s', h⟩; exact (remove_claimable_stnear_ok h).1
  · intro h
    have h1 : a ≤ (s.claimable_stnear.get id).getD 0 := h
    have h2 : a ≤ s.total_unclaimed_stnear := by
      rw [hs.cinv.stnear]; exact h1.trans (claimOf_le_sum _ _)
    simp only [State.remove_claimable_stnear, remove_claimable, bind_ok_iff, require_ok_iff, subU_ok_iff, pure_ok_iff]
    exact ⟨_, _, ⟨(), h1, _, ⟨h1, rfl⟩, _, ⟨h2, rfl⟩, rfl⟩, rfl⟩

theorem claim_and_lock_iff (hs : Sound s) {a d : Nat} :
    (∃ s', s.claim_and_lock c a d = .ok s') ↔ s.min_deposit_amount ≤ a ∧
      a ≤ s.get_claimable_mpdao c.predecessor ∧ s.knows c.predecessor ∧
      Lockable s (s.positionsOf c.predecessor) a d := by
  have hl := hs.length c.predecessor
  have ha := hs.available c.predecessor
  constructor
  · rintro ⟨s', h⟩
    obtain ⟨h1, s1, v, h2, hv, v', h3⟩ := claim_and_lock_ok h
    have hg := (remove_mpdao_iff hs).1 ⟨s1, h2⟩
    obtain ⟨-, -, rfl⟩ := remove_claimable_mpdao_ok h2
    rw [← voterD_of_get hv] at h3
    have := (deposit_iff (by exact hl.1.trans hl.2) (by exact ha)).1 ⟨_, h3⟩
    exact ⟨h1, hg, by rw [State.knows, hv]; simp, ⟨this.1, this.2, this.3, this.4, this.5, this.6, this.7⟩⟩
  · rintro ⟨h1, h2, h3, h4⟩
    obtain ⟨s1, hs1⟩ := (remove_mpdao_iff hs).2 h2
    have hs1' := hs1
    obtain ⟨-, -, rfl⟩ := remove_claimable_mpdao_ok hs1
    obtain ⟨r, hr⟩ := (deposit_iff (id := c.predecessor) (s := { s with
        claimable_mpdao := take s.claimable_mpdao c.predecessor a
        total_unclaimed_mpdao := s.total_unclaimed_mpdao - a }) (v := s.voterD c.predecessor) (a := a) (d := d)
        (by exact hl.1.trans hl.2) (by exact ha)).2 ⟨h4.1, h4.2, h4.3, h4.4, h4.5, h4.6, h4.7⟩
    simp only [State.claim_and_lock, State.assert_min_deposit_amount, bind_ok_iff, require_ok_iff, pure_ok_iff]
    exact ⟨_, (), h1, _, hs1', _, (voter_iff (s := { s with
        claimable_mpdao := take s.claimable_mpdao c.predecessor a
        total_unclaimed_mpdao := s.total_unclaimed_mpdao - a })).2 ⟨h3, rfl⟩, r, hr, rfl⟩

theorem unlock_iff {i : Nat} : (∃ s', s.unlock_position c i = .ok s') ↔
    ∃ p, (s.positionsOf c.predecessor)[i]? = some p ∧
      p.voting_power ≤ (s.voterD c.predecessor).available_voting_power := by
  simp only [State.unlock_position, bind_ok_iff, get_position_ok, require_ok_iff, subU_ok_iff, pure_ok_iff, voter_iff]
  constructor
  · rintro ⟨s', v, ⟨-, rfl⟩, p, hp, -, hle, -⟩; exact ⟨p, hp, hle⟩
  · rintro ⟨p, hp, hle⟩
    exact ⟨_, _, ⟨knows_of_index hp, rfl⟩, p, hp, (), hle, _, ⟨hle, rfl⟩, rfl⟩

theorem unlock_partial_iff (hs : Sound s) {i a : Nat} : (∃ s', s.unlock_partial_position c i a = .ok s') ↔
    ∃ p, (s.positionsOf c.predecessor)[i]? = some p ∧
      ((a = p.amount ∧ p.voting_power ≤ (s.voterD c.predecessor).available_voting_power) ∨
       (a < p.amount ∧ s.min_deposit_amount ≤ p.amount - a ∧ 1000000 ≤ a ∧ 1000000 ≤ p.amount - a ∧
        p.locking_period < 3600 ∧ a * 10 ^ 18 ≤ U128_MAX ∧ powerOf a p.locking_period ≤ p.voting_power ∧
        powerOf a p.locking_period ≤ (s.voterD c.predecessor).available_voting_power ∧
        (s.positionsOf c.predecessor).length < s.max_locking_positions)) := by
  have hl := hs.length c.predecessor
  have hav := hs.available c.predecessor
  have ht := hs.total
  have hmod : (s.positionsOf c.predecessor).length % 256 = (s.positionsOf c.predecessor).length :=
    Nat.mod_eq_of_lt (by simp only [U8_MAX] at hl; omega)
  simp only [State.unlock_partial_position, bind_ok_iff, get_position_ok, voter_iff]
  constructor
  · rintro ⟨s', v, ⟨-, rfl⟩, p, hp, h⟩
    refine ⟨p, hp, ?_⟩
    split at h
    · rename_i he
      obtain ⟨q, hq, hle⟩ := unlock_iff.1 ⟨_, h⟩
      rw [State.positionsOf, hp] at hq; cases hq
      exact .inl ⟨he, hle⟩
    · simp only [bind_ok_iff, require_ok_iff, subU_ok_iff, pure_ok_iff, calc_iff, assert_at_least_1_mpdao,
        State.create_unlocking_position] at h
      obtain ⟨-, h1, r, ⟨-, rfl⟩, -, h2, -, h3, vp, ⟨h4, h5, -, rfl⟩, -, h6, -, h7, v', ⟨-, h8, rfl⟩, x, ⟨-, rfl⟩, y,
        ⟨-, rfl⟩, -, h9, -⟩ := h
      change (s.positionsOf c.predecessor).length % 256 < _ at h8
      rw [hmod] at h8
      exact .inr ⟨h1, h2, h3, h9, h4, h5, h6, h7, h8⟩
  · rintro ⟨p, hp, ⟨he, hle⟩ | ⟨h1, h2, h3, h9, h4, h5, h6, h7, h8⟩⟩
    · obtain ⟨s', hs'⟩ := unlock_iff.2 ⟨p, hp, hle⟩
      exact ⟨s', _, ⟨knows_of_index hp, rfl⟩, p, hp, by rw [if_pos he]; exact hs'⟩
    · rw [← hmod] at h8
      have : ¬ a = p.amount := by omega
      refine Exists.elim ?_ (fun s' h => ⟨s', _, ⟨knows_of_index hp, rfl⟩, p, hp, h⟩)
      simp only [if_neg this, bind_ok_iff, require_ok_iff, subU_ok_iff, pure_ok_iff, calc_iff, assert_at_least_1_mpdao,
        State.create_unlocking_position]
      exact ⟨_, (), h1, _, ⟨h1.le, rfl⟩, (), h2, (), h3, _, ⟨h4, h5, by omega, rfl⟩, (), h6, (), h7, _, ⟨(), h8, rfl⟩,
        _, ⟨h6, rfl⟩, _, ⟨h1.le, rfl⟩, (), h9, _, ⟨h7, rfl⟩, rfl⟩

theorem extend_iff (hs : Sound s) {i d : Nat} : (∃ s', s.locking_position_extend_days c i d = .ok s') ↔
    ∃ p, (s.positionsOf c.predecessor)[i]? = some p ∧ p.unlocking_started_at = none ∧ p.locking_period < d ∧
      d < 3600 ∧ p.amount * 10 ^ 18 ≤ U128_MAX ∧ p.voting_power ≤ powerOf p.amount d ∧
      powerOf p.amount d ≤ U128_MAX ∧ s.total_voting_power + (powerOf p.amount d - p.voting_power) ≤ U128_MAX := by
  have hav := hs.available c.predecessor
  simp only [State.locking_position_extend_days, bind_ok_iff, get_position_ok, require_ok_iff, subU_ok_iff,
    addU128_ok_iff, pure_ok_iff, voter_iff, calc_iff]
  constructor
  · rintro ⟨s', v, ⟨-, rfl⟩, p, hp, -, h1, -, h2, n, ⟨h3, h4, h5, rfl⟩, x, ⟨h6, rfl⟩, y, ⟨h7, rfl⟩, -⟩
    exact ⟨p, hp, h1, h2, h3, h4, h6, h5, h7⟩
  · rintro ⟨p, hp, h1, h2, h3, h4, h6, h5, h7⟩
    exact ⟨_, _, ⟨knows_of_index hp, rfl⟩, p, hp, (), h1, (), h2, _, ⟨h3, h4, h5, rfl⟩, _, ⟨h6, rfl⟩, _, ⟨h7, rfl⟩, _,
      ⟨by omega, rfl⟩, rfl⟩

theorem left_pos {p : LockingPosition} {t now : Nat} : now < t + p.locking_period_millis ↔ 0 < leftOf p t now := by
  rw [LockingPosition.locking_period_millis, millis_eq, leftOf]; omega

theorem left_eq {p : LockingPosition} {t now : Nat} : t + p.locking_period_millis - now = leftOf p t now := by
  rw [LockingPosition.locking_period_millis, millis_eq, leftOf]

theorem relock_iff (hs : Sound s) {i d x : Nat} : (∃ s', s.relock_position c i d x = .ok s') ↔
    x ≤ (s.voterD c.predecessor).balance ∧
    ∃ p t, (s.positionsOf c.predecessor)[i]? = some p ∧ p.unlocking_started_at = some t ∧
      (0 < leftOf p t c.now → leftOf p t c.now < d * 86400000) ∧
      Lockable s (swapRemove (s.positionsOf c.predecessor) i) (p.amount + x) d := by
  have hl := hs.length c.predecessor
  have hav := hs.available c.predecessor
  simp only [State.relock_position, bind_ok_iff, get_position_ok, require_ok_iff, subU_ok_iff, expect_ok_iff,
    addU128_ok_iff, pure_ok_iff, voter_iff, left_eq, left_pos, millis_eq]
  have hlen : ∀ {p}, (s.positionsOf c.predecessor)[i]? = some p →
      (swapRemove (s.positionsOf c.predecessor) i).length ≤ U8_MAX := by
    intro p hp
    have := swapRemove_length _ _ (getElem?_lt hp)
    omega
  constructor
  · rintro ⟨s', v, ⟨-, rfl⟩, p, hp, -, h1, t, ht, -, h2, a, ⟨h3, rfl⟩, b, ⟨h4, rfl⟩, r, hr, -⟩
    exact ⟨h1, p, t, hp, ht, h2, (deposit_iff (by exact hlen hp) (by exact hav)).1 ⟨r, hr⟩⟩
  · rintro ⟨h1, p, t, hp, ht, h2, h3⟩
    obtain ⟨r, hr⟩ := (deposit_iff (id := c.predecessor)
      (v := { (s.voterD c.predecessor).remove_position i with
        balance := (s.voterD c.predecessor).balance - x }) (by exact hlen hp) (by exact hav)).2 h3
    exact ⟨_, _, ⟨knows_of_index hp, rfl⟩, p, hp, (), h1, t, ht, (), h2, _, ⟨h3.range.1, rfl⟩, _, ⟨h1, rfl⟩, r, hr, rfl⟩

theorem relock_partial_iff (hs : Sound s) {i a d x : Nat} :
    (∃ s', s.relock_partial_position c i a d x = .ok s') ↔ x ≤ (s.voterD c.predecessor).balance ∧
    s.min_deposit_amount ≤ x + a ∧
    ∃ p t, (s.positionsOf c.predecessor)[i]? = some p ∧ p.unlocking_started_at = some t ∧ a ≤ p.amount ∧
      ((0 < leftOf p t c.now ∧ leftOf p t c.now < d * 86400000 ∧ a < p.amount ∧ p.locking_period < 3600 ∧
        (p.amount - a) * 10 ^ 18 ≤ U128_MAX ∧ powerOf (p.amount - a) p.locking_period ≤ U128_MAX ∧
        Lockable s ((s.positionsOf c.predecessor).set i { p with
          amount := p.amount - a, voting_power := powerOf (p.amount - a) p.locking_period }) (x + a) d) ∨
       (leftOf p t c.now = 0 ∧ (s.voterD c.predecessor).balance + (p.amount - a) ≤ U128_MAX ∧
        Lockable s (swapRemove (s.positionsOf c.predecessor) i) (x + a) d)) := by
  have hl := hs.length c.predecessor
  have hav := hs.available c.predecessor
  simp only [State.relock_partial_position, bind_ok_iff, get_position_ok, require_ok_iff, subU_ok_iff, expect_ok_iff,
    addU128_ok_iff, pure_ok_iff, voter_iff, left_eq, left_pos, millis_eq]
  have hlen : ∀ {p}, (s.positionsOf c.predecessor)[i]? = some p →
      (swapRemove (s.positionsOf c.predecessor) i).length ≤ U8_MAX := by
    intro p hp
    have := swapRemove_length _ _ (getElem?_lt hp)
    omega
  constructor
  · rintro ⟨s', v, ⟨-, rfl⟩, p, hp, -, h1, -, h2, y, ⟨h3, rfl⟩, -, h4, t, ht, v', hv', b, ⟨h5, rfl⟩, r, hr, -⟩
    refine ⟨h1, h4, p, t, hp, ht, h2, ?_⟩
    split at hv'
    · rename_i hlt
      simp only [bind_ok_iff, require_ok_iff, subU_ok_iff, pure_ok_iff, calc_iff] at hv'
      obtain ⟨-, h6, n, ⟨-, rfl⟩, -, -, -, h7, vp, ⟨h8, h9, h10, rfl⟩, rfl⟩ := hv'
      exact .inl ⟨hlt, h6, by omega, h8, h9, h10, (deposit_iff (by
        simp only [Voter.replace_position, List.length_set]; exact hl.1.trans hl.2) (by exact hav)).1 ⟨r, hr⟩⟩
    · rename_i hge
      simp only [bind_ok_iff, subU_ok_iff, pure_ok_iff, addU128_ok_iff] at hv'
      obtain ⟨n, ⟨-, rfl⟩, b, ⟨h6, rfl⟩, rfl⟩ := hv'
      exact .inr ⟨by omega, h6, (deposit_iff (by exact hlen hp) (by exact hav)).1 ⟨r, hr⟩⟩
  · rintro ⟨h1, h4, p, t, hp, ht, h2, ⟨hlt, h6, h7, h8, h9, h10, hL⟩ | ⟨h0, h6, hL⟩⟩
    · obtain ⟨r, hr⟩ := (deposit_iff (id := c.predecessor)
        (v := { (s.voterD c.predecessor).replace_position i { p with
          amount := p.amount - a, voting_power := powerOf (p.amount - a) p.locking_period } with
          balance := (s.voterD c.predecessor).balance - x }) (by
            simp only [Voter.replace_position, List.length_set]; exact hl.1.trans hl.2) (by exact hav)).2 hL
      refine ⟨_, _, ⟨knows_of_index hp, rfl⟩, p, hp, (), h1, (), h2, _, ⟨hL.range.1, rfl⟩, (), h4, t, ht, _, ?_, _,
        ⟨?_, rfl⟩, r, hr, rfl⟩
      · rw [if_pos hlt]
        simp only [bind_ok_iff, require_ok_iff, subU_ok_iff, pure_ok_iff, calc_iff]
        exact ⟨(), h6, _, ⟨h2, rfl⟩, (), h4, (), by omega, _, ⟨h8, h9, h10, rfl⟩, rfl⟩
      · exact h1
    · obtain ⟨r, hr⟩ := (deposit_iff (id := c.predecessor)
        (v := { ({ s.voterD c.predecessor with
            balance := (s.voterD c.predecessor).balance + (p.amount - a) }).remove_position i with
          balance := (s.voterD c.predecessor).balance + (p.amount - a) - x }) (by exact hlen hp) (by exact hav)).2 hL
      refine ⟨_, _, ⟨knows_of_index hp, rfl⟩, p, hp, (), h1, (), h2, _, ⟨hL.range.1, rfl⟩, (), h4, t, ht,
        ({ s.voterD c.predecessor with
            balance := (s.voterD c.predecessor).balance + (p.amount - a) }).remove_position i, ?_, _,
        ⟨?_, rfl⟩, r, hr, rfl⟩
      · rw [if_neg (by omega)]
        simp only [bind_ok_iff, subU_ok_iff, pure_ok_iff, addU128_ok_iff]
        exact ⟨_, ⟨h2, rfl⟩, _, ⟨h6, rfl⟩, rfl⟩
      · simp only [Voter.remove_position]; omega

theorem relock_balance_iff (hs : Sound s) {d x : Nat} : (∃ s', s.relock_from_balance c d x = .ok s') ↔
    s.knows c.predecessor ∧ x ≤ (s.voterD c.predecessor).balance ∧ s.min_deposit_amount ≤ x ∧
    Lockable s (s.positionsOf c.predecessor) x d := by
  have hl := hs.length c.predecessor
  have hav := hs.available c.predecessor
  simp only [State.relock_from_balance, bind_ok_iff, require_ok_iff, subU_ok_iff, pure_ok_iff, voter_iff]
  constructor
  · rintro ⟨s', v, ⟨hk, rfl⟩, -, h1, -, h2, b, ⟨-, rfl⟩, r, hr, -⟩
    exact ⟨hk, h1, h2, (deposit_iff (v := { s.voterD c.predecessor with
      balance := (s.voterD c.predecessor).balance - x }) (by exact hl.1.trans hl.2) (by exact hav)).1 ⟨r, hr⟩⟩
  · rintro ⟨hk, h1, h2, h3⟩
    obtain ⟨r, hr⟩ := (deposit_iff (id := c.predecessor) (v := { s.voterD c.predecessor with
      balance := (s.voterD c.predecessor).balance - x }) (by exact hl.1.trans hl.2) (by exact hav)).2 h3
    exact ⟨_, _, ⟨hk, rfl⟩, (), h1, (), h2, _, ⟨h1, rfl⟩, r, hr, rfl⟩

/-! ## Clearing and withdrawing -/

theorem freed_iff {now : Nat} : ∀ {r : List Nat} {v : Voter}, v.balance ≤ U128_MAX → ∀ {b : Nat},
    (∃ v', r.foldlM (Voter.clear_one now) v = .ok v' ∧ v'.balance = b) ↔
      ∃ n, freed now v.locking_positions r = some n ∧ v.balance + n ≤ U128_MAX ∧ b = v.balance + n
  | [], v, hb, b => by
    simp only [foldlM_ok_nil, freed, Option.some.injEq]
    constructor
    · rintro ⟨v', rfl, rfl⟩; exact ⟨0, rfl, hb, rfl⟩
    · rintro ⟨n, rfl, -, rfl⟩; exact ⟨v, rfl, rfl⟩
  | i :: r, v, hb, b => by
    simp only [foldlM_ok_cons, freed, Voter.clear_one, bind_ok_iff, get_position_ok]
    cases hp : v.locking_positions[i]? with
    | none => simp
    | some p =>
      by_cases hm : p.matured now
      · have hu := (is_unlocked_iff p now).2 hm
        simp only [if_pos hm, Option.map_eq_some_iff, Option.some.injEq]
        constructor
        · rintro ⟨v', ⟨v1, ⟨q, rfl, h1⟩, h2⟩, h3⟩
          rw [if_pos hu] at h1
          simp only [bind_ok_iff, addU128_ok_iff, pure_ok_iff] at h1
          obtain ⟨bb, ⟨hb1, rfl⟩, rfl⟩ := h1
          obtain ⟨n, hn, hle, rfl⟩ := (freed_iff (r := r) (by exact hb1)).1 ⟨v', h2, h3⟩
          simp only [Voter.remove_position] at hle hn ⊢
          exact ⟨_, ⟨n, hn, rfl⟩, by omega, by omega⟩
        · rintro ⟨n, ⟨n', hn, rfl⟩, hle, rfl⟩
          obtain ⟨v', h2, h3⟩ := (freed_iff (r := r) (v := ({ v with
            balance := v.balance + p.amount }).remove_position i) (b := v.balance + p.amount + n')
            (by simp only [Voter.remove_position]; omega)).2
            ⟨n', hn, by simp only [Voter.remove_position]; omega, rfl⟩
          refine ⟨v', ⟨_, ⟨p, rfl, ?_⟩, h2⟩, by omega⟩
          rw [if_pos hu]
          simp only [bind_ok_iff, addU128_ok_iff, pure_ok_iff]
          exact ⟨_, ⟨by omega, rfl⟩, rfl⟩
      · have hu : ¬ p.is_unlocked now = true := fun h => hm ((is_unlocked_iff _ _).1 h)
        simp only [if_neg hm]
        rw [← freed_iff (r := r) hb]
        constructor
        · rintro ⟨v', ⟨v1, ⟨q, hq, h1⟩, h2⟩, h3⟩
          cases hq
          rw [if_neg hu] at h1
          simp only [pure_ok_iff] at h1
          subst h1
          exact ⟨v', h2, h3⟩
        · rintro ⟨v', h2, h3⟩
          exact ⟨v', ⟨v, ⟨p, rfl, by rw [if_neg hu]; rfl⟩, h2⟩, h3⟩

theorem sortDesc_ge (l : List Nat) : (Voter.sortDesc l).Pairwise (· ≥ ·) := by
  unfold Voter.sortDesc
  exact List.pairwise_insertionSort _ _

theorem frees_iff {now n : Nat} {l : List LockingPosition} {is : List Nat} :
    Frees now l is n ↔ freed now l (Voter.sortDesc is) = some n := by
  have hp : (Voter.sortDesc is).Perm is := List.perm_insertionSort _ _
  constructor
  · rintro ⟨r, h1, h2, h3⟩
    have : r = Voter.sortDesc is :=
      List.Perm.eq_of_pairwise (fun a b _ _ h h' => Nat.le_antisymm h' h) h2 (sortDesc_ge is) (h1.trans hp.symm)
    rw [← this]; exact h3
  · intro h; exact ⟨_, hp, sortDesc_ge is, h⟩

theorem clear_frees (hs : Sound s) {id : String} {now b : Nat} {l : List Nat} :
    (∃ v', (s.voterD id).clear_fully_unlocked_positions now l = .ok v' ∧ v'.balance = b) ↔
      ∃ n, Frees now (s.positionsOf id) l n ∧ (s.voterD id).balance + n ≤ U128_MAX ∧ b = (s.voterD id).balance + n := by
  simp only [frees_iff, State.positionsOf]
  exact freed_iff (hs.balance id)

theorem freed_lt {now : Nat} : ∀ {r : List Nat} {l : List LockingPosition} {n : Nat}, freed now l r = some n →
    ∀ i ∈ r, i < l.length
  | [], _, _, _ => by simp
  | j :: r, l, n, h => by
    rw [freed] at h
    cases hp : l[j]? with
    | none => simp [hp] at h
    | some p =>
      have hj := getElem?_lt hp
      simp only [hp] at h
      refine List.forall_mem_cons.2 ⟨hj, fun i hi => ?_⟩
      split at h
      · rw [Option.map_eq_some_iff] at h
        obtain ⟨m, hm, -⟩ := h
        have := freed_lt hm i hi
        have := swapRemove_length l j hj
        omega
      · exact freed_lt h i hi

theorem frees_lt {now n : Nat} {l : List LockingPosition} {is : List Nat} (h : Frees now l is n) :
    ∀ i ∈ is, i < l.length := by
  obtain ⟨r, h1, -, h3⟩ := h
  exact fun i hi => freed_lt h3 i (h1.mem_iff.2 hi)

theorem clear_position_iff (hs : Sound s) {l : List Nat} :
    (∃ s', s.clear_locking_position c l = .ok s') ↔ l ≠ [] ∧
      ∃ n, Frees c.now (s.positionsOf c.predecessor) l n ∧ (s.voterD c.predecessor).balance + n ≤ U128_MAX := by
  simp only [State.clear_locking_position, bind_ok_iff, require_ok_iff, pure_ok_iff, voter_iff]
  constructor
  · rintro ⟨s', -, h1, v, ⟨-, rfl⟩, v', h2, -⟩
    obtain ⟨n, hn, hle, -⟩ := (clear_frees hs).1 ⟨v', h2, rfl⟩
    exact ⟨h1, n, hn, hle⟩
  · rintro ⟨h1, n, hn, hle⟩
    obtain ⟨v', h2, -⟩ := (clear_frees hs).2 ⟨n, hn, hle, rfl⟩
    refine ⟨_, (), h1, _, ⟨?_, rfl⟩, v', h2, rfl⟩
    obtain ⟨i, hi⟩ := List.exists_mem_of_ne_nil _ h1
    exact knows_of_index (List.getElem?_eq_getElem (frees_lt hn i hi))

theorem withdraw_iff (hs : Sound s) {l : List Nat} {a : Nat} :
    (∃ r, s.withdraw c l a = .ok r) ↔ c.deposit = 1 ∧
    ∃ n, Frees c.now (s.positionsOf c.predecessor) l n ∧ (s.voterD c.predecessor).balance + n ≤ U128_MAX ∧
    a ≤ (s.voterD c.predecessor).balance + n ∧ 0 < (s.voterD c.predecessor).balance + n := by
  have hnil : ∀ v : Voter, (if l ≠ [] then v.clear_fully_unlocked_positions c.now l else pure v : Res Voter)
      = v.clear_fully_unlocked_positions c.now l := by
    intro v
    split
    · rfl
    · rename_i h
      simp only [ne_eq, not_not] at h
      subst h; rfl
  simp only [State.withdraw, State.internal_withdraw, assert_one_yocto, bind_ok_iff, require_ok_iff, subU_ok_iff,
    pure_ok_iff, voter_iff, hnil]
  constructor
  · rintro ⟨r, -, h1, v, ⟨-, rfl⟩, v', h2, -, h3, -, h4, b, -, -⟩
    obtain ⟨n, hn, hle, hb⟩ := (clear_frees hs).1 ⟨v', h2, rfl⟩
    rw [hb] at h3 h4
    refine ⟨h1, n, hn, hle, ?_⟩
    by_cases ha : a = 0
    · subst ha; simp only [if_true, Option.getD_none] at h3; exact ⟨Nat.zero_le _, h3⟩
    · simp only [if_neg ha, Option.getD_some] at h3 h4; exact ⟨h4, by omega⟩
  · rintro ⟨h1, n, h2, hle, h3, h4⟩
    obtain ⟨v', hv', hb⟩ := (clear_frees hs).2 ⟨n, h2, hle, rfl⟩
    have hk : s.knows c.predecessor := by
      intro hn
      have hp : s.positionsOf c.predecessor = [] := by unfold State.positionsOf State.voterD; rw [hn]; rfl
      have hz : (s.voterD c.predecessor).balance = 0 := by unfold State.voterD; rw [hn]; rfl
      have hl0 : l = [] := List.eq_nil_iff_forall_not_mem.2 fun i hi => by
        have := frees_lt h2 i hi; rw [hp] at this; simp at this
      subst hl0
      rw [frees_iff] at h2
      cases h2
      omega
    refine ⟨_, (), h1, _, ⟨hk, rfl⟩, v', hv', (), ?_, (), ?_, _, ⟨?_, rfl⟩, rfl⟩ <;>
    · rw [hb]
      by_cases ha : a = 0
      · subst ha; simp only [if_true, Option.getD_none]; omega
      · simp only [if_neg ha, Option.getD_some]; omega

/-! ## Votes -/

theorem hasVote_iff {id app obj : String} : s.hasVote id app obj ↔
    (((s.voterD id).vote_positions.get app).getD UMap.empty).get obj = some ((s.voterD id).votesOf app obj) := by
  unfold State.hasVote
  rw [Voter.votesOf, vget_eq]
  cases (s.voterD id).vote_positions.get app with
  | none => simp
  | some m => cases h : m.get obj <;> simp [h]

theorem hasTotal_iff {app obj : String} : s.hasTotal app obj ↔
    ((s.votes.get app).getD UMap.empty).get obj = some (s.totalVotes app obj) := by
  unfold State.hasTotal
  rw [State.totalVotes, vget_eq]
  cases s.votes.get app with
  | none => simp
  | some m => cases h : m.get obj <;> simp [h]

theorem hasTotal_of_pos {app obj : String} (h : 0 < s.totalVotes app obj) : s.hasTotal app obj := by
  rw [State.totalVotes, vget_eq] at h
  unfold State.hasTotal
  cases hm : s.votes.get app with
  | none => rw [hm] at h; simp at h
  | some m =>
    refine ⟨m, rfl, fun hn => ?_⟩
    rw [hm] at h
    simp [hn] at h

theorem keepsVote_iff {now : Nat} {app obj : String} :
    s.keepsVote now app obj ↔ s.is_vote_locked now app obj = true := lockedIn_iff s now app obj

theorem Sound.votes_total (hs : Sound s) (id app obj : String) :
    (s.voterD id).votesOf app obj ≤ s.totalVotes app obj := by
  rw [hs.vinv.votes]
  have := UMap.at_le_sum s.voters (fun _ v => v.votesOf app obj) id
  rwa [at_voterD s id (·.votesOf app obj) (by simp [Voter.votesOf, vget])] at this

theorem Sound.total_votes (hs : Sound s) (app obj : String) (id : String) :
    s.totalVotes app obj + (s.voterD id).available_voting_power ≤ s.total_voting_power := by
  have h1 : s.voters.sum (fun _ v => v.votesOf app obj) ≤ s.voters.sum (fun _ v => v.used) :=
    UMap.sum_le fun _ v _ => vget_le_vsum _ _ _
  have h2 := UMap.at_le_sum s.voters (fun _ v => v.available_voting_power) id
  rw [at_voterD s id (·.available_voting_power) rfl] at h2
  have h3 := UMap.sum_add s.voters (fun _ v => v.available_voting_power) (fun _ v => v.used)
  rw [hs.vinv.votes, hs.vinv.total]
  unfold Voter.power
  omega

theorem vote_iff (hs : Sound s) {id : String} {n : Nat} {app obj : String} :
    (∃ s', s.internal_vote id n app obj = .ok s') ↔ MayVote s id n := by
  constructor
  · rintro ⟨s', h⟩
    obtain ⟨h1, h2, h3, -⟩ := internal_vote_ok h
    exact ⟨knows_iff.2 h1, h2, h3⟩
  · rintro ⟨h1, h2, h3⟩
    have h4 := hs.votes_le id app obj
    have h5 := hs.total_votes app obj id
    have h6 := hs.total
    simp only [State.internal_vote, State.internal_create_voting_position, State.internal_increase_total_votes,
      State.internal_get_total_votes_for_address, Voter.get_vote_position_for_address, bind_ok_iff, require_ok_iff,
      subU_ok_iff, addU128_ok_iff, pure_ok_iff, voter_iff]
    refine ⟨_, _, ⟨h1, rfl⟩, _, ⟨(), h2, (), h3, _, ⟨h2, rfl⟩, _, ⟨?_, rfl⟩, _, ⟨_, ⟨?_, rfl⟩, rfl⟩, rfl⟩, rfl⟩
    · rw [← vget_eq]; simp only [Voter.votesOf] at h4; omega
    · rw [← vget_eq]; simp only [State.totalVotes] at h5; omega

theorem decrease_iff {n : Nat} {app obj : String} :
    (∃ s', s.state_internal_decrease_total_votes_for_address n app obj = .ok s') ↔
      s.hasTotal app obj ∧ n ≤ s.totalVotes app obj := by
  constructor
  · rintro ⟨s', h⟩
    obtain ⟨h1, h2, -⟩ := decrease_total_ok h
    refine ⟨?_, h1⟩
    unfold State.hasTotal
    cases hm : s.votes.get app with
    | none => rw [hm] at h2; simp at h2
    | some m => rw [hm] at h2; exact ⟨m, rfl, h2⟩
  · rintro ⟨h1, h2⟩
    simp only [State.state_internal_decrease_total_votes_for_address,
      State.internal_get_total_votes_for_address, bind_ok_iff, expect_ok_iff, require_ok_iff, subU_ok_iff]
    refine Exists.elim ?_ (fun s' h => ⟨s', _, hasTotal_iff.1 h1, (), h2, _, ⟨h2, rfl⟩, h⟩)
    split <;> split <;> exact ⟨_, rfl⟩

theorem unvote_iff (hs : Sound s) {id app obj : String} :
    (∃ s', s.internal_unvote c id app obj = .ok s') ↔ MayUnvote s c.now id app obj := by
  constructor
  · rintro ⟨s', h⟩
    obtain ⟨h1, h2, h3, -⟩ := internal_unvote_ok h
    refine ⟨hasVote_iff.2 h3, ?_, fun h0 => ?_⟩
    · rw [keepsVote_iff, h1]; simp
    simp only [State.internal_unvote, State.internal_remove_voting_position, Voter.get_vote_position_for_address,
      bind_ok_iff, require_ok_iff, pure_ok_iff, voter_iff, expect_ok_iff] at h
    obtain ⟨-, -, v, ⟨-, rfl⟩, r, ⟨n, -, av, -, s1, hd, -⟩, -⟩ := h
    exact (decrease_iff.1 ⟨s1, hd⟩).1
  · rintro ⟨h1, h2, h3⟩
    have h4 := hs.votes_le id app obj
    have h6 := hs.total
    have h7 := hs.votes_total id app obj
    have ht : s.hasTotal app obj := by
      by_cases h0 : (s.voterD id).votesOf app obj = 0
      · exact h3 h0
      · exact hasTotal_of_pos (by omega)
    obtain ⟨s1, hs1⟩ := decrease_iff.2 ⟨ht, h7⟩
    have hk : s.knows id := by
      intro hn
      obtain ⟨m, hm, -⟩ := h1
      unfold State.voterD at hm
      rw [hn] at hm; simp at hm
    simp only [State.internal_unvote, State.internal_remove_voting_position, Voter.get_vote_position_for_address,
      bind_ok_iff, require_ok_iff, pure_ok_iff, voter_iff, expect_ok_iff, addU128_ok_iff]
    exact ⟨_, (), by rwa [keepsVote_iff, Bool.not_eq_true] at h2, _, ⟨hk, rfl⟩, _,
      ⟨_, hasVote_iff.1 h1, _, ⟨by omega, rfl⟩, s1, hs1, rfl⟩, rfl⟩

theorem rebalance_iff (hs : Sound s) {n : Nat} {app obj : String} :
    (∃ s', s.rebalance c n app obj = .ok s') ↔ s.hasVote c.predecessor app obj ∧
    n ≠ (s.voterD c.predecessor).votesOf app obj ∧
    n ≤ (s.voterD c.predecessor).available_voting_power + (s.voterD c.predecessor).votesOf app obj ∧
    (n = 0 → ¬ s.keepsVote c.now app obj) := by
  constructor
  · rintro ⟨s', h⟩
    obtain ⟨h1, h2, h3, ⟨rfl, h4⟩ | ⟨h4, h5, -⟩⟩ := rebalance_ok h
    · exact ⟨hasVote_iff.2 h1, h3.symm, Nat.zero_le _, fun _ => ((unvote_iff hs).1 ⟨_, h4⟩).2.1⟩
    · exact ⟨hasVote_iff.2 h1, h3.symm, h5, fun h => absurd h h4⟩
  · rintro ⟨h1, h2, h3, h4⟩
    have hk : s.knows c.predecessor := by
      intro hn
      obtain ⟨m, hm, -⟩ := h1
      unfold State.voterD at hm
      rw [hn] at hm; simp at hm
    have h5 := hs.votes_le c.predecessor app obj
    have h6 := hs.total
    have h7 := hs.votes_total c.predecessor app obj
    have h8 := hs.total_votes app obj c.predecessor
    simp only [State.rebalance, Voter.get_vote_position_for_address, bind_ok_iff, require_ok_iff, voter_iff,
      expect_ok_iff]
    refine Exists.elim ?_ (fun s' h => ⟨s', _, ⟨hk, rfl⟩, _, hasVote_iff.1 h1, (), h2.symm, h⟩)
    by_cases h0 : n = 0
    · subst h0
      simp only [if_true]
      exact (unvote_iff hs).2 ⟨h1, h4 rfl, fun h => absurd h.symm h2⟩
    · simp only [if_neg h0, bind_ok_iff, pure_ok_iff]
      by_cases hlt : (s.voterD c.predecessor).votesOf app obj < n
      · simp only [if_pos hlt, bind_ok_iff, require_ok_iff, subU_ok_iff, addU128_ok_iff, pure_ok_iff,
          State.internal_increase_total_votes, State.internal_get_total_votes_for_address]
        refine ⟨_, _, ⟨_, ⟨hlt.le, rfl⟩, (), by omega, _, ⟨by omega, rfl⟩, _, ⟨by omega, rfl⟩, _, ⟨_, ⟨?_, rfl⟩, rfl⟩, rfl⟩,
          rfl⟩
        rw [← vget_eq]; simp only [State.totalVotes] at h8; omega
      · obtain ⟨s1, hs1⟩ := decrease_iff (n := (s.voterD c.predecessor).votesOf app obj - n) (s := s) (app := app)
          (obj := obj) |>.2 ⟨hasTotal_of_pos (by omega), by omega⟩
        simp only [if_neg hlt, bind_ok_iff, subU_ok_iff, addU128_ok_iff, pure_ok_iff]
        exact ⟨_, _, ⟨_, ⟨by omega, rfl⟩, _, ⟨by omega, rfl⟩, _, ⟨by omega, rfl⟩, s1, hs1, rfl⟩, rfl⟩

/-! ## Tokens, callbacks and delegation -/

theorem boundary_iff {m : List UInt8} {i : Nat} (h : i ≤ m.length) : is_char_boundary m i = true ↔ cutsAt m i := by
  unfold is_char_boundary cutsAt
  cases h1 : m[i]? with
  | none =>
    have := List.getElem?_eq_none_iff.1 h1
    simp; omega
  | some b => simp

theorem has_prefix_iff {m p : List UInt8} {b : Bool} :
    has_prefix m p = .ok b ↔ cutsAt m p.length ∧ (b = true ↔ p <+: m) := by
  unfold has_prefix
  split
  · rename_i hl
    simp only [bind_ok_iff, require_ok_iff, pure_ok_iff, boundary_iff hl]
    have : (m.take p.length = p) ↔ p <+: m := by
      rw [List.prefix_iff_eq_take]; exact eq_comm
    rw [← this]
    constructor
    · rintro ⟨-, h1, rfl⟩; exact ⟨h1, by simp⟩
    · rintro ⟨h1, h2⟩
      refine ⟨(), h1, ?_⟩
      rw [Bool.eq_iff_iff, h2]; simp
  · rename_i hl
    have h1 : cutsAt m p.length := fun b hb => by
      have := getElem?_lt hb; omega
    have h2 : ¬ p <+: m := fun h => hl h.length_le
    simp only [pure_ok_iff, h1, true_and]
    cases b <;> simp [h2]

theorem isDays_first {m : List UInt8} {d : Nat} (h : isDays m d) : ¬ [91] <+: m ∧ cutsAt m 1 := by
  obtain ⟨ds, hne, hm, hdig, -, -⟩ := h
  have hall : ∀ b ∈ m, b = 43 ∨ (48 ≤ b.toNat ∧ b.toNat ≤ 57) := by
    intro b hb
    rcases hm with rfl | rfl
    · exact .inr (hdig b hb)
    · rcases List.mem_cons.1 hb with rfl | hb
      · exact .inl rfl
      · exact .inr (hdig b hb)
  constructor
  · rintro ⟨t, rfl⟩
    rcases hall 91 (by simp) with h | ⟨-, h⟩
    · exact absurd h (by decide)
    · exact absurd h (by decide)
  · intro b hb
    have hsmall : ∀ b : UInt8, b = 43 ∨ (48 ≤ b.toNat ∧ b.toNat ≤ 57) → b &&& 0xC0 ≠ 0x80 := by
      intro b hb hc
      have hlt : b.toNat < 64 := by
        rcases hb with rfl | hb
        · decide
        · omega
      have h0 : (b &&& 0xC0).toNat = 0 := by
        rw [UInt8.toNat_and]
        have : ∀ n < 64, n &&& (0xC0 : UInt8).toNat = 0 := by decide
        exact this _ hlt
      rw [hc] at h0
      exact absurd h0 (by decide)
    exact hsmall b (hall b (List.mem_of_getElem? hb))

theorem target_iff {se : String} {m : List UInt8} {id : String} {d : Nat} :
    s.deposit_target J se m = .ok (id, d) ↔ names J s se m id d := by
  unfold names State.deposit_target
  simp only [bind_ok_iff, has_prefix_iff, List.length_singleton]
  constructor
  · rintro ⟨b, ⟨h1, h2⟩, h3⟩
    cases b with
    | true =>
      simp only [if_true, bind_ok_iff, expect_ok_iff, require_ok_iff, pure_ok_iff] at h3
      obtain ⟨p, hp, -, ho, rfl⟩ := h3
      exact .inl ⟨h2.1 rfl, h1, hp, ho⟩
    | false =>
      simp only [Bool.false_eq_true, if_false, bind_ok_iff, expect_ok_iff, pure_ok_iff, Prod.mk.injEq] at h3
      obtain ⟨n, hn, rfl, rfl⟩ := h3
      exact .inr ⟨(parse_u16_iff _ _).1 hn, rfl⟩
  · rintro (⟨h1, h2, h3, h4⟩ | ⟨h1, rfl⟩)
    · refine ⟨true, ⟨h2, by simp [h1]⟩, ?_⟩
      simp only [if_true, bind_ok_iff, expect_ok_iff, require_ok_iff, pure_ok_iff]
      exact ⟨_, h3, (), h4, rfl⟩
    · obtain ⟨h2, h3⟩ := isDays_first h1
      refine ⟨false, ⟨h3, by simp [h2]⟩, ?_⟩
      simp only [Bool.false_eq_true, if_false, bind_ok_iff, expect_ok_iff, pure_ok_iff]
      exact ⟨d, (parse_u16_iff _ _).2 h1, rfl⟩

theorem transfer_iff (hs : Sound s) {se : String} {a : Nat} {m : List UInt8} :
    (∃ s', s.ft_on_transfer J c se a m = .ok s') ↔ cutsAt m 11 ∧
    ((forClaims m ∧ MayDistribute J s c a m) ∨
     (¬ forClaims m ∧ c.predecessor = s.mpdao_token_contract_address ∧ s.min_deposit_amount ≤ a ∧
      ∃ id d, names J s se m id d ∧ Lockable s (s.positionsOf id) a d)) := by
  have hdep : ∀ {id : String} {d : Nat}, (∃ r, s.deposit_locking_position a d id (s.voterD id) = .ok r) ↔
      Lockable s (s.positionsOf id) a d := by
    intro id d
    have hl := hs.length id
    exact deposit_iff (by exact hl.1.trans hl.2) (hs.available id)
  have h11 : FOR_CLAIMS.length = 11 := rfl
  simp only [State.ft_on_transfer, bind_ok_iff, has_prefix_iff, h11]
  constructor
  · rintro ⟨s', b, ⟨h1, h2⟩, h3⟩
    refine ⟨h1, ?_⟩
    cases b with
    | true =>
      simp only [if_true, bind_ok_iff, expect_ok_iff] at h3
      obtain ⟨l, hl, hd⟩ := h3
      exact .inl ⟨h2.1 rfl, l, hl, (distribute_iff hs.cinv hs.fits).1 ⟨_, hd⟩⟩
    | false =>
      simp only [Bool.false_eq_true, if_false, bind_ok_iff, require_ok_iff, pure_ok_iff,
        State.assert_min_deposit_amount, internal_get_voter_eq] at h3
      obtain ⟨-, hp, t, ht, -, hm, r, hr, -⟩ := h3
      refine .inr ⟨fun hf => ?_, hp, hm, t.1, t.2, target_iff.1 ht, hdep.1 ⟨r, hr⟩⟩
      exact absurd (h2.2 hf) (by simp)
  · rintro ⟨h1, ⟨hf, l, hl, hd⟩ | ⟨hf, hp, hm, id, d, hn, hL⟩⟩
    · obtain ⟨s', hs'⟩ := (distribute_iff hs.cinv hs.fits).2 hd
      refine ⟨s', true, ⟨h1, fun _ => hf, fun _ => rfl⟩, ?_⟩
      simp only [if_true, bind_ok_iff, expect_ok_iff]
      exact ⟨l, hl, hs'⟩
    · obtain ⟨r, hr⟩ := hdep.2 hL
      refine ⟨r.1, false, ⟨h1, fun h => by simp at h, fun h => absurd h hf⟩, ?_⟩
      simp only [Bool.false_eq_true, if_false, bind_ok_iff, require_ok_iff, pure_ok_iff,
        State.assert_min_deposit_amount, internal_get_voter_eq]
      exact ⟨(), hp, (id, d), target_iff.2 hn, (), hm, r, hr, rfl⟩

theorem callback_mp_iff {id : String} {a : Nat} :
    (∃ s', s.after_transfer_mpdao_callback c id a = .ok s') ↔
    c.promise_results ≠ [] ∧ (c.promise_results.head? = some false → (s.voterD id).balance + a ≤ U128_MAX) := by
  unfold State.after_transfer_mpdao_callback
  cases hp : c.promise_results with
  | nil => simp [bind_ok_iff, expect_ok_iff]
  | cons b l =>
    simp only [List.head?_cons, bind_ok_iff, expect_ok_iff, Option.some.injEq]
    cases b with
    | true => simp
    | false =>
      simp only [exists_eq_left', Bool.false_eq_true, if_false, State.restore_transfer_to_mpdao, bind_ok_iff,
        addU128_ok_iff, pure_ok_iff, internal_get_voter_eq, ne_eq, reduceCtorEq, not_false_eq_true, true_and,
        forall_const]
      constructor
      · rintro ⟨s', b, ⟨h, -⟩, -⟩; exact h
      · intro h; exact ⟨_, _, ⟨h, rfl⟩, rfl⟩

theorem callback_st_iff (hs : Sound s) {id : String} {a : Nat} :
    (∃ s', s.after_transfer_stnear_callback c id a = .ok s') ↔
    c.promise_results ≠ [] ∧ (c.promise_results.head? = some false →
      0 < a ∧ s.total_unclaimed_stnear + a ≤ U128_MAX) := by
  unfold State.after_transfer_stnear_callback
  cases hp : c.promise_results with
  | nil => simp [bind_ok_iff, expect_ok_iff]
  | cons b l =>
    simp only [List.head?_cons, bind_ok_iff, expect_ok_iff, Option.some.injEq]
    cases b with
    | true => simp
    | false =>
      simp only [exists_eq_left', Bool.false_eq_true, if_false, State.add_claimable_stnear, add_claimable, bind_ok_iff,
        require_ok_iff, addU128_ok_iff, pure_ok_iff, ne_eq, reduceCtorEq, not_false_eq_true, true_and,
        forall_const]
      constructor
      · rintro ⟨s', -, h1, r, ⟨x, ⟨-, rfl⟩, y, ⟨h2, -⟩, -⟩, -⟩; exact ⟨h1, h2⟩
      · rintro ⟨h1, h2⟩
        have h3 := claimOf_le_sum s.claimable_stnear id
        have h4 := hs.cinv.stnear
        unfold claimOf at h3
        exact ⟨_, (), h1, _, ⟨_, ⟨by omega, rfl⟩, _, ⟨h2, rfl⟩, rfl⟩, rfl⟩

theorem delegate_iff {e x : String} : s.verify_delegate c e = .ok x ↔
    e ∈ s.get_delegating_evm_addresses c.predecessor ∧ x = e ++ ".evmp.near" := by
  simp only [State.verify_delegate, bind_ok_iff, require_ok_iff, pure_ok_iff, State.get_delegating_evm_addresses,
    pseudo_near_address]
  constructor
  · rintro ⟨-, h, rfl⟩; exact ⟨h, rfl⟩
  · rintro ⟨h, rfl⟩; exact ⟨(), h, rfl⟩

theorem remove_delegated_iff (hs : Sound s) {e : String} :
    (∃ s', s.remove_delegated_evm_address c e = .ok s') ↔
    c.deposit = 1 ∧ e ∈ s.get_delegating_evm_addresses c.predecessor := by
  rw [← hs.dinv.agree, get_delegate_eq]
  simp only [State.remove_delegated_evm_address, assert_one_yocto, bind_ok_iff, require_ok_iff, expect_ok_iff,
    pure_ok_iff]
  constructor
  · rintro ⟨s', -, h1, ex, h2, -, h3, -⟩
    rw [h2]; exact ⟨h1, by simp [h3]⟩
  · rintro ⟨h1, h2⟩
    have hmem := (hs.dinv.agree e c.predecessor).1 (by rw [get_delegate_eq]; exact h2)
    cases hex : s.evm_delegation_signatures.get e with
    | none => rw [hex] at h2; simp at h2
    | some ex =>
      rw [hex] at h2
      obtain ⟨l, hl⟩ : ∃ l, s.evm_delegates.get c.predecessor = some l := by
        cases hl : s.evm_delegates.get c.predecessor with
        | none => simp [State.get_delegating_evm_addresses, hl] at hmem
        | some l => exact ⟨l, rfl⟩
      exact ⟨_, (), h1, ex, rfl, (), by simpa using h2, l, hl, rfl⟩

theorem lockOn_create {a d : Nat} : ∀ {l : List LockingPosition}, (∀ p ∈ l, isLockedFor d p = false) →
    lockOn a d l = l ++ [⟨a, d, powerOf a d, none⟩]
  | [], _ => rfl
  | p :: l, h => by
    rw [lockOn, if_neg (by simp [h p (by simp)]), lockOn_create fun q hq => h q (List.mem_cons_of_mem _ hq)]
    rfl

theorem lockOn_increase {a d : Nat} : ∀ {l : List LockingPosition} {i : Nat} {p : LockingPosition},
    l.findIdx? (isLockedFor d) = some i → l[i]? = some p →
    lockOn a d l = l.set i ⟨p.amount + a, d, p.voting_power + powerOf a d, none⟩
  | [], i, p, h, _ => by simp at h
  | q :: l, i, p, h, hp => by
    rw [List.findIdx?_cons] at h
    rw [lockOn]
    split at h
    · rename_i hq
      cases h
      cases hp
      rw [if_pos hq]; rfl
    · rename_i hq
      rw [if_neg hq]
      simp only [Option.map_eq_some_iff] at h
      obtain ⟨j, hj, rfl⟩ := h
      rw [lockOn_increase hj (by simpa using hp)]
      rfl

theorem deposited_lockOn {v : Voter} {m a d : Nat} {ps : List LockingPosition}
    (h : Deposited v m a d (powerOf a d) ps) : ps = lockOn a d v.locking_positions := by
  have e : (fun p : LockingPosition => p.locking_period == d && p.is_locked) = isLockedFor d := by
    funext p
    unfold isLockedFor LockingPosition.is_locked
    rw [Bool.eq_iff_iff]
    simp only [Bool.and_eq_true, beq_iff_eq, decide_eq_true_eq, Option.isNone_iff_eq_none]
    exact And.comm
  cases h with
  | increase i p hf hp hd hl ha hv =>
    unfold Voter.find_locked_position at hf
    rw [e] at hf
    exact (lockOn_increase hf hp).symm
  | create hf hl =>
    unfold Voter.find_locked_position at hf
    rw [e] at hf
    exact (lockOn_create (List.findIdx?_eq_none_iff.1 hf)).symm

theorem lockOn_length {a d : Nat} {l : List LockingPosition} {m : Nat} (hl : l.length ≤ m)
    (h : (∀ p ∈ l, isLockedFor d p = false) → l.length < m) : (lockOn a d l).length ≤ m := by
  have : ∀ l : List LockingPosition, (lockOn a d l).length =
      if ∀ p ∈ l, isLockedFor d p = false then l.length + 1 else l.length := by
    intro l
    induction l with
    | nil => simp [lockOn]
    | cons p l ih =>
      unfold lockOn
      by_cases hp : isLockedFor d p = true
      · simp [hp]
      · simp only [Bool.not_eq_true] at hp
        simp only [hp, Bool.false_eq_true, if_false, List.length_cons, ih, List.mem_cons, forall_eq_or_imp, true_and]
        split <;> rfl
  rw [this]
  split
  · rename_i h0; exact h h0
  · exact hl

theorem lockableAll_congr {s s' : State} (h1 : s.min_unbond_period = s'.min_unbond_period)
    (h2 : s.max_unbond_period = s'.max_unbond_period) (h3 : s.max_locking_positions = s'.max_locking_positions)
    (h4 : s.total_voting_power = s'.total_voting_power) {l : List LockingPosition} {r : List (Nat × Nat)}
    (h : LockableAll s l r) : LockableAll s' l r := by
  induction r generalizing l s s' with
  | nil => trivial
  | cons x r ih =>
    obtain ⟨⟨a1, a2, a3, a4, a5, a6, a7⟩, b⟩ := h
    exact ⟨⟨h1 ▸ a1, h2 ▸ a2, a3, a4, h4 ▸ a5, h3 ▸ a6, a7⟩, ih (s := { s with total_voting_power := s.total_voting_power + powerOf x.1 x.2 })
      (s' := { s' with total_voting_power := s'.total_voting_power + powerOf x.1 x.2 }) h1 h2 h3 (by simp only [h4]) b⟩

theorem lockableAll_days {s : State} {l : List LockingPosition} {r : List (Nat × Nat)} (h : LockableAll s l r) :
    ∀ x ∈ r, x.2 ≤ U16_MAX := by
  induction r generalizing l s with
  | nil => simp
  | cons y r ih => exact List.forall_mem_cons.2 ⟨h.1.range.2, ih h.2⟩

theorem migrate_iff {id : String} : ∀ {r : List (Nat × Nat)} {s : State} {v : Voter},
    s.max_locking_positions ≤ U8_MAX → v.locking_positions.length ≤ s.max_locking_positions →
    v.available_voting_power ≤ s.total_voting_power →
    ((∃ x, r.foldlM (State.migration_step id) (s, v) = .ok x) ↔
      LockableAll s v.locking_positions (r.map fun x => (x.1 / 10 ^ 18, x.2)))
  | [], s, v, _, _, _ => ⟨fun _ => trivial, fun _ => ⟨_, rfl⟩⟩
  | x :: r, s, v, h8, hl, ha => by
    simp only [foldlM_ok_cons, List.map_cons, LockableAll]
    have hd := deposit_iff (s := s) (v := v) (a := x.1 / 10 ^ 18) (d := x.2) (id := id) (hl.trans h8) ha
    have step : ∀ {s1 : State} {v1 : Voter}, State.migration_step id (s, v) x = .ok (s1, v1) →
        ((∃ y, r.foldlM (State.migration_step id) (s1, v1) = .ok y) ↔
        LockableAll { s with total_voting_power := s.total_voting_power + powerOf (x.1 / 10 ^ 18) x.2 }
          (lockOn (x.1 / 10 ^ 18) x.2 v.locking_positions) (r.map fun x => (x.1 / 10 ^ 18, x.2))) := by
      intro s1 v1 h1
      replace h1 : s.deposit_locking_position (x.1 / 10 ^ 18) x.2 id v = .ok (s1, v1) := h1
      have hlk := hd.1 ⟨_, h1⟩
      obtain ⟨vp, ps, hc, -, -, -, hdep, rfl, rfl⟩ := deposit_ok h1
      obtain ⟨-, -, -, rfl⟩ := (calc_iff _ _ _).1 hc
      have hps := deposited_lockOn hdep
      rw [migrate_iff (r := r) (by exact h8) (by
        show ps.length ≤ _
        rw [hps]; exact lockOn_length hl hlk.room) (by show _ ≤ _; simp only; omega)]
      simp only
      rw [hps]
      constructor <;> intro h <;> refine lockableAll_congr ?_ ?_ ?_ ?_ h <;> rfl
    constructor
    · rintro ⟨y, ⟨s1, v1⟩, h1, h2⟩
      exact ⟨hd.1 ⟨_, h1⟩, (step h1).1 ⟨y, h2⟩⟩
    · rintro ⟨h1, h2⟩
      obtain ⟨⟨s1, v1⟩, h1⟩ := hd.2 h1
      obtain ⟨y, hy⟩ := (step h1).2 h2
      exact ⟨y, _, h1, hy⟩

theorem migration_iff (hs : Sound s) {id : String} {l : List (Nat × Nat)} {data : Option String} :
    (∃ s', s.migration_create_lps c id l data = .ok s') ↔ c.predecessor = s.prev_governance_contract ∧
      LockableAll s (s.positionsOf id) (l.map fun x => (x.1 / 10 ^ 18, x.2)) := by
  have hl := hs.length id
  have h := migrate_iff (id := id) (r := l) (s := s) (v := s.voterD id) hl.2 hl.1 (hs.available id)
  simp only [State.migration_create_lps, bind_ok_iff, require_ok_iff, internal_get_voter_eq]
  rw [State.positionsOf, ← h]
  constructor
  · rintro ⟨s', -, h1, x, hx, -⟩; exact ⟨h1, x, hx⟩
  · rintro ⟨h1, x, hx⟩
    cases data with
    | none => exact ⟨_, (), h1, x, hx, rfl⟩
    | some d =>
      by_cases hg : x.1.associated_user_data.get c.predecessor = none
      · exact ⟨_, (), h1, x, hx, by simp only [hg, if_true]; rfl⟩
      · exact ⟨_, (), h1, x, hx, by simp only [hg, if_false]; rfl⟩

theorem takingOrder_swap {α : Type} (x : α) (l : List α) :
    takingOrder (x :: l) = x :: takingOrder (swapRemove (x :: l) 0) := by
  rcases List.eq_nil_or_concat l with rfl | ⟨l', y, rfl⟩
  · rfl
  · have h1 : (x :: (l' ++ [y])).getLast? = some y := by
      rw [← List.cons_append, List.getLast?_concat]
    have : swapRemove (x :: (l' ++ [y])) 0 = y :: l' := by
      unfold swapRemove
      rw [h1]
      simp only [List.set_cons_zero]
      rw [← List.cons_append, List.dropLast_concat]
    rw [List.concat_eq_append, this]
    simp [takingOrder]

theorem remove_head {V : Type} {m : UMap String V} {p : String × V} {l : List (String × V)}
    (h : m.entries = p :: l) : (m.remove p.1).entries = swapRemove (p :: l) 0 := by
  simp [UMap.remove, removeL, h, indexL]

theorem insert_head {V : Type} {m : UMap String V} {p : String × V} {l : List (String × V)} (x : V)
    (h : m.entries = p :: l) : (m.insert p.1 x).entries = (p.1, x) :: l := by
  simp [UMap.insert, insertL, h]

theorem takenVotes_vdel {m : UMap String (UMap String Nat)} {app : String × UMap String Nat} {obj : String × Nat}
    (ha : m.entries.head? = some app) (ho : app.2.entries.head? = some obj) :
    takenVotes m = (app.1, obj.1, obj.2) :: takenVotes (vdel m app.1 obj.1) := by
  obtain ⟨l, hl⟩ : ∃ l, m.entries = app :: l := by
    cases h : m.entries with
    | nil => rw [h] at ha; cases ha
    | cons x l => rw [h] at ha; cases ha; exact ⟨l, rfl⟩
  obtain ⟨k, hk⟩ : ∃ k, app.2.entries = obj :: k := by
    cases h : app.2.entries with
    | nil => rw [h] at ho; cases ho
    | cons x l => rw [h] at ho; cases ho; exact ⟨l, rfl⟩
  have hg : m.get app.1 = some app.2 := head_get ha
  unfold vdel
  rw [hg, Option.getD_some]
  have hr := remove_head hk
  split
  · rename_i he
    have hm := remove_head hl
    rw [UMap.isEmpty, hr, List.isEmpty_iff] at he
    have hk0 : k = [] := by
      have := swapRemove_length (obj :: k) 0 (by simp)
      rw [he] at this
      simp at this
      simpa using this
    subst hk0
    unfold takenVotes
    rw [hl, hm, takingOrder_swap, List.flatMap_cons, hk]
    rfl
  · have hm := insert_head (app.2.remove obj.1) hl
    unfold takenVotes
    rw [hl, hm]
    have e : ∀ y : String × UMap String Nat, takingOrder (y :: l) = y :: l.reverse := fun _ => rfl
    rw [e, e, List.flatMap_cons, List.flatMap_cons, hk, takingOrder_swap, ← hr]
    rfl

theorem mem_takenVotes {m : UMap String (UMap String Nat)} {a o : String} {n : Nat}
    (h : (a, o, n) ∈ takenVotes m) : ∃ x, m.get a = some x ∧ x.get o = some n := by
  have hm : ∀ {α : Type} {x : α} {l : List α}, x ∈ takingOrder l → x ∈ l := by
    intro α x l h
    cases l with
    | nil => exact h
    | cons y l => simpa [takingOrder] using h
  simp only [takenVotes, List.mem_flatMap, List.mem_map, Prod.mk.injEq] at h
  obtain ⟨p, hp, q, hq, rfl, rfl, rfl⟩ := h
  exact ⟨p.2, UMap.get_eq_some_iff.2 (hm hp), UMap.get_eq_some_iff.2 (hm hq)⟩

/-- Entry of a two-level map. -/
theorem entry_vdel (m : UMap String (UMap String Nat)) (c p a o : String) (h : ¬ (a = c ∧ o = p)) :
    (((vdel m c p).get a).getD UMap.empty).get o = ((m.get a).getD UMap.empty).get o := by
  unfold vdel
  by_cases ha : a = c
  · subst ha
    have ho : o ≠ p := fun e => h ⟨rfl, e⟩
    split
    · rename_i he
      have := UMap.get_remove_ne ((m.get a).getD UMap.empty) ho
      rw [UMap.eq_empty_of_isEmpty he] at this
      rw [UMap.get_remove_self, Option.getD_none, ← this]
    · rw [UMap.get_insert_self, Option.getD_some, UMap.get_remove_ne _ ho]
  · split
    · rw [UMap.get_remove_ne _ ha]
    · rw [UMap.get_insert_ne _ _ ha]

theorem entry_vset (m : UMap String (UMap String Nat)) (c p a o : String) (n : Nat) (h : ¬ (a = c ∧ o = p)) :
    (((vset m c p n).get a).getD UMap.empty).get o = ((m.get a).getD UMap.empty).get o := by
  unfold vset
  by_cases ha : a = c
  · subst ha
    have ho : o ≠ p := fun e => h ⟨rfl, e⟩
    rw [UMap.get_insert_self, Option.getD_some, UMap.get_insert_ne _ _ ho]
  · rw [UMap.get_insert_ne _ _ ha]

theorem hasTotal_entry {app obj : String} : s.hasTotal app obj ↔
    ((s.votes.get app).getD UMap.empty).get obj ≠ none := by
  unfold State.hasTotal
  cases s.votes.get app <;> simp

/-- Taking back a vote the voter has. -/
theorem take_iff {v : Voter} {c o : String} {n : Nat}
    (hv : ((v.vote_positions.get c).getD UMap.empty).get o = some n)
    (hsum : n ≤ s.totalVotes c o) (hfit : v.available_voting_power + n ≤ U128_MAX) :
    (∃ r, s.internal_remove_voting_position v c o = .ok r) ↔ (n = 0 → s.hasTotal c o) := by
  simp only [State.internal_remove_voting_position, Voter.get_vote_position_for_address,
    bind_ok_iff, pure_ok_iff, expect_ok_iff, addU128_ok_iff]
  constructor
  · rintro ⟨r, k, hk, av, -, s1, hd, -⟩ -
    exact (decrease_iff.1 ⟨s1, hd⟩).1
  · intro h
    have ht : s.hasTotal c o := by
      by_cases h0 : n = 0
      · exact h h0
      · exact hasTotal_of_pos (by omega)
    obtain ⟨s1, hs1⟩ := decrease_iff.2 ⟨ht, hsum⟩
    exact ⟨_, n, hv, _, ⟨hfit, rfl⟩, s1, hs1, rfl⟩

theorem canTake_congr {s s' : State} {n : Nat} : ∀ {l : List (String × String × Nat)} {u : Nat},
    (∀ x ∈ l, s.hasTotal x.1 x.2.1 ↔ s'.hasTotal x.1 x.2.1) → (CanTake s n l u ↔ CanTake s' n l u)
  | [], _, _ => Iff.rfl
  | (a, o, k) :: l, u, h => by
    simp only [CanTake]
    rw [h (a, o, k) (by simp), canTake_congr (fun x hx => h x (List.mem_cons_of_mem _ hx))]

theorem loop_iff {n : Nat} : ∀ (fuel : Nat) (s : State) (v : Voter) (used : Nat),
    used = v.used → vcount v.vote_positions ≤ fuel → vclean v.vote_positions →
    (∀ c o, v.votesOf c o ≤ s.totalVotes c o) → v.power ≤ U128_MAX →
    ((∃ r, State.mirror_remove_votes n fuel s v used = .ok r) ↔ CanTake s n (takenVotes v.vote_positions) used)
  | fuel, s, v, used, hu, hf, hc, ht, hfit => by
    by_cases hlt : n < used
    · have hne : 0 < vsum v.vote_positions := by simp only [Voter.used] at hu; omega
      cases happ : v.vote_positions.entries.head? with
      | none =>
        rw [List.head?_eq_none_iff] at happ
        rw [vsum, UMap.sum, happ] at hne
        simp at hne
      | some app =>
        have ha := head_get happ
        have hem := hc _ _ ha
        cases hobj : app.2.entries.head? with
        | none =>
          rw [List.head?_eq_none_iff] at hobj
          rw [UMap.isEmpty, hobj] at hem
          simp at hem
        | some obj =>
          have ho := head_get hobj
          have h3 : v.votesOf app.1 obj.1 = obj.2 := by simp [Voter.votesOf, vget, ha, ho]
          have hcnt := vcount_vdel ha ho
          have hle := vget_le_vsum v.vote_positions app.1 obj.1
          have hvo : vget v.vote_positions app.1 obj.1 = obj.2 := h3
          have hvd := vsum_vdel v.vote_positions app.1 obj.1
          have htake := take_iff (s := s) (v := v) (c := app.1) (o := obj.1) (n := obj.2)
            (by rw [ha]; exact ho) (by rw [← h3]; exact ht _ _)
            (by simp only [Voter.power, Voter.used] at hfit; omega)
          cases fuel with
          | zero => omega
          | succ fuel =>
            rw [takenVotes_vdel happ hobj]
            simp only [CanTake, hlt, true_imp_iff]
            unfold State.mirror_remove_votes
            rw [if_pos hlt]
            simp only [bind_ok_iff, expect_ok_iff, subU_ok_iff, happ, Option.some.injEq]
            have hsub : obj.2 ≤ used := by simp only [Voter.used] at hu; omega
            have step : ∀ {s1 : State} {v1 : Voter}, s.internal_remove_voting_position v app.1 obj.1 = .ok (s1, v1) →
                ((∃ r, State.mirror_remove_votes n fuel s1 v1 (used - obj.2) = .ok r) ↔
                  CanTake s n (takenVotes (vdel v.vote_positions app.1 obj.1)) (used - obj.2)) := by
              intro s1 v1 hr
              obtain ⟨-, -, h1, rfl, rfl⟩ := remove_voting_ok hr
              rw [loop_iff (n := n) fuel _ _ (used - obj.2)
                (by simp only [Voter.used] at hu ⊢; omega) (by simp only; omega) (vclean_vdel hc _ _)
                (by
                  intro c o
                  show vget (vdel v.vote_positions app.1 obj.1) c o ≤
                    vget (if s.totalVotes app.1 obj.1 - v.votesOf app.1 obj.1 = 0 then
                      vdel s.votes app.1 obj.1
                      else vset s.votes app.1 obj.1 (s.totalVotes app.1 obj.1 - v.votesOf app.1 obj.1)) c o
                  rw [decreased_vget, vget_vdel]
                  split
                  · omega
                  · exact ht c o)
                (by simp only [Voter.power, Voter.used, Voter.votesOf] at hfit ⊢; omega)]
              refine canTake_congr fun x hx => ?_
              obtain ⟨y, hy1, hy2⟩ := mem_takenVotes hx
              have hne : ¬ (x.1 = app.1 ∧ x.2.1 = obj.1) := by
                rintro ⟨e1, e2⟩
                rw [e1] at hy1
                rw [e2] at hy2
                unfold vdel at hy1
                rw [ha, Option.getD_some] at hy1
                split at hy1
                · simp at hy1
                · rw [UMap.get_insert_self] at hy1
                  cases hy1
                  simp at hy2
              rw [hasTotal_entry, hasTotal_entry]
              simp only
              split
              · rw [entry_vdel _ _ _ _ _ hne]
              · rw [entry_vset _ _ _ _ _ _ hne]
            constructor
            · rintro ⟨r, a', rfl, o', ho', ⟨s1, v1⟩, hr, u, ⟨-, rfl⟩, hx⟩
              rw [hobj] at ho'
              cases ho'
              exact ⟨htake.1 ⟨_, hr⟩, (step hr).1 ⟨r, hx⟩⟩
            · rintro ⟨h1, h2⟩
              obtain ⟨⟨s1, v1⟩, hr⟩ := htake.2 h1
              obtain ⟨r, hx⟩ := (step hr).2 h2
              exact ⟨r, app, rfl, obj, hobj, _, hr, _, ⟨hsub, rfl⟩, hx⟩
    · constructor
      · intro _
        cases takenVotes v.vote_positions with
        | nil => trivial
        | cons x l => exact fun h => absurd h hlt
      · intro _
        unfold State.mirror_remove_votes
        rw [if_neg hlt]
        exact ⟨_, rfl⟩
/-- Positions created by a mirroring have room, and their power fits. -/
theorem mirror_create_room : ∀ {l : List (Nat × Nat)} {s : State} {v : Voter} {r : State × Voter},
    v.locking_positions.length ≤ s.max_locking_positions ∧ s.max_locking_positions ≤ U8_MAX →
    s.total_voting_power ≤ U128_MAX → l.foldlM State.mirror_step (s, v) = .ok r →
    v.locking_positions.length + l.length ≤ s.max_locking_positions ∧
      s.total_voting_power + mirrorPower l ≤ U128_MAX
  | [], s, v, r, hm, ht, h => ⟨hm.1, ht⟩
  | lp :: l, s, v, r, hm, ht, h => by
    rw [foldlM_ok_cons] at h
    obtain ⟨⟨s1, v1⟩, h1, h2⟩ := h
    obtain ⟨vp, hvp, -, hlen, htv, -, rfl, rfl⟩ := create_locking_ok h1
    obtain ⟨-, -, -, rfl⟩ := (calc_iff _ _ _).1 hvp
    have hmod : v.locking_positions.length % 256 = v.locking_positions.length :=
      Nat.mod_eq_of_lt (by simp only [U8_MAX] at hm; omega)
    simp only [hmod] at hlen htv
    obtain ⟨h3, h4⟩ := mirror_create_room (by simp only [List.length_append, List.length_singleton]; omega)
      (by exact htv) h2
    simp only [List.length_append, List.length_singleton] at h3
    simp only at h4
    rw [mirrorPower_cons, List.length_cons]
    unfold powerOf at h4
    omega

theorem mirror_iff (hs : Sound s) {e : String} {l : List (Nat × Nat)} :
    (∃ s', s.operator_mirror_lps c e l = .ok s') ↔ c.predecessor = s.operator_id ∧
      MayMirror s (e ++ ".evmp.near") l := by
  have hid : pseudo_near_address e = e ++ ".evmp.near" := rfl
  generalize e ++ ".evmp.near" = id at hid ⊢
  have hi := hs.vinv
  have hk := hi.voterOK id
  have hpow := hi.power_le_total id
  have htot := hs.total
  have hsu : (s.voterD id).sum_used_votes = .ok (s.voterD id).used :=
    sum_used_votes_of_le (by simp only [Voter.power] at hpow; omega)
  have hloop := loop_iff (n := mirrorPower l) (((s.voterD id).vote_positions.values.map (·.len)).sum) s (s.voterD id)
    (s.voterD id).used rfl (vcount_values _).ge hk.clean (hs.votes_total id) (by omega)
  have hrel : MirrorRel s (s.voterD id) s (s.voterD id) :=
    ⟨rfl, fun _ _ => rfl, hi.clean, hk.clean, rfl, rfl, rfl⟩
  simp only [State.operator_mirror_lps, State.assert_operator, require_ok_iff, bind_ok_iff,
    addU128_ok_iff, subU_ok_iff, pure_ok_iff, internal_get_voter_eq, sumU128_ok_iff, hid]
  constructor
  · rintro ⟨s', -, hop, u, hu, prev, -, vps, hvps, nvp, ⟨-, rfl⟩, ⟨s1, v1, u1⟩, hl, ⟨s2, v2⟩, hcr, -⟩
    have hu' := sum_used_votes_ok hu
    subst hu'
    obtain ⟨hr, -, -⟩ := mirror_loop_rel _ _ _ _ _ hrel rfl hl
    have hs1 := hr.state
    simp only at hs1
    have hmir := mirror_create_mirrored rfl hcr
    have hmx : s1.max_locking_positions = s.max_locking_positions := by rw [hs1]
    have htx : s1.total_voting_power = s.total_voting_power := by rw [hs1]
    obtain ⟨h1, h2⟩ := mirror_create_room (by rw [hmx]; exact ⟨Nat.zero_le _, hi.max8⟩) (by simp only; omega) hcr
    obtain ⟨-, e2⟩ := mirror_create_exact hcr
    rw [e2] at hmir
    simp only [List.nil_append] at hmir
    rw [mirror_powers hvps] at hl
    have hn := hmir.nodup
    rw [List.map_map] at hn
    have hcalc : ∀ lp ∈ l, lp.1 < 3600 ∧ lp.2 * 10 ^ 18 ≤ U128_MAX := fun lp hlp => by
      have := (hmir.ok _ (List.mem_map_of_mem hlp)).2
      exact ⟨((calc_iff _ _ _).1 this).1, ((calc_iff _ _ _).1 this).2.1⟩
    refine ⟨hop.symm, hn, fun lp h => (hcalc lp h).1, fun lp h => (hcalc lp h).2, ?_, ?_, hloop.1 ⟨_, hl⟩⟩
    · simp only [List.length_nil, Nat.zero_add] at h1
      omega
    · simp only at h2
      omega
  · rintro ⟨hop, hper, hday, ham, hlen, hfit, hv⟩
    obtain ⟨⟨s1, v1, u1⟩, hl⟩ := hloop.2 hv
    have hcalc : ∀ lp ∈ l, calculate_voting_power lp.2 lp.1 = .ok (lp.2 * 10 ^ 18 * lp.1 / 60) := by
      intro lp hlp
      refine (calc_iff _ _ _).2 ⟨hday lp hlp, ham lp hlp, ?_, rfl⟩
      have : lp.2 * 10 ^ 18 * lp.1 / 60 ≤ mirrorPower l := le_sum_mem (List.mem_map.2 ⟨lp, hlp, rfl⟩)
      unfold powerOf; omega
    have hvps : l.mapM (fun i => calculate_voting_power i.2 i.1)
        = .ok (l.map (fun lp => lp.2 * 10 ^ 18 * lp.1 / 60)) := by
      rw [mapM_ok_iff]
      clear hper hlen hfit hday hv hl hloop ham
      induction l with
      | nil => exact .nil
      | cons a l ih => exact .cons (hcalc a (by simp)) (ih fun lp hlp => hcalc lp (List.mem_cons_of_mem _ hlp))
    obtain ⟨hr, hru, hle⟩ := mirror_loop_rel _ _ _ _ _ hrel rfl hl
    have hs1 := hr.state
    simp only at hs1 hle
    have ht1 : s1.total_voting_power = s.total_voting_power := by rw [hs1]
    have hm1 : s1.max_locking_positions = s.max_locking_positions := by rw [hs1]
    obtain ⟨r, hcr⟩ := mirror_create_total (l := l) (s := s1)
      (v := { v1 with locking_positions := [], available_voting_power := 0 })
      (by rw [hm1]; exact hi.max8) (by simp only [List.length_nil]; omega) hper (by simp)
      (fun lp hlp => ⟨_, hcalc lp hlp⟩) (by simp only; omega) (by omega)
    obtain ⟨e1, e2⟩ := mirror_create_exact hcr
    refine ⟨_, (), hop.symm, _, hsu, _, ⟨?_, rfl⟩, _, hvps, _, ⟨?_, rfl⟩, _, hl, r, hcr, _, ⟨?_, rfl⟩, _,
      ⟨?_, rfl⟩, rfl⟩
    · simp only [Voter.power] at hpow; omega
    · show mirrorPower l ≤ _; omega
    · rw [e2]; simp only; omega
    · rw [e1]; simp only [Voter.power] at hpow ⊢; omega

end

end Verif.MetaVote
