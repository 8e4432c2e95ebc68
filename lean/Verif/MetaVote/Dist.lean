import Verif.MetaVote.VoteEffects

/-!
# Distributions for claims, exactly
-/

namespace Verif.MetaVote

open Verif

theorem claimOf_insert (m : UMap String Nat) (id i : String) (n : Nat) :
    claimOf (m.insert id n) i = if id = i then n else claimOf m i := by
  unfold claimOf; rw [UMap.get_insert]; split <;> rfl

theorem claimOf_le_sum (m : UMap String Nat) (id : String) : claimOf m id ≤ m.sum (fun _ x => x) := by
  unfold claimOf
  cases h : m.get id with
  | none => exact Nat.zero_le _
  | some x => exact UMap.le_sum_of_get (f := fun _ x => x) h

theorem itemsFor_cons (id : String) (p : String × Nat) (l : List (String × Nat)) :
    itemsFor id (p :: l) = (if p.1 = id then p.2 else 0) + itemsFor id l := by simp [itemsFor]

theorem itemsTotal_cons (p : String × Nat) (l : List (String × Nat)) :
    itemsTotal (p :: l) = p.2 + itemsTotal l := by simp [itemsTotal]

theorem itemsFor_le (id : String) (l : List (String × Nat)) : itemsFor id l ≤ itemsTotal l := by
  induction l with
  | nil => simp [itemsFor, itemsTotal]
  | cons p t ih => rw [itemsFor_cons, itemsTotal_cons]; split <;> omega

theorem distribute_mpdao_step_eq (a : State × Nat) (item : String × Nat) :
    State.distribute_mpdao_step a item = (do
      let amount ← mulU128 item.2 E6
      let s ← a.1.add_claimable_mpdao item.1 amount
      let total ← addU128 a.2 amount
      pure (s, total)) := by unfold E6; rfl

/-- Effect of the mpDAO loop. -/
theorem dist_mpdao_ok : ∀ {l : List (String × Nat)} {s : State} {t : Nat} {r : State × Nat},
    l.foldlM State.distribute_mpdao_step (s, t) = .ok r →
    (∀ p ∈ l, 0 < p.2) ∧ r.2 = t + itemsTotal l * E6 ∧
    r.1 = { s with
      claimable_mpdao := r.1.claimable_mpdao
      total_unclaimed_mpdao := s.total_unclaimed_mpdao + itemsTotal l * E6 } ∧
    (∀ id, claimOf r.1.claimable_mpdao id = claimOf s.claimable_mpdao id + itemsFor id l * E6) ∧
    (l ≠ [] → s.total_unclaimed_mpdao + itemsTotal l * E6 ≤ U128_MAX)
  | [], s, t, r, hx => by
    rw [foldlM_ok_nil] at hx
    subst hx
    simp [itemsTotal, itemsFor]
  | p :: l, s, t, r, hx => by
    rw [foldlM_ok_cons] at hx
    obtain ⟨⟨s1, t1⟩, h1, h2⟩ := hx
    obtain ⟨i1, i2, i3, i4, i5⟩ := dist_mpdao_ok h2
    simp only [distribute_mpdao_step_eq, bind_ok_iff, mulU128_ok_iff, addU128_ok_iff, pure_ok_iff,
      Prod.mk.injEq] at h1
    obtain ⟨a, ⟨-, rfl⟩, s3, ha, t', ⟨-, rfl⟩, rfl, rfl⟩ := h1
    obtain ⟨hp, hle, rfl⟩ := add_claimable_mpdao_ok ha
    have hp0 : 0 < p.2 := Nat.pos_of_mul_pos_right hp
    simp only [itemsTotal_cons, itemsFor_cons, Nat.add_mul] at i2 i3 i4 i5 ⊢
    refine ⟨?_, ?_, ?_, ?_, ?_⟩
    · intro q hq
      rcases List.mem_cons.1 hq with rfl | hq
      · exact hp0
      · exact i1 q hq
    · rw [i2, Nat.add_assoc]
    · rw [i3, Nat.add_assoc]
    · intro id
      rw [i4, claimOf_insert]
      by_cases h : p.1 = id
      · subst h
        rw [if_pos rfl, if_pos rfl, ← Nat.add_assoc]; simp only [claimOf]
      · rw [if_neg h, if_neg h, Nat.zero_mul, Nat.zero_add]
    · intro _
      rw [← Nat.add_assoc]
      by_cases hl : l = []
      · subst hl
        have h0 : itemsTotal [] = 0 := rfl
        rw [h0, Nat.zero_mul, Nat.add_zero]; exact hle
      · exact i5 hl

/-- The mpDAO loop succeeds when the items are positive and nothing overflows. -/
theorem dist_mpdao_succeeds : ∀ {l : List (String × Nat)} {s : State} {t : Nat},
    (∀ p ∈ l, 0 < p.2) → s.claimable_mpdao.sum (fun _ x => x) = s.total_unclaimed_mpdao →
    s.total_unclaimed_mpdao + itemsTotal l * E6 ≤ U128_MAX → t + itemsTotal l * E6 ≤ U128_MAX →
    ∃ r, l.foldlM State.distribute_mpdao_step (s, t) = .ok r
  | [], s, t, _, _, _, _ => ⟨_, foldlM_ok_nil.2 rfl⟩
  | p :: l, s, t, hp, hs, h1, h2 => by
    rw [itemsTotal_cons, Nat.add_mul] at h1 h2
    have hp0 : 0 < p.2 * E6 := Nat.mul_pos (hp p (by simp)) (by unfold E6; decide)
    have hc := claimOf_le_sum s.claimable_mpdao p.1
    unfold claimOf at hc
    have e3 : (s.claimable_mpdao.get p.1).getD 0 + p.2 * E6 ≤ U128_MAX := by
      rw [← hs] at h1
      exact le_trans (Nat.add_le_add_right hc _) (le_trans (Nat.add_le_add_left (Nat.le_add_right _ _) _) h1)
    have hsum := claims_sum_insert s.claimable_mpdao p.1 ((s.claimable_mpdao.get p.1).getD 0 + p.2 * E6)
    have hstep : State.distribute_mpdao_step (s, t) p = .ok ({ s with
        claimable_mpdao := s.claimable_mpdao.insert p.1 ((s.claimable_mpdao.get p.1).getD 0 + p.2 * E6)
        total_unclaimed_mpdao := s.total_unclaimed_mpdao + p.2 * E6 }, t + p.2 * E6) := by
      simp only [distribute_mpdao_step_eq, State.add_claimable_mpdao, add_claimable, bind_ok_iff,
        mulU128_ok_iff, addU128_ok_iff, pure_ok_iff, require_ok_iff, Prod.mk.injEq]
      generalize p.2 * E6 = q at *
      generalize itemsTotal l * E6 = q' at *
      exact ⟨q, ⟨le_trans (Nat.le_add_left _ _) e3, rfl⟩, _, ⟨(), hp0, _, ⟨_, ⟨e3, rfl⟩, _,
        ⟨by omega, rfl⟩, rfl⟩, rfl⟩, _, ⟨by omega, rfl⟩, rfl, rfl⟩
    generalize p.2 * E6 = q at *
    obtain ⟨r, hr⟩ := dist_mpdao_succeeds (l := l)
      (s := { s with
        claimable_mpdao := s.claimable_mpdao.insert p.1 ((s.claimable_mpdao.get p.1).getD 0 + q)
        total_unclaimed_mpdao := s.total_unclaimed_mpdao + q }) (t := t + q)
      (fun x hx => hp x (by simp [hx])) (by simp only; omega)
      (by rw [Nat.add_assoc]; exact h1) (by rw [Nat.add_assoc]; exact h2)
    exact ⟨r, foldlM_ok_cons.2 ⟨_, hstep, hr⟩⟩

/-- Effect of the stNEAR loop. -/
theorem dist_stnear_ok : ∀ {l : List (String × Nat)} {s : State} {t : Nat} {r : State × Nat},
    l.foldlM State.distribute_stnear_step (s, t) = .ok r →
    (∀ p ∈ l, 0 < p.2) ∧ r.2 = t + itemsTotal l * E20 ∧
    r.1 = { s with
      claimable_stnear := r.1.claimable_stnear
      total_unclaimed_stnear := s.total_unclaimed_stnear + itemsTotal l * E20 } ∧
    (∀ id, claimOf r.1.claimable_stnear id = claimOf s.claimable_stnear id + itemsFor id l * E20) ∧
    (l ≠ [] → s.total_unclaimed_stnear + itemsTotal l * E20 ≤ U128_MAX)
  | [], s, t, r, hx => by
    rw [foldlM_ok_nil] at hx
    subst hx
    simp [itemsTotal, itemsFor]
  | p :: l, s, t, r, hx => by
    rw [foldlM_ok_cons] at hx
    obtain ⟨⟨s1, t1⟩, h1, h2⟩ := hx
    obtain ⟨i1, i2, i3, i4, i5⟩ := dist_stnear_ok h2
    simp only [State.distribute_stnear_step, bind_ok_iff, mulU128_ok_iff, addU128_ok_iff, pure_ok_iff,
      Prod.mk.injEq] at h1
    obtain ⟨a, ⟨-, rfl⟩, s3, ha, t', ⟨-, rfl⟩, rfl, rfl⟩ := h1
    obtain ⟨hp, hle, rfl⟩ := add_claimable_stnear_ok ha
    have hp0 : 0 < p.2 := Nat.pos_of_mul_pos_right hp
    simp only [itemsTotal_cons, itemsFor_cons, Nat.add_mul] at i2 i3 i4 i5 ⊢
    refine ⟨?_, ?_, ?_, ?_, ?_⟩
    · intro q hq
      rcases List.mem_cons.1 hq with rfl | hq
      · exact hp0
      · exact i1 q hq
    · rw [i2, Nat.add_assoc]
    · rw [i3, Nat.add_assoc]
    · intro id
      rw [i4, claimOf_insert]
      by_cases h : p.1 = id
      · subst h
        rw [if_pos rfl, if_pos rfl, ← Nat.add_assoc]; simp only [claimOf]
      · rw [if_neg h, if_neg h, Nat.zero_mul, Nat.zero_add]
    · intro _
      rw [← Nat.add_assoc]
      by_cases hl : l = []
      · subst hl
        have h0 : itemsTotal [] = 0 := rfl
        rw [h0, Nat.zero_mul, Nat.add_zero]; exact hle
      · exact i5 hl

/-- The stNEAR loop succeeds when the items are positive and nothing overflows. -/
theorem dist_stnear_succeeds : ∀ {l : List (String × Nat)} {s : State} {t : Nat},
    (∀ p ∈ l, 0 < p.2) → s.claimable_stnear.sum (fun _ x => x) = s.total_unclaimed_stnear →
    s.total_unclaimed_stnear + itemsTotal l * E20 ≤ U128_MAX → t + itemsTotal l * E20 ≤ U128_MAX →
    ∃ r, l.foldlM State.distribute_stnear_step (s, t) = .ok r
  | [], s, t, _, _, _, _ => ⟨_, foldlM_ok_nil.2 rfl⟩
  | p :: l, s, t, hp, hs, h1, h2 => by
    rw [itemsTotal_cons, Nat.add_mul] at h1 h2
    have hp0 : 0 < p.2 * E20 := Nat.mul_pos (hp p (by simp)) (by decide)
    have hc := claimOf_le_sum s.claimable_stnear p.1
    unfold claimOf at hc
    have e3 : (s.claimable_stnear.get p.1).getD 0 + p.2 * E20 ≤ U128_MAX := by
      rw [← hs] at h1
      exact le_trans (Nat.add_le_add_right hc _) (le_trans (Nat.add_le_add_left (Nat.le_add_right _ _) _) h1)
    have hsum := claims_sum_insert s.claimable_stnear p.1 ((s.claimable_stnear.get p.1).getD 0 + p.2 * E20)
    have hstep : State.distribute_stnear_step (s, t) p = .ok ({ s with
        claimable_stnear := s.claimable_stnear.insert p.1 ((s.claimable_stnear.get p.1).getD 0 + p.2 * E20)
        total_unclaimed_stnear := s.total_unclaimed_stnear + p.2 * E20 }, t + p.2 * E20) := by
      simp only [State.distribute_stnear_step, State.add_claimable_stnear, add_claimable, bind_ok_iff,
        mulU128_ok_iff, addU128_ok_iff, pure_ok_iff, require_ok_iff, Prod.mk.injEq]
      generalize p.2 * E20 = q at *
      generalize itemsTotal l * E20 = q' at *
      exact ⟨q, ⟨le_trans (Nat.le_add_left _ _) e3, rfl⟩, _, ⟨(), hp0, _, ⟨_, ⟨e3, rfl⟩, _,
        ⟨by omega, rfl⟩, rfl⟩, rfl⟩, _, ⟨by omega, rfl⟩, rfl, rfl⟩
    generalize p.2 * E20 = q at *
    obtain ⟨r, hr⟩ := dist_stnear_succeeds (l := l)
      (s := { s with
        claimable_stnear := s.claimable_stnear.insert p.1 ((s.claimable_stnear.get p.1).getD 0 + q)
        total_unclaimed_stnear := s.total_unclaimed_stnear + q }) (t := t + q)
      (fun x hx => hp x (by simp [hx])) (by simp only; omega)
      (by rw [Nat.add_assoc]; exact h1) (by rw [Nat.add_assoc]; exact h2)
    exact ⟨r, foldlM_ok_cons.2 ⟨_, hstep, hr⟩⟩

/-- `has_prefix` decides the prefix relation when it does not panic. -/
theorem has_prefix_true {m p : List UInt8} (h : has_prefix m p = .ok true) : p <+: m := by
  unfold has_prefix at h
  split at h
  · simp only [bind_ok_iff, require_ok_iff, pure_ok_iff, decide_eq_true_eq] at h
    obtain ⟨-, -, h⟩ := h
    exact ⟨m.drop p.length, by conv_lhs => rw [← h]
                               rw [h]; conv_rhs => rw [← List.take_append_drop p.length m, h]⟩
  · simp [pure, Except.pure] at h

theorem has_prefix_false {m p : List UInt8} (h : has_prefix m p = .ok false) : ¬ p <+: m := by
  intro hp
  unfold has_prefix at h
  split at h
  · simp only [bind_ok_iff, require_ok_iff, pure_ok_iff, decide_eq_false_iff_not] at h
    obtain ⟨-, -, h⟩ := h
    exact h (List.prefix_iff_eq_take.1 hp).symm
  · rename_i hl; exact hl hp.length_le

theorem deposit_target_ok {s : State} {J : Json} {se : String} {m : List UInt8} {t : String × Nat}
    (h : s.deposit_target J se m = .ok t) :
    ([91] <+: m ∧ J.parse_pair m = some t ∧ se = s.owner_id) ∨
    (¬ [91] <+: m ∧ t.1 = se ∧ parse_u16 m = some t.2) := by
  simp only [State.deposit_target, bind_ok_iff] at h
  obtain ⟨b, hb, h⟩ := h
  cases b with
  | true =>
    simp only [if_true, bind_ok_iff, expect_ok_iff, require_ok_iff, pure_ok_iff] at h
    obtain ⟨p, hp, -, ho, rfl⟩ := h
    exact .inl ⟨has_prefix_true hb, hp, ho⟩
  | false =>
    simp only [Bool.false_eq_true, if_false, bind_ok_iff, expect_ok_iff, pure_ok_iff] at h
    obtain ⟨d, hd, rfl⟩ := h
    exact .inr ⟨has_prefix_false hb, rfl, hd⟩

theorem parse_pair_some {J : Json} {m : List UInt8} {t : String × Nat} (h : J.parse_pair m = some t) :
    J.pair m = some t ∧ t.2 ≤ U16_MAX := by
  unfold Json.parse_pair at h
  split at h
  · split at h
    · cases h; rename_i p hp hle; exact ⟨hp, hle⟩
    · simp at h
  · simp at h

theorem deposit_beneficiary {s : State} {J : Json} {se : String} {m : List UInt8} {t : String × Nat}
    (h : s.deposit_target J se m = .ok t) : beneficiary J se m = some t.1 := by
  rcases deposit_target_ok h with ⟨⟨r, rfl⟩, hp, -⟩ | ⟨hn, rfl, -⟩
  · simp only [List.cons_append, List.nil_append] at hp ⊢
    simp only [beneficiary, (parse_pair_some hp).1, Option.map_some]
  · unfold beneficiary
    split
    · rename_i t; exact absurd ⟨t, rfl⟩ hn
    · rfl

end Verif.MetaVote
