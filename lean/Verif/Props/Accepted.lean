import Verif.MetaVote.AcceptIff

/-!
# C76: a call is accepted exactly under its stated conditions
-/

namespace Verif.MetaVote

open Verif

section
variable {J : Json} {s : State} {c : Ctx}

/-- What is freed by a list of distinct indexes: the matured positions among them, whatever the order. -/
theorem C76_frees {now n : Nat} {l : List LockingPosition} {is : List Nat} (h : is.Nodup) :
    Frees now l is n ↔ (∀ i ∈ is, i < l.length) ∧
      n = ((is.filterMap (l[·]?)).map (fun p => if p.matured now then p.amount else 0)).sum := by
  rw [frees_iff]
  have hp : (Voter.sortDesc is).Perm is := List.perm_insertionSort _ _
  have hsum : ((is.filterMap (l[·]?)).map (fun p => if p.matured now then p.amount else 0)).sum
      = (((Voter.sortDesc is).filterMap (l[·]?)).map (fun p => if p.matured now then p.amount else 0)).sum :=
    ((hp.symm.filterMap _).map _).sum_nat
  rw [hsum]
  have hmem : (∀ i ∈ is, i < l.length) ↔ ∀ i ∈ Voter.sortDesc is, i < l.length :=
    ⟨fun h i hi => h i (hp.mem_iff.1 hi), fun h i hi => h i (hp.mem_iff.2 hi)⟩
  rw [hmem]
  have hpw := sortDesc_pairwise h
  generalize Voter.sortDesc is = r at hpw
  clear hsum hmem hp h
  induction r generalizing l n with
  | nil => simp [freed, eq_comm]
  | cons i r ih =>
    obtain ⟨hgt, hs'⟩ := List.pairwise_cons.1 hpw
    simp only [freed, List.filterMap_cons, List.forall_mem_cons]
    cases hp : l[i]? with
    | none =>
      have : ¬ i < l.length := by rw [List.getElem?_eq_none_iff] at hp; omega
      simp [this]
    | some p =>
      have hi := getElem?_lt hp
      simp only [List.map_cons, List.sum_cons, hi, true_and]
      by_cases hm : p.matured now
      · have hlen := swapRemove_length l i hi
        have hsame : r.filterMap ((swapRemove l i)[·]?) = r.filterMap (l[·]?) :=
          List.filterMap_congr fun j hj => by
            have hji : j < i := hgt j hj
            rw [swapRemove_get _ _ _ hi (by omega), if_neg (by omega)]
        have hlt : (∀ j ∈ r, j < (swapRemove l i).length) ↔ ∀ j ∈ r, j < l.length := by
          constructor
          · intro h j hj; have := h j hj; omega
          · intro h j hj; have := hgt j hj; omega
        rw [if_pos hm, if_pos hm, Option.map_eq_some_iff]
        simp only [ih hs', hsame, hlt]
        constructor
        · rintro ⟨n', ⟨h1, rfl⟩, rfl⟩; exact ⟨h1, rfl⟩
        · rintro ⟨h1, rfl⟩; exact ⟨_, ⟨h1, rfl⟩, rfl⟩
      · rw [if_neg hm, if_neg hm, Nat.zero_add]; exact ih hs'

/-! ## The property -/

/-- **C76** (vote maps as values): on every reachable state, a call is accepted exactly when `MayCall` holds. -/
theorem C76_accepted {me : AccountId} {w : World} (h : Reach J me w) {k : Call} :
    (∃ r, exec J w.st c k = .ok r) ↔ MayCall J w.st c k := by
  have hs := reach_sound h
  have hconf := fun e => (C21_confirm h.loose c e).1
  have hall := C25_accepted (J := J) (hs.balance c.predecessor)
  generalize w.st = s at hs hconf hall ⊢
  have hidx : ∀ {id : String} {l : List Nat}, (∀ i ∈ l, i < (s.positionsOf id).length) →
      l.all (fun i => decide (i ≤ U64_MAX)) = true := by
    intro id l hl
    rw [List.all_eq_true]
    intro i hi
    obtain ⟨p, hp⟩ : ∃ p, (s.positionsOf id)[i]? = some p := ⟨_, List.getElem?_eq_getElem (hl i hi)⟩
    exact decide_eq_true (index_small hs hp)
  cases k with
  | withdraw_all =>
    rw [hall, MayCall]
    simp only [get_balance_ok_iff]
    constructor
    · rintro ⟨h1, x, h2, h3, rfl⟩; exact ⟨h1, h2, h3⟩
    · rintro ⟨h1, h2, h3⟩; exact ⟨h1, _, h2, h3, rfl⟩
  | operator_confirm_delegated_evm_address e => exact hconf e
  | migration_create_lps id l d =>
    rw [exec_iff]
    simp only [run, quiet_iff, MayCall, Call.payable, Call.is_private, Call.in_range, List.all_eq_true,
      decide_eq_true_eq, Bool.false_eq_true, false_or, false_imp_iff, true_and, migration_iff hs]
    constructor
    · rintro ⟨h1, h2, h3, h4⟩; exact ⟨h1, h3, fun x hx => (h2 x hx).1, h4⟩
    · rintro ⟨h1, h3, h2, h4⟩
      refine ⟨h1, fun x hx => ⟨h2 x hx, ?_⟩, h3, h4⟩
      exact lockableAll_days h4 (x.1 / 10 ^ 18, x.2) (List.mem_map.2 ⟨x, hx, rfl⟩)
  | operator_mirror_lps e l =>
    rw [exec_iff]
    simp only [run, quiet_iff, MayCall, Call.payable, Call.is_private, Call.in_range, List.all_eq_true,
      decide_eq_true_eq, Bool.false_eq_true, false_or, false_imp_iff, true_and, mirror_iff hs]
    constructor
    · rintro ⟨h1, -, h3⟩; exact ⟨h1, h3⟩
    · rintro ⟨h1, h3, h4⟩
      refine ⟨h1, fun x hx => ?_, h3, h4⟩
      have h5 := h4.days x hx
      have h6 := h4.amounts x hx
      have : (3600 : Nat) ≤ U16_MAX := by decide
      have : x.2 * 1 ≤ x.2 * 10 ^ 18 := Nat.mul_le_mul_left _ (by decide)
      omega
  | new_ =>
    simp only [exec_iff, run, quiet_iff, new, MayCall, bind_ok_iff, require_ok_iff, iff_false]
    rintro ⟨-, -, -, _, _, h, -⟩; cases h
  | migrate =>
    simp only [exec_iff, run, quiet_iff, migrate, MayCall, bind_ok_iff, require_ok_iff, expect_ok_iff, iff_false]
    rintro ⟨-, -, -, _, _, -, _, h, -⟩; cases h
  | set_stnear_contract a | set_operator_id a | set_owner_id a | set_prev_gov_contract a =>
    rw [exec_iff]
    simp only [run, quiet_iff, MayCall, Call.payable, Call.is_private, Call.in_range, State.set_stnear_contract,
      State.set_operator_id, State.set_owner_id, State.set_prev_gov_contract, assert_one_yocto,
      State.assert_only_owner, bind_ok_iff, require_ok_iff, pure_ok_iff]
    constructor
    · rintro ⟨-, -, -, _, -, h1, -, h2, -⟩; exact ⟨h1, h2.symm⟩
    · rintro ⟨h1, h2⟩
      exact ⟨.inl trivial, fun h => (by simp at h), trivial, _, (), h1, (), h2.symm, rfl⟩
  | update_min_unbond_period d | update_max_unbond_period d =>
    rw [exec_iff]
    simp only [run, quiet_iff, MayCall, Call.payable, Call.is_private, Call.in_range, decide_eq_true_eq,
      State.update_min_unbond_period, State.update_max_unbond_period, assert_one_yocto,
      State.assert_only_owner, bind_ok_iff, require_ok_iff, pure_ok_iff]
    constructor
    · rintro ⟨-, -, h3, _, -, h1, -, h2, -⟩; exact ⟨h1, h2.symm, h3⟩
    · rintro ⟨h1, h2, h3⟩
      exact ⟨.inl trivial, fun h => (by simp at h), h3, _, (), h1, (), h2.symm, rfl⟩
  | update_registration_cost n =>
    rw [exec_iff]
    simp only [run, quiet_iff, MayCall, Call.payable, Call.is_private, Call.in_range, decide_eq_true_eq,
      State.update_registration_cost, State.assert_only_owner, bind_ok_iff, require_ok_iff, pure_ok_iff]
    constructor
    · rintro ⟨h1, -, h3, _, -, h2, -⟩; exact ⟨by simpa using h1, h2.symm, h3⟩
    · rintro ⟨h1, h2, h3⟩
      exact ⟨.inr h1, fun h => (by simp at h), h3, _, (), h2.symm, rfl⟩
  | set_lock_in_vote_filters e n a =>
    rw [exec_iff]
    simp only [run, quiet_iff, MayCall, Call.payable, Call.is_private, Call.in_range, decide_eq_true_eq,
      State.set_lock_in_vote_filters, State.assert_operator, bind_ok_iff, require_ok_iff, pure_ok_iff]
    constructor
    · rintro ⟨h1, -, h3, _, -, h2, -⟩; exact ⟨by simpa using h1, h2.symm, h3⟩
    · rintro ⟨h1, h2, h3⟩
      exact ⟨.inr h1, fun h => (by simp at h), h3, _, (), h2.symm, rfl⟩
  | update_airdrop_user_data d =>
    rw [exec_iff]
    simp only [run, quiet_iff, MayCall, Call.payable, Call.is_private, Call.in_range,
      State.update_airdrop_user_data, bind_ok_iff, require_ok_iff, pure_ok_iff]
    constructor
    · rintro ⟨-, -, -, _, -, h2, -⟩; exact h2
    · intro h1
      exact ⟨.inl trivial, fun h => (by simp at h), trivial, _, (), h1, rfl⟩
  | operator_multi_set_airdrop_data d =>
    rw [exec_iff]
    simp only [run, quiet_iff, MayCall, Call.payable, Call.is_private, Call.in_range,
      State.operator_multi_set_airdrop_data, State.assert_operator, bind_ok_iff, require_ok_iff, pure_ok_iff]
    constructor
    · rintro ⟨h1, -, -, _, -, h2, -⟩; exact ⟨by simpa using h1, h2.symm⟩
    · rintro ⟨h1, h2⟩
      exact ⟨.inr h1, fun h => (by simp at h), trivial, _, (), h2.symm, rfl⟩
  | pre_delegate_evm_address e g =>
    rw [exec_iff]
    simp only [run, quiet_iff, MayCall, Call.payable, Call.is_private, Call.in_range,
      State.pre_delegate_evm_address, assert_one_yocto, bind_ok_iff, require_ok_iff, pure_ok_iff]
    constructor
    · rintro ⟨-, -, -, _, -, h1, -, h2, -⟩; exact ⟨h1, h2⟩
    · rintro ⟨h1, h2⟩
      exact ⟨.inl trivial, fun h => (by simp at h), trivial, _, (), h1, (), h2, rfl⟩
  | operator_remove_pre_delegate_evm_address e =>
    rw [exec_iff]
    simp only [run, quiet_iff, MayCall, Call.payable, Call.is_private, Call.in_range,
      State.operator_remove_pre_delegate_evm_address, assert_one_yocto, State.assert_operator, bind_ok_iff,
      require_ok_iff, pure_ok_iff]
    constructor
    · rintro ⟨-, -, -, _, -, h1, -, h2, -⟩; exact ⟨h1, h2.symm⟩
    · rintro ⟨h1, h2⟩
      exact ⟨.inl trivial, fun h => (by simp at h), trivial, _, (), h1, (), h2.symm, rfl⟩
  | claim_stnear a =>
    rw [exec_iff]
    simp only [run, sends_iff, MayCall, Call.payable, Call.is_private, Call.in_range, decide_eq_true_eq,
      Bool.false_eq_true, false_or, false_imp_iff, true_and, State.claim_stnear, bind_ok_iff, pure_ok_iff,
      ← remove_stnear_iff hs]
    constructor
    · rintro ⟨h1, h2, _, s1, h3, -⟩; exact ⟨h1, h2, s1, h3⟩
    · rintro ⟨h1, h2, s1, h3⟩; exact ⟨h1, h2, _, s1, h3, rfl⟩
  | delegated_claim_stnear e a =>
    rw [exec_iff]
    simp only [run, sends_iff, MayCall, Call.payable, Call.is_private, Call.in_range, decide_eq_true_eq,
      Bool.false_eq_true, true_or, false_imp_iff, true_and, State.delegated_claim_stnear, bind_ok_iff, pure_ok_iff,
      delegate_iff, ← remove_stnear_iff hs]
    constructor
    · rintro ⟨h1, _, x, ⟨h2, rfl⟩, s1, h3, -⟩; exact ⟨h2, h1, s1, h3⟩
    · rintro ⟨h1, h2, s1, h3⟩; exact ⟨h2, _, _, ⟨h1, rfl⟩, s1, h3, rfl⟩
  | vote_delegated e n app obj =>
    rw [exec_iff]
    simp only [run, quiet_iff, MayCall, Call.payable, Call.is_private, Call.in_range, decide_eq_true_eq,
      Bool.false_eq_true, false_or, false_imp_iff, true_and, State.vote_delegated, bind_ok_iff,
      delegate_iff]
    constructor
    · rintro ⟨h1, -, s1, x, ⟨h2, rfl⟩, h3⟩; exact ⟨h1, h2, (vote_iff hs).1 ⟨s1, h3⟩⟩
    · rintro ⟨h1, h2, h3⟩
      have hb := h3.2.1
      have := hs.available (e ++ ".evmp.near")
      have := hs.total
      obtain ⟨s1, h3⟩ := (vote_iff hs (app := app) (obj := obj)).2 h3
      exact ⟨h1, by omega, s1, _, ⟨h2, rfl⟩, h3⟩
  | unvote_delegated e app obj =>
    rw [exec_iff]
    simp only [run, quiet_iff, MayCall, Call.payable, Call.is_private, Call.in_range,
      Bool.false_eq_true, false_or, false_imp_iff, true_and, State.unvote_delegated, bind_ok_iff,
      delegate_iff, ← unvote_iff hs]
    constructor
    · rintro ⟨h1, s1, x, ⟨h2, rfl⟩, h3⟩; exact ⟨h1, h2, s1, h3⟩
    · rintro ⟨h1, h2, s1, h3⟩; exact ⟨h1, s1, _, ⟨h2, rfl⟩, h3⟩
  | remove_delegated_evm_address e =>
    rw [exec_iff]
    simp only [run, quiet_iff, MayCall, Call.payable, Call.is_private, Call.in_range,
      Bool.false_eq_true, true_or, false_imp_iff, true_and, remove_delegated_iff hs]
  | claim_and_lock a d =>
    rw [exec_iff]
    simp only [run, quiet_iff, MayCall, Call.payable, Call.is_private, Call.in_range, decide_eq_true_eq,
      Bool.false_eq_true, false_or, false_imp_iff, true_and, claim_and_lock_iff hs]
    constructor
    · rintro ⟨h1, -, h2⟩; exact ⟨h1, h2⟩
    · rintro ⟨h1, h2⟩; exact ⟨h1, h2.2.2.2.range, h2⟩
  | unlock_position i =>
    rw [exec_iff]
    simp only [run, quiet_iff, MayCall, Call.payable, Call.is_private, Call.in_range, decide_eq_true_eq,
      Bool.false_eq_true, false_or, false_imp_iff, true_and, unlock_iff]
    constructor
    · rintro ⟨h1, -, h2⟩; exact ⟨h1, h2⟩
    · rintro ⟨h1, p, h2, h3⟩; exact ⟨h1, index_small hs h2, p, h2, h3⟩
  | unlock_partial_position i a =>
    rw [exec_iff]
    simp only [run, quiet_iff, MayCall, Call.payable, Call.is_private, Call.in_range, decide_eq_true_eq,
      Bool.false_eq_true, false_or, false_imp_iff, true_and, unlock_partial_iff hs]
    constructor
    · rintro ⟨h1, h2, h3⟩; exact ⟨h1, h2.2, h3⟩
    · rintro ⟨h1, h2, p, h3, h4⟩; exact ⟨h1, ⟨index_small hs h3, h2⟩, p, h3, h4⟩
  | locking_position_extend_days i d =>
    rw [exec_iff]
    simp only [run, quiet_iff, MayCall, Call.payable, Call.is_private, Call.in_range, decide_eq_true_eq,
      Bool.false_eq_true, false_or, false_imp_iff, true_and, extend_iff hs]
    constructor
    · rintro ⟨h1, -, h3⟩; exact ⟨h1, h3⟩
    · rintro ⟨h1, p, h2, h3, h4, h5, h6⟩
      have : (3600 : Nat) ≤ U16_MAX := by decide
      exact ⟨h1, ⟨index_small hs h2, by omega⟩, p, h2, h3, h4, h5, h6⟩
  | relock_position i d x =>
    rw [exec_iff]
    simp only [run, quiet_iff, MayCall, Call.payable, Call.is_private, Call.in_range, decide_eq_true_eq,
      Bool.false_eq_true, false_or, false_imp_iff, true_and, relock_iff hs]
    constructor
    · rintro ⟨h1, -, h3⟩; exact ⟨h1, h3⟩
    · rintro ⟨h1, h2, p, t, h3, h4, h5, h6⟩
      have := hs.balance c.predecessor
      exact ⟨h1, ⟨index_small hs h3, h6.range.2, by omega⟩, h2, p, t, h3, h4, h5, h6⟩
  | relock_partial_position i a d x =>
    rw [exec_iff]
    simp only [run, quiet_iff, MayCall, Call.payable, Call.is_private, Call.in_range, decide_eq_true_eq,
      Bool.false_eq_true, false_or, false_imp_iff, true_and, relock_partial_iff hs]
    constructor
    · rintro ⟨h1, -, h3⟩; exact ⟨h1, h3⟩
    · rintro ⟨h1, h2, h3, p, t, h4, h5, h6, h7⟩
      have := hs.balance c.predecessor
      have hr : x + a ≤ U128_MAX ∧ d ≤ U16_MAX := by
        rcases h7 with ⟨-, -, -, -, -, -, h⟩ | ⟨-, -, h⟩ <;> exact h.range
      exact ⟨h1, ⟨index_small hs h4, by omega, hr.2, by omega⟩, h2, h3, p, t, h4, h5, h6, h7⟩
  | relock_from_balance d x =>
    rw [exec_iff]
    simp only [run, quiet_iff, MayCall, Call.payable, Call.is_private, Call.in_range, decide_eq_true_eq,
      Bool.false_eq_true, false_or, false_imp_iff, true_and, relock_balance_iff hs]
    constructor
    · rintro ⟨h1, -, h3⟩; exact ⟨h1, h3⟩
    · rintro ⟨h1, h3⟩; exact ⟨h1, h3.2.2.2.range.symm, h3⟩
  | clear_locking_position l =>
    rw [exec_iff]
    simp only [run, quiet_iff, MayCall, Call.payable, Call.is_private, Call.in_range,
      Bool.false_eq_true, false_or, false_imp_iff, true_and, clear_position_iff hs]
    constructor
    · rintro ⟨h1, -, h3⟩; exact ⟨h1, h3⟩
    · rintro ⟨h1, h3, n, h4, h5⟩; exact ⟨h1, hidx (frees_lt h4), h3, n, h4, h5⟩
  | withdraw l a =>
    rw [exec_iff]
    simp only [run, sends_iff, MayCall, Call.payable, Call.is_private, Call.in_range, Bool.and_eq_true,
      decide_eq_true_eq, Bool.false_eq_true, true_or, false_imp_iff, true_and, withdraw_iff hs]
    constructor
    · rintro ⟨-, h3⟩; exact h3
    · rintro ⟨h3, n, h4, h5, h6⟩
      exact ⟨⟨hidx (frees_lt h4), by omega⟩, h3, n, h4, h5, h6⟩
  | vote n app obj =>
    rw [exec_iff]
    simp only [run, quiet_iff, MayCall, Call.payable, Call.is_private, Call.in_range, decide_eq_true_eq,
      Bool.false_eq_true, false_or, false_imp_iff, true_and, State.vote, vote_iff hs]
    constructor
    · rintro ⟨h1, -, h3⟩; exact ⟨h1, h3⟩
    · rintro ⟨h1, h3⟩
      have hb := h3.2.1
      have := hs.available c.predecessor
      have := hs.total
      exact ⟨h1, by omega, h3⟩
  | unvote app obj =>
    rw [exec_iff]
    simp only [run, quiet_iff, MayCall, Call.payable, Call.is_private, Call.in_range,
      Bool.false_eq_true, false_or, false_imp_iff, true_and, State.unvote, unvote_iff hs]
  | rebalance n app obj =>
    rw [exec_iff]
    simp only [run, quiet_iff, MayCall, Call.payable, Call.is_private, Call.in_range, decide_eq_true_eq,
      Bool.false_eq_true, false_or, false_imp_iff, true_and, rebalance_iff hs]
    constructor
    · rintro ⟨h1, -, h3⟩; exact ⟨h1, h3⟩
    · rintro ⟨h1, h3⟩
      have hb := h3.2.2.1
      have := hs.votes_le c.predecessor app obj
      have := hs.total
      exact ⟨h1, by omega, h3⟩
  | after_transfer_mpdao_callback id a =>
    rw [exec_iff]
    simp only [run, quiet_iff, MayCall, Call.payable, Call.is_private, Call.in_range, decide_eq_true_eq,
      Bool.false_eq_true, false_or, forall_const, callback_mp_iff]
  | after_transfer_stnear_callback id a =>
    rw [exec_iff]
    simp only [run, quiet_iff, MayCall, Call.payable, Call.is_private, Call.in_range, decide_eq_true_eq,
      Bool.false_eq_true, false_or, forall_const, callback_st_iff hs]
  | ft_on_transfer se a m =>
    rw [exec_iff]
    simp only [run, quiet_iff, MayCall, Call.payable, Call.is_private, Call.in_range, decide_eq_true_eq,
      Bool.false_eq_true, false_or, false_imp_iff, true_and, transfer_iff hs]
    constructor
    · rintro ⟨h1, h2, h3, h4⟩
      exact ⟨h1, h3, h4.imp (fun h => ⟨h.1, h2, h.2⟩) id⟩
    · rintro ⟨h1, h3, ⟨h4, h5, h6⟩ | ⟨h4, h5, h6, id, d, h7, h8⟩⟩
      · exact ⟨h1, h5, h3, .inl ⟨h4, h6⟩⟩
      · exact ⟨h1, h8.range.1, h3, .inr ⟨h4, h5, h6, id, d, h7, h8⟩⟩

end

/-! Calls on `demo`: alice has 60 mpDAO locked for 60 days, 10 mpDAO unlocking since the start, 35 of free power and
5 mpDAO to claim. -/

/-- Accepted: alice claims 2 mpDAO into a new position of 30 days. -/
example : ∃ r, exec demoJ demo.st ⟨"me", "alice", 0, 20000, []⟩ (.claim_and_lock 2000000 30) = .ok r := by
  refine (C76_accepted demo_reach).2 ⟨rfl, by decide +kernel, by decide +kernel, by
    unfold State.knows; decide +kernel, ⟨by decide +kernel, by decide +kernel, by decide, by decide, by decide +kernel,
    fun _ => by decide +kernel, ?_⟩⟩
  intro p hp
  have : (demo.st.positionsOf "alice").find? (isLockedFor 30) = none := by decide +kernel
  rw [this] at hp; cases hp

/-- Rejected: the same for 301 days. -/
example : ¬ ∃ r, exec demoJ demo.st ⟨"me", "alice", 0, 20000, []⟩ (.claim_and_lock 2000000 301) = .ok r := by
  intro h
  exact absurd ((C76_accepted demo_reach).1 h).2.2.2.2.max (by decide +kernel)

/-- Accepted: alice relocks after a moment, for longer than what is left of the 10 days. -/
example : ∃ r, exec demoJ demo.st ⟨"me", "alice", 0, 20000, []⟩ (.relock_position 1 11 0) = .ok r := by
  refine (C76_accepted demo_reach).2 ⟨rfl, by decide +kernel, ⟨10000000, 10, 1666666666666666666666666, some 0⟩,
    0, by decide +kernel, rfl, by decide, ⟨by decide +kernel, by decide +kernel, by decide, by decide, by decide +kernel,
    fun _ => by decide +kernel, ?_⟩⟩
  intro p hp
  have : (swapRemove (demo.st.positionsOf "alice") 1).find? (isLockedFor 11) = none := by decide +kernel
  rw [this] at hp; cases hp

/-- Rejected: for 10 days, exactly what is left. -/
example : ¬ ∃ r, exec demoJ demo.st ⟨"me", "alice", 0, 0, []⟩ (.relock_position 1 10 0) = .ok r := by
  intro h
  obtain ⟨-, -, p, t, hp, ht, hl, -⟩ := (C76_accepted demo_reach).1 h
  have h1 : (demo.st.positionsOf "alice")[1]? = some ⟨10000000, 10, 1666666666666666666666666, some 0⟩ := by
    decide +kernel
  rw [h1] at hp
  cases hp; cases ht
  exact absurd (hl (by decide)) (by decide)

/-- Accepted: carol removes the vote of the mirrored account. -/
example : ∃ r, exec demoJ demo.st ⟨"me", "carol", 0, 20000, []⟩ (.unvote_delegated "0xee" "app" "obj2") = .ok r := by
  refine (C76_accepted demo_reach).2 ⟨rfl, by decide +kernel, ?_, ?_, ?_⟩
  · rw [hasVote_iff]; decide +kernel
  · rw [keepsVote_iff]; decide +kernel
  · intro h; exact absurd h (by decide +kernel)

/-- Rejected: bob is not the delegate. -/
example : ¬ ∃ r, exec demoJ demo.st ⟨"me", "bob", 0, 20000, []⟩ (.unvote_delegated "0xee" "app" "obj2") = .ok r := by
  intro h
  exact absurd ((C76_accepted demo_reach).1 h).2.1 (by decide +kernel)

/-- Accepted once the 10 days are over: alice clears position 1. -/
example : ∃ r, exec demoJ demo.st ⟨"me", "alice", 0, 900000000000000, []⟩ (.clear_locking_position [0, 1]) = .ok r := by
  have h : Frees 900000000 (demo.st.positionsOf "alice") [0, 1] 10000000 :=
    (C76_frees (by decide)).2 ⟨by decide +kernel, by decide +kernel⟩
  have hb : (demo.st.voterD "alice").balance + 10000000 ≤ U128_MAX := by decide +kernel
  exact (C76_accepted demo_reach).2 ⟨rfl, by simp, _, h, hb⟩

/-- Rejected: index 1 twice, since after the first visit there is no position 1. -/
example : ¬ ∃ r, exec demoJ demo.st ⟨"me", "alice", 0, 900000000000000, []⟩ (.clear_locking_position [1, 1]) = .ok r := by
  intro h
  obtain ⟨-, -, n, hn, -⟩ := (C76_accepted demo_reach).1 h
  have hn : Frees 900000000 (demo.st.positionsOf "alice") [1, 1] n := hn
  rw [frees_iff] at hn
  have : freed 900000000 (demo.st.positionsOf "alice") (Voter.sortDesc [1, 1]) = none := by decide +kernel
  rw [this] at hn
  cases hn

/-- Rejected: mirroring to a power below the used power, with a vote of power zero on an object that has no total. -/
example : ¬ MayMirror mirrorZeroW.st ("0xa" ++ ".evmp.near") [(60, 1000000)] := by
  intro h
  obtain ⟨l, hl⟩ : ∃ l, takenVotes (mirrorZeroW.st.voterD ("0xa" ++ ".evmp.near")).vote_positions
      = ("app", "o", 0) :: l := ⟨[("app2", "o2", 75000000000000000000000000)], by decide +kernel⟩
  have hv := h.votes
  rw [hl] at hv
  have ht := (hv (by decide +kernel)).1 rfl
  rw [hasTotal_iff] at ht
  exact absurd ht (by decide +kernel)

end Verif.MetaVote
