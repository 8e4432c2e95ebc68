import Verif.Spec.SmallAccept
import Verif.Props.Token
import Verif.Props.Kv

/-!
# C78: exactly which calls the test token and the key-value store accept
-/

namespace Verif.Kv

open Verif

/-- C78: in every state, the store accepts a call exactly if `MayCall` says so. -/
theorem C78_kv (s : State) (c : Ctx) (k : Call) : (∃ r, exec s c k = .ok r) ↔ MayCall s c k := by
  cases k <;>
  · simp only [exec, MayCall, Call.payable, State.set_operator_id, State.set_owner_id, State.set_value, State.set_values,
      State.remove_value, State.assert_one_yocto, State.assert_only_owner, State.assert_operator, State.get_owner_id,
      State.get_operator_id, bind_ok_iff, require_ok_iff, pure_ok_iff, true_or, true_and, Bool.false_eq_true, false_or]
    constructor
    · intro h
      obtain ⟨r, h⟩ := h
      first
        | (obtain ⟨-, s', ⟨-, h1, -, h2, -⟩, -⟩ := h; exact ⟨h1, h2.symm⟩)
        | (obtain ⟨-, h1, s', ⟨-, h2, -⟩, -⟩ := h; exact ⟨h1, h2.symm⟩)
        | (obtain ⟨-, h1, -, h2, -⟩ := h; exact ⟨h1, h2.symm⟩)
    · rintro ⟨h1, h2⟩
      first
        | exact ⟨_, (), _, ⟨(), h1, (), h2.symm, rfl⟩, rfl⟩
        | exact ⟨_, (), h1, _, ⟨(), h2.symm, rfl⟩, rfl⟩
        | exact ⟨_, (), h1, (), h2.symm, rfl⟩

/-- In a state with values: the operator of the day may write, the former one may not. -/
example : Reach "own" "op" demo ∧ MayCall demo.st ⟨"op2", 0⟩ (.remove_value "c") ∧
    ¬ MayCall demo.st ⟨"op", 0⟩ (.remove_value "c") ∧ ¬ MayCall demo.st ⟨"op2", 1⟩ (.set_value "c" "v") := by
  refine ⟨demo_reach, ?_, ?_, ?_⟩ <;> unfold MayCall <;> decide +kernel

end Verif.Kv

namespace Verif.Token

open Verif

variable {me : AccountId} {w : World}

theorem holds_iff {s : State} {a : AccountId} : s.holds a ↔ ∃ b, s.accounts.get a = some b := by
  unfold State.holds State.storage_balance_of
  cases s.accounts.get a <;> simp

/-- Two different balances fit. -/
theorem two_fit {s : State} (hs : Sound s) {a y : AccountId} (hd : a ≠ y) :
    s.ft_balance_of a + s.ft_balance_of y ≤ U128_MAX := by
  have e1 := held_remove s.accounts a
  have e2 := held_remove (s.accounts.remove a) y
  simp only [UMap.get_remove, if_neg hd] at e2
  have := hs.1
  have := hs.2
  unfold held at *
  unfold State.ft_balance_of
  omega

theorem transfer_iff {s : State} (hs : Sound s) {c : Ctx} {r : AccountId} {n : Nat} :
    (∃ s', s.ft_transfer c r n = .ok s') ↔ c.deposit = 1 ∧ c.predecessor ≠ r ∧ 0 < n ∧
      n ≤ s.ft_balance_of c.predecessor ∧ s.holds r := by
  have hb := bal_le_held s c.predecessor
  unfold bal at hb
  simp only [State.ft_transfer, assert_one_yocto, State.internal_transfer, State.internal_withdraw,
    State.internal_deposit, State.internal_unwrap_balance_of, bind_ok_iff, require_ok_iff, expect_ok_iff,
    addU128_ok_iff, subU_ok_iff, pure_ok_iff, holds_iff]
  constructor
  · rintro ⟨_, -, h1, -, h2, -, h3, s1, ⟨b, hb1, _, ⟨h4, -⟩, _, ⟨h5, rfl⟩, rfl⟩, b', hb', -⟩
    simp only [UMap.get_insert, if_neg h2] at hb'
    exact ⟨h1, h2, h3, by simpa [State.ft_balance_of, hb1] using h4, b', hb'⟩
  · rintro ⟨h1, h2, h3, h4, b', hb'⟩
    have hf := two_fit hs h2
    have hs1 := hs.1
    have hs2 := hs.2
    cases hg : s.accounts.get c.predecessor with
    | none => simp [State.ft_balance_of, hg] at h4; omega
    | some b =>
      simp only [State.ft_balance_of, hg, hb', Option.getD_some] at h4 hf hb
      exact ⟨_, (), h1, (), h2, (), h3, _, ⟨b, rfl, _, ⟨h4, rfl⟩, _, ⟨by omega, rfl⟩, rfl⟩, b',
        by simp only [UMap.get_insert, if_neg h2]; exact hb', _, ⟨by omega, rfl⟩, _, ⟨by simp only; omega, rfl⟩, rfl⟩

theorem resolve_defined {s : State} (hs : Sound s) (c : Ctx) (a y : AccountId) (n : Nat) :
    ∃ x, s.internal_ft_resolve_transfer c a y n = .ok x := by
  have hy := bal_le_held s y
  have hs1 := hs.1
  have hs2 := hs.2
  unfold bal at hy
  unfold State.internal_ft_resolve_transfer
  by_cases hp : 0 < min n (c.result.getD n) ∧ 0 < (s.accounts.get y).getD 0
  · simp only [if_pos hp]
    by_cases hd : a = y
    · subst hd
      simp only [UMap.get_insert, if_true, bind_ok_iff, subU_ok_iff, addU128_ok_iff, pure_ok_iff]
      exact ⟨_, _, ⟨by omega, rfl⟩, _, ⟨by omega, rfl⟩, _, ⟨by omega, rfl⟩, rfl⟩
    · have hf := two_fit hs hd
      simp only [UMap.get_insert, if_neg (Ne.symm hd)]
      cases ha : s.accounts.get a with
      | some b =>
        simp only [State.ft_balance_of, ha, Option.getD_some] at hf
        simp only [bind_ok_iff, subU_ok_iff, addU128_ok_iff, pure_ok_iff]
        exact ⟨_, _, ⟨by omega, rfl⟩, _, ⟨by omega, rfl⟩, _, ⟨by omega, rfl⟩, rfl⟩
      | none =>
        simp only [bind_ok_iff, subU_ok_iff, pure_ok_iff]
        exact ⟨_, _, ⟨by omega, rfl⟩, _, ⟨by omega, rfl⟩, rfl⟩
  · simp only [if_neg hp]
    exact ⟨_, rfl⟩

/-- C78: in every state the token can reach, it accepts a call exactly if `MayCall` says so. -/
theorem C78_token (h : Reach me w) (c : Ctx) (k : Call) : (∃ r, exec w.st c k = .ok r) ↔ MayCall w.st c k := by
  have hs := h.inv.sound
  have hs1 := hs.1
  have hs2 := hs.2
  have hb := bal_le_held w.st c.predecessor
  unfold bal at hb
  cases k with
  | set_owner_id a =>
    simp only [exec, MayCall, State.set_owner_id, State.assert_owner_calling, State.get_owner_id, Call.payable,
      Call.in_range, bind_ok_iff, require_ok_iff, pure_ok_iff, true_or, true_and]
    constructor
    · rintro ⟨_, -, -, _, ⟨-, h1, -⟩, -⟩; exact h1
    · intro h1; exact ⟨_, (), (), _, ⟨(), h1, rfl⟩, rfl⟩
  | add_minter a =>
    simp only [exec, MayCall, State.add_minter, State.assert_owner_calling, State.get_owner_id, Call.payable,
      Call.in_range, bind_ok_iff, require_ok_iff, pure_ok_iff, true_or, true_and, assert_one_yocto, State.get_minters]
    constructor
    · rintro ⟨_, -, -, _, ⟨-, h1, -, h2, -, h3, -⟩, -⟩; exact ⟨h1, h2, h3⟩
    · rintro ⟨h1, h2, h3⟩; exact ⟨_, (), (), _, ⟨(), h1, (), h2, (), h3, rfl⟩, rfl⟩
  | remove_minter a =>
    simp only [exec, MayCall, State.remove_minter, State.assert_owner_calling, State.get_owner_id, Call.payable,
      Call.in_range, bind_ok_iff, require_ok_iff, pure_ok_iff, true_or, true_and, assert_one_yocto, State.get_minters]
    constructor
    · rintro ⟨_, -, -, _, ⟨-, h1, -, h2, -, h3, -⟩, -⟩; exact ⟨h1, h2, h3⟩
    · rintro ⟨h1, h2, h3⟩; exact ⟨_, (), (), _, ⟨(), h1, (), h2, (), h3, rfl⟩, rfl⟩
  | assert_minter a =>
    simp only [exec, MayCall, State.assert_minter, Call.payable, Call.in_range, bind_ok_iff, require_ok_iff,
      pure_ok_iff, Bool.false_eq_true, false_or, true_and, State.get_minters]
    constructor
    · rintro ⟨_, -, h1, -, -, h2, -⟩; exact ⟨h1, h2⟩
    · rintro ⟨h1, h2⟩; exact ⟨_, (), h1, (), (), h2, rfl⟩
  | ft_mint n =>
    rw [C65_mint_accepted h]
    simp only [MayCall, holds_iff, Option.isSome_iff_exists]
  | ft_burn n =>
    simp only [exec, MayCall, State.ft_burn, State.internal_withdraw, State.internal_unwrap_balance_of, assert_one_yocto,
      Call.payable, Call.in_range, decide_eq_true_eq, bind_ok_iff, require_ok_iff, expect_ok_iff, subU_ok_iff,
      pure_ok_iff, true_or, true_and, holds_iff, State.ft_balance_of]
    constructor
    · rintro ⟨_, -, -, h0, _, ⟨-, h1, b, h2, _, ⟨h3, -⟩, -⟩, -⟩
      exact ⟨h1, ⟨b, h2⟩, by simpa [h2] using h3⟩
    · rintro ⟨h1, ⟨b, h2⟩, h3⟩
      simp only [h2, Option.getD_some] at h3 hb
      exact ⟨_, (), (), by omega, _, ⟨(), h1, b, h2, _, ⟨h3, rfl⟩, _, ⟨by omega, rfl⟩, rfl⟩, rfl⟩
  | ft_transfer r n =>
    simp only [exec, MayCall, Call.payable, Call.in_range, decide_eq_true_eq, bind_ok_iff, require_ok_iff, pure_ok_iff,
      true_or, true_and, ← transfer_iff hs]
    constructor
    · rintro ⟨_, -, -, h0, s', h1, -⟩; exact ⟨s', h1⟩
    · rintro ⟨s', h1⟩
      have := (transfer_iff hs).1 ⟨s', h1⟩
      unfold State.ft_balance_of at this
      exact ⟨_, (), (), by omega, s', h1, rfl⟩
  | ft_transfer_call r n m =>
    simp only [exec, MayCall, Call.payable, Call.in_range, decide_eq_true_eq, bind_ok_iff, require_ok_iff, pure_ok_iff,
      true_or, true_and, ← transfer_iff hs]
    constructor
    · rintro ⟨_, -, -, h0, s', h1, -⟩; exact ⟨s', h1⟩
    · rintro ⟨s', h1⟩
      have := (transfer_iff hs).1 ⟨s', h1⟩
      unfold State.ft_balance_of at this
      exact ⟨_, (), (), by omega, s', h1, rfl⟩
  | ft_resolve_transfer a y n =>
    simp only [exec, MayCall, Call.payable, Call.in_range, decide_eq_true_eq, bind_ok_iff, require_ok_iff, pure_ok_iff,
      Bool.false_eq_true, false_or]
    constructor
    · rintro ⟨_, -, h1, -, h2, -, h3, -⟩; exact ⟨h1, h3, h2⟩
    · rintro ⟨h1, h3, h2⟩
      obtain ⟨x, hx⟩ := resolve_defined hs c a y n
      exact ⟨_, (), h1, (), h2, (), h3, x, hx, rfl⟩
  | storage_deposit a b =>
    simp only [exec, MayCall, State.storage_deposit, State.internal_register_account, State.storage_balance_bounds,
      Call.payable, Call.in_range, bind_ok_iff, require_ok_iff, pure_ok_iff, true_or, true_and, holds_iff]
    cases hg : w.st.accounts.get (a.getD c.predecessor) with
    | some b => simp [pure, Except.pure]
    | none =>
      simp only [bind_ok_iff, require_ok_iff, pure_ok_iff, reduceCtorEq, exists_false, false_or]
      constructor
      · rintro ⟨_, -, -, _, ⟨-, h1, -⟩, -⟩; exact h1
      · intro h1; exact ⟨_, (), (), _, ⟨(), h1, _, ⟨(), trivial, rfl⟩, rfl⟩, rfl⟩
  | storage_withdraw n =>
    simp only [exec, MayCall, State.storage_withdraw, assert_one_yocto, Call.payable, Call.in_range, bind_ok_iff,
      require_ok_iff, pure_ok_iff, true_or, true_and, holds_iff, Option.isSome_iff_exists]
    constructor
    · rintro ⟨_, -, -, _, ⟨-, h1, -, h2, -, h3, -⟩, -⟩; exact ⟨h1, h2, h3⟩
    · rintro ⟨h1, h2, h3⟩; exact ⟨_, (), (), _, ⟨(), h1, (), h2, (), h3, rfl⟩, rfl⟩
  | storage_unregister f =>
    simp only [exec, MayCall, State.internal_storage_unregister, assert_one_yocto, Call.payable, Call.in_range,
      bind_ok_iff, require_ok_iff, pure_ok_iff, true_or, true_and, State.ft_balance_of]
    have hf : f.getD false = true ↔ f = some true := by cases f <;> simp
    cases hg : w.st.accounts.get c.predecessor with
    | none =>
      simp only [pure_ok_iff, Option.getD_none, true_or, and_true]
      constructor
      · rintro ⟨_, -, -, _, ⟨-, h1, -⟩, -⟩; exact h1
      · intro h1; exact ⟨_, (), (), _, ⟨(), h1, rfl⟩, rfl⟩
    | some b =>
      simp only [hg, Option.getD_some] at hb
      simp only [Option.getD_some, hf]
      by_cases hp : b = 0 ∨ f = some true
      · simp only [if_pos hp, bind_ok_iff, subU_ok_iff, pure_ok_iff, and_iff_left hp]
        constructor
        · rintro ⟨_, -, -, _, ⟨-, h1, -⟩, -⟩; exact h1
        · intro h1; exact ⟨_, (), (), _, ⟨(), h1, _, ⟨by omega, rfl⟩, rfl⟩, rfl⟩
      · simp [hp]

/-- Accepted and rejected calls in a reachable state with two holders, a minter and two outstanding resolutions. -/
example : Reach "tok" demo ∧
    MayCall demo.st ⟨"tok", "dex", 1, none⟩ (.ft_transfer "alice" 100) ∧
    ¬ MayCall demo.st ⟨"tok", "dex", 1, none⟩ (.ft_transfer "alice" 101) ∧
    ¬ MayCall demo.st ⟨"tok", "dex", 1, none⟩ (.ft_transfer "bob" 100) ∧
    MayCall demo.st ⟨"tok", "dex", 1, none⟩ (.storage_unregister (some true)) ∧
    ¬ MayCall demo.st ⟨"tok", "dex", 1, none⟩ (.storage_unregister none) ∧
    MayCall demo.st ⟨"tok", "carol", 1, none⟩ (.storage_unregister none) ∧
    MayCall demo.st ⟨"tok", "carol", 5, none⟩ (.storage_deposit none none) ∧
    ¬ MayCall demo.st ⟨"tok", "carol", 4, none⟩ (.storage_deposit none none) ∧
    MayCall demo.st ⟨"tok", "carol", 4, none⟩ (.storage_deposit (some "dex") none) := by
  refine ⟨demo_reach, ?_, ?_, ?_, ?_, ?_, ?_, ?_, ?_, ?_⟩ <;> unfold MayCall <;> (try unfold State.holds) <;> decide +kernel

end Verif.Token
