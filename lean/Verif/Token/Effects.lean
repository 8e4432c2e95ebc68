import Verif.Token.Model

/-! # What accepted calls to the token do -/

namespace Verif.Token

open Verif

variable {s s' : State} {c : Ctx} {k : Call} {out : List Promise}

/-- The balances of a state (0 for accounts that are not registered). -/
def bal (s : State) (a : AccountId) : Nat := (s.accounts.get a).getD 0

/-- Sum of all balances. -/
def held (s : State) : Nat := s.accounts.sum (fun _ n => n)

/-- Refund of a transfer-call: what the receiver did not use, as far as it still has it. -/
def refundOf (s : State) (receiver : AccountId) (amount : Nat) (result : Option Nat) : Nat :=
  min (bal s receiver) (min amount (result.getD amount))

/-- All effects. -/
inductive Change (s : State) (c : Ctx) : Call → State → Prop
  | same {k : Call} : Change s c k s
  | owner {a : AccountId} (h : c.predecessor = s.owner_id) : Change s c (.set_owner_id a) { s with owner_id := a }
  | added {a : AccountId} (hd : c.deposit = 1) (h : c.predecessor = s.owner_id) (hn : a ∉ s.minters) :
      Change s c (.add_minter a) { s with minters := s.minters ++ [a] }
  | removed {a : AccountId} (hd : c.deposit = 1) (h : c.predecessor = s.owner_id) (hn : a ∈ s.minters) :
      Change s c (.remove_minter a) { s with minters := swapRemove s.minters (s.minters.idxOf a) }
  | minted {n b : Nat} (hm : c.predecessor ∈ s.minters) (hb : s.accounts.get c.predecessor = some b)
      (h1 : b + n ≤ U128_MAX) (h2 : s.total_supply + n ≤ U128_MAX) : Change s c (.ft_mint n)
        { s with accounts := s.accounts.insert c.predecessor (b + n), total_supply := s.total_supply + n }
  | burned {n b : Nat} (hb : s.accounts.get c.predecessor = some b) (h1 : n ≤ b) (h2 : n ≤ s.total_supply) :
      Change s c (.ft_burn n)
        { s with accounts := s.accounts.insert c.predecessor (b - n), total_supply := s.total_supply - n }
  | moved {k : Call} {r : AccountId} {n b b' : Nat} (hk : k = .ft_transfer r n ∨ ∃ m, k = .ft_transfer_call r n m)
      (hne : c.predecessor ≠ r) (hpos : 0 < n) (hb : s.accounts.get c.predecessor = some b) (h1 : n ≤ b)
      (h2 : n ≤ s.total_supply) (hr : s.accounts.get r = some b') (h3 : b' + n ≤ U128_MAX) :
      Change s c k { s with accounts := (s.accounts.insert c.predecessor (b - n)).insert r (b' + n) }
  | refunded {a r : AccountId} {n b : Nat} (hpr : c.predecessor = c.current) (hne : a ≠ r)
      (hpos : 0 < refundOf s r n c.result) (hb : s.accounts.get a = some b) (h : b + refundOf s r n c.result ≤ U128_MAX) :
      Change s c (.ft_resolve_transfer a r n) { s with accounts :=
        (s.accounts.insert r (bal s r - refundOf s r n c.result)).insert a (b + refundOf s r n c.result) }
  | self {a : AccountId} {n : Nat} (hpr : c.predecessor = c.current)
      (hpos : 0 < refundOf s a n c.result) :
      Change s c (.ft_resolve_transfer a a n) { s with accounts :=
        (s.accounts.insert a (bal s a - refundOf s a n c.result)).insert a (bal s a) }
  | forfeited {a r : AccountId} {n : Nat} (hpr : c.predecessor = c.current) (hpos : 0 < refundOf s r n c.result)
      (hb : s.accounts.get a = none) (h : refundOf s r n c.result ≤ s.total_supply) :
      Change s c (.ft_resolve_transfer a r n) { s with
        accounts := s.accounts.insert r (bal s r - refundOf s r n c.result)
        total_supply := s.total_supply - refundOf s r n c.result }
  | registered {a : Option AccountId} {o : Option Bool} (hn : s.accounts.get (a.getD c.predecessor) = none)
      (hd : s.storage_cost ≤ c.deposit) : Change s c (.storage_deposit a o)
        { s with accounts := s.accounts.insert (a.getD c.predecessor) 0 }
  | closed {f : Option Bool} {b : Nat} (hb : s.accounts.get c.predecessor = some b) (h0 : b = 0 ∨ f = some true)
      (h : b ≤ s.total_supply) : Change s c (.storage_unregister f)
        { s with accounts := s.accounts.remove c.predecessor, total_supply := s.total_supply - b }

theorem exec_ok : exec s c k = .ok (s', out) → (k.payable = true ∨ c.deposit = 0) ∧ k.in_range = true := by
  intro h
  simp only [exec, bind_ok_iff, require_ok_iff] at h
  obtain ⟨-, h1, -, h2, -⟩ := h
  exact ⟨h1, h2⟩

theorem transfer_ok {r : AccountId} {n : Nat} : s.ft_transfer c r n = .ok s' ↔ c.deposit = 1 ∧ c.predecessor ≠ r ∧
    0 < n ∧ ∃ b b', s.accounts.get c.predecessor = some b ∧ n ≤ b ∧ n ≤ s.total_supply ∧ s.accounts.get r = some b' ∧
      b' + n ≤ U128_MAX ∧ s.total_supply ≤ U128_MAX ∧
      s' = { s with accounts := (s.accounts.insert c.predecessor (b - n)).insert r (b' + n) } := by
  simp only [State.ft_transfer, assert_one_yocto, State.internal_transfer, State.internal_withdraw,
    State.internal_deposit, State.internal_unwrap_balance_of, bind_ok_iff, require_ok_iff, expect_ok_iff, subU_ok_iff,
    addU128_ok_iff, pure_ok_iff]
  constructor
  · rintro ⟨-, h0, -, h1, -, h2, s1, ⟨b, hb, b1, ⟨h3, rfl⟩, t1, ⟨h4, rfl⟩, rfl⟩, b', hb', b2, ⟨h5, rfl⟩, t2, ⟨h6, rfl⟩,
      rfl⟩
    simp only [UMap.get_insert, h1, if_false] at hb'
    refine ⟨h0, h1, h2, b, b', hb, h3, h4, hb', h5, by simp only at h6; omega, ?_⟩
    simp only [State.mk.injEq, true_and, and_true]
    omega
  · rintro ⟨h0, h1, h2, b, b', hb, h3, h4, hr, h5, h6, rfl⟩
    refine ⟨(), h0, (), h1, (), h2, _, ⟨b, hb, _, ⟨h3, rfl⟩, _, ⟨h4, rfl⟩, rfl⟩, b', ?_, _, ⟨h5, rfl⟩, _, ⟨?_, rfl⟩, ?_⟩
    · simp [UMap.get_insert, h1, hr]
    · simp only; omega
    · simp only [State.mk.injEq, true_and, and_true]; omega

theorem exec_change (h : exec s c k = .ok (s', out)) : Change s c k s' := by
  simp only [exec, bind_ok_iff, require_ok_iff] at h
  obtain ⟨-, -, -, -, h⟩ := h
  cases k <;> simp only [bind_ok_iff, pure_ok_iff, Prod.mk.injEq] at h
  case set_owner_id a =>
    obtain ⟨_, h, rfl, -⟩ := h
    simp only [State.set_owner_id, State.assert_owner_calling, bind_ok_iff, require_ok_iff, pure_ok_iff] at h
    obtain ⟨-, h, rfl⟩ := h
    exact .owner h
  case add_minter a =>
    obtain ⟨_, h, rfl, -⟩ := h
    simp only [State.add_minter, assert_one_yocto, State.assert_owner_calling, bind_ok_iff, require_ok_iff,
      pure_ok_iff] at h
    obtain ⟨-, h1, -, h2, -, h3, rfl⟩ := h
    exact .added h1 h2 h3
  case remove_minter a =>
    obtain ⟨_, h, rfl, -⟩ := h
    simp only [State.remove_minter, assert_one_yocto, State.assert_owner_calling, bind_ok_iff, require_ok_iff,
      pure_ok_iff] at h
    obtain ⟨-, h1, -, h2, -, h3, rfl⟩ := h
    exact .removed h1 h2 h3
  case assert_minter a =>
    obtain ⟨_, h, rfl, -⟩ := h
    exact .same
  case ft_mint n =>
    obtain ⟨_, h, rfl, -⟩ := h
    simp only [State.ft_mint, assert_one_yocto, State.assert_minter, State.internal_deposit,
      State.internal_unwrap_balance_of, bind_ok_iff, require_ok_iff, expect_ok_iff, addU128_ok_iff, pure_ok_iff] at h
    obtain ⟨-, h1, -, h2, b, hb, _, ⟨h3, rfl⟩, _, ⟨h4, rfl⟩, rfl⟩ := h
    exact .minted h2 hb h3 h4
  case ft_burn n =>
    obtain ⟨_, h, rfl, -⟩ := h
    simp only [State.ft_burn, assert_one_yocto, State.internal_withdraw,
      State.internal_unwrap_balance_of, bind_ok_iff, require_ok_iff, expect_ok_iff, subU_ok_iff, pure_ok_iff] at h
    obtain ⟨-, h1, b, hb, _, ⟨h3, rfl⟩, _, ⟨h4, rfl⟩, rfl⟩ := h
    exact .burned hb h3 h4
  case ft_transfer r n =>
    obtain ⟨_, h, rfl, -⟩ := h
    obtain ⟨-, h1, h2, b, b', h3, h4, h5, h6, h7, -, rfl⟩ := transfer_ok.1 h
    exact .moved (.inl rfl) h1 h2 h3 h4 h5 h6 h7
  case ft_transfer_call r n m =>
    obtain ⟨_, h, rfl, -⟩ := h
    obtain ⟨-, h1, h2, b, b', h3, h4, h5, h6, h7, -, rfl⟩ := transfer_ok.1 h
    exact .moved (.inr ⟨m, rfl⟩) h1 h2 h3 h4 h5 h6 h7
  case ft_resolve_transfer a r n =>
    simp only [require_ok_iff] at h
    obtain ⟨-, hpr, x, h, rfl, -⟩ := h
    simp only [State.internal_ft_resolve_transfer] at h
    split at h
    · rename_i hpos
      have hR : 0 < refundOf s r n c.result := by
        unfold refundOf bal
        omega
      simp only [bind_ok_iff, subU_ok_iff] at h
      obtain ⟨_, ⟨-, rfl⟩, h⟩ := h
      split at h
      · rename_i b hb
        simp only [bind_ok_iff, addU128_ok_iff, subU_ok_iff, pure_ok_iff] at h
        obtain ⟨_, ⟨h1, rfl⟩, _, -, rfl⟩ := h
        rw [UMap.get_insert] at hb
        by_cases hra : r = a
        · subst hra
          simp only [if_true, Option.some.injEq] at hb
          have he : b + min ((s.accounts.get r).getD 0) (min n (c.result.getD n)) = bal s r := by
            unfold bal; omega
          rw [he]
          exact .self hpr hR
        · rw [if_neg hra] at hb
          exact .refunded hpr (fun e => hra e.symm) hR hb h1
      · rename_i hb
        simp only [bind_ok_iff, subU_ok_iff, pure_ok_iff] at h
        obtain ⟨_, ⟨h1, rfl⟩, rfl⟩ := h
        rw [UMap.get_insert] at hb
        split at hb
        · simp at hb
        · exact .forfeited hpr hR hb h1
    · simp only [pure_ok_iff] at h
      rw [← h]; exact .same
  case storage_deposit a o =>
    obtain ⟨x, h, rfl, -⟩ := h
    simp only [State.storage_deposit] at h
    split at h
    · simp only [pure_ok_iff] at h; rw [← h]; exact .same
    · rename_i hn
      simp only [State.internal_register_account, bind_ok_iff, require_ok_iff, pure_ok_iff] at h
      obtain ⟨-, h1, _, ⟨-, -, rfl⟩, rfl⟩ := h
      exact .registered hn h1
  case storage_withdraw a =>
    obtain ⟨_, h, rfl, -⟩ := h
    simp only [State.storage_withdraw, assert_one_yocto, bind_ok_iff, require_ok_iff, pure_ok_iff] at h
    obtain ⟨-, -, -, -, -, -, rfl⟩ := h
    exact .same
  case storage_unregister f =>
    obtain ⟨x, h, rfl, -⟩ := h
    simp only [State.internal_storage_unregister, assert_one_yocto, bind_ok_iff, require_ok_iff] at h
    obtain ⟨-, -, h⟩ := h
    split at h
    · rename_i b hb
      split at h
      · rename_i h0
        simp only [bind_ok_iff, subU_ok_iff, pure_ok_iff] at h
        obtain ⟨_, ⟨h1, rfl⟩, rfl⟩ := h
        refine .closed hb ?_ h1
        rcases h0 with h0 | h0
        · exact .inl h0
        · right; cases f <;> simp_all
      · simp at h
    · simp only [pure_ok_iff] at h; rw [← h]; exact .same

/-! ## Sums -/

theorem held_insert (m : UMap AccountId Nat) (a : AccountId) (n : Nat) :
    (m.insert a n).sum (fun _ n => n) + (m.get a).getD 0 = m.sum (fun _ n => n) + n := by
  have h := UMap.sum_insert m (fun _ n => n) a n
  unfold UMap.at' at h
  cases hg : m.get a with
  | none => simpa [hg] using h
  | some b => simpa [hg] using h

theorem held_remove (m : UMap AccountId Nat) (a : AccountId) :
    (m.remove a).sum (fun _ n => n) + (m.get a).getD 0 = m.sum (fun _ n => n) := by
  have h := UMap.sum_remove m (fun _ n => n) a
  unfold UMap.at' at h
  cases hg : m.get a with
  | none => simpa [hg] using h
  | some b => simpa [hg] using h

theorem bal_le_held (s : State) (a : AccountId) : bal s a ≤ held s := by
  have := held_remove s.accounts a
  unfold bal held; omega

/-- Supply and balances agree, and fit. -/
def Sound (s : State) : Prop := s.total_supply = held s ∧ s.total_supply ≤ U128_MAX

theorem Change.sound (h : Change s c k s') (hs : Sound s) : Sound s' := by
  obtain ⟨h1, h2⟩ := hs
  unfold Sound held at *
  cases h with
  | same => exact ⟨h1, h2⟩
  | owner => exact ⟨h1, h2⟩
  | added => exact ⟨h1, h2⟩
  | removed => exact ⟨h1, h2⟩
  | @minted n b hm hb h3 h4 =>
    have := held_insert s.accounts c.predecessor (b + n)
    simp only [hb, Option.getD_some] at this ⊢
    omega
  | @burned n b hb h3 h4 =>
    have := held_insert s.accounts c.predecessor (b - n)
    simp only [hb, Option.getD_some] at this ⊢
    omega
  | @moved _ r n b b' hk hne hpos hb h3 h4 hr h5 =>
    have e1 := held_insert s.accounts c.predecessor (b - n)
    have e2 := held_insert (s.accounts.insert c.predecessor (b - n)) r (b' + n)
    simp only [UMap.get_insert, if_neg hne, hb, hr, Option.getD_some] at e1 e2 ⊢
    omega
  | @refunded a r n b hpr hne hpos hb h3 =>
    have e1 := held_insert s.accounts r (bal s r - refundOf s r n c.result)
    have e2 := held_insert (s.accounts.insert r (bal s r - refundOf s r n c.result)) a (b + refundOf s r n c.result)
    have hle : refundOf s r n c.result ≤ bal s r := Nat.min_le_left _ _
    have hba : (s.accounts.get r).getD 0 = bal s r := rfl
    simp only [UMap.get_insert, if_neg (Ne.symm hne), hb, Option.getD_some] at e1 e2 ⊢
    omega
  | @self a n hpr hpos =>
    have e1 := held_insert s.accounts a (bal s a - refundOf s a n c.result)
    have e2 := held_insert (s.accounts.insert a (bal s a - refundOf s a n c.result)) a (bal s a)
    have hba : (s.accounts.get a).getD 0 = bal s a := rfl
    simp only [UMap.get_insert, if_true, Option.getD_some] at e1 e2 ⊢
    omega
  | @forfeited a r n hpr hpos hb h3 =>
    have e1 := held_insert s.accounts r (bal s r - refundOf s r n c.result)
    have hle : refundOf s r n c.result ≤ bal s r := Nat.min_le_left _ _
    have hba : (s.accounts.get r).getD 0 = bal s r := rfl
    simp only at e1 ⊢
    omega
  | @registered a o hn hd =>
    have e1 := held_insert s.accounts (a.getD c.predecessor) 0
    simp only [hn, Option.getD_none] at e1 ⊢
    omega
  | @closed f b hb h0 h3 =>
    have e1 := held_remove s.accounts c.predecessor
    simp only [hb, Option.getD_some] at e1 ⊢
    omega

end Verif.Token
