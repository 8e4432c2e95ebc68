import Verif.Props.Token
import Verif.Spec.TokenLedger

/-!
# C81: the token is the ledger that its calls describe
-/

namespace Verif.Token

open Verif

variable {s s' : State} {c : Ctx} {k : Call} {out : List Promise} {me : AccountId}

/-- The ledger of a state. -/
def State.ledger (s : State) : Ledger := ⟨s.accounts.get, s.total_supply, s.owner_id, fun a => a ∈ s.minters⟩

theorem shows_ledger (s : State) : Shows s s.ledger :=
  ⟨fun _ => rfl, fun a => by simp [State.storage_balance_of, State.ledger], rfl, rfl, fun _ => Iff.rfl⟩

/-- Same balances, supply, owner and minters. -/
structure Same (x y : Ledger) : Prop where
  balance : ∀ a, x.balance a = y.balance a
  supply : x.supply = y.supply
  owner : x.owner = y.owner
  minter : ∀ a, x.minter a ↔ y.minter a

theorem mem_swapRemove_idx {l : List AccountId} (hn : l.Nodup) {a : AccountId} (ha : a ∈ l) (b : AccountId) :
    b ∈ swapRemove l (l.idxOf a) ↔ b ≠ a ∧ b ∈ l := by
  have hi := List.idxOf_lt_length_of_mem ha
  have hp := swapRemove_perm l _ hi
  rw [List.getElem_idxOf hi] at hp
  have hn' := hp.nodup hn
  rw [List.nodup_cons] at hn'
  rw [hp.mem_iff, List.mem_cons]
  constructor
  · intro h; exact ⟨fun e => hn'.1 (e ▸ h), .inr h⟩
  · rintro ⟨h1, h2 | h2⟩
    · exact absurd h2 h1
    · exact h2

/-- The effect of an accepted call on the ledger. -/
theorem after_same (hn : s.minters.Nodup) (h : exec s c k = .ok (s', out)) : Same s'.ledger (s.ledger.after c k) := by
  simp only [exec, bind_ok_iff, require_ok_iff] at h
  obtain ⟨-, -, -, -, h⟩ := h
  cases k <;> simp only [bind_ok_iff, pure_ok_iff, Prod.mk.injEq] at h
  case set_owner_id a =>
    obtain ⟨_, h, rfl, -⟩ := h
    simp only [State.set_owner_id, bind_ok_iff, pure_ok_iff] at h
    obtain ⟨-, -, rfl⟩ := h
    exact ⟨fun _ => rfl, rfl, rfl, fun _ => Iff.rfl⟩
  case add_minter a =>
    obtain ⟨_, h, rfl, -⟩ := h
    simp only [State.add_minter, bind_ok_iff, pure_ok_iff] at h
    obtain ⟨-, -, -, -, -, -, rfl⟩ := h
    refine ⟨fun _ => rfl, rfl, rfl, fun b => ?_⟩
    simp only [State.ledger, Ledger.after, List.mem_append, List.mem_singleton]
    exact Or.comm
  case remove_minter a =>
    obtain ⟨_, h, rfl, -⟩ := h
    simp only [State.remove_minter, bind_ok_iff, require_ok_iff, pure_ok_iff] at h
    obtain ⟨-, -, -, -, -, ha, rfl⟩ := h
    exact ⟨fun _ => rfl, rfl, rfl, mem_swapRemove_idx hn ha⟩
  case assert_minter a =>
    obtain ⟨_, h, rfl, -⟩ := h
    exact ⟨fun _ => rfl, rfl, rfl, fun _ => Iff.rfl⟩
  case ft_mint n =>
    obtain ⟨_, h, rfl, -⟩ := h
    simp only [State.ft_mint, State.internal_deposit, State.internal_unwrap_balance_of, bind_ok_iff, expect_ok_iff,
      addU128_ok_iff, pure_ok_iff] at h
    obtain ⟨-, -, -, -, b, hb, _, ⟨-, rfl⟩, _, ⟨-, rfl⟩, rfl⟩ := h
    refine ⟨fun a => ?_, rfl, rfl, fun _ => Iff.rfl⟩
    simp only [State.ledger, Ledger.after, Ledger.credit, UMap.get_insert]
    by_cases ha : c.predecessor = a
    · subst ha; simp [hb]
    · simp [ha, Ne.symm ha]
  case ft_burn n =>
    obtain ⟨_, h, rfl, -⟩ := h
    simp only [State.ft_burn, State.internal_withdraw, State.internal_unwrap_balance_of, bind_ok_iff, expect_ok_iff,
      subU_ok_iff, pure_ok_iff] at h
    obtain ⟨-, -, b, hb, _, ⟨-, rfl⟩, _, ⟨-, rfl⟩, rfl⟩ := h
    refine ⟨fun a => ?_, rfl, rfl, fun _ => Iff.rfl⟩
    simp only [State.ledger, Ledger.after, Ledger.debit, UMap.get_insert]
    by_cases ha : c.predecessor = a
    · subst ha; simp [hb]
    · simp [ha, Ne.symm ha]
  case ft_transfer r n =>
    obtain ⟨_, h, rfl, -⟩ := h
    obtain ⟨-, hne, -, b, b', hb, -, -, hb', -, -, rfl⟩ := transfer_ok.1 h
    refine ⟨fun a => ?_, rfl, rfl, fun _ => Iff.rfl⟩
    simp only [State.ledger, Ledger.after, Ledger.debit, Ledger.credit, UMap.get_insert]
    by_cases hr : r = a
    · subst hr; simp [hb', Ne.symm hne]
    · by_cases ha : c.predecessor = a
      · subst ha; simp [hb, hr, hne]
      · simp [ha, hr, Ne.symm ha, Ne.symm hr]
  case ft_transfer_call r n m =>
    obtain ⟨_, h, rfl, -⟩ := h
    obtain ⟨-, hne, -, b, b', hb, -, -, hb', -, -, rfl⟩ := transfer_ok.1 h
    refine ⟨fun a => ?_, rfl, rfl, fun _ => Iff.rfl⟩
    simp only [State.ledger, Ledger.after, Ledger.debit, Ledger.credit, UMap.get_insert]
    by_cases hr : r = a
    · subst hr; simp [hb', Ne.symm hne]
    · by_cases ha : c.predecessor = a
      · subst ha; simp [hb, hr, hne]
      · simp [ha, hr, Ne.symm ha, Ne.symm hr]
  case ft_resolve_transfer a r n =>
    simp only [require_ok_iff] at h
    obtain ⟨-, -, x, h, rfl, -⟩ := h
    simp only [State.internal_ft_resolve_transfer] at h
    have href : s.ledger.refund r n c.result =
        min ((s.accounts.get r).getD 0) (min n (c.result.getD n)) := rfl
    simp only [Ledger.after, href]
    split at h
    · rename_i hpos
      simp only [bind_ok_iff, subU_ok_iff] at h
      obtain ⟨_, ⟨-, rfl⟩, h⟩ := h
      obtain ⟨b0, hb0⟩ : ∃ b0, s.accounts.get r = some b0 := by
        cases hg : s.accounts.get r with
        | none => rw [hg] at hpos; simp at hpos
        | some b0 => exact ⟨b0, rfl⟩
      split at h
      · rename_i b hb
        simp only [bind_ok_iff, addU128_ok_iff, subU_ok_iff, pure_ok_iff] at h
        obtain ⟨_, ⟨-, rfl⟩, _, -, rfl⟩ := h
        rw [UMap.get_insert] at hb
        obtain ⟨b1, hb1⟩ : ∃ b1, s.accounts.get a = some b1 := by
          split at hb
          · rename_i e; subst e; exact ⟨b0, hb0⟩
          · exact ⟨b, hb⟩
        have hm : s.ledger.balance a = some b1 := hb1
        simp only [hm]
        refine ⟨fun d => ?_, rfl, rfl, fun _ => Iff.rfl⟩
        simp only [State.ledger, Ledger.debit, Ledger.credit, UMap.get_insert, hb0, Option.getD_some]
        simp only [hb0, Option.getD_some] at hb
        by_cases hda : a = d
        · subst hda
          by_cases hra : r = a
          · subst hra
            simp only [if_true, Option.some.injEq] at hb
            simp [hb0, hb]
          · rw [if_neg hra] at hb
            rw [hb] at hb1; cases hb1
            simp [hb, Ne.symm hra]
        · by_cases hrd : r = d
          · subst hrd; simp [hda, Ne.symm hda, hb0]
          · simp [hda, hrd, Ne.symm hda, Ne.symm hrd]
      · rename_i hb
        simp only [bind_ok_iff, subU_ok_iff, pure_ok_iff] at h
        obtain ⟨_, ⟨-, rfl⟩, rfl⟩ := h
        rw [UMap.get_insert] at hb
        split at hb
        · simp at hb
        · rename_i hra
          have hm : s.ledger.balance a = none := hb
          simp only [hm]
          refine ⟨fun d => ?_, rfl, rfl, fun _ => Iff.rfl⟩
          simp only [State.ledger, Ledger.debit, Ledger.credit, UMap.get_insert, hb0, Option.getD_some]
          by_cases hda : a = d
          · subst hda; simp [hra, hb]
          · by_cases hrd : r = d
            · subst hrd; simp [Ne.symm hda, hb0]
            · simp [hrd, Ne.symm hda, Ne.symm hrd]
    · rename_i hpos
      have h0 : min ((s.accounts.get r).getD 0) (min n (c.result.getD n)) = 0 := by omega
      simp only [pure_ok_iff] at h
      rw [← h, h0]
      have key : Same s.ledger ((s.ledger.debit r 0).credit a 0) := by
        refine ⟨fun d => ?_, rfl, rfl, fun _ => Iff.rfl⟩
        simp only [Ledger.debit, Ledger.credit]
        split <;> split <;> simp
      split
      · exact key
      · exact ⟨key.balance, rfl, rfl, fun _ => Iff.rfl⟩
  case storage_deposit a o =>
    obtain ⟨x, h, rfl, -⟩ := h
    simp only [State.storage_deposit] at h
    simp only [Ledger.after]
    split at h
    · rename_i b hb
      simp only [pure_ok_iff] at h; rw [← h]
      have hm : s.ledger.balance (a.getD c.predecessor) = some b := hb
      simp only [hm]
      exact ⟨fun _ => rfl, rfl, rfl, fun _ => Iff.rfl⟩
    · rename_i hb
      simp only [State.internal_register_account, bind_ok_iff, pure_ok_iff] at h
      obtain ⟨-, -, _, ⟨-, -, rfl⟩, rfl⟩ := h
      have hm : s.ledger.balance (a.getD c.predecessor) = none := hb
      simp only [hm]
      refine ⟨fun d => ?_, rfl, rfl, fun _ => Iff.rfl⟩
      simp only [State.ledger, UMap.get_insert]
      by_cases hd : a.getD c.predecessor = d
      · subst hd; simp
      · simp [hd, Ne.symm hd]
  case storage_withdraw a =>
    obtain ⟨_, h, rfl, -⟩ := h
    simp only [State.storage_withdraw, bind_ok_iff, pure_ok_iff] at h
    obtain ⟨-, -, -, -, -, -, rfl⟩ := h
    exact ⟨fun _ => rfl, rfl, rfl, fun _ => Iff.rfl⟩
  case storage_unregister f =>
    obtain ⟨x, h, rfl, -⟩ := h
    simp only [State.internal_storage_unregister, bind_ok_iff] at h
    obtain ⟨-, -, h⟩ := h
    split at h
    · rename_i b hb
      split at h
      · simp only [bind_ok_iff, subU_ok_iff, pure_ok_iff] at h
        obtain ⟨_, ⟨-, rfl⟩, rfl⟩ := h
        refine ⟨fun d => ?_, ?_, rfl, fun _ => Iff.rfl⟩
        · simp only [State.ledger, Ledger.after, UMap.get_remove]
          by_cases hd : c.predecessor = d
          · subst hd; simp
          · simp [hd, Ne.symm hd]
        · simp only [State.ledger, Ledger.after, hb, Option.getD_some]
      · simp at h
    · rename_i hb
      simp only [pure_ok_iff] at h; rw [← h]
      refine ⟨fun d => ?_, ?_, rfl, fun _ => Iff.rfl⟩
      · simp only [State.ledger, Ledger.after]
        by_cases hd : d = c.predecessor
        · subst hd; simp [hb]
        · simp [hd]
      · simp [State.ledger, Ledger.after, hb]

/-- The promises of an accepted call. -/
theorem promises_eq (h : exec s c k = .ok (s', out)) : out = s.ledger.promises s.storage_cost c k ∧
    s'.storage_cost = s.storage_cost := by
  have hch := exec_change h
  have hcost : s'.storage_cost = s.storage_cost := by cases hch <;> rfl
  refine ⟨?_, hcost⟩
  simp only [exec, bind_ok_iff, require_ok_iff] at h
  obtain ⟨-, -, -, -, h⟩ := h
  cases k <;> simp only [bind_ok_iff, pure_ok_iff, Prod.mk.injEq] at h
  case storage_deposit a o =>
    obtain ⟨x, h, rfl, rfl⟩ := h
    simp only [State.storage_deposit] at h
    split at h
    · rename_i b hb
      simp only [pure_ok_iff] at h; rw [← h]
      simp [Ledger.promises, State.ledger, hb, pays]
    · rename_i hb
      simp only [State.internal_register_account, bind_ok_iff, pure_ok_iff] at h
      obtain ⟨-, -, _, ⟨-, -, rfl⟩, rfl⟩ := h
      simp [Ledger.promises, State.ledger, hb, pays]
  case storage_unregister f =>
    obtain ⟨x, h, rfl, rfl⟩ := h
    simp only [State.internal_storage_unregister, bind_ok_iff] at h
    obtain ⟨-, -, h⟩ := h
    split at h
    · rename_i b hb
      split at h
      · simp only [bind_ok_iff, subU_ok_iff, pure_ok_iff] at h
        obtain ⟨_, ⟨-, rfl⟩, rfl⟩ := h
        simp [Ledger.promises, State.ledger, hb, pays]
      · simp at h
    · rename_i hb
      simp only [pure_ok_iff] at h; rw [← h]
      simp [Ledger.promises, State.ledger, hb, pays]
  case ft_resolve_transfer a r n =>
    simp only [require_ok_iff] at h
    obtain ⟨-, -, x, h, -, rfl⟩ := h
    rfl
  all_goals
    obtain ⟨_, h, -, rfl⟩ := h
    rfl

/-- Ledgers that agree stay so. -/
theorem Same.after {x y : Ledger} (h : Same x y) : Same (x.after c k) (y.after c k) := by
  have hb : x.balance = y.balance := funext h.balance
  have hm : x.minter = y.minter := funext fun a => propext (h.minter a)
  obtain ⟨b1, s1, o1, m1⟩ := x
  obtain ⟨b2, s2, o2, m2⟩ := y
  obtain ⟨-, hs, ho, -⟩ := h
  simp only at hb hm hs ho
  subst hb hm hs ho
  exact ⟨fun _ => rfl, rfl, rfl, fun _ => Iff.rfl⟩

theorem Shows.same {x : Ledger} (h : Shows s x) : Same s.ledger x := by
  refine ⟨fun a => ?_, h.supply, h.owner, h.minter⟩
  have h1 := h.balance a
  have h2 := h.registered a
  simp only [State.ft_balance_of, State.storage_balance_of, Option.isSome_map] at h1 h2
  simp only [State.ledger]
  cases hx : s.accounts.get a <;> cases hy : x.balance a <;> simp_all

theorem Same.shows {x : Ledger} (h : Same s.ledger x) : Shows s x := by
  have h0 := shows_ledger s
  exact ⟨fun a => by rw [h0.balance, h.balance], fun a => by rw [h0.registered, h.balance], h.supply, h.owner, h.minter⟩

/-- C81: an accepted call changes balances, registrations, supply, owner and minters exactly as it says, and pays
and notifies exactly as it says. -/
theorem C81_call {w : World} {x : Ledger} (hr : Reach me w) (hx : Shows w.st x)
    (h : exec w.st c k = .ok (s', out)) : Shows s' (x.after c k) ∧
      out = x.promises w.st.storage_balance_bounds.1 c k ∧ s'.storage_balance_bounds = w.st.storage_balance_bounds := by
  have h1 := after_same hr.inv.nodup h
  have h2 : Same (w.st.ledger.after c k) (x.after c k) := hx.same.after
  refine ⟨Same.shows ⟨fun a => (h1.balance a).trans (h2.balance a), h1.supply.trans h2.supply,
    h1.owner.trans h2.owner, fun a => (h1.minter a).trans (h2.minter a)⟩, ?_, ?_⟩
  · rw [(promises_eq h).1]
    have hb : w.st.ledger.balance = x.balance := funext hx.same.balance
    obtain ⟨b, t, o, m⟩ := x
    simp only at hb
    subst hb
    cases k <;> rfl
  · simp [State.storage_balance_bounds, (promises_eq h).2]

theorem Ran.nodup {l : List (Ctx × Call)} (h : Ran s l s') (hn : s.minters.Nodup) : s'.minters.Nodup := by
  induction h with
  | nil => exact hn
  | cons h _ ih => exact ih ((exec_change h).minters_nodup hn)

/-- C81: over a whole history. -/
theorem C81_history {cost supply : Nat} {owner : AccountId} (h0 : new false true cost owner supply = .ok s)
    {l : List (Ctx × Call)} (h : Ran s l s') :
    Shows s' (l.foldl (fun x e => x.after e.1 e.2)
      ⟨fun a => if a = owner then some supply else none, supply, owner, fun _ => False⟩) := by
  obtain ⟨h1, h2, h3, h4, -⟩ := new_ok h0
  have hn : s.minters.Nodup := by simp [h4]
  have hs : Same s.ledger ⟨fun a => if a = owner then some supply else none, supply, owner, fun _ => False⟩ := by
    refine ⟨fun a => ?_, h2, h3, fun a => by simp [State.ledger, h4]⟩
    simp only [State.ledger, h1, UMap.get_insert]
    by_cases ha : owner = a
    · simp [ha]
    · simp [ha, Ne.symm ha]
  clear h0 h1 h2 h3 h4
  generalize (⟨fun a => if a = owner then some supply else none, supply, owner, fun _ => False⟩ : Ledger) = x at hs ⊢
  induction h generalizing x with
  | nil => exact hs.shows
  | @cons s s1 s2 c k out l h hl ih =>
    have h1 := after_same hn h
    have h2 : Same (s.ledger.after c k) (x.after c k) := hs.after
    refine ih ((exec_change h).minters_nodup hn) _ ⟨fun a => (h1.balance a).trans (h2.balance a),
      h1.supply.trans h2.supply, h1.owner.trans h2.owner, fun a => (h1.minter a).trans (h2.minter a)⟩

/-- A reached world with two users, a minter and two outstanding transfer-calls, and calls it accepts. -/
example : Reach "tok" demo ∧ Shows demo.st demo.st.ledger ∧
    (exec demo.st ⟨"tok", "alice", 1, none⟩ (.ft_transfer "dex" 20)).isOk = true ∧
    (exec demo.st ⟨"tok", "alice", 1, none⟩ (.remove_minter "bob")).isOk = true ∧
    (exec demo.st ⟨"tok", "bob", 8, none⟩ (.storage_deposit none none)).isOk = true :=
  ⟨demo_reach, shows_ledger _, by decide +kernel, by decide +kernel, by decide +kernel⟩

/-- What the ledger says of them: the transfer, and 3 of the 8 paid back. -/
example : (demo.st.ledger.after ⟨"tok", "alice", 1, none⟩ (.ft_transfer "dex" 20)).balance "dex" = some 120 ∧
    (demo.st.ledger.after ⟨"tok", "alice", 1, none⟩ (.ft_transfer "dex" 20)).balance "alice" = some 900 ∧
    demo.st.ledger.promises 5 ⟨"tok", "bob", 8, none⟩ (.storage_deposit none none) = [.pay "bob" 3] := by
  decide +kernel

/-- A history from the initialization. -/
example : ∃ s', Ran start.st [(⟨"tok", "bob", 5, none⟩, .storage_deposit none none),
    (⟨"tok", "alice", 1, none⟩, .ft_transfer "bob" 30)] s' ∧ s'.ft_balance_of "bob" = 30 := by
  refine ⟨((exec ((exec start.st ⟨"tok", "bob", 5, none⟩ (.storage_deposit none none)).getOr (start.st, [])).1
    ⟨"tok", "alice", 1, none⟩ (.ft_transfer "bob" 30)).getOr (start.st, [])).1, ?_, by decide +kernel⟩
  refine .cons (s1 := ((exec start.st ⟨"tok", "bob", 5, none⟩ (.storage_deposit none none)).getOr (start.st, [])).1)
    (out := []) rfl (.cons (out := []) rfl .nil)

end Verif.Token
