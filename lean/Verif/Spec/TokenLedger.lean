import Verif.Token.Model

/-!
# The ledger of the token

What users of the token count on, as a plain ledger: who is registered with which balance, the supply, the owner
and the minters.  Nothing here is used by the model.
-/

namespace Verif.Token

open Verif

/-- A ledger. -/
structure Ledger where
  /-- the balance of an account, if it is registered -/
  balance : AccountId → Option Nat
  supply : Nat
  owner : AccountId
  minter : AccountId → Prop

/-- The ledger that the views of a state show. -/
structure Shows (s : State) (x : Ledger) : Prop where
  balance : ∀ a, s.ft_balance_of a = (x.balance a).getD 0
  registered : ∀ a, (s.storage_balance_of a).isSome = (x.balance a).isSome
  supply : s.ft_total_supply = x.supply
  owner : s.get_owner_id = x.owner
  minter : ∀ a, a ∈ s.get_minters ↔ x.minter a

/-- `n` more for `a`, if `a` is registered. -/
def Ledger.credit (x : Ledger) (a : AccountId) (n : Nat) : Ledger :=
  { x with balance := fun b => if b = a then (x.balance b).map (· + n) else x.balance b }

/-- `n` less for `a`, if `a` is registered. -/
def Ledger.debit (x : Ledger) (a : AccountId) (n : Nat) : Ledger :=
  { x with balance := fun b => if b = a then (x.balance b).map (· - n) else x.balance b }

/-- The refund of a transfer-call: what the receiver reports unused (everything if it fails), as far as it still
has it. -/
def Ledger.refund (x : Ledger) (receiver : AccountId) (amount : Nat) (result : Option Nat) : Nat :=
  min ((x.balance receiver).getD 0) (min amount (result.getD amount))

/-- The ledger after an accepted call. -/
def Ledger.after (x : Ledger) (c : Ctx) : Call → Ledger
  | .set_owner_id a => { x with owner := a }
  | .add_minter a => { x with minter := fun b => b = a ∨ x.minter b }
  | .remove_minter a => { x with minter := fun b => b ≠ a ∧ x.minter b }
  | .assert_minter _ => x
  | .ft_mint n => { x.credit c.predecessor n with supply := x.supply + n }
  | .ft_burn n => { x.debit c.predecessor n with supply := x.supply - n }
  | .ft_transfer r n => (x.debit c.predecessor n).credit r n
  | .ft_transfer_call r n _ => (x.debit c.predecessor n).credit r n
  | .ft_resolve_transfer a r n =>
    let y := (x.debit r (x.refund r n c.result)).credit a (x.refund r n c.result)
    match x.balance a with
    | some _ => y
    | none => { y with supply := x.supply - x.refund r n c.result }
  | .storage_deposit a _ =>
    match x.balance (a.getD c.predecessor) with
    | some _ => x
    | none => { x with balance := fun b => if b = a.getD c.predecessor then some 0 else x.balance b }
  | .storage_withdraw _ => x
  | .storage_unregister _ =>
    { x with
      balance := fun b => if b = c.predecessor then none else x.balance b
      supply := x.supply - (x.balance c.predecessor).getD 0 }

/-- What an accepted call pays back in NEAR, and whom it notifies; `cost` is the price of an account. -/
def Ledger.promises (x : Ledger) (cost : Nat) (c : Ctx) : Call → List Promise
  | .ft_transfer_call r n m => [.notify c.predecessor r n m]
  | .storage_deposit a _ =>
    let back := match x.balance (a.getD c.predecessor) with
      | some _ => c.deposit
      | none => c.deposit - cost
    if back = 0 then [] else [.pay c.predecessor back]
  | .storage_unregister _ =>
    match x.balance c.predecessor with
    | some _ => [.pay c.predecessor (cost + 1)]
    | none => []
  | _ => []

/-- Accepted calls in order, with the resolutions of transfer-calls among them. -/
inductive Ran : State → List (Ctx × Call) → State → Prop
  | nil {s : State} : Ran s [] s
  | cons {s s1 s2 : State} {c : Ctx} {k : Call} {out : List Promise} {l : List (Ctx × Call)}
      (h : exec s c k = .ok (s1, out)) (hl : Ran s1 l s2) : Ran s ((c, k) :: l) s2

end Verif.Token
