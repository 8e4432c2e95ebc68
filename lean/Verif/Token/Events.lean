import Verif.Token.Model

/-!
# The lines that the token writes

The events of the standard for fungible tokens (`FtMint`, `FtBurn`, `FtTransfer`) and the plain lines of `lib.rs`.  Memos are dropped.
Those of `FungibleToken` are modelled after its published source, as in `Verif/Token/Model`.
-/

namespace Verif.Token

open Verif

/-- A line of the log. -/
inductive Line where
  /-- `FtMint` -/
  | mint (owner : AccountId) (amount : Nat)
  /-- `FtBurn` -/
  | burn (owner : AccountId) (amount : Nat)
  /-- `FtTransfer` -/
  | transfer (old_owner new_owner : AccountId) (amount : Nat)
  /-- `The account of the sender was deleted` (`internal_ft_resolve_transfer`) -/
  | deleted
  /-- `Account @{} burned {}` (`lib.rs:219`) -/
  | burned (account : AccountId) (amount : Nat)
  /-- `The account is already registered, refunding the deposit` (`storage_deposit`) -/
  | already
  /-- `The account {} is not registered` (`internal_storage_unregister`) -/
  | unknown (account : AccountId)
  /-- `Closed @{} with {}` (`lib.rs:245`) -/
  | closed (account : AccountId) (balance : Nat)
  deriving DecidableEq

/-- What `new` writes (`lib.rs:91-96`). -/
def newLines (owner_id : AccountId) (total_supply : Nat) : List Line := [.mint owner_id total_supply]

/-- What `internal_ft_resolve_transfer` and `ft_resolve_transfer` (`lib.rs:215-220`) write. -/
def State.resolveLines (s : State) (c : Ctx) (sender receiver : AccountId) (amount : Nat) : List Line :=
  let unused := min amount (c.result.getD amount)
  let receiver_balance := (s.accounts.get receiver).getD 0
  if 0 < unused ∧ 0 < receiver_balance then
    let refund := min receiver_balance unused
    match (s.accounts.insert receiver (receiver_balance - refund)).get sender with
    | some _ => [.transfer receiver sender refund]
    | none => [.deleted, .burn receiver refund] ++ (if 0 < refund then [.burned sender refund] else [])
  else []

/-- What an accepted call writes: `ft_mint` (`lib.rs:156-161`), `ft_burn` (`lib.rs:170-175`), `internal_transfer` in transfers,
`storage_deposit`, `storage_unregister` (`lib.rs:244-245`). -/
def State.lines (s : State) (c : Ctx) : Call → List Line
  | .ft_mint n => [.mint c.predecessor n]
  | .ft_burn n => [.burn c.predecessor n]
  | .ft_transfer r n | .ft_transfer_call r n _ => [.transfer c.predecessor r n]
  | .ft_resolve_transfer a r n => s.resolveLines c a r n
  | .storage_unregister _ => match s.accounts.get c.predecessor with
    | some b => [.closed c.predecessor b]
    | none => [.unknown c.predecessor]
  | .storage_deposit a _ => match s.accounts.get (a.getD c.predecessor) with
    | some _ => [.already]
    | none => []
  | _ => []

/-- Executions with what they write, oldest first.  A call that panics writes nothing. -/
inductive Writes (me : AccountId) : World → List Line → Prop
  | init (cost : Nat) (owner : AccountId) (supply : Nat) (s : State) (hs : supply ≤ U128_MAX)
      (h : new false true cost owner supply = .ok s) : Writes me ⟨s, []⟩ (newLines owner supply)
  | call {w : World} {l : List Line} (hw : Writes me w l) (c : Ctx) (k : Call) (s' : State) (out : List Promise)
      (hme : c.current = me) (hpr : c.predecessor ≠ me) (h : exec w.st c k = .ok (s', out)) :
      Writes me ⟨s', w.pending ++ notified out⟩ (l ++ w.st.lines c k)
  | resolve {w : World} {l : List Line} (hw : Writes me w l) (pre post : List Pending) (p : Pending) (r : Option Nat)
      (hp : w.pending = pre ++ p :: post) :
      Writes me ⟨((exec w.st ⟨me, me, 0, r⟩ (.ft_resolve_transfer p.sender p.receiver p.amount)).getOr (w.st, [])).1, pre ++ post⟩
        (l ++ if Res.isOk (exec w.st ⟨me, me, 0, r⟩ (.ft_resolve_transfer p.sender p.receiver p.amount)) then
          w.st.lines ⟨me, me, 0, r⟩ (.ft_resolve_transfer p.sender p.receiver p.amount) else [])

end Verif.Token
