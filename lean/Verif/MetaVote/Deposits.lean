import Verif.MetaVote.Step

/-!
# meta-vote contract: the NEAR it receives and sends
-/

namespace Verif.MetaVote

open Verif

/-- NEAR that goes with a transfer: one yocto, to the token contract (`withdraw.rs:69`, `withdraw.rs:116`).  The protocol
gives it back to the contract if the receipt fails, which is not counted here. -/
def Transfer.near (_ : Transfer) : Nat := 1

/-- NEAR sent so far. -/
def sent : List Entry → Nat
  | [] => 0
  | .call _ _ out :: l => (out.map Transfer.near).sum + sent l
  | .resolved .. :: l => sent l

/-- NEAR received so far: the protocol moves the deposit of an accepted call to the contract.  That of a rejected call
goes back to the caller, and callbacks carry none (`withdraw.rs:71-75`, `withdraw.rs:118-122`). -/
def received : List Entry → Nat
  | [] => 0
  | .call c _ _ :: l => c.deposit + received l
  | .resolved .. :: l => received l

end Verif.MetaVote
