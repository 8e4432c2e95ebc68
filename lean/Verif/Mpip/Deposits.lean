import Verif.Mpip.Step

/-!
# mpip contract: the NEAR it receives and sends
-/

namespace Verif.Mpip

open Verif

/-- Receiver of the NEAR that goes with a promise: `lib.rs:127`, and the contract that is asked (`lib.rs:180`, `218`,
`380`). -/
def Promise.payee : Promise → AccountId
  | .pay a _ => a
  | .ask a _ _ => a

/-- NEAR that goes with a promise: `lib.rs:127`, and one yocto with each question (`lib.rs:182`, `220`, `382`).  The
protocol gives it back to the contract if the receipt fails, which is not counted here. -/
def Promise.near : Promise → Nat
  | .pay _ n => n
  | .ask _ _ _ => 1

/-- NEAR sent to `x` with these promises. -/
def nearTo (x : AccountId) (l : List Promise) : Nat := ((l.filter (fun p => decide (p.payee = x))).map Promise.near).sum

/-- NEAR sent to `x` so far. -/
def sentTo (x : AccountId) : List Entry → Nat
  | [] => 0
  | .call _ _ out :: l => nearTo x out + sentTo x l
  | .replied .. :: l => sentTo x l

/-- NEAR received so far: the protocol moves the deposit of an accepted call to the contract.  That of a rejected call
goes back to the caller, and callbacks carry none (`lib.rs:184-187`). -/
def received : List Entry → Nat
  | [] => 0
  | .call c _ _ :: l => c.deposit + received l
  | .replied .. :: l => received l

end Verif.Mpip
