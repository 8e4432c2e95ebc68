import Verif.MetaVote.Step

/-!
# Specification of the delegation of EVM addresses

What the history of accepted calls says about one EVM address: the account that asked for it and has not
been answered, and the account it is delegated to.  Only calls are looked at, no state.
-/

namespace Verif.MetaVote

open Verif

/-- Standing of one EVM address: requested by, delegated to. -/
structure Standing where
  requested : Option AccountId
  delegate : Option AccountId
  deriving DecidableEq

/-- How one accepted call of `c` moves the standing of `e`. -/
def standingAfter (c : Ctx) (e : String) (d : Standing) : Call → Standing
  | .pre_delegate_evm_address e' _ => if e' = e then { d with requested := some c.predecessor } else d
  | .operator_remove_pre_delegate_evm_address e' => if e' = e then { d with requested := none } else d
  | .operator_confirm_delegated_evm_address e' =>
    if e' = e ∧ d.requested.isSome then ⟨none, d.requested⟩ else d
  | .remove_delegated_evm_address e' => if e' = e then { d with delegate := none } else d
  | _ => d

/-- Standing of `e` according to a log (newest entry first). -/
def standing (e : String) : List Entry → Standing
  | [] => ⟨none, none⟩
  | .call c k _ :: l => standingAfter c e (standing e l) k
  | .resolved .. :: l => standing e l

/-- The call mentions `e` in a way that may change its delegate or its request. -/
def touchesRequest (e : String) : Call → Bool
  | .pre_delegate_evm_address e' _ => e' = e
  | .operator_remove_pre_delegate_evm_address e' => e' = e
  | .operator_confirm_delegated_evm_address e' => e' = e
  | _ => false

end Verif.MetaVote
