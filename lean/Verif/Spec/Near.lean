import Verif.Mpip.Step
import Verif.MetaVote.Step

/-!
# Specification of the NEAR that calls take and send (C86)

In terms of the accepted calls and their arguments only.
-/

namespace Verif.Mpip

/-- NEAR that the admin ordered to be paid to `x`. -/
def ordered (x : AccountId) : List Entry → Nat
  | [] => 0
  | .call _ (.pay_to_account n y) _ :: l => (if y = x then n else 0) + ordered x l
  | _ :: l => ordered x l

/-- Calls that ask meta-vote. -/
def Call.asks : Call → Bool
  | .start_voting_period _ | .create_proposal _ | .vote_proposal .. => true
  | _ => false

/-- Number of calls that asked meta-vote. -/
def questions : List Entry → Nat
  | [] => 0
  | .call _ k _ :: l => (if k.asks then 1 else 0) + questions l
  | _ :: l => questions l

/-- Deposits attached to `create_proposal`. -/
def proposalDeposits : List Entry → Nat
  | [] => 0
  | .call c (.create_proposal _) _ :: l => c.deposit + proposalDeposits l
  | _ :: l => proposalDeposits l

end Verif.Mpip

namespace Verif.MetaVote

/-- Price of a call other than `delegated_claim_stnear`, in yoctoNEAR: the fee for user data; one yocto for what only an
account with a full access key may do; nothing for the rest. -/
def Call.price (fee : Nat) : Call → Nat
  | .update_airdrop_user_data _ => fee
  | .set_stnear_contract _ | .set_operator_id _ | .set_owner_id _ | .update_min_unbond_period _
  | .update_max_unbond_period _ | .set_prev_gov_contract _ | .withdraw .. | .withdraw_all | .pre_delegate_evm_address ..
  | .operator_remove_pre_delegate_evm_address _ | .operator_confirm_delegated_evm_address _
  | .remove_delegated_evm_address _ => 1
  | _ => 0

/-- Calls that pay tokens. -/
def Call.pays : Call → Bool
  | .withdraw .. | .withdraw_all | .claim_stnear _ | .delegated_claim_stnear .. => true
  | _ => false

/-- Calls that pay stNEAR. -/
def Call.paysStnear : Call → Bool
  | .claim_stnear _ | .delegated_claim_stnear .. => true
  | _ => false

/-- Number of accepted calls with a property. -/
def count (p : Call → Bool) : List Entry → Nat
  | [] => 0
  | .call _ k _ :: l => (if p k then 1 else 0) + count p l
  | _ :: l => count p l

end Verif.MetaVote
