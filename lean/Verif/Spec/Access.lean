import Verif.MetaVote.Step

/-!
# Specification of privileges and configuration

Which calls need which caller, and what each call may do to the configuration.
-/

namespace Verif.MetaVote

open Verif

/-- The configuration of the contract. -/
structure Config where
  owner : AccountId
  operator : AccountId
  minUnbond : Nat
  maxUnbond : Nat
  minDeposit : Nat
  maxPositions : Nat
  maxApps : Nat
  mpdao : AccountId
  stnear : AccountId
  registrationCost : Nat
  prevGovernance : String
  lockInEnd : Nat
  lockInApp : Option String
  lockInNumber : Nat
  deriving DecidableEq

/-- Configuration of a state. -/
def State.config (s : State) : Config :=
  ⟨s.owner_id, s.operator_id, s.min_unbond_period, s.max_unbond_period, s.min_deposit_amount,
    s.max_locking_positions, s.max_voting_positions, s.mpdao_token_contract_address,
    s.stnear_token_contract_address, s.registration_cost, s.prev_governance_contract,
    s.lock_votes_in_end_timestamp_ms, s.lock_votes_in_address, s.lock_votes_in_numeric_id⟩

/-- The same state with another configuration. -/
def State.withConfig (s : State) (cf : Config) : State :=
  { s with
    owner_id := cf.owner
    operator_id := cf.operator
    min_unbond_period := cf.minUnbond
    max_unbond_period := cf.maxUnbond
    min_deposit_amount := cf.minDeposit
    max_locking_positions := cf.maxPositions
    max_voting_positions := cf.maxApps
    mpdao_token_contract_address := cf.mpdao
    stnear_token_contract_address := cf.stnear
    registration_cost := cf.registrationCost
    prev_governance_contract := cf.prevGovernance
    lock_votes_in_end_timestamp_ms := cf.lockInEnd
    lock_votes_in_address := cf.lockInApp
    lock_votes_in_numeric_id := cf.lockInNumber }

/-- Calls accepted in a log, newest first. -/
def acceptedCalls : List Entry → List Call
  | [] => []
  | .call _ k _ :: l => k :: acceptedCalls l
  | .resolved .. :: l => acceptedCalls l

/-- The configuration after an accepted call. -/
def configAfter (cf : Config) : Call → Config
  | .set_owner_id a => { cf with owner := a }
  | .set_operator_id a => { cf with operator := a }
  | .set_stnear_contract a => { cf with stnear := a }
  | .update_registration_cost n => { cf with registrationCost := n }
  | .update_min_unbond_period d => { cf with minUnbond := d }
  | .update_max_unbond_period d => { cf with maxUnbond := d }
  | .set_prev_gov_contract a => { cf with prevGovernance := a }
  | .set_lock_in_vote_filters t n a => { cf with lockInEnd := t, lockInApp := a, lockInNumber := n }
  | _ => cf

/-- Calls reserved to the owner. -/
def Call.ownerOnly : Call → Bool
  | .set_owner_id .. | .set_operator_id .. | .set_stnear_contract .. | .update_registration_cost ..
  | .update_min_unbond_period .. | .update_max_unbond_period .. | .set_prev_gov_contract .. => true
  | _ => false

/-- Calls reserved to the operator. -/
def Call.operatorOnly : Call → Bool
  | .set_lock_in_vote_filters .. | .operator_multi_set_airdrop_data .. | .operator_mirror_lps ..
  | .operator_remove_pre_delegate_evm_address .. | .operator_confirm_delegated_evm_address .. => true
  | _ => false

/-- Calls that must carry exactly one yoctoNEAR (so that they need a full-access key). -/
def Call.oneYocto : Call → Bool
  | .set_owner_id .. | .set_operator_id .. | .set_stnear_contract ..
  | .update_min_unbond_period .. | .update_max_unbond_period .. | .set_prev_gov_contract ..
  | .withdraw .. | .withdraw_all | .pre_delegate_evm_address ..
  | .operator_remove_pre_delegate_evm_address .. | .operator_confirm_delegated_evm_address ..
  | .remove_delegated_evm_address .. => true
  | _ => false

end Verif.MetaVote
