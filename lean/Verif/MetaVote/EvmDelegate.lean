import Verif.MetaVote.Deposit

/-!
# meta-vote contract: `evm_delegate.rs` (state-changing part) and `migrate.rs`
-/

namespace Verif.MetaVote

open Verif

namespace State

/-- `evm_delegate.rs:13-23` -/
def pre_delegate_evm_address (s : State) (c : Ctx) (evm_address signature : String) : Res State := do
  assert_one_yocto c
  require ('.' ∉ evm_address.toList) "evm_address can not contain dots"
  pure { s with evm_pre_delegation := s.evm_pre_delegation.insert evm_address (c.predecessor, signature) }

/-- `evm_delegate.rs:31-35` -/
def operator_remove_pre_delegate_evm_address (s : State) (c : Ctx) (evm_address : String) :
    Res State := do
  assert_one_yocto c
  s.assert_operator c
  pure { s with evm_pre_delegation := s.evm_pre_delegation.remove evm_address }

/-- `evm_delegate.rs:51-62`: take `evm_address` out of the list of its previous delegate. -/
def drop_previous_delegate (s : State) (evm_address previous : String) : Res State := do
  let l ← expect (s.evm_delegates.get previous) "unwrap"
  let l := l.filter (fun x => x ≠ evm_address)
  pure { s with
    evm_delegates := if l.length = 0 then s.evm_delegates.remove previous
      else s.evm_delegates.insert previous l }

/-- `evm_delegate.rs:65-73`: record the delegation. -/
def add_delegate (s : State) (evm_address account_id signature : String) : State :=
  { s with
    evm_delegates := s.evm_delegates.insert account_id
      ((s.evm_delegates.get account_id).getD [] ++ [evm_address])
    evm_delegation_signatures := s.evm_delegation_signatures.insert evm_address (account_id, signature) }

/-- `evm_delegate.rs:38-75` -/
def operator_confirm_delegated_evm_address (s : State) (c : Ctx) (evm_address : String) :
    Res State := do
  assert_one_yocto c
  s.assert_operator c
  match s.evm_pre_delegation.get evm_address with
  | none => pure s
  | some pre =>
    let s := { s with evm_pre_delegation := s.evm_pre_delegation.remove evm_address }
    match s.evm_delegation_signatures.get evm_address with
    | some existing =>
      if existing.1 = pre.1 then pure s
      else do
        let s ← s.drop_previous_delegate evm_address existing.1
        pure (s.add_delegate evm_address pre.1 pre.2)
    | none => pure (s.add_delegate evm_address pre.1 pre.2)

/-- `evm_delegate.rs:96-111` -/
def verify_delegate (s : State) (c : Ctx) (evm_address : String) : Res String := do
  require (evm_address ∈ (s.evm_delegates.get c.predecessor).getD []) "is not delegated to"
  pure (pseudo_near_address evm_address)

/-- `evm_delegate.rs:78-93` -/
def delegated_claim_stnear (s : State) (c : Ctx) (evm_address : String) (amount : Nat) :
    Res (State × Transfer) := do
  let pseudo_account ← s.verify_delegate c evm_address
  let s ← s.remove_claimable_stnear pseudo_account amount
  pure (s, s.transfer_stnear_to_voter pseudo_account c.predecessor amount)

/-- `evm_delegate.rs:113-128` -/
def vote_delegated (s : State) (c : Ctx) (evm_address : String) (voting_power : Nat)
    (contract_address votable_object_id : String) : Res State := do
  let pseudo_account ← s.verify_delegate c evm_address
  s.internal_vote pseudo_account voting_power contract_address votable_object_id

/-- `evm_delegate.rs:130-139` -/
def unvote_delegated (s : State) (c : Ctx) (evm_address contract_address votable_object_id : String) :
    Res State := do
  let pseudo_account ← s.verify_delegate c evm_address
  s.internal_unvote c pseudo_account contract_address votable_object_id

/-- `evm_delegate.rs:142-163` -/
def remove_delegated_evm_address (s : State) (c : Ctx) (evm_address : String) : Res State := do
  assert_one_yocto c
  let existing ← expect (s.evm_delegation_signatures.get evm_address) "note delegated"
  require (existing.1 = c.predecessor) "note delegated to you"
  let l ← expect (s.evm_delegates.get c.predecessor) "unwrap"
  pure { s with
    evm_delegation_signatures := s.evm_delegation_signatures.remove evm_address
    evm_delegates := s.evm_delegates.insert c.predecessor (l.filter (fun x => x ≠ evm_address)) }

end State

/-- `migrate.rs:5-38`: the state layout before the vote lock-in fields. -/
structure OldState where
  owner_id : AccountId
  operator_id : AccountId
  voters : UMap String Voter
  votes : UMap String (UMap String Nat)
  min_unbond_period : Nat
  max_unbond_period : Nat
  min_deposit_amount : Nat
  max_locking_positions : Nat
  max_voting_positions : Nat
  mpdao_token_contract_address : AccountId
  total_voting_power : Nat
  claimable_mpdao : UMap String Nat
  accumulated_mpdao_distributed_for_claims : Nat
  total_unclaimed_mpdao : Nat
  stnear_token_contract_address : AccountId
  claimable_stnear : UMap String Nat
  accum_distributed_stnear_for_claims : Nat
  total_unclaimed_stnear : Nat
  registration_cost : Nat
  associated_user_data : UMap String String
  prev_governance_contract : String
  evm_delegates : UMap String (List String)
  evm_pre_delegation : UMap String (String × String)
  evm_delegation_signatures : UMap String (String × String)

/-- `migrate.rs:44-85`.  `old` is the value decoded by `env::state_read`, `none` if it does not decode;
the `#[private]` test (`migrate.rs:43`) is included. -/
def migrate (c : Ctx) (old : Option OldState) : Res State := do
  require (c.predecessor = c.current) "Method migrate is private"
  let old ← expect old "failed"
  pure {
    owner_id := old.owner_id
    operator_id := old.operator_id
    voters := old.voters
    votes := old.votes
    min_unbond_period := old.min_unbond_period
    max_unbond_period := old.max_unbond_period
    min_deposit_amount := old.min_deposit_amount
    max_locking_positions := old.max_locking_positions
    max_voting_positions := old.max_voting_positions
    mpdao_token_contract_address := old.mpdao_token_contract_address
    total_voting_power := old.total_voting_power
    claimable_mpdao := old.claimable_mpdao
    accumulated_mpdao_distributed_for_claims := old.accumulated_mpdao_distributed_for_claims
    total_unclaimed_mpdao := old.total_unclaimed_mpdao
    stnear_token_contract_address := old.stnear_token_contract_address
    claimable_stnear := old.claimable_stnear
    accum_distributed_stnear_for_claims := old.accum_distributed_stnear_for_claims
    total_unclaimed_stnear := old.total_unclaimed_stnear
    registration_cost := old.registration_cost
    associated_user_data := old.associated_user_data
    prev_governance_contract := old.prev_governance_contract
    evm_delegates := old.evm_delegates
    evm_pre_delegation := old.evm_pre_delegation
    evm_delegation_signatures := old.evm_delegation_signatures
    lock_votes_in_end_timestamp_ms := 0
    lock_votes_in_address := none
    lock_votes_in_numeric_id := 0 }

end Verif.MetaVote
