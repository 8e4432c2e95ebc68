import Verif.MetaVote.Voter

/-!
# meta-vote contract: `internal.rs` and the contract part of `locking_position.rs`
-/

namespace Verif.MetaVote

open Verif

namespace State

/-- `internal.rs:4-9` -/
def assert_only_owner (s : State) (c : Ctx) : Res Unit :=
  require (s.owner_id = c.predecessor) "Only the owner can call this function."

/-- `internal.rs:10-15` -/
def assert_operator (s : State) (c : Ctx) : Res Unit :=
  require (s.operator_id = c.predecessor) "Only the operator can call this function."

/-- `internal.rs:17-23` -/
def assert_min_deposit_amount (s : State) (amount : Nat) : Res Unit :=
  require (s.min_deposit_amount ≤ amount) "Minimum deposit amount"

/-- `internal.rs:26-30` -/
def internal_get_voter (s : State) (voter_id : String) : Voter :=
  (s.voters.get voter_id).getD Voter.new

/-- `internal.rs:31-36` -/
def internal_get_voter_or_panic (s : State) (voter_id : String) : Res Voter :=
  expect (s.voters.get voter_id) "invalid voter_id"

/-- `internal.rs:38-47` -/
def internal_get_total_votes_for_address (s : State) (contract_address : String) : UMap String Nat :=
  (s.votes.get contract_address).getD UMap.empty

/-- `internal.rs:49-61` -/
def internal_increase_total_votes (s : State) (voting_power : Nat)
    (contract_address votable_object_id : String) : Res State := do
  let votes_for_address := s.internal_get_total_votes_for_address contract_address
  let votes ← addU128 ((votes_for_address.get votable_object_id).getD 0) voting_power
  let votes_for_address := votes_for_address.insert votable_object_id votes
  pure { s with votes := s.votes.insert contract_address votes_for_address }

/-- `internal.rs:63-87` -/
def state_internal_decrease_total_votes_for_address (s : State) (voting_power : Nat)
    (contract_address votable_object_id : String) : Res State := do
  let votes_for_address := s.internal_get_total_votes_for_address contract_address
  let votes ← expect (votes_for_address.get votable_object_id)
    "Cannot decrease if the Contract Address has no Votable Object."
  require (voting_power ≤ votes) "Decreasing total is too large."
  let votes ← subU votes voting_power
  let votes_for_address :=
    if votes = 0 then votes_for_address.remove votable_object_id
    else votes_for_address.insert votable_object_id votes
  if votes_for_address.isEmpty then
    pure { s with votes := s.votes.remove contract_address }
  else
    pure { s with votes := s.votes.insert contract_address votes_for_address }

end State

/-- `internal.rs:93-103`: returns the new map and the new total. -/
def add_claimable (claimable_map : UMap String Nat) (total_unclaimed : Nat) (account : String)
    (amount : Nat) : Res (UMap String Nat × Nat) := do
  let existing_claimable_amount := (claimable_map.get account).getD 0
  let sum ← addU128 existing_claimable_amount amount
  let total ← addU128 total_unclaimed amount
  pure (claimable_map.insert account sum, total)

/-- `internal.rs:105-127` -/
def remove_claimable (claimable_map : UMap String Nat) (total_unclaimed : Nat) (account : String)
    (amount : Nat) : Res (UMap String Nat × Nat) := do
  let existing_claimable_amount := (claimable_map.get account).getD 0
  require (amount ≤ existing_claimable_amount) "you don't have enough claimable"
  let after_remove ← subU existing_claimable_amount amount
  let claimable_map :=
    if after_remove = 0 then claimable_map.remove account
    else claimable_map.insert account after_remove
  let total ← subU total_unclaimed amount
  pure (claimable_map, total)

namespace State

/-- `internal.rs:129-137` -/
def add_claimable_mpdao (s : State) (account : String) (amount : Nat) : Res State := do
  require (0 < amount) "assertion failed: amount > 0"
  let r ← add_claimable s.claimable_mpdao s.total_unclaimed_mpdao account amount
  pure { s with claimable_mpdao := r.1, total_unclaimed_mpdao := r.2 }

/-- `internal.rs:139-147` -/
def add_claimable_stnear (s : State) (account : String) (amount : Nat) : Res State := do
  require (0 < amount) "assertion failed: amount > 0"
  let r ← add_claimable s.claimable_stnear s.total_unclaimed_stnear account amount
  pure { s with claimable_stnear := r.1, total_unclaimed_stnear := r.2 }

/-- `internal.rs:149-157` -/
def remove_claimable_mpdao (s : State) (account : String) (amount : Nat) : Res State := do
  let r ← remove_claimable s.claimable_mpdao s.total_unclaimed_mpdao account amount
  pure { s with claimable_mpdao := r.1, total_unclaimed_mpdao := r.2 }

/-- `internal.rs:159-167` -/
def remove_claimable_stnear (s : State) (account : String) (amount : Nat) : Res State := do
  let r ← remove_claimable s.claimable_stnear s.total_unclaimed_stnear account amount
  pure { s with claimable_stnear := r.1, total_unclaimed_stnear := r.2 }

/-! ## `locking_position.rs`, `impl MetaVoteContract`

`&mut self` and `&mut voter` are both returned. -/

/-- `locking_position.rs:66-81` -/
def increase_locking_position (s : State) (voter : Voter) (index mpdao_amount unbond_days : Nat) :
    Res (State × Voter) := do
  let voting_power ← calculate_voting_power mpdao_amount unbond_days
  let current_position ← voter.get_position index
  let amount ← addU128 current_position.amount mpdao_amount
  let vp ← addU128 current_position.voting_power voting_power
  let voter := voter.replace_position index { current_position with amount := amount, voting_power := vp }
  let avp ← addU128 voter.available_voting_power voting_power
  let total ← addU128 s.total_voting_power voting_power
  pure ({ s with total_voting_power := total }, { voter with available_voting_power := avp })

/-- `locking_position.rs:83-105`; `len() as u8` truncates. -/
def internal_create_locking_position (s : State) (voter : Voter) (mpdao_amount unbond_days : Nat) :
    Res (State × Voter) := do
  require (voter.locking_positions.length % 256 < s.max_locking_positions)
    "The max number of locking positions is reached"
  require (voter.find_locked_position unbond_days = none) "a locking-position already exists"
  let voting_power ← calculate_voting_power mpdao_amount unbond_days
  let voter := { voter with
    locking_positions := voter.locking_positions ++ [LockingPosition.mk mpdao_amount unbond_days voting_power none] }
  let avp ← addU128 voter.available_voting_power voting_power
  let total ← addU128 s.total_voting_power voting_power
  pure ({ s with total_voting_power := total }, { voter with available_voting_power := avp })

/-- `locking_position.rs:107-131` -/
def deposit_locking_position (s : State) (mpdao_amount unbond_days : Nat) (voter_id : String)
    (voter : Voter) : Res (State × Voter) := do
  require (s.min_unbond_period ≤ unbond_days ∧ unbond_days ≤ s.max_unbond_period)
    "Unbound period must be between min and max"
  let r ← (match voter.find_locked_position unbond_days with
    | some index => s.increase_locking_position voter index mpdao_amount unbond_days
    | none => s.internal_create_locking_position voter mpdao_amount unbond_days : Res (State × Voter))
  pure ({ r.1 with voters := r.1.voters.insert voter_id r.2 }, r.2)

/-- `locking_position.rs:133-155` -/
def create_unlocking_position (s : State) (c : Ctx) (voter : Voter)
    (mpdao_amount unbond_days voting_power : Nat) : Res Voter := do
  require (voter.locking_positions.length % 256 < s.max_locking_positions)
    "The max number of locking positions is reached"
  pure { voter with
    locking_positions := voter.locking_positions ++ [LockingPosition.mk mpdao_amount unbond_days voting_power (some c.now)] }

end State

end Verif.MetaVote
