import Verif.MetaVote.Internal

/-!
# meta-vote contract: `lib.rs`

`env::predecessor_account_id()` is `c.predecessor`; `log!` lines are not modelled.
-/

namespace Verif.MetaVote

open Verif

/-- `lib.rs:71-118`.  `state_exists` is `env::state_exists()`. -/
def new (state_exists : Bool) (owner_id operator_id : AccountId)
    (min_unbond_period max_unbond_period min_deposit_amount max_locking_positions
      max_voting_positions : Nat)
    (mpdao_token_contract_address stnear_token_contract_address : AccountId)
    (registration_cost : Nat) (prev_governance_contract : String) : Res State := do
  require (state_exists = false) "The contract is already initialized"
  require (min_unbond_period < max_unbond_period) "Review the min and max locking period"
  pure {
    owner_id, operator_id
    voters := UMap.empty
    votes := UMap.empty
    min_unbond_period, max_unbond_period, min_deposit_amount
    max_locking_positions, max_voting_positions
    mpdao_token_contract_address
    total_voting_power := 0
    claimable_mpdao := UMap.empty
    accumulated_mpdao_distributed_for_claims := 0
    total_unclaimed_mpdao := 0
    stnear_token_contract_address
    claimable_stnear := UMap.empty
    accum_distributed_stnear_for_claims := 0
    total_unclaimed_stnear := 0
    registration_cost
    associated_user_data := UMap.empty
    prev_governance_contract
    evm_delegates := UMap.empty
    evm_pre_delegation := UMap.empty
    evm_delegation_signatures := UMap.empty
    lock_votes_in_end_timestamp_ms := 0
    lock_votes_in_address := none
    lock_votes_in_numeric_id := 0 }

/-- `votable_object_id.contains(&format!(" #{} ", n))`, `lib.rs:733-734`. -/
def matches_filter (numeric_id : Nat) (votable_object_id : String) : Bool :=
  decide ((" #" ++ toString numeric_id ++ " ").toList <:+: votable_object_id.toList)

namespace State

/-! ## Owner configuration -/

/-- `lib.rs:124-128` -/
def set_stnear_contract (s : State) (c : Ctx) (stnear_contract : AccountId) : Res State := do
  assert_one_yocto c
  s.assert_only_owner c
  pure { s with stnear_token_contract_address := stnear_contract }

/-- `lib.rs:130-134` -/
def set_operator_id (s : State) (c : Ctx) (operator_id : AccountId) : Res State := do
  assert_one_yocto c
  s.assert_only_owner c
  pure { s with operator_id := operator_id }

/-- `lib.rs:136-140` -/
def set_owner_id (s : State) (c : Ctx) (owner_id : AccountId) : Res State := do
  assert_one_yocto c
  s.assert_only_owner c
  pure { s with owner_id := owner_id }

/-- `lib.rs:147-150` -/
def update_registration_cost (s : State) (c : Ctx) (new_cost : Nat) : Res State := do
  s.assert_only_owner c
  pure { s with registration_cost := new_cost }

/-- `lib.rs:777-781` -/
def update_min_unbond_period (s : State) (c : Ctx) (new_min_unbond_period : Nat) : Res State := do
  assert_one_yocto c
  s.assert_only_owner c
  pure { s with min_unbond_period := new_min_unbond_period }

/-- `lib.rs:783-787` -/
def update_max_unbond_period (s : State) (c : Ctx) (new_max_unbond_period : Nat) : Res State := do
  assert_one_yocto c
  s.assert_only_owner c
  pure { s with max_unbond_period := new_max_unbond_period }

/-- `lib.rs:789-793` -/
def set_prev_gov_contract (s : State) (c : Ctx) (contract_id : String) : Res State := do
  assert_one_yocto c
  s.assert_only_owner c
  pure { s with prev_governance_contract := contract_id }

/-- `lib.rs:757-767` -/
def set_lock_in_vote_filters (s : State) (c : Ctx) (end_timestamp_ms votable_numeric_id : Nat)
    (votable_address : Option String) : Res State := do
  s.assert_operator c
  pure { s with
    lock_votes_in_end_timestamp_ms := end_timestamp_ms
    lock_votes_in_address := votable_address
    lock_votes_in_numeric_id := votable_numeric_id }

/-! ## Airdrop data -/

/-- `lib.rs:166-174` -/
def update_airdrop_user_data (s : State) (c : Ctx) (encrypted_data : String) : Res State := do
  require (c.deposit = s.registration_cost) "Pay yoctos for the registration cost"
  pure { s with associated_user_data := s.associated_user_data.insert c.predecessor encrypted_data }

/-- `lib.rs:180-186` -/
def operator_multi_set_airdrop_data (s : State) (c : Ctx) (data : List (String × String)) :
    Res State := do
  s.assert_operator c
  pure { s with
    associated_user_data := data.foldl (fun m d => m.insert d.1 d.2) s.associated_user_data }

/-! ## Claims -/

/-- `lib.rs:208-216` -/
def claim_and_lock (s : State) (c : Ctx) (amount locking_period : Nat) : Res State := do
  s.assert_min_deposit_amount amount
  let voter_id := c.predecessor
  let s ← s.remove_claimable_mpdao voter_id amount
  let voter ← s.internal_get_voter_or_panic voter_id
  let r ← s.deposit_locking_position amount locking_period voter_id voter
  pure r.1

/-! ## Unlocking -/

/-- `lib.rs:231-254`.  The contract does not test that the position is locked. -/
def unlock_position (s : State) (c : Ctx) (index : Nat) : Res State := do
  let voter_id := c.predecessor
  let voter ← s.internal_get_voter_or_panic voter_id
  let locking_position ← voter.get_position index
  let voting_power := locking_position.voting_power
  require (voting_power ≤ voter.available_voting_power) "Not enough free voting power to unlock!"
  let voter := voter.replace_position index
    { locking_position with unlocking_started_at := some c.now }
  let avp ← subU voter.available_voting_power voting_power
  let voter := { voter with available_voting_power := avp }
  pure { s with
    total_voting_power := s.total_voting_power - voting_power
    voters := s.voters.insert voter_id voter }

/-- `lib.rs:256-306` -/
def unlock_partial_position (s : State) (c : Ctx) (index amount : Nat) : Res State := do
  let voter_id := c.predecessor
  let voter ← s.internal_get_voter_or_panic voter_id
  let locking_position ← voter.get_position index
  let locking_period := locking_position.locking_period
  if amount = locking_position.amount then
    s.unlock_position c index
  else
    require (amount < locking_position.amount) "Amount too large!"
    let rest ← subU locking_position.amount amount
    require (s.min_deposit_amount ≤ rest) "A locking position cannot have less than the minimum"
    assert_at_least_1_mpdao amount
    let remove_voting_power ← calculate_voting_power amount locking_period
    require (remove_voting_power ≤ locking_position.voting_power)
      "Not enough free voting power to unlock! (position)"
    require (remove_voting_power ≤ voter.available_voting_power)
      "Not enough free voting power to unlock!"
    let voter ← s.create_unlocking_position c voter amount locking_period remove_voting_power
    let vp ← subU locking_position.voting_power remove_voting_power
    let am ← subU locking_position.amount amount
    assert_at_least_1_mpdao am
    let voter := voter.replace_position index
      { locking_position with voting_power := vp, amount := am }
    let avp ← subU voter.available_voting_power remove_voting_power
    let voter := { voter with available_voting_power := avp }
    pure { s with
      total_voting_power := s.total_voting_power - remove_voting_power
      voters := s.voters.insert voter_id voter }

/-- `lib.rs:312-351` -/
def locking_position_extend_days (s : State) (c : Ctx) (index new_locking_period : Nat) :
    Res State := do
  let voter_id := c.predecessor
  let voter ← s.internal_get_voter_or_panic voter_id
  let locking_position ← voter.get_position index
  require (locking_position.unlocking_started_at = none)
    "position should be locked in order to extend time"
  require (locking_position.locking_period < new_locking_period)
    "new auto-lock period should be greater than previous one"
  let old_voting_power := locking_position.voting_power
  let new_voting_power ← calculate_voting_power locking_position.amount new_locking_period
  let delta ← subU new_voting_power old_voting_power
  let total ← addU128 s.total_voting_power delta
  let avp ← addU128 voter.available_voting_power delta
  let voter := ({ voter with available_voting_power := avp }).replace_position index
    { locking_position with locking_period := new_locking_period, voting_power := new_voting_power }
  pure { s with total_voting_power := total, voters := s.voters.insert voter_id voter }

/-! ## Re-locking -/

/-- `lib.rs:357-404` (`started + period` unchecked, see `unlock_date_fits`). -/
def relock_position (s : State) (c : Ctx) (index locking_period amount_from_balance : Nat) :
    Res State := do
  let voter_id := c.predecessor
  let voter ← s.internal_get_voter_or_panic voter_id
  let locking_position ← voter.get_position index
  require (amount_from_balance ≤ voter.balance) "Not enough balance."
  let started ← expect locking_position.unlocking_started_at "Cannot re-lock a locked position."
  let unlocking_date := started + locking_position.locking_period_millis
  require (c.now < unlocking_date → unlocking_date - c.now < days_to_millis locking_period)
    "The new locking period should be greater than the remaining days."
  let amount ← addU128 locking_position.amount amount_from_balance
  let voter := voter.remove_position index
  let balance ← subU voter.balance amount_from_balance
  let r ← s.deposit_locking_position amount locking_period voter_id { voter with balance := balance }
  pure r.1

/-- `lib.rs:406-481` (`started + period` unchecked, see `unlock_date_fits`).
The minimum test at 458-462 re-tests `amount`, as in the source. -/
def relock_partial_position (s : State) (c : Ctx)
    (index amount_from_position locking_period amount_from_balance : Nat) : Res State := do
  let voter_id := c.predecessor
  let voter ← s.internal_get_voter_or_panic voter_id
  let locking_position ← voter.get_position index
  require (amount_from_balance ≤ voter.balance) "Not enough balance."
  require (amount_from_position ≤ locking_position.amount) "Locking position amount is not enough."
  let amount ← addU128 amount_from_balance amount_from_position
  require (s.min_deposit_amount ≤ amount) "A locking position cannot have less than the minimum"
  let started ← expect locking_position.unlocking_started_at "Cannot re-lock a locked position."
  let unlocking_date := started + locking_position.locking_period_millis
  let voter ← (if c.now < unlocking_date then do
      require (unlocking_date - c.now < days_to_millis locking_period)
        "The new locking period should be greater than the remaining days."
      let new_amount ← subU locking_position.amount amount_from_position
      require (s.min_deposit_amount ≤ amount) "A locking position cannot have less than the minimum"
      require (0 < new_amount) "Use relock_position() function instead."
      let vp ← calculate_voting_power new_amount locking_position.locking_period
      pure (voter.replace_position index
        { locking_position with amount := new_amount, voting_power := vp })
    else do
      let rest ← subU locking_position.amount amount_from_position
      let balance ← addU128 voter.balance rest
      pure (({ voter with balance := balance }).remove_position index) : Res Voter)
  let balance ← subU voter.balance amount_from_balance
  let r ← s.deposit_locking_position amount locking_period voter_id { voter with balance := balance }
  pure r.1

/-- `lib.rs:483-503` -/
def relock_from_balance (s : State) (c : Ctx) (locking_period amount_from_balance : Nat) :
    Res State := do
  let voter_id := c.predecessor
  let voter ← s.internal_get_voter_or_panic voter_id
  require (amount_from_balance ≤ voter.balance) "Not enough balance."
  require (s.min_deposit_amount ≤ amount_from_balance)
    "A locking position cannot have less than the minimum"
  let balance ← subU voter.balance amount_from_balance
  let r ← s.deposit_locking_position amount_from_balance locking_period voter_id
    { voter with balance := balance }
  pure r.1

/-- `lib.rs:511-517` -/
def clear_locking_position (s : State) (c : Ctx) (position_index_list : List Nat) : Res State := do
  require (position_index_list ≠ []) "Index list is empty."
  let voter_id := c.predecessor
  let voter ← s.internal_get_voter_or_panic voter_id
  let voter ← voter.clear_fully_unlocked_positions c.now position_index_list
  pure { s with voters := s.voters.insert voter_id voter }

/-! ## Voting -/

/-- `lib.rs:567-600` -/
def internal_create_voting_position (s : State) (voter : Voter) (voting_power : Nat)
    (contract_address votable_object_id : String) : Res (State × Voter) := do
  require (voting_power ≤ voter.available_voting_power) "Not enough free voting power."
  require (voter.vote_positions.len ≤ s.max_voting_positions) "Cannot exceed voting positions."
  let votes_for_address := voter.get_vote_position_for_address contract_address
  let avp ← subU voter.available_voting_power voting_power
  let votes ← addU128 ((votes_for_address.get votable_object_id).getD 0) voting_power
  let votes_for_address := votes_for_address.insert votable_object_id votes
  let voter := { voter with
    available_voting_power := avp
    vote_positions := voter.vote_positions.insert contract_address votes_for_address }
  let s ← s.internal_increase_total_votes voting_power contract_address votable_object_id
  pure (s, voter)

/-- `lib.rs:537-565` -/
def internal_vote (s : State) (voter_id : String) (voting_power : Nat)
    (contract_address votable_object_id : String) : Res State := do
  let voter ← s.internal_get_voter_or_panic voter_id
  let r ← s.internal_create_voting_position voter voting_power contract_address votable_object_id
  pure { r.1 with voters := r.1.voters.insert voter_id r.2 }

/-- `lib.rs:523-535` -/
def vote (s : State) (c : Ctx) (voting_power : Nat) (contract_address votable_object_id : String) :
    Res State :=
  s.internal_vote c.predecessor voting_power contract_address votable_object_id

/-- `lib.rs:678-715` -/
def internal_remove_voting_position (s : State) (voter : Voter)
    (contract_address votable_object_id : String) : Res (State × Voter) := do
  let user_votes_for_app := voter.get_vote_position_for_address contract_address
  let user_vote_for_object ← expect (user_votes_for_app.get votable_object_id)
    "Cannot unvote a Votable Object without votes."
  let avp ← addU128 voter.available_voting_power user_vote_for_object
  let user_votes_for_app := user_votes_for_app.remove votable_object_id
  let voter := { voter with
    available_voting_power := avp
    vote_positions :=
      if user_votes_for_app.isEmpty then voter.vote_positions.remove contract_address
      else voter.vote_positions.insert contract_address user_votes_for_app }
  let s ← s.state_internal_decrease_total_votes_for_address user_vote_for_object contract_address
    votable_object_id
  pure (s, voter)

/-- The test at `lib.rs:729-741`: the vote is locked in at time `now`. -/
def is_vote_locked (s : State) (now : Nat) (contract_address votable_object_id : String) : Bool :=
  match s.lock_votes_in_address with
  | some a => decide (now < s.lock_votes_in_end_timestamp_ms) && decide (a = contract_address)
      && matches_filter s.lock_votes_in_numeric_id votable_object_id
  | none => false

/-- `lib.rs:722-752` -/
def internal_unvote (s : State) (c : Ctx) (voter_id : String)
    (contract_address votable_object_id : String) : Res State := do
  require (s.is_vote_locked c.now contract_address votable_object_id = false)
    "you can not remove votes here"
  let voter ← s.internal_get_voter_or_panic voter_id
  let r ← s.internal_remove_voting_position voter contract_address votable_object_id
  pure { r.1 with voters := r.1.voters.insert voter_id r.2 }

/-- `lib.rs:717-720` -/
def unvote (s : State) (c : Ctx) (contract_address votable_object_id : String) : Res State :=
  s.internal_unvote c c.predecessor contract_address votable_object_id

/-- `lib.rs:602-676` -/
def rebalance (s : State) (c : Ctx) (voting_power : Nat)
    (contract_address votable_object_id : String) : Res State := do
  let voter_id := c.predecessor
  let voter ← s.internal_get_voter_or_panic voter_id
  let votes_for_address := voter.get_vote_position_for_address contract_address
  let votes ← expect (votes_for_address.get votable_object_id)
    "Rebalance not allowed for nonexisting Votable Object."
  require (votes ≠ voting_power) "Cannot rebalance to same Voting Power."
  if voting_power = 0 then
    s.unvote c contract_address votable_object_id
  else
    let r ← (if votes < voting_power then do
        let additional_votes ← subU voting_power votes
        require (additional_votes ≤ voter.available_voting_power)
          "Not enough free voting power to unlock!"
        let avp ← subU voter.available_voting_power additional_votes
        let votes ← addU128 votes additional_votes
        let s ← s.internal_increase_total_votes additional_votes contract_address votable_object_id
        pure (s, avp, votes)
      else do
        let remove_votes ← subU votes voting_power
        let avp ← addU128 voter.available_voting_power remove_votes
        let votes ← subU votes remove_votes
        let s ← s.state_internal_decrease_total_votes_for_address remove_votes contract_address
          votable_object_id
        pure (s, avp, votes) : Res (State × Nat × Nat))
    let votes_for_address := votes_for_address.insert votable_object_id r.2.2
    let voter := { voter with
      available_voting_power := r.2.1
      vote_positions := voter.vote_positions.insert contract_address votes_for_address }
    pure { r.1 with voters := r.1.voters.insert voter_id voter }

/-! ## Migration from the previous governance contract and EVM mirroring -/

/-- Body of the loop at `lib.rs:811-817`. -/
def migration_step (voter_id : String) (sv : State × Voter) (lp : Nat × Nat) : Res (State × Voter) :=
  sv.1.deposit_locking_position (lp.1 / 1000000000000000000) lp.2 voter_id sv.2

/-- `lib.rs:799-830`.  The user data is stored under the predecessor, as in the source. -/
def migration_create_lps (s : State) (c : Ctx) (voter_id : String)
    (locking_positions : List (Nat × Nat)) (encrypted_associated_user_data : Option String) :
    Res State := do
  require (c.predecessor = s.prev_governance_contract)
    "Only the old gov contract can call this function."
  let r ← locking_positions.foldlM (migration_step voter_id) (s, s.internal_get_voter voter_id)
  let s := r.1
  match encrypted_associated_user_data with
  | some data =>
    if s.associated_user_data.get c.predecessor = none then
      pure { s with associated_user_data := s.associated_user_data.insert c.predecessor data }
    else pure s
  | none => pure s

/-- The `while` loop at `lib.rs:861-875`.  `fuel` is the number of vote entries of the voter; every
iteration removes one.  With no entry left the source panics at `get(0).unwrap()` (862), which is
what an exhausted fuel returns. Result: state, voter, remaining used power. -/
def mirror_remove_votes (new_voting_power : Nat) : Nat → State → Voter → Nat → Res (State × Voter × Nat)
  | fuel, s, voter, used =>
    if new_voting_power < used then
      match fuel with
      | 0 => .error (.assert "called `Option::unwrap()` on a `None` value")
      | fuel + 1 => do
        let app ← expect voter.vote_positions.entries.head? "unwrap"
        let obj ← expect app.2.entries.head? "unwrap"
        let r ← s.internal_remove_voting_position voter app.1 obj.1
        let used ← subU used obj.2
        mirror_remove_votes new_voting_power fuel r.1 r.2 used
    else pure (s, voter, used)

/-- Body of the loop at `lib.rs:884-890`. -/
def mirror_step (sv : State × Voter) (lp : Nat × Nat) : Res (State × Voter) :=
  sv.1.internal_create_locking_position sv.2 lp.2 lp.1

/-- `lib.rs:834-899` -/
def operator_mirror_lps (s : State) (c : Ctx) (external_address : String)
    (locking_positions : List (Nat × Nat)) : Res State := do
  s.assert_operator c
  let voter_id := pseudo_near_address external_address
  let voter := s.internal_get_voter voter_id
  let used_voting_power ← voter.sum_used_votes
  let prev_voting_power ← addU128 voter.available_voting_power used_voting_power
  let new_vps ← locking_positions.mapM (fun i => calculate_voting_power i.2 i.1)
  let new_voting_power ← sumU128 new_vps
  let fuel := (voter.vote_positions.values.map (·.len)).sum
  let r ← mirror_remove_votes new_voting_power fuel s voter used_voting_power
  let voter := { r.2.1 with locking_positions := [], available_voting_power := 0 }
  let sv ← locking_positions.foldlM mirror_step (r.1, voter)
  let avp ← subU sv.2.available_voting_power r.2.2
  let total ← subU sv.1.total_voting_power prev_voting_power
  pure { sv.1 with
    total_voting_power := total
    voters := sv.1.voters.insert voter_id { sv.2 with available_voting_power := avp } }

end State

end Verif.MetaVote
