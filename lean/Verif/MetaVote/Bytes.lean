import Verif.Borsh.Handle
import Verif.MetaVote.Step

/-!
# meta-vote on the bytes of its storage

`meta-vote-contract/src` as it runs on chain: a call reads and decodes the record under `STATE`, works on the collections through
their handles, and writes the record back.  The handle of a voter's positions and of the voter's vote maps is in the stored
record of the voter, the handles of the maps of one app are values of other maps.  A call that panics leaves the storage as it
was.  Collections follow the published source of near-sdk 4, which is not in `/repo`; `UnorderedMap::len` is the length of the
keys (both lengths change together).  `store::LookupMap` writes its changes when it is dropped, at the end of the call; here
they are written at once, under the prefix and the encoded key.  `log!` lines are not modelled here (`LogText`).
-/

namespace Verif.MetaVote.Bytes

open Verif Storage Disk Borsh

/-- Prefix of a collection (`constants.rs`, `StorageKey`) -/
def pre (H : Hash) (c : Coll) : Bytes := prefixOf H c.tag c.id

/-! ## The state -/

/-- `env::state_read` with `PanicOnDefault` (`lib.rs:27`) -/
def load (D : Disk) : Res StateRec :=
  match D STATE with
  | none => .error (.assert "The contract is not initialized")
  | some b => expect (stateRec.read b) "Cannot deserialize the contract state."

/-- `env::state_write` -/
def save (D : Disk) (r : StateRec) : Disk := upd D STATE (some (stateRec.enc r))

/-- `internal.rs:4-9` -/
def assert_only_owner (r : StateRec) (c : Ctx) : Res Unit :=
  require (r.owner_id = c.predecessor) "Only the owner can call this function."

/-- `internal.rs:10-15` -/
def assert_operator (r : StateRec) (c : Ctx) : Res Unit :=
  require (r.operator_id = c.predecessor) "Only the operator can call this function."

/-- `internal.rs:17-23` -/
def assert_min_deposit_amount (r : StateRec) (amount : Nat) : Res Unit :=
  require (r.min_deposit_amount ≤ amount) "Minimum deposit amount"

/-! ## `voter.rs` -/

/-- `voter.rs:24-35` -/
def newVoter (H : Hash) (id : String) : VoterRec :=
  ⟨0, ⟨0, pre H (.lockingPosition id)⟩, 0, .at (pre H (.votePosition id)) 0⟩

/-- `voter.rs:37-39` -/
def is_empty (v : VoterRec) : Bool := v.balance == 0 && v.locking_positions.len == 0

/-- The loop at `voter.rs:79-88`: `n` positions from `i` on. -/
def find_from (D : Disk) (v : VoterRec) (unbond_days : Nat) : Nat → Nat → Res (Option Nat)
  | 0, _ => pure none
  | n + 1, i => do
    let p ← VecH.item lockingPosition D v.locking_positions i
    if p.locking_period == unbond_days && p.is_locked then pure (some i) else find_from D v unbond_days n (i + 1)

/-- `voter.rs:79-88` -/
def find_locked_position (D : Disk) (v : VoterRec) (unbond_days : Nat) : Res (Option Nat) :=
  find_from D v unbond_days v.locking_positions.len 0

/-- `voter.rs:90-94` -/
def get_position (D : Disk) (v : VoterRec) (index : Nat) : Res LockingPosition := do
  let p ← VecH.get lockingPosition D v.locking_positions index
  expect p "Index out of range!"

/-- `locking_positions.replace(index, &p)` -/
def replace_position (D : Disk) (v : VoterRec) (index : Nat) (p : LockingPosition) : Res Disk :=
  VecH.replace lockingPosition D v.locking_positions index p

/-- `voter.rs:96-98` -/
def remove_position (D : Disk) (v : VoterRec) (index : Nat) : Res (Disk × VoterRec) := do
  let r ← VecH.swapRemove lockingPosition D v.locking_positions index
  pure (r.1, { v with locking_positions := r.2 })

/-- `locking_positions.push(&p)` -/
def push_position (D : Disk) (v : VoterRec) (p : LockingPosition) : Disk × VoterRec :=
  let r := VecH.push lockingPosition D v.locking_positions p
  (r.1, { v with locking_positions := r.2 })

/-- `voter.rs:100-111` -/
def get_vote_position_for_address (H : Hash) (D : Disk) (v : VoterRec) (voter_id contract_address : String) : Res MapH := do
  let h ← MapH.get string mapH D v.vote_positions contract_address
  pure (h.getD (.at (pre H (.voterVotes (join voter_id contract_address))) 0))

/-- `voter.rs:71-77`; all maps are read before their sums are taken. -/
def sum_used_votes (D : Disk) (v : VoterRec) : Res Nat := do
  let maps ← MapH.valueList mapH D v.vote_positions
  let sums ← maps.mapM (fun h => do
    let l ← MapH.valueList u128 D h
    sumU128 l)
  sumU128 sums

/-- `voter.rs:113-125` -/
def get_unlocked_position_indexes (D : Disk) (v : VoterRec) (now : Nat) : Res (List Nat) := do
  let ps ← (List.range v.locking_positions.len).mapM (fun i => do
    let p ← VecH.get lockingPosition D v.locking_positions i
    expect p "Locking position not found!")
  pure ((List.range v.locking_positions.len).filter (fun i => match ps[i]? with
    | some p => p.is_unlocked now
    | none => false))

/-- Body of the loop at `voter.rs:161-168`. -/
def clear_one (now : Nat) (a : Disk × VoterRec) (index : Nat) : Res (Disk × VoterRec) := do
  let locking_position ← get_position a.1 a.2 index
  if locking_position.is_unlocked now then
    let balance ← addU128 a.2.balance locking_position.amount
    remove_position a.1 { a.2 with balance := balance } index
  else
    pure a

/-- `voter.rs:157-169` -/
def clear_fully_unlocked_positions (D : Disk) (v : VoterRec) (now : Nat) (position_index_list : List Nat) :
    Res (Disk × VoterRec) :=
  (Voter.sortDesc position_index_list).foldlM (clear_one now) (D, v)

/-! ## `internal.rs` -/

/-- `internal.rs:26-30` -/
def internal_get_voter (H : Hash) (D : Disk) (r : StateRec) (voter_id : String) : Res VoterRec := do
  let v ← MapH.get string voterRec D r.voters voter_id
  pure (v.getD (newVoter H voter_id))

/-- `internal.rs:31-36` -/
def internal_get_voter_or_panic (D : Disk) (r : StateRec) (voter_id : String) : Res VoterRec := do
  let v ← MapH.get string voterRec D r.voters voter_id
  expect v "invalid voter_id"

/-- `self.voters.insert(&voter_id, &voter)` -/
def insert_voter (D : Disk) (r : StateRec) (voter_id : String) (v : VoterRec) : Res (Disk × StateRec) := do
  let x ← MapH.insert string voterRec D r.voters voter_id v
  pure (x.1, { r with voters := x.2 })

/-- `internal.rs:38-47` -/
def internal_get_total_votes_for_address (H : Hash) (D : Disk) (r : StateRec) (contract_address : String) : Res MapH := do
  let h ← MapH.get string mapH D r.votes contract_address
  pure (h.getD (.at (pre H (.contractVotes contract_address)) 0))

/-- `internal.rs:49-61` -/
def internal_increase_total_votes (H : Hash) (D : Disk) (r : StateRec) (voting_power : Nat)
    (contract_address votable_object_id : String) : Res (Disk × StateRec) := do
  let h ← internal_get_total_votes_for_address H D r contract_address
  let old ← MapH.get string u128 D h votable_object_id
  let votes ← addU128 (old.getD 0) voting_power
  let x ← MapH.insert string u128 D h votable_object_id votes
  let y ← MapH.insert string mapH x.1 r.votes contract_address x.2
  pure (y.1, { r with votes := y.2 })

/-- `internal.rs:63-87` -/
def state_internal_decrease_total_votes_for_address (H : Hash) (D : Disk) (r : StateRec) (voting_power : Nat)
    (contract_address votable_object_id : String) : Res (Disk × StateRec) := do
  let h ← internal_get_total_votes_for_address H D r contract_address
  let old ← MapH.get string u128 D h votable_object_id
  let votes ← expect old "Cannot decrease if the Contract Address has no Votable Object."
  require (voting_power ≤ votes) "Decreasing total is too large."
  let votes ← subU votes voting_power
  let x ← (if votes = 0 then do
      let x ← MapH.remove string u128 D h votable_object_id
      pure (x.1, x.2.1)
    else MapH.insert string u128 D h votable_object_id votes : Res (Disk × MapH))
  let y ← (if x.2.keys.len = 0 then do
      let y ← MapH.remove string mapH x.1 r.votes contract_address
      pure (y.1, y.2.1)
    else MapH.insert string mapH x.1 r.votes contract_address x.2 : Res (Disk × MapH))
  pure (y.1, { r with votes := y.2 })

/-- `internal.rs:93-103` -/
def add_claimable (D : Disk) (claimable_map : MapH) (total_unclaimed : Nat) (account : String) (amount : Nat) :
    Res (Disk × MapH × Nat) := do
  let existing ← MapH.get string u128 D claimable_map account
  let sum ← addU128 (existing.getD 0) amount
  let x ← MapH.insert string u128 D claimable_map account sum
  let total ← addU128 total_unclaimed amount
  pure (x.1, x.2, total)

/-- `internal.rs:105-127` -/
def remove_claimable (D : Disk) (claimable_map : MapH) (total_unclaimed : Nat) (account : String) (amount : Nat) :
    Res (Disk × MapH × Nat) := do
  let existing ← MapH.get string u128 D claimable_map account
  require (amount ≤ existing.getD 0) "you don't have enough claimable"
  let after_remove ← subU (existing.getD 0) amount
  let x ← (if after_remove = 0 then do
      let x ← MapH.remove string u128 D claimable_map account
      pure (x.1, x.2.1)
    else MapH.insert string u128 D claimable_map account after_remove : Res (Disk × MapH))
  let total ← subU total_unclaimed amount
  pure (x.1, x.2, total)

/-- `internal.rs:129-137` -/
def add_claimable_mpdao (D : Disk) (r : StateRec) (account : String) (amount : Nat) : Res (Disk × StateRec) := do
  require (0 < amount) "assertion failed: amount > 0"
  let x ← add_claimable D r.claimable_mpdao r.total_unclaimed_mpdao account amount
  pure (x.1, { r with claimable_mpdao := x.2.1, total_unclaimed_mpdao := x.2.2 })

/-- `internal.rs:139-147` -/
def add_claimable_stnear (D : Disk) (r : StateRec) (account : String) (amount : Nat) : Res (Disk × StateRec) := do
  require (0 < amount) "assertion failed: amount > 0"
  let x ← add_claimable D r.claimable_stnear r.total_unclaimed_stnear account amount
  pure (x.1, { r with claimable_stnear := x.2.1, total_unclaimed_stnear := x.2.2 })

/-- `internal.rs:149-157` -/
def remove_claimable_mpdao (D : Disk) (r : StateRec) (account : String) (amount : Nat) : Res (Disk × StateRec) := do
  let x ← remove_claimable D r.claimable_mpdao r.total_unclaimed_mpdao account amount
  pure (x.1, { r with claimable_mpdao := x.2.1, total_unclaimed_mpdao := x.2.2 })

/-- `internal.rs:159-167` -/
def remove_claimable_stnear (D : Disk) (r : StateRec) (account : String) (amount : Nat) : Res (Disk × StateRec) := do
  let x ← remove_claimable D r.claimable_stnear r.total_unclaimed_stnear account amount
  pure (x.1, { r with claimable_stnear := x.2.1, total_unclaimed_stnear := x.2.2 })

/-! ## `locking_position.rs`, `impl MetaVoteContract` -/

/-- `locking_position.rs:66-81` -/
def increase_locking_position (D : Disk) (r : StateRec) (v : VoterRec) (index mpdao_amount unbond_days : Nat) :
    Res (Disk × StateRec × VoterRec) := do
  let voting_power ← calculate_voting_power mpdao_amount unbond_days
  let current_position ← get_position D v index
  let amount ← addU128 current_position.amount mpdao_amount
  let vp ← addU128 current_position.voting_power voting_power
  let D ← replace_position D v index { current_position with amount := amount, voting_power := vp }
  let avp ← addU128 v.available_voting_power voting_power
  let total ← addU128 r.total_voting_power voting_power
  pure (D, { r with total_voting_power := total }, { v with available_voting_power := avp })

/-- `locking_position.rs:83-105`; `len() as u8` truncates. -/
def internal_create_locking_position (D : Disk) (r : StateRec) (v : VoterRec) (mpdao_amount unbond_days : Nat) :
    Res (Disk × StateRec × VoterRec) := do
  require (v.locking_positions.len % 256 < r.max_locking_positions) "The max number of locking positions is reached"
  let found ← find_locked_position D v unbond_days
  require (found = none) "a locking-position already exists"
  let voting_power ← calculate_voting_power mpdao_amount unbond_days
  let x := push_position D v ⟨mpdao_amount, unbond_days, voting_power, none⟩
  let avp ← addU128 x.2.available_voting_power voting_power
  let total ← addU128 r.total_voting_power voting_power
  pure (x.1, { r with total_voting_power := total }, { x.2 with available_voting_power := avp })

/-- `locking_position.rs:107-131` -/
def deposit_locking_position (D : Disk) (r : StateRec) (mpdao_amount unbond_days : Nat) (voter_id : String) (v : VoterRec) :
    Res (Disk × StateRec × VoterRec) := do
  require (r.min_unbond_period ≤ unbond_days ∧ unbond_days ≤ r.max_unbond_period) "Unbound period must be between min and max"
  let found ← find_locked_position D v unbond_days
  let x ← (match found with
    | some index => increase_locking_position D r v index mpdao_amount unbond_days
    | none => internal_create_locking_position D r v mpdao_amount unbond_days : Res (Disk × StateRec × VoterRec))
  let y ← insert_voter x.1 x.2.1 voter_id x.2.2
  pure (y.1, y.2, x.2.2)

/-- `locking_position.rs:133-155` -/
def create_unlocking_position (D : Disk) (r : StateRec) (c : Ctx) (v : VoterRec) (mpdao_amount unbond_days voting_power : Nat) :
    Res (Disk × VoterRec) := do
  require (v.locking_positions.len % 256 < r.max_locking_positions) "The max number of locking positions is reached"
  pure (push_position D v ⟨mpdao_amount, unbond_days, voting_power, some c.now⟩)

/-! ## `lib.rs` -/

/-- `lib.rs:124-128` -/
def set_stnear_contract (r : StateRec) (c : Ctx) (stnear_contract : AccountId) : Res StateRec := do
  assert_one_yocto c
  assert_only_owner r c
  pure { r with stnear_token_contract_address := stnear_contract }

/-- `lib.rs:130-134` -/
def set_operator_id (r : StateRec) (c : Ctx) (operator_id : AccountId) : Res StateRec := do
  assert_one_yocto c
  assert_only_owner r c
  pure { r with operator_id := operator_id }

/-- `lib.rs:136-140` -/
def set_owner_id (r : StateRec) (c : Ctx) (owner_id : AccountId) : Res StateRec := do
  assert_one_yocto c
  assert_only_owner r c
  pure { r with owner_id := owner_id }

/-- `lib.rs:147-150` -/
def update_registration_cost (r : StateRec) (c : Ctx) (new_cost : Nat) : Res StateRec := do
  assert_only_owner r c
  pure { r with registration_cost := new_cost }

/-- `lib.rs:777-781` -/
def update_min_unbond_period (r : StateRec) (c : Ctx) (new_min_unbond_period : Nat) : Res StateRec := do
  assert_one_yocto c
  assert_only_owner r c
  pure { r with min_unbond_period := new_min_unbond_period }

/-- `lib.rs:783-787` -/
def update_max_unbond_period (r : StateRec) (c : Ctx) (new_max_unbond_period : Nat) : Res StateRec := do
  assert_one_yocto c
  assert_only_owner r c
  pure { r with max_unbond_period := new_max_unbond_period }

/-- `lib.rs:789-793` -/
def set_prev_gov_contract (r : StateRec) (c : Ctx) (contract_id : String) : Res StateRec := do
  assert_one_yocto c
  assert_only_owner r c
  pure { r with prev_governance_contract := contract_id }

/-- `lib.rs:757-767` -/
def set_lock_in_vote_filters (r : StateRec) (c : Ctx) (end_timestamp_ms votable_numeric_id : Nat)
    (votable_address : Option String) : Res StateRec := do
  assert_operator r c
  pure { r with
    lock_votes_in_end_timestamp_ms := end_timestamp_ms
    lock_votes_in_address := votable_address
    lock_votes_in_numeric_id := votable_numeric_id }

/-- `self.associated_user_data.insert(..)` -/
def insert_data (a : Disk × StateRec) (d : String × String) : Res (Disk × StateRec) := do
  let x ← MapH.insert string string a.1 a.2.associated_user_data d.1 d.2
  pure (x.1, { a.2 with associated_user_data := x.2 })

/-- `lib.rs:166-174` -/
def update_airdrop_user_data (D : Disk) (r : StateRec) (c : Ctx) (encrypted_data : String) : Res (Disk × StateRec) := do
  require (c.deposit = r.registration_cost) "Pay yoctos for the registration cost"
  insert_data (D, r) (c.predecessor, encrypted_data)

/-- `lib.rs:180-186` -/
def operator_multi_set_airdrop_data (D : Disk) (r : StateRec) (c : Ctx) (data : List (String × String)) :
    Res (Disk × StateRec) := do
  assert_operator r c
  data.foldlM insert_data (D, r)

/-- `lib.rs:208-216` -/
def claim_and_lock (D : Disk) (r : StateRec) (c : Ctx) (amount locking_period : Nat) : Res (Disk × StateRec) := do
  assert_min_deposit_amount r amount
  let x ← remove_claimable_mpdao D r c.predecessor amount
  let v ← internal_get_voter_or_panic x.1 x.2 c.predecessor
  let y ← deposit_locking_position x.1 x.2 amount locking_period c.predecessor v
  pure (y.1, y.2.1)

/-- `lib.rs:231-254` -/
def unlock_position (D : Disk) (r : StateRec) (c : Ctx) (index : Nat) : Res (Disk × StateRec) := do
  let v ← internal_get_voter_or_panic D r c.predecessor
  let p ← get_position D v index
  require (p.voting_power ≤ v.available_voting_power) "Not enough free voting power to unlock!"
  let D ← replace_position D v index { p with unlocking_started_at := some c.now }
  let avp ← subU v.available_voting_power p.voting_power
  insert_voter D { r with total_voting_power := r.total_voting_power - p.voting_power } c.predecessor
    { v with available_voting_power := avp }

/-- `lib.rs:256-306` -/
def unlock_partial_position (D : Disk) (r : StateRec) (c : Ctx) (index amount : Nat) : Res (Disk × StateRec) := do
  let v ← internal_get_voter_or_panic D r c.predecessor
  let p ← get_position D v index
  if amount = p.amount then
    unlock_position D r c index
  else
    require (amount < p.amount) "Amount too large!"
    let rest ← subU p.amount amount
    require (r.min_deposit_amount ≤ rest) "A locking position cannot have less than the minimum"
    assert_at_least_1_mpdao amount
    let remove_voting_power ← calculate_voting_power amount p.locking_period
    require (remove_voting_power ≤ p.voting_power) "Not enough free voting power to unlock! (position)"
    require (remove_voting_power ≤ v.available_voting_power) "Not enough free voting power to unlock!"
    let x ← create_unlocking_position D r c v amount p.locking_period remove_voting_power
    let vp ← subU p.voting_power remove_voting_power
    let am ← subU p.amount amount
    assert_at_least_1_mpdao am
    let D ← replace_position x.1 x.2 index { p with voting_power := vp, amount := am }
    let avp ← subU x.2.available_voting_power remove_voting_power
    insert_voter D { r with total_voting_power := r.total_voting_power - remove_voting_power } c.predecessor
      { x.2 with available_voting_power := avp }

/-- `lib.rs:312-351` -/
def locking_position_extend_days (D : Disk) (r : StateRec) (c : Ctx) (index new_locking_period : Nat) :
    Res (Disk × StateRec) := do
  let v ← internal_get_voter_or_panic D r c.predecessor
  let p ← get_position D v index
  require (p.unlocking_started_at = none) "position should be locked in order to extend time"
  require (p.locking_period < new_locking_period) "new auto-lock period should be greater than previous one"
  let new_voting_power ← calculate_voting_power p.amount new_locking_period
  let delta ← subU new_voting_power p.voting_power
  let total ← addU128 r.total_voting_power delta
  let avp ← addU128 v.available_voting_power delta
  let D ← replace_position D v index { p with locking_period := new_locking_period, voting_power := new_voting_power }
  insert_voter D { r with total_voting_power := total } c.predecessor { v with available_voting_power := avp }

/-- `lib.rs:357-404` -/
def relock_position (D : Disk) (r : StateRec) (c : Ctx) (index locking_period amount_from_balance : Nat) :
    Res (Disk × StateRec) := do
  let v ← internal_get_voter_or_panic D r c.predecessor
  let p ← get_position D v index
  require (amount_from_balance ≤ v.balance) "Not enough balance."
  let started ← expect p.unlocking_started_at "Cannot re-lock a locked position."
  let unlocking_date := started + p.locking_period_millis
  require (c.now < unlocking_date → unlocking_date - c.now < days_to_millis locking_period)
    "The new locking period should be greater than the remaining days."
  let amount ← addU128 p.amount amount_from_balance
  let x ← remove_position D v index
  let balance ← subU x.2.balance amount_from_balance
  let y ← deposit_locking_position x.1 r amount locking_period c.predecessor { x.2 with balance := balance }
  pure (y.1, y.2.1)

/-- `lib.rs:406-481` -/
def relock_partial_position (D : Disk) (r : StateRec) (c : Ctx)
    (index amount_from_position locking_period amount_from_balance : Nat) : Res (Disk × StateRec) := do
  let v ← internal_get_voter_or_panic D r c.predecessor
  let p ← get_position D v index
  require (amount_from_balance ≤ v.balance) "Not enough balance."
  require (amount_from_position ≤ p.amount) "Locking position amount is not enough."
  let amount ← addU128 amount_from_balance amount_from_position
  require (r.min_deposit_amount ≤ amount) "A locking position cannot have less than the minimum"
  let started ← expect p.unlocking_started_at "Cannot re-lock a locked position."
  let unlocking_date := started + p.locking_period_millis
  let x ← (if c.now < unlocking_date then do
      require (unlocking_date - c.now < days_to_millis locking_period)
        "The new locking period should be greater than the remaining days."
      let new_amount ← subU p.amount amount_from_position
      require (r.min_deposit_amount ≤ amount) "A locking position cannot have less than the minimum"
      require (0 < new_amount) "Use relock_position() function instead."
      let vp ← calculate_voting_power new_amount p.locking_period
      let D ← replace_position D v index { p with amount := new_amount, voting_power := vp }
      pure (D, v)
    else do
      let rest ← subU p.amount amount_from_position
      let balance ← addU128 v.balance rest
      remove_position D { v with balance := balance } index : Res (Disk × VoterRec))
  let balance ← subU x.2.balance amount_from_balance
  let y ← deposit_locking_position x.1 r amount locking_period c.predecessor { x.2 with balance := balance }
  pure (y.1, y.2.1)

/-- `lib.rs:483-503` -/
def relock_from_balance (D : Disk) (r : StateRec) (c : Ctx) (locking_period amount_from_balance : Nat) :
    Res (Disk × StateRec) := do
  let v ← internal_get_voter_or_panic D r c.predecessor
  require (amount_from_balance ≤ v.balance) "Not enough balance."
  require (r.min_deposit_amount ≤ amount_from_balance) "A locking position cannot have less than the minimum"
  let balance ← subU v.balance amount_from_balance
  let y ← deposit_locking_position D r amount_from_balance locking_period c.predecessor { v with balance := balance }
  pure (y.1, y.2.1)

/-- `lib.rs:511-517` -/
def clear_locking_position (D : Disk) (r : StateRec) (c : Ctx) (position_index_list : List Nat) : Res (Disk × StateRec) := do
  require (position_index_list ≠ []) "Index list is empty."
  let v ← internal_get_voter_or_panic D r c.predecessor
  let x ← clear_fully_unlocked_positions D v c.now position_index_list
  insert_voter x.1 r c.predecessor x.2

/-! ### Voting -/

/-- `votes_for_address.insert(..)` and `voter.vote_positions.insert(..)` (`lib.rs:592-595`, `lib.rs:671-674`) -/
def set_vote (D : Disk) (v : VoterRec) (contract_address : String) (h : MapH) (votable_object_id : String) (votes : Nat) :
    Res (Disk × VoterRec) := do
  let x ← MapH.insert string u128 D h votable_object_id votes
  let y ← MapH.insert string mapH x.1 v.vote_positions contract_address x.2
  pure (y.1, { v with vote_positions := y.2 })

/-- `user_votes_for_app.remove(..)`, and removal or replacement of the map (`lib.rs:693-701`) -/
def del_vote (D : Disk) (v : VoterRec) (contract_address : String) (h : MapH) (votable_object_id : String) :
    Res (Disk × VoterRec) := do
  let x ← MapH.remove string u128 D h votable_object_id
  let y ← (if x.2.1.keys.len = 0 then do
      let y ← MapH.remove string mapH x.1 v.vote_positions contract_address
      pure (y.1, y.2.1)
    else MapH.insert string mapH x.1 v.vote_positions contract_address x.2.1 : Res (Disk × MapH))
  pure (y.1, { v with vote_positions := y.2 })

/-- `lib.rs:567-600` -/
def internal_create_voting_position (H : Hash) (D : Disk) (r : StateRec) (voter_id : String) (v : VoterRec) (voting_power : Nat)
    (contract_address votable_object_id : String) : Res (Disk × StateRec × VoterRec) := do
  require (voting_power ≤ v.available_voting_power) "Not enough free voting power."
  require (v.vote_positions.keys.len ≤ r.max_voting_positions) "Cannot exceed voting positions."
  let h ← get_vote_position_for_address H D v voter_id contract_address
  let old ← MapH.get string u128 D h votable_object_id
  let avp ← subU v.available_voting_power voting_power
  let votes ← addU128 (old.getD 0) voting_power
  let x ← set_vote D { v with available_voting_power := avp } contract_address h votable_object_id votes
  let y ← internal_increase_total_votes H x.1 r voting_power contract_address votable_object_id
  pure (y.1, y.2, x.2)

/-- `lib.rs:537-565` -/
def internal_vote (H : Hash) (D : Disk) (r : StateRec) (voter_id : String) (voting_power : Nat)
    (contract_address votable_object_id : String) : Res (Disk × StateRec) := do
  let v ← internal_get_voter_or_panic D r voter_id
  let x ← internal_create_voting_position H D r voter_id v voting_power contract_address votable_object_id
  insert_voter x.1 x.2.1 voter_id x.2.2

/-- `lib.rs:678-715` -/
def internal_remove_voting_position (H : Hash) (D : Disk) (r : StateRec) (voter_id : String) (v : VoterRec)
    (contract_address votable_object_id : String) : Res (Disk × StateRec × VoterRec) := do
  let h ← get_vote_position_for_address H D v voter_id contract_address
  let old ← MapH.get string u128 D h votable_object_id
  let votes ← expect old "Cannot unvote a Votable Object without votes."
  let avp ← addU128 v.available_voting_power votes
  let x ← del_vote D { v with available_voting_power := avp } contract_address h votable_object_id
  let y ← state_internal_decrease_total_votes_for_address H x.1 r votes contract_address votable_object_id
  pure (y.1, y.2, x.2)

/-- The test at `lib.rs:729-741`. -/
def is_vote_locked (r : StateRec) (now : Nat) (contract_address votable_object_id : String) : Bool :=
  match r.lock_votes_in_address with
  | some a => decide (now < r.lock_votes_in_end_timestamp_ms) && decide (a = contract_address)
      && matches_filter r.lock_votes_in_numeric_id votable_object_id
  | none => false

/-- `lib.rs:722-752` -/
def internal_unvote (H : Hash) (D : Disk) (r : StateRec) (c : Ctx) (voter_id : String)
    (contract_address votable_object_id : String) : Res (Disk × StateRec) := do
  require (is_vote_locked r c.now contract_address votable_object_id = false) "you can not remove votes here"
  let v ← internal_get_voter_or_panic D r voter_id
  let x ← internal_remove_voting_position H D r voter_id v contract_address votable_object_id
  insert_voter x.1 x.2.1 voter_id x.2.2

/-- `lib.rs:602-676` -/
def rebalance (H : Hash) (D : Disk) (r : StateRec) (c : Ctx) (voting_power : Nat) (contract_address votable_object_id : String) :
    Res (Disk × StateRec) := do
  let v ← internal_get_voter_or_panic D r c.predecessor
  let h ← get_vote_position_for_address H D v c.predecessor contract_address
  let old ← MapH.get string u128 D h votable_object_id
  let votes ← expect old "Rebalance not allowed for nonexisting Votable Object."
  require (votes ≠ voting_power) "Cannot rebalance to same Voting Power."
  if voting_power = 0 then
    internal_unvote H D r c c.predecessor contract_address votable_object_id
  else
    let x ← (if votes < voting_power then do
        let additional_votes ← subU voting_power votes
        require (additional_votes ≤ v.available_voting_power) "Not enough free voting power to unlock!"
        let avp ← subU v.available_voting_power additional_votes
        let votes ← addU128 votes additional_votes
        let y ← internal_increase_total_votes H D r additional_votes contract_address votable_object_id
        pure (y.1, y.2, avp, votes)
      else do
        let remove_votes ← subU votes voting_power
        let avp ← addU128 v.available_voting_power remove_votes
        let votes ← subU votes remove_votes
        let y ← state_internal_decrease_total_votes_for_address H D r remove_votes contract_address votable_object_id
        pure (y.1, y.2, avp, votes) : Res (Disk × StateRec × Nat × Nat))
    let y ← set_vote x.1 { v with available_voting_power := x.2.2.1 } contract_address h votable_object_id x.2.2.2
    insert_voter y.1 x.2.1 c.predecessor y.2

/-! ### Migration and mirroring -/

/-- Body of the loop at `lib.rs:811-817`. -/
def migration_step (voter_id : String) (a : Disk × StateRec × VoterRec) (lp : Nat × Nat) : Res (Disk × StateRec × VoterRec) :=
  deposit_locking_position a.1 a.2.1 (lp.1 / 1000000000000000000) lp.2 voter_id a.2.2

/-- `lib.rs:799-830` -/
def migration_create_lps (H : Hash) (D : Disk) (r : StateRec) (c : Ctx) (voter_id : String) (locking_positions : List (Nat × Nat))
    (encrypted_associated_user_data : Option String) : Res (Disk × StateRec) := do
  require (c.predecessor = r.prev_governance_contract) "Only the old gov contract can call this function."
  let v ← internal_get_voter H D r voter_id
  let x ← locking_positions.foldlM (migration_step voter_id) (D, r, v)
  match encrypted_associated_user_data with
  | some data => do
    let old ← MapH.get string string x.1 x.2.1.associated_user_data c.predecessor
    if old = none then insert_data (x.1, x.2.1) (c.predecessor, data) else pure (x.1, x.2.1)
  | none => pure (x.1, x.2.1)

/-- The `while` loop at `lib.rs:861-875`, with at most `fuel` iterations. -/
def mirror_remove_votes (H : Hash) (voter_id : String) (new_voting_power : Nat) :
    Nat → Disk → StateRec → VoterRec → Nat → Res (Disk × StateRec × VoterRec × Nat)
  | fuel, D, r, v, used =>
    if new_voting_power < used then
      match fuel with
      | 0 => .error (.assert "called `Option::unwrap()` on a `None` value")
      | fuel + 1 => do
        let key ← MapH.keyAt string D v.vote_positions 0
        let app ← expect key "unwrap"
        let h ← MapH.get string mapH D v.vote_positions app
        let h ← expect h "unwrap"
        let key ← MapH.keyAt string D h 0
        let obj ← expect key "unwrap"
        let votes ← MapH.get string u128 D h obj
        let votes ← expect votes "unwrap"
        let x ← internal_remove_voting_position H D r voter_id v app obj
        let used ← subU used votes
        mirror_remove_votes H voter_id new_voting_power fuel x.1 x.2.1 x.2.2 used
    else pure (D, r, v, used)

/-- The number of vote entries of a voter, which bounds the loop (every iteration that succeeds removes one). -/
def entryCount (D : Disk) (v : VoterRec) : Res Nat := do
  let maps ← MapH.valueList mapH D v.vote_positions
  pure ((maps.map (·.keys.len)).sum)

/-- Body of the loop at `lib.rs:884-890`. -/
def mirror_step (a : Disk × StateRec × VoterRec) (lp : Nat × Nat) : Res (Disk × StateRec × VoterRec) :=
  internal_create_locking_position a.1 a.2.1 a.2.2 lp.2 lp.1

/-- `lib.rs:834-899` -/
def operator_mirror_lps (H : Hash) (D : Disk) (r : StateRec) (c : Ctx) (external_address : String)
    (locking_positions : List (Nat × Nat)) : Res (Disk × StateRec) := do
  assert_operator r c
  let voter_id := pseudo_near_address external_address
  let v ← internal_get_voter H D r voter_id
  let used_voting_power ← sum_used_votes D v
  let prev_voting_power ← addU128 v.available_voting_power used_voting_power
  let new_vps ← locking_positions.mapM (fun i => calculate_voting_power i.2 i.1)
  let new_voting_power ← sumU128 new_vps
  let fuel ← entryCount D v
  let x ← mirror_remove_votes H voter_id new_voting_power fuel D r v used_voting_power
  let cl := VecH.clear x.1 x.2.2.1.locking_positions
  let v := { x.2.2.1 with locking_positions := cl.2, available_voting_power := 0 }
  let y ← locking_positions.foldlM mirror_step (cl.1, x.2.1, v)
  let avp ← subU y.2.2.available_voting_power x.2.2.2
  let total ← subU y.2.1.total_voting_power prev_voting_power
  insert_voter y.1 { y.2.1 with total_voting_power := total } voter_id { y.2.2 with available_voting_power := avp }

/-! ## `withdraw.rs` -/

/-- `withdraw.rs:66-76` -/
def transfer_mpdao_to_voter (r : StateRec) (voter_id : String) (amount : Nat) : Transfer :=
  ⟨r.mpdao_token_contract_address, voter_id, amount, .after_transfer_mpdao voter_id amount⟩

/-- `withdraw.rs:108-123` -/
def transfer_stnear_to_voter (r : StateRec) (source receiver : String) (amount : Nat) : Transfer :=
  ⟨r.stnear_token_contract_address, receiver, amount, .after_transfer_stnear source amount⟩

/-- `withdraw.rs:11-41` -/
def internal_withdraw (D : Disk) (r : StateRec) (c : Ctx) (voter_id : String) (position_index_list : List Nat)
    (optional_amount_to_withdraw : Option Nat) : Res (Disk × StateRec × Transfer) := do
  assert_one_yocto c
  let v ← internal_get_voter_or_panic D r voter_id
  let x ← (if position_index_list ≠ [] then clear_fully_unlocked_positions D v c.now position_index_list
    else pure (D, v) : Res (Disk × VoterRec))
  let total_to_withdraw := optional_amount_to_withdraw.getD x.2.balance
  require (0 < total_to_withdraw) "Nothing to withdraw."
  require (total_to_withdraw ≤ x.2.balance) "Not enough balance."
  let balance ← subU x.2.balance total_to_withdraw
  let v := { x.2 with balance := balance }
  let y ← (if is_empty v then do
      let y ← MapH.remove string voterRec x.1 r.voters voter_id
      pure (y.1, { r with voters := y.2.1 })
    else insert_voter x.1 r voter_id v : Res (Disk × StateRec))
  pure (y.1, y.2, transfer_mpdao_to_voter y.2 voter_id total_to_withdraw)

/-- `withdraw.rs:44-52` -/
def withdraw (D : Disk) (r : StateRec) (c : Ctx) (position_index_list : List Nat) (amount_from_balance : Nat) :
    Res (Disk × StateRec × Transfer) :=
  internal_withdraw D r c c.predecessor position_index_list (if amount_from_balance = 0 then none else some amount_from_balance)

/-- `withdraw.rs:55-60` -/
def withdraw_all (D : Disk) (r : StateRec) (c : Ctx) : Res (Disk × StateRec × Transfer) := do
  let v ← internal_get_voter_or_panic D r c.predecessor
  let l ← get_unlocked_position_indexes D v c.now
  internal_withdraw D r c c.predecessor l none

/-- `withdraw.rs:101-105` -/
def restore_transfer_to_mpdao (H : Hash) (D : Disk) (r : StateRec) (amount : Nat) (voter_id : String) : Res (Disk × StateRec) := do
  let v ← internal_get_voter H D r voter_id
  let balance ← addU128 v.balance amount
  insert_voter D r voter_id { v with balance := balance }

/-- `withdraw.rs:79-99` -/
def after_transfer_mpdao_callback (H : Hash) (D : Disk) (r : StateRec) (c : Ctx) (voter_id : String) (amount : Nat) :
    Res (Disk × StateRec) := do
  let ok ← expect c.promise_results.head? "promise_result"
  if ok then pure (D, r) else restore_transfer_to_mpdao H D r amount voter_id

/-- `withdraw.rs:126-142` -/
def after_transfer_stnear_callback (D : Disk) (r : StateRec) (c : Ctx) (source : String) (amount : Nat) :
    Res (Disk × StateRec) := do
  let ok ← expect c.promise_results.head? "promise_result"
  if ok then pure (D, r) else add_claimable_stnear D r source amount

/-- `lib.rs:219-225` -/
def claim_stnear (D : Disk) (r : StateRec) (c : Ctx) (amount : Nat) : Res (Disk × StateRec × Transfer) := do
  let x ← remove_claimable_stnear D r c.predecessor amount
  pure (x.1, x.2, transfer_stnear_to_voter x.2 c.predecessor c.predecessor amount)

/-! ## `deposit.rs` -/

/-- Body of the loop at `deposit.rs:80-85`. -/
def distribute_mpdao_step (a : (Disk × StateRec) × Nat) (item : String × Nat) : Res ((Disk × StateRec) × Nat) := do
  let amount ← mulU128 item.2 1000000
  let x ← add_claimable_mpdao a.1.1 a.1.2 item.1 amount
  let total ← addU128 a.2 amount
  pure (x, total)

/-- Body of the loop at `deposit.rs:90-96`. -/
def distribute_stnear_step (a : (Disk × StateRec) × Nat) (item : String × Nat) : Res ((Disk × StateRec) × Nat) := do
  let amount ← mulU128 item.2 E20
  let x ← add_claimable_stnear a.1.1 a.1.2 item.1 amount
  let total ← addU128 a.2 amount
  pure (x, total)

/-- `deposit.rs:70-107` -/
def distribute_for_claims (D : Disk) (r : StateRec) (c : Ctx) (total_amount : Nat) (distribute_info : List (String × Nat)) :
    Res (Disk × StateRec) := do
  let x ← (if c.predecessor = r.mpdao_token_contract_address then do
      let x ← distribute_info.foldlM distribute_mpdao_step ((D, r), 0)
      let acc ← addU128 x.1.2.accumulated_mpdao_distributed_for_claims x.2
      pure ((x.1.1, { x.1.2 with accumulated_mpdao_distributed_for_claims := acc }), x.2)
    else if c.predecessor = r.stnear_token_contract_address then do
      let x ← distribute_info.foldlM distribute_stnear_step ((D, r), 0)
      let acc ← addU128 x.1.2.accum_distributed_stnear_for_claims x.2
      pure ((x.1.1, { x.1.2 with accum_distributed_stnear_for_claims := acc }), x.2)
    else .error (.assert "Unknown token address") : Res ((Disk × StateRec) × Nat))
  require (x.2 = total_amount) "total to distribute != total_amount sent"
  pure x.1

/-- The pair `(voter_id, days)` of `deposit.rs:37-55`. -/
def deposit_target (r : StateRec) (J : Json) (sender_id : String) (msg : List UInt8) : Res (String × Nat) := do
  let bracket ← has_prefix msg [91]
  if bracket then
    let pair ← expect (J.parse_pair msg) "Err parsing msg, expected [voter_id,days]"
    require (sender_id = r.owner_id) "only allowed for owner"
    pure pair
  else
    let days ← expect (parse_u16 msg) "Err parsing bonding_days from msg. Must be u16"
    pure (sender_id, days)

/-- `deposit.rs:13-64` -/
def ft_on_transfer (H : Hash) (J : Json) (D : Disk) (r : StateRec) (c : Ctx) (sender_id : String) (amount : Nat)
    (msg : List UInt8) : Res (Disk × StateRec) := do
  let claims ← has_prefix msg FOR_CLAIMS
  if claims then
    let info ← expect (J.parse_claims (msg.drop 11)) "Err parsing msg for-claims"
    distribute_for_claims D r c amount info
  else
    require (c.predecessor = r.mpdao_token_contract_address) "You can only bond mpDAO-token"
    let t ← deposit_target r J sender_id msg
    assert_min_deposit_amount r amount
    let v ← internal_get_voter H D r t.1
    let x ← deposit_locking_position D r amount t.2 t.1 v
    pure (x.1, x.2.1)

/-! ## `evm_delegate.rs` -/

/-- Addresses, and pairs of account and signature (`lib.rs:59-61`) -/
abbrev addresses : Codec (List String) := list string
abbrev delegation : Codec (String × String) := pair string string

/-- `evm_delegate.rs:13-23` -/
def pre_delegate_evm_address (D : Disk) (r : StateRec) (c : Ctx) (evm_address signature : String) : Res (Disk × StateRec) := do
  assert_one_yocto c
  require ('.' ∉ evm_address.toList) "evm_address can not contain dots"
  pure (LookupH.insert string delegation D r.evm_pre_delegation evm_address (c.predecessor, signature), r)

/-- `evm_delegate.rs:31-35` -/
def operator_remove_pre_delegate_evm_address (D : Disk) (r : StateRec) (c : Ctx) (evm_address : String) :
    Res (Disk × StateRec) := do
  assert_one_yocto c
  assert_operator r c
  pure (LookupH.remove string D r.evm_pre_delegation evm_address, r)

/-- `evm_delegate.rs:51-62` -/
def drop_previous_delegate (D : Disk) (r : StateRec) (evm_address previous : String) : Res (Disk × StateRec) := do
  let l ← MapH.get string addresses D r.evm_delegates previous
  let l ← expect l "unwrap"
  let l := l.filter (fun x => x ≠ evm_address)
  let x ← (if l.length = 0 then do
      let x ← MapH.remove string addresses D r.evm_delegates previous
      pure (x.1, x.2.1)
    else MapH.insert string addresses D r.evm_delegates previous l : Res (Disk × MapH))
  pure (x.1, { r with evm_delegates := x.2 })

/-- `evm_delegate.rs:65-73` -/
def add_delegate (D : Disk) (r : StateRec) (evm_address account_id signature : String) : Res (Disk × StateRec) := do
  let l ← MapH.get string addresses D r.evm_delegates account_id
  let x ← MapH.insert string addresses D r.evm_delegates account_id (l.getD [] ++ [evm_address])
  pure (LookupH.insert string delegation x.1 r.evm_delegation_signatures evm_address (account_id, signature),
    { r with evm_delegates := x.2 })

/-- `evm_delegate.rs:38-75` -/
def operator_confirm_delegated_evm_address (D : Disk) (r : StateRec) (c : Ctx) (evm_address : String) :
    Res (Disk × StateRec) := do
  assert_one_yocto c
  assert_operator r c
  let p ← LookupH.get string delegation D r.evm_pre_delegation evm_address
  match p with
  | none => pure (D, r)
  | some p => do
    let D := LookupH.remove string D r.evm_pre_delegation evm_address
    let e ← LookupH.get string delegation D r.evm_delegation_signatures evm_address
    match e with
    | some existing =>
      if existing.1 = p.1 then pure (D, r)
      else do
        let x ← drop_previous_delegate D r evm_address existing.1
        add_delegate x.1 x.2 evm_address p.1 p.2
    | none => add_delegate D r evm_address p.1 p.2

/-- `evm_delegate.rs:96-111` -/
def verify_delegate (D : Disk) (r : StateRec) (c : Ctx) (evm_address : String) : Res String := do
  let l ← MapH.get string addresses D r.evm_delegates c.predecessor
  require (evm_address ∈ l.getD []) "is not delegated to"
  pure (pseudo_near_address evm_address)

/-- `evm_delegate.rs:78-93` -/
def delegated_claim_stnear (D : Disk) (r : StateRec) (c : Ctx) (evm_address : String) (amount : Nat) :
    Res (Disk × StateRec × Transfer) := do
  let pseudo_account ← verify_delegate D r c evm_address
  let x ← remove_claimable_stnear D r pseudo_account amount
  pure (x.1, x.2, transfer_stnear_to_voter x.2 pseudo_account c.predecessor amount)

/-- `evm_delegate.rs:113-128` -/
def vote_delegated (H : Hash) (D : Disk) (r : StateRec) (c : Ctx) (evm_address : String) (voting_power : Nat)
    (contract_address votable_object_id : String) : Res (Disk × StateRec) := do
  let pseudo_account ← verify_delegate D r c evm_address
  internal_vote H D r pseudo_account voting_power contract_address votable_object_id

/-- `evm_delegate.rs:130-139` -/
def unvote_delegated (H : Hash) (D : Disk) (r : StateRec) (c : Ctx) (evm_address contract_address votable_object_id : String) :
    Res (Disk × StateRec) := do
  let pseudo_account ← verify_delegate D r c evm_address
  internal_unvote H D r c pseudo_account contract_address votable_object_id

/-- `evm_delegate.rs:142-163` -/
def remove_delegated_evm_address (D : Disk) (r : StateRec) (c : Ctx) (evm_address : String) : Res (Disk × StateRec) := do
  assert_one_yocto c
  let e ← LookupH.get string delegation D r.evm_delegation_signatures evm_address
  let existing ← expect e "note delegated"
  require (existing.1 = c.predecessor) "note delegated to you"
  let D := LookupH.remove string D r.evm_delegation_signatures evm_address
  let l ← MapH.get string addresses D r.evm_delegates c.predecessor
  let l ← expect l "unwrap"
  let x ← MapH.insert string addresses D r.evm_delegates c.predecessor (l.filter (fun x => x ≠ evm_address))
  pure (x.1, { r with evm_delegates := x.2 })

/-! ## Installation, and calls -/

/-- The record that `new` gives (`lib.rs:89-117`). -/
def newRec (H : Hash) (owner_id operator_id : AccountId)
    (min_unbond_period max_unbond_period min_deposit_amount max_locking_positions max_voting_positions : Nat)
    (mpdao_token_contract_address stnear_token_contract_address : AccountId) (registration_cost : Nat)
    (prev_governance_contract : String) : StateRec where
  owner_id := owner_id
  operator_id := operator_id
  voters := .at (pre H .voters) 0
  votes := .at (pre H .votes) 0
  min_unbond_period := min_unbond_period
  max_unbond_period := max_unbond_period
  min_deposit_amount := min_deposit_amount
  max_locking_positions := max_locking_positions
  max_voting_positions := max_voting_positions
  mpdao_token_contract_address := mpdao_token_contract_address
  total_voting_power := 0
  claimable_mpdao := .at (pre H .claimable) 0
  accumulated_mpdao_distributed_for_claims := 0
  total_unclaimed_mpdao := 0
  stnear_token_contract_address := stnear_token_contract_address
  claimable_stnear := .at (pre H .claimableStNear) 0
  accum_distributed_stnear_for_claims := 0
  total_unclaimed_stnear := 0
  registration_cost := registration_cost
  associated_user_data := .at (pre H .airdropData) 0
  prev_governance_contract := prev_governance_contract
  evm_delegates := .at (pre H .evmDelegates) 0
  evm_pre_delegation := ⟨pre H .evmPreDelegation⟩
  evm_delegation_signatures := ⟨pre H .evmDelegationSignatures⟩
  lock_votes_in_end_timestamp_ms := 0
  lock_votes_in_address := none
  lock_votes_in_numeric_id := 0

/-- `lib.rs:71-118`, and the record written by the wrapper of `#[init]` -/
def new (H : Hash) (D : Disk) (owner_id operator_id : AccountId)
    (min_unbond_period max_unbond_period min_deposit_amount max_locking_positions max_voting_positions : Nat)
    (mpdao_token_contract_address stnear_token_contract_address : AccountId) (registration_cost : Nat)
    (prev_governance_contract : String) : Res Disk := do
  require (D STATE = none) "The contract is already initialized"
  require (min_unbond_period < max_unbond_period) "Review the min and max locking period"
  pure (save D (newRec H owner_id operator_id min_unbond_period max_unbond_period min_deposit_amount max_locking_positions
    max_voting_positions mpdao_token_contract_address stnear_token_contract_address registration_cost prev_governance_contract))

/-- `migrate.rs:42-85` -/
def migrate (D : Disk) (c : Ctx) : Res Disk := do
  require (c.predecessor = c.current) "Method migrate is private"
  let b ← expect (D STATE) "failed"
  let b ← migrateRec b
  pure (upd D STATE (some b))

/-- A method that works on the record only. -/
def onRec (D : Disk) (x : Res StateRec) : Res (Disk × StateRec × List Transfer) := do
  let r ← x
  pure (D, r, [])

/-- A method that starts no transfer. -/
def quiet (x : Res (Disk × StateRec)) : Res (Disk × StateRec × List Transfer) := do
  let r ← x
  pure (r.1, r.2, [])

/-- A method that starts one transfer. -/
def sends (x : Res (Disk × StateRec × Transfer)) : Res (Disk × StateRec × List Transfer) := do
  let r ← x
  pure (r.1, r.2.1, [r.2.2])

/-- Body of each entry point apart from `new` and `migrate`. -/
def run (H : Hash) (J : Json) (D : Disk) (r : StateRec) (c : Ctx) : Call → Res (Disk × StateRec × List Transfer)
  | .new_ .. => pure (D, r, [])
  | .migrate => pure (D, r, [])
  | .set_stnear_contract a => onRec D (set_stnear_contract r c a)
  | .set_operator_id a => onRec D (set_operator_id r c a)
  | .set_owner_id a => onRec D (set_owner_id r c a)
  | .update_registration_cost n => onRec D (update_registration_cost r c n)
  | .update_airdrop_user_data d => quiet (update_airdrop_user_data D r c d)
  | .operator_multi_set_airdrop_data d => quiet (operator_multi_set_airdrop_data D r c d)
  | .claim_and_lock a p => quiet (claim_and_lock D r c a p)
  | .claim_stnear a => sends (claim_stnear D r c a)
  | .unlock_position i => quiet (unlock_position D r c i)
  | .unlock_partial_position i a => quiet (unlock_partial_position D r c i a)
  | .locking_position_extend_days i p => quiet (locking_position_extend_days D r c i p)
  | .relock_position i p b => quiet (relock_position D r c i p b)
  | .relock_partial_position i a p b => quiet (relock_partial_position D r c i a p b)
  | .relock_from_balance p b => quiet (relock_from_balance D r c p b)
  | .clear_locking_position l => quiet (clear_locking_position D r c l)
  | .vote n a o => quiet (internal_vote H D r c.predecessor n a o)
  | .rebalance n a o => quiet (rebalance H D r c n a o)
  | .unvote a o => quiet (internal_unvote H D r c c.predecessor a o)
  | .set_lock_in_vote_filters t n a => onRec D (set_lock_in_vote_filters r c t n a)
  | .update_min_unbond_period d => onRec D (update_min_unbond_period r c d)
  | .update_max_unbond_period d => onRec D (update_max_unbond_period r c d)
  | .set_prev_gov_contract i => onRec D (set_prev_gov_contract r c i)
  | .migration_create_lps v l d => quiet (migration_create_lps H D r c v l d)
  | .operator_mirror_lps e l => quiet (operator_mirror_lps H D r c e l)
  | .withdraw l a => sends (withdraw D r c l a)
  | .withdraw_all => sends (withdraw_all D r c)
  | .after_transfer_mpdao_callback v a => quiet (after_transfer_mpdao_callback H D r c v a)
  | .after_transfer_stnear_callback v a => quiet (after_transfer_stnear_callback D r c v a)
  | .ft_on_transfer se a m => quiet (ft_on_transfer H J D r c se a m)
  | .pre_delegate_evm_address e g => quiet (pre_delegate_evm_address D r c e g)
  | .operator_remove_pre_delegate_evm_address e => quiet (operator_remove_pre_delegate_evm_address D r c e)
  | .operator_confirm_delegated_evm_address e => quiet (operator_confirm_delegated_evm_address D r c e)
  | .delegated_claim_stnear e a => sends (delegated_claim_stnear D r c e a)
  | .vote_delegated e n a o => quiet (vote_delegated H D r c e n a o)
  | .unvote_delegated e a o => quiet (unvote_delegated H D r c e a o)
  | .remove_delegated_evm_address e => quiet (remove_delegated_evm_address D r c e)

/-- A call: the tests of `#[near_bindgen]`, state read, method, state written. -/
def exec (H : Hash) (J : Json) (D : Disk) (c : Ctx) (k : Call) : Res (Disk × List Transfer) := do
  require (k.payable = true ∨ c.deposit = 0) "Method doesn't accept deposit"
  require (k.is_private = true → c.predecessor = c.current) "Method is private"
  require (k.in_range = true) "Failed to deserialize input from JSON."
  match k with
  | .new_ o op a b d l v m st n p => do
    let D ← new H D o op a b d l v m st n p
    pure (D, [])
  | .migrate => do
    let D ← migrate D c
    pure (D, [])
  | k => do
    let r ← load D
    let x ← run H J D r c k
    pure (save x.1 x.2.1, x.2.2)

end Verif.MetaVote.Bytes
