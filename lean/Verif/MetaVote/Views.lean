import Verif.MetaVote.Step

/-!
# meta-vote contract: view functions

`view.rs`, and the views of `lib.rs` and `evm_delegate.rs`.  A view that can panic returns `Res`.
`now` is `get_current_epoch_millis()`.  Strings and `U128` wrappers are the values themselves.
-/

namespace Verif.MetaVote

open Verif

/-- `types.rs:25-34` -/
structure LockingPositionJSON where
  index : Option Nat
  amount : Nat
  locking_period : Nat
  voting_power : Nat
  unlocking_started_at : Option Nat
  is_unlocked : Bool
  is_unlocking : Bool
  is_locked : Bool
  deriving DecidableEq, Repr

/-- `types.rs:38-42` -/
structure VotableObjectJSON where
  votable_contract : String
  id : String
  current_votes : Nat
  deriving DecidableEq, Repr

/-- `types.rs:46-50` -/
structure VotePositionJSON where
  votable_address : String
  votable_object_id : String
  voting_power : Nat
  deriving DecidableEq, Repr

/-- `voter.rs:5-12` -/
structure VoterJSON where
  voter_id : String
  balance_in_contract : Nat
  locking_positions : List LockingPositionJSON
  voting_power : Nat
  vote_positions : List VotePositionJSON
  deriving DecidableEq, Repr

/-- `locking_position.rs:50-61` -/
def LockingPosition.to_json (p : LockingPosition) (now : Nat) (index : Option Nat) :
    LockingPositionJSON :=
  ⟨index, p.amount, p.locking_period, p.voting_power, p.unlocking_started_at, p.is_unlocked now,
    p.is_unlocking now, p.is_locked⟩

/-- The loops `for index in 0..len { ... get(index).unwrap() ... to_json(Some(index)) }`
(`voter.rs:128-132`, `view.rs:181-190`): index and element of each position. -/
def positions_json (now : Nat) (l : List LockingPosition) : List LockingPositionJSON :=
  l.zipIdx.map (fun x => x.1.to_json now (some x.2))

/-- `voter.rs:127-154`; the two nested loops over keys. -/
def Voter.to_json (v : Voter) (now : Nat) (voter_id : String) : VoterJSON :=
  ⟨voter_id, v.balance, positions_json now v.locking_positions, v.available_voting_power,
    v.vote_positions.entries.flatMap (fun a => a.2.entries.map (fun o => ⟨a.1, o.1, o.2⟩))⟩

/-- The paging loops: `for index in start..min(start + limit, len)`, reading the key at `index` and
then its value (`view.rs:87-100`, `127-143`, `lib.rs:189-201`).  `from_index` and `limit` are `u32`,
added as `u64`: no overflow. -/
def page {V R : Type} (m : UMap String V) (f : String → V → R) (from_index limit : Nat) :
    Res (List R) :=
  (List.range (min (from_index + limit) m.len - from_index)).mapM (fun i => do
    let k ← expect m.keys[from_index + i]? "called `Option::unwrap()` on a `None` value"
    let v ← expect (m.get k) "called `Option::unwrap()` on a `None` value"
    pure (f k v))

namespace State

/-- `view.rs:34-36` -/
def get_owner_id (s : State) : String := s.owner_id
/-- `view.rs:37-39` -/
def get_operator_id (s : State) : String := s.operator_id

/-- `view.rs:12-30`, `view.rs:41-61` -/
structure ContractInfoJson where
  owner_id : String
  operator_id : String
  voter_count : Nat
  min_unbond_period : Nat
  max_unbond_period : Nat
  min_deposit_amount : Nat
  max_locking_positions : Nat
  max_voting_positions : Nat
  mpdao_token_contract_address : String
  stnear_token_contract_address : String
  registration_cost : Nat
  prev_governance_contract : String
  accumulated_mpdao_distributed_for_claims : Nat
  total_unclaimed_mpdao : Nat
  accum_distributed_stnear_for_claims : Nat
  total_unclaimed_stnear : Nat
  evm_delegates_count : Nat
  deriving DecidableEq, Repr

/-- `view.rs:41-61` -/
def get_contract_info (s : State) : ContractInfoJson :=
  { owner_id := s.owner_id
    operator_id := s.operator_id
    voter_count := s.voters.len
    min_unbond_period := s.min_unbond_period
    max_unbond_period := s.max_unbond_period
    min_deposit_amount := s.min_deposit_amount
    max_locking_positions := s.max_locking_positions
    max_voting_positions := s.max_voting_positions
    mpdao_token_contract_address := s.mpdao_token_contract_address
    stnear_token_contract_address := s.stnear_token_contract_address
    registration_cost := s.registration_cost
    prev_governance_contract := s.prev_governance_contract
    accumulated_mpdao_distributed_for_claims := s.accumulated_mpdao_distributed_for_claims
    total_unclaimed_mpdao := s.total_unclaimed_mpdao
    accum_distributed_stnear_for_claims := s.accum_distributed_stnear_for_claims
    total_unclaimed_stnear := s.total_unclaimed_stnear
    evm_delegates_count := s.evm_delegates.len }

/-- `view.rs:63-65` -/
def get_voters_count (s : State) : Nat := s.voters.len

/-- `view.rs:67-69` -/
def get_total_voting_power (s : State) : Nat := s.total_voting_power

/-- `view.rs:72-84` -/
def get_voter_info (s : State) (now : Nat) (voter_id : String) : VoterJSON :=
  match s.voters.get voter_id with
  | some v => v.to_json now voter_id
  | none => ⟨voter_id, 0, [], 0, []⟩

/-- `view.rs:87-100` -/
def get_voters (s : State) (now from_index limit : Nat) : Res (List VoterJSON) :=
  page s.voters (fun k v => v.to_json now k) from_index limit

/-- `view.rs:102-106` -/
def get_balance (s : State) (now : Nat) (voter_id : String) : Res Nat := do
  let voter := s.internal_get_voter voter_id
  let u ← voter.sum_unlocked now
  addU128 voter.balance u

/-- `view.rs:108-113` -/
def get_claimable_mpdao (s : State) (voter_id : String) : Nat := (s.claimable_mpdao.get voter_id).getD 0

/-- `view.rs:115-117` -/
def get_claimable_meta (s : State) (voter_id : String) : Nat := s.get_claimable_mpdao voter_id

/-- `view.rs:119-124` -/
def get_claimable_stnear (s : State) (voter_id : String) : Nat :=
  (s.claimable_stnear.get voter_id).getD 0

/-- `view.rs:146-148` (`internal_get_claims`, 127-143) -/
def get_stnear_claims (s : State) (from_index limit : Nat) : Res (List (String × Nat)) :=
  page s.claimable_stnear (fun k v => (k, v)) from_index limit

/-- `view.rs:151-153` -/
def get_claims (s : State) (from_index limit : Nat) : Res (List (String × Nat)) :=
  page s.claimable_mpdao (fun k v => (k, v)) from_index limit

/-- `view.rs:155-158` -/
def get_locked_balance (s : State) (voter_id : String) : Res Nat :=
  (s.internal_get_voter voter_id).sum_locked

/-- `view.rs:160-163` -/
def get_unlocking_balance (s : State) (now : Nat) (voter_id : String) : Res Nat :=
  (s.internal_get_voter voter_id).sum_unlocking now

/-- `view.rs:165-168` -/
def get_available_voting_power (s : State) (voter_id : String) : Nat :=
  (s.internal_get_voter voter_id).available_voting_power

/-- `view.rs:170-173` -/
def get_used_voting_power (s : State) (voter_id : String) : Res Nat :=
  (s.internal_get_voter voter_id).sum_used_votes

/-- `view.rs:175-177` -/
def get_locking_period (s : State) : Nat × Nat := (s.min_unbond_period, s.max_unbond_period)

/-- `view.rs:180-191` -/
def get_all_locking_positions (s : State) (now : Nat) (voter_id : String) : List LockingPositionJSON :=
  positions_json now (s.internal_get_voter voter_id).locking_positions

/-- `view.rs:193-203` -/
def get_locking_position (s : State) (now index : Nat) (voter_id : String) :
    Option LockingPositionJSON :=
  match (s.internal_get_voter voter_id).locking_positions[index]? with
  | some p => some (p.to_json now (some index))
  | none => none

/-- `view.rs:206-216` -/
def get_total_votes (s : State) (contract_address votable_object_id : String) : Nat :=
  match s.votes.get contract_address with
  | some object => (object.get votable_object_id).getD 0
  | none => 0

/-- `view.rs:220-231`.  `UnorderedMap::new(StorageKey::Votes)` is an empty map. -/
def get_votes_by_app (s : State) (app_or_contract_address : String) : List (String × Nat) :=
  ((s.votes.get app_or_contract_address).getD UMap.empty).entries

/-- `results.sort_by_key(|v| v.current_votes.0)`: stable, ascending. -/
def sort_by_votes (l : List VotableObjectJSON) : List VotableObjectJSON :=
  l.insertionSort (fun a b => a.current_votes ≤ b.current_votes)

/-- `view.rs:234-253` -/
def get_votes_by_contract (s : State) (contract_address : String) : List VotableObjectJSON :=
  sort_by_votes (((s.votes.get contract_address).getD UMap.empty).entries.map
    (fun o => ⟨contract_address, o.1, o.2⟩))

/-- `view.rs:255-270` -/
def get_votes_by_voter (s : State) (voter_id : String) : List VotableObjectJSON :=
  sort_by_votes ((s.internal_get_voter voter_id).vote_positions.entries.flatMap
    (fun a => a.2.entries.map (fun o => ⟨a.1, o.1, o.2⟩)))

/-- `view.rs:272-284` -/
def get_votes_for_object (s : State) (voter_id contract_address votable_object_id : String) : Nat :=
  match (s.internal_get_voter voter_id).vote_positions.get contract_address with
  | some m => (m.get votable_object_id).getD 0
  | none => 0

/-- `view.rs:287-289` -/
def get_total_unclaimed_mpdao (s : State) : Nat := s.total_unclaimed_mpdao

/-- `view.rs:291-293` -/
def get_total_unclaimed_meta (s : State) : Nat := s.get_total_unclaimed_mpdao

/-- `view.rs:295-297` -/
def get_accumulated_mpdao_distributed_for_claims (s : State) : Nat :=
  s.accumulated_mpdao_distributed_for_claims

/-- `view.rs:299-301` -/
def get_accumulated_distributed_for_claims (s : State) : Nat := s.get_accumulated_mpdao_distributed_for_claims

/-- `lib.rs:153-155` -/
def get_registration_cost (s : State) : Nat := s.registration_cost

/-- `lib.rs:157-159` -/
def check_if_registered_for_airdrops (s : State) (account_id : String) : Bool :=
  (s.associated_user_data.get account_id).isSome

/-- `lib.rs:161-163` -/
def check_if_user_is_registerd (s : State) (account_id : String) : Bool := s.check_if_registered_for_airdrops account_id

/-- `lib.rs:177-179` -/
def get_airdrop_account (s : State) (account_id : String) : Res String :=
  expect (s.associated_user_data.get account_id) "called `Option::unwrap()` on a `None` value"

/-- `lib.rs:189-201` -/
def get_airdrop_accounts (s : State) (from_index limit : Nat) : Res (List (String × String)) :=
  page s.associated_user_data (fun k v => (k, v)) from_index limit

/-- `lib.rs:768-774` -/
def get_lock_in_vote_filters (s : State) : Nat × Option String × Nat :=
  (s.lock_votes_in_end_timestamp_ms, s.lock_votes_in_address, s.lock_votes_in_numeric_id)

/-- `evm_delegate.rs:25-28` -/
def get_pre_delegate_evm_address (s : State) (evm_address : String) : Option (String × String) :=
  s.evm_pre_delegation.get evm_address

/-- `evm_delegate.rs:170-174` -/
def get_delegating_evm_addresses (s : State) (account_id : String) : List String :=
  (s.evm_delegates.get account_id).getD []

/-- `evm_delegate.rs:178-196`: `len as u32` truncates, `from_index + limit` is a checked `u32` sum. -/
def get_delegates (s : State) (from_index limit : Nat) : Res (List (String × List String)) := do
  let keys_len := s.evm_delegates.len % 4294967296
  require (from_index < keys_len) "from_index >= keys_len"
  let sum ← addU32 from_index limit
  (List.range (min sum keys_len - from_index)).mapM (fun i => do
    let k ← expect s.evm_delegates.keys[from_index + i]? "called `Option::unwrap()` on a `None` value"
    let v ← expect (s.evm_delegates.get k) "called `Option::unwrap()` on a `None` value"
    pure (k, v))

/-- `evm_delegate.rs:199-205` -/
def get_delegate (s : State) (evm_address : String) : Option String :=
  match s.evm_delegation_signatures.get evm_address with
  | some d => some d.1
  | none => none

/-- `evm_delegate.rs:210-212` -/
def get_delegation_signature (s : State) (evm_address : String) : Res (String × String) :=
  expect (s.evm_delegation_signatures.get evm_address) "called `Option::unwrap()` on a `None` value"

end State

end Verif.MetaVote
