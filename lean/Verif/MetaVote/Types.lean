import Verif.Base.UMap

/-!
# meta-vote contract: types and arithmetic helpers

Models `/repo/meta-vote-contract/src/{types,constants,utils,locking_position}.rs` and the data
structures of `voter.rs` and `lib.rs`.
-/

namespace Verif.MetaVote

open Verif

/-- NEAR account ids and `String` ids (`types.rs:5-16`). -/
abbrev AccountId := String

/-- The parts of `near_sdk::env` the contract reads.
`promise_results`: results of the awaited promises, `true` = `PromiseResult::Successful`. -/
structure Ctx where
  /-- `env::current_account_id()` -/
  current : AccountId
  /-- `env::predecessor_account_id()` -/
  predecessor : AccountId
  /-- `env::attached_deposit()` -/
  deposit : Nat
  /-- `env::block_timestamp()` in nanoseconds -/
  timestamp : Nat
  /-- `env::promise_result(i)` -/
  promise_results : List Bool := []
  deriving DecidableEq, Repr

/-- `constants.rs:4` -/
def ONE_MPDAO : Nat := 1000000
/-- `constants.rs:5` -/
def E18 : Nat := 1000000000000000000
/-- `deposit.rs:7` -/
def E20 : Nat := 100000000000000000000

/-- `utils.rs:5-7` `get_current_epoch_millis` (also `env::block_timestamp_ms`, used at `lib.rs:730`). -/
def Ctx.now (c : Ctx) : Nat := c.timestamp / 1000000

/-- `utils.rs:10-12`. `days` is a `u16`, so the `u64` product cannot overflow
(`days_to_millis_le`); modelled without the check. -/
def days_to_millis (days : Nat) : Nat := days * 24 * 60 * 60 * 1000

theorem days_to_millis_le {d : Nat} (h : d ≤ U16_MAX) : days_to_millis d ≤ U64_MAX := by
  simp only [days_to_millis, U16_MAX, U64_MAX] at *; omega

/-- Justifies the unchecked `date + period` below: a date read from a `u64` nanosecond clock plus a
`u16` number of days fits a `u64`. -/
theorem unlock_date_fits {ts d : Nat} (ht : ts ≤ U64_MAX) (h : d ≤ U16_MAX) :
    ts / 1000000 + days_to_millis d ≤ U64_MAX := by
  simp only [days_to_millis, U16_MAX, U64_MAX] at *; omega

/-- `utils.rs:21-23`: the product is taken in `U256` (cannot overflow for two `u128`),
`as_u128` panics when the quotient does not fit. -/
def proportional (amount numerator denominator : Nat) : Res Nat := do
  require (denominator ≠ 0) "division by zero"
  let q := amount * numerator / denominator
  require (q ≤ U128_MAX) "Integer overflow when casting to u128"
  pure q

/-- `utils.rs:29-31` -/
def pseudo_near_address (external_address : String) : String := external_address ++ ".evmp.near"

/-- `utils.rs:33-35` -/
def assert_at_least_1_mpdao (mpdao_amount : Nat) : Res Unit :=
  require (ONE_MPDAO ≤ mpdao_amount) "amount should be at least 1 mpDAO"

/-- `utils.rs:41-46` -/
def calculate_voting_power (mpdao_amount unbond_days : Nat) : Res Nat := do
  let base_vp ← mulU128 mpdao_amount E18
  require (unbond_days < 3600) "assertion failed: unbond_days < 3600"
  proportional base_vp unbond_days 60

/-- `locking_position.rs:6-11`; `LockingPosition::new` (`locking_position.rs:18-30`) is written as the record -/
structure LockingPosition where
  amount : Nat
  locking_period : Nat
  voting_power : Nat
  unlocking_started_at : Option Nat
  deriving DecidableEq, Repr

namespace LockingPosition

/-- `locking_position.rs:14-16` -/
def locking_period_millis (p : LockingPosition) : Nat := days_to_millis p.locking_period

/-- `locking_position.rs:32-34` -/
def is_locked (p : LockingPosition) : Bool := p.unlocking_started_at.isNone

/-- `locking_position.rs:36-41`.  The `u64` sum `date + period` is modelled unchecked: dates come from
`u64` nanosecond block timestamps divided by 10^6 and periods are `u16` days (see `unlock_date_fits`). -/
def is_unlocking (p : LockingPosition) (now : Nat) : Bool :=
  match p.unlocking_started_at with
  | some date => decide (now ≤ date + p.locking_period_millis)
  | none => false

/-- `locking_position.rs:43-48` (same remark on the sum). -/
def is_unlocked (p : LockingPosition) (now : Nat) : Bool :=
  match p.unlocking_started_at with
  | some date => decide (date + p.locking_period_millis < now)
  | none => false

end LockingPosition

/-- `voter.rs:16-21` -/
structure Voter where
  balance : Nat
  locking_positions : List LockingPosition
  available_voting_power : Nat
  vote_positions : UMap String (UMap String Nat)
  deriving DecidableEq

/-- `lib.rs:28-66` -/
structure State where
  owner_id : AccountId
  operator_id : AccountId
  voters : UMap String Voter
  votes : UMap String (UMap String Nat)
  min_unbond_period : Nat
  max_unbond_period : Nat
  min_deposit_amount : Nat
  max_locking_positions : Nat
  max_voting_positions : Nat
  mpdao_token_contract_address : AccountId
  total_voting_power : Nat
  claimable_mpdao : UMap String Nat
  accumulated_mpdao_distributed_for_claims : Nat
  total_unclaimed_mpdao : Nat
  stnear_token_contract_address : AccountId
  claimable_stnear : UMap String Nat
  accum_distributed_stnear_for_claims : Nat
  total_unclaimed_stnear : Nat
  registration_cost : Nat
  associated_user_data : UMap String String
  prev_governance_contract : String
  evm_delegates : UMap String (List String)
  evm_pre_delegation : UMap String (String × String)
  evm_delegation_signatures : UMap String (String × String)
  lock_votes_in_end_timestamp_ms : Nat
  lock_votes_in_address : Option String
  lock_votes_in_numeric_id : Nat
  deriving DecidableEq

/-- Callback attached to an outgoing token transfer (`withdraw.rs:71-75`, `withdraw.rs:118-122`). -/
inductive Callback where
  /-- `after_transfer_mpdao_callback(voter_id, amount)` -/
  | after_transfer_mpdao (voter_id : String) (amount : Nat)
  /-- `after_transfer_stnear_callback(source, amount)` -/
  | after_transfer_stnear (source : String) (amount : Nat)
  deriving DecidableEq, Repr

/-- An outgoing `ft_transfer(receiver, amount)` promise on contract `token` with its callback
(`withdraw.rs:66-76`, `withdraw.rs:108-123`).  Gas and the attached yocto are not modelled. -/
structure Transfer where
  token : AccountId
  receiver : String
  amount : Nat
  callback : Callback
  deriving DecidableEq, Repr

/-- `env::attached_deposit() == 1`, `near_sdk::assert_one_yocto`. -/
def assert_one_yocto (c : Ctx) : Res Unit :=
  require (c.deposit = 1) "Requires attached deposit of exactly 1 yoctoNEAR"

end Verif.MetaVote
