import Verif.MetaVote.Lib

/-!
# meta-vote contract: `withdraw.rs` and `claim_stnear`

Functions that start a token transfer return the outgoing promise together with the new state.
-/

namespace Verif.MetaVote

open Verif

namespace State

/-- `withdraw.rs:66-76` -/
def transfer_mpdao_to_voter (s : State) (voter_id : String) (amount : Nat) : Transfer :=
  ⟨s.mpdao_token_contract_address, voter_id, amount, .after_transfer_mpdao voter_id amount⟩

/-- `withdraw.rs:108-123` -/
def transfer_stnear_to_voter (s : State) (source receiver : String) (amount : Nat) : Transfer :=
  ⟨s.stnear_token_contract_address, receiver, amount, .after_transfer_stnear source amount⟩

/-- `withdraw.rs:11-41` -/
def internal_withdraw (s : State) (c : Ctx) (voter_id : String) (position_index_list : List Nat)
    (optional_amount_to_withdraw : Option Nat) : Res (State × Transfer) := do
  assert_one_yocto c
  let voter ← s.internal_get_voter_or_panic voter_id
  let voter ← (if position_index_list ≠ [] then
      voter.clear_fully_unlocked_positions c.now position_index_list
    else pure voter : Res Voter)
  let total_to_withdraw := optional_amount_to_withdraw.getD voter.balance
  require (0 < total_to_withdraw) "Nothing to withdraw."
  require (total_to_withdraw ≤ voter.balance) "Not enough balance."
  let balance ← subU voter.balance total_to_withdraw
  let voter := { voter with balance := balance }
  let s := if voter.is_empty then { s with voters := s.voters.remove voter_id }
    else { s with voters := s.voters.insert voter_id voter }
  pure (s, s.transfer_mpdao_to_voter voter_id total_to_withdraw)

/-- `withdraw.rs:44-52` -/
def withdraw (s : State) (c : Ctx) (position_index_list : List Nat) (amount_from_balance : Nat) :
    Res (State × Transfer) :=
  s.internal_withdraw c c.predecessor position_index_list
    (if amount_from_balance = 0 then none else some amount_from_balance)

/-- `withdraw.rs:55-60` -/
def withdraw_all (s : State) (c : Ctx) : Res (State × Transfer) := do
  let voter ← s.internal_get_voter_or_panic c.predecessor
  s.internal_withdraw c c.predecessor (voter.get_unlocked_position_indexes c.now) none

/-- `withdraw.rs:101-105` -/
def restore_transfer_to_mpdao (s : State) (amount : Nat) (voter_id : String) : Res State := do
  let voter := s.internal_get_voter voter_id
  let balance ← addU128 voter.balance amount
  pure { s with voters := s.voters.insert voter_id { voter with balance := balance } }

/-- `withdraw.rs:79-99`.  `PromiseResult::NotReady` never occurs in a callback. -/
def after_transfer_mpdao_callback (s : State) (c : Ctx) (voter_id : String) (amount : Nat) :
    Res State := do
  let ok ← expect c.promise_results.head? "promise_result"
  if ok then pure s else s.restore_transfer_to_mpdao amount voter_id

/-- `withdraw.rs:126-142` -/
def after_transfer_stnear_callback (s : State) (c : Ctx) (source : String) (amount : Nat) :
    Res State := do
  let ok ← expect c.promise_results.head? "promise_result"
  if ok then pure s else s.add_claimable_stnear source amount

/-- `lib.rs:219-225` -/
def claim_stnear (s : State) (c : Ctx) (amount : Nat) : Res (State × Transfer) := do
  let s ← s.remove_claimable_stnear c.predecessor amount
  pure (s, s.transfer_stnear_to_voter c.predecessor c.predecessor amount)

end State

end Verif.MetaVote
