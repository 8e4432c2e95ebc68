import Verif.MetaVote.EvmDelegate

/-!
# meta-vote contract: entry points and executions

`exec` is the dispatcher generated by `#[near_bindgen]`: argument ranges, the deposit test of
non-`#[payable]` methods and the `#[private]` test, then the method.  `World` adds the outgoing
transfers that are still to be resolved and the log of what was accepted so far.
-/

namespace Verif.MetaVote

open Verif

/-- A call of one of the state-changing entry points.  The arguments are in the order of the source:
`lib.rs:123-899`, `withdraw.rs:43-142`, `deposit.rs:13-18`, `evm_delegate.rs:10-163`,
`migrate.rs:42-44`. -/
inductive Call where
  | new_ (owner_id operator_id : AccountId)
      (min_unbond_period max_unbond_period min_deposit_amount max_locking_positions
        max_voting_positions : Nat) (mpdao stnear : AccountId) (registration_cost : Nat)
      (prev_governance_contract : String)
  | migrate
  | set_stnear_contract (stnear_contract : AccountId)
  | set_operator_id (operator_id : AccountId)
  | set_owner_id (owner_id : AccountId)
  | update_registration_cost (new_cost : Nat)
  | update_airdrop_user_data (encrypted_data : String)
  | operator_multi_set_airdrop_data (data : List (String × String))
  | claim_and_lock (amount locking_period : Nat)
  | claim_stnear (amount : Nat)
  | unlock_position (index : Nat)
  | unlock_partial_position (index amount : Nat)
  | locking_position_extend_days (index new_locking_period : Nat)
  | relock_position (index locking_period amount_from_balance : Nat)
  | relock_partial_position (index amount_from_position locking_period amount_from_balance : Nat)
  | relock_from_balance (locking_period amount_from_balance : Nat)
  | clear_locking_position (position_index_list : List Nat)
  | vote (voting_power : Nat) (contract_address votable_object_id : String)
  | rebalance (voting_power : Nat) (contract_address votable_object_id : String)
  | unvote (contract_address votable_object_id : String)
  | set_lock_in_vote_filters (end_timestamp_ms votable_numeric_id : Nat)
      (votable_address : Option String)
  | update_min_unbond_period (days : Nat)
  | update_max_unbond_period (days : Nat)
  | set_prev_gov_contract (contract_id : String)
  | migration_create_lps (voter_id : String) (locking_positions : List (Nat × Nat))
      (user_data : Option String)
  | operator_mirror_lps (external_address : String) (locking_positions : List (Nat × Nat))
  | withdraw (position_index_list : List Nat) (amount_from_balance : Nat)
  | withdraw_all
  | after_transfer_mpdao_callback (voter_id : String) (amount : Nat)
  | after_transfer_stnear_callback (source : String) (amount : Nat)
  | ft_on_transfer (sender_id : AccountId) (amount : Nat) (msg : List UInt8)
  | pre_delegate_evm_address (evm_address signature : String)
  | operator_remove_pre_delegate_evm_address (evm_address : String)
  | operator_confirm_delegated_evm_address (evm_address : String)
  | delegated_claim_stnear (evm_address : String) (amount : Nat)
  | vote_delegated (evm_address : String) (voting_power : Nat)
      (contract_address votable_object_id : String)
  | unvote_delegated (evm_address contract_address votable_object_id : String)
  | remove_delegated_evm_address (evm_address : String)
  deriving DecidableEq

namespace Call

/-- Methods marked `#[payable]`: `lib.rs:123,129,135,165,776,782,788`, `withdraw.rs:43,54`,
`evm_delegate.rs:10,30,37,77,141`. -/
def payable : Call → Bool
  | set_stnear_contract .. | set_operator_id .. | set_owner_id .. | update_airdrop_user_data ..
  | update_min_unbond_period .. | update_max_unbond_period .. | set_prev_gov_contract ..
  | withdraw .. | withdraw_all | pre_delegate_evm_address ..
  | operator_remove_pre_delegate_evm_address .. | operator_confirm_delegated_evm_address ..
  | delegated_claim_stnear .. | remove_delegated_evm_address .. => true
  | _ => false

/-- Methods marked `#[private]`: `withdraw.rs:78,125`, `migrate.rs:43`. -/
def is_private : Call → Bool
  | after_transfer_mpdao_callback .. | after_transfer_stnear_callback .. | migrate => true
  | _ => false

/-- The integer arguments fit their Rust types (otherwise the arguments do not deserialize). -/
def in_range : Call → Bool
  | new_ _ _ a b d l v _ _ r _ => decide (a ≤ U16_MAX ∧ b ≤ U16_MAX ∧ d ≤ U128_MAX ∧ l ≤ U8_MAX ∧
      v ≤ U8_MAX ∧ r ≤ U128_MAX)
  | update_registration_cost n => decide (n ≤ U128_MAX)
  | claim_and_lock a p => decide (a ≤ U128_MAX ∧ p ≤ U16_MAX)
  | claim_stnear a => decide (a ≤ U128_MAX)
  | unlock_position i => decide (i ≤ U64_MAX)
  | unlock_partial_position i a => decide (i ≤ U64_MAX ∧ a ≤ U128_MAX)
  | locking_position_extend_days i p => decide (i ≤ U64_MAX ∧ p ≤ U16_MAX)
  | relock_position i p b => decide (i ≤ U64_MAX ∧ p ≤ U16_MAX ∧ b ≤ U128_MAX)
  | relock_partial_position i a p b =>
    decide (i ≤ U64_MAX ∧ a ≤ U128_MAX ∧ p ≤ U16_MAX ∧ b ≤ U128_MAX)
  | relock_from_balance p b => decide (p ≤ U16_MAX ∧ b ≤ U128_MAX)
  | clear_locking_position l => l.all (fun i => decide (i ≤ U64_MAX))
  | vote p _ _ => decide (p ≤ U128_MAX)
  | rebalance p _ _ => decide (p ≤ U128_MAX)
  | set_lock_in_vote_filters t n _ => decide (t ≤ U64_MAX ∧ n ≤ U16_MAX)
  | update_min_unbond_period d => decide (d ≤ U16_MAX)
  | update_max_unbond_period d => decide (d ≤ U16_MAX)
  | migration_create_lps _ l _ => l.all (fun p => decide (p.1 ≤ U128_MAX ∧ p.2 ≤ U16_MAX))
  | operator_mirror_lps _ l => l.all (fun p => decide (p.1 ≤ U16_MAX ∧ p.2 ≤ U128_MAX))
  | withdraw l a => l.all (fun i => decide (i ≤ U64_MAX)) && decide (a ≤ U128_MAX)
  | after_transfer_mpdao_callback _ a => decide (a ≤ U128_MAX)
  | after_transfer_stnear_callback _ a => decide (a ≤ U128_MAX)
  | ft_on_transfer _ a _ => decide (a ≤ U128_MAX)
  | delegated_claim_stnear _ a => decide (a ≤ U128_MAX)
  | vote_delegated _ p _ _ => decide (p ≤ U128_MAX)
  | _ => true

end Call

/-- A method that starts no transfer. -/
def quiet (r : Res State) : Res (State × List Transfer) := do
  let s ← r
  pure (s, [])

/-- A method that starts one transfer. -/
def sends (r : Res (State × Transfer)) : Res (State × List Transfer) := do
  let p ← r
  pure (p.1, [p.2])

/-- Body of each entry point on an initialized contract.  `new` fails because the state exists
(`lib.rs:84`); `migrate` fails because the current layout does not decode as `OldState`
(three fields are left over, `env::state_read` at `migrate.rs:46` panics). -/
def run (J : Json) (s : State) (c : Ctx) : Call → Res (State × List Transfer)
  | .new_ o op a b d l v m st r p => quiet (new true o op a b d l v m st r p)
  | .migrate => quiet (migrate c none)
  | .set_stnear_contract a => quiet (s.set_stnear_contract c a)
  | .set_operator_id a => quiet (s.set_operator_id c a)
  | .set_owner_id a => quiet (s.set_owner_id c a)
  | .update_registration_cost n => quiet (s.update_registration_cost c n)
  | .update_airdrop_user_data d => quiet (s.update_airdrop_user_data c d)
  | .operator_multi_set_airdrop_data d => quiet (s.operator_multi_set_airdrop_data c d)
  | .claim_and_lock a p => quiet (s.claim_and_lock c a p)
  | .claim_stnear a => sends (s.claim_stnear c a)
  | .unlock_position i => quiet (s.unlock_position c i)
  | .unlock_partial_position i a => quiet (s.unlock_partial_position c i a)
  | .locking_position_extend_days i p => quiet (s.locking_position_extend_days c i p)
  | .relock_position i p b => quiet (s.relock_position c i p b)
  | .relock_partial_position i a p b => quiet (s.relock_partial_position c i a p b)
  | .relock_from_balance p b => quiet (s.relock_from_balance c p b)
  | .clear_locking_position l => quiet (s.clear_locking_position c l)
  | .vote p a o => quiet (s.vote c p a o)
  | .rebalance p a o => quiet (s.rebalance c p a o)
  | .unvote a o => quiet (s.unvote c a o)
  | .set_lock_in_vote_filters t n a => quiet (s.set_lock_in_vote_filters c t n a)
  | .update_min_unbond_period d => quiet (s.update_min_unbond_period c d)
  | .update_max_unbond_period d => quiet (s.update_max_unbond_period c d)
  | .set_prev_gov_contract i => quiet (s.set_prev_gov_contract c i)
  | .migration_create_lps v l d => quiet (s.migration_create_lps c v l d)
  | .operator_mirror_lps e l => quiet (s.operator_mirror_lps c e l)
  | .withdraw l a => sends (s.withdraw c l a)
  | .withdraw_all => sends (s.withdraw_all c)
  | .after_transfer_mpdao_callback v a => quiet (s.after_transfer_mpdao_callback c v a)
  | .after_transfer_stnear_callback v a => quiet (s.after_transfer_stnear_callback c v a)
  | .ft_on_transfer se a m => quiet (s.ft_on_transfer J c se a m)
  | .pre_delegate_evm_address e g => quiet (s.pre_delegate_evm_address c e g)
  | .operator_remove_pre_delegate_evm_address e =>
    quiet (s.operator_remove_pre_delegate_evm_address c e)
  | .operator_confirm_delegated_evm_address e => quiet (s.operator_confirm_delegated_evm_address c e)
  | .delegated_claim_stnear e a => sends (s.delegated_claim_stnear c e a)
  | .vote_delegated e p a o => quiet (s.vote_delegated c e p a o)
  | .unvote_delegated e a o => quiet (s.unvote_delegated c e a o)
  | .remove_delegated_evm_address e => quiet (s.remove_delegated_evm_address c e)

/-- The code `#[near_bindgen]` generates around a method, followed by the method. -/
def exec (J : Json) (s : State) (c : Ctx) (call : Call) : Res (State × List Transfer) := do
  require (call.payable = true ∨ c.deposit = 0) "Method doesn't accept deposit"
  require (call.is_private = true → c.predecessor = c.current) "Method is private"
  require (call.in_range = true) "Failed to deserialize input from JSON."
  run J s c call

/-! ## Executions -/

/-- Something that was accepted by the contract. -/
inductive Entry where
  /-- a call that did not panic, with the transfers it started -/
  | call (c : Ctx) (call : Call) (out : List Transfer)
  /-- the transfer `t` was executed (`ok`) or failed; `restored`: the callback did not panic -/
  | resolved (t : Transfer) (ok restored : Bool)

/-- Contract state, transfers in flight, block clock (ns) and log (newest first). -/
structure World where
  st : State
  pending : List Transfer
  clock : Nat
  log : List Entry

/-- The callback receipt of a transfer (`withdraw.rs:71-75`, `withdraw.rs:118-122`). -/
def Transfer.callbackCall (t : Transfer) : Call :=
  match t.callback with
  | .after_transfer_mpdao v a => .after_transfer_mpdao_callback v a
  | .after_transfer_stnear v a => .after_transfer_stnear_callback v a

/-- Accounts `x.evmp.near` mirror external positions and never sign (`lib.rs:840-842`). -/
def mirrored (id : String) : Prop := ".evmp.near".toList <:+ id.toList

instance (id : String) : Decidable (mirrored id) := by unfold mirrored; infer_instance

/-- One step of the chain, as seen by the contract account `me`.  Receipts are processed one at a time,
in any order; the clock never goes back and is a `u64`. -/
inductive Step (J : Json) (me : AccountId) : World → World → Prop
  /-- A transaction or cross-contract call is accepted.  It carries no promise results, and is not
  signed by a mirrored account. -/
  | call (w : World) (c : Ctx) (k : Call) (s' : State) (out : List Transfer)
      (hme : c.current = me) (hres : c.promise_results = []) (hm : ¬ mirrored c.predecessor)
      (hclock : w.clock ≤ c.timestamp) (hu64 : c.timestamp ≤ U64_MAX)
      (hexec : exec J w.st c k = .ok (s', out)) :
      Step J me w ⟨s', w.pending ++ out, c.timestamp, .call c k out :: w.log⟩
  /-- A transfer in flight is resolved and its callback runs; if the callback panics the state is kept. -/
  | resolve (w : World) (pre post : List Transfer) (t : Transfer) (ok : Bool) (ts : Nat)
      (hpend : w.pending = pre ++ t :: post) (hclock : w.clock ≤ ts) (hu64 : ts ≤ U64_MAX) :
      Step J me w ⟨((exec J w.st ⟨me, me, 0, ts, [ok]⟩ t.callbackCall).getOr (w.st, [])).1,
        pre ++ post, ts,
        .resolved t ok (Res.isOk (exec J w.st ⟨me, me, 0, ts, [ok]⟩ t.callbackCall)) :: w.log⟩
  /-- Time passes (or a call panics and changes nothing). -/
  | tick (w : World) (ts : Nat) (hclock : w.clock ≤ ts) (hu64 : ts ≤ U64_MAX) :
      Step J me w { w with clock := ts }

/-- The world just after an accepted `new` (`lib.rs:71`). -/
inductive Init : World → Prop
  | mk (o op : AccountId) (a b d l v : Nat) (m st : AccountId) (r : Nat) (p : String) (ts : Nat)
      (s : State) (hr : (Call.new_ o op a b d l v m st r p).in_range = true) (hts : ts ≤ U64_MAX)
      (h : new false o op a b d l v m st r p = .ok s) : Init ⟨s, [], ts, []⟩

/-- Worlds reachable from an initialization. -/
inductive Reach (J : Json) (me : AccountId) : World → Prop
  | init {w : World} (h : Init w) : Reach J me w
  | step {w w' : World} (h : Reach J me w) (hs : Step J me w w') : Reach J me w'

end Verif.MetaVote
