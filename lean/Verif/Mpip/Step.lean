import Verif.Mpip.Lib

/-!
# mpip contract: entry points and executions
-/

namespace Verif.Mpip

open Verif

/-- State-changing entry points, `lib.rs:66-506`. -/
inductive Call where
  | new_ (admin_id operator_id meta_token meta_vote : AccountId)
      (voting_period min_voting_power_amount mpip_storage_near quorum_floor : Nat)
  | update_open_for_new_mpips (new_value : Bool)
  | update_operator_role (new_value : AccountId)
  | update_admin_role (new_value : AccountId)
  | pay_to_account (amount : Nat) (receiver : AccountId)
  | update_voting_period (new_value : Nat)
  | update_min_meta_amount (new_value : Nat)
  | update_min_voting_power_amount (new_value : Nat)
  | update_mpip_storage_near (new_value : Nat)
  | update_quorum_floor (new_value : Nat)
  | start_voting_period (mpip_id : Nat)
  | start_voting_period_callback (mpip_id : Nat)
  | create_proposal (content : Content)
  | create_proposal_callback (content : Content)
  | cancel_proposal (mpip_id : Nat)
  | update_proposal (mpip_id : Nat) (content : Content)
  | update_meta_vote_contract_address (new_value : AccountId)
  | vote_proposal (mpip_id : Nat) (vote : VoteType) (memo : String)
  | vote_proposal_callback (mpip_id : Nat) (voter_id : AccountId) (vote_type : VoteType) (memo : String)
  | remove_vote_proposal (mpip_id : Nat)
  | process_voting_status (mpip_id : Nat)
  deriving DecidableEq

namespace Call

/-- `#[payable]`: only `lib.rs:207`. -/
def payable : Call → Bool
  | create_proposal .. => true
  | _ => false

/-- `#[private]`: `lib.rs:191,229,396`. -/
def is_private : Call → Bool
  | start_voting_period_callback .. | create_proposal_callback .. | vote_proposal_callback .. => true
  | _ => false

/-- The integer arguments fit their Rust types. -/
def in_range : Call → Bool
  | new_ _ _ _ _ p m st q => decide (p ≤ U64_MAX ∧ m ≤ U128_MAX ∧ st ≤ U128_MAX ∧ q ≤ U16_MAX)
  | pay_to_account a _ => decide (a ≤ U128_MAX)
  | update_voting_period n => decide (n ≤ U64_MAX)
  | update_min_meta_amount n => decide (n ≤ U128_MAX)
  | update_min_voting_power_amount n => decide (n ≤ U128_MAX)
  | update_mpip_storage_near n => decide (n ≤ U128_MAX)
  | update_quorum_floor n => decide (n ≤ U16_MAX)
  | start_voting_period i => decide (i ≤ U32_MAX)
  | start_voting_period_callback i => decide (i ≤ U32_MAX)
  | cancel_proposal i => decide (i ≤ U32_MAX)
  | update_proposal i _ => decide (i ≤ U32_MAX)
  | vote_proposal i _ _ => decide (i ≤ U32_MAX)
  | vote_proposal_callback i _ _ _ => decide (i ≤ U32_MAX)
  | remove_vote_proposal i => decide (i ≤ U32_MAX)
  | process_voting_status i => decide (i ≤ U32_MAX)
  | _ => true

end Call

/-- Views of meta-vote that are asked (`interface.rs:6-11`). -/
inductive Query where
  | get_all_locking_positions (voter_id : AccountId)
  | get_total_voting_power
  deriving DecidableEq

/-- Promises started by the contract. -/
inductive Promise where
  /-- `lib.rs:127` -/
  | pay (receiver : AccountId) (amount : Nat)
  /-- ask the meta-vote contract, then run `callback` on this contract (`lib.rs:180-188`, `218-226`,
  `380-393`); the attached yocto and the gas are not modelled -/
  | ask (contract : AccountId) (query : Query) (callback : Call)
  deriving DecidableEq

/-- A method that starts no promise. -/
def quiet (r : Res State) : Res (State × List Promise) := do
  let s ← r
  pure (s, [])

/-- A method that starts one promise. -/
def sends (p : Promise) (r : Res State) : Res (State × List Promise) := do
  let s ← r
  pure (s, [p])

/-- Body of each entry point on an initialized contract. -/
def run (J : Json) (s : State) (c : Ctx) : Call → Res (State × List Promise)
  | .new_ a o t v p m st q => quiet (new true a o t v p m st q)
  | .update_open_for_new_mpips b => quiet (s.update_open_for_new_mpips c b)
  | .update_operator_role a => quiet (s.update_operator_role c a)
  | .update_admin_role a => quiet (s.update_admin_role c a)
  | .pay_to_account n a => sends (.pay a n) (s.pay_to_account c)
  | .update_voting_period n => quiet (s.update_voting_period c n)
  | .update_min_meta_amount n => quiet (s.update_min_meta_amount c n)
  | .update_min_voting_power_amount n => quiet (s.update_min_voting_power_amount c n)
  | .update_mpip_storage_near n => quiet (s.update_mpip_storage_near c n)
  | .update_quorum_floor n => quiet (s.update_quorum_floor c n)
  | .start_voting_period i =>
    sends (.ask s.meta_vote_contract_address .get_total_voting_power (.start_voting_period_callback i))
      (s.start_voting_period c i)
  | .start_voting_period_callback i => quiet (s.start_voting_period_callback J c i)
  | .create_proposal t =>
    sends (.ask s.meta_vote_contract_address (.get_all_locking_positions c.predecessor)
      (.create_proposal_callback t)) (s.create_proposal c)
  | .create_proposal_callback t => quiet (s.create_proposal_callback J c t)
  | .cancel_proposal i => quiet (s.cancel_proposal c i)
  | .update_proposal i t => quiet (s.update_proposal c i t)
  | .update_meta_vote_contract_address a => quiet (s.update_meta_vote_contract_address c a)
  | .vote_proposal i v m =>
    sends (.ask s.meta_vote_contract_address (.get_all_locking_positions c.predecessor)
      (.vote_proposal_callback i c.predecessor v m)) (s.vote_proposal c i)
  | .vote_proposal_callback i a v m => quiet (s.vote_proposal_callback J c i a v m)
  | .remove_vote_proposal i => quiet (s.remove_vote_proposal c i)
  | .process_voting_status i => quiet (s.process_voting_status c i)

/-- The code `#[near_bindgen]` generates around a method, followed by the method. -/
def exec (J : Json) (s : State) (c : Ctx) (call : Call) : Res (State × List Promise) := do
  require (call.payable = true ∨ c.deposit = 0) "Method doesn't accept deposit"
  require (call.is_private = true → c.predecessor = c.current) "Method is private"
  require (call.in_range = true) "Failed to deserialize input from JSON."
  run J s c call

/-! ## Executions -/

/-- A question to meta-vote in flight; the callback keeps the signer of the original transaction. -/
structure Pending where
  contract : AccountId
  query : Query
  callback : Call
  signer : AccountId
  deriving DecidableEq

/-- The questions among the promises. -/
def asked (signer : AccountId) : List Promise → List Pending
  | [] => []
  | .pay .. :: l => asked signer l
  | .ask a q k :: l => ⟨a, q, k, signer⟩ :: asked signer l

/-- Something that was accepted. -/
inductive Entry where
  | call (c : Ctx) (call : Call) (out : List Promise)
  /-- the callback of `p` ran at `timestamp` with this reply; `accepted`: it did not panic -/
  | replied (p : Pending) (timestamp : Nat) (reply : Reply) (accepted : Bool)

/-- Contract state, questions in flight, block clock (ns) and log (newest first). -/
structure World where
  st : State
  pending : List Pending
  clock : Nat
  log : List Entry

/-- Environment of a callback receipt. -/
def replyCtx (me : AccountId) (p : Pending) (ts : Nat) (r : Reply) : Ctx := ⟨me, me, p.signer, 0, ts, [r]⟩

/-- Steps: calls of anybody (with any signer), replies in any order and with any content, and time.
Calls carry no promise results: only the private callbacks look at them, and those only run as receipts of
this contract. -/
inductive Step (J : Json) (me : AccountId) : World → World → Prop
  | call (w : World) (c : Ctx) (k : Call) (s' : State) (out : List Promise)
      (hme : c.current = me) (hres : c.results = []) (hclock : w.clock ≤ c.timestamp)
      (hu64 : c.timestamp ≤ U64_MAX) (hexec : exec J w.st c k = .ok (s', out)) :
      Step J me w ⟨s', w.pending ++ asked c.signer out, c.timestamp, .call c k out :: w.log⟩
  | reply (w : World) (pre post : List Pending) (p : Pending) (r : Reply) (ts : Nat)
      (hpend : w.pending = pre ++ p :: post) (hclock : w.clock ≤ ts) (hu64 : ts ≤ U64_MAX) :
      Step J me w ⟨((exec J w.st (replyCtx me p ts r) p.callback).getOr (w.st, [])).1, pre ++ post, ts,
        .replied p ts r (exec J w.st (replyCtx me p ts r) p.callback).isOk :: w.log⟩
  | tick (w : World) (ts : Nat) (hclock : w.clock ≤ ts) (hu64 : ts ≤ U64_MAX) :
      Step J me w { w with clock := ts }

/-- The world just after an accepted `new` (`lib.rs:66`). -/
inductive Init : World → Prop
  | mk (a o t v : AccountId) (p m st q ts : Nat) (s : State)
      (hr : (Call.new_ a o t v p m st q).in_range = true) (hts : ts ≤ U64_MAX)
      (h : new false a o t v p m st q = .ok s) : Init ⟨s, [], ts, []⟩

/-- Worlds reachable from an initialization. -/
inductive Reach (J : Json) (me : AccountId) : World → Prop
  | init {w : World} (h : Init w) : Reach J me w
  | step {w w' : World} (h : Reach J me w) (hs : Step J me w w') : Reach J me w'

/-- Zero or more steps. -/
inductive Steps (J : Json) (me : AccountId) (w : World) : World → Prop
  | refl : Steps J me w w
  | step {w1 w2 : World} (h : Steps J me w w1) (hs : Step J me w1 w2) : Steps J me w w2

theorem Reach.steps {J : Json} {me : AccountId} {w w' : World} (h : Reach J me w) (hs : Steps J me w w') :
    Reach J me w' := by
  induction hs with
  | refl => exact h
  | step _ hs ih => exact ih.step hs

end Verif.Mpip
