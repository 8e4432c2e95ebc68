import Verif.Base.Res
import Verif.Base.UMap
import Verif.MetaVote.Views

/-!
# mpip contract: data

`/repo/mpip-contract/src`.  As in the model of meta-vote, machine integers are natural numbers with
explicit overflow checks, and `UnorderedMap` is `UMap`.
-/

namespace Verif.Mpip

open Verif

/-- Account names. -/
abbrev AccountId := String

/-- `constants.rs:6` -/
def ONE_HUNDRED : Nat := 10000

/-- `vote.rs:9-13` -/
inductive VoteType where
  | against
  | for_
  | abstain
  deriving DecidableEq, Repr

/-- `vote.rs:28-34`; `Vote::new` (`vote.rs:37-50`) is written as the record -/
structure Vote where
  mpip_id : Nat
  vote_type : VoteType
  voting_power : Nat
  memo : String
  deriving DecidableEq, Repr

/-- The five text fields of a proposal, which are always passed and stored together
(`mpip.rs:44-49`, `lib.rs:210-214`); grouping them is the only difference to `Mpip`. -/
structure Content where
  title : String
  short_description : String
  body : String
  data : String
  extra : String
  deriving DecidableEq, Repr

/-- `mpip.rs:42-57` -/
structure Proposal where
  mpip_id : Nat
  content : Content
  creator_id : AccountId
  vote_start_timestamp : Option Nat
  vote_end_timestamp : Option Nat
  draft : Bool
  executed : Bool
  canceled : Bool
  v_power_quorum_to_reach : Option Nat
  deriving DecidableEq, Repr

/-- `vote_counting.rs:19-24` -/
structure ProposalVote where
  for_votes : Nat
  against_votes : Nat
  abstain_votes : Nat
  has_voted : UMap AccountId Vote
  deriving DecidableEq

/-- `vote_counting.rs:27-36` -/
def ProposalVote.new : ProposalVote := ⟨0, 0, 0, UMap.empty⟩

/-- `voter.rs:7-9` (one field); `voter.rs:18-24` for the empty one. -/
structure Voter where
  votes : UMap Nat Vote
  deriving DecidableEq

/-- `lib.rs:27-61` -/
structure State where
  admin_id : AccountId
  operator_id : AccountId
  meta_token_contract_address : AccountId
  meta_vote_contract_address : AccountId
  proposals : UMap Nat Proposal
  votes : UMap Nat ProposalVote
  voters : UMap AccountId Voter
  proposers : UMap AccountId (List Nat)
  voting_period : Nat
  min_meta_amount : Nat
  min_st_near_amount : Nat
  min_voting_power_amount : Nat
  mpip_cost_in_meta : Nat
  mpip_storage_near : Nat
  open_for_new_mpips : Bool
  quorum_floor : Nat
  deriving DecidableEq

/-- Result of a promise, as given by `env::promise_result` (`internal.rs:163-170`, `179-196`);
`NotReady` cannot happen. -/
inductive Reply where
  | failed
  | successful (bytes : List UInt8)
  deriving DecidableEq, Repr

/-- Environment of a call: current account, predecessor, signer, attached deposit, block timestamp (ns)
and the results of the promises it waits for. -/
structure Ctx where
  current : AccountId
  predecessor : AccountId
  signer : AccountId
  deposit : Nat
  timestamp : Nat
  results : List Reply
  deriving DecidableEq

/-- `utils.rs:5-7` -/
def Ctx.now (c : Ctx) : Nat := c.timestamp / 1000000

/-- `serde_json::from_slice` for the two types of replies that are decoded: `U128` (`internal.rs:167`) and
`Vec<LockingPositionJSON>` (`internal.rs:184`, `types.rs:21-30`, same fields as the type of meta-vote). -/
structure Json where
  total : List UInt8 → Option Nat
  positions : List UInt8 → Option (List MetaVote.LockingPositionJSON)

/-- Decoding a `U128`: the number has to fit. -/
def Json.read_total (J : Json) (b : List UInt8) : Option Nat :=
  (J.total b).filter (fun n => decide (n ≤ U128_MAX))

/-- Decoding positions: the powers and amounts have to fit `u128`. -/
def Json.read_positions (J : Json) (b : List UInt8) : Option (List MetaVote.LockingPositionJSON) :=
  (J.positions b).filter (fun l => l.all (fun p => decide (p.voting_power ≤ U128_MAX ∧ p.amount ≤ U128_MAX)))

end Verif.Mpip
