import Verif.Storage.Cells
import Verif.Mpip.Views

/-!
# mpip over contract storage

The model in `Verif/Mpip` treats the collections of the contract as values.  Here they are what the contract has: handles
(prefix and number of elements) over storage entries, with the panics of near-sdk on entries that do not fit.  The record of
the contract holds the numbers of elements of its four maps; the votes on a proposal and the votes of a voter are maps
whose handles are themselves stored, with prefixes that contain the hash of the number of the proposal or of the name of
the voter (`constants.rs:12-20`).

Simplification: the hash has no collisions, so regions are named by the strings that are hashed (and the two families of
regions are separate because the variants of `StorageKey` differ, C43).  Decoding of replies, contexts, calls and
promises are those of `Verif/Mpip`.
-/

namespace Verif.MpipStorage

open Verif Storage Mpip

/-- A stored `UnorderedMap`: the string hashed in its prefix, and its length. -/
structure Handle where
  region : String
  len : Nat
  deriving DecidableEq

/-- `vote_counting.rs:19-24` as stored -/
structure Tally where
  for_votes : Nat
  against_votes : Nat
  abstain_votes : Nat
  has_voted : Handle
  deriving DecidableEq

/-- `vote_counting.rs:27-36`, with `generate_hash_id(id.to_string())` -/
def Tally.new (id : Nat) : Tally := ⟨0, 0, 0, ⟨Nat.repr id, 0⟩⟩

/-- The storage entries, by collection (`constants.rs:12-20`). -/
structure Mem where
  /-- `StorageKey::Mpips` -/
  proposals : Cells Nat Proposal
  /-- `StorageKey::MpipVotes` -/
  votes : Cells Nat Tally
  /-- `StorageKey::Voters`; a voter record is the handle of its votes (`voter.rs:7-9`) -/
  voters : Cells AccountId Handle
  /-- `StorageKey::Proposers` -/
  proposers : Cells AccountId (List Nat)
  /-- `StorageKey::HasVoted` -/
  hasVoted : String → Cells AccountId Vote
  /-- `StorageKey::Votes` -/
  voterVotes : String → Cells Nat Vote

/-- `lib.rs:27-61`: of the four maps, the record holds the lengths. -/
structure SState where
  admin_id : AccountId
  operator_id : AccountId
  meta_token_contract_address : AccountId
  meta_vote_contract_address : AccountId
  proposals : Nat
  votes : Nat
  voters : Nat
  proposers : Nat
  voting_period : Nat
  min_meta_amount : Nat
  min_st_near_amount : Nat
  min_voting_power_amount : Nat
  mpip_cost_in_meta : Nat
  mpip_storage_near : Nat
  open_for_new_mpips : Bool
  quorum_floor : Nat
  mem : Mem

/-- `lib.rs:66-101`, on storage without entries. -/
def new (state_exists : Bool) (admin_id operator_id meta_token meta_vote : AccountId)
    (voting_period min_voting_power_amount mpip_storage_near quorum_floor : Nat) : Res SState := do
  require (state_exists = false) "The contract is already initialized"
  require (quorum_floor ≤ ONE_HUNDRED) "Incorrect quorum basis points."
  pure {
    admin_id := admin_id
    operator_id := operator_id
    meta_token_contract_address := meta_token
    meta_vote_contract_address := meta_vote
    proposals := 0
    voting_period := voting_period
    min_meta_amount := 0
    min_st_near_amount := 0
    min_voting_power_amount := min_voting_power_amount
    mpip_cost_in_meta := 0
    mpip_storage_near := mpip_storage_near
    open_for_new_mpips := true
    quorum_floor := quorum_floor
    votes := 0
    voters := 0
    proposers := 0
    mem := ⟨Cells.empty, Cells.empty, Cells.empty, Cells.empty, fun _ => Cells.empty, fun _ => Cells.empty⟩ }

namespace SState

/-! ## Access to the collections -/

/-- `internal.rs:134-138` -/
def internal_get_proposal (S : SState) (mpip_id : Nat) : Res Proposal := do
  let p ← S.mem.proposals.get S.proposals mpip_id
  expect p "MPIP Id does not exist"

/-- `self.proposals.insert(..)` -/
def putProposal (S : SState) (mpip_id : Nat) (p : Proposal) : Res SState := do
  let r ← S.mem.proposals.insert S.proposals mpip_id p
  pure { S with proposals := r.2, mem := { S.mem with proposals := r.1 } }

/-- `internal.rs:140-144` -/
def internal_get_proposal_vote (S : SState) (mpip_id : Nat) : Res Tally := do
  let t ← S.mem.votes.get S.votes mpip_id
  pure (t.getD (Tally.new mpip_id))

/-- `self.votes.insert(..)` -/
def putTally (S : SState) (mpip_id : Nat) (t : Tally) : Res SState := do
  let r ← S.mem.votes.insert S.votes mpip_id t
  pure { S with votes := r.2, mem := { S.mem with votes := r.1 } }

/-- `internal.rs:214-216`, with `voter.rs:18-24` -/
def internal_get_voter (S : SState) (voter_id : AccountId) : Res Handle := do
  let h ← S.mem.voters.get S.voters voter_id
  pure (h.getD ⟨voter_id, 0⟩)

/-- `self.voters.insert(..)` -/
def putVoter (S : SState) (voter_id : AccountId) (h : Handle) : Res SState := do
  let r ← S.mem.voters.insert S.voters voter_id h
  pure { S with voters := r.2, mem := { S.mem with voters := r.1 } }

/-- `self.voters.remove(..)` -/
def dropVoter (S : SState) (voter_id : AccountId) : Res SState := do
  let r ← S.mem.voters.remove S.voters voter_id
  pure { S with voters := r.2, mem := { S.mem with voters := r.1 } }

/-- `internal.rs:218-222` -/
def internal_get_proposer (S : SState) (proposer_id : AccountId) : Res (List Nat) := do
  let l ← S.mem.proposers.get S.proposers proposer_id
  pure (l.getD [])

/-- `self.proposers.insert(..)` (`mpip.rs:124-128`) -/
def putProposer (S : SState) (proposer_id : AccountId) (l : List Nat) : Res SState := do
  let r ← S.mem.proposers.insert S.proposers proposer_id l
  pure { S with proposers := r.2, mem := { S.mem with proposers := r.1 } }

/-- `proposal_vote.has_voted.insert(..)`; the new handle is in memory only. -/
def insertHasVoted (S : SState) (h : Handle) (voter_id : AccountId) (v : Vote) : Res (SState × Handle) := do
  let r ← (S.mem.hasVoted h.region).insert h.len voter_id v
  pure ({ S with mem := { S.mem with hasVoted := upd S.mem.hasVoted h.region r.1 } }, ⟨h.region, r.2⟩)

/-- `proposal_vote.has_voted.remove(..)` -/
def removeHasVoted (S : SState) (h : Handle) (voter_id : AccountId) : Res (SState × Handle) := do
  let r ← (S.mem.hasVoted h.region).remove h.len voter_id
  pure ({ S with mem := { S.mem with hasVoted := upd S.mem.hasVoted h.region r.1 } }, ⟨h.region, r.2⟩)

/-- `voter.votes.insert(..)` -/
def insertVoterVote (S : SState) (h : Handle) (mpip_id : Nat) (v : Vote) : Res (SState × Handle) := do
  let r ← (S.mem.voterVotes h.region).insert h.len mpip_id v
  pure ({ S with mem := { S.mem with voterVotes := upd S.mem.voterVotes h.region r.1 } }, ⟨h.region, r.2⟩)

/-- `voter.votes.remove(..)` -/
def removeVoterVote (S : SState) (h : Handle) (mpip_id : Nat) : Res (SState × Handle) := do
  let r ← (S.mem.voterVotes h.region).remove h.len mpip_id
  pure ({ S with mem := { S.mem with voterVotes := upd S.mem.voterVotes h.region r.1 } }, ⟨h.region, r.2⟩)

/-! ## `internal.rs` -/

/-- `internal.rs:7-12` -/
def assert_only_admin (S : SState) (c : Ctx) : Res Unit :=
  require (S.admin_id = c.signer) "Only the admin can call this function."

/-- `internal.rs:14-20` -/
def assert_only_operator (S : SState) (c : Ctx) : Res Unit :=
  require (S.admin_id = c.signer ∨ S.operator_id = c.signer)
    "Only the operator or admin can call this function."

/-- `internal.rs:22-29` -/
def assert_only_operator_or_creator (S : SState) (c : Ctx) (mpip_id : Nat) : Res Unit := do
  let proposal ← S.internal_get_proposal mpip_id
  require (S.operator_id = c.signer ∨ proposal.creator_id = c.signer)
    "Only the admin or proposal creator can call this function."

/-- `internal.rs:31-37` -/
def assert_only_creator (S : SState) (c : Ctx) (mpip_id : Nat) : Res Unit := do
  let proposal ← S.internal_get_proposal mpip_id
  require (proposal.creator_id = c.signer) "Only the proposal creator can call this function."

/-- `internal.rs:39-44` -/
def assert_open_for_new_mpips (S : SState) : Res Unit :=
  require (S.open_for_new_mpips = true) "Contract not open for new proposals"

/-- `internal.rs:46-52` -/
def internal_has_voted (S : SState) (mpip_id : Nat) (voter_id : AccountId) : Res Bool := do
  match ← S.mem.voters.get S.voters voter_id with
  | some h => do
    let v ← (S.mem.voterVotes h.region).get h.len mpip_id
    pure v.isSome
  | none => pure false

/-- `internal.rs:54-59` -/
def assert_has_not_voted (S : SState) (mpip_id : Nat) (account_id : AccountId) : Res Unit := do
  let b ← S.internal_has_voted mpip_id account_id
  require (b = false) "Account has already voted"

/-- `internal.rs:61-66` -/
def assert_has_voted (S : SState) (mpip_id : Nat) (account_id : AccountId) : Res Unit := do
  let b ← S.internal_has_voted mpip_id account_id
  require (b = true) "Account has not voted"

/-- `internal.rs:68-70` -/
def internal_check_proposal_threshold (S : SState) (voting_power : Nat) : Bool :=
  decide (S.min_voting_power_amount ≤ voting_power)

/-- `internal.rs:72-84` -/
def internal_proposal_is_active (S : SState) (now mpip_id : Nat) : Res Bool := do
  let p ← S.internal_get_proposal mpip_id
  pure (match p.vote_start_timestamp with
    | some date => decide (now ≤ date) && !p.draft && !p.canceled && !p.executed
    | none => !p.draft && !p.canceled && !p.executed)

/-- `internal.rs:86-95` -/
def internal_proposal_is_active_or_draft (S : SState) (now mpip_id : Nat) : Res Bool := do
  let p ← S.internal_get_proposal mpip_id
  pure (match p.vote_start_timestamp with
    | some date => decide (now ≤ date) && !p.canceled && !p.executed
    | none => !p.canceled && !p.executed)

/-- `internal.rs:97-111`.  The `unwrap` of the end is only evaluated when `now >= date`. -/
def internal_proposal_is_on_voting (S : SState) (now mpip_id : Nat) : Res Bool := do
  let p ← S.internal_get_proposal mpip_id
  match p.vote_start_timestamp with
  | some date =>
    if date ≤ now then do
      let e ← expect p.vote_end_timestamp "called `Option::unwrap()` on a `None` value"
      pure (decide (now ≤ e) && !p.draft && !p.canceled && !p.executed)
    else pure false
  | none => pure false

/-- `internal.rs:113-118` -/
def assert_proposal_threshold (S : SState) (voting_power : Nat) : Res Unit :=
  require (S.internal_check_proposal_threshold voting_power = true) "Proposal threshold does not reached"

/-- `internal.rs:120-125` -/
def assert_proposal_is_active_or_draft (S : SState) (c : Ctx) (mpip_id : Nat) : Res Unit := do
  let b ← S.internal_proposal_is_active_or_draft c.now mpip_id
  require (b = true) "Proposal is not active or in draft state"

/-- `internal.rs:127-132` -/
def assert_proposal_is_on_voting (S : SState) (c : Ctx) (mpip_id : Nat) : Res Unit := do
  let b ← S.internal_proposal_is_on_voting c.now mpip_id
  require (b = true) "Proposal is not on voting period"

/-- `internal.rs:146-155` -/
def internal_get_voter_vote (S : SState) (mpip_id : Nat) (voter_id : AccountId) : Res Vote := do
  let o ← S.mem.voters.get S.voters voter_id
  let h ← expect o "Voter has not active votes"
  let v ← (S.mem.voterVotes h.region).get h.len mpip_id
  expect v "Voter has no voted on this proposal"

/-- `internal.rs:199-201` -/
def internal_get_quorum (S : SState) (total_voting_power : Nat) : Res Nat := do
  let x ← mulU128 total_voting_power S.quorum_floor
  pure (x / 100 / 100)

/-- `internal.rs:203-212` -/
def internal_is_quorum_reached (S : SState) (mpip_id : Nat) : Res Bool := do
  let proposal_vote ← S.internal_get_proposal_vote mpip_id
  let proposal ← S.internal_get_proposal mpip_id
  let quorum ← expect proposal.v_power_quorum_to_reach "Proposal quorum has not been set"
  let sum ← addU128 proposal_vote.for_votes proposal_vote.abstain_votes
  pure (decide (quorum ≤ sum))

/-- `internal.rs:224-230` -/
def assert_proposal_storage_is_covered (S : SState) (c : Ctx) : Res Unit :=
  require (S.mpip_storage_near ≤ c.deposit) "The required NEAR to create a proposal is"

/-! ## `lib.rs`: admin and operator -/

/-- `lib.rs:108-111` -/
def update_open_for_new_mpips (S : SState) (c : Ctx) (new_value : Bool) : Res SState := do
  S.assert_only_admin c
  pure { S with open_for_new_mpips := new_value }

/-- `lib.rs:114-117` -/
def update_operator_role (S : SState) (c : Ctx) (new_value : AccountId) : Res SState := do
  S.assert_only_admin c
  pure { S with operator_id := new_value }

/-- `lib.rs:120-123` -/
def update_admin_role (S : SState) (c : Ctx) (new_value : AccountId) : Res SState := do
  S.assert_only_admin c
  pure { S with admin_id := new_value }

/-- `lib.rs:125-128`: the transfer itself is in `run`. -/
def pay_to_account (S : SState) (c : Ctx) : Res SState := do
  S.assert_only_admin c
  pure S

/-- `lib.rs:135-138` -/
def update_voting_period (S : SState) (c : Ctx) (new_value : Nat) : Res SState := do
  S.assert_only_operator c
  pure { S with voting_period := new_value }

/-- `lib.rs:148-151` -/
def update_min_meta_amount (S : SState) (c : Ctx) (new_value : Nat) : Res SState := do
  S.assert_only_operator c
  pure { S with min_meta_amount := new_value }

/-- `lib.rs:154-157` -/
def update_min_voting_power_amount (S : SState) (c : Ctx) (new_value : Nat) : Res SState := do
  S.assert_only_operator c
  pure { S with min_voting_power_amount := new_value }

/-- `lib.rs:160-163` -/
def update_mpip_storage_near (S : SState) (c : Ctx) (new_value : Nat) : Res SState := do
  S.assert_only_operator c
  pure { S with mpip_storage_near := new_value }

/-- `lib.rs:166-171` -/
def update_quorum_floor (S : SState) (c : Ctx) (new_value : Nat) : Res SState := do
  S.assert_only_operator c
  require (new_value ≤ ONE_HUNDRED) "Incorrect quorum basis points."
  pure { S with quorum_floor := new_value }

/-- `lib.rs:273-276` -/
def update_meta_vote_contract_address (S : SState) (c : Ctx) (new_value : AccountId) : Res SState := do
  S.assert_only_admin c
  pure { S with meta_vote_contract_address := new_value }

/-! ## `lib.rs`: proposals -/

/-- `lib.rs:177-189`, the tests; the promise is in `run`. -/
def start_voting_period (S : SState) (c : Ctx) (mpip_id : Nat) : Res SState := do
  S.assert_only_operator_or_creator c mpip_id
  S.assert_proposal_is_active_or_draft c mpip_id
  pure S

/-- `lib.rs:192-201` -/
def start_voting_period_callback (J : Json) (S : SState) (c : Ctx) (mpip_id : Nat) : Res SState := do
  let total_voting_power ← State.internal_get_total_voting_power_from_promise J c
  let proposal ← S.internal_get_proposal mpip_id
  let e ← addU64 c.now S.voting_period
  let q ← S.internal_get_quorum total_voting_power
  S.putProposal mpip_id { proposal with
    vote_start_timestamp := some c.now
    vote_end_timestamp := some e
    draft := false
    v_power_quorum_to_reach := some q }

/-- `lib.rs:208-227`, the tests; the promise is in `run`. -/
def create_proposal (S : SState) (c : Ctx) : Res SState := do
  S.assert_open_for_new_mpips
  S.assert_proposal_storage_is_covered c
  pure S

/-- `lib.rs:230-243`, with `internal_create_proposal` (`mpip.rs:111-129`).  `len() as u32` truncates. -/
def create_proposal_callback (J : Json) (S : SState) (c : Ctx) (content : Content) : Res SState := do
  let total_v_power ← State.internal_get_user_total_voting_power_from_promise J c
  S.assert_proposal_threshold total_v_power
  let id := S.proposals % 4294967296
  let S ← S.putProposal id (State.new_proposal c id content)
  let l ← S.internal_get_proposer c.signer
  S.putProposer c.signer (l ++ [id])

/-- `lib.rs:245-251` -/
def cancel_proposal (S : SState) (c : Ctx) (mpip_id : Nat) : Res SState := do
  S.assert_only_operator_or_creator c mpip_id
  S.assert_proposal_is_active_or_draft c mpip_id
  let proposal ← S.internal_get_proposal mpip_id
  S.putProposal mpip_id { proposal with canceled := true }

/-- `lib.rs:253-271` -/
def update_proposal (S : SState) (c : Ctx) (mpip_id : Nat) (content : Content) : Res SState := do
  S.assert_only_creator c mpip_id
  S.assert_proposal_is_active_or_draft c mpip_id
  let proposal ← S.internal_get_proposal mpip_id
  S.putProposal mpip_id { proposal with content := content }

/-! ## `lib.rs`: votes -/

/-- `lib.rs:372-394`, the tests; the promise is in `run`. -/
def vote_proposal (S : SState) (c : Ctx) (mpip_id : Nat) : Res SState := do
  S.assert_proposal_is_on_voting c mpip_id
  S.assert_has_not_voted mpip_id c.predecessor
  pure S

/-- The match at `lib.rs:423-433`. -/
def add_tally (t : Tally) (v : VoteType) (power : Nat) : Res Tally :=
  match v with
  | .for_ => do
    let n ← addU128 t.for_votes power
    pure { t with for_votes := n }
  | .against => do
    let n ← addU128 t.against_votes power
    pure { t with against_votes := n }
  | .abstain => do
    let n ← addU128 t.abstain_votes power
    pure { t with abstain_votes := n }

/-- The match at `lib.rs:447-457`. -/
def sub_tally (t : Tally) (v : VoteType) (power : Nat) : Res Tally :=
  match v with
  | .for_ => do
    let n ← subU t.for_votes power
    pure { t with for_votes := n }
  | .against => do
    let n ← subU t.against_votes power
    pure { t with against_votes := n }
  | .abstain => do
    let n ← subU t.abstain_votes power
    pure { t with abstain_votes := n }

/-- `lib.rs:397-437`; the storage is written in the order of the code. -/
def vote_proposal_callback (J : Json) (S : SState) (c : Ctx) (mpip_id : Nat) (voter_id : AccountId)
    (vote_type : VoteType) (memo : String) : Res SState := do
  let total_v_power ← State.internal_get_user_total_voting_power_from_promise J c
  let voter ← S.internal_get_voter voter_id
  require (0 < total_v_power) "Not enough voting power to vote! You have"
  let proposal_vote ← S.internal_get_proposal_vote mpip_id
  let vote : Vote := ⟨mpip_id, vote_type, total_v_power, memo⟩
  let r ← S.insertHasVoted proposal_vote.has_voted voter_id vote
  let proposal_vote ← add_tally { proposal_vote with has_voted := r.2 } vote_type total_v_power
  let S ← r.1.putTally mpip_id proposal_vote
  let q ← S.insertVoterVote voter mpip_id vote
  q.1.putVoter voter_id q.2

/-- `lib.rs:439-467` -/
def remove_vote_proposal (S : SState) (c : Ctx) (mpip_id : Nat) : Res SState := do
  let voter_id := c.predecessor
  S.assert_proposal_is_on_voting c mpip_id
  S.assert_has_voted mpip_id voter_id
  let proposal_vote ← S.internal_get_proposal_vote mpip_id
  let o ← (S.mem.hasVoted proposal_vote.has_voted.region).get proposal_vote.has_voted.len voter_id
  let user_vote ← expect o "called `Option::unwrap()` on a `None` value"
  let voter ← S.internal_get_voter voter_id
  let proposal_vote ← sub_tally proposal_vote user_vote.vote_type user_vote.voting_power
  let r ← S.removeHasVoted proposal_vote.has_voted voter_id
  let S ← r.1.putTally mpip_id { proposal_vote with has_voted := r.2 }
  let q ← S.removeVoterVote voter mpip_id
  if q.2.len = 0 then q.1.dropVoter voter_id else q.1.putVoter voter_id q.2

/-- `lib.rs:493-506` -/
def process_voting_status (S : SState) (c : Ctx) (mpip_id : Nat) : Res SState := do
  S.assert_only_operator c
  let b ← S.internal_proposal_is_on_voting c.now mpip_id
  if b = false then pure S
  else do
    let proposal ← S.internal_get_proposal mpip_id
    let e ← expect proposal.vote_end_timestamp "called `Option::unwrap()` on a `None` value"
    if e ≤ c.now then do
      let q ← S.internal_is_quorum_reached mpip_id
      if q = true then S.putProposal mpip_id { proposal with executed := true }
      else pure S
    else pure S

/-! ## Views -/

/-- `lib.rs:278-280`, `340-342` -/
def get_my_proposals (S : SState) (proposer_id : AccountId) : Res (List Nat) := S.internal_get_proposer proposer_id

/-- `lib.rs:296-299`, `vote_counting.rs:38-53` -/
def get_proposal_votes (S : SState) (mpip_id : Nat) : Res ProposalVoteJson := do
  let t ← S.internal_get_proposal_vote mpip_id
  let l ← (S.mem.hasVoted t.has_voted.region).entries t.has_voted.len
  pure ⟨t.for_votes, t.against_votes, t.abstain_votes, l⟩

/-- `lib.rs:301-305` -/
def get_quorum_reached (S : SState) (c : Ctx) (mpip_id : Nat) : Res Bool := do
  S.assert_only_operator c
  S.internal_is_quorum_reached mpip_id

/-- `lib.rs:307-310` -/
def get_proposal_vote_succeeded (S : SState) (mpip_id : Nat) : Res Bool := do
  let t ← S.internal_get_proposal_vote mpip_id
  pure (decide (t.against_votes < t.for_votes))

/-- `lib.rs:312-314`, `mpip.rs:131-157` -/
def get_proposal_state (S : SState) (now mpip_id : Nat) : Res MpipState := do
  let proposal ← S.internal_get_proposal mpip_id
  if proposal.executed then pure .executed
  else if proposal.canceled then pure .canceled
  else if proposal.draft then pure .draft
  else do
    let v ← S.internal_proposal_is_on_voting now mpip_id
    if v then pure .votingProcess
    else do
      let a ← S.internal_proposal_is_active now mpip_id
      if a then pure .active
      else do
        let q ← S.internal_is_quorum_reached mpip_id
        if q then do
          let b ← S.get_proposal_vote_succeeded mpip_id
          if b then pure .accepted else pure .rejected
        else pure .rejected

/-- `lib.rs:316-319` -/
def get_proposal (S : SState) (mpip_id : Nat) : Res Proposal := S.internal_get_proposal mpip_id

/-- `lib.rs:321-338`: `None` behind the end; `start + limit` are `u32` values added as `u64`. -/
def get_proposals (S : SState) (from_index limit : Nat) : Res (Option (List Proposal)) :=
  if S.proposals ≤ from_index then pure none
  else do
    let l ← (List.range (min (from_index + limit) S.proposals - from_index)).mapM (fun i => do
      let o ← S.mem.proposals.keyAt S.proposals (from_index + i)
      let k ← expect o "called `Option::unwrap()` on a `None` value"
      let p ← S.mem.proposals.get S.proposals k
      expect p "called `Option::unwrap()` on a `None` value")
    pure (some l)

/-- `lib.rs:344-350`; `len() as u32` truncates and the subtraction is checked. -/
def get_last_proposal_id (S : SState) : Res (Option Nat) :=
  if 0 < S.proposals then do
    let n ← subU (S.proposals % 4294967296) 1
    pure (some n)
  else pure none

/-- `lib.rs:360-362` -/
def get_total_voters (S : SState) : Nat := S.voters

/-- `lib.rs:364-366` -/
def get_proposal_is_active_or_draft (S : SState) (now mpip_id : Nat) : Res Bool :=
  S.internal_proposal_is_active_or_draft now mpip_id

/-- `lib.rs:469-471` -/
def has_voted (S : SState) (voter_id : AccountId) (mpip_id : Nat) : Res Bool := S.internal_has_voted mpip_id voter_id

/-- `lib.rs:473-482` -/
def get_my_vote (S : SState) (voter_id : AccountId) (mpip_id : Nat) : Res (Option Vote) := do
  let b ← S.internal_has_voted mpip_id voter_id
  if b then do
    let v ← S.internal_get_voter_vote mpip_id voter_id
    pure (some v)
  else pure none

/-- `lib.rs:484-487`, `voter.rs:25-34` -/
def get_voter (S : SState) (voter_id : AccountId) : Res (List Vote) := do
  let h ← S.internal_get_voter voter_id
  let l ← (S.mem.voterVotes h.region).entries h.len
  pure (l.map Prod.snd)

end SState

/-! ## Entry points and executions -/

/-- A method that starts no promise. -/
def quiet (r : Res SState) : Res (SState × List Promise) := do
  let S ← r
  pure (S, [])

/-- A method that starts one promise. -/
def sends (p : Promise) (r : Res SState) : Res (SState × List Promise) := do
  let S ← r
  pure (S, [p])

/-- Body of each entry point on an initialized contract. -/
def run (J : Json) (S : SState) (c : Ctx) : Call → Res (SState × List Promise)
  | .new_ a o t v p m st q => quiet (new true a o t v p m st q)
  | .update_open_for_new_mpips b => quiet (S.update_open_for_new_mpips c b)
  | .update_operator_role a => quiet (S.update_operator_role c a)
  | .update_admin_role a => quiet (S.update_admin_role c a)
  | .pay_to_account n a => sends (.pay a n) (S.pay_to_account c)
  | .update_voting_period n => quiet (S.update_voting_period c n)
  | .update_min_meta_amount n => quiet (S.update_min_meta_amount c n)
  | .update_min_voting_power_amount n => quiet (S.update_min_voting_power_amount c n)
  | .update_mpip_storage_near n => quiet (S.update_mpip_storage_near c n)
  | .update_quorum_floor n => quiet (S.update_quorum_floor c n)
  | .start_voting_period i =>
    sends (.ask S.meta_vote_contract_address .get_total_voting_power (.start_voting_period_callback i))
      (S.start_voting_period c i)
  | .start_voting_period_callback i => quiet (S.start_voting_period_callback J c i)
  | .create_proposal t =>
    sends (.ask S.meta_vote_contract_address (.get_all_locking_positions c.predecessor)
      (.create_proposal_callback t)) (S.create_proposal c)
  | .create_proposal_callback t => quiet (S.create_proposal_callback J c t)
  | .cancel_proposal i => quiet (S.cancel_proposal c i)
  | .update_proposal i t => quiet (S.update_proposal c i t)
  | .update_meta_vote_contract_address a => quiet (S.update_meta_vote_contract_address c a)
  | .vote_proposal i v m =>
    sends (.ask S.meta_vote_contract_address (.get_all_locking_positions c.predecessor)
      (.vote_proposal_callback i c.predecessor v m)) (S.vote_proposal c i)
  | .vote_proposal_callback i a v m => quiet (S.vote_proposal_callback J c i a v m)
  | .remove_vote_proposal i => quiet (S.remove_vote_proposal c i)
  | .process_voting_status i => quiet (S.process_voting_status c i)

/-- The code `#[near_bindgen]` generates around a method, followed by the method. -/
def exec (J : Json) (S : SState) (c : Ctx) (call : Call) : Res (SState × List Promise) := do
  require (call.payable = true ∨ c.deposit = 0) "Method doesn't accept deposit"
  require (call.is_private = true → c.predecessor = c.current) "Method is private"
  require (call.in_range = true) "Failed to deserialize input from JSON."
  run J S c call

/-- Contract state, questions in flight, block clock (ns) and log (newest first). -/
structure SWorld where
  st : SState
  pending : List Pending
  clock : Nat
  log : List Entry

/-- Steps, as in `Mpip.Step`. -/
inductive SStep (J : Json) (me : AccountId) : SWorld → SWorld → Prop
  | call (W : SWorld) (c : Ctx) (k : Call) (S' : SState) (out : List Promise)
      (hme : c.current = me) (hres : c.results = []) (hclock : W.clock ≤ c.timestamp)
      (hu64 : c.timestamp ≤ U64_MAX) (hexec : exec J W.st c k = .ok (S', out)) :
      SStep J me W ⟨S', W.pending ++ asked c.signer out, c.timestamp, .call c k out :: W.log⟩
  | reply (W : SWorld) (pre post : List Pending) (p : Pending) (r : Reply) (ts : Nat)
      (hpend : W.pending = pre ++ p :: post) (hclock : W.clock ≤ ts) (hu64 : ts ≤ U64_MAX) :
      SStep J me W ⟨((exec J W.st (replyCtx me p ts r) p.callback).getOr (W.st, [])).1, pre ++ post, ts,
        .replied p ts r (exec J W.st (replyCtx me p ts r) p.callback).isOk :: W.log⟩
  | tick (W : SWorld) (ts : Nat) (hclock : W.clock ≤ ts) (hu64 : ts ≤ U64_MAX) :
      SStep J me W { W with clock := ts }

/-- The world just after an accepted `new` (`lib.rs:66`) on an account without storage entries. -/
inductive SInit : SWorld → Prop
  | mk (a o t v : AccountId) (p m st q ts : Nat) (S : SState)
      (hr : (Call.new_ a o t v p m st q).in_range = true) (hts : ts ≤ U64_MAX)
      (h : new false a o t v p m st q = .ok S) : SInit ⟨S, [], ts, []⟩

/-- Worlds reachable from an initialization. -/
inductive SReach (J : Json) (me : AccountId) : SWorld → Prop
  | init {W : SWorld} (h : SInit W) : SReach J me W
  | step {W W' : SWorld} (h : SReach J me W) (hs : SStep J me W W') : SReach J me W'

end Verif.MpipStorage
