import Verif.Borsh.Handle
import Verif.Mpip.Views

/-!
# mpip on the bytes of its storage

`mpip-contract/src` as it runs on chain: a call reads and decodes the record under `STATE`, works on the collections through
their handles, and writes the record back.  The votes on a proposal and the votes of a voter are maps whose handles are in
the stored tally of the proposal and in the stored record of the voter.  A call that panics leaves the storage as it was.
Collections follow the published source of near-sdk 4, which is not in `/repo`.  Contexts, calls, promises and the decoding of
replies are those of `Verif/Mpip`.  The log line at `internal.rs:99` is not modelled.
-/

namespace Verif.Mpip.Bytes

open Verif Storage Disk Borsh

/-- Prefix of a collection (`constants.rs:12-20`, `StorageKey`) -/
def pre (H : Hash) (c : MpipColl) : Bytes := prefixOf H c.tag c.id

/-! ## The state -/

/-- Storage and the record in memory, `self`. -/
structure St where
  D : Disk
  r : MpipRec

/-- `env::state_read` with `PanicOnDefault` (`lib.rs:26`) -/
def load (D : Disk) : Res MpipRec :=
  match D STATE with
  | none => .error (.assert "The contract is not initialized")
  | some b => expect (mpipRec.read b) "Cannot deserialize the contract state."

/-- `env::state_write` -/
def save (x : St) : Disk := upd x.D STATE (some (mpipRec.enc x.r))

/-- The record of `lib.rs:82-100`. -/
def newRec (H : Hash) (admin_id operator_id meta_token meta_vote : AccountId)
    (voting_period min_voting_power_amount mpip_storage_near quorum_floor : Nat) : MpipRec where
  admin_id := admin_id
  operator_id := operator_id
  meta_token_contract_address := meta_token
  meta_vote_contract_address := meta_vote
  proposals := .at (pre H .mpips) 0
  voting_period := voting_period
  min_meta_amount := 0
  min_st_near_amount := 0
  min_voting_power_amount := min_voting_power_amount
  mpip_cost_in_meta := 0
  mpip_storage_near := mpip_storage_near
  open_for_new_mpips := true
  quorum_floor := quorum_floor
  votes := .at (pre H .mpipVotes) 0
  voters := .at (pre H .voters) 0
  proposers := .at (pre H .proposers) 0

/-- `lib.rs:66-101` -/
def new (H : Hash) (D : Disk) (admin_id operator_id meta_token meta_vote : AccountId)
    (voting_period min_voting_power_amount mpip_storage_near quorum_floor : Nat) : Res Disk := do
  require (D STATE = none) "The contract is already initialized"
  require (quorum_floor ≤ ONE_HUNDRED) "Incorrect quorum basis points."
  pure (save ⟨D, newRec H admin_id operator_id meta_token meta_vote voting_period min_voting_power_amount mpip_storage_near
    quorum_floor⟩)

/-- `vote_counting.rs:27-36`, with `generate_hash_id(id.to_string())` (`utils.rs:9-11`) -/
def newTally (H : Hash) (id : Nat) : TallyRec := ⟨0, 0, 0, .at (pre H (.hasVoted (Nat.repr id))) 0⟩

/-- `voter.rs:18-24` -/
def newVoter (H : Hash) (voter_id : AccountId) : MpipVoterRec := ⟨.at (pre H (.votes voter_id)) 0⟩

namespace St

/-! ## Access to the collections -/

/-- `internal.rs:134-138` -/
def internal_get_proposal (x : St) (mpip_id : Nat) : Res Proposal := do
  let p ← MapH.get u32 proposal x.D x.r.proposals mpip_id
  expect p "MPIP Id does not exist"

/-- `self.proposals.insert(..)` -/
def putProposal (x : St) (mpip_id : Nat) (p : Proposal) : Res St := do
  let q ← MapH.insert u32 proposal x.D x.r.proposals mpip_id p
  pure ⟨q.1, { x.r with proposals := q.2 }⟩

/-- `internal.rs:140-144` -/
def internal_get_proposal_vote (H : Hash) (x : St) (mpip_id : Nat) : Res TallyRec := do
  let t ← MapH.get u32 tallyRec x.D x.r.votes mpip_id
  pure (t.getD (newTally H mpip_id))

/-- `self.votes.insert(..)` -/
def putTally (x : St) (mpip_id : Nat) (t : TallyRec) : Res St := do
  let q ← MapH.insert u32 tallyRec x.D x.r.votes mpip_id t
  pure ⟨q.1, { x.r with votes := q.2 }⟩

/-- `internal.rs:214-216` -/
def internal_get_voter (H : Hash) (x : St) (voter_id : AccountId) : Res MpipVoterRec := do
  let v ← MapH.get string mpipVoterRec x.D x.r.voters voter_id
  pure (v.getD (newVoter H voter_id))

/-- `self.voters.insert(..)` -/
def putVoter (x : St) (voter_id : AccountId) (v : MpipVoterRec) : Res St := do
  let q ← MapH.insert string mpipVoterRec x.D x.r.voters voter_id v
  pure ⟨q.1, { x.r with voters := q.2 }⟩

/-- `self.voters.remove(..)` -/
def dropVoter (x : St) (voter_id : AccountId) : Res St := do
  let q ← MapH.remove string mpipVoterRec x.D x.r.voters voter_id
  pure ⟨q.1, { x.r with voters := q.2.1 }⟩

/-- `internal.rs:218-222` -/
def internal_get_proposer (x : St) (proposer_id : AccountId) : Res (List Nat) := do
  let l ← MapH.get string (list u32) x.D x.r.proposers proposer_id
  pure (l.getD [])

/-- `self.proposers.insert(..)` (`mpip.rs:124-128`) -/
def putProposer (x : St) (proposer_id : AccountId) (l : List Nat) : Res St := do
  let q ← MapH.insert string (list u32) x.D x.r.proposers proposer_id l
  pure ⟨q.1, { x.r with proposers := q.2 }⟩

/-- `proposal_vote.has_voted.insert(..)`; the new handle is in memory only. -/
def insertHasVoted (x : St) (t : TallyRec) (voter_id : AccountId) (v : Vote) : Res (St × TallyRec) := do
  let q ← MapH.insert string vote x.D t.has_voted voter_id v
  pure ({ x with D := q.1 }, { t with has_voted := q.2 })

/-- `proposal_vote.has_voted.remove(..)` -/
def removeHasVoted (x : St) (t : TallyRec) (voter_id : AccountId) : Res (St × TallyRec) := do
  let q ← MapH.remove string vote x.D t.has_voted voter_id
  pure ({ x with D := q.1 }, { t with has_voted := q.2.1 })

/-- `voter.votes.insert(..)` -/
def insertVoterVote (x : St) (w : MpipVoterRec) (mpip_id : Nat) (v : Vote) : Res (St × MpipVoterRec) := do
  let q ← MapH.insert u32 vote x.D w.votes mpip_id v
  pure ({ x with D := q.1 }, ⟨q.2⟩)

/-- `voter.votes.remove(..)` -/
def removeVoterVote (x : St) (w : MpipVoterRec) (mpip_id : Nat) : Res (St × MpipVoterRec) := do
  let q ← MapH.remove u32 vote x.D w.votes mpip_id
  pure ({ x with D := q.1 }, ⟨q.2.1⟩)

/-! ## `internal.rs` -/

/-- `internal.rs:7-12` -/
def assert_only_admin (x : St) (c : Ctx) : Res Unit :=
  require (x.r.admin_id = c.signer) "Only the admin can call this function."

/-- `internal.rs:14-20` -/
def assert_only_operator (x : St) (c : Ctx) : Res Unit :=
  require (x.r.admin_id = c.signer ∨ x.r.operator_id = c.signer)
    "Only the operator or admin can call this function."

/-- `internal.rs:22-29` -/
def assert_only_operator_or_creator (x : St) (c : Ctx) (mpip_id : Nat) : Res Unit := do
  let proposal ← x.internal_get_proposal mpip_id
  require (x.r.operator_id = c.signer ∨ proposal.creator_id = c.signer)
    "Only the admin or proposal creator can call this function."

/-- `internal.rs:31-37` -/
def assert_only_creator (x : St) (c : Ctx) (mpip_id : Nat) : Res Unit := do
  let proposal ← x.internal_get_proposal mpip_id
  require (proposal.creator_id = c.signer) "Only the proposal creator can call this function."

/-- `internal.rs:39-44` -/
def assert_open_for_new_mpips (x : St) : Res Unit :=
  require (x.r.open_for_new_mpips = true) "Contract not open for new proposals"

/-- `internal.rs:46-52` -/
def internal_has_voted (x : St) (mpip_id : Nat) (voter_id : AccountId) : Res Bool := do
  match ← MapH.get string mpipVoterRec x.D x.r.voters voter_id with
  | some w => do
    let v ← MapH.get u32 vote x.D w.votes mpip_id
    pure v.isSome
  | none => pure false

/-- `internal.rs:54-59` -/
def assert_has_not_voted (x : St) (mpip_id : Nat) (account_id : AccountId) : Res Unit := do
  let b ← x.internal_has_voted mpip_id account_id
  require (b = false) "Account has already voted"

/-- `internal.rs:61-66` -/
def assert_has_voted (x : St) (mpip_id : Nat) (account_id : AccountId) : Res Unit := do
  let b ← x.internal_has_voted mpip_id account_id
  require (b = true) "Account has not voted"

/-- `internal.rs:68-70` -/
def internal_check_proposal_threshold (x : St) (voting_power : Nat) : Bool :=
  decide (x.r.min_voting_power_amount ≤ voting_power)

/-- `internal.rs:72-84` -/
def internal_proposal_is_active (x : St) (now mpip_id : Nat) : Res Bool := do
  let p ← x.internal_get_proposal mpip_id
  pure (match p.vote_start_timestamp with
    | some date => decide (now ≤ date) && !p.draft && !p.canceled && !p.executed
    | none => !p.draft && !p.canceled && !p.executed)

/-- `internal.rs:86-95` -/
def internal_proposal_is_active_or_draft (x : St) (now mpip_id : Nat) : Res Bool := do
  let p ← x.internal_get_proposal mpip_id
  pure (match p.vote_start_timestamp with
    | some date => decide (now ≤ date) && !p.canceled && !p.executed
    | none => !p.canceled && !p.executed)

/-- `internal.rs:97-111`.  The `unwrap` of the end is only evaluated when `now >= date`. -/
def internal_proposal_is_on_voting (x : St) (now mpip_id : Nat) : Res Bool := do
  let p ← x.internal_get_proposal mpip_id
  match p.vote_start_timestamp with
  | some date =>
    if date ≤ now then do
      let e ← expect p.vote_end_timestamp "called `Option::unwrap()` on a `None` value"
      pure (decide (now ≤ e) && !p.draft && !p.canceled && !p.executed)
    else pure false
  | none => pure false

/-- `internal.rs:113-118` -/
def assert_proposal_threshold (x : St) (voting_power : Nat) : Res Unit :=
  require (x.internal_check_proposal_threshold voting_power = true) "Proposal threshold does not reached"

/-- `internal.rs:120-125` -/
def assert_proposal_is_active_or_draft (x : St) (c : Ctx) (mpip_id : Nat) : Res Unit := do
  let b ← x.internal_proposal_is_active_or_draft c.now mpip_id
  require (b = true) "Proposal is not active or in draft state"

/-- `internal.rs:127-132` -/
def assert_proposal_is_on_voting (x : St) (c : Ctx) (mpip_id : Nat) : Res Unit := do
  let b ← x.internal_proposal_is_on_voting c.now mpip_id
  require (b = true) "Proposal is not on voting period"

/-- `internal.rs:146-155` -/
def internal_get_voter_vote (x : St) (mpip_id : Nat) (voter_id : AccountId) : Res Vote := do
  let o ← MapH.get string mpipVoterRec x.D x.r.voters voter_id
  let w ← expect o "Voter has not active votes"
  let v ← MapH.get u32 vote x.D w.votes mpip_id
  expect v "Voter has no voted on this proposal"

/-- `internal.rs:199-201` -/
def internal_get_quorum (x : St) (total_voting_power : Nat) : Res Nat := do
  let n ← mulU128 total_voting_power x.r.quorum_floor
  pure (n / 100 / 100)

/-- `internal.rs:203-212` -/
def internal_is_quorum_reached (H : Hash) (x : St) (mpip_id : Nat) : Res Bool := do
  let proposal_vote ← x.internal_get_proposal_vote H mpip_id
  let proposal ← x.internal_get_proposal mpip_id
  let quorum ← expect proposal.v_power_quorum_to_reach "Proposal quorum has not been set"
  let sum ← addU128 proposal_vote.for_votes proposal_vote.abstain_votes
  pure (decide (quorum ≤ sum))

/-- `internal.rs:224-230` -/
def assert_proposal_storage_is_covered (x : St) (c : Ctx) : Res Unit :=
  require (x.r.mpip_storage_near ≤ c.deposit) "The required NEAR to create a proposal is"

/-! ## `lib.rs`: admin and operator -/

/-- `lib.rs:108-111` -/
def update_open_for_new_mpips (x : St) (c : Ctx) (new_value : Bool) : Res St := do
  x.assert_only_admin c
  pure { x with r := { x.r with open_for_new_mpips := new_value } }

/-- `lib.rs:114-117` -/
def update_operator_role (x : St) (c : Ctx) (new_value : AccountId) : Res St := do
  x.assert_only_admin c
  pure { x with r := { x.r with operator_id := new_value } }

/-- `lib.rs:120-123` -/
def update_admin_role (x : St) (c : Ctx) (new_value : AccountId) : Res St := do
  x.assert_only_admin c
  pure { x with r := { x.r with admin_id := new_value } }

/-- `lib.rs:125-128`: the transfer itself is in `run`. -/
def pay_to_account (x : St) (c : Ctx) : Res St := do
  x.assert_only_admin c
  pure x

/-- `lib.rs:135-138` -/
def update_voting_period (x : St) (c : Ctx) (new_value : Nat) : Res St := do
  x.assert_only_operator c
  pure { x with r := { x.r with voting_period := new_value } }

/-- `lib.rs:148-151` -/
def update_min_meta_amount (x : St) (c : Ctx) (new_value : Nat) : Res St := do
  x.assert_only_operator c
  pure { x with r := { x.r with min_meta_amount := new_value } }

/-- `lib.rs:154-157` -/
def update_min_voting_power_amount (x : St) (c : Ctx) (new_value : Nat) : Res St := do
  x.assert_only_operator c
  pure { x with r := { x.r with min_voting_power_amount := new_value } }

/-- `lib.rs:160-163` -/
def update_mpip_storage_near (x : St) (c : Ctx) (new_value : Nat) : Res St := do
  x.assert_only_operator c
  pure { x with r := { x.r with mpip_storage_near := new_value } }

/-- `lib.rs:166-171` -/
def update_quorum_floor (x : St) (c : Ctx) (new_value : Nat) : Res St := do
  x.assert_only_operator c
  require (new_value ≤ ONE_HUNDRED) "Incorrect quorum basis points."
  pure { x with r := { x.r with quorum_floor := new_value } }

/-- `lib.rs:273-276` -/
def update_meta_vote_contract_address (x : St) (c : Ctx) (new_value : AccountId) : Res St := do
  x.assert_only_admin c
  pure { x with r := { x.r with meta_vote_contract_address := new_value } }

/-! ## `lib.rs`: proposals -/

/-- `lib.rs:177-189`, the tests; the promise is in `run`. -/
def start_voting_period (x : St) (c : Ctx) (mpip_id : Nat) : Res St := do
  x.assert_only_operator_or_creator c mpip_id
  x.assert_proposal_is_active_or_draft c mpip_id
  pure x

/-- `lib.rs:192-201` -/
def start_voting_period_callback (J : Json) (x : St) (c : Ctx) (mpip_id : Nat) : Res St := do
  let total_voting_power ← State.internal_get_total_voting_power_from_promise J c
  let proposal ← x.internal_get_proposal mpip_id
  let e ← addU64 c.now x.r.voting_period
  let q ← x.internal_get_quorum total_voting_power
  x.putProposal mpip_id { proposal with
    vote_start_timestamp := some c.now
    vote_end_timestamp := some e
    draft := false
    v_power_quorum_to_reach := some q }

/-- `lib.rs:208-227`, the tests; the promise is in `run`. -/
def create_proposal (x : St) (c : Ctx) : Res St := do
  x.assert_open_for_new_mpips
  x.assert_proposal_storage_is_covered c
  pure x

/-- `lib.rs:230-243`, with `internal_create_proposal` (`mpip.rs:111-129`).  `len() as u32` truncates. -/
def create_proposal_callback (J : Json) (x : St) (c : Ctx) (content : Content) : Res St := do
  let total_v_power ← State.internal_get_user_total_voting_power_from_promise J c
  x.assert_proposal_threshold total_v_power
  let id := x.r.proposals.keys.len % 4294967296
  let x ← x.putProposal id (State.new_proposal c id content)
  let l ← x.internal_get_proposer c.signer
  x.putProposer c.signer (l ++ [id])

/-- `lib.rs:245-251` -/
def cancel_proposal (x : St) (c : Ctx) (mpip_id : Nat) : Res St := do
  x.assert_only_operator_or_creator c mpip_id
  x.assert_proposal_is_active_or_draft c mpip_id
  let proposal ← x.internal_get_proposal mpip_id
  x.putProposal mpip_id { proposal with canceled := true }

/-- `lib.rs:253-271` -/
def update_proposal (x : St) (c : Ctx) (mpip_id : Nat) (content : Content) : Res St := do
  x.assert_only_creator c mpip_id
  x.assert_proposal_is_active_or_draft c mpip_id
  let proposal ← x.internal_get_proposal mpip_id
  x.putProposal mpip_id { proposal with content := content }

/-! ## `lib.rs`: votes -/

/-- `lib.rs:372-394`, the tests; the promise is in `run`. -/
def vote_proposal (x : St) (c : Ctx) (mpip_id : Nat) : Res St := do
  x.assert_proposal_is_on_voting c mpip_id
  x.assert_has_not_voted mpip_id c.predecessor
  pure x

/-- The match at `lib.rs:423-433`. -/
def add_tally (t : TallyRec) (v : VoteType) (power : Nat) : Res TallyRec :=
  match v with
  | .for_ => do
    let n ← addU128 t.for_votes power
    pure { t with for_votes := n }
  | .against => do
    let n ← addU128 t.against_votes power
    pure { t with against_votes := n }
  | .abstain => do
    let n ← addU128 t.abstain_votes power
    pure { t with abstain_votes := n }

/-- The match at `lib.rs:447-457`. -/
def sub_tally (t : TallyRec) (v : VoteType) (power : Nat) : Res TallyRec :=
  match v with
  | .for_ => do
    let n ← subU t.for_votes power
    pure { t with for_votes := n }
  | .against => do
    let n ← subU t.against_votes power
    pure { t with against_votes := n }
  | .abstain => do
    let n ← subU t.abstain_votes power
    pure { t with abstain_votes := n }

/-- `lib.rs:397-437`; the storage is written in the order of the code. -/
def vote_proposal_callback (H : Hash) (J : Json) (x : St) (c : Ctx) (mpip_id : Nat) (voter_id : AccountId)
    (vote_type : VoteType) (memo : String) : Res St := do
  let total_v_power ← State.internal_get_user_total_voting_power_from_promise J c
  let voter ← x.internal_get_voter H voter_id
  require (0 < total_v_power) "Not enough voting power to vote! You have"
  let proposal_vote ← x.internal_get_proposal_vote H mpip_id
  let vote : Vote := ⟨mpip_id, vote_type, total_v_power, memo⟩
  let q ← x.insertHasVoted proposal_vote voter_id vote
  let proposal_vote ← add_tally q.2 vote_type total_v_power
  let x ← q.1.putTally mpip_id proposal_vote
  let q ← x.insertVoterVote voter mpip_id vote
  q.1.putVoter voter_id q.2

/-- `lib.rs:439-467` -/
def remove_vote_proposal (H : Hash) (x : St) (c : Ctx) (mpip_id : Nat) : Res St := do
  let voter_id := c.predecessor
  x.assert_proposal_is_on_voting c mpip_id
  x.assert_has_voted mpip_id voter_id
  let proposal_vote ← x.internal_get_proposal_vote H mpip_id
  let o ← MapH.get string vote x.D proposal_vote.has_voted voter_id
  let user_vote ← expect o "called `Option::unwrap()` on a `None` value"
  let voter ← x.internal_get_voter H voter_id
  let proposal_vote ← sub_tally proposal_vote user_vote.vote_type user_vote.voting_power
  let q ← x.removeHasVoted proposal_vote voter_id
  let x ← q.1.putTally mpip_id q.2
  let q ← x.removeVoterVote voter mpip_id
  if q.2.votes.keys.len = 0 then q.1.dropVoter voter_id else q.1.putVoter voter_id q.2

/-- `lib.rs:493-506` -/
def process_voting_status (H : Hash) (x : St) (c : Ctx) (mpip_id : Nat) : Res St := do
  x.assert_only_operator c
  let b ← x.internal_proposal_is_on_voting c.now mpip_id
  if b = false then pure x
  else do
    let proposal ← x.internal_get_proposal mpip_id
    let e ← expect proposal.vote_end_timestamp "called `Option::unwrap()` on a `None` value"
    if e ≤ c.now then do
      let q ← x.internal_is_quorum_reached H mpip_id
      if q = true then x.putProposal mpip_id { proposal with executed := true }
      else pure x
    else pure x

/-! ## Views -/

/-- `lib.rs:278-280` -/
def get_my_proposals (x : St) (proposer_id : AccountId) : Res (List Nat) := x.internal_get_proposer proposer_id

/-- `lib.rs:288-290` -/
def check_proposal_threshold (x : St) (voting_power : Nat) : Bool := x.internal_check_proposal_threshold voting_power

/-- `lib.rs:292-294` -/
def get_mpip_storage_near (x : St) : Nat := x.r.mpip_storage_near

/-- `lib.rs:296-299`, `vote_counting.rs:38-53` -/
def get_proposal_votes (H : Hash) (x : St) (mpip_id : Nat) : Res ProposalVoteJson := do
  let t ← x.internal_get_proposal_vote H mpip_id
  let l ← MapH.entryList string vote x.D t.has_voted
  pure ⟨t.for_votes, t.against_votes, t.abstain_votes, l⟩

/-- `lib.rs:301-305` -/
def get_quorum_reached (H : Hash) (x : St) (c : Ctx) (mpip_id : Nat) : Res Bool := do
  x.assert_only_operator c
  x.internal_is_quorum_reached H mpip_id

/-- `lib.rs:307-310` -/
def get_proposal_vote_succeeded (H : Hash) (x : St) (mpip_id : Nat) : Res Bool := do
  let t ← x.internal_get_proposal_vote H mpip_id
  pure (decide (t.against_votes < t.for_votes))

/-- `lib.rs:312-314`, `mpip.rs:131-157` -/
def get_proposal_state (H : Hash) (x : St) (now mpip_id : Nat) : Res MpipState := do
  let proposal ← x.internal_get_proposal mpip_id
  if proposal.executed then pure .executed
  else if proposal.canceled then pure .canceled
  else if proposal.draft then pure .draft
  else do
    let v ← x.internal_proposal_is_on_voting now mpip_id
    if v then pure .votingProcess
    else do
      let a ← x.internal_proposal_is_active now mpip_id
      if a then pure .active
      else do
        let q ← x.internal_is_quorum_reached H mpip_id
        if q then do
          let b ← x.get_proposal_vote_succeeded H mpip_id
          if b then pure .accepted else pure .rejected
        else pure .rejected

/-- `lib.rs:316-319` -/
def get_proposal (x : St) (mpip_id : Nat) : Res Proposal := x.internal_get_proposal mpip_id

/-- `lib.rs:321-338`: `None` behind the end; `start + limit` are `u32` values added as `u64`. -/
def get_proposals (x : St) (from_index limit : Nat) : Res (Option (List Proposal)) :=
  if x.r.proposals.keys.len ≤ from_index then pure none
  else do
    let l ← (List.range (min (from_index + limit) x.r.proposals.keys.len - from_index)).mapM (fun i => do
      let o ← MapH.keyAt u32 x.D x.r.proposals (from_index + i)
      let k ← expect o "called `Option::unwrap()` on a `None` value"
      let p ← MapH.get u32 proposal x.D x.r.proposals k
      expect p "called `Option::unwrap()` on a `None` value")
    pure (some l)

/-- `lib.rs:340-342` -/
def get_user_proposals_ids (x : St) (proposer_id : AccountId) : Res (List Nat) := do
  let l ← MapH.get string (list u32) x.D x.r.proposers proposer_id
  pure (l.getD [])

/-- `lib.rs:344-350`; `len() as u32` truncates and the subtraction is checked. -/
def get_last_proposal_id (x : St) : Res (Option Nat) :=
  if 0 < x.r.proposals.keys.len then do
    let n ← subU (x.r.proposals.keys.len % 4294967296) 1
    pure (some n)
  else pure none

/-- `lib.rs:352-354` -/
def get_quorum_floor (x : St) : Nat := x.r.quorum_floor

/-- `lib.rs:356-358` -/
def get_proposal_threshold (x : St) : Nat := x.r.min_voting_power_amount

/-- `lib.rs:360-362` -/
def get_total_voters (x : St) : Nat := x.r.voters.keys.len

/-- `lib.rs:364-366` -/
def get_proposal_is_active_or_draft (x : St) (now mpip_id : Nat) : Res Bool :=
  x.internal_proposal_is_active_or_draft now mpip_id

/-- `lib.rs:469-471` -/
def has_voted (x : St) (voter_id : AccountId) (mpip_id : Nat) : Res Bool := x.internal_has_voted mpip_id voter_id

/-- `lib.rs:473-482` -/
def get_my_vote (x : St) (voter_id : AccountId) (mpip_id : Nat) : Res (Option Vote) := do
  let b ← x.internal_has_voted mpip_id voter_id
  if b then do
    let v ← x.internal_get_voter_vote mpip_id voter_id
    pure (some v)
  else pure none

/-- `lib.rs:484-487`, `voter.rs:25-34` -/
def get_voter (H : Hash) (x : St) (voter_id : AccountId) : Res (List Vote) := do
  let w ← x.internal_get_voter H voter_id
  let l ← MapH.entryList u32 vote x.D w.votes
  pure (l.map Prod.snd)

end St

/-- `self` of a view: the record under `STATE`. -/
def view {α : Type} (D : Disk) (g : St → Res α) : Res α := load D >>= fun r => g ⟨D, r⟩

/-! ## Entry points -/

/-- A method that starts no promise. -/
def quiet (a : Res St) : Res (St × List Promise) := do
  let x ← a
  pure (x, [])

/-- A method that starts one promise. -/
def sends (p : Promise) (a : Res St) : Res (St × List Promise) := do
  let x ← a
  pure (x, [p])

/-- Body of each entry point apart from `new`. -/
def run (H : Hash) (J : Json) (x : St) (c : Ctx) : Call → Res (St × List Promise)
  | .new_ .. => pure (x, [])
  | .update_open_for_new_mpips b => quiet (x.update_open_for_new_mpips c b)
  | .update_operator_role a => quiet (x.update_operator_role c a)
  | .update_admin_role a => quiet (x.update_admin_role c a)
  | .pay_to_account n a => sends (.pay a n) (x.pay_to_account c)
  | .update_voting_period n => quiet (x.update_voting_period c n)
  | .update_min_meta_amount n => quiet (x.update_min_meta_amount c n)
  | .update_min_voting_power_amount n => quiet (x.update_min_voting_power_amount c n)
  | .update_mpip_storage_near n => quiet (x.update_mpip_storage_near c n)
  | .update_quorum_floor n => quiet (x.update_quorum_floor c n)
  | .start_voting_period i =>
    sends (.ask x.r.meta_vote_contract_address .get_total_voting_power (.start_voting_period_callback i))
      (x.start_voting_period c i)
  | .start_voting_period_callback i => quiet (x.start_voting_period_callback J c i)
  | .create_proposal t =>
    sends (.ask x.r.meta_vote_contract_address (.get_all_locking_positions c.predecessor)
      (.create_proposal_callback t)) (x.create_proposal c)
  | .create_proposal_callback t => quiet (x.create_proposal_callback J c t)
  | .cancel_proposal i => quiet (x.cancel_proposal c i)
  | .update_proposal i t => quiet (x.update_proposal c i t)
  | .update_meta_vote_contract_address a => quiet (x.update_meta_vote_contract_address c a)
  | .vote_proposal i v m =>
    sends (.ask x.r.meta_vote_contract_address (.get_all_locking_positions c.predecessor)
      (.vote_proposal_callback i c.predecessor v m)) (x.vote_proposal c i)
  | .vote_proposal_callback i a v m => quiet (x.vote_proposal_callback H J c i a v m)
  | .remove_vote_proposal i => quiet (x.remove_vote_proposal H c i)
  | .process_voting_status i => quiet (x.process_voting_status H c i)

/-- The code `#[near_bindgen]` generates around a method, followed by the method.  Every method of the list takes `&mut self`
apart from `new`, so the record is written back. -/
def exec (H : Hash) (J : Json) (D : Disk) (c : Ctx) (k : Call) : Res (Disk × List Promise) := do
  require (k.payable = true ∨ c.deposit = 0) "Method doesn't accept deposit"
  require (k.is_private = true → c.predecessor = c.current) "Method is private"
  require (k.in_range = true) "Failed to deserialize input from JSON."
  match k with
  | .new_ a o t v p m st q => do
    let D ← new H D a o t v p m st q
    pure (D, [])
  | k => do
    let r ← load D
    let x ← run H J ⟨D, r⟩ c k
    pure (save x.1, x.2)

end Verif.Mpip.Bytes
