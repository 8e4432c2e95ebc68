import Verif.Mpip.Types

/-!
# mpip contract: methods

`lib.rs`, `internal.rs` and `mpip.rs` of `/repo/mpip-contract/src`.
-/

namespace Verif.Mpip

open Verif

/-- `lib.rs:66-101`; `state_exists` is `env::state_exists()`. -/
def new (state_exists : Bool) (admin_id operator_id meta_token meta_vote : AccountId)
    (voting_period min_voting_power_amount mpip_storage_near quorum_floor : Nat) : Res State := do
  require (state_exists = false) "The contract is already initialized"
  require (quorum_floor ≤ ONE_HUNDRED) "Incorrect quorum basis points."
  pure {
    admin_id := admin_id
    operator_id := operator_id
    meta_token_contract_address := meta_token
    meta_vote_contract_address := meta_vote
    proposals := UMap.empty
    voting_period := voting_period
    min_meta_amount := 0
    min_st_near_amount := 0
    min_voting_power_amount := min_voting_power_amount
    mpip_cost_in_meta := 0
    mpip_storage_near := mpip_storage_near
    open_for_new_mpips := true
    quorum_floor := quorum_floor
    votes := UMap.empty
    voters := UMap.empty
    proposers := UMap.empty }

namespace State

/-! ## `internal.rs` -/

/-- `internal.rs:7-12` -/
def assert_only_admin (s : State) (c : Ctx) : Res Unit :=
  require (s.admin_id = c.signer) "Only the admin can call this function."

/-- `internal.rs:14-20` -/
def assert_only_operator (s : State) (c : Ctx) : Res Unit :=
  require (s.admin_id = c.signer ∨ s.operator_id = c.signer)
    "Only the operator or admin can call this function."

/-- `internal.rs:134-138` -/
def internal_get_proposal (s : State) (mpip_id : Nat) : Res Proposal :=
  expect (s.proposals.get mpip_id) "MPIP Id does not exist"

/-- `internal.rs:22-29` -/
def assert_only_operator_or_creator (s : State) (c : Ctx) (mpip_id : Nat) : Res Unit := do
  let proposal ← s.internal_get_proposal mpip_id
  require (s.operator_id = c.signer ∨ proposal.creator_id = c.signer)
    "Only the admin or proposal creator can call this function."

/-- `internal.rs:31-37` -/
def assert_only_creator (s : State) (c : Ctx) (mpip_id : Nat) : Res Unit := do
  let proposal ← s.internal_get_proposal mpip_id
  require (proposal.creator_id = c.signer) "Only the proposal creator can call this function."

/-- `internal.rs:39-44` -/
def assert_open_for_new_mpips (s : State) : Res Unit :=
  require (s.open_for_new_mpips = true) "Contract not open for new proposals"

/-- `internal.rs:46-52` -/
def internal_has_voted (s : State) (mpip_id : Nat) (voter_id : AccountId) : Bool :=
  match s.voters.get voter_id with
  | some voter => (voter.votes.get mpip_id).isSome
  | none => false

/-- `internal.rs:54-59` -/
def assert_has_not_voted (s : State) (mpip_id : Nat) (account_id : AccountId) : Res Unit :=
  require (s.internal_has_voted mpip_id account_id = false) "Account has already voted"

/-- `internal.rs:61-66` -/
def assert_has_voted (s : State) (mpip_id : Nat) (account_id : AccountId) : Res Unit :=
  require (s.internal_has_voted mpip_id account_id = true) "Account has not voted"

/-- `internal.rs:68-70` -/
def internal_check_proposal_threshold (s : State) (voting_power : Nat) : Bool :=
  decide (s.min_voting_power_amount ≤ voting_power)

/-- `internal.rs:72-84` -/
def internal_proposal_is_active (s : State) (now mpip_id : Nat) : Res Bool := do
  let p ← s.internal_get_proposal mpip_id
  pure (match p.vote_start_timestamp with
    | some date => decide (now ≤ date) && !p.draft && !p.canceled && !p.executed
    | none => !p.draft && !p.canceled && !p.executed)

/-- `internal.rs:86-95` -/
def internal_proposal_is_active_or_draft (s : State) (now mpip_id : Nat) : Res Bool := do
  let p ← s.internal_get_proposal mpip_id
  pure (match p.vote_start_timestamp with
    | some date => decide (now ≤ date) && !p.canceled && !p.executed
    | none => !p.canceled && !p.executed)

/-- `internal.rs:97-111`.  The `unwrap` of the end is only evaluated when `now >= date`. -/
def internal_proposal_is_on_voting (s : State) (now mpip_id : Nat) : Res Bool := do
  let p ← s.internal_get_proposal mpip_id
  match p.vote_start_timestamp with
  | some date =>
    if date ≤ now then do
      let e ← expect p.vote_end_timestamp "called `Option::unwrap()` on a `None` value"
      pure (decide (now ≤ e) && !p.draft && !p.canceled && !p.executed)
    else pure false
  | none => pure false

/-- `internal.rs:113-118` -/
def assert_proposal_threshold (s : State) (voting_power : Nat) : Res Unit :=
  require (s.internal_check_proposal_threshold voting_power = true) "Proposal threshold does not reached"

/-- `internal.rs:120-125` -/
def assert_proposal_is_active_or_draft (s : State) (c : Ctx) (mpip_id : Nat) : Res Unit := do
  let b ← s.internal_proposal_is_active_or_draft c.now mpip_id
  require (b = true) "Proposal is not active or in draft state"

/-- `internal.rs:127-132` -/
def assert_proposal_is_on_voting (s : State) (c : Ctx) (mpip_id : Nat) : Res Unit := do
  let b ← s.internal_proposal_is_on_voting c.now mpip_id
  require (b = true) "Proposal is not on voting period"

/-- `internal.rs:140-144` -/
def internal_get_proposal_vote (s : State) (mpip_id : Nat) : ProposalVote :=
  (s.votes.get mpip_id).getD ProposalVote.new

/-- `internal.rs:146-155` -/
def internal_get_voter_vote (s : State) (mpip_id : Nat) (voter_id : AccountId) : Res Vote := do
  let voter ← expect (s.voters.get voter_id) "Voter has not active votes"
  expect (voter.votes.get mpip_id) "Voter has no voted on this proposal"

/-- `internal.rs:158-162`, `174-178` and the matches on the result: one successful result. -/
def the_reply (c : Ctx) : Res (List UInt8) :=
  match c.results with
  | [.successful b] => pure b
  | [.failed] => .error (.assert "Meta Vote is not available!")
  | _ => .error (.assert "This is a callback method.")

/-- `internal.rs:157-171` -/
def internal_get_total_voting_power_from_promise (J : Json) (c : Ctx) : Res Nat := do
  let b ← the_reply c
  expect (J.read_total b) "called `Result::unwrap()` on an `Err` value"

/-- The loop at `internal.rs:186-193`. -/
def sum_locked_power (result : Nat) (p : MetaVote.LockingPositionJSON) : Res Nat :=
  if p.is_locked then addU128 result p.voting_power else pure result

/-- `internal.rs:173-197` -/
def internal_get_user_total_voting_power_from_promise (J : Json) (c : Ctx) : Res Nat := do
  let b ← the_reply c
  let locking_positions ← expect (J.read_positions b) "called `Result::unwrap()` on an `Err` value"
  locking_positions.foldlM sum_locked_power 0

/-- `internal.rs:199-201` -/
def internal_get_quorum (s : State) (total_voting_power : Nat) : Res Nat := do
  let x ← mulU128 total_voting_power s.quorum_floor
  pure (x / 100 / 100)

/-- `internal.rs:203-212` -/
def internal_is_quorum_reached (s : State) (mpip_id : Nat) : Res Bool := do
  let proposal_vote := s.internal_get_proposal_vote mpip_id
  let proposal ← s.internal_get_proposal mpip_id
  let quorum ← expect proposal.v_power_quorum_to_reach "Proposal quorum has not been set"
  let sum ← addU128 proposal_vote.for_votes proposal_vote.abstain_votes
  pure (decide (quorum ≤ sum))

/-- `internal.rs:214-216` -/
def internal_get_voter (s : State) (voter_id : AccountId) : Voter := (s.voters.get voter_id).getD ⟨UMap.empty⟩

/-- `internal.rs:218-222` -/
def internal_get_proposer (s : State) (proposer_id : AccountId) : List Nat := (s.proposers.get proposer_id).getD []

/-- `internal.rs:224-230` -/
def assert_proposal_storage_is_covered (s : State) (c : Ctx) : Res Unit :=
  require (s.mpip_storage_near ≤ c.deposit) "The required NEAR to create a proposal is"

/-! ## `lib.rs`: admin and operator -/

/-- `lib.rs:108-111` -/
def update_open_for_new_mpips (s : State) (c : Ctx) (new_value : Bool) : Res State := do
  s.assert_only_admin c
  pure { s with open_for_new_mpips := new_value }

/-- `lib.rs:114-117` -/
def update_operator_role (s : State) (c : Ctx) (new_value : AccountId) : Res State := do
  s.assert_only_admin c
  pure { s with operator_id := new_value }

/-- `lib.rs:120-123` -/
def update_admin_role (s : State) (c : Ctx) (new_value : AccountId) : Res State := do
  s.assert_only_admin c
  pure { s with admin_id := new_value }

/-- `lib.rs:125-128`: the transfer itself is in `run`. -/
def pay_to_account (s : State) (c : Ctx) : Res State := do
  s.assert_only_admin c
  pure s

/-- `lib.rs:135-138` -/
def update_voting_period (s : State) (c : Ctx) (new_value : Nat) : Res State := do
  s.assert_only_operator c
  pure { s with voting_period := new_value }

/-- `lib.rs:148-151` -/
def update_min_meta_amount (s : State) (c : Ctx) (new_value : Nat) : Res State := do
  s.assert_only_operator c
  pure { s with min_meta_amount := new_value }

/-- `lib.rs:154-157` -/
def update_min_voting_power_amount (s : State) (c : Ctx) (new_value : Nat) : Res State := do
  s.assert_only_operator c
  pure { s with min_voting_power_amount := new_value }

/-- `lib.rs:160-163` -/
def update_mpip_storage_near (s : State) (c : Ctx) (new_value : Nat) : Res State := do
  s.assert_only_operator c
  pure { s with mpip_storage_near := new_value }

/-- `lib.rs:166-171` -/
def update_quorum_floor (s : State) (c : Ctx) (new_value : Nat) : Res State := do
  s.assert_only_operator c
  require (new_value ≤ ONE_HUNDRED) "Incorrect quorum basis points."
  pure { s with quorum_floor := new_value }

/-- `lib.rs:273-276` -/
def update_meta_vote_contract_address (s : State) (c : Ctx) (new_value : AccountId) : Res State := do
  s.assert_only_admin c
  pure { s with meta_vote_contract_address := new_value }

/-! ## `lib.rs`: proposals -/

/-- `lib.rs:177-189`, the tests; the promise is in `run`. -/
def start_voting_period (s : State) (c : Ctx) (mpip_id : Nat) : Res State := do
  s.assert_only_operator_or_creator c mpip_id
  s.assert_proposal_is_active_or_draft c mpip_id
  pure s

/-- `lib.rs:192-201` -/
def start_voting_period_callback (J : Json) (s : State) (c : Ctx) (mpip_id : Nat) : Res State := do
  let total_voting_power ← internal_get_total_voting_power_from_promise J c
  let proposal ← s.internal_get_proposal mpip_id
  let e ← addU64 c.now s.voting_period
  let q ← s.internal_get_quorum total_voting_power
  pure { s with
    proposals := s.proposals.insert mpip_id { proposal with
      vote_start_timestamp := some c.now
      vote_end_timestamp := some e
      draft := false
      v_power_quorum_to_reach := some q } }

/-- `lib.rs:208-227`, the tests; the promise is in `run`. -/
def create_proposal (s : State) (c : Ctx) : Res State := do
  s.assert_open_for_new_mpips
  s.assert_proposal_storage_is_covered c
  pure s

/-- `mpip.rs:60-84`: a new proposal. -/
def new_proposal (c : Ctx) (id : Nat) (content : Content) : Proposal :=
  ⟨id, content, c.signer, none, none, true, false, false, none⟩

/-- `lib.rs:230-243`, with `internal_create_proposal` (`mpip.rs:111-129`).  `len() as u32` truncates. -/
def create_proposal_callback (J : Json) (s : State) (c : Ctx) (content : Content) : Res State := do
  let total_v_power ← internal_get_user_total_voting_power_from_promise J c
  s.assert_proposal_threshold total_v_power
  let id := s.proposals.len % 4294967296
  let s := { s with proposals := s.proposals.insert id (new_proposal c id content) }
  pure { s with proposers := s.proposers.insert c.signer (s.internal_get_proposer c.signer ++ [id]) }

/-- `lib.rs:245-251` -/
def cancel_proposal (s : State) (c : Ctx) (mpip_id : Nat) : Res State := do
  s.assert_only_operator_or_creator c mpip_id
  s.assert_proposal_is_active_or_draft c mpip_id
  let proposal ← s.internal_get_proposal mpip_id
  pure { s with proposals := s.proposals.insert mpip_id { proposal with canceled := true } }

/-- `lib.rs:253-271` -/
def update_proposal (s : State) (c : Ctx) (mpip_id : Nat) (content : Content) : Res State := do
  s.assert_only_creator c mpip_id
  s.assert_proposal_is_active_or_draft c mpip_id
  let proposal ← s.internal_get_proposal mpip_id
  pure { s with proposals := s.proposals.insert mpip_id { proposal with content := content } }

/-! ## `lib.rs`: votes -/

/-- `lib.rs:372-394`, the tests; the promise is in `run`. -/
def vote_proposal (s : State) (c : Ctx) (mpip_id : Nat) : Res State := do
  s.assert_proposal_is_on_voting c mpip_id
  s.assert_has_not_voted mpip_id c.predecessor
  pure s

/-- The match at `lib.rs:423-433`. -/
def add_tally (pv : ProposalVote) (t : VoteType) (power : Nat) : Res ProposalVote :=
  match t with
  | .for_ => do
    let n ← addU128 pv.for_votes power
    pure { pv with for_votes := n }
  | .against => do
    let n ← addU128 pv.against_votes power
    pure { pv with against_votes := n }
  | .abstain => do
    let n ← addU128 pv.abstain_votes power
    pure { pv with abstain_votes := n }

/-- The match at `lib.rs:447-457`. -/
def sub_tally (pv : ProposalVote) (t : VoteType) (power : Nat) : Res ProposalVote :=
  match t with
  | .for_ => do
    let n ← subU pv.for_votes power
    pure { pv with for_votes := n }
  | .against => do
    let n ← subU pv.against_votes power
    pure { pv with against_votes := n }
  | .abstain => do
    let n ← subU pv.abstain_votes power
    pure { pv with abstain_votes := n }

/-- `lib.rs:397-437` -/
def vote_proposal_callback (J : Json) (s : State) (c : Ctx) (mpip_id : Nat) (voter_id : AccountId)
    (vote_type : VoteType) (memo : String) : Res State := do
  let total_v_power ← internal_get_user_total_voting_power_from_promise J c
  let voter := s.internal_get_voter voter_id
  require (0 < total_v_power) "Not enough voting power to vote! You have"
  let proposal_vote := s.internal_get_proposal_vote mpip_id
  let vote : Vote := ⟨mpip_id, vote_type, total_v_power, memo⟩
  let proposal_vote := { proposal_vote with has_voted := proposal_vote.has_voted.insert voter_id vote }
  let proposal_vote ← add_tally proposal_vote vote_type total_v_power
  pure { s with
    votes := s.votes.insert mpip_id proposal_vote
    voters := s.voters.insert voter_id ⟨voter.votes.insert mpip_id vote⟩ }

/-- `lib.rs:439-467` -/
def remove_vote_proposal (s : State) (c : Ctx) (mpip_id : Nat) : Res State := do
  let voter_id := c.predecessor
  s.assert_proposal_is_on_voting c mpip_id
  s.assert_has_voted mpip_id voter_id
  let proposal_vote := s.internal_get_proposal_vote mpip_id
  let user_vote ← expect (proposal_vote.has_voted.get voter_id) "called `Option::unwrap()` on a `None` value"
  let voter := s.internal_get_voter voter_id
  let proposal_vote ← sub_tally proposal_vote user_vote.vote_type user_vote.voting_power
  let proposal_vote := { proposal_vote with has_voted := proposal_vote.has_voted.remove voter_id }
  let votes := voter.votes.remove mpip_id
  pure { s with
    votes := s.votes.insert mpip_id proposal_vote
    voters := if votes.isEmpty then s.voters.remove voter_id else s.voters.insert voter_id ⟨votes⟩ }

/-- `lib.rs:493-506` -/
def process_voting_status (s : State) (c : Ctx) (mpip_id : Nat) : Res State := do
  s.assert_only_operator c
  let b ← s.internal_proposal_is_on_voting c.now mpip_id
  if b = false then pure s
  else do
    let proposal ← s.internal_get_proposal mpip_id
    let e ← expect proposal.vote_end_timestamp "called `Option::unwrap()` on a `None` value"
    if e ≤ c.now then do
      let q ← s.internal_is_quorum_reached mpip_id
      if q = true then
        pure { s with proposals := s.proposals.insert mpip_id { proposal with executed := true } }
      else pure s
    else pure s

end State

end Verif.Mpip
