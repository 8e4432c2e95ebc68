import Verif.Borsh.Types

/-!
# Values of the stored types (C88)

Natural numbers of the model stand for machine integers, and strings have a length in 32 bits: the values that fit.
-/

namespace Verif.Borsh

open Verif Storage

/-- Strings of wasm32. -/
def StrFits (s : String) : Prop := (utf8 s).length < 2 ^ 32

def VecH.Fits (h : VecH) : Prop := h.len < 2 ^ 64 ∧ h.pre.length < 2 ^ 32

def MapH.Fits (h : MapH) : Prop := h.key_index_prefix.length < 2 ^ 32 ∧ h.keys.Fits ∧ h.values.Fits

def LookupH.Fits (h : LookupH) : Prop := h.pre.length < 2 ^ 32

def PositionFits (p : MetaVote.LockingPosition) : Prop :=
  p.amount < 2 ^ 128 ∧ p.locking_period < 2 ^ 16 ∧ p.voting_power < 2 ^ 128 ∧ ∀ t, p.unlocking_started_at = some t → t < 2 ^ 64

def VoterRec.Fits (v : VoterRec) : Prop :=
  v.balance < 2 ^ 128 ∧ v.locking_positions.Fits ∧ v.available_voting_power < 2 ^ 128 ∧ v.vote_positions.Fits

def OldRec.Fits (s : OldRec) : Prop :=
  StrFits s.owner_id ∧ StrFits s.operator_id ∧ s.voters.Fits ∧ s.votes.Fits ∧ s.min_unbond_period < 2 ^ 16 ∧
  s.max_unbond_period < 2 ^ 16 ∧ s.min_deposit_amount < 2 ^ 128 ∧ s.max_locking_positions < 2 ^ 8 ∧
  s.max_voting_positions < 2 ^ 8 ∧ StrFits s.mpdao_token_contract_address ∧ s.total_voting_power < 2 ^ 128 ∧
  s.claimable_mpdao.Fits ∧ s.accumulated_mpdao_distributed_for_claims < 2 ^ 128 ∧ s.total_unclaimed_mpdao < 2 ^ 128 ∧
  StrFits s.stnear_token_contract_address ∧ s.claimable_stnear.Fits ∧ s.accum_distributed_stnear_for_claims < 2 ^ 128 ∧
  s.total_unclaimed_stnear < 2 ^ 128 ∧ s.registration_cost < 2 ^ 128 ∧ s.associated_user_data.Fits ∧
  StrFits s.prev_governance_contract ∧ s.evm_delegates.Fits ∧ s.evm_pre_delegation.Fits ∧ s.evm_delegation_signatures.Fits

/-- The part of the state that the old layout has. -/
def StateRec.old (s : StateRec) : OldRec :=
  { owner_id := s.owner_id, operator_id := s.operator_id, voters := s.voters, votes := s.votes,
    min_unbond_period := s.min_unbond_period, max_unbond_period := s.max_unbond_period,
    min_deposit_amount := s.min_deposit_amount, max_locking_positions := s.max_locking_positions,
    max_voting_positions := s.max_voting_positions, mpdao_token_contract_address := s.mpdao_token_contract_address,
    total_voting_power := s.total_voting_power, claimable_mpdao := s.claimable_mpdao,
    accumulated_mpdao_distributed_for_claims := s.accumulated_mpdao_distributed_for_claims,
    total_unclaimed_mpdao := s.total_unclaimed_mpdao, stnear_token_contract_address := s.stnear_token_contract_address,
    claimable_stnear := s.claimable_stnear, accum_distributed_stnear_for_claims := s.accum_distributed_stnear_for_claims,
    total_unclaimed_stnear := s.total_unclaimed_stnear, registration_cost := s.registration_cost,
    associated_user_data := s.associated_user_data, prev_governance_contract := s.prev_governance_contract,
    evm_delegates := s.evm_delegates, evm_pre_delegation := s.evm_pre_delegation,
    evm_delegation_signatures := s.evm_delegation_signatures }

def StateRec.Fits (s : StateRec) : Prop :=
  s.old.Fits ∧ s.lock_votes_in_end_timestamp_ms < 2 ^ 64 ∧ (∀ a, s.lock_votes_in_address = some a → StrFits a) ∧
  s.lock_votes_in_numeric_id < 2 ^ 16

/-- Every number in a state of meta-vote is a number of its type. -/
structure Numbers (s : MetaVote.State) : Prop where
  min_unbond_period : s.min_unbond_period < 2 ^ 16
  max_unbond_period : s.max_unbond_period < 2 ^ 16
  min_deposit_amount : s.min_deposit_amount < 2 ^ 128
  max_locking_positions : s.max_locking_positions < 2 ^ 8
  max_voting_positions : s.max_voting_positions < 2 ^ 8
  total_voting_power : s.total_voting_power < 2 ^ 128
  accumulated_mpdao : s.accumulated_mpdao_distributed_for_claims < 2 ^ 128
  total_unclaimed_mpdao : s.total_unclaimed_mpdao < 2 ^ 128
  accum_stnear : s.accum_distributed_stnear_for_claims < 2 ^ 128
  total_unclaimed_stnear : s.total_unclaimed_stnear < 2 ^ 128
  registration_cost : s.registration_cost < 2 ^ 128
  lock_votes_in_end_timestamp_ms : s.lock_votes_in_end_timestamp_ms < 2 ^ 64
  lock_votes_in_numeric_id : s.lock_votes_in_numeric_id < 2 ^ 16
  balance : ∀ id v, s.voters.get id = some v → v.balance < 2 ^ 128
  available : ∀ id v, s.voters.get id = some v → v.available_voting_power < 2 ^ 128
  positions : ∀ id v, s.voters.get id = some v → ∀ p ∈ v.locking_positions, PositionFits p
  given : ∀ id v a m o n, s.voters.get id = some v → v.vote_positions.get a = some m → m.get o = some n → n < 2 ^ 128
  votes : ∀ a m o n, s.votes.get a = some m → m.get o = some n → n < 2 ^ 128
  mpdao : ∀ id n, s.claimable_mpdao.get id = some n → n < 2 ^ 128
  stnear : ∀ id n, s.claimable_stnear.get id = some n → n < 2 ^ 128

def VoteFits (v : Mpip.Vote) : Prop := v.mpip_id < 2 ^ 32 ∧ v.voting_power < 2 ^ 128 ∧ StrFits v.memo

def ProposalFits (p : Mpip.Proposal) : Prop :=
  p.mpip_id < 2 ^ 32 ∧ StrFits p.content.title ∧ StrFits p.content.short_description ∧ StrFits p.content.body ∧
  StrFits p.content.data ∧ StrFits p.content.extra ∧ StrFits p.creator_id ∧
  (∀ t, p.vote_start_timestamp = some t → t < 2 ^ 64) ∧ (∀ t, p.vote_end_timestamp = some t → t < 2 ^ 64) ∧
  ∀ q, p.v_power_quorum_to_reach = some q → q < 2 ^ 128

def TallyRec.Fits (t : TallyRec) : Prop :=
  t.for_votes < 2 ^ 128 ∧ t.against_votes < 2 ^ 128 ∧ t.abstain_votes < 2 ^ 128 ∧ t.has_voted.Fits

def MpipVoterRec.Fits (v : MpipVoterRec) : Prop := v.votes.Fits

def MpipRec.Fits (s : MpipRec) : Prop :=
  StrFits s.admin_id ∧ StrFits s.operator_id ∧ StrFits s.meta_token_contract_address ∧ StrFits s.meta_vote_contract_address ∧
  s.proposals.Fits ∧ s.votes.Fits ∧ s.voters.Fits ∧ s.proposers.Fits ∧ s.voting_period < 2 ^ 64 ∧
  s.min_meta_amount < 2 ^ 128 ∧ s.min_st_near_amount < 2 ^ 128 ∧ s.min_voting_power_amount < 2 ^ 128 ∧
  s.mpip_cost_in_meta < 2 ^ 128 ∧ s.mpip_storage_near < 2 ^ 128 ∧ s.quorum_floor < 2 ^ 16

def KvRec.Fits (s : KvRec) : Prop := StrFits s.owner_id ∧ StrFits s.operator_id ∧ s.associated_user_data.Fits

def TokenRec.Fits (s : TokenRec) : Prop :=
  s.accounts.Fits ∧ s.total_supply < 2 ^ 128 ∧ s.account_storage_usage < 2 ^ 64 ∧ s.metadata.length < 2 ^ 32 ∧
  StrFits s.owner_id ∧ s.minters.length < 2 ^ 32 ∧ ∀ m ∈ s.minters, StrFits m

end Verif.Borsh
