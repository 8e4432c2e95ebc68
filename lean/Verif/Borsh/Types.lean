import Verif.Borsh.Codec
import Verif.MetaVote.Types
import Verif.Mpip.Types

/-!
# What the contracts store

The types of the values in storage, with collections as the handles that near-sdk writes (prefixes and lengths), and their
Borsh codecs.  Fields are in the order of the Rust structures.  `Days` is `u16`, `EpochMillis` and lengths are `u64`, amounts
are `u128` (`meta-vote-contract/src/types.rs:5-16`, `mpip-contract/src/types.rs:5-12`).
-/

namespace Verif.Borsh

open Verif Storage

abbrev u8 : Codec Nat := uint 1
abbrev u16 : Codec Nat := uint 2
abbrev u32 : Codec Nat := uint 4
abbrev u64 : Codec Nat := uint 8
abbrev u128 : Codec Nat := uint 16

/-! ## Handles of near-sdk -/

/-- `collections::Vector` -/
structure VecH where
  len : Nat
  pre : Bytes
  deriving DecidableEq

/-- `collections::UnorderedMap` -/
structure MapH where
  key_index_prefix : Bytes
  keys : VecH
  values : VecH
  deriving DecidableEq

/-- The handle of a map with prefix `p` and `n` entries. -/
def MapH.at (p : Bytes) (n : Nat) : MapH := ⟨p ++ [105], ⟨n, p ++ [107]⟩, ⟨n, p ++ [118]⟩⟩

/-- `store::LookupMap`, `collections::LookupMap` -/
structure LookupH where
  pre : Bytes
  deriving DecidableEq

def vecH : Codec VecH := iso (pair u64 bytes) (fun x => ⟨x.1, x.2⟩) (fun x => (x.len, x.pre)) (fun _ => rfl) (fun _ => rfl)

def mapH : Codec MapH :=
  iso (pair bytes (pair vecH vecH)) (fun x => ⟨x.1, x.2.1, x.2.2⟩) (fun x => (x.key_index_prefix, x.keys, x.values))
    (fun _ => rfl) (fun _ => rfl)

def lookupH : Codec LookupH := iso bytes (fun x => ⟨x⟩) (fun x => x.pre) (fun _ => rfl) (fun _ => rfl)

/-! ## meta-vote -/

/-- `locking_position.rs:6-11` -/
def lockingPosition : Codec MetaVote.LockingPosition :=
  iso (pair u128 (pair u16 (pair u128 (option u64)))) (fun x => ⟨x.1, x.2.1, x.2.2.1, x.2.2.2⟩)
    (fun x => (x.amount, x.locking_period, x.voting_power, x.unlocking_started_at)) (fun _ => rfl) (fun _ => rfl)

/-- `voter.rs:16-21` -/
structure VoterRec where
  balance : Nat
  locking_positions : VecH
  available_voting_power : Nat
  vote_positions : MapH
  deriving DecidableEq

def voterRec : Codec VoterRec :=
  iso (pair u128 (pair vecH (pair u128 mapH))) (fun x => ⟨x.1, x.2.1, x.2.2.1, x.2.2.2⟩)
    (fun x => (x.balance, x.locking_positions, x.available_voting_power, x.vote_positions)) (fun _ => rfl) (fun _ => rfl)

/-- `migrate.rs:5-38` -/
structure OldRec where
  owner_id : String
  operator_id : String
  voters : MapH
  votes : MapH
  min_unbond_period : Nat
  max_unbond_period : Nat
  min_deposit_amount : Nat
  max_locking_positions : Nat
  max_voting_positions : Nat
  mpdao_token_contract_address : String
  total_voting_power : Nat
  claimable_mpdao : MapH
  accumulated_mpdao_distributed_for_claims : Nat
  total_unclaimed_mpdao : Nat
  stnear_token_contract_address : String
  claimable_stnear : MapH
  accum_distributed_stnear_for_claims : Nat
  total_unclaimed_stnear : Nat
  registration_cost : Nat
  associated_user_data : MapH
  prev_governance_contract : String
  evm_delegates : MapH
  evm_pre_delegation : LookupH
  evm_delegation_signatures : LookupH
  deriving DecidableEq

/-- `lib.rs:26-67` -/
structure StateRec where
  owner_id : String
  operator_id : String
  voters : MapH
  votes : MapH
  min_unbond_period : Nat
  max_unbond_period : Nat
  min_deposit_amount : Nat
  max_locking_positions : Nat
  max_voting_positions : Nat
  mpdao_token_contract_address : String
  total_voting_power : Nat
  claimable_mpdao : MapH
  accumulated_mpdao_distributed_for_claims : Nat
  total_unclaimed_mpdao : Nat
  stnear_token_contract_address : String
  claimable_stnear : MapH
  accum_distributed_stnear_for_claims : Nat
  total_unclaimed_stnear : Nat
  registration_cost : Nat
  associated_user_data : MapH
  prev_governance_contract : String
  evm_delegates : MapH
  evm_pre_delegation : LookupH
  evm_delegation_signatures : LookupH
  lock_votes_in_end_timestamp_ms : Nat
  lock_votes_in_address : Option String
  lock_votes_in_numeric_id : Nat
  deriving DecidableEq

def oldRec : Codec OldRec :=
  iso (pair string <| pair string <| pair mapH <| pair mapH <| pair u16 <| pair u16 <| pair u128 <| pair u8 <| pair u8 <|
      pair string <| pair u128 <| pair mapH <| pair u128 <| pair u128 <| pair string <| pair mapH <| pair u128 <| pair u128 <|
      pair u128 <| pair mapH <| pair string <| pair mapH <| pair lookupH lookupH)
    (fun (a, b, c, d, e, f, g, h, i, j, k, l, m, n, o, p, q, r, s, t, u, v, w, x) =>
      ⟨a, b, c, d, e, f, g, h, i, j, k, l, m, n, o, p, q, r, s, t, u, v, w, x⟩)
    (fun ⟨a, b, c, d, e, f, g, h, i, j, k, l, m, n, o, p, q, r, s, t, u, v, w, x⟩ =>
      (a, b, c, d, e, f, g, h, i, j, k, l, m, n, o, p, q, r, s, t, u, v, w, x))
    (fun _ => rfl) (fun _ => rfl)

def stateRec : Codec StateRec :=
  iso (pair string <| pair string <| pair mapH <| pair mapH <| pair u16 <| pair u16 <| pair u128 <| pair u8 <| pair u8 <|
      pair string <| pair u128 <| pair mapH <| pair u128 <| pair u128 <| pair string <| pair mapH <| pair u128 <| pair u128 <|
      pair u128 <| pair mapH <| pair string <| pair mapH <| pair lookupH <| pair lookupH <| pair u64 <| pair (option string) u16)
    (fun (a, b, c, d, e, f, g, h, i, j, k, l, m, n, o, p, q, r, s, t, u, v, w, x, y, z, z') =>
      ⟨a, b, c, d, e, f, g, h, i, j, k, l, m, n, o, p, q, r, s, t, u, v, w, x, y, z, z'⟩)
    (fun ⟨a, b, c, d, e, f, g, h, i, j, k, l, m, n, o, p, q, r, s, t, u, v, w, x, y, z, z'⟩ =>
      (a, b, c, d, e, f, g, h, i, j, k, l, m, n, o, p, q, r, s, t, u, v, w, x, y, z, z'))
    (fun _ => rfl) (fun _ => rfl)

/-- `migrate.rs:44-85` on the stored records: what `state_read` gives, and the record that the wrapper of `#[init]` writes. -/
def migrateRec (b : Bytes) : Res Bytes := do
  let o ← expect (oldRec.read b) "failed"
  pure (stateRec.enc
    { owner_id := o.owner_id, operator_id := o.operator_id, voters := o.voters, votes := o.votes,
      min_unbond_period := o.min_unbond_period, max_unbond_period := o.max_unbond_period,
      min_deposit_amount := o.min_deposit_amount, max_locking_positions := o.max_locking_positions,
      max_voting_positions := o.max_voting_positions, mpdao_token_contract_address := o.mpdao_token_contract_address,
      total_voting_power := o.total_voting_power, claimable_mpdao := o.claimable_mpdao,
      accumulated_mpdao_distributed_for_claims := o.accumulated_mpdao_distributed_for_claims,
      total_unclaimed_mpdao := o.total_unclaimed_mpdao,
      stnear_token_contract_address := o.stnear_token_contract_address, claimable_stnear := o.claimable_stnear,
      accum_distributed_stnear_for_claims := o.accum_distributed_stnear_for_claims,
      total_unclaimed_stnear := o.total_unclaimed_stnear, registration_cost := o.registration_cost,
      associated_user_data := o.associated_user_data, prev_governance_contract := o.prev_governance_contract,
      evm_delegates := o.evm_delegates, evm_delegation_signatures := o.evm_delegation_signatures,
      evm_pre_delegation := o.evm_pre_delegation, lock_votes_in_end_timestamp_ms := 0, lock_votes_in_address := none,
      lock_votes_in_numeric_id := 0 })

/-! ## mpip -/

/-- `vote.rs:9-13` -/
def voteType : Codec Mpip.VoteType :=
  iso (tag 3 (by decide)) (fun x => if x = 0 then .against else if x = 1 then .for_ else .abstain)
    (fun | .against => 0 | .for_ => 1 | .abstain => 2) (fun b => by cases b <;> rfl) (by decide)

/-- `vote.rs:28-34` -/
def vote : Codec Mpip.Vote :=
  iso (pair u32 (pair voteType (pair u128 string))) (fun x => ⟨x.1, x.2.1, x.2.2.1, x.2.2.2⟩)
    (fun x => (x.mpip_id, x.vote_type, x.voting_power, x.memo)) (fun _ => rfl) (fun _ => rfl)

/-- `mpip.rs:42-57` -/
def proposal : Codec Mpip.Proposal :=
  iso (pair u32 <| pair string <| pair string <| pair string <| pair string <| pair string <| pair string <|
      pair (option u64) <| pair (option u64) <| pair bool <| pair bool <| pair bool (option u128))
    (fun (a, b, c, d, e, f, g, h, i, j, k, l, m) => ⟨a, ⟨b, c, d, e, f⟩, g, h, i, j, k, l, m⟩)
    (fun ⟨a, ⟨b, c, d, e, f⟩, g, h, i, j, k, l, m⟩ => (a, b, c, d, e, f, g, h, i, j, k, l, m)) (fun _ => rfl) (fun _ => rfl)

/-- `vote_counting.rs:19-24` -/
structure TallyRec where
  for_votes : Nat
  against_votes : Nat
  abstain_votes : Nat
  has_voted : MapH
  deriving DecidableEq

def tallyRec : Codec TallyRec :=
  iso (pair u128 (pair u128 (pair u128 mapH))) (fun x => ⟨x.1, x.2.1, x.2.2.1, x.2.2.2⟩)
    (fun x => (x.for_votes, x.against_votes, x.abstain_votes, x.has_voted)) (fun _ => rfl) (fun _ => rfl)

/-- `mpip-contract/src/voter.rs:6-9` -/
structure MpipVoterRec where
  votes : MapH
  deriving DecidableEq

def mpipVoterRec : Codec MpipVoterRec := iso mapH (fun x => ⟨x⟩) (fun x => x.votes) (fun _ => rfl) (fun _ => rfl)

/-- `mpip-contract/src/lib.rs:27-61` -/
structure MpipRec where
  admin_id : String
  operator_id : String
  meta_token_contract_address : String
  meta_vote_contract_address : String
  proposals : MapH
  votes : MapH
  voters : MapH
  proposers : MapH
  voting_period : Nat
  min_meta_amount : Nat
  min_st_near_amount : Nat
  min_voting_power_amount : Nat
  mpip_cost_in_meta : Nat
  mpip_storage_near : Nat
  open_for_new_mpips : Bool
  quorum_floor : Nat
  deriving DecidableEq

def mpipRec : Codec MpipRec :=
  iso (pair string <| pair string <| pair string <| pair string <| pair mapH <| pair mapH <| pair mapH <| pair mapH <|
      pair u64 <| pair u128 <| pair u128 <| pair u128 <| pair u128 <| pair u128 <| pair bool u16)
    (fun (a, b, c, d, e, f, g, h, i, j, k, l, m, n, o, p) => ⟨a, b, c, d, e, f, g, h, i, j, k, l, m, n, o, p⟩)
    (fun ⟨a, b, c, d, e, f, g, h, i, j, k, l, m, n, o, p⟩ => (a, b, c, d, e, f, g, h, i, j, k, l, m, n, o, p))
    (fun _ => rfl) (fun _ => rfl)

/-! ## kv-store and token -/

/-- `kv-store-contract/src/lib.rs:15-19` -/
structure KvRec where
  owner_id : String
  operator_id : String
  associated_user_data : MapH
  deriving DecidableEq

def kvRec : Codec KvRec :=
  iso (pair string (pair string mapH)) (fun x => ⟨x.1, x.2.1, x.2.2⟩)
    (fun x => (x.owner_id, x.operator_id, x.associated_user_data)) (fun _ => rfl) (fun _ => rfl)

/-- `test-meta-token/src/lib.rs:40-45`, with the fields of `FungibleToken` (near-contract-standards 5) first; the metadata is
a `LazyOption`, stored under its own key. -/
structure TokenRec where
  accounts : LookupH
  total_supply : Nat
  account_storage_usage : Nat
  metadata : Bytes
  owner_id : String
  minters : List String
  deriving DecidableEq

def tokenRec : Codec TokenRec :=
  iso (pair lookupH (pair u128 (pair u64 (pair bytes (pair string (list string))))))
    (fun x => ⟨x.1, x.2.1, x.2.2.1, x.2.2.2.1, x.2.2.2.2.1, x.2.2.2.2.2⟩)
    (fun x => (x.accounts, x.total_supply, x.account_storage_usage, x.metadata, x.owner_id, x.minters))
    (fun _ => rfl) (fun _ => rfl)

end Verif.Borsh
