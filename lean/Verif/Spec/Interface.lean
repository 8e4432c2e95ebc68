import Verif.Serde.Views
import Verif.Serde.MpipViews
import Verif.Serde.SmallViews
import Verif.Serde.SmallApi
import Verif.Serde.SmallBytesApi
import Verif.Spec.JsonText

/-!
# The JSON interface of the four contracts

The signatures of all methods and views, transcribed from the Rust source: names, arguments, types, and the fields of the
structures that are returned.  Nothing here uses the readers and writers of `Verif/Serde`; only the grammar of
JSON texts (`Spec/JsonText`).
-/

namespace Verif.Interface

open Verif Storage Serde JsonText

/-- `String`, `AccountId` -/
def text (s : String) : Val := .str s

/-- `u8`, `u16`, `u32`, `u64`: a number in decimal. -/
def number (n : Nat) : Val := .num (utf8 n.repr)

/-- `U64`, `U128`, `NearToken`: a number in decimal, as a string. -/
def quoted (n : Nat) : Val := .str n.repr

/-- `bool` -/
def flag (b : Bool) : Val := .bool b

/-- `Option` -/
def orNull {α : Type} (f : α → Val) : Option α → Val
  | none => .null
  | some a => f a

/-- `Vec` -/
def array {α : Type} (f : α → Val) (l : List α) : Val := .arr (l.map f)

/-- A tuple of two. -/
def two {α β : Type} (f : α → Val) (g : β → Val) (p : α × β) : Val := .arr [f p.1, g p.2]

/-- A tuple of three. -/
def three {α β γ : Type} (f : α → Val) (g : β → Val) (h : γ → Val) (p : α × β × γ) : Val := .arr [f p.1, g p.2.1, h p.2.2]

/-- Small letters and digits. -/
def Alnum (c : Char) : Prop := ('a' ≤ c ∧ c ≤ 'z') ∨ ('0' ≤ c ∧ c ≤ '9')

/-- Words with single separators between them. -/
inductive Words : List Char → Prop
  | last (w : List Char) (h : w ≠ []) (hw : ∀ c ∈ w, Alnum c) : Words w
  | more (w : List Char) (c : Char) (r : List Char) (h : w ≠ []) (hw : ∀ c ∈ w, Alnum c) (hc : c = '-' ∨ c = '_' ∨ c = '.')
      (hr : Words r) : Words (w ++ c :: r)

/-- What an account id looks like (documentation of NEAR): 2 to 64 characters, words with single separators between them. -/
def IsAccountId (s : String) : Prop := 2 ≤ s.length ∧ s.length ≤ 64 ∧ Words s.toList

/-- The input carries the arguments: it is a JSON object with these members, in any order, possibly among members with other names;
arguments that are `null` may be left out.  A method without arguments takes any input. -/
def Given (b : Bytes) (args : List (String × Val)) : Prop :=
  args = [] ∨ ∃ l given extra, IsJson b (.obj l) ∧ l.Perm (given ++ extra) ∧ given.Sublist args ∧
    (∀ m ∈ args, m ∈ given ∨ m.2 = .null) ∧ ∀ e ∈ extra, ∀ m ∈ args, e.1 ≠ m.1

end Verif.Interface


namespace Verif.MetaVote

open Verif Storage Serde Interface JsonText

/-- `LockingPositionJSON`, `meta-vote-contract/src/types.rs:25-34`. -/
def lockingPositionJSON (p : LockingPositionJSON) : Val :=
  .obj [("index", orNull number p.index), ("amount", quoted p.amount), ("locking_period", number p.locking_period),
    ("voting_power", quoted p.voting_power), ("unlocking_started_at", orNull number p.unlocking_started_at),
    ("is_unlocked", flag p.is_unlocked), ("is_unlocking", flag p.is_unlocking), ("is_locked", flag p.is_locked)]

/-- `VotableObjectJSON`, `meta-vote-contract/src/types.rs:38-42`. -/
def votableObjectJSON (p : VotableObjectJSON) : Val :=
  .obj [("votable_contract", text p.votable_contract), ("id", text p.id), ("current_votes", quoted p.current_votes)]

/-- `VotePositionJSON`, `meta-vote-contract/src/types.rs:46-50`. -/
def votePositionJSON (p : VotePositionJSON) : Val :=
  .obj [("votable_address", text p.votable_address), ("votable_object_id", text p.votable_object_id),
    ("voting_power", quoted p.voting_power)]

/-- `VoterJSON`, `meta-vote-contract/src/voter.rs:7-13`. -/
def voterJSON (p : VoterJSON) : Val :=
  .obj [("voter_id", text p.voter_id), ("balance_in_contract", quoted p.balance_in_contract),
    ("locking_positions", array lockingPositionJSON p.locking_positions), ("voting_power", quoted p.voting_power),
    ("vote_positions", array votePositionJSON p.vote_positions)]

/-- `ContractInfoJson`, `meta-vote-contract/src/view.rs:12-30`. -/
def contractInfoJson (p : State.ContractInfoJson) : Val :=
  .obj [("owner_id", text p.owner_id), ("operator_id", text p.operator_id), ("voter_count", number p.voter_count),
    ("min_unbond_period", number p.min_unbond_period), ("max_unbond_period", number p.max_unbond_period),
    ("min_deposit_amount", quoted p.min_deposit_amount), ("max_locking_positions", number p.max_locking_positions),
    ("max_voting_positions", number p.max_voting_positions),
    ("mpdao_token_contract_address", text p.mpdao_token_contract_address),
    ("stnear_token_contract_address", text p.stnear_token_contract_address),
    ("registration_cost", quoted p.registration_cost), ("prev_governance_contract", text p.prev_governance_contract),
    ("accumulated_mpdao_distributed_for_claims", quoted p.accumulated_mpdao_distributed_for_claims),
    ("total_unclaimed_mpdao", quoted p.total_unclaimed_mpdao),
    ("accum_distributed_stnear_for_claims", quoted p.accum_distributed_stnear_for_claims),
    ("total_unclaimed_stnear", quoted p.total_unclaimed_stnear), ("evm_delegates_count", number p.evm_delegates_count)]

/-- The methods of `meta-vote-contract/src`, one rule for each signature: name, arguments, and the call that is made. -/
inductive Call.Signature : String → List (String × Val) → Call → Prop
  /-- `lib.rs:71` -/
  | new_ (owner_id operator_id : String) (min_unbond_period max_unbond_period min_deposit_amount max_locking_positions
      max_voting_positions : Nat) (mpdao_token_contract_address stnear_token_contract_address : String) (registration_cost :
      Nat) (prev_governance_contract : String) (h0 : IsAccountId owner_id) (h1 : IsAccountId operator_id) (h2 :
      min_unbond_period < 2 ^ 16) (h3 : max_unbond_period < 2 ^ 16) (h4 : min_deposit_amount < 2 ^ 128) (h5 :
      max_locking_positions < 2 ^ 8) (h6 : max_voting_positions < 2 ^ 8) (h7 : IsAccountId mpdao_token_contract_address)
      (h8 : IsAccountId stnear_token_contract_address) (h9 : registration_cost < 2 ^ 128) :
      Signature "new" [("owner_id", text owner_id), ("operator_id", text operator_id),
      ("min_unbond_period", number min_unbond_period), ("max_unbond_period", number max_unbond_period),
      ("min_deposit_amount", quoted min_deposit_amount), ("max_locking_positions", number max_locking_positions),
      ("max_voting_positions", number max_voting_positions),
      ("mpdao_token_contract_address", text mpdao_token_contract_address),
      ("stnear_token_contract_address", text stnear_token_contract_address), ("registration_cost", quoted registration_cost),
      ("prev_governance_contract", text prev_governance_contract)]
      (.new_ owner_id operator_id min_unbond_period max_unbond_period min_deposit_amount max_locking_positions
      max_voting_positions mpdao_token_contract_address stnear_token_contract_address registration_cost
      prev_governance_contract)
  /-- `migrate.rs:44` -/
  | migrate : Signature "migrate" [] .migrate
  /-- `lib.rs:124` -/
  | set_stnear_contract (stnear_contract : String) (h0 : IsAccountId stnear_contract) :
      Signature "set_stnear_contract" [("stnear_contract", text stnear_contract)] (.set_stnear_contract stnear_contract)
  /-- `lib.rs:130` -/
  | set_operator_id (operator_id : String) (h0 : IsAccountId operator_id) :
      Signature "set_operator_id" [("operator_id", text operator_id)] (.set_operator_id operator_id)
  /-- `lib.rs:136` -/
  | set_owner_id (owner_id : String) (h0 : IsAccountId owner_id) :
      Signature "set_owner_id" [("owner_id", text owner_id)] (.set_owner_id owner_id)
  /-- `lib.rs:147` -/
  | update_registration_cost (new_cost : Nat) (h0 : new_cost < 2 ^ 128) :
      Signature "update_registration_cost" [("new_cost", quoted new_cost)] (.update_registration_cost new_cost)
  /-- `lib.rs:166` -/
  | update_airdrop_user_data (encrypted_data : String) :
      Signature "update_airdrop_user_data" [("encrypted_data", text encrypted_data)]
      (.update_airdrop_user_data encrypted_data)
  /-- `lib.rs:180` -/
  | operator_multi_set_airdrop_data (data : List (String × String)) :
      Signature "operator_multi_set_airdrop_data" [("data", array (two text text) data)]
      (.operator_multi_set_airdrop_data data)
  /-- `lib.rs:208` -/
  | claim_and_lock (amount locking_period : Nat) (h0 : amount < 2 ^ 128) (h1 : locking_period < 2 ^ 16) :
      Signature "claim_and_lock" [("amount", quoted amount), ("locking_period", number locking_period)]
      (.claim_and_lock amount locking_period)
  /-- `lib.rs:219` -/
  | claim_stnear (amount : Nat) (h0 : amount < 2 ^ 128) :
      Signature "claim_stnear" [("amount", quoted amount)] (.claim_stnear amount)
  /-- `lib.rs:231` -/
  | unlock_position (index : Nat) (h0 : index < 2 ^ 64) :
      Signature "unlock_position" [("index", number index)] (.unlock_position index)
  /-- `lib.rs:256` -/
  | unlock_partial_position (index amount : Nat) (h0 : index < 2 ^ 64) (h1 : amount < 2 ^ 128) :
      Signature "unlock_partial_position" [("index", number index), ("amount", quoted amount)]
      (.unlock_partial_position index amount)
  /-- `lib.rs:312` -/
  | locking_position_extend_days (index new_locking_period : Nat) (h0 : index < 2 ^ 64) (h1 : new_locking_period < 2 ^ 16) :
      Signature "locking_position_extend_days" [("index", number index), ("new_locking_period", number new_locking_period)]
      (.locking_position_extend_days index new_locking_period)
  /-- `lib.rs:357` -/
  | relock_position (index locking_period amount_from_balance : Nat) (h0 : index < 2 ^ 64) (h1 : locking_period < 2 ^ 16)
      (h2 : amount_from_balance < 2 ^ 128) : Signature "relock_position"
      [("index", number index), ("locking_period", number locking_period),
      ("amount_from_balance", quoted amount_from_balance)] (.relock_position index locking_period amount_from_balance)
  /-- `lib.rs:406` -/
  | relock_partial_position (index amount_from_position locking_period amount_from_balance : Nat) (h0 : index < 2 ^ 64)
      (h1 : amount_from_position < 2 ^ 128) (h2 : locking_period < 2 ^ 16) (h3 : amount_from_balance < 2 ^ 128) :
      Signature "relock_partial_position" [("index", number index), ("amount_from_position", quoted amount_from_position),
      ("locking_period", number locking_period), ("amount_from_balance", quoted amount_from_balance)]
      (.relock_partial_position index amount_from_position locking_period amount_from_balance)
  /-- `lib.rs:483` -/
  | relock_from_balance (locking_period amount_from_balance : Nat) (h0 : locking_period < 2 ^ 16)
      (h1 : amount_from_balance < 2 ^ 128) : Signature "relock_from_balance"
      [("locking_period", number locking_period), ("amount_from_balance", quoted amount_from_balance)]
      (.relock_from_balance locking_period amount_from_balance)
  /-- `lib.rs:511` -/
  | clear_locking_position (position_index_list : List Nat) (h0 : ∀ x ∈ position_index_list, x < 2 ^ 64) :
      Signature "clear_locking_position" [("position_index_list", array number position_index_list)]
      (.clear_locking_position position_index_list)
  /-- `lib.rs:523` -/
  | vote (voting_power : Nat) (contract_address votable_object_id : String) (h0 : voting_power < 2 ^ 128) :
      Signature "vote" [("voting_power", quoted voting_power), ("contract_address", text contract_address),
      ("votable_object_id", text votable_object_id)] (.vote voting_power contract_address votable_object_id)
  /-- `lib.rs:602` -/
  | rebalance (voting_power : Nat) (contract_address votable_object_id : String) (h0 : voting_power < 2 ^ 128) :
      Signature "rebalance" [("voting_power", quoted voting_power), ("contract_address", text contract_address),
      ("votable_object_id", text votable_object_id)] (.rebalance voting_power contract_address votable_object_id)
  /-- `lib.rs:717` -/
  | unvote (contract_address votable_object_id : String) :
      Signature "unvote" [("contract_address", text contract_address), ("votable_object_id", text votable_object_id)]
      (.unvote contract_address votable_object_id)
  /-- `lib.rs:757` -/
  | set_lock_in_vote_filters (end_timestamp_ms votable_numeric_id : Nat) (votable_address : Option String)
      (h0 : end_timestamp_ms < 2 ^ 64) (h1 : votable_numeric_id < 2 ^ 16) :
      Signature "set_lock_in_vote_filters" [("end_timestamp_ms", number end_timestamp_ms),
      ("votable_numeric_id", number votable_numeric_id), ("votable_address", orNull text votable_address)]
      (.set_lock_in_vote_filters end_timestamp_ms votable_numeric_id votable_address)
  /-- `lib.rs:777` -/
  | update_min_unbond_period (new_min_unbond_period : Nat) (h0 : new_min_unbond_period < 2 ^ 16) :
      Signature "update_min_unbond_period" [("new_min_unbond_period", number new_min_unbond_period)]
      (.update_min_unbond_period new_min_unbond_period)
  /-- `lib.rs:783` -/
  | update_max_unbond_period (new_max_unbond_period : Nat) (h0 : new_max_unbond_period < 2 ^ 16) :
      Signature "update_max_unbond_period" [("new_max_unbond_period", number new_max_unbond_period)]
      (.update_max_unbond_period new_max_unbond_period)
  /-- `lib.rs:789` -/
  | set_prev_gov_contract (contract_id : String) : Signature "set_prev_gov_contract" [("contract_id", text contract_id)]
      (.set_prev_gov_contract contract_id)
  /-- `lib.rs:799` -/
  | migration_create_lps (voter_id : String) (locking_positions : List (Nat × Nat))
      (encrypted_associated_user_data : Option String) (h0 : ∀ x ∈ locking_positions, x.1 < 2 ^ 128 ∧ x.2 < 2 ^ 16) :
      Signature "migration_create_lps" [("voter_id", text voter_id),
      ("locking_positions", array (two quoted number) locking_positions),
      ("encrypted_associated_user_data", orNull text encrypted_associated_user_data)]
      (.migration_create_lps voter_id locking_positions encrypted_associated_user_data)
  /-- `lib.rs:834` -/
  | operator_mirror_lps (external_address : String) (locking_positions : List (Nat × Nat))
      (h0 : ∀ x ∈ locking_positions, x.1 < 2 ^ 16 ∧ x.2 < 2 ^ 128) :
      Signature "operator_mirror_lps" [("external_address", text external_address),
      ("locking_positions", array (two number quoted) locking_positions)]
      (.operator_mirror_lps external_address locking_positions)
  /-- `withdraw.rs:44` -/
  | withdraw (position_index_list : List Nat) (amount_from_balance : Nat) (h0 : ∀ x ∈ position_index_list, x < 2 ^ 64)
      (h1 : amount_from_balance < 2 ^ 128) : Signature "withdraw"
      [("position_index_list", array number position_index_list), ("amount_from_balance", quoted amount_from_balance)]
      (.withdraw position_index_list amount_from_balance)
  /-- `withdraw.rs:55` -/
  | withdraw_all : Signature "withdraw_all" [] .withdraw_all
  /-- `withdraw.rs:79` -/
  | after_transfer_mpdao_callback (voter_id : String) (amount : Nat) (h0 : amount < 2 ^ 128) :
      Signature "after_transfer_mpdao_callback" [("voter_id", text voter_id), ("amount", quoted amount)]
      (.after_transfer_mpdao_callback voter_id amount)
  /-- `withdraw.rs:126` -/
  | after_transfer_stnear_callback (source : String) (amount : Nat) (h0 : amount < 2 ^ 128) :
      Signature "after_transfer_stnear_callback" [("source", text source), ("amount", quoted amount)]
      (.after_transfer_stnear_callback source amount)
  /-- `deposit.rs:13` -/
  | ft_on_transfer (sender_id : String) (amount : Nat) (msg : String) (h0 : IsAccountId sender_id) (h1 : amount < 2 ^ 128) :
      Signature "ft_on_transfer" [("sender_id", text sender_id), ("amount", quoted amount), ("msg", text msg)]
      (.ft_on_transfer sender_id amount (utf8 msg))
  /-- `evm_delegate.rs:13` -/
  | pre_delegate_evm_address (evm_address signature : String) :
      Signature "pre_delegate_evm_address" [("evm_address", text evm_address), ("signature", text signature)]
      (.pre_delegate_evm_address evm_address signature)
  /-- `evm_delegate.rs:31` -/
  | operator_remove_pre_delegate_evm_address (evm_address : String) :
      Signature "operator_remove_pre_delegate_evm_address" [("evm_address", text evm_address)]
      (.operator_remove_pre_delegate_evm_address evm_address)
  /-- `evm_delegate.rs:38` -/
  | operator_confirm_delegated_evm_address (evm_address : String) :
      Signature "operator_confirm_delegated_evm_address" [("evm_address", text evm_address)]
      (.operator_confirm_delegated_evm_address evm_address)
  /-- `evm_delegate.rs:78` -/
  | delegated_claim_stnear (evm_address : String) (amount : Nat) (h0 : amount < 2 ^ 128) :
      Signature "delegated_claim_stnear" [("evm_address", text evm_address), ("amount", quoted amount)]
      (.delegated_claim_stnear evm_address amount)
  /-- `evm_delegate.rs:113` -/
  | vote_delegated (evm_address : String) (voting_power : Nat) (contract_address votable_object_id : String)
      (h0 : voting_power < 2 ^ 128) : Signature "vote_delegated"
      [("evm_address", text evm_address), ("voting_power", quoted voting_power), ("contract_address", text contract_address),
      ("votable_object_id", text votable_object_id)] (.vote_delegated evm_address voting_power contract_address
      votable_object_id)
  /-- `evm_delegate.rs:130` -/
  | unvote_delegated (evm_address contract_address votable_object_id : String) :
      Signature "unvote_delegated" [("evm_address", text evm_address), ("contract_address", text contract_address),
      ("votable_object_id", text votable_object_id)] (.unvote_delegated evm_address contract_address votable_object_id)
  /-- `evm_delegate.rs:142` -/
  | remove_delegated_evm_address (evm_address : String) :
      Signature "remove_delegated_evm_address" [("evm_address", text evm_address)] (.remove_delegated_evm_address evm_address)

/-- The views of `meta-vote-contract/src`, one rule for each signature. -/
inductive View.Signature : String → List (String × Val) → View → Prop
  /-- `view.rs:34` -/
  | get_owner_id : Signature "get_owner_id" [] .get_owner_id
  /-- `view.rs:37` -/
  | get_operator_id : Signature "get_operator_id" [] .get_operator_id
  /-- `view.rs:41` -/
  | get_contract_info : Signature "get_contract_info" [] .get_contract_info
  /-- `view.rs:63` -/
  | get_voters_count : Signature "get_voters_count" [] .get_voters_count
  /-- `view.rs:67` -/
  | get_total_voting_power : Signature "get_total_voting_power" [] .get_total_voting_power
  /-- `view.rs:72` -/
  | get_voter_info (voter_id : String) : Signature "get_voter_info" [("voter_id", text voter_id)] (.get_voter_info voter_id)
  /-- `view.rs:87` -/
  | get_voters (from_index limit : Nat) (h0 : from_index < 2 ^ 32) (h1 : limit < 2 ^ 32) :
      Signature "get_voters" [("from_index", number from_index), ("limit", number limit)] (.get_voters from_index limit)
  /-- `view.rs:102` -/
  | get_balance (voter_id : String) : Signature "get_balance" [("voter_id", text voter_id)] (.get_balance voter_id)
  /-- `view.rs:108` -/
  | get_claimable_mpdao (voter_id : String) : Signature "get_claimable_mpdao" [("voter_id", text voter_id)]
      (.get_claimable_mpdao voter_id)
  /-- `view.rs:115` -/
  | get_claimable_meta (voter_id : String) : Signature "get_claimable_meta" [("voter_id", text voter_id)]
      (.get_claimable_meta voter_id)
  /-- `view.rs:119` -/
  | get_claimable_stnear (voter_id : String) : Signature "get_claimable_stnear" [("voter_id", text voter_id)]
      (.get_claimable_stnear voter_id)
  /-- `view.rs:146` -/
  | get_stnear_claims (from_index limit : Nat) (h0 : from_index < 2 ^ 32) (h1 : limit < 2 ^ 32) :
      Signature "get_stnear_claims" [("from_index", number from_index), ("limit", number limit)]
      (.get_stnear_claims from_index limit)
  /-- `view.rs:151` -/
  | get_claims (from_index limit : Nat) (h0 : from_index < 2 ^ 32) (h1 : limit < 2 ^ 32) :
      Signature "get_claims" [("from_index", number from_index), ("limit", number limit)] (.get_claims from_index limit)
  /-- `view.rs:155` -/
  | get_locked_balance (voter_id : String) : Signature "get_locked_balance" [("voter_id", text voter_id)]
      (.get_locked_balance voter_id)
  /-- `view.rs:160` -/
  | get_unlocking_balance (voter_id : String) : Signature "get_unlocking_balance" [("voter_id", text voter_id)]
      (.get_unlocking_balance voter_id)
  /-- `view.rs:165` -/
  | get_available_voting_power (voter_id : String) :
      Signature "get_available_voting_power" [("voter_id", text voter_id)] (.get_available_voting_power voter_id)
  /-- `view.rs:170` -/
  | get_used_voting_power (voter_id : String) : Signature "get_used_voting_power" [("voter_id", text voter_id)]
      (.get_used_voting_power voter_id)
  /-- `view.rs:175` -/
  | get_locking_period : Signature "get_locking_period" [] .get_locking_period
  /-- `view.rs:180` -/
  | get_all_locking_positions (voter_id : String) :
      Signature "get_all_locking_positions" [("voter_id", text voter_id)] (.get_all_locking_positions voter_id)
  /-- `view.rs:193` -/
  | get_locking_position (index : Nat) (voter_id : String) (h0 : index < 2 ^ 64) :
      Signature "get_locking_position" [("index", number index), ("voter_id", text voter_id)]
      (.get_locking_position index voter_id)
  /-- `view.rs:206` -/
  | get_total_votes (contract_address votable_object_id : String) :
      Signature "get_total_votes" [("contract_address", text contract_address),
      ("votable_object_id", text votable_object_id)] (.get_total_votes contract_address votable_object_id)
  /-- `view.rs:220` -/
  | get_votes_by_app (app_or_contract_address : String) :
      Signature "get_votes_by_app" [("app_or_contract_address", text app_or_contract_address)]
      (.get_votes_by_app app_or_contract_address)
  /-- `view.rs:234` -/
  | get_votes_by_contract (contract_address : String) :
      Signature "get_votes_by_contract" [("contract_address", text contract_address)]
      (.get_votes_by_contract contract_address)
  /-- `view.rs:255` -/
  | get_votes_by_voter (voter_id : String) : Signature "get_votes_by_voter" [("voter_id", text voter_id)]
      (.get_votes_by_voter voter_id)
  /-- `view.rs:272` -/
  | get_votes_for_object (voter_id contract_address votable_object_id : String) :
      Signature "get_votes_for_object" [("voter_id", text voter_id), ("contract_address", text contract_address),
      ("votable_object_id", text votable_object_id)] (.get_votes_for_object voter_id contract_address votable_object_id)
  /-- `view.rs:287` -/
  | get_total_unclaimed_mpdao : Signature "get_total_unclaimed_mpdao" [] .get_total_unclaimed_mpdao
  /-- `view.rs:291` -/
  | get_total_unclaimed_meta : Signature "get_total_unclaimed_meta" [] .get_total_unclaimed_meta
  /-- `view.rs:295` -/
  | get_accumulated_mpdao_distributed_for_claims : Signature "get_accumulated_mpdao_distributed_for_claims" []
      .get_accumulated_mpdao_distributed_for_claims
  /-- `view.rs:299` -/
  | get_accumulated_distributed_for_claims : Signature "get_accumulated_distributed_for_claims" []
      .get_accumulated_distributed_for_claims
  /-- `lib.rs:153` -/
  | get_registration_cost : Signature "get_registration_cost" [] .get_registration_cost
  /-- `lib.rs:157` -/
  | check_if_registered_for_airdrops (account_id : String) :
      Signature "check_if_registered_for_airdrops" [("account_id", text account_id)]
      (.check_if_registered_for_airdrops account_id)
  /-- `lib.rs:161` -/
  | check_if_user_is_registerd (account_id : String) :
      Signature "check_if_user_is_registerd" [("account_id", text account_id)] (.check_if_user_is_registerd account_id)
  /-- `lib.rs:177` -/
  | get_airdrop_account (account_id : String) : Signature "get_airdrop_account" [("account_id", text account_id)]
      (.get_airdrop_account account_id)
  /-- `lib.rs:189` -/
  | get_airdrop_accounts (from_index limit : Nat) (h0 : from_index < 2 ^ 32) (h1 : limit < 2 ^ 32) :
      Signature "get_airdrop_accounts" [("from_index", number from_index), ("limit", number limit)]
      (.get_airdrop_accounts from_index limit)
  /-- `lib.rs:768` -/
  | get_lock_in_vote_filters : Signature "get_lock_in_vote_filters" [] .get_lock_in_vote_filters
  /-- `evm_delegate.rs:25` -/
  | get_pre_delegate_evm_address (evm_address : String) :
      Signature "get_pre_delegate_evm_address" [("evm_address", text evm_address)] (.get_pre_delegate_evm_address evm_address)
  /-- `evm_delegate.rs:170` -/
  | get_delegating_evm_addresses (account_id : String) (h0 : IsAccountId account_id) :
      Signature "get_delegating_evm_addresses" [("account_id", text account_id)] (.get_delegating_evm_addresses account_id)
  /-- `evm_delegate.rs:178` -/
  | get_delegates (from_index limit : Nat) (h0 : from_index < 2 ^ 32) (h1 : limit < 2 ^ 32) :
      Signature "get_delegates" [("from_index", number from_index), ("limit", number limit)] (.get_delegates from_index limit)
  /-- `evm_delegate.rs:199` -/
  | get_delegate (evm_address : String) : Signature "get_delegate" [("evm_address", text evm_address)]
      (.get_delegate evm_address)
  /-- `evm_delegate.rs:210` -/
  | get_delegation_signature (evm_address : String) :
      Signature "get_delegation_signature" [("evm_address", text evm_address)] (.get_delegation_signature evm_address)

/-- The answers of the views, from the types that they return. -/
def View.answer : (v : View) → v.Out → Val
  | .get_owner_id, r => text r
  | .get_operator_id, r => text r
  | .get_contract_info, r => contractInfoJson r
  | .get_voters_count, r => quoted r
  | .get_total_voting_power, r => quoted r
  | .get_voter_info _, r => voterJSON r
  | .get_voters _ _, r => array voterJSON r
  | .get_balance _, r => quoted r
  | .get_claimable_mpdao _, r => quoted r
  | .get_claimable_meta _, r => quoted r
  | .get_claimable_stnear _, r => quoted r
  | .get_stnear_claims _ _, r => array (two text quoted) r
  | .get_claims _ _, r => array (two text quoted) r
  | .get_locked_balance _, r => quoted r
  | .get_unlocking_balance _, r => quoted r
  | .get_available_voting_power _, r => quoted r
  | .get_used_voting_power _, r => quoted r
  | .get_locking_period, r => two number number r
  | .get_all_locking_positions _, r => array lockingPositionJSON r
  | .get_locking_position _ _, r => orNull lockingPositionJSON r
  | .get_total_votes _ _, r => quoted r
  | .get_votes_by_app _, r => array (two text quoted) r
  | .get_votes_by_contract _, r => array votableObjectJSON r
  | .get_votes_by_voter _, r => array votableObjectJSON r
  | .get_votes_for_object _ _ _, r => quoted r
  | .get_total_unclaimed_mpdao, r => quoted r
  | .get_total_unclaimed_meta, r => quoted r
  | .get_accumulated_mpdao_distributed_for_claims, r => quoted r
  | .get_accumulated_distributed_for_claims, r => quoted r
  | .get_registration_cost, r => quoted r
  | .check_if_registered_for_airdrops _, r => flag r
  | .check_if_user_is_registerd _, r => flag r
  | .get_airdrop_account _, r => text r
  | .get_airdrop_accounts _ _, r => array (two text text) r
  | .get_lock_in_vote_filters, r => three number (orNull text) number r
  | .get_pre_delegate_evm_address _, r => orNull (two text text) r
  | .get_delegating_evm_addresses _, r => array text r
  | .get_delegates _ _, r => array (two text (array text)) r
  | .get_delegate _, r => orNull text r
  | .get_delegation_signature _, r => two text text r

end Verif.MetaVote

namespace Verif.Mpip

open Verif Storage Serde Interface JsonText

/-- `VoteType`, `mpip-contract/src/vote.rs:9-13`. -/
def voteTypeName : VoteType → Val
  | .against => .str "Against"
  | .for_ => .str "For"
  | .abstain => .str "Abstain"

/-- `MpipState`, `mpip-contract/src/mpip.rs:11-19`. -/
def mpipStateName : MpipState → Val
  | .draft => .str "Draft"
  | .active => .str "Active"
  | .votingProcess => .str "VotingProcess"
  | .accepted => .str "Accepted"
  | .rejected => .str "Rejected"
  | .executed => .str "Executed"
  | .canceled => .str "Canceled"

/-- `VoteJson`, `mpip-contract/src/vote.rs:17-24`. -/
def voteJson (p : String × Vote) : Val :=
  .obj [("mpip_id", number p.2.mpip_id), ("voter_id", text p.1), ("vote_type", voteTypeName p.2.vote_type),
    ("voting_power", quoted p.2.voting_power), ("memo", text p.2.memo)]

/-- `VoterJson`, `mpip-contract/src/voter.rs:13-15`. -/
def voterJson (p : List (String × Vote)) : Val :=
  .obj [("votes", array voteJson p)]

/-- `ProposalVoteJson`, `mpip-contract/src/vote_counting.rs:11-16`. -/
def proposalVoteJson (p : ProposalVoteJson) : Val :=
  .obj [("for_votes", quoted p.for_votes), ("against_votes", quoted p.against_votes),
    ("abstain_votes", quoted p.abstain_votes), ("has_voted", array voteJson p.has_voted)]

/-- `MpipJSON`, `mpip-contract/src/mpip.rs:23-38`. -/
def mpipJSON (p : Proposal) : Val :=
  .obj [("mpip_id", number p.mpip_id), ("title", text p.content.title),
    ("short_description", text p.content.short_description), ("body", text p.content.body), ("data", text p.content.data),
    ("extra", text p.content.extra), ("creator_id", text p.creator_id),
    ("vote_start_timestamp", orNull number p.vote_start_timestamp),
    ("vote_end_timestamp", orNull number p.vote_end_timestamp), ("draft", flag p.draft), ("executed", flag p.executed),
    ("canceled", flag p.canceled), ("v_power_quorum_to_reach", orNull quoted p.v_power_quorum_to_reach)]

/-- The methods of `mpip-contract/src`, one rule for each signature: name, arguments, and the call that is made. -/
inductive Call.Signature : String → List (String × Val) → Call → Prop
  /-- `lib.rs:66` -/
  | new_ (admin_id operator_id meta_token_contract_address meta_vote_contract_address : String)
      (voting_period min_voting_power_amount mpip_storage_near quorum_floor : Nat) (h0 : IsAccountId admin_id)
      (h1 : IsAccountId operator_id) (h2 : IsAccountId meta_token_contract_address)
      (h3 : IsAccountId meta_vote_contract_address) (h4 : voting_period < 2 ^ 64) (h5 : min_voting_power_amount < 2 ^ 128)
      (h6 : mpip_storage_near < 2 ^ 128) (h7 : quorum_floor < 2 ^ 16) :
      Signature "new" [("admin_id", text admin_id), ("operator_id", text operator_id),
      ("meta_token_contract_address", text meta_token_contract_address),
      ("meta_vote_contract_address", text meta_vote_contract_address), ("voting_period", quoted voting_period),
      ("min_voting_power_amount", quoted min_voting_power_amount), ("mpip_storage_near", quoted mpip_storage_near),
      ("quorum_floor", number quorum_floor)] (.new_ admin_id operator_id meta_token_contract_address
      meta_vote_contract_address voting_period min_voting_power_amount mpip_storage_near quorum_floor)
  /-- `lib.rs:108` -/
  | update_open_for_new_mpips (new_value : Bool) : Signature "update_open_for_new_mpips" [("new_value", flag new_value)]
      (.update_open_for_new_mpips new_value)
  /-- `lib.rs:114` -/
  | update_operator_role (new_value : String) (h0 : IsAccountId new_value) :
      Signature "update_operator_role" [("new_value", text new_value)] (.update_operator_role new_value)
  /-- `lib.rs:120` -/
  | update_admin_role (new_value : String) (h0 : IsAccountId new_value) :
      Signature "update_admin_role" [("new_value", text new_value)] (.update_admin_role new_value)
  /-- `lib.rs:125` -/
  | pay_to_account (amount : Nat) (to_ : String) (h0 : amount < 2 ^ 128) (h1 : IsAccountId to_) :
      Signature "pay_to_account" [("amount", quoted amount), ("to", text to_)] (.pay_to_account amount to_)
  /-- `lib.rs:135` -/
  | update_voting_period (new_value : Nat) (h0 : new_value < 2 ^ 64) :
      Signature "update_voting_period" [("new_value", quoted new_value)] (.update_voting_period new_value)
  /-- `lib.rs:148` -/
  | update_min_meta_amount (new_value : Nat) (h0 : new_value < 2 ^ 128) :
      Signature "update_min_meta_amount" [("new_value", quoted new_value)] (.update_min_meta_amount new_value)
  /-- `lib.rs:154` -/
  | update_min_voting_power_amount (new_value : Nat) (h0 : new_value < 2 ^ 128) :
      Signature "update_min_voting_power_amount" [("new_value", quoted new_value)] (.update_min_voting_power_amount new_value)
  /-- `lib.rs:160` -/
  | update_mpip_storage_near (new_value : Nat) (h0 : new_value < 2 ^ 128) :
      Signature "update_mpip_storage_near" [("new_value", quoted new_value)] (.update_mpip_storage_near new_value)
  /-- `lib.rs:166` -/
  | update_quorum_floor (new_value : Nat) (h0 : new_value < 2 ^ 16) :
      Signature "update_quorum_floor" [("new_value", number new_value)] (.update_quorum_floor new_value)
  /-- `lib.rs:177` -/
  | start_voting_period (mpip_id : Nat) (h0 : mpip_id < 2 ^ 32) :
      Signature "start_voting_period" [("mpip_id", number mpip_id)] (.start_voting_period mpip_id)
  /-- `lib.rs:192` -/
  | start_voting_period_callback (mpip_id : Nat) (h0 : mpip_id < 2 ^ 32) :
      Signature "start_voting_period_callback" [("mpip_id", number mpip_id)] (.start_voting_period_callback mpip_id)
  /-- `lib.rs:208` -/
  | create_proposal (title short_description body data extra : String) :
      Signature "create_proposal" [("title", text title), ("short_description", text short_description), ("body", text body),
      ("data", text data), ("extra", text extra)] (.create_proposal ⟨title, short_description, body, data, extra⟩)
  /-- `lib.rs:230` -/
  | create_proposal_callback (title short_description body data extra : String) :
      Signature "create_proposal_callback" [("title", text title), ("short_description", text short_description),
      ("body", text body), ("data", text data), ("extra", text extra)]
      (.create_proposal_callback ⟨title, short_description, body, data, extra⟩)
  /-- `lib.rs:245` -/
  | cancel_proposal (mpip_id : Nat) (h0 : mpip_id < 2 ^ 32) :
      Signature "cancel_proposal" [("mpip_id", number mpip_id)] (.cancel_proposal mpip_id)
  /-- `lib.rs:253` -/
  | update_proposal (mpip_id : Nat) (title short_description body data extra : String) (h0 : mpip_id < 2 ^ 32) :
      Signature "update_proposal" [("mpip_id", number mpip_id), ("title", text title),
      ("short_description", text short_description), ("body", text body), ("data", text data), ("extra", text extra)]
      (.update_proposal mpip_id ⟨title, short_description, body, data, extra⟩)
  /-- `lib.rs:273` -/
  | update_meta_vote_contract_address (new_meta_vote_contract_address : String)
      (h0 : IsAccountId new_meta_vote_contract_address) :
      Signature "update_meta_vote_contract_address" [("new_meta_vote_contract_address", text new_meta_vote_contract_address)]
      (.update_meta_vote_contract_address new_meta_vote_contract_address)
  /-- `lib.rs:372` -/
  | vote_proposal (mpip_id : Nat) (vote : VoteType) (memo : String) (h0 : mpip_id < 2 ^ 32) :
      Signature "vote_proposal" [("mpip_id", number mpip_id), ("vote", voteTypeName vote), ("memo", text memo)]
      (.vote_proposal mpip_id vote memo)
  /-- `lib.rs:397` -/
  | vote_proposal_callback (mpip_id : Nat) (voter_id : String) (vote_type : VoteType) (memo : String) (h0 : mpip_id < 2 ^ 32)
      (h1 : IsAccountId voter_id) : Signature "vote_proposal_callback"
      [("mpip_id", number mpip_id), ("voter_id", text voter_id), ("vote_type", voteTypeName vote_type), ("memo", text memo)]
      (.vote_proposal_callback mpip_id voter_id vote_type memo)
  /-- `lib.rs:439` -/
  | remove_vote_proposal (mpip_id : Nat) (h0 : mpip_id < 2 ^ 32) :
      Signature "remove_vote_proposal" [("mpip_id", number mpip_id)] (.remove_vote_proposal mpip_id)
  /-- `lib.rs:493` -/
  | process_voting_status (mpip_id : Nat) (h0 : mpip_id < 2 ^ 32) :
      Signature "process_voting_status" [("mpip_id", number mpip_id)] (.process_voting_status mpip_id)

/-- The views of `mpip-contract/src`, one rule for each signature. -/
inductive View.Signature : String → List (String × Val) → View → Prop
  /-- `lib.rs:278` -/
  | get_my_proposals (proposer_id : String) (h0 : IsAccountId proposer_id) :
      Signature "get_my_proposals" [("proposer_id", text proposer_id)] (.get_my_proposals proposer_id)
  /-- `lib.rs:288` -/
  | check_proposal_threshold (voting_power : Nat) (h0 : voting_power < 2 ^ 128) :
      Signature "check_proposal_threshold" [("voting_power", quoted voting_power)] (.check_proposal_threshold voting_power)
  /-- `lib.rs:292` -/
  | get_mpip_storage_near : Signature "get_mpip_storage_near" [] .get_mpip_storage_near
  /-- `lib.rs:296` -/
  | get_proposal_votes (mpip_id : Nat) (h0 : mpip_id < 2 ^ 32) :
      Signature "get_proposal_votes" [("mpip_id", number mpip_id)] (.get_proposal_votes mpip_id)
  /-- `lib.rs:301` -/
  | get_quorum_reached (mpip_id : Nat) (h0 : mpip_id < 2 ^ 32) :
      Signature "get_quorum_reached" [("mpip_id", number mpip_id)] (.get_quorum_reached mpip_id)
  /-- `lib.rs:307` -/
  | get_proposal_vote_succeeded (mpip_id : Nat) (h0 : mpip_id < 2 ^ 32) :
      Signature "get_proposal_vote_succeeded" [("mpip_id", number mpip_id)] (.get_proposal_vote_succeeded mpip_id)
  /-- `lib.rs:312` -/
  | get_proposal_state (mpip_id : Nat) (h0 : mpip_id < 2 ^ 32) :
      Signature "get_proposal_state" [("mpip_id", number mpip_id)] (.get_proposal_state mpip_id)
  /-- `lib.rs:316` -/
  | get_proposal (mpip_id : Nat) (h0 : mpip_id < 2 ^ 32) :
      Signature "get_proposal" [("mpip_id", number mpip_id)] (.get_proposal mpip_id)
  /-- `lib.rs:321` -/
  | get_proposals (from_index limit : Nat) (h0 : from_index < 2 ^ 32) (h1 : limit < 2 ^ 32) :
      Signature "get_proposals" [("from_index", number from_index), ("limit", number limit)] (.get_proposals from_index limit)
  /-- `lib.rs:340` -/
  | get_user_proposals_ids (proposer_id : String) (h0 : IsAccountId proposer_id) :
      Signature "get_user_proposals_ids" [("proposer_id", text proposer_id)] (.get_user_proposals_ids proposer_id)
  /-- `lib.rs:344` -/
  | get_last_proposal_id : Signature "get_last_proposal_id" [] .get_last_proposal_id
  /-- `lib.rs:352` -/
  | get_quorum_floor : Signature "get_quorum_floor" [] .get_quorum_floor
  /-- `lib.rs:356` -/
  | get_proposal_threshold : Signature "get_proposal_threshold" [] .get_proposal_threshold
  /-- `lib.rs:360` -/
  | get_total_voters : Signature "get_total_voters" [] .get_total_voters
  /-- `lib.rs:364` -/
  | get_proposal_is_active_or_draft (mpip_id : Nat) (h0 : mpip_id < 2 ^ 32) :
      Signature "get_proposal_is_active_or_draft" [("mpip_id", number mpip_id)] (.get_proposal_is_active_or_draft mpip_id)
  /-- `lib.rs:469` -/
  | has_voted (voter_id : String) (mpip_id : Nat) (h0 : IsAccountId voter_id) (h1 : mpip_id < 2 ^ 32) :
      Signature "has_voted" [("voter_id", text voter_id), ("mpip_id", number mpip_id)] (.has_voted voter_id mpip_id)
  /-- `lib.rs:473` -/
  | get_my_vote (voter_id : String) (mpip_id : Nat) (h0 : IsAccountId voter_id) (h1 : mpip_id < 2 ^ 32) :
      Signature "get_my_vote" [("voter_id", text voter_id), ("mpip_id", number mpip_id)] (.get_my_vote voter_id mpip_id)
  /-- `lib.rs:484` -/
  | get_voter (voter_id : String) (h0 : IsAccountId voter_id) :
      Signature "get_voter" [("voter_id", text voter_id)] (.get_voter voter_id)

/-- The answers of the views, from the types that they return. -/
def View.answer : (v : View) → v.Out → Val
  | .get_my_proposals _, r => array number r
  | .check_proposal_threshold _, r => flag r
  | .get_mpip_storage_near, r => quoted r
  | .get_proposal_votes _, r => proposalVoteJson r
  | .get_quorum_reached _, r => flag r
  | .get_proposal_vote_succeeded _, r => flag r
  | .get_proposal_state _, r => mpipStateName r
  | .get_proposal _, r => mpipJSON r
  | .get_proposals _ _, r => orNull (array mpipJSON) r
  | .get_user_proposals_ids _, r => array number r
  | .get_last_proposal_id, r => orNull number r
  | .get_quorum_floor, r => number r
  | .get_proposal_threshold, r => quoted r
  | .get_total_voters, r => quoted r
  | .get_proposal_is_active_or_draft _, r => flag r
  | .has_voted _ _, r => flag r
  | .get_my_vote _ _, r => orNull voteJson r
  | .get_voter _, r => voterJson r

end Verif.Mpip

namespace Verif.Kv

open Verif Storage Serde Interface JsonText

/-- The methods of `kv-store-contract/src`, one rule for each signature: name, arguments, and the call that is made. -/
inductive Call.Signature : String → List (String × Val) → Call → Prop
  /-- `lib.rs:42` -/
  | set_operator_id (operator_id : String) (h0 : IsAccountId operator_id) :
      Signature "set_operator_id" [("operator_id", text operator_id)] (.set_operator_id operator_id)
  /-- `lib.rs:48` -/
  | set_owner_id (owner_id : String) (h0 : IsAccountId owner_id) :
      Signature "set_owner_id" [("owner_id", text owner_id)] (.set_owner_id owner_id)
  /-- `lib.rs:75` -/
  | set_value (key value : String) : Signature "set_value" [("key", text key), ("value", text value)] (.set_value key value)
  /-- `lib.rs:80` -/
  | set_values (kv_array : List (String × String)) :
      Signature "set_values" [("kv_array", array (two text text) kv_array)] (.set_values kv_array)
  /-- `lib.rs:87` -/
  | remove_value (key : String) : Signature "remove_value" [("key", text key)] (.remove_value key)

/-- The views of `kv-store-contract/src`, one rule for each signature. -/
inductive View.Signature : String → List (String × Val) → View → Prop
  /-- `lib.rs:97` -/
  | get_value (key : String) : Signature "get_value" [("key", text key)] (.get_value key)
  /-- `lib.rs:102` -/
  | get_values (from_index limit : Nat) (h0 : from_index < 2 ^ 32) (h1 : limit < 2 ^ 32) :
      Signature "get_values" [("from_index", number from_index), ("limit", number limit)] (.get_values from_index limit)
  /-- `lib.rs:120` -/
  | get_owner_id : Signature "get_owner_id" [] .get_owner_id
  /-- `lib.rs:123` -/
  | get_operator_id : Signature "get_operator_id" [] .get_operator_id
  /-- `lib.rs:126` -/
  | get_kv_count : Signature "get_kv_count" [] .get_kv_count

/-- The answers of the views, from the types that they return. -/
def View.answer : (v : View) → v.Out → Val
  | .get_value _, r => orNull text r
  | .get_values _ _, r => array (two text text) r
  | .get_owner_id, r => text r
  | .get_operator_id, r => text r
  | .get_kv_count, r => quoted r

end Verif.Kv

namespace Verif.Token

open Verif Storage Serde Interface JsonText

/-- `StorageBalanceBounds` of near-contract-standards. -/
def storageBalanceBounds (p : Nat × Option Nat) : Val := .obj [("min", quoted p.1), ("max", orNull quoted p.2)]

/-- `StorageBalance` of near-contract-standards. -/
def storageBalance (p : Nat × Nat) : Val := .obj [("total", quoted p.1), ("available", quoted p.2)]

/-- `FungibleTokenMetadata` of near-contract-standards; the hash is a `Base64VecU8`. -/
def fungibleTokenMetadata (m : Bytes.Metadata) : Val :=
  .obj [("spec", text m.spec), ("name", text m.name), ("symbol", text m.symbol), ("icon", orNull text m.icon),
    ("reference", orNull text m.reference), ("reference_hash", orNull (fun h => .str (String.ofList (base64 h))) m.reference_hash),
    ("decimals", number m.decimals)]

/-- The two ways to install the token: owner, supply and metadata. -/
inductive InitSignature : String → List (String × Val) → String × Nat × Bytes.Metadata → Prop
  /-- `lib.rs:61-76` -/
  | new_default_meta (owner_id : String) (total_supply : Nat) (h0 : IsAccountId owner_id) (h1 : total_supply < 2 ^ 128) :
      InitSignature "new_default_meta" [("owner_id", text owner_id), ("total_supply", quoted total_supply)]
        (owner_id, total_supply,
          ⟨"ft-1.0.0", "metapool.app DAO Governance Token", "mpDAO", some Bytes.ICON, none, none, 6⟩)
  /-- `lib.rs:80` -/
  | new (owner_id : String) (total_supply : Nat) (metadata : Bytes.Metadata) (h0 : IsAccountId owner_id) (h1 : total_supply < 2 ^ 128)
      (h2 : metadata.decimals < 2 ^ 8) :
      InitSignature "new" [("owner_id", text owner_id), ("total_supply", quoted total_supply),
        ("metadata", fungibleTokenMetadata metadata)] (owner_id, total_supply, metadata)

/-- The methods of `test-meta-token/src`, one rule for each signature: name, arguments, and the call that is made. -/
inductive Call.Signature : String → List (String × Val) → Call → Prop
  /-- `lib.rs:111` -/
  | set_owner_id (owner_id : String) (h0 : IsAccountId owner_id) :
      Signature "set_owner_id" [("owner_id", text owner_id)] (.set_owner_id owner_id)
  /-- `lib.rs:119` -/
  | add_minter (account_id : String) (h0 : IsAccountId account_id) :
      Signature "add_minter" [("account_id", text account_id)] (.add_minter account_id)
  /-- `lib.rs:130` -/
  | remove_minter (account_id : String) (h0 : IsAccountId account_id) :
      Signature "remove_minter" [("account_id", text account_id)] (.remove_minter account_id)
  /-- `lib.rs:145` -/
  | assert_minter (account_id : String) (h0 : IsAccountId account_id) :
      Signature "assert_minter" [("account_id", text account_id)] (.assert_minter account_id)
  /-- `lib.rs:151` -/
  | ft_mint (amount : Nat) (memo : Option String) (h0 : amount < 2 ^ 128) :
      Signature "ft_mint" [("amount", quoted amount), ("memo", orNull text memo)] (.ft_mint amount)
  /-- `lib.rs:166` -/
  | ft_burn (amount : Nat) (memo : Option String) (h0 : amount < 2 ^ 128) :
      Signature "ft_burn" [("amount", quoted amount), ("memo", orNull text memo)] (.ft_burn amount)
  /-- `lib.rs:182` -/
  | ft_transfer (receiver_id : String) (amount : Nat) (memo : Option String) (h0 : IsAccountId receiver_id)
      (h1 : amount < 2 ^ 128) : Signature "ft_transfer" [("receiver_id", text receiver_id), ("amount", quoted amount),
      ("memo", orNull text memo)] (.ft_transfer receiver_id amount)
  /-- `lib.rs:187` -/
  | ft_transfer_call (receiver_id : String) (amount : Nat) (memo : Option String) (msg : String)
      (h0 : IsAccountId receiver_id) (h1 : amount < 2 ^ 128) :
      Signature "ft_transfer_call" [("receiver_id", text receiver_id), ("amount", quoted amount), ("memo", orNull text memo),
      ("msg", text msg)] (.ft_transfer_call receiver_id amount (utf8 msg))
  /-- `lib.rs:209` -/
  | ft_resolve_transfer (sender_id receiver_id : String) (amount : Nat) (h0 : IsAccountId sender_id)
      (h1 : IsAccountId receiver_id) (h2 : amount < 2 ^ 128) :
      Signature "ft_resolve_transfer" [("sender_id", text sender_id), ("receiver_id", text receiver_id),
      ("amount", quoted amount)] (.ft_resolve_transfer sender_id receiver_id amount)
  /-- `lib.rs:228` -/
  | storage_deposit (account_id : Option String) (registration_only : Option Bool)
      (h0 : ∀ x, account_id = some x → IsAccountId x) : Signature "storage_deposit"
      [("account_id", orNull text account_id), ("registration_only", orNull flag registration_only)]
      (.storage_deposit account_id registration_only)
  /-- `lib.rs:237` -/
  | storage_withdraw (amount : Option Nat) (h0 : ∀ x, amount = some x → x < 2 ^ 128) :
      Signature "storage_withdraw" [("amount", orNull quoted amount)] (.storage_withdraw amount)
  /-- `lib.rs:242` -/
  | storage_unregister (force : Option Bool) : Signature "storage_unregister" [("force", orNull flag force)]
      (.storage_unregister force)

/-- The views of `test-meta-token/src`, one rule for each signature. -/
inductive View.Signature : String → List (String × Val) → View → Prop
  /-- `lib.rs:107` -/
  | get_owner_id : Signature "get_owner_id" [] .get_owner_id
  /-- `lib.rs:141` -/
  | get_minters : Signature "get_minters" [] .get_minters
  /-- `lib.rs:197` -/
  | ft_total_supply : Signature "ft_total_supply" [] .ft_total_supply
  /-- `lib.rs:201` -/
  | ft_balance_of (account_id : String) (h0 : IsAccountId account_id) :
      Signature "ft_balance_of" [("account_id", text account_id)] (.ft_balance_of account_id)
  /-- `lib.rs:252` -/
  | storage_balance_bounds : Signature "storage_balance_bounds" [] .storage_balance_bounds
  /-- `lib.rs:256` -/
  | storage_balance_of (account_id : String) (h0 : IsAccountId account_id) :
      Signature "storage_balance_of" [("account_id", text account_id)] (.storage_balance_of account_id)

/-- The answers of the views, from the types that they return. -/
def View.answer : (v : View) → v.Out → Val
  | .get_owner_id, r => text r
  | .get_minters, r => array text r
  | .ft_total_supply, r => quoted r
  | .ft_balance_of _, r => quoted r
  | .storage_balance_bounds, r => storageBalanceBounds r
  | .storage_balance_of _, r => orNull storageBalance r

end Verif.Token
