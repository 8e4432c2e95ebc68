import Verif.Serde.Wire
import Verif.MetaVote.Views

/-!
# The views of meta-vote by name and JSON input, with their JSON answers
-/

namespace Verif.Serde

open Verif Storage MetaVote

theorem str_ne_null (s : String) : str.write s ≠ .null := by simp [str]

theorem struct_ne_null {α : Type} {F : Fields α} {h : F.keys.Nodup} (a : α) : (struct F h).write a ≠ .null := by simp [struct]

theorem pair_ne_null {α β : Type} {S : Ty α} {T : Ty β} (a : α × β) : (pair S T).write a ≠ .null := by simp [pair]

theorem ustr_ne_null {m : Nat} (n : Nat) : (ustr m).write n ≠ .null := by simp [ustr]

theorem list_ne_null {α : Type} {T : Ty α} (a : List α) : (list T).write a ≠ .null := by simp [list]

/-- `(S, T, U)` -/
def triple {α β γ : Type} (S : Ty α) (T : Ty β) (U : Ty γ) : Ty (α × β × γ) where
  write p := .arr [S.write p.1, T.write p.2.1, U.write p.2.2]
  read
    | .arr [u, v, w] => match S.read u, T.read v, U.read w with
      | some a, some b, some c => some (a, b, c)
      | _, _, _ => none
    | _ => none
  ok p := S.ok p.1 ∧ T.ok p.2.1 ∧ U.ok p.2.2
  depth := max S.depth (max T.depth U.depth) + 1
  law p h := by simp only [S.law p.1 h.1, T.law p.2.1 h.2.1, U.law p.2.2 h.2.2]
  good p h := by
    refine .arr fun v hv => ?_
    simp only [List.mem_cons, List.not_mem_nil, or_false] at hv
    rcases hv with rfl | rfl | rfl
    · exact (S.good _ h.1).mono (by omega)
    · exact (T.good _ h.2.1).mono (by omega)
    · exact (U.good _ h.2.2).mono (by omega)
  sound v p h := by
    split at h
    · split at h
      · rename_i h1 h2 h3; cases h; exact ⟨S.sound _ _ h1, T.sound _ _ h2, U.sound _ _ h3⟩
      · cases h
    · cases h

/-- `VotableObjectJSON`: `meta-vote-contract/src/types.rs:36-42`. -/
def votableTy : Ty VotableObjectJSON := struct
  ((Fields.one "votable_contract" str ⊗ Fields.one "id" str ⊗ Fields.one "current_votes" u128).iso
    (fun (a, b, c) => ⟨a, b, c⟩) (fun p => (p.votable_contract, p.id, p.current_votes)) (fun _ => rfl) (fun _ => rfl))

/-- `VotePositionJSON`: `meta-vote-contract/src/types.rs:44-50`. -/
def votePositionTy : Ty VotePositionJSON := struct
  ((Fields.one "votable_address" str ⊗ Fields.one "votable_object_id" str ⊗ Fields.one "voting_power" u128).iso
    (fun (a, b, c) => ⟨a, b, c⟩) (fun p => (p.votable_address, p.votable_object_id, p.voting_power)) (fun _ => rfl)
    (fun _ => rfl))

/-- `VoterJSON`: `meta-vote-contract/src/voter.rs:5-13`. -/
def voterTy : Ty VoterJSON := struct
  ((Fields.one "voter_id" str ⊗ Fields.one "balance_in_contract" u128 ⊗ Fields.one "locking_positions" (list positionTy) ⊗
    Fields.one "voting_power" u128 ⊗ Fields.one "vote_positions" (list votePositionTy)).iso
    (fun (a, b, c, d, e) => ⟨a, b, c, d, e⟩)
    (fun p => (p.voter_id, p.balance_in_contract, p.locking_positions, p.voting_power, p.vote_positions)) (fun _ => rfl)
    (fun _ => rfl))

/-- `ContractInfoJson`: `meta-vote-contract/src/view.rs:10-30`. -/
def infoTy : Ty State.ContractInfoJson := struct
  ((Fields.one "owner_id" str ⊗ Fields.one "operator_id" str ⊗ Fields.one "voter_count" u64 ⊗
    Fields.one "min_unbond_period" u16 ⊗ Fields.one "max_unbond_period" u16 ⊗ Fields.one "min_deposit_amount" u128 ⊗
    Fields.one "max_locking_positions" u8 ⊗ Fields.one "max_voting_positions" u8 ⊗
    Fields.one "mpdao_token_contract_address" str ⊗ Fields.one "stnear_token_contract_address" str ⊗
    Fields.one "registration_cost" u128 ⊗ Fields.one "prev_governance_contract" str ⊗
    Fields.one "accumulated_mpdao_distributed_for_claims" u128 ⊗ Fields.one "total_unclaimed_mpdao" u128 ⊗
    Fields.one "accum_distributed_stnear_for_claims" u128 ⊗ Fields.one "total_unclaimed_stnear" u128 ⊗
    Fields.one "evm_delegates_count" u64).iso
    (fun (a, b, c, d, e, f, g, h, i, j, k, l, m, n, o, p, q) => ⟨a, b, c, d, e, f, g, h, i, j, k, l, m, n, o, p, q⟩)
    (fun p => (p.owner_id, p.operator_id, p.voter_count, p.min_unbond_period, p.max_unbond_period, p.min_deposit_amount,
      p.max_locking_positions, p.max_voting_positions, p.mpdao_token_contract_address, p.stnear_token_contract_address,
      p.registration_cost, p.prev_governance_contract, p.accumulated_mpdao_distributed_for_claims, p.total_unclaimed_mpdao,
      p.accum_distributed_stnear_for_claims, p.total_unclaimed_stnear, p.evm_delegates_count)) (fun _ => rfl) (fun _ => rfl))

end Verif.Serde

namespace Verif.MetaVote

open Verif Storage Serde

/-- The views (file and line of each in `View.read`). -/
inductive View where
  | get_owner_id
  | get_operator_id
  | get_contract_info
  | get_voters_count
  | get_total_voting_power
  | get_voter_info (voter_id : String)
  | get_voters (from_index : Nat) (limit : Nat)
  | get_balance (voter_id : String)
  | get_claimable_mpdao (voter_id : String)
  | get_claimable_meta (voter_id : String)
  | get_claimable_stnear (voter_id : String)
  | get_stnear_claims (from_index : Nat) (limit : Nat)
  | get_claims (from_index : Nat) (limit : Nat)
  | get_locked_balance (voter_id : String)
  | get_unlocking_balance (voter_id : String)
  | get_available_voting_power (voter_id : String)
  | get_used_voting_power (voter_id : String)
  | get_locking_period
  | get_all_locking_positions (voter_id : String)
  | get_locking_position (index : Nat) (voter_id : String)
  | get_total_votes (contract_address : String) (votable_object_id : String)
  | get_votes_by_app (app_or_contract_address : String)
  | get_votes_by_contract (contract_address : String)
  | get_votes_by_voter (voter_id : String)
  | get_votes_for_object (voter_id : String) (contract_address : String) (votable_object_id : String)
  | get_total_unclaimed_mpdao
  | get_total_unclaimed_meta
  | get_accumulated_mpdao_distributed_for_claims
  | get_accumulated_distributed_for_claims
  | get_registration_cost
  | check_if_registered_for_airdrops (account_id : String)
  | check_if_user_is_registerd (account_id : String)
  | get_airdrop_account (account_id : String)
  | get_airdrop_accounts (from_index : Nat) (limit : Nat)
  | get_lock_in_vote_filters
  | get_pre_delegate_evm_address (evm_address : String)
  | get_delegating_evm_addresses (account_id : String)
  | get_delegates (from_index : Nat) (limit : Nat)
  | get_delegate (evm_address : String)
  | get_delegation_signature (evm_address : String)

namespace View

/-- The type of the answer. -/
def Out : View → Type
  | .get_owner_id => String
  | .get_operator_id => String
  | .get_contract_info => State.ContractInfoJson
  | .get_voters_count => Nat
  | .get_total_voting_power => Nat
  | .get_voter_info _ => VoterJSON
  | .get_voters _ _ => List VoterJSON
  | .get_balance _ => Nat
  | .get_claimable_mpdao _ => Nat
  | .get_claimable_meta _ => Nat
  | .get_claimable_stnear _ => Nat
  | .get_stnear_claims _ _ => List (String × Nat)
  | .get_claims _ _ => List (String × Nat)
  | .get_locked_balance _ => Nat
  | .get_unlocking_balance _ => Nat
  | .get_available_voting_power _ => Nat
  | .get_used_voting_power _ => Nat
  | .get_locking_period => Nat × Nat
  | .get_all_locking_positions _ => List LockingPositionJSON
  | .get_locking_position _ _ => Option LockingPositionJSON
  | .get_total_votes _ _ => Nat
  | .get_votes_by_app _ => List (String × Nat)
  | .get_votes_by_contract _ => List VotableObjectJSON
  | .get_votes_by_voter _ => List VotableObjectJSON
  | .get_votes_for_object _ _ _ => Nat
  | .get_total_unclaimed_mpdao => Nat
  | .get_total_unclaimed_meta => Nat
  | .get_accumulated_mpdao_distributed_for_claims => Nat
  | .get_accumulated_distributed_for_claims => Nat
  | .get_registration_cost => Nat
  | .check_if_registered_for_airdrops _ => Bool
  | .check_if_user_is_registerd _ => Bool
  | .get_airdrop_account _ => String
  | .get_airdrop_accounts _ _ => List (String × String)
  | .get_lock_in_vote_filters => Nat × Option String × Nat
  | .get_pre_delegate_evm_address _ => Option (String × String)
  | .get_delegating_evm_addresses _ => List String
  | .get_delegates _ _ => List (String × List String)
  | .get_delegate _ => Option String
  | .get_delegation_signature _ => String × String

/-- How the answer is written. -/
def ty : (v : View) → Ty v.Out
  | .get_owner_id => str
  | .get_operator_id => str
  | .get_contract_info => infoTy
  | .get_voters_count => u64s
  | .get_total_voting_power => u128
  | .get_voter_info _ => voterTy
  | .get_voters _ _ => list voterTy
  | .get_balance _ => u128
  | .get_claimable_mpdao _ => u128
  | .get_claimable_meta _ => u128
  | .get_claimable_stnear _ => u128
  | .get_stnear_claims _ _ => list (pair str u128)
  | .get_claims _ _ => list (pair str u128)
  | .get_locked_balance _ => u128
  | .get_unlocking_balance _ => u128
  | .get_available_voting_power _ => u128
  | .get_used_voting_power _ => u128
  | .get_locking_period => pair u16 u16
  | .get_all_locking_positions _ => list positionTy
  | .get_locking_position _ _ => opt positionTy struct_ne_null
  | .get_total_votes _ _ => u128
  | .get_votes_by_app _ => list (pair str u128)
  | .get_votes_by_contract _ => list votableTy
  | .get_votes_by_voter _ => list votableTy
  | .get_votes_for_object _ _ _ => u128
  | .get_total_unclaimed_mpdao => u128
  | .get_total_unclaimed_meta => u128
  | .get_accumulated_mpdao_distributed_for_claims => u128
  | .get_accumulated_distributed_for_claims => u128
  | .get_registration_cost => u128
  | .check_if_registered_for_airdrops _ => Serde.bool
  | .check_if_user_is_registerd _ => Serde.bool
  | .get_airdrop_account _ => str
  | .get_airdrop_accounts _ _ => list (pair str str)
  | .get_lock_in_vote_filters => triple u64 (opt str str_ne_null) u16
  | .get_pre_delegate_evm_address _ => opt (pair str str) pair_ne_null
  | .get_delegating_evm_addresses _ => list str
  | .get_delegates _ _ => list (pair str (list str))
  | .get_delegate _ => opt str str_ne_null
  | .get_delegation_signature _ => pair str str

/-- Arguments of the types of the method. -/
def valid : View → Prop
  | .get_voters from_index limit => from_index ≤ U32_MAX ∧ limit ≤ U32_MAX
  | .get_stnear_claims from_index limit => from_index ≤ U32_MAX ∧ limit ≤ U32_MAX
  | .get_claims from_index limit => from_index ≤ U32_MAX ∧ limit ≤ U32_MAX
  | .get_locking_position index _ => index ≤ U64_MAX
  | .get_airdrop_accounts from_index limit => from_index ≤ U32_MAX ∧ limit ≤ U32_MAX
  | .get_delegating_evm_addresses account_id => validAccount account_id = true
  | .get_delegates from_index limit => from_index ≤ U32_MAX ∧ limit ≤ U32_MAX
  | _ => True

/-- Name and input as a client writes them. -/
def write : View → String × Bytes
  | .get_owner_id => ("get_owner_id", [])
  | .get_operator_id => ("get_operator_id", [])
  | .get_contract_info => ("get_contract_info", [])
  | .get_voters_count => ("get_voters_count", [])
  | .get_total_voting_power => ("get_total_voting_power", [])
  | .get_voter_info voter_id => ("get_voter_info", argsTo (Fields.one "voter_id" str) voter_id)
  | .get_voters from_index limit => ("get_voters", argsTo (Fields.one "from_index" u32 ⊗ Fields.one "limit" u32) (from_index, limit))
  | .get_balance voter_id => ("get_balance", argsTo (Fields.one "voter_id" str) voter_id)
  | .get_claimable_mpdao voter_id => ("get_claimable_mpdao", argsTo (Fields.one "voter_id" str) voter_id)
  | .get_claimable_meta voter_id => ("get_claimable_meta", argsTo (Fields.one "voter_id" str) voter_id)
  | .get_claimable_stnear voter_id => ("get_claimable_stnear", argsTo (Fields.one "voter_id" str) voter_id)
  | .get_stnear_claims from_index limit => ("get_stnear_claims", argsTo (Fields.one "from_index" u32 ⊗ Fields.one "limit" u32) (from_index, limit))
  | .get_claims from_index limit => ("get_claims", argsTo (Fields.one "from_index" u32 ⊗ Fields.one "limit" u32) (from_index, limit))
  | .get_locked_balance voter_id => ("get_locked_balance", argsTo (Fields.one "voter_id" str) voter_id)
  | .get_unlocking_balance voter_id => ("get_unlocking_balance", argsTo (Fields.one "voter_id" str) voter_id)
  | .get_available_voting_power voter_id => ("get_available_voting_power", argsTo (Fields.one "voter_id" str) voter_id)
  | .get_used_voting_power voter_id => ("get_used_voting_power", argsTo (Fields.one "voter_id" str) voter_id)
  | .get_locking_period => ("get_locking_period", [])
  | .get_all_locking_positions voter_id => ("get_all_locking_positions", argsTo (Fields.one "voter_id" str) voter_id)
  | .get_locking_position index voter_id => ("get_locking_position", argsTo (Fields.one "index" u64 ⊗ Fields.one "voter_id" str) (index, voter_id))
  | .get_total_votes contract_address votable_object_id => ("get_total_votes", argsTo (Fields.one "contract_address" str ⊗ Fields.one "votable_object_id" str) (contract_address, votable_object_id))
  | .get_votes_by_app app_or_contract_address => ("get_votes_by_app", argsTo (Fields.one "app_or_contract_address" str) app_or_contract_address)
  | .get_votes_by_contract contract_address => ("get_votes_by_contract", argsTo (Fields.one "contract_address" str) contract_address)
  | .get_votes_by_voter voter_id => ("get_votes_by_voter", argsTo (Fields.one "voter_id" str) voter_id)
  | .get_votes_for_object voter_id contract_address votable_object_id => ("get_votes_for_object", argsTo (Fields.one "voter_id" str ⊗ Fields.one "contract_address" str ⊗ Fields.one "votable_object_id" str) (voter_id, contract_address, votable_object_id))
  | .get_total_unclaimed_mpdao => ("get_total_unclaimed_mpdao", [])
  | .get_total_unclaimed_meta => ("get_total_unclaimed_meta", [])
  | .get_accumulated_mpdao_distributed_for_claims => ("get_accumulated_mpdao_distributed_for_claims", [])
  | .get_accumulated_distributed_for_claims => ("get_accumulated_distributed_for_claims", [])
  | .get_registration_cost => ("get_registration_cost", [])
  | .check_if_registered_for_airdrops account_id => ("check_if_registered_for_airdrops", argsTo (Fields.one "account_id" str) account_id)
  | .check_if_user_is_registerd account_id => ("check_if_user_is_registerd", argsTo (Fields.one "account_id" str) account_id)
  | .get_airdrop_account account_id => ("get_airdrop_account", argsTo (Fields.one "account_id" str) account_id)
  | .get_airdrop_accounts from_index limit => ("get_airdrop_accounts", argsTo (Fields.one "from_index" u32 ⊗ Fields.one "limit" u32) (from_index, limit))
  | .get_lock_in_vote_filters => ("get_lock_in_vote_filters", [])
  | .get_pre_delegate_evm_address evm_address => ("get_pre_delegate_evm_address", argsTo (Fields.one "evm_address" str) evm_address)
  | .get_delegating_evm_addresses account_id => ("get_delegating_evm_addresses", argsTo (Fields.one "account_id" account) account_id)
  | .get_delegates from_index limit => ("get_delegates", argsTo (Fields.one "from_index" u32 ⊗ Fields.one "limit" u32) (from_index, limit))
  | .get_delegate evm_address => ("get_delegate", argsTo (Fields.one "evm_address" str) evm_address)
  | .get_delegation_signature evm_address => ("get_delegation_signature", argsTo (Fields.one "evm_address" str) evm_address)

/-- The view called and its arguments.  A view without arguments does not look at the input. -/
def read (name : String) (b : Bytes) : Option View :=
  match name with
  | "get_owner_id" => some .get_owner_id -- `view.rs:34`
  | "get_operator_id" => some .get_operator_id -- `view.rs:37`
  | "get_contract_info" => some .get_contract_info -- `view.rs:41`
  | "get_voters_count" => some .get_voters_count -- `view.rs:63`
  | "get_total_voting_power" => some .get_total_voting_power -- `view.rs:67`
  | "get_voter_info" => -- `view.rs:72`
    argsOf (Fields.one "voter_id" str) (fun voter_id => .get_voter_info voter_id) b
  | "get_voters" => -- `view.rs:87`
    argsOf (Fields.one "from_index" u32 ⊗ Fields.one "limit" u32) (fun (from_index, limit) => .get_voters from_index limit) b
  | "get_balance" => -- `view.rs:102`
    argsOf (Fields.one "voter_id" str) (fun voter_id => .get_balance voter_id) b
  | "get_claimable_mpdao" => -- `view.rs:108`
    argsOf (Fields.one "voter_id" str) (fun voter_id => .get_claimable_mpdao voter_id) b
  | "get_claimable_meta" => -- `view.rs:115`
    argsOf (Fields.one "voter_id" str) (fun voter_id => .get_claimable_meta voter_id) b
  | "get_claimable_stnear" => -- `view.rs:119`
    argsOf (Fields.one "voter_id" str) (fun voter_id => .get_claimable_stnear voter_id) b
  | "get_stnear_claims" => -- `view.rs:146`
    argsOf (Fields.one "from_index" u32 ⊗ Fields.one "limit" u32) (fun (from_index, limit) => .get_stnear_claims from_index limit) b
  | "get_claims" => -- `view.rs:151`
    argsOf (Fields.one "from_index" u32 ⊗ Fields.one "limit" u32) (fun (from_index, limit) => .get_claims from_index limit) b
  | "get_locked_balance" => -- `view.rs:155`
    argsOf (Fields.one "voter_id" str) (fun voter_id => .get_locked_balance voter_id) b
  | "get_unlocking_balance" => -- `view.rs:160`
    argsOf (Fields.one "voter_id" str) (fun voter_id => .get_unlocking_balance voter_id) b
  | "get_available_voting_power" => -- `view.rs:165`
    argsOf (Fields.one "voter_id" str) (fun voter_id => .get_available_voting_power voter_id) b
  | "get_used_voting_power" => -- `view.rs:170`
    argsOf (Fields.one "voter_id" str) (fun voter_id => .get_used_voting_power voter_id) b
  | "get_locking_period" => some .get_locking_period -- `view.rs:175`
  | "get_all_locking_positions" => -- `view.rs:180`
    argsOf (Fields.one "voter_id" str) (fun voter_id => .get_all_locking_positions voter_id) b
  | "get_locking_position" => -- `view.rs:193`
    argsOf (Fields.one "index" u64 ⊗ Fields.one "voter_id" str) (fun (index, voter_id) => .get_locking_position index voter_id) b
  | "get_total_votes" => -- `view.rs:206`
    argsOf (Fields.one "contract_address" str ⊗ Fields.one "votable_object_id" str) (fun (contract_address, votable_object_id) => .get_total_votes contract_address votable_object_id) b
  | "get_votes_by_app" => -- `view.rs:220`
    argsOf (Fields.one "app_or_contract_address" str) (fun app_or_contract_address => .get_votes_by_app app_or_contract_address) b
  | "get_votes_by_contract" => -- `view.rs:234`
    argsOf (Fields.one "contract_address" str) (fun contract_address => .get_votes_by_contract contract_address) b
  | "get_votes_by_voter" => -- `view.rs:255`
    argsOf (Fields.one "voter_id" str) (fun voter_id => .get_votes_by_voter voter_id) b
  | "get_votes_for_object" => -- `view.rs:272`
    argsOf (Fields.one "voter_id" str ⊗ Fields.one "contract_address" str ⊗ Fields.one "votable_object_id" str) (fun (voter_id, contract_address, votable_object_id) => .get_votes_for_object voter_id contract_address votable_object_id) b
  | "get_total_unclaimed_mpdao" => some .get_total_unclaimed_mpdao -- `view.rs:287`
  | "get_total_unclaimed_meta" => some .get_total_unclaimed_meta -- `view.rs:291`
  | "get_accumulated_mpdao_distributed_for_claims" => some .get_accumulated_mpdao_distributed_for_claims -- `view.rs:295`
  | "get_accumulated_distributed_for_claims" => some .get_accumulated_distributed_for_claims -- `view.rs:299`
  | "get_registration_cost" => some .get_registration_cost -- `lib.rs:153`
  | "check_if_registered_for_airdrops" => -- `lib.rs:157`
    argsOf (Fields.one "account_id" str) (fun account_id => .check_if_registered_for_airdrops account_id) b
  | "check_if_user_is_registerd" => -- `lib.rs:161`
    argsOf (Fields.one "account_id" str) (fun account_id => .check_if_user_is_registerd account_id) b
  | "get_airdrop_account" => -- `lib.rs:177`
    argsOf (Fields.one "account_id" str) (fun account_id => .get_airdrop_account account_id) b
  | "get_airdrop_accounts" => -- `lib.rs:189`
    argsOf (Fields.one "from_index" u32 ⊗ Fields.one "limit" u32) (fun (from_index, limit) => .get_airdrop_accounts from_index limit) b
  | "get_lock_in_vote_filters" => some .get_lock_in_vote_filters -- `lib.rs:768`
  | "get_pre_delegate_evm_address" => -- `evm_delegate.rs:25`
    argsOf (Fields.one "evm_address" str) (fun evm_address => .get_pre_delegate_evm_address evm_address) b
  | "get_delegating_evm_addresses" => -- `evm_delegate.rs:170`
    argsOf (Fields.one "account_id" account) (fun account_id => .get_delegating_evm_addresses account_id) b
  | "get_delegates" => -- `evm_delegate.rs:178`
    argsOf (Fields.one "from_index" u32 ⊗ Fields.one "limit" u32) (fun (from_index, limit) => .get_delegates from_index limit) b
  | "get_delegate" => -- `evm_delegate.rs:199`
    argsOf (Fields.one "evm_address" str) (fun evm_address => .get_delegate evm_address) b
  | "get_delegation_signature" => -- `evm_delegate.rs:210`
    argsOf (Fields.one "evm_address" str) (fun evm_address => .get_delegation_signature evm_address) b
  | _ => none

end View

/-- The answer of a view. -/
def State.view (s : State) (now : Nat) : (v : View) → Res v.Out
  | .get_owner_id => pure s.get_owner_id
  | .get_operator_id => pure s.get_operator_id
  | .get_contract_info => pure s.get_contract_info
  | .get_voters_count => pure s.get_voters_count
  | .get_total_voting_power => pure s.get_total_voting_power
  | .get_voter_info voter_id => pure (s.get_voter_info now voter_id)
  | .get_voters from_index limit => s.get_voters now from_index limit
  | .get_balance voter_id => s.get_balance now voter_id
  | .get_claimable_mpdao voter_id => pure (s.get_claimable_mpdao voter_id)
  | .get_claimable_meta voter_id => pure (s.get_claimable_meta voter_id)
  | .get_claimable_stnear voter_id => pure (s.get_claimable_stnear voter_id)
  | .get_stnear_claims from_index limit => s.get_stnear_claims from_index limit
  | .get_claims from_index limit => s.get_claims from_index limit
  | .get_locked_balance voter_id => s.get_locked_balance voter_id
  | .get_unlocking_balance voter_id => s.get_unlocking_balance now voter_id
  | .get_available_voting_power voter_id => pure (s.get_available_voting_power voter_id)
  | .get_used_voting_power voter_id => s.get_used_voting_power voter_id
  | .get_locking_period => pure s.get_locking_period
  | .get_all_locking_positions voter_id => pure (s.get_all_locking_positions now voter_id)
  | .get_locking_position index voter_id => pure (s.get_locking_position now index voter_id)
  | .get_total_votes contract_address votable_object_id => pure (s.get_total_votes contract_address votable_object_id)
  | .get_votes_by_app app_or_contract_address => pure (s.get_votes_by_app app_or_contract_address)
  | .get_votes_by_contract contract_address => pure (s.get_votes_by_contract contract_address)
  | .get_votes_by_voter voter_id => pure (s.get_votes_by_voter voter_id)
  | .get_votes_for_object voter_id contract_address votable_object_id => pure (s.get_votes_for_object voter_id contract_address votable_object_id)
  | .get_total_unclaimed_mpdao => pure s.get_total_unclaimed_mpdao
  | .get_total_unclaimed_meta => pure s.get_total_unclaimed_meta
  | .get_accumulated_mpdao_distributed_for_claims => pure s.get_accumulated_mpdao_distributed_for_claims
  | .get_accumulated_distributed_for_claims => pure s.get_accumulated_distributed_for_claims
  | .get_registration_cost => pure s.get_registration_cost
  | .check_if_registered_for_airdrops account_id => pure (s.check_if_registered_for_airdrops account_id)
  | .check_if_user_is_registerd account_id => pure (s.check_if_user_is_registerd account_id)
  | .get_airdrop_account account_id => s.get_airdrop_account account_id
  | .get_airdrop_accounts from_index limit => s.get_airdrop_accounts from_index limit
  | .get_lock_in_vote_filters => pure s.get_lock_in_vote_filters
  | .get_pre_delegate_evm_address evm_address => pure (s.get_pre_delegate_evm_address evm_address)
  | .get_delegating_evm_addresses account_id => pure (s.get_delegating_evm_addresses account_id)
  | .get_delegates from_index limit => s.get_delegates from_index limit
  | .get_delegate evm_address => pure (s.get_delegate evm_address)
  | .get_delegation_signature evm_address => s.get_delegation_signature evm_address


/-- A view by name and input: the answer as `#[near_bindgen]` returns it (`serde_json::to_vec` of the result). -/
def viewAll (s : State) (now : Nat) (name : String) (b : Bytes) : Res Bytes := do
  let v ← expect (View.read name b) "Failed to deserialize input from JSON."
  let r ← s.view now v
  pure (v.ty.encode r)

theorem View.read_write {v : View} (h : v.valid) : View.read v.write.1 v.write.2 = some v := by
  cases v
  all_goals
    simp only [View.write, View.read]
    try (refine argsOf_argsTo ?_ (by decide); first
      | exact trivial
      | exact h
      | exact ⟨trivial, trivial⟩
      | exact ⟨h, trivial⟩
      | exact ⟨trivial, trivial, trivial⟩)

theorem View.read_ok {name : String} {b : Bytes} {v : View} (h : View.read name b = some v) : v.valid ∧ v.write.1 = name := by
  unfold View.read at h
  split at h
  all_goals first
    | cases h; exact ⟨trivial, rfl⟩
    | cases h
    | obtain ⟨a, ha, rfl⟩ := argsOf_ok h
      first
        | exact ⟨trivial, rfl⟩
        | exact ⟨ha, rfl⟩
        | exact ⟨ha.1, rfl⟩

theorem View.depth (v : View) : v.ty.depth ≤ 127 := by
  cases v <;> exact Nat.le_of_ble_eq_true rfl

end Verif.MetaVote
