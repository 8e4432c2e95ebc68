import Verif.Serde.Given
import Verif.Props.ApiViews

/-!
# C100: the JSON interface is that of the Rust signatures
-/

namespace Verif.Serde

open Verif Storage Interface

/-- Arguments that are `null` may be missing. -/
macro "lax" : tactic => `(tactic| repeat' first
  | exact Fields.Lax.opt
  | refine Fields.Lax.and ?_ ?_
  | exact Fields.Lax.one (by rintro _ ⟨⟩))

/-- Names and values of the arguments are those of the signature. -/
macro "members" : tactic => `(tactic| (try simp only [number_eq, quoted_eq]) <;> rfl)

end Verif.Serde


namespace Verif.MetaVote

open Verif Storage Serde Interface JsonText

theorem msg_written {a m : String} {n : Nat} :
    argsTo Args.ft_on_transfer (a, n, m) = (Call.ft_on_transfer a n (utf8 m)).write.2 := by
  simp only [Call.write, textOf_utf8]

theorem position_eq : lockingPositionJSON = positionTy.write := by
  funext p; simp only [lockingPositionJSON, number_eq, quoted_eq]; rfl

theorem votable_eq : votableObjectJSON = votableTy.write := by
  funext p; simp only [votableObjectJSON, quoted_eq]; rfl

theorem votePosition_eq : votePositionJSON = votePositionTy.write := by
  funext p; simp only [votePositionJSON, quoted_eq]; rfl

theorem voter_eq : voterJSON = voterTy.write := by
  funext p; simp only [voterJSON, quoted_eq, position_eq, votePosition_eq]; rfl

theorem info_eq : contractInfoJson = infoTy.write := by
  funext p; simp only [contractInfoJson, number_eq, quoted_eq]; rfl

/-- What the views write. -/
theorem View.write_answer : (v : View) → (r : v.Out) → v.ty.write r = v.answer r := by
  intro v r
  cases v
  all_goals
    simp only [View.answer]
    (try simp only [number_eq, quoted_eq, position_eq, votable_eq, voter_eq, info_eq])
    rfl

theorem View.parse_answer {v : View} {r : v.Out} (h : v.ty.ok r) : IsJson (v.ty.encode r) (v.answer r) := by
  rw [← View.write_answer]
  refine parse_iff.1 (parse_render ?_)
  exact ((v.ty.good r h).mono (Nat.add_le_add_right v.depth 1))

/-- C100: an input to meta-vote with the arguments of the signature of a method is read as that call. -/
theorem C100_call {name : String} {ms : List (String × Val)} {k : Call} {i : Bytes} (hs : Call.Signature name ms k)
    (hb : Given i ms) : Call.read name i = some k := by
  cases hs with
  | new_ owner_id operator_id min_unbond_period max_unbond_period min_deposit_amount max_locking_positions
      max_voting_positions mpdao_token_contract_address stnear_token_contract_address registration_cost
      prev_governance_contract h0 h1 h2 h3 h4 h5 h6 h7 h8 h9 =>
    exact args_given (F := Args.new_) (a := (owner_id, operator_id, min_unbond_period, max_unbond_period, min_deposit_amount,
      max_locking_positions, max_voting_positions, mpdao_token_contract_address, stnear_token_contract_address,
      registration_cost, prev_governance_contract)) (by lax) (by members) (by simp) hb
      ⟨(account_iff.2 h0), (account_iff.2 h1), (u16_le h2), (u16_le h3), (u128_le h4), (u8_le h5), (u8_le h6),
      (account_iff.2 h7), (account_iff.2 h8), (u128_le h9), trivial⟩
  | migrate => rfl
  | set_stnear_contract stnear_contract h0 =>
    exact args_given (F := Args.set_stnear_contract) (a := stnear_contract) (by lax) (by members) (by simp) hb (account_iff.2 h0)
  | set_operator_id operator_id h0 =>
    exact args_given (F := Args.set_operator_id) (a := operator_id) (by lax) (by members) (by simp) hb (account_iff.2 h0)
  | set_owner_id owner_id h0 =>
    exact args_given (F := Args.set_owner_id) (a := owner_id) (by lax) (by members) (by simp) hb (account_iff.2 h0)
  | update_registration_cost new_cost h0 =>
    exact args_given (F := Args.update_registration_cost) (a := new_cost) (by lax) (by members) (by simp) hb (u128_le h0)
  | update_airdrop_user_data encrypted_data =>
    exact args_given (F := Args.update_airdrop_user_data) (a := encrypted_data) (by lax) (by members) (by simp) hb trivial
  | operator_multi_set_airdrop_data data =>
    exact args_given (F := Args.operator_multi_set_airdrop_data) (a := data) (by lax) (by members) (by simp) hb
      (fun _ _ => ⟨trivial, trivial⟩)
  | claim_and_lock amount locking_period h0 h1 =>
    exact args_given (F := Args.claim_and_lock) (a := (amount, locking_period)) (by lax) (by members) (by simp) hb
      ⟨(u128_le h0), (u16_le h1)⟩
  | claim_stnear amount h0 =>
    exact args_given (F := Args.claim_stnear) (a := amount) (by lax) (by members) (by simp) hb (u128_le h0)
  | unlock_position index h0 =>
    exact args_given (F := Args.unlock_position) (a := index) (by lax) (by members) (by simp) hb (u64_le h0)
  | unlock_partial_position index amount h0 h1 =>
    exact args_given (F := Args.unlock_partial_position) (a := (index, amount)) (by lax) (by members) (by simp) hb
      ⟨(u64_le h0), (u128_le h1)⟩
  | locking_position_extend_days index new_locking_period h0 h1 =>
    exact args_given (F := Args.locking_position_extend_days) (a := (index, new_locking_period)) (by lax) (by members) (by simp)
      hb ⟨(u64_le h0), (u16_le h1)⟩
  | relock_position index locking_period amount_from_balance h0 h1 h2 =>
    exact args_given (F := Args.relock_position) (a := (index, locking_period, amount_from_balance)) (by lax) (by members)
      (by simp) hb ⟨(u64_le h0), (u16_le h1), (u128_le h2)⟩
  | relock_partial_position index amount_from_position locking_period amount_from_balance h0 h1 h2 h3 =>
    exact args_given (F := Args.relock_partial_position)
      (a := (index, amount_from_position, locking_period, amount_from_balance)) (by lax) (by members) (by simp) hb
      ⟨(u64_le h0), (u128_le h1), (u16_le h2), (u128_le h3)⟩
  | relock_from_balance locking_period amount_from_balance h0 h1 =>
    exact args_given (F := Args.relock_from_balance) (a := (locking_period, amount_from_balance)) (by lax) (by members) (by simp)
      hb ⟨(u16_le h0), (u128_le h1)⟩
  | clear_locking_position position_index_list h0 =>
    exact args_given (F := Args.clear_locking_position) (a := position_index_list) (by lax) (by members) (by simp) hb
      (fun x hx => (u64_le (h0 x hx)))
  | vote voting_power contract_address votable_object_id h0 =>
    exact args_given (F := Args.vote) (a := (voting_power, contract_address, votable_object_id)) (by lax) (by members) (by simp)
      hb ⟨(u128_le h0), trivial, trivial⟩
  | rebalance voting_power contract_address votable_object_id h0 =>
    exact args_given (F := Args.rebalance) (a := (voting_power, contract_address, votable_object_id)) (by lax) (by members)
      (by simp) hb ⟨(u128_le h0), trivial, trivial⟩
  | unvote contract_address votable_object_id =>
    exact args_given (F := Args.unvote) (a := (contract_address, votable_object_id)) (by lax) (by members) (by simp) hb
      ⟨trivial, trivial⟩
  | set_lock_in_vote_filters end_timestamp_ms votable_numeric_id votable_address h0 h1 =>
    exact args_given (F := Args.set_lock_in_vote_filters) (a := (end_timestamp_ms, votable_numeric_id, votable_address)) (by lax)
      (by members) (by simp) hb ⟨(u64_le h0), (u16_le h1), (fun _ _ => trivial)⟩
  | update_min_unbond_period new_min_unbond_period h0 =>
    exact args_given (F := Args.update_min_unbond_period) (a := new_min_unbond_period) (by lax) (by members) (by simp) hb
      (u16_le h0)
  | update_max_unbond_period new_max_unbond_period h0 =>
    exact args_given (F := Args.update_max_unbond_period) (a := new_max_unbond_period) (by lax) (by members) (by simp) hb
      (u16_le h0)
  | set_prev_gov_contract contract_id =>
    exact args_given (F := Args.set_prev_gov_contract) (a := contract_id) (by lax) (by members) (by simp) hb trivial
  | migration_create_lps voter_id locking_positions encrypted_associated_user_data h0 =>
    exact args_given (F := Args.migration_create_lps) (a := (voter_id, locking_positions, encrypted_associated_user_data))
      (by lax) (by members) (by simp) hb ⟨trivial, (fun x hx => ⟨(u128_le (h0 x hx).1), (u16_le (h0 x hx).2)⟩),
      (fun _ _ => trivial)⟩
  | operator_mirror_lps external_address locking_positions h0 =>
    exact args_given (F := Args.operator_mirror_lps) (a := (external_address, locking_positions)) (by lax) (by members) (by simp)
      hb ⟨trivial, (fun x hx => ⟨(u16_le (h0 x hx).1), (u128_le (h0 x hx).2)⟩)⟩
  | withdraw position_index_list amount_from_balance h0 h1 =>
    exact args_given (F := Args.withdraw) (a := (position_index_list, amount_from_balance)) (by lax) (by members) (by simp) hb
      ⟨(fun x hx => (u64_le (h0 x hx))), (u128_le h1)⟩
  | withdraw_all => rfl
  | after_transfer_mpdao_callback voter_id amount h0 =>
    exact args_given (F := Args.after_transfer_mpdao_callback) (a := (voter_id, amount)) (by lax) (by members) (by simp) hb
      ⟨trivial, (u128_le h0)⟩
  | after_transfer_stnear_callback source amount h0 =>
    exact args_given (F := Args.after_transfer_stnear_callback) (a := (source, amount)) (by lax) (by members) (by simp) hb
      ⟨trivial, (u128_le h0)⟩
  | ft_on_transfer sender_id amount msg h0 h1 =>
    exact args_given (F := Args.ft_on_transfer) (a := (sender_id, amount, msg)) (by lax) (by members) (by simp) hb
      ⟨(account_iff.2 h0), (u128_le h1), trivial⟩
  | pre_delegate_evm_address evm_address signature =>
    exact args_given (F := Args.pre_delegate_evm_address) (a := (evm_address, signature)) (by lax) (by members) (by simp) hb
      ⟨trivial, trivial⟩
  | operator_remove_pre_delegate_evm_address evm_address =>
    exact args_given (F := Args.operator_remove_pre_delegate_evm_address) (a := evm_address) (by lax) (by members) (by simp) hb
      trivial
  | operator_confirm_delegated_evm_address evm_address =>
    exact args_given (F := Args.operator_confirm_delegated_evm_address) (a := evm_address) (by lax) (by members) (by simp) hb
      trivial
  | delegated_claim_stnear evm_address amount h0 =>
    exact args_given (F := Args.delegated_claim_stnear) (a := (evm_address, amount)) (by lax) (by members) (by simp) hb
      ⟨trivial, (u128_le h0)⟩
  | vote_delegated evm_address voting_power contract_address votable_object_id h0 =>
    exact args_given (F := Args.vote_delegated) (a := (evm_address, voting_power, contract_address, votable_object_id)) (by lax)
      (by members) (by simp) hb ⟨trivial, (u128_le h0), trivial, trivial⟩
  | unvote_delegated evm_address contract_address votable_object_id =>
    exact args_given (F := Args.unvote_delegated) (a := (evm_address, contract_address, votable_object_id)) (by lax) (by members)
      (by simp) hb ⟨trivial, trivial, trivial⟩
  | remove_delegated_evm_address evm_address =>
    exact args_given (F := Args.remove_delegated_evm_address) (a := evm_address) (by lax) (by members) (by simp) hb trivial

/-- C100: every input to meta-vote that is accepted is a call with the name and the argument types of its signature. -/
theorem C100_only {name : String} {k : Call} {i : Bytes} (h : Call.read name i = some k) : ∃ ms, Call.Signature name ms k := by
  unfold Call.read at h
  split at h
  · obtain ⟨⟨owner_id, operator_id, min_unbond_period, max_unbond_period, min_deposit_amount, max_locking_positions,
    max_voting_positions, mpdao_token_contract_address, stnear_token_contract_address, registration_cost,
    prev_governance_contract⟩, ha, rfl⟩ := argsOf_ok h; exact
    ⟨_, .new_ owner_id operator_id min_unbond_period max_unbond_period min_deposit_amount max_locking_positions
    max_voting_positions mpdao_token_contract_address stnear_token_contract_address registration_cost
    prev_governance_contract (account_iff.1 ha.1) (account_iff.1 ha.2.1) (u16_lt ha.2.2.1) (u16_lt ha.2.2.2.1)
    (u128_lt ha.2.2.2.2.1) (u8_lt ha.2.2.2.2.2.1) (u8_lt ha.2.2.2.2.2.2.1) (account_iff.1 ha.2.2.2.2.2.2.2.1)
    (account_iff.1 ha.2.2.2.2.2.2.2.2.1) (u128_lt ha.2.2.2.2.2.2.2.2.2.1)⟩
  · cases h; exact ⟨_, .migrate⟩
  · obtain ⟨stnear_contract, ha, rfl⟩ := argsOf_ok h; exact ⟨_, .set_stnear_contract stnear_contract (account_iff.1 ha)⟩
  · obtain ⟨operator_id, ha, rfl⟩ := argsOf_ok h; exact ⟨_, .set_operator_id operator_id (account_iff.1 ha)⟩
  · obtain ⟨owner_id, ha, rfl⟩ := argsOf_ok h; exact ⟨_, .set_owner_id owner_id (account_iff.1 ha)⟩
  · obtain ⟨new_cost, ha, rfl⟩ := argsOf_ok h; exact ⟨_, .update_registration_cost new_cost (u128_lt ha)⟩
  · obtain ⟨encrypted_data, ha, rfl⟩ := argsOf_ok h; exact ⟨_, .update_airdrop_user_data encrypted_data⟩
  · obtain ⟨data, ha, rfl⟩ := argsOf_ok h; exact ⟨_, .operator_multi_set_airdrop_data data⟩
  · obtain ⟨⟨amount, locking_period⟩, ha, rfl⟩ := argsOf_ok h; exact
    ⟨_, .claim_and_lock amount locking_period (u128_lt ha.1) (u16_lt ha.2)⟩
  · obtain ⟨amount, ha, rfl⟩ := argsOf_ok h; exact ⟨_, .claim_stnear amount (u128_lt ha)⟩
  · obtain ⟨index, ha, rfl⟩ := argsOf_ok h; exact ⟨_, .unlock_position index (u64_lt ha)⟩
  · obtain ⟨⟨index, amount⟩, ha, rfl⟩ := argsOf_ok h; exact
    ⟨_, .unlock_partial_position index amount (u64_lt ha.1) (u128_lt ha.2)⟩
  · obtain ⟨⟨index, new_locking_period⟩, ha, rfl⟩ := argsOf_ok h; exact
    ⟨_, .locking_position_extend_days index new_locking_period (u64_lt ha.1) (u16_lt ha.2)⟩
  · obtain ⟨⟨index, locking_period, amount_from_balance⟩, ha, rfl⟩ := argsOf_ok h; exact
    ⟨_, .relock_position index locking_period amount_from_balance (u64_lt ha.1) (u16_lt ha.2.1) (u128_lt ha.2.2)⟩
  · obtain ⟨⟨index, amount_from_position, locking_period, amount_from_balance⟩, ha, rfl⟩ := argsOf_ok h; exact
    ⟨_, .relock_partial_position index amount_from_position locking_period amount_from_balance (u64_lt ha.1) (u128_lt ha.2.1)
    (u16_lt ha.2.2.1) (u128_lt ha.2.2.2)⟩
  · obtain ⟨⟨locking_period, amount_from_balance⟩, ha, rfl⟩ := argsOf_ok h; exact
    ⟨_, .relock_from_balance locking_period amount_from_balance (u16_lt ha.1) (u128_lt ha.2)⟩
  · obtain ⟨position_index_list, ha, rfl⟩ := argsOf_ok h; exact
    ⟨_, .clear_locking_position position_index_list (fun x hx => (u64_lt (ha x hx)))⟩
  · obtain ⟨⟨voting_power, contract_address, votable_object_id⟩, ha, rfl⟩ := argsOf_ok h; exact
    ⟨_, .vote voting_power contract_address votable_object_id (u128_lt ha.1)⟩
  · obtain ⟨⟨voting_power, contract_address, votable_object_id⟩, ha, rfl⟩ := argsOf_ok h; exact
    ⟨_, .rebalance voting_power contract_address votable_object_id (u128_lt ha.1)⟩
  · obtain ⟨⟨contract_address, votable_object_id⟩, ha, rfl⟩ := argsOf_ok h; exact
    ⟨_, .unvote contract_address votable_object_id⟩
  · obtain ⟨⟨end_timestamp_ms, votable_numeric_id, votable_address⟩, ha, rfl⟩ := argsOf_ok h; exact
    ⟨_, .set_lock_in_vote_filters end_timestamp_ms votable_numeric_id votable_address (u64_lt ha.1) (u16_lt ha.2.1)⟩
  · obtain ⟨new_min_unbond_period, ha, rfl⟩ := argsOf_ok h; exact
    ⟨_, .update_min_unbond_period new_min_unbond_period (u16_lt ha)⟩
  · obtain ⟨new_max_unbond_period, ha, rfl⟩ := argsOf_ok h; exact
    ⟨_, .update_max_unbond_period new_max_unbond_period (u16_lt ha)⟩
  · obtain ⟨contract_id, ha, rfl⟩ := argsOf_ok h; exact ⟨_, .set_prev_gov_contract contract_id⟩
  · obtain ⟨⟨voter_id, locking_positions, encrypted_associated_user_data⟩, ha, rfl⟩ := argsOf_ok h; exact
    ⟨_, .migration_create_lps voter_id locking_positions encrypted_associated_user_data
    (fun x hx => ⟨(u128_lt (ha.2.1 x hx).1), (u16_lt (ha.2.1 x hx).2)⟩)⟩
  · obtain ⟨⟨external_address, locking_positions⟩, ha, rfl⟩ := argsOf_ok h; exact
    ⟨_, .operator_mirror_lps external_address locking_positions (fun x hx => ⟨(u16_lt (ha.2 x hx).1),
    (u128_lt (ha.2 x hx).2)⟩)⟩
  · obtain ⟨⟨position_index_list, amount_from_balance⟩, ha, rfl⟩ := argsOf_ok h; exact
    ⟨_, .withdraw position_index_list amount_from_balance (fun x hx => (u64_lt (ha.1 x hx))) (u128_lt ha.2)⟩
  · cases h; exact ⟨_, .withdraw_all⟩
  · obtain ⟨⟨voter_id, amount⟩, ha, rfl⟩ := argsOf_ok h; exact
    ⟨_, .after_transfer_mpdao_callback voter_id amount (u128_lt ha.2)⟩
  · obtain ⟨⟨source, amount⟩, ha, rfl⟩ := argsOf_ok h; exact ⟨_, .after_transfer_stnear_callback source amount (u128_lt ha.2)⟩
  · obtain ⟨⟨sender_id, amount, msg⟩, ha, rfl⟩ := argsOf_ok h; exact
    ⟨_, .ft_on_transfer sender_id amount msg (account_iff.1 ha.1) (u128_lt ha.2.1)⟩
  · obtain ⟨⟨evm_address, signature⟩, ha, rfl⟩ := argsOf_ok h; exact ⟨_, .pre_delegate_evm_address evm_address signature⟩
  · obtain ⟨evm_address, ha, rfl⟩ := argsOf_ok h; exact ⟨_, .operator_remove_pre_delegate_evm_address evm_address⟩
  · obtain ⟨evm_address, ha, rfl⟩ := argsOf_ok h; exact ⟨_, .operator_confirm_delegated_evm_address evm_address⟩
  · obtain ⟨⟨evm_address, amount⟩, ha, rfl⟩ := argsOf_ok h; exact
    ⟨_, .delegated_claim_stnear evm_address amount (u128_lt ha.2)⟩
  · obtain ⟨⟨evm_address, voting_power, contract_address, votable_object_id⟩, ha, rfl⟩ := argsOf_ok h; exact
    ⟨_, .vote_delegated evm_address voting_power contract_address votable_object_id (u128_lt ha.2.1)⟩
  · obtain ⟨⟨evm_address, contract_address, votable_object_id⟩, ha, rfl⟩ := argsOf_ok h; exact
    ⟨_, .unvote_delegated evm_address contract_address votable_object_id⟩
  · obtain ⟨evm_address, ha, rfl⟩ := argsOf_ok h; exact ⟨_, .remove_delegated_evm_address evm_address⟩
  · cases h

/-- C100: what the contracts themselves write for meta-vote has the name and the arguments of the signature. -/
theorem C100_written {name : String} {ms : List (String × Val)} {k : Call} (hs : Call.Signature name ms k) :
    k.write.1 = name ∧ Given k.write.2 ms := by
  cases hs with
  | new_ owner_id operator_id min_unbond_period max_unbond_period min_deposit_amount max_locking_positions
      max_voting_positions mpdao_token_contract_address stnear_token_contract_address registration_cost
      prev_governance_contract h0 h1 h2 h3 h4 h5 h6 h7 h8 h9 =>
    exact ⟨rfl, given_written (F := Args.new_) (h := by decide) (a := (owner_id, operator_id, min_unbond_period,
      max_unbond_period, min_deposit_amount, max_locking_positions, max_voting_positions, mpdao_token_contract_address,
      stnear_token_contract_address, registration_cost, prev_governance_contract)) (by members)
      ⟨(account_iff.2 h0), (account_iff.2 h1), (u16_le h2), (u16_le h3), (u128_le h4), (u8_le h5), (u8_le h6),
      (account_iff.2 h7), (account_iff.2 h8), (u128_le h9), trivial⟩ (by decide)⟩
  | migrate => exact ⟨rfl, .inl rfl⟩
  | set_stnear_contract stnear_contract h0 =>
    exact ⟨rfl, given_written (F := Args.set_stnear_contract) (h := by decide) (a := stnear_contract) (by members)
      (account_iff.2 h0) (by decide)⟩
  | set_operator_id operator_id h0 =>
    exact ⟨rfl, given_written (F := Args.set_operator_id) (h := by decide) (a := operator_id) (by members) (account_iff.2 h0)
      (by decide)⟩
  | set_owner_id owner_id h0 =>
    exact ⟨rfl, given_written (F := Args.set_owner_id) (h := by decide) (a := owner_id) (by members) (account_iff.2 h0)
      (by decide)⟩
  | update_registration_cost new_cost h0 =>
    exact ⟨rfl, given_written (F := Args.update_registration_cost) (h := by decide) (a := new_cost) (by members) (u128_le h0)
      (by decide)⟩
  | update_airdrop_user_data encrypted_data =>
    exact ⟨rfl, given_written (F := Args.update_airdrop_user_data) (h := by decide) (a := encrypted_data) (by members) trivial
      (by decide)⟩
  | operator_multi_set_airdrop_data data =>
    exact ⟨rfl, given_written (F := Args.operator_multi_set_airdrop_data) (h := by decide) (a := data) (by members)
      (fun _ _ => ⟨trivial, trivial⟩) (by decide)⟩
  | claim_and_lock amount locking_period h0 h1 =>
    exact ⟨rfl, given_written (F := Args.claim_and_lock) (h := by decide) (a := (amount, locking_period)) (by members)
      ⟨(u128_le h0), (u16_le h1)⟩ (by decide)⟩
  | claim_stnear amount h0 =>
    exact ⟨rfl, given_written (F := Args.claim_stnear) (h := by decide) (a := amount) (by members) (u128_le h0) (by decide)⟩
  | unlock_position index h0 =>
    exact ⟨rfl, given_written (F := Args.unlock_position) (h := by decide) (a := index) (by members) (u64_le h0) (by decide)⟩
  | unlock_partial_position index amount h0 h1 =>
    exact ⟨rfl, given_written (F := Args.unlock_partial_position) (h := by decide) (a := (index, amount)) (by members)
      ⟨(u64_le h0), (u128_le h1)⟩ (by decide)⟩
  | locking_position_extend_days index new_locking_period h0 h1 =>
    exact ⟨rfl, given_written (F := Args.locking_position_extend_days) (h := by decide) (a := (index, new_locking_period))
      (by members) ⟨(u64_le h0), (u16_le h1)⟩ (by decide)⟩
  | relock_position index locking_period amount_from_balance h0 h1 h2 =>
    exact ⟨rfl, given_written (F := Args.relock_position) (h := by decide) (a := (index, locking_period, amount_from_balance))
      (by members) ⟨(u64_le h0), (u16_le h1), (u128_le h2)⟩ (by decide)⟩
  | relock_partial_position index amount_from_position locking_period amount_from_balance h0 h1 h2 h3 =>
    exact ⟨rfl, given_written (F := Args.relock_partial_position) (h := by decide) (a := (index, amount_from_position,
      locking_period, amount_from_balance)) (by members) ⟨(u64_le h0), (u128_le h1), (u16_le h2), (u128_le h3)⟩ (by decide)⟩
  | relock_from_balance locking_period amount_from_balance h0 h1 =>
    exact ⟨rfl, given_written (F := Args.relock_from_balance) (h := by decide) (a := (locking_period, amount_from_balance))
      (by members) ⟨(u16_le h0), (u128_le h1)⟩ (by decide)⟩
  | clear_locking_position position_index_list h0 =>
    exact ⟨rfl, given_written (F := Args.clear_locking_position) (h := by decide) (a := position_index_list) (by members)
      (fun x hx => (u64_le (h0 x hx))) (by decide)⟩
  | vote voting_power contract_address votable_object_id h0 =>
    exact ⟨rfl, given_written (F := Args.vote) (h := by decide) (a := (voting_power, contract_address, votable_object_id))
      (by members) ⟨(u128_le h0), trivial, trivial⟩ (by decide)⟩
  | rebalance voting_power contract_address votable_object_id h0 =>
    exact ⟨rfl, given_written (F := Args.rebalance) (h := by decide) (a := (voting_power, contract_address, votable_object_id))
      (by members) ⟨(u128_le h0), trivial, trivial⟩ (by decide)⟩
  | unvote contract_address votable_object_id =>
    exact ⟨rfl, given_written (F := Args.unvote) (h := by decide) (a := (contract_address, votable_object_id)) (by members)
      ⟨trivial, trivial⟩ (by decide)⟩
  | set_lock_in_vote_filters end_timestamp_ms votable_numeric_id votable_address h0 h1 =>
    exact ⟨rfl, given_written (F := Args.set_lock_in_vote_filters) (h := by decide) (a := (end_timestamp_ms, votable_numeric_id,
      votable_address)) (by members) ⟨(u64_le h0), (u16_le h1), (fun _ _ => trivial)⟩ (by decide)⟩
  | update_min_unbond_period new_min_unbond_period h0 =>
    exact ⟨rfl, given_written (F := Args.update_min_unbond_period) (h := by decide) (a := new_min_unbond_period) (by members)
      (u16_le h0) (by decide)⟩
  | update_max_unbond_period new_max_unbond_period h0 =>
    exact ⟨rfl, given_written (F := Args.update_max_unbond_period) (h := by decide) (a := new_max_unbond_period) (by members)
      (u16_le h0) (by decide)⟩
  | set_prev_gov_contract contract_id =>
    exact ⟨rfl, given_written (F := Args.set_prev_gov_contract) (h := by decide) (a := contract_id) (by members) trivial
      (by decide)⟩
  | migration_create_lps voter_id locking_positions encrypted_associated_user_data h0 =>
    exact ⟨rfl, given_written (F := Args.migration_create_lps) (h := by decide) (a := (voter_id, locking_positions,
      encrypted_associated_user_data)) (by members) ⟨trivial, (fun x hx => ⟨(u128_le (h0 x hx).1), (u16_le (h0 x hx).2)⟩),
      (fun _ _ => trivial)⟩ (by decide)⟩
  | operator_mirror_lps external_address locking_positions h0 =>
    exact ⟨rfl, given_written (F := Args.operator_mirror_lps) (h := by decide) (a := (external_address, locking_positions))
      (by members) ⟨trivial, (fun x hx => ⟨(u16_le (h0 x hx).1), (u128_le (h0 x hx).2)⟩)⟩ (by decide)⟩
  | withdraw position_index_list amount_from_balance h0 h1 =>
    exact ⟨rfl, given_written (F := Args.withdraw) (h := by decide) (a := (position_index_list, amount_from_balance))
      (by members) ⟨(fun x hx => (u64_le (h0 x hx))), (u128_le h1)⟩ (by decide)⟩
  | withdraw_all => exact ⟨rfl, .inl rfl⟩
  | after_transfer_mpdao_callback voter_id amount h0 =>
    exact ⟨rfl, given_written (F := Args.after_transfer_mpdao_callback) (h := by decide) (a := (voter_id, amount)) (by members)
      ⟨trivial, (u128_le h0)⟩ (by decide)⟩
  | after_transfer_stnear_callback source amount h0 =>
    exact ⟨rfl, given_written (F := Args.after_transfer_stnear_callback) (h := by decide) (a := (source, amount)) (by members)
      ⟨trivial, (u128_le h0)⟩ (by decide)⟩
  | ft_on_transfer sender_id amount msg h0 h1 =>
    exact ⟨rfl, msg_written ▸ given_written (F := Args.ft_on_transfer) (h := by decide) (a := (sender_id, amount, msg))
      (by members) ⟨(account_iff.2 h0), (u128_le h1), trivial⟩ (by decide)⟩
  | pre_delegate_evm_address evm_address signature =>
    exact ⟨rfl, given_written (F := Args.pre_delegate_evm_address) (h := by decide) (a := (evm_address, signature)) (by members)
      ⟨trivial, trivial⟩ (by decide)⟩
  | operator_remove_pre_delegate_evm_address evm_address =>
    exact ⟨rfl, given_written (F := Args.operator_remove_pre_delegate_evm_address) (h := by decide) (a := evm_address)
      (by members) trivial (by decide)⟩
  | operator_confirm_delegated_evm_address evm_address =>
    exact ⟨rfl, given_written (F := Args.operator_confirm_delegated_evm_address) (h := by decide) (a := evm_address) (by members)
      trivial (by decide)⟩
  | delegated_claim_stnear evm_address amount h0 =>
    exact ⟨rfl, given_written (F := Args.delegated_claim_stnear) (h := by decide) (a := (evm_address, amount)) (by members)
      ⟨trivial, (u128_le h0)⟩ (by decide)⟩
  | vote_delegated evm_address voting_power contract_address votable_object_id h0 =>
    exact ⟨rfl, given_written (F := Args.vote_delegated) (h := by decide) (a := (evm_address, voting_power, contract_address,
      votable_object_id)) (by members) ⟨trivial, (u128_le h0), trivial, trivial⟩ (by decide)⟩
  | unvote_delegated evm_address contract_address votable_object_id =>
    exact ⟨rfl, given_written (F := Args.unvote_delegated) (h := by decide) (a := (evm_address, contract_address,
      votable_object_id)) (by members) ⟨trivial, trivial, trivial⟩ (by decide)⟩
  | remove_delegated_evm_address evm_address =>
    exact ⟨rfl, given_written (F := Args.remove_delegated_evm_address) (h := by decide) (a := evm_address) (by members) trivial
      (by decide)⟩

/-- C100: a question to meta-vote with the arguments of the signature of a view is read as that question. -/
theorem C100_asked {name : String} {ms : List (String × Val)} {v : View} {i : Bytes} (hs : View.Signature name ms v)
    (hb : Given i ms) : View.read name i = some v := by
  cases hs with
  | get_owner_id => rfl
  | get_operator_id => rfl
  | get_contract_info => rfl
  | get_voters_count => rfl
  | get_total_voting_power => rfl
  | get_voter_info voter_id =>
    exact args_given (a := voter_id) (by lax) (by members) (by simp) hb trivial
  | get_voters from_index limit h0 h1 =>
    exact args_given (a := (from_index, limit)) (by lax) (by members) (by simp) hb ⟨(u32_le h0), (u32_le h1)⟩
  | get_balance voter_id =>
    exact args_given (a := voter_id) (by lax) (by members) (by simp) hb trivial
  | get_claimable_mpdao voter_id =>
    exact args_given (a := voter_id) (by lax) (by members) (by simp) hb trivial
  | get_claimable_meta voter_id =>
    exact args_given (a := voter_id) (by lax) (by members) (by simp) hb trivial
  | get_claimable_stnear voter_id =>
    exact args_given (a := voter_id) (by lax) (by members) (by simp) hb trivial
  | get_stnear_claims from_index limit h0 h1 =>
    exact args_given (a := (from_index, limit)) (by lax) (by members) (by simp) hb ⟨(u32_le h0), (u32_le h1)⟩
  | get_claims from_index limit h0 h1 =>
    exact args_given (a := (from_index, limit)) (by lax) (by members) (by simp) hb ⟨(u32_le h0), (u32_le h1)⟩
  | get_locked_balance voter_id =>
    exact args_given (a := voter_id) (by lax) (by members) (by simp) hb trivial
  | get_unlocking_balance voter_id =>
    exact args_given (a := voter_id) (by lax) (by members) (by simp) hb trivial
  | get_available_voting_power voter_id =>
    exact args_given (a := voter_id) (by lax) (by members) (by simp) hb trivial
  | get_used_voting_power voter_id =>
    exact args_given (a := voter_id) (by lax) (by members) (by simp) hb trivial
  | get_locking_period => rfl
  | get_all_locking_positions voter_id =>
    exact args_given (a := voter_id) (by lax) (by members) (by simp) hb trivial
  | get_locking_position index voter_id h0 =>
    exact args_given (a := (index, voter_id)) (by lax) (by members) (by simp) hb ⟨(u64_le h0), trivial⟩
  | get_total_votes contract_address votable_object_id =>
    exact args_given (a := (contract_address, votable_object_id)) (by lax) (by members) (by simp) hb ⟨trivial, trivial⟩
  | get_votes_by_app app_or_contract_address =>
    exact args_given (a := app_or_contract_address) (by lax) (by members) (by simp) hb trivial
  | get_votes_by_contract contract_address =>
    exact args_given (a := contract_address) (by lax) (by members) (by simp) hb trivial
  | get_votes_by_voter voter_id =>
    exact args_given (a := voter_id) (by lax) (by members) (by simp) hb trivial
  | get_votes_for_object voter_id contract_address votable_object_id =>
    exact args_given (a := (voter_id, contract_address, votable_object_id)) (by lax) (by members) (by simp) hb
      ⟨trivial, trivial, trivial⟩
  | get_total_unclaimed_mpdao => rfl
  | get_total_unclaimed_meta => rfl
  | get_accumulated_mpdao_distributed_for_claims => rfl
  | get_accumulated_distributed_for_claims => rfl
  | get_registration_cost => rfl
  | check_if_registered_for_airdrops account_id =>
    exact args_given (a := account_id) (by lax) (by members) (by simp) hb trivial
  | check_if_user_is_registerd account_id =>
    exact args_given (a := account_id) (by lax) (by members) (by simp) hb trivial
  | get_airdrop_account account_id =>
    exact args_given (a := account_id) (by lax) (by members) (by simp) hb trivial
  | get_airdrop_accounts from_index limit h0 h1 =>
    exact args_given (a := (from_index, limit)) (by lax) (by members) (by simp) hb ⟨(u32_le h0), (u32_le h1)⟩
  | get_lock_in_vote_filters => rfl
  | get_pre_delegate_evm_address evm_address =>
    exact args_given (a := evm_address) (by lax) (by members) (by simp) hb trivial
  | get_delegating_evm_addresses account_id h0 =>
    exact args_given (a := account_id) (by lax) (by members) (by simp) hb (account_iff.2 h0)
  | get_delegates from_index limit h0 h1 =>
    exact args_given (a := (from_index, limit)) (by lax) (by members) (by simp) hb ⟨(u32_le h0), (u32_le h1)⟩
  | get_delegate evm_address =>
    exact args_given (a := evm_address) (by lax) (by members) (by simp) hb trivial
  | get_delegation_signature evm_address =>
    exact args_given (a := evm_address) (by lax) (by members) (by simp) hb trivial

/-- C100: every question to meta-vote that is accepted has the name and the argument types of its signature. -/
theorem C100_questions {name : String} {v : View} {i : Bytes} (h : View.read name i = some v) :
    ∃ ms, View.Signature name ms v := by
  unfold View.read at h
  split at h
  · cases h; exact ⟨_, .get_owner_id⟩
  · cases h; exact ⟨_, .get_operator_id⟩
  · cases h; exact ⟨_, .get_contract_info⟩
  · cases h; exact ⟨_, .get_voters_count⟩
  · cases h; exact ⟨_, .get_total_voting_power⟩
  · obtain ⟨voter_id, ha, rfl⟩ := argsOf_ok h; exact ⟨_, .get_voter_info voter_id⟩
  · obtain ⟨⟨from_index, limit⟩, ha, rfl⟩ := argsOf_ok h; exact ⟨_, .get_voters from_index limit (u32_lt ha.1) (u32_lt ha.2)⟩
  · obtain ⟨voter_id, ha, rfl⟩ := argsOf_ok h; exact ⟨_, .get_balance voter_id⟩
  · obtain ⟨voter_id, ha, rfl⟩ := argsOf_ok h; exact ⟨_, .get_claimable_mpdao voter_id⟩
  · obtain ⟨voter_id, ha, rfl⟩ := argsOf_ok h; exact ⟨_, .get_claimable_meta voter_id⟩
  · obtain ⟨voter_id, ha, rfl⟩ := argsOf_ok h; exact ⟨_, .get_claimable_stnear voter_id⟩
  · obtain ⟨⟨from_index, limit⟩, ha, rfl⟩ := argsOf_ok h; exact
    ⟨_, .get_stnear_claims from_index limit (u32_lt ha.1) (u32_lt ha.2)⟩
  · obtain ⟨⟨from_index, limit⟩, ha, rfl⟩ := argsOf_ok h; exact ⟨_, .get_claims from_index limit (u32_lt ha.1) (u32_lt ha.2)⟩
  · obtain ⟨voter_id, ha, rfl⟩ := argsOf_ok h; exact ⟨_, .get_locked_balance voter_id⟩
  · obtain ⟨voter_id, ha, rfl⟩ := argsOf_ok h; exact ⟨_, .get_unlocking_balance voter_id⟩
  · obtain ⟨voter_id, ha, rfl⟩ := argsOf_ok h; exact ⟨_, .get_available_voting_power voter_id⟩
  · obtain ⟨voter_id, ha, rfl⟩ := argsOf_ok h; exact ⟨_, .get_used_voting_power voter_id⟩
  · cases h; exact ⟨_, .get_locking_period⟩
  · obtain ⟨voter_id, ha, rfl⟩ := argsOf_ok h; exact ⟨_, .get_all_locking_positions voter_id⟩
  · obtain ⟨⟨index, voter_id⟩, ha, rfl⟩ := argsOf_ok h; exact ⟨_, .get_locking_position index voter_id (u64_lt ha.1)⟩
  · obtain ⟨⟨contract_address, votable_object_id⟩, ha, rfl⟩ := argsOf_ok h; exact
    ⟨_, .get_total_votes contract_address votable_object_id⟩
  · obtain ⟨app_or_contract_address, ha, rfl⟩ := argsOf_ok h; exact ⟨_, .get_votes_by_app app_or_contract_address⟩
  · obtain ⟨contract_address, ha, rfl⟩ := argsOf_ok h; exact ⟨_, .get_votes_by_contract contract_address⟩
  · obtain ⟨voter_id, ha, rfl⟩ := argsOf_ok h; exact ⟨_, .get_votes_by_voter voter_id⟩
  · obtain ⟨⟨voter_id, contract_address, votable_object_id⟩, ha, rfl⟩ := argsOf_ok h; exact
    ⟨_, .get_votes_for_object voter_id contract_address votable_object_id⟩
  · cases h; exact ⟨_, .get_total_unclaimed_mpdao⟩
  · cases h; exact ⟨_, .get_total_unclaimed_meta⟩
  · cases h; exact ⟨_, .get_accumulated_mpdao_distributed_for_claims⟩
  · cases h; exact ⟨_, .get_accumulated_distributed_for_claims⟩
  · cases h; exact ⟨_, .get_registration_cost⟩
  · obtain ⟨account_id, ha, rfl⟩ := argsOf_ok h; exact ⟨_, .check_if_registered_for_airdrops account_id⟩
  · obtain ⟨account_id, ha, rfl⟩ := argsOf_ok h; exact ⟨_, .check_if_user_is_registerd account_id⟩
  · obtain ⟨account_id, ha, rfl⟩ := argsOf_ok h; exact ⟨_, .get_airdrop_account account_id⟩
  · obtain ⟨⟨from_index, limit⟩, ha, rfl⟩ := argsOf_ok h; exact
    ⟨_, .get_airdrop_accounts from_index limit (u32_lt ha.1) (u32_lt ha.2)⟩
  · cases h; exact ⟨_, .get_lock_in_vote_filters⟩
  · obtain ⟨evm_address, ha, rfl⟩ := argsOf_ok h; exact ⟨_, .get_pre_delegate_evm_address evm_address⟩
  · obtain ⟨account_id, ha, rfl⟩ := argsOf_ok h; exact ⟨_, .get_delegating_evm_addresses account_id (account_iff.1 ha)⟩
  · obtain ⟨⟨from_index, limit⟩, ha, rfl⟩ := argsOf_ok h; exact
    ⟨_, .get_delegates from_index limit (u32_lt ha.1) (u32_lt ha.2)⟩
  · obtain ⟨evm_address, ha, rfl⟩ := argsOf_ok h; exact ⟨_, .get_delegate evm_address⟩
  · obtain ⟨evm_address, ha, rfl⟩ := argsOf_ok h; exact ⟨_, .get_delegation_signature evm_address⟩
  · cases h

/-- C100: in every execution, the answer to a question with the arguments of the signature is the JSON value of the type that the view
returns, for the value of the view. -/
theorem C100_answer {J : Json} {me : AccountId} {w : World} (h : Reach J me w) (hc : w.st.Counted) (now : Nat) {name : String}
    {ms : List (String × Val)} {v : View} {i : Bytes} (hs : View.Signature name ms v) (hb : Given i ms) :
    (∃ e, w.st.view now v = .error e ∧ viewAll w.st now name i = .error e) ∨
      ∃ r out, w.st.view now v = .ok r ∧ viewAll w.st now name i = .ok out ∧ IsJson out (v.answer r) := by
  have e0 : viewAll w.st now name i = (w.st.view now v >>= fun r => pure (v.ty.encode r)) := by
    unfold viewAll
    rw [C100_asked hs hb]
    rfl
  rw [e0]
  cases hr : w.st.view now v with
  | error e => exact .inl ⟨e, rfl, rfl⟩
  | ok r => exact .inr ⟨r, _, rfl, rfl, View.parse_answer (view_ok h hc hr)⟩

/-- C100: the payments that the contract asks a token for, as sent. -/
theorem C100_payment {J : Json} {me : AccountId} {w : World} (h : Reach J me w) {t : Transfer} (ht : t ∈ w.pending) :
    t.write.1 = "ft_transfer" ∧
      IsJson t.write.2 (.obj [("receiver_id", text t.receiver), ("amount", quoted t.amount), ("memo", .null)]) := by
  have hle := (pending_faithful h t ht).1
  refine ⟨rfl, ?_⟩
  rw [quoted_eq]
  refine parse_iff.1 (parse_render ?_)
  exact (((struct (Fields.one "receiver_id" str ⊗ Fields.one "amount" u128 ⊗
    Fields.opt "memo" str (fun _ => by simp [str]))).good (t.receiver, t.amount, none)
      ⟨trivial, hle, fun x hx => by cases hx⟩).mono (by decide))

/-- C100: the messages of a transfer: any JSON text of a list of claims, and of an account with a number of days. -/
theorem C100_messages {b : Bytes} : (∀ l : List (String × Nat), (∀ x ∈ l, x.2 < 2 ^ 64) →
      IsJson b (array (two text Interface.number) l) → (list (pair str u64)).decode b = some l) ∧
    ∀ p : String × Nat, p.2 < 2 ^ 16 → IsJson b (two text Interface.number p) → (pair str u16).decode b = some p := by
  constructor
  · intro l hl hb
    unfold Ty.decode
    rw [parse_iff.2 hb, Option.bind_some, number_eq]
    exact (list (pair str u64)).law l fun x hx => ⟨trivial, u64_le (hl x hx)⟩
  · intro p hp hb
    unfold Ty.decode
    rw [parse_iff.2 hb, Option.bind_some, number_eq]
    exact (pair str u16).law p ⟨trivial, u16_le hp⟩

/-- An input with the arguments of a signature, in another order and with something else, and the same with `null` left out. -/
example : Given (ascii "{\"contract_address\": \"app\", \"x\": [1], \"voting_power\": \"7\", \"votable_object_id\": \"o\"}")
    [("voting_power", quoted 7), ("contract_address", text "app"), ("votable_object_id", text "o")] ∧
    Call.Signature "vote" [("voting_power", quoted 7), ("contract_address", text "app"), ("votable_object_id", text "o")]
      (.vote 7 "app" "o") ∧
    Given (ascii "{\"votable_numeric_id\":5,\"end_timestamp_ms\":99}")
      [("end_timestamp_ms", Interface.number 99), ("votable_numeric_id", Interface.number 5), ("votable_address", .null)] :=
  ⟨.inr ⟨[("contract_address", text "app"), ("x", .arr [.num [0x31]]), ("voting_power", quoted 7), ("votable_object_id", text "o")],
      [("voting_power", quoted 7), ("contract_address", text "app"), ("votable_object_id", text "o")], [("x", .arr [.num [0x31]])],
      parse_iff.1 (by decide +kernel), by decide +kernel, .refl _, fun m hm => .inl hm, by decide +kernel⟩,
    .vote _ _ _ (by decide),
    .inr ⟨[("votable_numeric_id", Interface.number 5), ("end_timestamp_ms", Interface.number 99)],
      [("end_timestamp_ms", Interface.number 99), ("votable_numeric_id", Interface.number 5)], [], parse_iff.1 (by decide +kernel), by decide +kernel,
      by decide +kernel, by decide +kernel, by decide +kernel⟩⟩

/-- The hypotheses of the answers are met in a history of JSON calls. -/
example : Reach serde "me" paidWorld ∧ paidWorld.st.Counted ∧
    View.Signature "get_claimable_mpdao" [("voter_id", text "Bob")] (.get_claimable_mpdao "Bob") ∧
    viewAll paidWorld.st 0 "get_claimable_mpdao" (ascii "{\"voter_id\": \"Bob\"}") = .ok (ascii "\"7000000\"") ∧
    IsJson (ascii "\"7000000\"") (View.answer (.get_claimable_mpdao "Bob") (7000000 : Nat)) :=
  ⟨C96_reach (stuckWorld_reach.steps paidWorld_steps), ⟨by decide +kernel, by decide +kernel⟩, .get_claimable_mpdao _, by decide +kernel,
    parse_iff.1 (by decide +kernel)⟩


end Verif.MetaVote

namespace Verif.Mpip

open Verif Storage Serde Interface JsonText

theorem voteType_eq : voteTypeName = voteType.write := by funext p; cases p <;> rfl

theorem state_eq : mpipStateName = mpipState.write := by funext p; cases p <;> rfl

theorem vote_eq : voteJson = voteTy.write := by
  funext p; simp only [voteJson, number_eq, quoted_eq, voteType_eq]; rfl

theorem voter_eq : voterJson = voterTy.write := by
  funext p; simp only [voterJson, vote_eq]; rfl

theorem proposalVote_eq : proposalVoteJson = proposalVoteTy.write := by
  funext p; simp only [proposalVoteJson, quoted_eq, vote_eq]; rfl

theorem proposal_eq : mpipJSON = proposalTy.write := by
  funext p; simp only [mpipJSON, number_eq, quoted_eq]; rfl

/-- What the views write. -/
theorem View.write_answer : (v : View) → (r : v.Out) → v.ty.write r = v.answer r := by
  intro v r
  cases v
  all_goals
    simp only [View.answer]
    (try simp only [number_eq, quoted_eq, state_eq, vote_eq, voter_eq, proposalVote_eq, proposal_eq])
    rfl

theorem View.parse_answer {v : View} {r : v.Out} (h : v.ty.ok r) : IsJson (v.ty.encode r) (v.answer r) := by
  rw [← View.write_answer]
  refine parse_iff.1 (parse_render ?_)
  exact ((v.ty.good r h).mono (Nat.add_le_add_right v.depth 1))

/-- C100: an input to mpip with the arguments of the signature of a method is read as that call. -/
theorem C100_call {name : String} {ms : List (String × Val)} {k : Call} {i : Bytes} (hs : Call.Signature name ms k)
    (hb : Given i ms) : Call.read name i = some k := by
  cases hs with
  | new_ admin_id operator_id meta_token_contract_address meta_vote_contract_address voting_period min_voting_power_amount
      mpip_storage_near quorum_floor h0 h1 h2 h3 h4 h5 h6 h7 =>
    exact args_given (F := Args.new_) (a := (admin_id, operator_id, meta_token_contract_address, meta_vote_contract_address,
      voting_period, min_voting_power_amount, mpip_storage_near, quorum_floor)) (by lax) (by members) (by simp) hb
      ⟨(account_iff.2 h0), (account_iff.2 h1), (account_iff.2 h2), (account_iff.2 h3), (u64_le h4), (u128_le h5),
      (u128_le h6), (u16_le h7)⟩
  | update_open_for_new_mpips new_value =>
    exact args_given (F := Args.update_open_for_new_mpips) (a := new_value) (by lax) (by members) (by simp) hb trivial
  | update_operator_role new_value h0 =>
    exact args_given (F := Args.update_operator_role) (a := new_value) (by lax) (by members) (by simp) hb (account_iff.2 h0)
  | update_admin_role new_value h0 =>
    exact args_given (F := Args.update_admin_role) (a := new_value) (by lax) (by members) (by simp) hb (account_iff.2 h0)
  | pay_to_account amount to_ h0 h1 =>
    exact args_given (F := Args.pay_to_account) (a := (amount, to_)) (by lax) (by members) (by simp) hb
      ⟨(u128_le h0), (account_iff.2 h1)⟩
  | update_voting_period new_value h0 =>
    exact args_given (F := Args.update_voting_period) (a := new_value) (by lax) (by members) (by simp) hb (u64_le h0)
  | update_min_meta_amount new_value h0 =>
    exact args_given (F := Args.update_min_meta_amount) (a := new_value) (by lax) (by members) (by simp) hb (u128_le h0)
  | update_min_voting_power_amount new_value h0 =>
    exact args_given (F := Args.update_min_voting_power_amount) (a := new_value) (by lax) (by members) (by simp) hb (u128_le h0)
  | update_mpip_storage_near new_value h0 =>
    exact args_given (F := Args.update_mpip_storage_near) (a := new_value) (by lax) (by members) (by simp) hb (u128_le h0)
  | update_quorum_floor new_value h0 =>
    exact args_given (F := Args.update_quorum_floor) (a := new_value) (by lax) (by members) (by simp) hb (u16_le h0)
  | start_voting_period mpip_id h0 =>
    exact args_given (F := Args.start_voting_period) (a := mpip_id) (by lax) (by members) (by simp) hb (u32_le h0)
  | start_voting_period_callback mpip_id h0 =>
    exact args_given (F := Args.start_voting_period_callback) (a := mpip_id) (by lax) (by members) (by simp) hb (u32_le h0)
  | create_proposal title short_description body data extra =>
    exact args_given (F := Args.create_proposal) (a := (title, short_description, body, data, extra)) (by lax) (by members)
      (by simp) hb ⟨trivial, trivial, trivial, trivial, trivial⟩
  | create_proposal_callback title short_description body data extra =>
    exact args_given (F := Args.create_proposal_callback) (a := (title, short_description, body, data, extra)) (by lax)
      (by members) (by simp) hb ⟨trivial, trivial, trivial, trivial, trivial⟩
  | cancel_proposal mpip_id h0 =>
    exact args_given (F := Args.cancel_proposal) (a := mpip_id) (by lax) (by members) (by simp) hb (u32_le h0)
  | update_proposal mpip_id title short_description body data extra h0 =>
    exact args_given (F := Args.update_proposal) (a := (mpip_id, title, short_description, body, data, extra)) (by lax)
      (by members) (by simp) hb ⟨(u32_le h0), trivial, trivial, trivial, trivial, trivial⟩
  | update_meta_vote_contract_address new_meta_vote_contract_address h0 =>
    exact args_given (F := Args.update_meta_vote_contract_address) (a := new_meta_vote_contract_address) (by lax) (by members)
      (by simp) hb (account_iff.2 h0)
  | vote_proposal mpip_id vote memo h0 =>
    exact args_given (F := Args.vote_proposal) (a := (mpip_id, vote, memo)) (by lax) (by cases vote <;> members) (by simp) hb
      ⟨(u32_le h0), trivial, trivial⟩
  | vote_proposal_callback mpip_id voter_id vote_type memo h0 h1 =>
    exact args_given (F := Args.vote_proposal_callback) (a := (mpip_id, voter_id, vote_type, memo)) (by lax)
      (by cases vote_type <;> members) (by simp) hb ⟨(u32_le h0), (account_iff.2 h1), trivial, trivial⟩
  | remove_vote_proposal mpip_id h0 =>
    exact args_given (F := Args.remove_vote_proposal) (a := mpip_id) (by lax) (by members) (by simp) hb (u32_le h0)
  | process_voting_status mpip_id h0 =>
    exact args_given (F := Args.process_voting_status) (a := mpip_id) (by lax) (by members) (by simp) hb (u32_le h0)

/-- C100: every input to mpip that is accepted is a call with the name and the argument types of its signature. -/
theorem C100_only {name : String} {k : Call} {i : Bytes} (h : Call.read name i = some k) : ∃ ms, Call.Signature name ms k := by
  unfold Call.read at h
  split at h
  · obtain ⟨⟨admin_id, operator_id, meta_token_contract_address, meta_vote_contract_address, voting_period,
    min_voting_power_amount, mpip_storage_near, quorum_floor⟩, ha, rfl⟩ := argsOf_ok h; exact
    ⟨_, .new_ admin_id operator_id meta_token_contract_address meta_vote_contract_address voting_period
    min_voting_power_amount mpip_storage_near quorum_floor (account_iff.1 ha.1) (account_iff.1 ha.2.1)
    (account_iff.1 ha.2.2.1) (account_iff.1 ha.2.2.2.1) (u64_lt ha.2.2.2.2.1) (u128_lt ha.2.2.2.2.2.1)
    (u128_lt ha.2.2.2.2.2.2.1) (u16_lt ha.2.2.2.2.2.2.2)⟩
  · obtain ⟨new_value, ha, rfl⟩ := argsOf_ok h; exact ⟨_, .update_open_for_new_mpips new_value⟩
  · obtain ⟨new_value, ha, rfl⟩ := argsOf_ok h; exact ⟨_, .update_operator_role new_value (account_iff.1 ha)⟩
  · obtain ⟨new_value, ha, rfl⟩ := argsOf_ok h; exact ⟨_, .update_admin_role new_value (account_iff.1 ha)⟩
  · obtain ⟨⟨amount, to_⟩, ha, rfl⟩ := argsOf_ok h; exact ⟨_, .pay_to_account amount to_ (u128_lt ha.1) (account_iff.1 ha.2)⟩
  · obtain ⟨new_value, ha, rfl⟩ := argsOf_ok h; exact ⟨_, .update_voting_period new_value (u64_lt ha)⟩
  · obtain ⟨new_value, ha, rfl⟩ := argsOf_ok h; exact ⟨_, .update_min_meta_amount new_value (u128_lt ha)⟩
  · obtain ⟨new_value, ha, rfl⟩ := argsOf_ok h; exact ⟨_, .update_min_voting_power_amount new_value (u128_lt ha)⟩
  · obtain ⟨new_value, ha, rfl⟩ := argsOf_ok h; exact ⟨_, .update_mpip_storage_near new_value (u128_lt ha)⟩
  · obtain ⟨new_value, ha, rfl⟩ := argsOf_ok h; exact ⟨_, .update_quorum_floor new_value (u16_lt ha)⟩
  · obtain ⟨mpip_id, ha, rfl⟩ := argsOf_ok h; exact ⟨_, .start_voting_period mpip_id (u32_lt ha)⟩
  · obtain ⟨mpip_id, ha, rfl⟩ := argsOf_ok h; exact ⟨_, .start_voting_period_callback mpip_id (u32_lt ha)⟩
  · obtain ⟨⟨title, short_description, body, data, extra⟩, ha, rfl⟩ := argsOf_ok h; exact
    ⟨_, .create_proposal title short_description body data extra⟩
  · obtain ⟨⟨title, short_description, body, data, extra⟩, ha, rfl⟩ := argsOf_ok h; exact
    ⟨_, .create_proposal_callback title short_description body data extra⟩
  · obtain ⟨mpip_id, ha, rfl⟩ := argsOf_ok h; exact ⟨_, .cancel_proposal mpip_id (u32_lt ha)⟩
  · obtain ⟨⟨mpip_id, title, short_description, body, data, extra⟩, ha, rfl⟩ := argsOf_ok h; exact
    ⟨_, .update_proposal mpip_id title short_description body data extra (u32_lt ha.1)⟩
  · obtain ⟨new_meta_vote_contract_address, ha, rfl⟩ := argsOf_ok h; exact
    ⟨_, .update_meta_vote_contract_address new_meta_vote_contract_address (account_iff.1 ha)⟩
  · obtain ⟨⟨mpip_id, vote, memo⟩, ha, rfl⟩ := argsOf_ok h; exact ⟨_, .vote_proposal mpip_id vote memo (u32_lt ha.1)⟩
  · obtain ⟨⟨mpip_id, voter_id, vote_type, memo⟩, ha, rfl⟩ := argsOf_ok h; exact
    ⟨_, .vote_proposal_callback mpip_id voter_id vote_type memo (u32_lt ha.1) (account_iff.1 ha.2.1)⟩
  · obtain ⟨mpip_id, ha, rfl⟩ := argsOf_ok h; exact ⟨_, .remove_vote_proposal mpip_id (u32_lt ha)⟩
  · obtain ⟨mpip_id, ha, rfl⟩ := argsOf_ok h; exact ⟨_, .process_voting_status mpip_id (u32_lt ha)⟩
  · cases h

/-- C100: what the contracts themselves write for mpip has the name and the arguments of the signature. -/
theorem C100_written {name : String} {ms : List (String × Val)} {k : Call} (hs : Call.Signature name ms k) :
    k.write.1 = name ∧ Given k.write.2 ms := by
  cases hs with
  | new_ admin_id operator_id meta_token_contract_address meta_vote_contract_address voting_period min_voting_power_amount
      mpip_storage_near quorum_floor h0 h1 h2 h3 h4 h5 h6 h7 =>
    exact ⟨rfl, given_written (F := Args.new_) (h := by decide) (a := (admin_id, operator_id, meta_token_contract_address,
      meta_vote_contract_address, voting_period, min_voting_power_amount, mpip_storage_near, quorum_floor)) (by members)
      ⟨(account_iff.2 h0), (account_iff.2 h1), (account_iff.2 h2), (account_iff.2 h3), (u64_le h4), (u128_le h5),
      (u128_le h6), (u16_le h7)⟩ (by decide)⟩
  | update_open_for_new_mpips new_value =>
    exact ⟨rfl, given_written (F := Args.update_open_for_new_mpips) (h := by decide) (a := new_value) (by members) trivial
      (by decide)⟩
  | update_operator_role new_value h0 =>
    exact ⟨rfl, given_written (F := Args.update_operator_role) (h := by decide) (a := new_value) (by members) (account_iff.2 h0)
      (by decide)⟩
  | update_admin_role new_value h0 =>
    exact ⟨rfl, given_written (F := Args.update_admin_role) (h := by decide) (a := new_value) (by members) (account_iff.2 h0)
      (by decide)⟩
  | pay_to_account amount to_ h0 h1 =>
    exact ⟨rfl, given_written (F := Args.pay_to_account) (h := by decide) (a := (amount, to_)) (by members) ⟨(u128_le h0),
      (account_iff.2 h1)⟩ (by decide)⟩
  | update_voting_period new_value h0 =>
    exact ⟨rfl, given_written (F := Args.update_voting_period) (h := by decide) (a := new_value) (by members) (u64_le h0)
      (by decide)⟩
  | update_min_meta_amount new_value h0 =>
    exact ⟨rfl, given_written (F := Args.update_min_meta_amount) (h := by decide) (a := new_value) (by members) (u128_le h0)
      (by decide)⟩
  | update_min_voting_power_amount new_value h0 =>
    exact ⟨rfl, given_written (F := Args.update_min_voting_power_amount) (h := by decide) (a := new_value) (by members)
      (u128_le h0) (by decide)⟩
  | update_mpip_storage_near new_value h0 =>
    exact ⟨rfl, given_written (F := Args.update_mpip_storage_near) (h := by decide) (a := new_value) (by members) (u128_le h0)
      (by decide)⟩
  | update_quorum_floor new_value h0 =>
    exact ⟨rfl, given_written (F := Args.update_quorum_floor) (h := by decide) (a := new_value) (by members) (u16_le h0)
      (by decide)⟩
  | start_voting_period mpip_id h0 =>
    exact ⟨rfl, given_written (F := Args.start_voting_period) (h := by decide) (a := mpip_id) (by members) (u32_le h0)
      (by decide)⟩
  | start_voting_period_callback mpip_id h0 =>
    exact ⟨rfl, given_written (F := Args.start_voting_period_callback) (h := by decide) (a := mpip_id) (by members) (u32_le h0)
      (by decide)⟩
  | create_proposal title short_description body data extra =>
    exact ⟨rfl, given_written (F := Args.create_proposal) (h := by decide) (a := (title, short_description, body, data, extra))
      (by members) ⟨trivial, trivial, trivial, trivial, trivial⟩ (by decide)⟩
  | create_proposal_callback title short_description body data extra =>
    exact ⟨rfl, given_written (F := Args.create_proposal_callback) (h := by decide) (a := (title, short_description, body, data,
      extra)) (by members) ⟨trivial, trivial, trivial, trivial, trivial⟩ (by decide)⟩
  | cancel_proposal mpip_id h0 =>
    exact ⟨rfl, given_written (F := Args.cancel_proposal) (h := by decide) (a := mpip_id) (by members) (u32_le h0) (by decide)⟩
  | update_proposal mpip_id title short_description body data extra h0 =>
    exact ⟨rfl, given_written (F := Args.update_proposal) (h := by decide) (a := (mpip_id, title, short_description, body, data,
      extra)) (by members) ⟨(u32_le h0), trivial, trivial, trivial, trivial, trivial⟩ (by decide)⟩
  | update_meta_vote_contract_address new_meta_vote_contract_address h0 =>
    exact ⟨rfl, given_written (F := Args.update_meta_vote_contract_address) (h := by decide)
      (a := new_meta_vote_contract_address) (by members) (account_iff.2 h0) (by decide)⟩
  | vote_proposal mpip_id vote memo h0 =>
    exact ⟨rfl, given_written (F := Args.vote_proposal) (h := by decide) (a := (mpip_id, vote, memo)) (by cases vote <;> members)
      ⟨(u32_le h0), trivial, trivial⟩ (by decide)⟩
  | vote_proposal_callback mpip_id voter_id vote_type memo h0 h1 =>
    exact ⟨rfl, given_written (F := Args.vote_proposal_callback) (h := by decide) (a := (mpip_id, voter_id, vote_type, memo))
      (by cases vote_type <;> members) ⟨(u32_le h0), (account_iff.2 h1), trivial, trivial⟩ (by decide)⟩
  | remove_vote_proposal mpip_id h0 =>
    exact ⟨rfl, given_written (F := Args.remove_vote_proposal) (h := by decide) (a := mpip_id) (by members) (u32_le h0)
      (by decide)⟩
  | process_voting_status mpip_id h0 =>
    exact ⟨rfl, given_written (F := Args.process_voting_status) (h := by decide) (a := mpip_id) (by members) (u32_le h0)
      (by decide)⟩

/-- C100: a question to mpip with the arguments of the signature of a view is read as that question. -/
theorem C100_asked {name : String} {ms : List (String × Val)} {v : View} {i : Bytes} (hs : View.Signature name ms v)
    (hb : Given i ms) : View.read name i = some v := by
  cases hs with
  | get_my_proposals proposer_id h0 =>
    exact args_given (a := proposer_id) (by lax) (by members) (by simp) hb (account_iff.2 h0)
  | check_proposal_threshold voting_power h0 =>
    exact args_given (a := voting_power) (by lax) (by members) (by simp) hb (u128_le h0)
  | get_mpip_storage_near => rfl
  | get_proposal_votes mpip_id h0 =>
    exact args_given (a := mpip_id) (by lax) (by members) (by simp) hb (u32_le h0)
  | get_quorum_reached mpip_id h0 =>
    exact args_given (a := mpip_id) (by lax) (by members) (by simp) hb (u32_le h0)
  | get_proposal_vote_succeeded mpip_id h0 =>
    exact args_given (a := mpip_id) (by lax) (by members) (by simp) hb (u32_le h0)
  | get_proposal_state mpip_id h0 =>
    exact args_given (a := mpip_id) (by lax) (by members) (by simp) hb (u32_le h0)
  | get_proposal mpip_id h0 =>
    exact args_given (a := mpip_id) (by lax) (by members) (by simp) hb (u32_le h0)
  | get_proposals from_index limit h0 h1 =>
    exact args_given (a := (from_index, limit)) (by lax) (by members) (by simp) hb ⟨(u32_le h0), (u32_le h1)⟩
  | get_user_proposals_ids proposer_id h0 =>
    exact args_given (a := proposer_id) (by lax) (by members) (by simp) hb (account_iff.2 h0)
  | get_last_proposal_id => rfl
  | get_quorum_floor => rfl
  | get_proposal_threshold => rfl
  | get_total_voters => rfl
  | get_proposal_is_active_or_draft mpip_id h0 =>
    exact args_given (a := mpip_id) (by lax) (by members) (by simp) hb (u32_le h0)
  | has_voted voter_id mpip_id h0 h1 =>
    exact args_given (a := (voter_id, mpip_id)) (by lax) (by members) (by simp) hb ⟨(account_iff.2 h0), (u32_le h1)⟩
  | get_my_vote voter_id mpip_id h0 h1 =>
    exact args_given (a := (voter_id, mpip_id)) (by lax) (by members) (by simp) hb ⟨(account_iff.2 h0), (u32_le h1)⟩
  | get_voter voter_id h0 =>
    exact args_given (a := voter_id) (by lax) (by members) (by simp) hb (account_iff.2 h0)

/-- C100: every question to mpip that is accepted has the name and the argument types of its signature. -/
theorem C100_questions {name : String} {v : View} {i : Bytes} (h : View.read name i = some v) :
    ∃ ms, View.Signature name ms v := by
  unfold View.read at h
  split at h
  · obtain ⟨proposer_id, ha, rfl⟩ := argsOf_ok h; exact ⟨_, .get_my_proposals proposer_id (account_iff.1 ha)⟩
  · obtain ⟨voting_power, ha, rfl⟩ := argsOf_ok h; exact ⟨_, .check_proposal_threshold voting_power (u128_lt ha)⟩
  · cases h; exact ⟨_, .get_mpip_storage_near⟩
  · obtain ⟨mpip_id, ha, rfl⟩ := argsOf_ok h; exact ⟨_, .get_proposal_votes mpip_id (u32_lt ha)⟩
  · obtain ⟨mpip_id, ha, rfl⟩ := argsOf_ok h; exact ⟨_, .get_quorum_reached mpip_id (u32_lt ha)⟩
  · obtain ⟨mpip_id, ha, rfl⟩ := argsOf_ok h; exact ⟨_, .get_proposal_vote_succeeded mpip_id (u32_lt ha)⟩
  · obtain ⟨mpip_id, ha, rfl⟩ := argsOf_ok h; exact ⟨_, .get_proposal_state mpip_id (u32_lt ha)⟩
  · obtain ⟨mpip_id, ha, rfl⟩ := argsOf_ok h; exact ⟨_, .get_proposal mpip_id (u32_lt ha)⟩
  · obtain ⟨⟨from_index, limit⟩, ha, rfl⟩ := argsOf_ok h; exact
    ⟨_, .get_proposals from_index limit (u32_lt ha.1) (u32_lt ha.2)⟩
  · obtain ⟨proposer_id, ha, rfl⟩ := argsOf_ok h; exact ⟨_, .get_user_proposals_ids proposer_id (account_iff.1 ha)⟩
  · cases h; exact ⟨_, .get_last_proposal_id⟩
  · cases h; exact ⟨_, .get_quorum_floor⟩
  · cases h; exact ⟨_, .get_proposal_threshold⟩
  · cases h; exact ⟨_, .get_total_voters⟩
  · obtain ⟨mpip_id, ha, rfl⟩ := argsOf_ok h; exact ⟨_, .get_proposal_is_active_or_draft mpip_id (u32_lt ha)⟩
  · obtain ⟨⟨voter_id, mpip_id⟩, ha, rfl⟩ := argsOf_ok h; exact
    ⟨_, .has_voted voter_id mpip_id (account_iff.1 ha.1) (u32_lt ha.2)⟩
  · obtain ⟨⟨voter_id, mpip_id⟩, ha, rfl⟩ := argsOf_ok h; exact
    ⟨_, .get_my_vote voter_id mpip_id (account_iff.1 ha.1) (u32_lt ha.2)⟩
  · obtain ⟨voter_id, ha, rfl⟩ := argsOf_ok h; exact ⟨_, .get_voter voter_id (account_iff.1 ha)⟩
  · cases h

/-- C100: in every execution, the answer to a question with the arguments of the signature is the JSON value of the type that the view
returns, for the value of the view. -/
theorem C100_answer {J : Json} {me : AccountId} {w : World} (h : Reach J me w) (hc : w.st.voters.len ≤ U64_MAX) (c : Ctx) {name : String}
    {ms : List (String × Val)} {v : View} {i : Bytes} (hs : View.Signature name ms v) (hb : Given i ms) :
    (∃ e, w.st.view c v = .error e ∧ viewAll w.st c name i = .error e) ∨
      ∃ r out, w.st.view c v = .ok r ∧ viewAll w.st c name i = .ok out ∧ IsJson out (v.answer r) := by
  have e0 : viewAll w.st c name i = (w.st.view c v >>= fun r => pure (v.ty.encode r)) := by
    unfold viewAll
    rw [C100_asked hs hb]
    rfl
  rw [e0]
  cases hr : w.st.view c v with
  | error e => exact .inl ⟨e, rfl, rfl⟩
  | ok r => exact .inr ⟨r, _, rfl, rfl, View.parse_answer (view_ok h hc hr)⟩

/-- C100: the questions to meta-vote, as sent, have the signatures of its views. -/
theorem C100_query (q : Query) (hq : ∀ v, q = .get_all_locking_positions v → validAccount v = true) :
    ∃ ms v, MetaVote.View.Signature q.write.1 ms v ∧ Given q.write.2 ms ∧
      v = match q with
        | .get_all_locking_positions a => .get_all_locking_positions a
        | .get_total_voting_power => .get_total_voting_power := by
  cases q with
  | get_all_locking_positions a =>
    exact ⟨_, _, .get_all_locking_positions a,
      given_written (F := Fields.one "voter_id" account) (h := by decide) (a := a) rfl (hq a rfl) (by decide), rfl⟩
  | get_total_voting_power => exact ⟨_, _, .get_total_voting_power, .inl rfl, rfl⟩

example : Call.Signature "vote_proposal" [("mpip_id", Interface.number 3), ("vote", .str "Abstain"), ("memo", text "m\n")]
      (.vote_proposal 3 .abstain "m\n") ∧
    Given (MetaVote.ascii "{\"memo\":\"m\\n\",\"vote\":\"Abstain\",\"mpip_id\":3}")
      [("mpip_id", Interface.number 3), ("vote", .str "Abstain"), ("memo", text "m\n")] ∧
    Reach demoJ "me" demo ∧ demo.st.voters.len ≤ U64_MAX ∧
    View.Signature "get_my_vote" [("voter_id", text "bob"), ("mpip_id", Interface.number 0)] (.get_my_vote "bob" 0) ∧
    IsJson (MetaVote.ascii "{\"mpip_id\":0,\"voter_id\":\"bob\",\"vote_type\":\"Against\",\"voting_power\":\"1025\",\"memo\":\"no\"}")
      (View.answer (.get_my_vote "bob" 0) (some ("bob", ⟨0, .against, 1025, "no"⟩))) :=
  ⟨.vote_proposal 3 .abstain "m\n" (by decide),
    .inr ⟨[("memo", text "m\n"), ("vote", .str "Abstain"), ("mpip_id", Interface.number 3)],
      [("mpip_id", Interface.number 3), ("vote", .str "Abstain"), ("memo", text "m\n")], [], parse_iff.1 (by decide +kernel), by decide +kernel,
      .refl _, fun m hm => .inl hm, by decide +kernel⟩,
    demo_reach, by decide +kernel, .get_my_vote _ _ (account_iff.1 (by decide +kernel)) (by decide), parse_iff.1 (by decide +kernel)⟩


end Verif.Mpip

namespace Verif.Kv

open Verif Storage Serde Interface JsonText

/-- What the views write. -/
theorem View.write_answer : (v : View) → (r : v.Out) → v.ty.write r = v.answer r := by
  intro v r
  cases v
  all_goals
    simp only [View.answer]
    (try simp only [quoted_eq])
    rfl

theorem View.parse_answer {v : View} {r : v.Out} (h : v.ty.ok r) : IsJson (v.ty.encode r) (v.answer r) := by
  rw [← View.write_answer]
  refine parse_iff.1 (parse_render ?_)
  exact ((v.ty.good r h).mono (Nat.add_le_add_right v.depth 1))

/-- C100: an input to the key-value store with the arguments of the signature of a method is read as that call. -/
theorem C100_call {name : String} {ms : List (String × Val)} {k : Call} {i : Bytes} (hs : Call.Signature name ms k)
    (hb : Given i ms) : Call.read name i = some k := by
  cases hs with
  | set_operator_id operator_id h0 =>
    exact args_given (F := Args.set_operator_id) (a := operator_id) (by lax) (by members) (by simp) hb (account_iff.2 h0)
  | set_owner_id owner_id h0 =>
    exact args_given (F := Args.set_owner_id) (a := owner_id) (by lax) (by members) (by simp) hb (account_iff.2 h0)
  | set_value key value =>
    exact args_given (F := Args.set_value) (a := (key, value)) (by lax) (by members) (by simp) hb ⟨trivial, trivial⟩
  | set_values kv_array =>
    exact args_given (F := Args.set_values) (a := kv_array) (by lax) (by members) (by simp) hb (fun _ _ => ⟨trivial, trivial⟩)
  | remove_value key =>
    exact args_given (F := Args.remove_value) (a := key) (by lax) (by members) (by simp) hb trivial

/-- C100: every input to the key-value store that is accepted is a call with the name and the argument types of its signature. -/
theorem C100_only {name : String} {k : Call} {i : Bytes} (h : Call.read name i = some k) : ∃ ms, Call.Signature name ms k := by
  unfold Call.read at h
  split at h
  · obtain ⟨operator_id, ha, rfl⟩ := argsOf_ok h; exact ⟨_, .set_operator_id operator_id (account_iff.1 ha)⟩
  · obtain ⟨owner_id, ha, rfl⟩ := argsOf_ok h; exact ⟨_, .set_owner_id owner_id (account_iff.1 ha)⟩
  · obtain ⟨⟨key, value⟩, ha, rfl⟩ := argsOf_ok h; exact ⟨_, .set_value key value⟩
  · obtain ⟨kv_array, ha, rfl⟩ := argsOf_ok h; exact ⟨_, .set_values kv_array⟩
  · obtain ⟨key, ha, rfl⟩ := argsOf_ok h; exact ⟨_, .remove_value key⟩
  · cases h

/-- C100: what the contracts themselves write for the key-value store has the name and the arguments of the signature. -/
theorem C100_written {name : String} {ms : List (String × Val)} {k : Call} (hs : Call.Signature name ms k) :
    k.write.1 = name ∧ Given k.write.2 ms := by
  cases hs with
  | set_operator_id operator_id h0 =>
    exact ⟨rfl, given_written (F := Args.set_operator_id) (h := by decide) (a := operator_id) (by members) (account_iff.2 h0)
      (by decide)⟩
  | set_owner_id owner_id h0 =>
    exact ⟨rfl, given_written (F := Args.set_owner_id) (h := by decide) (a := owner_id) (by members) (account_iff.2 h0)
      (by decide)⟩
  | set_value key value =>
    exact ⟨rfl, given_written (F := Args.set_value) (h := by decide) (a := (key, value)) (by members) ⟨trivial,
      trivial⟩ (by decide)⟩
  | set_values kv_array =>
    exact ⟨rfl, given_written (F := Args.set_values) (h := by decide) (a := kv_array) (by members) (fun _ _ => ⟨trivial,
      trivial⟩) (by decide)⟩
  | remove_value key =>
    exact ⟨rfl, given_written (F := Args.remove_value) (h := by decide) (a := key) (by members) trivial (by decide)⟩

/-- C100: a question to the key-value store with the arguments of the signature of a view is read as that question. -/
theorem C100_asked {name : String} {ms : List (String × Val)} {v : View} {i : Bytes} (hs : View.Signature name ms v)
    (hb : Given i ms) : View.read name i = some v := by
  cases hs with
  | get_value key =>
    exact args_given (a := key) (by lax) (by members) (by simp) hb trivial
  | get_values from_index limit h0 h1 =>
    exact args_given (a := (from_index, limit)) (by lax) (by members) (by simp) hb ⟨(u32_le h0), (u32_le h1)⟩
  | get_owner_id => rfl
  | get_operator_id => rfl
  | get_kv_count => rfl

/-- C100: every question to the key-value store that is accepted has the name and the argument types of its signature. -/
theorem C100_questions {name : String} {v : View} {i : Bytes} (h : View.read name i = some v) :
    ∃ ms, View.Signature name ms v := by
  unfold View.read at h
  split at h
  · obtain ⟨key, ha, rfl⟩ := argsOf_ok h; exact ⟨_, .get_value key⟩
  · obtain ⟨⟨from_index, limit⟩, ha, rfl⟩ := argsOf_ok h; exact ⟨_, .get_values from_index limit (u32_lt ha.1) (u32_lt ha.2)⟩
  · cases h; exact ⟨_, .get_owner_id⟩
  · cases h; exact ⟨_, .get_operator_id⟩
  · cases h; exact ⟨_, .get_kv_count⟩
  · cases h

/-- C100: in every execution, the answer to a question with the arguments of the signature is the JSON value of the type that the view
returns, for the value of the view. -/
theorem C100_answer {s : State} (hc : s.associated_user_data.len ≤ U64_MAX) {name : String}
    {ms : List (String × Val)} {v : View} {i : Bytes} (hs : View.Signature name ms v) (hb : Given i ms) :
    (∃ e, s.view v = .error e ∧ viewAll s name i = .error e) ∨
      ∃ r out, s.view v = .ok r ∧ viewAll s name i = .ok out ∧ IsJson out (v.answer r) := by
  have e0 : viewAll s name i = (s.view v >>= fun r => pure (v.ty.encode r)) := by
    unfold viewAll
    rw [C100_asked hs hb]
    rfl
  rw [e0]
  cases hr : s.view v with
  | error e => exact .inl ⟨e, rfl, rfl⟩
  | ok r => exact .inr ⟨r, _, rfl, rfl, View.parse_answer (view_ok hc hr)⟩

/-- C100: the installation, `kv-store-contract/src/lib.rs:29`. -/
theorem C100_init {owner operator : String} (ho : IsAccountId owner) (hp : IsAccountId operator) {i : Bytes}
    (hb : Given i [("owner_id", text owner), ("operator_id", text operator)]) : argsOf Bytes.newArgs id i = some (owner, operator) :=
  args_given (mk := id) (a := (owner, operator)) (by lax) (by members) (by simp) hb ⟨account_iff.2 ho, account_iff.2 hp⟩

example : demo.st.associated_user_data.len ≤ U64_MAX ∧
    View.Signature "get_values" [("from_index", Interface.number 1), ("limit", Interface.number 5)] (.get_values 1 5) ∧
    Given (MetaVote.ascii "{\"limit\":5,\"from_index\":1}") [("from_index", Interface.number 1), ("limit", Interface.number 5)] ∧
    IsAccountId "a-b.near" :=
  ⟨by decide +kernel, .get_values _ _ (by decide) (by decide),
    .inr ⟨[("limit", Interface.number 5), ("from_index", Interface.number 1)],
      [("from_index", Interface.number 1), ("limit", Interface.number 5)], [], parse_iff.1 (by decide +kernel), by decide +kernel,
      .refl _, fun m hm => .inl hm, by decide +kernel⟩, account_iff.1 (by decide +kernel)⟩


end Verif.Kv

namespace Verif.Token

open Verif Storage Serde Interface JsonText

theorem bounds_eq : storageBalanceBounds = boundsTy.write := by
  funext p; simp only [storageBalanceBounds, quoted_eq]; rfl

theorem balance_eq : storageBalance = balanceTy.write := by
  funext p; simp only [storageBalance, quoted_eq]; rfl

theorem metadata_eq : fungibleTokenMetadata = Bytes.metadataTy.write := by
  funext p; simp only [fungibleTokenMetadata, number_eq]; rfl

/-- What the views write. -/
theorem View.write_answer : (v : View) → (r : v.Out) → v.ty.write r = v.answer r := by
  intro v r
  cases v
  all_goals
    simp only [View.answer]
    (try simp only [quoted_eq, bounds_eq, balance_eq])
    rfl

theorem View.parse_answer {v : View} {r : v.Out} (h : v.ty.ok r) : IsJson (v.ty.encode r) (v.answer r) := by
  rw [← View.write_answer]
  refine parse_iff.1 (parse_render ?_)
  exact ((v.ty.good r h).mono (Nat.add_le_add_right v.depth 1))

theorem metadata_answer {m : Bytes.Metadata} (h : Bytes.metadataTy.ok m) :
    IsJson (Bytes.metadataTy.encode m) (fungibleTokenMetadata m) := by
  rw [metadata_eq]
  refine parse_iff.1 (parse_render ?_)
  exact ((Bytes.metadataTy.good m h).mono (by decide))

/-- C100: an input to the installation with the arguments of its signature. -/
theorem C100_init {name : String} {ms : List (String × Val)} {x : String × Nat × Bytes.Metadata} {i : Bytes}
    (hs : InitSignature name ms x) (hb : Given i ms) : Bytes.initRead name i = some x := by
  cases hs with
  | new_default_meta o n h0 h1 =>
    exact args_given (F := Bytes.newDefaultArgs) (a := (o, n)) (by lax) (by members) (by simp) hb ⟨account_iff.2 h0, u128_le h1⟩
  | new o n m h0 h1 h2 =>
    refine args_given (F := Bytes.newArgs) (mk := id) (a := (o, n, m)) (by lax) (by rw [metadata_eq]; members) (by simp) hb
      ⟨account_iff.2 h0, u128_le h1, ?_⟩
    exact ⟨trivial, trivial, trivial, fun _ _ => trivial, fun _ _ => trivial, fun _ _ => trivial, u8_le h2⟩

/-- C100: an input to the token with the arguments of the signature of a method is read as that call. -/
theorem C100_call {name : String} {ms : List (String × Val)} {k : Call} {i : Bytes} (hs : Call.Signature name ms k)
    (hb : Given i ms) : Call.read name i = some k := by
  cases hs with
  | set_owner_id owner_id h0 =>
    exact args_given (F := Args.set_owner_id) (a := owner_id) (by lax) (by members) (by simp) hb (account_iff.2 h0)
  | add_minter account_id h0 =>
    exact args_given (F := Args.minter) (a := account_id) (by lax) (by members) (by simp) hb (account_iff.2 h0)
  | remove_minter account_id h0 =>
    exact args_given (F := Args.minter) (a := account_id) (by lax) (by members) (by simp) hb (account_iff.2 h0)
  | assert_minter account_id h0 =>
    exact args_given (F := Args.minter) (a := account_id) (by lax) (by members) (by simp) hb (account_iff.2 h0)
  | ft_mint amount memo h0 =>
    exact args_given (F := Args.supply) (a := (amount, memo)) (by lax) (by members) (by simp) hb
      ⟨(u128_le h0), (fun _ _ => trivial)⟩
  | ft_burn amount memo h0 =>
    exact args_given (F := Args.supply) (a := (amount, memo)) (by lax) (by members) (by simp) hb
      ⟨(u128_le h0), (fun _ _ => trivial)⟩
  | ft_transfer receiver_id amount memo h0 h1 =>
    exact args_given (F := Args.ft_transfer) (a := (receiver_id, amount, memo)) (by lax) (by members) (by simp) hb
      ⟨(account_iff.2 h0), (u128_le h1), (fun _ _ => trivial)⟩
  | ft_transfer_call receiver_id amount memo msg h0 h1 =>
    exact args_given (F := Args.ft_transfer_call) (a := (receiver_id, amount, memo, msg)) (by lax) (by members) (by simp) hb
      ⟨(account_iff.2 h0), (u128_le h1), (fun _ _ => trivial), trivial⟩
  | ft_resolve_transfer sender_id receiver_id amount h0 h1 h2 =>
    exact args_given (F := Args.ft_resolve_transfer) (a := (sender_id, receiver_id, amount)) (by lax) (by members) (by simp) hb
      ⟨(account_iff.2 h0), (account_iff.2 h1), (u128_le h2)⟩
  | storage_deposit account_id registration_only h0 =>
    exact args_given (F := Args.storage_deposit) (a := (account_id, registration_only)) (by lax) (by members) (by simp) hb
      ⟨(fun x hx => (account_iff.2 (h0 x hx))), (fun _ _ => trivial)⟩
  | storage_withdraw amount h0 =>
    exact args_given (F := Args.storage_withdraw) (a := amount) (by lax) (by members) (by simp) hb
      (fun x hx => (u128_le (h0 x hx)))
  | storage_unregister force =>
    exact args_given (F := Args.storage_unregister) (a := force) (by lax) (by members) (by simp) hb (fun _ _ => trivial)

/-- C100: every input to the token that is accepted is a call with the name and the argument types of its signature. -/
theorem C100_only {name : String} {k : Call} {i : Bytes} (h : Call.read name i = some k) : ∃ ms, Call.Signature name ms k := by
  unfold Call.read at h
  split at h
  · obtain ⟨owner_id, ha, rfl⟩ := argsOf_ok h; exact ⟨_, .set_owner_id owner_id (account_iff.1 ha)⟩
  · obtain ⟨account_id, ha, rfl⟩ := argsOf_ok h; exact ⟨_, .add_minter account_id (account_iff.1 ha)⟩
  · obtain ⟨account_id, ha, rfl⟩ := argsOf_ok h; exact ⟨_, .remove_minter account_id (account_iff.1 ha)⟩
  · obtain ⟨account_id, ha, rfl⟩ := argsOf_ok h; exact ⟨_, .assert_minter account_id (account_iff.1 ha)⟩
  · obtain ⟨⟨amount, memo⟩, ha, rfl⟩ := argsOf_ok h; exact ⟨_, .ft_mint amount memo (u128_lt ha.1)⟩
  · obtain ⟨⟨amount, memo⟩, ha, rfl⟩ := argsOf_ok h; exact ⟨_, .ft_burn amount memo (u128_lt ha.1)⟩
  · obtain ⟨⟨receiver_id, amount, memo⟩, ha, rfl⟩ := argsOf_ok h; exact
    ⟨_, .ft_transfer receiver_id amount memo (account_iff.1 ha.1) (u128_lt ha.2.1)⟩
  · obtain ⟨⟨receiver_id, amount, memo, msg⟩, ha, rfl⟩ := argsOf_ok h; exact
    ⟨_, .ft_transfer_call receiver_id amount memo msg (account_iff.1 ha.1) (u128_lt ha.2.1)⟩
  · obtain ⟨⟨sender_id, receiver_id, amount⟩, ha, rfl⟩ := argsOf_ok h; exact
    ⟨_, .ft_resolve_transfer sender_id receiver_id amount (account_iff.1 ha.1) (account_iff.1 ha.2.1) (u128_lt ha.2.2)⟩
  · obtain ⟨⟨account_id, registration_only⟩, ha, rfl⟩ := argsOf_ok h; exact
    ⟨_, .storage_deposit account_id registration_only (fun x hx => (account_iff.1 (ha.1 x hx)))⟩
  · obtain ⟨amount, ha, rfl⟩ := argsOf_ok h; exact ⟨_, .storage_withdraw amount (fun x hx => (u128_lt (ha x hx)))⟩
  · obtain ⟨force, ha, rfl⟩ := argsOf_ok h; exact ⟨_, .storage_unregister force⟩
  · cases h

/-- C100: what the contracts themselves write for the token has the name and the arguments of the signature. -/
theorem C100_written {k : Call} (hr : k.in_range = true) (hv : k.valid) :
    ∃ ms, Call.Signature k.write.1 ms k ∧ Given k.write.2 ms := by
  cases k with
  | set_owner_id a => exact ⟨_, .set_owner_id a (account_iff.1 hv), given_written (h := by decide) (by members) hv (by decide)⟩
  | add_minter a => exact ⟨_, .add_minter a (account_iff.1 hv), given_written (h := by decide) (by members) hv (by decide)⟩
  | remove_minter a => exact ⟨_, .remove_minter a (account_iff.1 hv), given_written (h := by decide) (by members) hv (by decide)⟩
  | assert_minter a => exact ⟨_, .assert_minter a (account_iff.1 hv), given_written (h := by decide) (by members) hv (by decide)⟩
  | ft_mint n =>
    have hn : n ≤ U128_MAX := of_decide_eq_true hr
    exact ⟨_, .ft_mint n none (u128_lt hn), given_written (h := by decide) (by members) ⟨hn, fun x hx => by cases hx⟩ (by decide)⟩
  | ft_burn n =>
    have hn : n ≤ U128_MAX := of_decide_eq_true hr
    exact ⟨_, .ft_burn n none (u128_lt hn), given_written (h := by decide) (by members) ⟨hn, fun x hx => by cases hx⟩ (by decide)⟩
  | ft_transfer a n =>
    have hn : n ≤ U128_MAX := of_decide_eq_true hr
    exact ⟨_, .ft_transfer a n none (account_iff.1 hv) (u128_lt hn),
      given_written (h := by decide) (by members) ⟨hv, hn, fun x hx => by cases hx⟩ (by decide)⟩
  | ft_transfer_call a n m =>
    have hn : n ≤ U128_MAX := of_decide_eq_true hr
    have hs := Call.Signature.ft_transfer_call a n none (MetaVote.textOf m) (account_iff.1 hv.1) (u128_lt hn)
    rw [hv.2] at hs
    exact ⟨_, hs, given_written (h := by decide) (by members) ⟨hv.1, hn, fun x hx => (by cases hx), trivial⟩ (by decide)⟩
  | ft_resolve_transfer a r n =>
    have hn : n ≤ U128_MAX := of_decide_eq_true hr
    exact ⟨_, .ft_resolve_transfer a r n (account_iff.1 hv.1) (account_iff.1 hv.2) (u128_lt hn),
      given_written (h := by decide) (by members) ⟨hv.1, hv.2, hn⟩ (by decide)⟩
  | storage_deposit a r =>
    exact ⟨_, .storage_deposit a r fun x hx => account_iff.1 (hv x hx),
      given_written (h := by decide) (by members) ⟨hv, fun _ _ => trivial⟩ (by decide)⟩
  | storage_withdraw a =>
    exact ⟨_, .storage_withdraw a fun x hx => u128_lt (hv x hx), given_written (h := by decide) (by members) hv (by decide)⟩
  | storage_unregister f =>
    exact ⟨_, .storage_unregister f, given_written (h := by decide) (by members) (fun _ _ => trivial) (by decide)⟩

/-- C100: a question to the token with the arguments of the signature of a view is read as that question. -/
theorem C100_asked {name : String} {ms : List (String × Val)} {v : View} {i : Bytes} (hs : View.Signature name ms v)
    (hb : Given i ms) : View.read name i = some v := by
  cases hs with
  | get_owner_id => rfl
  | get_minters => rfl
  | ft_total_supply => rfl
  | ft_balance_of account_id h0 =>
    exact args_given (a := account_id) (by lax) (by members) (by simp) hb (account_iff.2 h0)
  | storage_balance_bounds => rfl
  | storage_balance_of account_id h0 =>
    exact args_given (a := account_id) (by lax) (by members) (by simp) hb (account_iff.2 h0)

/-- C100: every question to the token that is accepted has the name and the argument types of its signature. -/
theorem C100_questions {name : String} {v : View} {i : Bytes} (h : View.read name i = some v) :
    ∃ ms, View.Signature name ms v := by
  unfold View.read at h
  split at h
  · cases h; exact ⟨_, .get_owner_id⟩
  · cases h; exact ⟨_, .get_minters⟩
  · cases h; exact ⟨_, .ft_total_supply⟩
  · obtain ⟨account_id, ha, rfl⟩ := argsOf_ok h; exact ⟨_, .ft_balance_of account_id (account_iff.1 ha)⟩
  · cases h; exact ⟨_, .storage_balance_bounds⟩
  · obtain ⟨account_id, ha, rfl⟩ := argsOf_ok h; exact ⟨_, .storage_balance_of account_id (account_iff.1 ha)⟩
  · cases h

/-- C100: in every execution, the answer to a question with the arguments of the signature is the JSON value of the type that the view
returns, for the value of the view. -/
theorem C100_answer {me : AccountId} {w : World} (h : Reach me w) (hc : w.st.storage_cost ≤ U128_MAX) {name : String}
    {ms : List (String × Val)} {v : View} {i : Bytes} (hs : View.Signature name ms v) (hb : Given i ms) :
    (∃ e, w.st.view v = .error e ∧ viewAll w.st name i = .error e) ∨
      ∃ r out, w.st.view v = .ok r ∧ viewAll w.st name i = .ok out ∧ IsJson out (v.answer r) := by
  have e0 : viewAll w.st name i = (w.st.view v >>= fun r => pure (v.ty.encode r)) := by
    unfold viewAll
    rw [C100_asked hs hb]
    rfl
  rw [e0]
  cases hr : w.st.view v with
  | error e => exact .inl ⟨e, rfl, rfl⟩
  | ok r => exact .inr ⟨r, _, rfl, rfl, View.parse_answer (view_ok h hc hr)⟩

example : Reach "tok" demo ∧ demo.st.storage_cost ≤ U128_MAX ∧
    Call.Signature "ft_transfer" [("receiver_id", text "alice"), ("amount", quoted 5), ("memo", .null)] (.ft_transfer "alice" 5) ∧
    Given (MetaVote.ascii "{\"receiver_id\":\"alice\",\"amount\":\"5\"}")
      [("receiver_id", text "alice"), ("amount", quoted 5), ("memo", .null)] ∧
    InitSignature "new_default_meta" [("owner_id", text "alice"), ("total_supply", quoted 5)]
      ("alice", 5, ⟨"ft-1.0.0", "metapool.app DAO Governance Token", "mpDAO", some Bytes.ICON, none, none, 6⟩) :=
  ⟨demo_reach, by decide +kernel, .ft_transfer "alice" 5 none (account_iff.1 (by decide +kernel)) (by decide),
    .inr ⟨[("receiver_id", text "alice"), ("amount", quoted 5)], [("receiver_id", text "alice"), ("amount", quoted 5)], [],
      parse_iff.1 (by decide +kernel), by decide +kernel, by decide +kernel, by decide +kernel, by decide +kernel⟩,
    .new_default_meta _ _ (account_iff.1 (by decide +kernel)) (by decide)⟩


end Verif.Token
