import Verif.Spec.Mpip

/-!
# When a call to mpip is accepted
-/

namespace Verif.Mpip

open Verif

/-- The caller is the admin or the operator. -/
def State.runs (s : State) (c : Ctx) : Prop := c.signer = s.admin_id ∨ c.signer = s.operator_id

/-- The conditions under which each method of mpip is accepted.  For the three callbacks, the conditions on the answer
of meta-vote. -/
def MayCall (J : Json) (s : State) (c : Ctx) : Call → Prop
  | .new_ .. => False
  | .update_open_for_new_mpips _ | .update_operator_role _ | .update_admin_role _
  | .update_meta_vote_contract_address _ => c.deposit = 0 ∧ c.signer = s.admin_id
  | .pay_to_account n _ => c.deposit = 0 ∧ c.signer = s.admin_id ∧ n ≤ U128_MAX
  | .update_voting_period n => c.deposit = 0 ∧ s.runs c ∧ n ≤ U64_MAX
  | .update_min_meta_amount n | .update_min_voting_power_amount n | .update_mpip_storage_near n =>
    c.deposit = 0 ∧ s.runs c ∧ n ≤ U128_MAX
  | .update_quorum_floor n => c.deposit = 0 ∧ s.runs c ∧ n ≤ 10000
  | .start_voting_period i | .cancel_proposal i => c.deposit = 0 ∧ ∃ p, s.get_proposal i = .ok p ∧
    (c.signer = s.operator_id ∨ c.signer = p.creator_id) ∧ Editable p c.now
  | .update_proposal i _ => c.deposit = 0 ∧ ∃ p, s.get_proposal i = .ok p ∧ c.signer = p.creator_id ∧ Editable p c.now
  | .create_proposal _ => s.open_for_new_mpips = true ∧ s.mpip_storage_near ≤ c.deposit
  | .vote_proposal i _ _ => c.deposit = 0 ∧ (∃ p, s.get_proposal i = .ok p ∧ OnVoting p c.now) ∧
    s.has_voted c.predecessor i = false
  | .remove_vote_proposal i => c.deposit = 0 ∧ (∃ p, s.get_proposal i = .ok p ∧ OnVoting p c.now) ∧
    s.has_voted c.predecessor i = true
  | .process_voting_status i => c.deposit = 0 ∧ s.runs c ∧ ∃ p, s.get_proposal i = .ok p ∧
    (OnVoting p c.now → p.vote_end_timestamp = some c.now →
      (s.get_proposal_votes i).tally .for_ + (s.get_proposal_votes i).tally .abstain ≤ U128_MAX)
  | .start_voting_period_callback i => c.deposit = 0 ∧ c.predecessor = c.current ∧
    (∃ b n, c.results = [.successful b] ∧ J.total b = some n ∧ n * s.quorum_floor ≤ U128_MAX ∧ n ≤ U128_MAX) ∧
    (∃ p, s.get_proposal i = .ok p) ∧ c.now + s.voting_period ≤ U64_MAX
  | .create_proposal_callback _ => c.deposit = 0 ∧ c.predecessor = c.current ∧
    ∃ b l, c.results = [.successful b] ∧ J.read_positions b = some l ∧ s.min_voting_power_amount ≤ lockedSum l ∧
      lockedSum l ≤ U128_MAX
  | .vote_proposal_callback i _ t _ => c.deposit = 0 ∧ c.predecessor = c.current ∧ i ≤ U32_MAX ∧
    ∃ b l, c.results = [.successful b] ∧ J.read_positions b = some l ∧ 0 < lockedSum l ∧
      (s.get_proposal_votes i).tally t + lockedSum l ≤ U128_MAX

end Verif.Mpip
