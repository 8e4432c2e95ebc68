import Verif.Serde.MpipApi
import Verif.Props.MpipReplay

/-!
# Account ids that the proposal contract keeps

If the account ids in the arguments, the signer and the caller of every call are valid, so is every id that is kept.
-/

namespace Verif.Mpip

open Verif Serde

/-- Every account id in the state is valid: admin, operator, both contracts, creators, proposers, voters. -/
structure Ids (s : State) : Prop where
  admin : validAccount s.admin_id = true
  operator : validAccount s.operator_id = true
  token : validAccount s.meta_token_contract_address = true
  power : validAccount s.meta_vote_contract_address = true
  creators : ∀ i p, s.proposals.get i = some p → validAccount p.creator_id = true
  listed : ∀ i pv, s.votes.get i = some pv → ∀ a v, pv.has_voted.get a = some v → validAccount a = true
  voters : ∀ a v, s.voters.get a = some v → validAccount a = true
  proposers : ∀ a l, s.proposers.get a = some l → validAccount a = true

variable {J : Json} {s s' : State} {c : Ctx} {k : Call} {out : List Promise}

theorem ids_new {a o t v : AccountId} {p m st q : Nat} (h : new false a o t v p m st q = .ok s)
    (hv : (Call.new_ a o t v p m st q).valid) : Ids s := by
  simp only [new, bind_ok_iff, require_ok_iff, pure_ok_iff] at h
  obtain ⟨-, -, -, -, rfl⟩ := h
  exact ⟨hv.1, hv.2.1, hv.2.2.1, hv.2.2.2, by simp, by simp, by simp, by simp⟩

theorem Ids.replace (h : Ids s) {i : Nat} {p q : Proposal} (hp : s.proposals.get i = some p) (hq : q.creator_id = p.creator_id) :
    Ids { s with proposals := s.proposals.insert i q } :=
  { h with
    creators := by
      intro j r hr
      rw [UMap.get_insert] at hr
      split at hr
      · cases hr; rw [hq]; exact h.creators _ _ hp
      · exact h.creators _ _ hr }

theorem Ids.tally (h : Ids s) (i : Nat) {a : AccountId} {v : Vote} (hv : (s.internal_get_proposal_vote i).has_voted.get a = some v) :
    validAccount a = true := by
  unfold State.internal_get_proposal_vote at hv
  cases hg : s.votes.get i with
  | none => rw [hg] at hv; simp [ProposalVote.new] at hv
  | some pv => rw [hg] at hv; exact h.listed _ _ hg _ _ hv

theorem add_tally_has {pv pv' : ProposalVote} {t : VoteType} {n : Nat} (h : State.add_tally pv t n = .ok pv') :
    pv'.has_voted = pv.has_voted := by
  cases t <;> simp only [State.add_tally, bind_ok_iff, pure_ok_iff] at h <;> obtain ⟨_, _, rfl⟩ := h <;> rfl

theorem sub_tally_has {pv pv' : ProposalVote} {t : VoteType} {n : Nat} (h : State.sub_tally pv t n = .ok pv') :
    pv'.has_voted = pv.has_voted := by
  cases t <;> simp only [State.sub_tally, bind_ok_iff, pure_ok_iff] at h <;> obtain ⟨_, _, rfl⟩ := h <;> rfl

theorem Ids.exec (h : Ids s) (hx : exec J s c k = .ok (s', out)) (hk : k.valid) (hs : validAccount c.signer = true)
    (hp : validAccount c.predecessor = true) : Ids s' := by
  obtain ⟨-, -, -, hr⟩ := exec_ok.1 hx
  cases k <;> simp only [run, quiet_ok, sends_ok] at hr <;> obtain ⟨hr, rfl⟩ := hr
  case new_ => simp [new] at hr
  case start_voting_period_callback i =>
    simp only [State.start_voting_period_callback, State.internal_get_proposal, bind_ok_iff, pure_ok_iff, expect_ok_iff] at hr
    obtain ⟨_, _, _, hpr, _, _, _, _, rfl⟩ := hr
    exact h.replace hpr rfl
  case create_proposal_callback t =>
    simp only [State.create_proposal_callback, bind_ok_iff, pure_ok_iff] at hr
    obtain ⟨-, -, -, -, rfl⟩ := hr
    refine { h with creators := ?_, proposers := ?_ }
    · intro j r hr
      rw [UMap.get_insert] at hr
      split at hr
      · cases hr; exact hs
      · exact h.creators _ _ hr
    · intro j r hr
      rw [UMap.get_insert] at hr
      split at hr
      · rename_i e; rw [← e]; exact hs
      · exact h.proposers _ _ hr
  case cancel_proposal i =>
    simp only [State.cancel_proposal, State.internal_get_proposal, bind_ok_iff, pure_ok_iff, expect_ok_iff] at hr
    obtain ⟨-, -, -, -, _, hpr, rfl⟩ := hr
    exact h.replace hpr rfl
  case update_proposal i t =>
    simp only [State.update_proposal, State.internal_get_proposal, bind_ok_iff, pure_ok_iff, expect_ok_iff] at hr
    obtain ⟨-, -, -, -, _, hpr, rfl⟩ := hr
    exact h.replace hpr rfl
  case vote_proposal_callback i v t m =>
    simp only [State.vote_proposal_callback, bind_ok_iff, pure_ok_iff] at hr
    obtain ⟨n, -, -, -, pv, hpv, rfl⟩ := hr
    have hh := add_tally_has hpv
    refine { h with listed := ?_, voters := ?_ }
    · intro j q hq a w hw
      rw [UMap.get_insert] at hq
      split at hq
      · cases hq
        rw [hh, UMap.get_insert] at hw
        split at hw
        · rename_i e; rw [← e]; exact hk
        · exact h.tally i hw
      · exact h.listed _ _ hq _ _ hw
    · intro j r hr
      rw [UMap.get_insert] at hr
      split at hr
      · rename_i e; rw [← e]; exact hk
      · exact h.voters _ _ hr
  case remove_vote_proposal i =>
    simp only [State.remove_vote_proposal, bind_ok_iff, pure_ok_iff] at hr
    obtain ⟨-, -, -, -, uv, -, pv, hpv, rfl⟩ := hr
    have hh := sub_tally_has hpv
    refine { h with listed := ?_, voters := ?_ }
    · intro j q hq a w hw
      rw [UMap.get_insert] at hq
      split at hq
      · cases hq
        rw [UMap.get_remove, hh] at hw
        split at hw
        · cases hw
        · exact h.tally i hw
      · exact h.listed _ _ hq _ _ hw
    · intro j r hr
      split at hr
      · rw [UMap.get_remove] at hr
        split at hr
        · cases hr
        · exact h.voters _ _ hr
      · rw [UMap.get_insert] at hr
        split at hr
        · rename_i e; rw [← e]; exact hp
        · exact h.voters _ _ hr
  case process_voting_status i =>
    simp only [State.process_voting_status, bind_ok_iff] at hr
    obtain ⟨_, _, _, _, hr⟩ := hr
    split at hr
    · cases hr; exact h
    · simp only [State.internal_get_proposal, bind_ok_iff, expect_ok_iff] at hr
      obtain ⟨p, hpr, _, _, hr⟩ := hr
      split at hr
      · simp only [bind_ok_iff] at hr
        obtain ⟨_, _, hr⟩ := hr
        split at hr <;> cases hr <;> first | exact h.replace hpr rfl | exact h
      · cases hr; exact h
  case update_quorum_floor n =>
    simp only [State.update_quorum_floor, bind_ok_iff, pure_ok_iff] at hr
    obtain ⟨-, -, -, -, rfl⟩ := hr
    exact { h with }
  case start_voting_period =>
    simp only [State.start_voting_period, bind_ok_iff, pure_ok_iff] at hr
    obtain ⟨-, -, -, -, rfl⟩ := hr
    exact h
  case create_proposal =>
    simp only [State.create_proposal, bind_ok_iff, pure_ok_iff] at hr
    obtain ⟨-, -, -, -, rfl⟩ := hr
    exact h
  case vote_proposal =>
    simp only [State.vote_proposal, bind_ok_iff, pure_ok_iff] at hr
    obtain ⟨-, -, -, -, rfl⟩ := hr
    exact h
  all_goals
    simp only [State.update_open_for_new_mpips, State.update_operator_role, State.update_admin_role,
      State.pay_to_account, State.update_voting_period, State.update_min_meta_amount,
      State.update_min_voting_power_amount, State.update_mpip_storage_near,
      State.update_meta_vote_contract_address, bind_ok_iff, pure_ok_iff] at hr
    obtain ⟨-, -, rfl⟩ := hr
    first
      | exact { h with }
      | exact { h with operator := hk }
      | exact { h with admin := hk }
      | exact { h with power := hk }

end Verif.Mpip
