import Verif.Mpip.BytesRep
import Verif.Base.Rel

/-!
# One call of mpip on the bytes of its storage
-/

namespace Verif.Mpip.Bytes

open Verif Storage Disk Borsh

/-- The tables of a state. -/
def tabOf (s : State) : Tab :=
  ⟨s.proposals, s.votes, s.voters, s.proposers, fun i => (s.internal_get_proposal_vote i).has_voted,
    fun a => (s.internal_get_voter a).votes⟩

/-- The record of a state, with the lengths of the tables. -/
def rootOf (H : Hash) (s : State) (t : Tab) : MpipRec where
  admin_id := s.admin_id
  operator_id := s.operator_id
  meta_token_contract_address := s.meta_token_contract_address
  meta_vote_contract_address := s.meta_vote_contract_address
  proposals := .at (pre H .mpips) t.props.len
  votes := .at (pre H .mpipVotes) t.tally.len
  voters := .at (pre H .voters) t.voters.len
  proposers := .at (pre H .proposers) t.proposers.len
  voting_period := s.voting_period
  min_meta_amount := s.min_meta_amount
  min_st_near_amount := s.min_st_near_amount
  min_voting_power_amount := s.min_voting_power_amount
  mpip_cost_in_meta := s.mpip_cost_in_meta
  mpip_storage_near := s.mpip_storage_near
  open_for_new_mpips := s.open_for_new_mpips
  quorum_floor := s.quorum_floor

/-- The fields of the record that are no collections fit. -/
structure RFit (s : State) : Prop where
  admin_id : StrFits s.admin_id
  operator_id : StrFits s.operator_id
  meta_token : StrFits s.meta_token_contract_address
  meta_vote : StrFits s.meta_vote_contract_address
  voting_period : s.voting_period < 2 ^ 64
  min_meta_amount : s.min_meta_amount < 2 ^ 128
  min_st_near_amount : s.min_st_near_amount < 2 ^ 128
  min_voting_power_amount : s.min_voting_power_amount < 2 ^ 128
  mpip_cost_in_meta : s.mpip_cost_in_meta < 2 ^ 128
  mpip_storage_near : s.mpip_storage_near < 2 ^ 128
  quorum_floor : s.quorum_floor < 2 ^ 16

/-- The collections in storage are those of the state. -/
structure Rep (H : Hash) (N : Names) (f : Nat) (s : State) (D : Disk) : Prop where
  tabs : At H N f (tabOf s) D
  fit : RFit s

/-- The storage is that of the state. -/
structure Stored (H : Hash) (N : Names) (f : Nat) (s : State) (D : Disk) : Prop where
  state : D STATE = some (mpipRec.enc (rootOf H s (tabOf s)))
  rep : Rep H N f s D

/-- The record in memory and the collections in storage are those of the state. -/
def RS (H : Hash) (N : Names) (f : Nat) (s : State) (x : St) : Prop := x.r = rootOf H s (tabOf s) ∧ Rep H N f s x.D

/-- The texts of a proposal can be stored. -/
def ContentFits (t : Content) : Prop :=
  StrFits t.title ∧ StrFits t.short_description ∧ StrFits t.body ∧ StrFits t.data ∧ StrFits t.extra

/-- The names of a call occur, and its texts can be stored. -/
def CallOK (N : Names) (c : Ctx) : Call → Prop
  | .update_operator_role a | .update_admin_role a | .update_meta_vote_contract_address a => StrFits a
  | .create_proposal t | .create_proposal_callback t => ContentFits t ∧ StrFits c.signer
  | .update_proposal _ t => ContentFits t
  | .vote_proposal i _ m => N.prop i ∧ N.voter c.predecessor ∧ StrFits m
  | .vote_proposal_callback i a _ m => N.prop i ∧ N.voter a ∧ StrFits m
  | .remove_vote_proposal i => N.prop i ∧ N.voter c.predecessor
  | _ => True

variable {H : Hash} {N : Names} {f f' : Nat} {s s' : State} {D D' : Disk} {x : St} {J : Json} {c : Ctx} {i : Nat} {a : AccountId}

/-- `self` of a call on the storage of a state. -/
def self (H : Hash) (s : State) (D : Disk) : St := ⟨D, rootOf H s (tabOf s)⟩

theorem Rep.mono (h : Rep H N f s D) (hf : f' ≤ f) : Rep H N f' s D := ⟨h.tabs.mono hf, h.fit⟩
theorem Stored.mono (h : Stored H N f s D) (hf : f' ≤ f) : Stored H N f' s D := ⟨h.state, h.rep.mono hf⟩

theorem lt128 {a : Nat} (h : a ≤ U128_MAX) : a < 2 ^ 128 := by unfold U128_MAX at h; omega
theorem lt64 {a : Nat} (h : a ≤ U64_MAX) : a < 2 ^ 64 := by unfold U64_MAX at h; omega
theorem lt32 {a : Nat} (h : a ≤ U32_MAX) : a < 2 ^ 32 := by unfold U32_MAX at h; omega
theorem lt16 {a : Nat} (h : a ≤ U16_MAX) : a < 2 ^ 16 := by unfold U16_MAX at h; omega

theorem now_lt (h : c.timestamp ≤ U64_MAX) : c.now < 2 ^ 64 := Nat.lt_of_le_of_lt (Nat.div_le_self _ _) (lt64 h)

/-! ## Reading -/

theorem Rep.proposal (h : Rep H N f s D) (hi : i < 2 ^ 32) :
    (self H s D).internal_get_proposal i = s.internal_get_proposal i := by
  unfold St.internal_get_proposal State.internal_get_proposal
  rw [show MapH.get u32 Borsh.proposal (self H s D).D (self H s D).r.proposals i = _ from h.tabs.getProposal hi]
  rfl

theorem Rep.fits (h : Rep H N f s D) {p : Proposal} (hp : s.internal_get_proposal i = .ok p) : ProposalFits p := by
  unfold State.internal_get_proposal at hp
  rw [expect_ok_iff] at hp
  exact proposal_ok.1 (isMap_ok (h.tabs.coll .mpips trivial).1 hp).2

theorem Rep.tally (h : Rep H N f s D) (hi : i < 2 ^ 32) :
    (self H s D).internal_get_proposal_vote H i = .ok (tallyOf H i (s.internal_get_proposal_vote i)) := by
  unfold St.internal_get_proposal_vote State.internal_get_proposal_vote
  rw [show MapH.get u32 tallyRec (self H s D).D (self H s D).r.votes i = _ from h.tabs.getTally hi]
  show Except.ok (((s.votes.get i).map (tallyOf H i)).getD (newTally H i)) = _
  cases s.votes.get i <;> rfl

/-- Numbers of a tally. -/
theorem Rep.tallyFits (h : Rep H N f s D) (i : Nat) :
    (s.internal_get_proposal_vote i).for_votes < 2 ^ 128 ∧ (s.internal_get_proposal_vote i).against_votes < 2 ^ 128 ∧
      (s.internal_get_proposal_vote i).abstain_votes < 2 ^ 128 := by
  unfold State.internal_get_proposal_vote
  cases hv : s.votes.get i with
  | none => exact ⟨by decide, by decide, by decide⟩
  | some pv =>
    have hg : ((tabOf s).tally.mapE (tallyOf H)).get i = some (tallyOf H i pv) := by
      rw [UMap.mapE_get, show (tabOf s).tally.get i = some pv from hv]; rfl
    have := tally_ok.1 (isMap_ok (h.tabs.coll .mpipVotes trivial).1 hg).2
    exact ⟨this.1, this.2.1, this.2.2.1⟩

theorem Rep.voter (h : Rep H N f s D) (ha : StrFits a) :
    (self H s D).internal_get_voter H a = .ok (voterOf H a (s.internal_get_voter a)) := by
  unfold St.internal_get_voter State.internal_get_voter
  rw [show MapH.get string mpipVoterRec (self H s D).D (self H s D).r.voters a = _ from h.tabs.getVoter ha]
  show Except.ok (((s.voters.get a).map (voterOf H a)).getD (newVoter H a)) = _
  cases s.voters.get a <;> rfl

theorem Rep.proposer (h : Rep H N f s D) (ha : StrFits a) :
    (self H s D).internal_get_proposer a = .ok (s.internal_get_proposer a) := by
  unfold St.internal_get_proposer State.internal_get_proposer
  rw [show MapH.get string (list u32) (self H s D).D (self H s D).r.proposers a = _ from h.tabs.getProposer ha]
  rfl

theorem Rep.proposerFits (h : Rep H N f s D) (hf : f < 2 ^ 32) (a : AccountId) :
    Room f (s.internal_get_proposer a).length ∧ ∀ k ∈ s.internal_get_proposer a, k < 2 ^ 32 := by
  unfold State.internal_get_proposer
  obtain ⟨h1, -, h3⟩ := h.tabs.coll .proposers trivial
  cases hv : s.proposers.get a with
  | none => exact ⟨by unfold Room; simpa using hf, fun k hk => by cases hk⟩
  | some l => exact ⟨h3 a l hv, (ids_ok.1 (isMap_ok h1 hv).2).2⟩

/-- The votes of a voter that is known. -/
theorem Rep.voterVotes (h : Rep H N f s D) {v : Voter} (hv : s.voters.get a = some v) (hi : i < 2 ^ 32) :
    MapH.get u32 vote D (voterOf H a v).votes i = .ok (v.votes.get i) := by
  have ha : N.voter a := (h.tabs.coll .voters trivial).2.2 a v hv
  have h1 := (h.tabs.votes ha).1
  have e : (tabOf s).vv a = v.votes := by
    show (s.internal_get_voter a).votes = _
    unfold State.internal_get_voter
    rw [hv]; rfl
  rw [e] at h1
  exact h1.get (u32_ok.2 hi)

theorem Rep.hasVoted (h : Rep H N f s D) (ha : StrFits a) (hi : i < 2 ^ 32) :
    (self H s D).internal_has_voted i a = .ok (s.internal_has_voted i a) := by
  unfold St.internal_has_voted State.internal_has_voted
  rw [show MapH.get string mpipVoterRec (self H s D).D (self H s D).r.voters a = _ from h.tabs.getVoter ha]
  show (match (s.voters.get a).map (voterOf H a) with
    | some w => _
    | none => _ : Res Bool) = _
  cases hv : s.voters.get a with
  | none => rfl
  | some v =>
    show (MapH.get u32 vote D (voterOf H a v).votes i >>= _) = _
    rw [h.voterVotes hv hi]
    rfl

theorem Rep.voterVote (h : Rep H N f s D) (ha : StrFits a) (hi : i < 2 ^ 32) :
    (self H s D).internal_get_voter_vote i a = s.internal_get_voter_vote i a := by
  unfold St.internal_get_voter_vote State.internal_get_voter_vote
  rw [show MapH.get string mpipVoterRec (self H s D).D (self H s D).r.voters a = _ from h.tabs.getVoter ha]
  show (expect ((s.voters.get a).map (voterOf H a)) _ >>= _) = _
  cases hv : s.voters.get a with
  | none => rfl
  | some v =>
    show (MapH.get u32 vote D (voterOf H a v).votes i >>= _) = _
    rw [h.voterVotes hv hi]
    rfl

theorem Rep.active (h : Rep H N f s D) (hi : i < 2 ^ 32) (now : Nat) :
    (self H s D).internal_proposal_is_active now i = s.internal_proposal_is_active now i := by
  unfold St.internal_proposal_is_active State.internal_proposal_is_active
  rw [h.proposal hi]
  rfl

theorem Rep.activeOrDraft (h : Rep H N f s D) (hi : i < 2 ^ 32) (now : Nat) :
    (self H s D).internal_proposal_is_active_or_draft now i = s.internal_proposal_is_active_or_draft now i := by
  unfold St.internal_proposal_is_active_or_draft State.internal_proposal_is_active_or_draft
  rw [h.proposal hi]
  rfl

theorem Rep.onVoting (h : Rep H N f s D) (hi : i < 2 ^ 32) (now : Nat) :
    (self H s D).internal_proposal_is_on_voting now i = s.internal_proposal_is_on_voting now i := by
  unfold St.internal_proposal_is_on_voting State.internal_proposal_is_on_voting
  rw [h.proposal hi]
  rfl

theorem Rep.quorum (h : Rep H N f s D) (hi : i < 2 ^ 32) :
    (self H s D).internal_is_quorum_reached H i = s.internal_is_quorum_reached i := by
  unfold St.internal_is_quorum_reached State.internal_is_quorum_reached
  rw [h.tally hi, h.proposal hi]
  rfl

theorem Rep.operatorOrCreator (h : Rep H N f s D) (hi : i < 2 ^ 32) (c : Ctx) :
    (self H s D).assert_only_operator_or_creator c i = s.assert_only_operator_or_creator c i := by
  unfold St.assert_only_operator_or_creator State.assert_only_operator_or_creator
  rw [h.proposal hi]
  rfl

theorem Rep.creator (h : Rep H N f s D) (hi : i < 2 ^ 32) (c : Ctx) :
    (self H s D).assert_only_creator c i = s.assert_only_creator c i := by
  unfold St.assert_only_creator State.assert_only_creator
  rw [h.proposal hi]

theorem Rep.assertActive (h : Rep H N f s D) (hi : i < 2 ^ 32) (c : Ctx) :
    (self H s D).assert_proposal_is_active_or_draft c i = s.assert_proposal_is_active_or_draft c i := by
  unfold St.assert_proposal_is_active_or_draft State.assert_proposal_is_active_or_draft
  rw [h.activeOrDraft hi]

theorem Rep.assertOnVoting (h : Rep H N f s D) (hi : i < 2 ^ 32) (c : Ctx) :
    (self H s D).assert_proposal_is_on_voting c i = s.assert_proposal_is_on_voting c i := by
  unfold St.assert_proposal_is_on_voting State.assert_proposal_is_on_voting
  rw [h.onVoting hi]

theorem Rep.assertHasVoted (h : Rep H N f s D) (ha : StrFits a) (hi : i < 2 ^ 32) :
    (self H s D).assert_has_voted i a = s.assert_has_voted i a ∧ (self H s D).assert_has_not_voted i a = s.assert_has_not_voted i a := by
  unfold St.assert_has_voted State.assert_has_voted St.assert_has_not_voted State.assert_has_not_voted
  rw [h.hasVoted ha hi]
  exact ⟨rfl, rfl⟩

/-! ## Powers of replies -/

theorem total_lt {n : Nat} (h : State.internal_get_user_total_voting_power_from_promise J c = .ok n) : n < 2 ^ 128 := by
  unfold State.internal_get_user_total_voting_power_from_promise at h
  simp only [bind_ok_iff] at h
  obtain ⟨b, -, l, -, h⟩ := h
  suffices ∀ (l : List MetaVote.LockingPositionJSON) (m : Nat), m < 2 ^ 128 → l.foldlM State.sum_locked_power m = .ok n → n < 2 ^ 128 from
    this l 0 (by decide) h
  intro l
  induction l with
  | nil => intro m hm h; cases h; exact hm
  | cons p t ih =>
    intro m hm h
    rw [List.foldlM_cons, bind_ok_iff] at h
    obtain ⟨m', h1, h2⟩ := h
    refine ih m' ?_ h2
    unfold State.sum_locked_power at h1
    split at h1
    · rw [addU128_ok_iff] at h1; exact h1.2 ▸ lt128 h1.1
    · cases h1; exact hm

/-! ## Writing -/

theorem RFit.same (h : RFit s) {o : UMap Nat Proposal} {v : UMap Nat ProposalVote} {w : UMap AccountId Voter}
    {q : UMap AccountId (List Nat)} : RFit { s with proposals := o, votes := v, voters := w, proposers := q } :=
  ⟨h.1, h.2, h.3, h.4, h.5, h.6, h.7, h.8, h.9, h.10, h.11⟩

theorem Rep.putProposal (hN : N.OK H) (h : Rep H N (f + 1) s D) (hi : i < 2 ^ 32) {p : Proposal} (hp : ProposalFits p) :
    Rel (RS H N f) (Pure.pure { s with proposals := s.proposals.insert i p }) ((self H s D).putProposal i p) := by
  obtain ⟨D', h1, h2⟩ := h.tabs.putProposal hN hi hp
  unfold St.putProposal
  refine Rel.ok h1 ?_
  exact ⟨rfl, h2, h.fit.same⟩

/-- A method that sets a field of the record. -/
theorem Rep.set (h : Rep H N f s D) (ht : tabOf s' = tabOf s) (hs : RFit s') : RS H N f s' ⟨D, rootOf H s' (tabOf s')⟩ :=
  ⟨rfl, ht ▸ h.tabs, hs⟩

theorem Rep.rs (h : Rep H N f s D) : RS H N f s (self H s D) := ⟨rfl, h⟩

/-! ## Methods -/

theorem Rep.start_voting_period_callback (hN : N.OK H) (h : Rep H N (f + 1) s D) (hi : i < 2 ^ 32) (hc : c.timestamp ≤ U64_MAX) :
    Rel (RS H N f) (s.start_voting_period_callback J c i) ((self H s D).start_voting_period_callback J c i) := by
  unfold State.start_voting_period_callback St.start_voting_period_callback
  refine Rel.step _ fun total _ => ?_
  rw [h.proposal hi]
  refine Rel.step _ fun p hp => ?_
  refine Rel.step _ fun e he => ?_
  refine Rel.step (s.internal_get_quorum total) fun q hq => ?_
  refine h.putProposal hN hi ?_
  obtain ⟨h1, h2, h3, h4, h5, h6, h7, -, -, -⟩ := h.fits hp
  refine ⟨h1, h2, h3, h4, h5, h6, h7, ?_, ?_, ?_⟩
  · rintro t ⟨⟩; exact now_lt hc
  · rintro t ⟨⟩; rw [addU64_ok_iff] at he; exact he.2 ▸ lt64 he.1
  · rintro t ⟨⟩
    unfold State.internal_get_quorum at hq
    simp only [bind_ok_iff, mulU128_ok_iff, pure_ok_iff] at hq
    obtain ⟨y, ⟨hy, rfl⟩, rfl⟩ := hq
    exact Nat.lt_of_le_of_lt ((Nat.div_le_self _ _).trans (Nat.div_le_self _ _)) (lt128 hy)

theorem Rep.create_proposal_callback (hN : N.OK H) (h : Rep H N (f + 2) s D) {t : Content} (ht : ContentFits t) (hs : StrFits c.signer) :
    Rel (RS H N f) (s.create_proposal_callback J c t) ((self H s D).create_proposal_callback J c t) := by
  unfold State.create_proposal_callback St.create_proposal_callback
  refine Rel.step _ fun total _ => ?_
  refine Rel.step (s.assert_proposal_threshold total) fun _ _ => ?_
  have hid : s.proposals.len % 4294967296 < 2 ^ 32 := Nat.mod_lt _ (by decide)
  obtain ⟨D1, h1, h2⟩ := h.tabs.putProposal hN (p := State.new_proposal c (s.proposals.len % 4294967296) t) hid
    ⟨hid, ht.1, ht.2.1, ht.2.2.1, ht.2.2.2.1, ht.2.2.2.2, hs, (fun _ e => by cases e), (fun _ e => by cases e),
      (fun _ e => by cases e)⟩
  dsimp only
  have e1 : (self H s D).r.proposals.keys.len = s.proposals.len := rfl
  rw [e1]
  refine Rel.ok (c := self H { s with
    proposals := s.proposals.insert (s.proposals.len % 4294967296) (State.new_proposal c (s.proposals.len % 4294967296) t) } D1) ?_ ?_
  · unfold St.putProposal
    rw [show MapH.insert u32 Borsh.proposal (self H s D).D (self H s D).r.proposals (s.proposals.len % 4294967296) _ = _ from h1]
    rfl
  generalize hs' : ({ s with
    proposals := s.proposals.insert (s.proposals.len % 4294967296) (State.new_proposal c (s.proposals.len % 4294967296) t) } : State) = s1
  have h3 : Rep H N (f + 1) s1 D1 := by subst hs'; exact ⟨h2, h.fit.same⟩
  refine Rel.ok (h3.proposer hs) ?_
  have hf : f + 2 < 2 ^ 32 := by
    have := (h.tabs.coll .mpips trivial).2
    unfold Room at this; omega
  obtain ⟨h4, h5⟩ := h.proposerFits hf c.signer
  have e2 : s1.internal_get_proposer c.signer = s.internal_get_proposer c.signer := by subst hs'; rfl
  have e3 : s1.proposers = s.proposers := by subst hs'; rfl
  obtain ⟨D2, h6, h7⟩ := h3.tabs.putProposer hN hs (l := s1.internal_get_proposer c.signer ++ [s.proposals.len % 4294967296])
    (by rw [e2]; unfold Room at h4 ⊢; rw [List.length_append, List.length_singleton]; omega)
    (fun k hk => by
      rw [e2] at hk
      rcases List.mem_append.1 hk with hk | hk
      · exact h5 k hk
      · rw [List.mem_singleton.1 hk]; exact hid)
  refine Rel.ok h6 ?_
  subst hs'
  exact ⟨rfl, h7, h3.fit.same⟩

theorem Rep.cancel_proposal (hN : N.OK H) (h : Rep H N (f + 1) s D) (hi : i < 2 ^ 32) :
    Rel (RS H N f) (s.cancel_proposal c i) ((self H s D).cancel_proposal c i) := by
  unfold State.cancel_proposal St.cancel_proposal
  rw [h.operatorOrCreator hi]
  refine Rel.step _ fun _ _ => ?_
  rw [h.assertActive hi]
  refine Rel.step _ fun _ _ => ?_
  rw [h.proposal hi]
  refine Rel.step _ fun p hp => ?_
  have hf := h.fits hp
  exact h.putProposal hN hi hf

theorem Rep.update_proposal (hN : N.OK H) (h : Rep H N (f + 1) s D) (hi : i < 2 ^ 32) {t : Content} (ht : ContentFits t) :
    Rel (RS H N f) (s.update_proposal c i t) ((self H s D).update_proposal c i t) := by
  unfold State.update_proposal St.update_proposal
  rw [h.creator hi]
  refine Rel.step _ fun _ _ => ?_
  rw [h.assertActive hi]
  refine Rel.step _ fun _ _ => ?_
  rw [h.proposal hi]
  refine Rel.step _ fun p hp => ?_
  obtain ⟨h1, -, -, -, -, -, h7, h8⟩ := h.fits hp
  exact h.putProposal hN hi ⟨h1, ht.1, ht.2.1, ht.2.2.1, ht.2.2.2.1, ht.2.2.2.2, h7, h8⟩

theorem Rep.process_voting_status (hN : N.OK H) (h : Rep H N (f + 1) s D) (hi : i < 2 ^ 32) :
    Rel (RS H N f) (s.process_voting_status c i) ((self H s D).process_voting_status H c i) := by
  unfold State.process_voting_status St.process_voting_status
  refine Rel.step (s.assert_only_operator c) fun _ _ => ?_
  rw [h.onVoting hi]
  refine Rel.step _ fun b _ => ?_
  have same : RS H N f s (self H s D) := (h.mono (Nat.le_succ f)).rs
  split
  · exact same
  · rw [h.proposal hi]
    refine Rel.step _ fun p hp => ?_
    refine Rel.step _ fun e _ => ?_
    split
    · rw [h.quorum hi]
      refine Rel.step _ fun q _ => ?_
      split
      · have hf := h.fits hp
        exact h.putProposal hN hi hf
      · exact same
    · exact same

/-- The tally of a vote. -/
theorem add_tally_rel {pv : ProposalVote} {v : VoteType} {n : Nat} :
    Rel (fun p t => t = tallyOf H i p) (State.add_tally pv v n) (St.add_tally (tallyOf H i pv) v n) := by
  cases v <;> exact Rel.step _ fun _ _ => rfl

theorem sub_tally_rel {pv : ProposalVote} {v : VoteType} {n : Nat} :
    Rel (fun p t => t = tallyOf H i p) (State.sub_tally pv v n) (St.sub_tally (tallyOf H i pv) v n) := by
  cases v <;> exact Rel.step _ fun _ _ => rfl

/-- Numbers of a tally. -/
def Fits3 (pv : ProposalVote) : Prop := pv.for_votes < 2 ^ 128 ∧ pv.against_votes < 2 ^ 128 ∧ pv.abstain_votes < 2 ^ 128

theorem add_tally_ok {pv pv' : ProposalVote} {v : VoteType} {n : Nat} (h : State.add_tally pv v n = .ok pv') (hf : Fits3 pv) :
    pv'.has_voted = pv.has_voted ∧ Fits3 pv' := by
  cases v <;>
  · simp only [State.add_tally, bind_ok_iff, addU128_ok_iff, pure_ok_iff] at h
    obtain ⟨m, ⟨hm, rfl⟩, rfl⟩ := h
    have := lt128 hm
    exact ⟨rfl, by unfold Fits3 at *; simp only; omega⟩

theorem sub_tally_ok {pv pv' : ProposalVote} {v : VoteType} {n : Nat} (h : State.sub_tally pv v n = .ok pv') (hf : Fits3 pv) :
    pv'.has_voted = pv.has_voted ∧ Fits3 pv' := by
  cases v <;>
  · simp only [State.sub_tally, bind_ok_iff, subU_ok_iff, pure_ok_iff] at h
    obtain ⟨m, ⟨hm, rfl⟩, rfl⟩ := h
    exact ⟨rfl, by unfold Fits3 at *; simp only; omega⟩

/-- The tables after a vote, or after a vote is taken back. -/
theorem tabOf_vote {pv : ProposalVote} {v : Voter} :
    tabOf { s with votes := s.votes.insert i pv, voters := s.voters.insert a v } =
      { tabOf s with
        hv := upd (tabOf s).hv i pv.has_voted
        tally := s.votes.insert i pv
        vv := upd (tabOf s).vv a v.votes
        voters := s.voters.insert a v } := by
  unfold tabOf
  congr 1
  · funext j
    by_cases e : j = i
    · subst e; simp [State.internal_get_proposal_vote]
    · rw [upd_ne _ _ e]
      unfold State.internal_get_proposal_vote
      rw [UMap.get_insert, if_neg (fun h => e h.symm)]
  · funext b
    by_cases e : b = a
    · subst e; simp [State.internal_get_voter]
    · rw [upd_ne _ _ e]
      unfold State.internal_get_voter
      rw [UMap.get_insert, if_neg (fun h => e h.symm)]

theorem tabOf_unvote {pv : ProposalVote} :
    tabOf { s with votes := s.votes.insert i pv, voters := s.voters.remove a } =
      { tabOf s with
        hv := upd (tabOf s).hv i pv.has_voted
        tally := s.votes.insert i pv
        vv := upd (tabOf s).vv a UMap.empty
        voters := s.voters.remove a } := by
  unfold tabOf
  congr 1
  · funext j
    by_cases e : j = i
    · subst e; simp [State.internal_get_proposal_vote]
    · rw [upd_ne _ _ e]
      unfold State.internal_get_proposal_vote
      rw [UMap.get_insert, if_neg (fun h => e h.symm)]
  · funext b
    by_cases e : b = a
    · subst e; simp [State.internal_get_voter]
    · rw [upd_ne _ _ e]
      unfold State.internal_get_voter
      rw [UMap.get_remove, if_neg (fun h => e h.symm)]

theorem Rep.vote_proposal_callback (hN : N.OK H) (h : Rep H N (f + 4) s D) (hi : N.prop i) (ha : N.voter a) {v : VoteType} {m : String}
    (hm : StrFits m) :
    Rel (RS H N f) (s.vote_proposal_callback J c i a v m) ((self H s D).vote_proposal_callback H J c i a v m) := by
  have hi' := hN.prop i hi
  have ha' := hN.voter a ha
  unfold State.vote_proposal_callback St.vote_proposal_callback
  refine Rel.step _ fun total ht => ?_
  refine Rel.ok (h.voter ha') ?_
  refine Rel.step _ fun _ _ => ?_
  refine Rel.ok (h.tally hi') ?_
  dsimp only
  have hv : VoteFits ⟨i, v, total, m⟩ := ⟨hi', total_lt ht, hm⟩
  obtain ⟨D1, h1, h2⟩ := h.tabs.insertHasVoted hN (f := f + 3) hi ha' hv
  generalize hpv : ({ s.internal_get_proposal_vote i with
    has_voted := (s.internal_get_proposal_vote i).has_voted.insert a ⟨i, v, total, m⟩ } : ProposalVote) = pv
  have hfit : Fits3 pv := by subst hpv; exact h.tallyFits i
  have hhv : pv.has_voted = ((tabOf s).hv i).insert a ⟨i, v, total, m⟩ := by subst hpv; rfl
  refine Rel.ok (c := (⟨D1, rootOf H s (tabOf s)⟩, tallyOf H i pv)) ?_ ?_
  · unfold St.insertHasVoted
    subst hpv
    rw [show MapH.insert string Borsh.vote (self H s D).D (tallyOf H i (s.internal_get_proposal_vote i)).has_voted a _ = _ from h1]
    rfl
  refine add_tally_rel.bind ?_
  rintro pv' t hpv' rfl
  obtain ⟨h3, h4⟩ := add_tally_ok hpv' hfit
  have hroom : pv'.has_voted.len < 2 ^ 64 := by
    rw [h3, hhv]
    have := (h2.hasVoted hi).2
    simp only [upd_self] at this
    exact this.lt
  obtain ⟨D2, h5, h6⟩ := h2.putTally hN (f := f + 2) hi (pv := pv') h4 hroom
  refine Rel.ok (c := ⟨D2, { rootOf H s (tabOf s) with votes := .at (pre H .mpipVotes) (s.votes.insert i pv').len }⟩) ?_ ?_
  · unfold St.putTally
    rw [show MapH.insert u32 tallyRec D1 (rootOf H s (tabOf s)).votes i (tallyOf H i pv') = _ from h5]
    rfl
  obtain ⟨D3, h7, h8⟩ := h6.insertVote hN (f := f + 1) ha hi' hv
  refine Rel.ok (c := (⟨D3, { rootOf H s (tabOf s) with votes := .at (pre H .mpipVotes) (s.votes.insert i pv').len }⟩,
    voterOf H a ⟨(s.internal_get_voter a).votes.insert i ⟨i, v, total, m⟩⟩)) ?_ ?_
  · unfold St.insertVoterVote
    rw [show MapH.insert u32 Borsh.vote D2 (voterOf H a (s.internal_get_voter a)).votes i _ = _ from h7]
    rfl
  have hroom2 : ((s.internal_get_voter a).votes.insert i ⟨i, v, total, m⟩).len < 2 ^ 64 := by
    have := (h8.votes ha).2
    simp only [upd_self] at this
    exact this.lt
  obtain ⟨D4, h9, h10⟩ := h8.putVoter hN (f := f) ha (v := ⟨(s.internal_get_voter a).votes.insert i ⟨i, v, total, m⟩⟩) hroom2
  refine Rel.ok h9 ?_
  refine ⟨rfl, ?_, h.fit.same⟩
  rw [tabOf_vote, h3, hhv]
  exact h10

theorem Rep.remove_vote_proposal (hN : N.OK H) (h : Rep H N (f + 2) s D) (hi : N.prop i) (ha : N.voter c.predecessor) :
    Rel (RS H N f) (s.remove_vote_proposal c i) ((self H s D).remove_vote_proposal H c i) := by
  have hi' := hN.prop i hi
  have ha' := hN.voter _ ha
  unfold State.remove_vote_proposal St.remove_vote_proposal
  dsimp only
  rw [h.assertOnVoting hi']
  refine Rel.step _ fun _ _ => ?_
  rw [(h.assertHasVoted ha' hi').1]
  refine Rel.step _ fun _ _ => ?_
  refine Rel.ok (h.tally hi') ?_
  refine Rel.ok (c := (s.internal_get_proposal_vote i).has_voted.get c.predecessor) ((h.tabs.hasVoted hi).1.get (str_ok.2 ha')) ?_
  refine Rel.step _ fun uv huv => ?_
  refine Rel.ok (h.voter ha') ?_
  refine sub_tally_rel.bind ?_
  rintro pv t hpv rfl
  obtain ⟨h3, h4⟩ := sub_tally_ok hpv (h.tallyFits i)
  obtain ⟨D1, o1, h1, h2⟩ := h.tabs.removeHasVoted hN hi ha'
  generalize hpv' : ({ pv with has_voted := pv.has_voted.remove c.predecessor } : ProposalVote) = pv'
  have hfit : Fits3 pv' := by subst hpv'; exact h4
  have hhv : pv'.has_voted = ((tabOf s).hv i).remove c.predecessor := by subst hpv'; show pv.has_voted.remove _ = _; rw [h3]; rfl
  refine Rel.ok (c := (⟨D1, rootOf H s (tabOf s)⟩, tallyOf H i pv')) ?_ ?_
  · unfold St.removeHasVoted
    have e : (tallyOf H i pv).has_voted = .at (pre H (.hasVoted (Nat.repr i))) ((tabOf s).hv i).len := by
      show MapH.at _ pv.has_voted.len = _
      rw [h3]; rfl
    rw [e]
    rw [show MapH.remove string Borsh.vote (self H s D).D _ c.predecessor = _ from h1]
    subst hpv'
    rw [← hhv]
    rfl
  have hroom : pv'.has_voted.len < 2 ^ 64 := by
    rw [hhv]
    have := (h2.hasVoted hi).2
    simp only [upd_self] at this
    exact this.lt
  obtain ⟨D2, h5, h6⟩ := h2.putTally hN (f := f + 1) hi (pv := pv') hfit hroom
  refine Rel.ok (c := ⟨D2, { rootOf H s (tabOf s) with votes := .at (pre H .mpipVotes) (s.votes.insert i pv').len }⟩) ?_ ?_
  · unfold St.putTally
    rw [show MapH.insert u32 tallyRec D1 (rootOf H s (tabOf s)).votes i (tallyOf H i pv') = _ from h5]
    rfl
  obtain ⟨D3, o3, h7, h8⟩ := h6.removeVote hN ha hi'
  refine Rel.ok (c := (⟨D3, { rootOf H s (tabOf s) with votes := .at (pre H .mpipVotes) (s.votes.insert i pv').len }⟩,
    voterOf H c.predecessor ⟨(s.internal_get_voter c.predecessor).votes.remove i⟩)) ?_ ?_
  · unfold St.removeVoterVote
    rw [show MapH.remove u32 Borsh.vote D2 (voterOf H c.predecessor (s.internal_get_voter c.predecessor)).votes i = _ from h7]
    rfl
  by_cases he : ((s.internal_get_voter c.predecessor).votes.remove i).isEmpty = true
  · have he' : ((s.internal_get_voter c.predecessor).votes.remove i).len = 0 := by simpa [UMap.isEmpty, UMap.len] using he
    rw [if_pos he, if_pos (show (voterOf H c.predecessor ⟨(s.internal_get_voter c.predecessor).votes.remove i⟩).votes.keys.len = 0 from he')]
    obtain ⟨D4, o4, h9, h10⟩ := h8.dropVoter hN ha
    refine Rel.ok h9 ?_
    refine ⟨rfl, ?_, h.fit.same⟩
    rw [tabOf_unvote, hhv]
    have h0 : (tabOf s).vv c.predecessor |>.remove i |> (· = UMap.empty) := UMap.ext' (List.length_eq_zero_iff.1 he')
    rw [h0] at h10
    exact h10.mono (Nat.le_succ f)
  · have he' : ((s.internal_get_voter c.predecessor).votes.remove i).len ≠ 0 := by simpa [UMap.isEmpty, UMap.len] using he
    rw [if_neg he, if_neg (show ¬ (voterOf H c.predecessor ⟨(s.internal_get_voter c.predecessor).votes.remove i⟩).votes.keys.len = 0 from he')]
    have hroom2 : ((s.internal_get_voter c.predecessor).votes.remove i).len < 2 ^ 64 := by
      have := (h8.votes ha).2
      simp only [upd_self] at this
      exact this.lt
    obtain ⟨D4, h9, h10⟩ := h8.putVoter hN (f := f) ha (v := ⟨(s.internal_get_voter c.predecessor).votes.remove i⟩) hroom2
    refine Rel.ok h9 ?_
    refine ⟨rfl, ?_, h.fit.same⟩
    rw [tabOf_vote, hhv]
    exact h10

/-! ## Calls -/

/-- The results of a call on both sides. -/
def RW (H : Hash) (N : Names) (f : Nat) (a : State × List Promise) (b : St × List Promise) : Prop :=
  b.2 = a.2 ∧ RS H N f a.1 b.1

theorem RS.quiet {x : Res State} {y : Res St} (h : Rel (RS H N f) x y) : Rel (RW H N f) (Mpip.quiet x) (Bytes.quiet y) := by
  unfold Mpip.quiet Bytes.quiet
  exact h.bind fun a b _ h => ⟨rfl, h⟩

theorem RS.sends {x : Res State} {y : Res St} (p : Promise) (h : Rel (RS H N f) x y) :
    Rel (RW H N f) (Mpip.sends p x) (Bytes.sends p y) := by
  unfold Mpip.sends Bytes.sends
  exact h.bind fun a b _ h => ⟨rfl, h⟩

theorem Rep.run (hN : N.OK H) (h : Rep H N (f + 4) s D) (hc : c.timestamp ≤ U64_MAX) {k : Call} (hr : k.in_range = true)
    (hk : CallOK N c k) (hnew : ∀ a o t v p m st q, k ≠ .new_ a o t v p m st q) :
    Rel (RW H N f) (Mpip.run J s c k) (Bytes.run H J (self H s D) c k) := by
  have h0 : Rep H N f s D := h.mono (by omega)
  have h1 : Rep H N (f + 1) s D := h.mono (by omega)
  have h2 : Rep H N (f + 2) s D := h.mono (by omega)
  have id : ∀ {i : Nat}, decide (i ≤ U32_MAX) = true → i < 2 ^ 32 := fun hi => lt32 (of_decide_eq_true hi)
  have set : ∀ {s' : State} {x : Res Unit}, tabOf s' = tabOf s → RFit s' →
      Rel (RS H N f) (x >>= fun _ => pure s') (x >>= fun _ => pure ⟨D, rootOf H s' (tabOf s')⟩) := fun ht hf =>
    Rel.step _ fun _ _ => h0.set ht hf
  have hf := h.fit
  cases k with
  | new_ a o t v p m st q => exact (hnew a o t v p m st q rfl).elim
  | update_open_for_new_mpips b => exact RS.quiet (set rfl ⟨hf.1, hf.2, hf.3, hf.4, hf.5, hf.6, hf.7, hf.8, hf.9, hf.10, hf.11⟩)
  | update_operator_role a => exact RS.quiet (set rfl ⟨hf.1, hk, hf.3, hf.4, hf.5, hf.6, hf.7, hf.8, hf.9, hf.10, hf.11⟩)
  | update_admin_role a => exact RS.quiet (set rfl ⟨hk, hf.2, hf.3, hf.4, hf.5, hf.6, hf.7, hf.8, hf.9, hf.10, hf.11⟩)
  | pay_to_account n a => exact RS.sends _ (set rfl hf)
  | update_voting_period n =>
    exact RS.quiet (set rfl ⟨hf.1, hf.2, hf.3, hf.4, lt64 (of_decide_eq_true hr), hf.6, hf.7, hf.8, hf.9, hf.10, hf.11⟩)
  | update_min_meta_amount n =>
    exact RS.quiet (set rfl ⟨hf.1, hf.2, hf.3, hf.4, hf.5, lt128 (of_decide_eq_true hr), hf.7, hf.8, hf.9, hf.10, hf.11⟩)
  | update_min_voting_power_amount n =>
    exact RS.quiet (set rfl ⟨hf.1, hf.2, hf.3, hf.4, hf.5, hf.6, hf.7, lt128 (of_decide_eq_true hr), hf.9, hf.10, hf.11⟩)
  | update_mpip_storage_near n =>
    exact RS.quiet (set rfl ⟨hf.1, hf.2, hf.3, hf.4, hf.5, hf.6, hf.7, hf.8, hf.9, lt128 (of_decide_eq_true hr), hf.11⟩)
  | update_quorum_floor n =>
    refine RS.quiet (Rel.step (s.assert_only_operator c) fun _ _ => ?_)
    exact set rfl ⟨hf.1, hf.2, hf.3, hf.4, hf.5, hf.6, hf.7, hf.8, hf.9, hf.10, lt16 (of_decide_eq_true hr)⟩
  | update_meta_vote_contract_address a => exact RS.quiet (set rfl ⟨hf.1, hf.2, hf.3, hk, hf.5, hf.6, hf.7, hf.8, hf.9, hf.10, hf.11⟩)
  | start_voting_period i =>
    refine RS.sends _ ?_
    unfold State.start_voting_period St.start_voting_period
    rw [h.operatorOrCreator (id hr)]
    refine Rel.step _ fun _ _ => ?_
    rw [h.assertActive (id hr)]
    exact Rel.step _ fun _ _ => h0.rs
  | start_voting_period_callback i => exact RS.quiet (h1.start_voting_period_callback hN (id hr) hc)
  | create_proposal t =>
    refine RS.sends _ ?_
    unfold State.create_proposal St.create_proposal
    refine Rel.step s.assert_open_for_new_mpips fun _ _ => ?_
    exact Rel.step (s.assert_proposal_storage_is_covered c) fun _ _ => h0.rs
  | create_proposal_callback t => exact RS.quiet (h2.create_proposal_callback hN hk.1 hk.2)
  | cancel_proposal i => exact RS.quiet (h1.cancel_proposal hN (id hr))
  | update_proposal i t => exact RS.quiet (h1.update_proposal hN (id hr) hk)
  | vote_proposal i v m =>
    refine RS.sends _ ?_
    unfold State.vote_proposal St.vote_proposal
    rw [h.assertOnVoting (id hr)]
    refine Rel.step _ fun _ _ => ?_
    rw [(h.assertHasVoted (hN.voter _ hk.2.1) (id hr)).2]
    exact Rel.step _ fun _ _ => h0.rs
  | vote_proposal_callback i a v m => exact RS.quiet (h.vote_proposal_callback hN hk.1 hk.2.1 hk.2.2)
  | remove_vote_proposal i => exact RS.quiet (h2.remove_vote_proposal hN hk.1 hk.2)
  | process_voting_status i => exact RS.quiet (h1.process_voting_status hN (id hr))

/-- The record can be stored. -/
theorem Rep.root_fits (h : Rep H N f s D) : (rootOf H s (tabOf s)).Fits :=
  ⟨h.fit.admin_id, h.fit.operator_id, h.fit.meta_token, h.fit.meta_vote, at_fits (h.tabs.coll .mpips trivial).2.lt,
    at_fits (h.tabs.coll .mpipVotes trivial).2.1.lt, at_fits (h.tabs.coll .voters trivial).2.1.lt,
    at_fits (h.tabs.coll .proposers trivial).2.1.lt, h.fit.voting_period, h.fit.min_meta_amount, h.fit.min_st_near_amount,
    h.fit.min_voting_power_amount, h.fit.mpip_cost_in_meta, h.fit.mpip_storage_near, h.fit.quorum_floor⟩

theorem Stored.load (h : Stored H N f s D) : load D = .ok (rootOf H s (tabOf s)) := by
  unfold Bytes.load
  rw [h.state]
  show expect (mpipRec.read _) _ = _
  rw [C88_mpip.2 ⟨h.rep.root_fits, rfl⟩]
  rfl

theorem RS.save (h : RS H N f s x) : Stored H N f s (save x) := by
  obtain ⟨D, r⟩ := x
  obtain ⟨h1, h2⟩ := h
  simp only at h1 h2
  subst h1
  exact ⟨upd_self _ _ _, h2.tabs.state _, h2.fit⟩

/-- A call on the bytes does what the model does. -/
theorem Stored.exec (hN : N.OK H) (h : Stored H N (f + 4) s D) (hc : c.timestamp ≤ U64_MAX) {k : Call} (hk : CallOK N c k) :
    Rel (fun a b => b.2 = a.2 ∧ Stored H N f a.1 b.1) (Mpip.exec J s c k) (Bytes.exec H J D c k) := by
  unfold Mpip.exec Bytes.exec
  refine Rel.step _ fun _ _ => ?_
  refine Rel.step _ fun _ _ => ?_
  refine Rel.step _ fun _ hr => ?_
  have hr : k.in_range = true := by simpa using hr
  have go : (∀ a o t v p m st q, k ≠ .new_ a o t v p m st q) →
      Rel (fun a b => b.2 = a.2 ∧ Stored H N f a.1 b.1) (Mpip.run J s c k)
        (Bytes.load D >>= fun r => Bytes.run H J ⟨D, r⟩ c k >>= fun x => pure (save x.1, x.2)) := by
    intro hnew
    refine Rel.ok h.load ?_
    exact (h.rep.run hN hc hr hk hnew).right fun a b hab => ⟨hab.1, hab.2.save⟩
  cases k with
  | new_ a o t v p m st q =>
    show Rel _ (Mpip.quiet (Mpip.new true a o t v p m st q)) (Bytes.new H D a o t v p m st q >>= _)
    unfold Bytes.new
    rw [h.state]
    rfl
  | _ => exact go (fun _ _ _ _ _ _ _ _ e => by cases e)

end Verif.Mpip.Bytes
