import Std.Data.String.ToNat
import Verif.MpipStorage.Contract

/-!
# The storage that holds a state of the model with values

`store s` is the record and the storage entries of a contract whose collections are those of `s`.  The methods over storage
do on it what the methods of `Verif/Mpip` do on `s`, including the panics.
-/

namespace Verif

variable {K V W : Type} [DecidableEq K]

theorem findL_map (f : K → V → W) (l : List (K × V)) (k : K) :
    findL (l.map (fun p => (p.1, f p.1 p.2))) k = (findL l k).map (f k) := by
  induction l with
  | nil => rfl
  | cons p t ih =>
    obtain ⟨k', v⟩ := p
    simp only [List.map_cons, findL]
    split
    · rename_i h; subst h; rfl
    · exact ih

theorem insertL_map (f : K → V → W) (l : List (K × V)) (k : K) (v : V) :
    (insertL l k v).map (fun p => (p.1, f p.1 p.2)) = insertL (l.map (fun p => (p.1, f p.1 p.2))) k (f k v) := by
  induction l with
  | nil => rfl
  | cons p t ih =>
    obtain ⟨k', v'⟩ := p
    simp only [List.map_cons, insertL]
    split
    · rfl
    · simp only [List.map_cons, ih]

theorem indexL_map (f : K → V → W) (l : List (K × V)) (k : K) :
    indexL (l.map (fun p => (p.1, f p.1 p.2))) k = indexL l k := by
  induction l with
  | nil => rfl
  | cons p t ih => simp only [List.map_cons, indexL, ih]

theorem swapRemove_map {α β : Type} (g : α → β) (l : List α) (i : Nat) :
    (swapRemove l i).map g = swapRemove (l.map g) i := by
  unfold swapRemove
  rw [List.getLast?_map]
  cases l.getLast? with
  | none => rfl
  | some x => simp [List.map_dropLast, List.map_set]

theorem removeL_map (f : K → V → W) (l : List (K × V)) (k : K) :
    (removeL l k).map (fun p => (p.1, f p.1 p.2)) = removeL (l.map (fun p => (p.1, f p.1 p.2))) k := by
  unfold removeL
  rw [indexL_map]
  simp only [List.map_map, Function.comp_def]
  split
  · exact swapRemove_map _ _ _
  · rfl

namespace UMap

/-- Replace every value. -/
def mapKV (f : K → V → W) (m : UMap K V) : UMap K W :=
  ⟨m.entries.map (fun p => (p.1, f p.1 p.2)), by simpa [List.map_map, Function.comp_def] using m.nodup⟩

theorem get_mapKV (f : K → V → W) (m : UMap K V) (k : K) : (m.mapKV f).get k = (m.get k).map (f k) := findL_map f _ k

theorem insert_mapKV (f : K → V → W) (m : UMap K V) (k : K) (v : V) :
    (m.mapKV f).insert k (f k v) = (m.insert k v).mapKV f := ext' (insertL_map f _ k v).symm

theorem remove_mapKV (f : K → V → W) (m : UMap K V) (k : K) : (m.mapKV f).remove k = (m.remove k).mapKV f :=
  ext' (removeL_map f _ k).symm

theorem len_mapKV (f : K → V → W) (m : UMap K V) : (m.mapKV f).len = m.len := by simp [mapKV, len]

end UMap

end Verif

namespace Verif.MpipStorage

open Verif Storage Mpip

/-! ## The storage of a state -/

/-- The record of the votes on a proposal. -/
def tallyOf (i : Nat) (pv : ProposalVote) : Tally :=
  ⟨pv.for_votes, pv.against_votes, pv.abstain_votes, ⟨Nat.repr i, pv.has_voted.len⟩⟩

/-- The record of a voter. -/
def handleOf (a : AccountId) (v : Voter) : Handle := ⟨a, v.votes.len⟩

open Classical in
/-- The entries under the prefix with the hash of `r`. -/
noncomputable def hasVotedOf (s : State) (r : String) : Cells AccountId Vote :=
  if h : ∃ i, Nat.repr i = r then Cells.of (s.internal_get_proposal_vote h.choose).has_voted else Cells.empty

/-- The record and the storage entries of a contract. -/
noncomputable def store (s : State) : SState where
  admin_id := s.admin_id
  operator_id := s.operator_id
  meta_token_contract_address := s.meta_token_contract_address
  meta_vote_contract_address := s.meta_vote_contract_address
  proposals := s.proposals.len
  votes := s.votes.len
  voters := s.voters.len
  proposers := s.proposers.len
  voting_period := s.voting_period
  min_meta_amount := s.min_meta_amount
  min_st_near_amount := s.min_st_near_amount
  min_voting_power_amount := s.min_voting_power_amount
  mpip_cost_in_meta := s.mpip_cost_in_meta
  mpip_storage_near := s.mpip_storage_near
  open_for_new_mpips := s.open_for_new_mpips
  quorum_floor := s.quorum_floor
  mem :=
    { proposals := Cells.of s.proposals
      votes := Cells.of (s.votes.mapKV tallyOf)
      voters := Cells.of (s.voters.mapKV handleOf)
      proposers := Cells.of s.proposers
      hasVoted := hasVotedOf s
      voterVotes := fun a => Cells.of (s.internal_get_voter a).votes }

theorem hasVotedOf_repr (s : State) (i : Nat) :
    hasVotedOf s (Nat.repr i) = Cells.of (s.internal_get_proposal_vote i).has_voted := by
  have h : ∃ j, Nat.repr j = Nat.repr i := ⟨i, rfl⟩
  unfold hasVotedOf
  rw [dif_pos h, Nat.repr_injective h.choose_spec]

theorem hasVotedOf_insert (s : State) (i : Nat) (pv : ProposalVote) (m : UMap AccountId Voter) :
    hasVotedOf { s with votes := s.votes.insert i pv, voters := m } = upd (hasVotedOf s) (Nat.repr i) (Cells.of pv.has_voted) := by
  funext r
  by_cases h : ∃ j, Nat.repr j = r
  · obtain ⟨j, rfl⟩ := h
    rw [hasVotedOf_repr]
    by_cases e : j = i
    · subst e; rw [upd_self]; simp [State.internal_get_proposal_vote]
    · rw [upd_ne _ _ (fun h => e (Nat.repr_injective h)), hasVotedOf_repr]
      simp [State.internal_get_proposal_vote, UMap.get_insert, Ne.symm e]
  · rw [upd_ne _ _ (fun e => h ⟨i, e.symm⟩)]
    unfold hasVotedOf
    rw [dif_neg h, dif_neg h]

/-! ## Access -/

variable (J : Json) (s : State) (c : Ctx)

theorem getProposal_store (i : Nat) : (store s).internal_get_proposal i = s.internal_get_proposal i := by
  simp only [SState.internal_get_proposal, State.internal_get_proposal, store, Cells.get_of]; rfl

theorem putProposal_store (i : Nat) (p : Proposal) :
    (store s).putProposal i p = .ok (store { s with proposals := s.proposals.insert i p }) := by
  simp only [SState.putProposal, store, Cells.insert_of]; rfl

theorem getTally_store (i : Nat) : (store s).internal_get_proposal_vote i = .ok (tallyOf i (s.internal_get_proposal_vote i)) := by
  have := Cells.get_of (s.votes.mapKV tallyOf) i
  rw [UMap.len_mapKV, UMap.get_mapKV] at this
  simp only [SState.internal_get_proposal_vote, State.internal_get_proposal_vote, store, this]
  cases s.votes.get i <;> rfl

theorem getVoter_store (a : AccountId) : (store s).internal_get_voter a = .ok (handleOf a (s.internal_get_voter a)) := by
  have := Cells.get_of (s.voters.mapKV handleOf) a
  rw [UMap.len_mapKV, UMap.get_mapKV] at this
  simp only [SState.internal_get_voter, State.internal_get_voter, store, this]
  cases s.voters.get a <;> rfl

theorem getProposer_store (a : AccountId) : (store s).internal_get_proposer a = .ok (s.internal_get_proposer a) := by
  simp only [SState.internal_get_proposer, State.internal_get_proposer, store, Cells.get_of]; rfl

theorem putProposer_store (a : AccountId) (l : List Nat) :
    (store s).putProposer a l = .ok (store { s with proposers := s.proposers.insert a l }) := by
  simp only [SState.putProposer, store, Cells.insert_of]; rfl

theorem voters_store (a : AccountId) :
    (store s).mem.voters.get (store s).voters a = .ok ((s.voters.get a).map (handleOf a)) := by
  have := Cells.get_of (s.voters.mapKV handleOf) a
  rw [UMap.len_mapKV, UMap.get_mapKV] at this
  exact this

theorem voterVote_store (i : Nat) (a : AccountId) (v : Voter) (h : s.voters.get a = some v) :
    ((store s).mem.voterVotes (handleOf a v).region).get (handleOf a v).len i = .ok (v.votes.get i) := by
  have := Cells.get_of v.votes i
  simp only [store, handleOf, State.internal_get_voter, h, Option.getD_some]
  exact this

theorem hasVoted_store (i : Nat) (a : AccountId) :
    (store s).internal_has_voted i a = .ok (s.internal_has_voted i a) := by
  simp only [SState.internal_has_voted, State.internal_has_voted, voters_store]
  cases h : s.voters.get a with
  | none => rfl
  | some v =>
    simp only [Option.map_some]
    have := voterVote_store s i a v h
    simp only [bind, Except.bind, this]; rfl

theorem insertHasVoted_region (i : Nat) (a : AccountId) (v : Vote) :
    ((store s).mem.hasVoted (Nat.repr i)).insert (s.internal_get_proposal_vote i).has_voted.len a v =
      .ok (Cells.of ((s.internal_get_proposal_vote i).has_voted.insert a v),
        ((s.internal_get_proposal_vote i).has_voted.insert a v).len) := by
  show (hasVotedOf s (Nat.repr i)).insert _ a v = _
  rw [hasVotedOf_repr, Cells.insert_of]

theorem removeHasVoted_region (i : Nat) (a : AccountId) :
    ((store s).mem.hasVoted (Nat.repr i)).remove (s.internal_get_proposal_vote i).has_voted.len a =
      .ok (Cells.of ((s.internal_get_proposal_vote i).has_voted.remove a),
        ((s.internal_get_proposal_vote i).has_voted.remove a).len) := by
  show (hasVotedOf s (Nat.repr i)).remove _ a = _
  rw [hasVotedOf_repr, Cells.remove_of]

theorem getHasVoted_region (i : Nat) (a : AccountId) :
    ((store s).mem.hasVoted (Nat.repr i)).get (s.internal_get_proposal_vote i).has_voted.len a =
      .ok ((s.internal_get_proposal_vote i).has_voted.get a) := by
  show (hasVotedOf s (Nat.repr i)).get _ a = _
  rw [hasVotedOf_repr, Cells.get_of]

/-! ## Methods without votes -/

theorem active_or_draft_store (now i : Nat) :
    (store s).internal_proposal_is_active_or_draft now i = s.internal_proposal_is_active_or_draft now i := by
  simp only [SState.internal_proposal_is_active_or_draft, State.internal_proposal_is_active_or_draft, getProposal_store]
  rfl

theorem active_store (now i : Nat) : (store s).internal_proposal_is_active now i = s.internal_proposal_is_active now i := by
  simp only [SState.internal_proposal_is_active, State.internal_proposal_is_active, getProposal_store]
  rfl

theorem on_voting_store (now i : Nat) :
    (store s).internal_proposal_is_on_voting now i = s.internal_proposal_is_on_voting now i := by
  simp only [SState.internal_proposal_is_on_voting, State.internal_proposal_is_on_voting, getProposal_store]
  rfl

theorem quorum_reached_store (i : Nat) : (store s).internal_is_quorum_reached i = s.internal_is_quorum_reached i := by
  simp only [SState.internal_is_quorum_reached, State.internal_is_quorum_reached, getProposal_store, getTally_store]
  rfl

theorem bind_map {α β γ : Type} (r : Res α) (f : α → Res β) (g : β → γ) : (r >>= f).map g = r >>= fun a => (f a).map g := by
  cases r <;> rfl

theorem ok_bind {α β : Type} (a : α) (f : α → Res β) : (Except.ok a : Res α) >>= f = f a := rfl

theorem pure_map {α β : Type} (a : α) (g : α → β) : Except.map g (pure a : Res α) = .ok (g a) := rfl

/-! ## Votes -/

theorem add_tally_store (i : Nat) (pv : ProposalVote) (t : VoteType) (n : Nat) :
    SState.add_tally (tallyOf i pv) t n = (State.add_tally pv t n).map (tallyOf i) := by
  cases t <;> simp only [SState.add_tally, State.add_tally, bind_map, pure_map] <;> rfl

theorem sub_tally_store (i : Nat) (pv : ProposalVote) (t : VoteType) (n : Nat) :
    SState.sub_tally (tallyOf i pv) t n = (State.sub_tally pv t n).map (tallyOf i) := by
  cases t <;> simp only [SState.sub_tally, State.sub_tally, bind_map, pure_map] <;> rfl

theorem add_tally_voted {pv pv' : ProposalVote} {t : VoteType} {n : Nat} (h : State.add_tally pv t n = .ok pv') :
    pv'.has_voted = pv.has_voted := by
  cases t <;> simp only [State.add_tally, bind_ok_iff, pure_ok_iff] at h <;> obtain ⟨_, -, rfl⟩ := h <;> rfl

theorem sub_tally_voted {pv pv' : ProposalVote} {t : VoteType} {n : Nat} (h : State.sub_tally pv t n = .ok pv') :
    pv'.has_voted = pv.has_voted := by
  cases t <;> simp only [State.sub_tally, bind_ok_iff, pure_ok_iff] at h <;> obtain ⟨_, -, rfl⟩ := h <;> rfl

theorem voterVotes_insert (i : Nat) (pv : ProposalVote) (a : AccountId) (v : Voter) :
    (fun x => Cells.of (State.internal_get_voter { s with
      votes := s.votes.insert i pv, voters := s.voters.insert a v } x).votes) =
      upd (fun x => Cells.of (s.internal_get_voter x).votes) a (Cells.of v.votes) := by
  funext x
  by_cases e : x = a
  · subst e; simp [State.internal_get_voter]
  · rw [upd_ne _ _ e]; simp [State.internal_get_voter, UMap.get_insert, Ne.symm e]

theorem voterVotes_remove (i : Nat) (pv : ProposalVote) (a : AccountId) :
    (fun x => Cells.of (State.internal_get_voter { s with
      votes := s.votes.insert i pv, voters := s.voters.remove a } x).votes) =
      upd (fun x => Cells.of (s.internal_get_voter x).votes) a (Cells.of UMap.empty) := by
  funext x
  by_cases e : x = a
  · subst e; simp [State.internal_get_voter]
  · rw [upd_ne _ _ e]; simp [State.internal_get_voter, UMap.get_remove, Ne.symm e]

theorem vote_callback_store (i : Nat) (a : AccountId) (t : VoteType) (m : String) :
    (store s).vote_proposal_callback J c i a t m = (s.vote_proposal_callback J c i a t m).map store := by
  simp only [SState.vote_proposal_callback, State.vote_proposal_callback, bind_map, getVoter_store, getTally_store, ok_bind]
  congr 1; funext n
  congr 1; funext _
  generalize hv : (⟨i, t, n, m⟩ : Vote) = v
  have h1 := insertHasVoted_region s i a v
  simp only [SState.insertHasVoted, tallyOf, h1, ok_bind, pure, Except.pure]
  have h2 := add_tally_store i { s.internal_get_proposal_vote i with
    has_voted := (s.internal_get_proposal_vote i).has_voted.insert a v } t n
  simp only [tallyOf] at h2
  simp only [h2]
  cases hp : State.add_tally { s.internal_get_proposal_vote i with
      has_voted := (s.internal_get_proposal_vote i).has_voted.insert a v } t n with
  | error e => rfl
  | ok pv =>
    have hpv := add_tally_voted hp
    simp only at hpv
    have h3 := Cells.insert_of (s.votes.mapKV tallyOf) i (tallyOf i pv)
    have h4 := Cells.insert_of (s.internal_get_voter a).votes i v
    have h5 := Cells.insert_of (s.voters.mapKV handleOf) a (handleOf a ⟨(s.internal_get_voter a).votes.insert i v⟩)
    rw [UMap.len_mapKV, UMap.insert_mapKV, UMap.len_mapKV] at h3 h5
    simp only [tallyOf, handleOf] at h3 h4 h5
    simp only [Except.map, ok_bind, SState.putTally, SState.insertVoterVote, SState.putVoter, store, tallyOf, handleOf,
      h3, h4, h5, pure, Except.pure]
    rw [hasVotedOf_insert, voterVotes_insert, hpv]

theorem assert_on_voting_store (i : Nat) : (store s).assert_proposal_is_on_voting c i = s.assert_proposal_is_on_voting c i := by
  simp only [SState.assert_proposal_is_on_voting, State.assert_proposal_is_on_voting, on_voting_store]

theorem assert_active_or_draft_store (i : Nat) :
    (store s).assert_proposal_is_active_or_draft c i = s.assert_proposal_is_active_or_draft c i := by
  simp only [SState.assert_proposal_is_active_or_draft, State.assert_proposal_is_active_or_draft, active_or_draft_store]

theorem assert_voted_store (i : Nat) (a : AccountId) : (store s).assert_has_voted i a = s.assert_has_voted i a := by
  simp only [SState.assert_has_voted, State.assert_has_voted, hasVoted_store, ok_bind]

theorem assert_not_voted_store (i : Nat) (a : AccountId) : (store s).assert_has_not_voted i a = s.assert_has_not_voted i a := by
  simp only [SState.assert_has_not_voted, State.assert_has_not_voted, hasVoted_store, ok_bind]

theorem assert_operator_or_creator_store (i : Nat) :
    (store s).assert_only_operator_or_creator c i = s.assert_only_operator_or_creator c i := by
  simp only [SState.assert_only_operator_or_creator, State.assert_only_operator_or_creator, getProposal_store]
  rfl

theorem assert_creator_store (i : Nat) : (store s).assert_only_creator c i = s.assert_only_creator c i := by
  simp only [SState.assert_only_creator, State.assert_only_creator, getProposal_store]

theorem remove_vote_store (i : Nat) : (store s).remove_vote_proposal c i = (s.remove_vote_proposal c i).map store := by
  simp only [SState.remove_vote_proposal, State.remove_vote_proposal, bind_map, assert_on_voting_store, assert_voted_store,
    getVoter_store, getTally_store, ok_bind]
  congr 1; funext _
  congr 1; funext _
  have h0 := getHasVoted_region s i c.predecessor
  simp only [tallyOf, h0, ok_bind]
  congr 1; funext u
  have h2 := sub_tally_store i (s.internal_get_proposal_vote i) u.vote_type u.voting_power
  simp only [tallyOf] at h2
  simp only [h2]
  cases hp : State.sub_tally (s.internal_get_proposal_vote i) u.vote_type u.voting_power with
  | error e => rfl
  | ok pv =>
    have hpv := sub_tally_voted hp
    have h1 := removeHasVoted_region s i c.predecessor
    have h3 := Cells.insert_of (s.votes.mapKV tallyOf) i
      (tallyOf i { pv with has_voted := pv.has_voted.remove c.predecessor })
    have h4 := Cells.remove_of (s.internal_get_voter c.predecessor).votes i
    have h5 := Cells.insert_of (s.voters.mapKV handleOf) c.predecessor
      (handleOf c.predecessor ⟨(s.internal_get_voter c.predecessor).votes.remove i⟩)
    have h6 := Cells.remove_of (s.voters.mapKV handleOf) c.predecessor
    rw [UMap.len_mapKV, UMap.insert_mapKV, UMap.len_mapKV] at h3 h5
    rw [UMap.len_mapKV, UMap.remove_mapKV, UMap.len_mapKV] at h6
    simp only [tallyOf, handleOf, hpv, store] at h1 h3 h4 h5 h6
    simp only [Except.map, ok_bind, SState.putTally, SState.removeVoterVote, SState.putVoter, SState.dropVoter,
      SState.removeHasVoted, store, tallyOf, handleOf, hpv, h1, h3, h4, pure, Except.pure]
    by_cases he : ((s.internal_get_voter c.predecessor).votes.remove i).isEmpty = true
    · have hl : ((s.internal_get_voter c.predecessor).votes.remove i).len = 0 := by
        rw [UMap.eq_empty_of_isEmpty he]; rfl
      simp only [hl, if_true, he, h6, ok_bind]
      rw [hasVotedOf_insert, voterVotes_remove, UMap.eq_empty_of_isEmpty he]
    · have hl : ((s.internal_get_voter c.predecessor).votes.remove i).len ≠ 0 := by
        intro h0; exact he (UMap.isEmpty_iff.2 (List.length_eq_zero_iff.1 h0))
      simp only [if_neg hl, if_neg he, h5, ok_bind]
      rw [hasVotedOf_insert, voterVotes_insert]

/-! ## All methods -/

theorem process_store (i : Nat) : (store s).process_voting_status c i = (s.process_voting_status c i).map store := by
  simp only [SState.process_voting_status, State.process_voting_status, bind_map, on_voting_store, getProposal_store,
    quorum_reached_store, putProposal_store]
  congr 1; funext _
  congr 1; funext b
  split
  · rfl
  · simp only [bind_map]
    congr 1; funext p
    congr 1; funext e
    split
    · simp only [bind_map]
      congr 1; funext q
      split <;> rfl
    · rfl

theorem start_callback_store (i : Nat) :
    (store s).start_voting_period_callback J c i = (s.start_voting_period_callback J c i).map store := by
  simp only [SState.start_voting_period_callback, State.start_voting_period_callback, bind_map, getProposal_store,
    putProposal_store]
  rfl

theorem create_callback_store (t : Content) :
    (store s).create_proposal_callback J c t = (s.create_proposal_callback J c t).map store := by
  simp only [SState.create_proposal_callback, State.create_proposal_callback, bind_map, putProposal_store, getProposer_store,
    putProposer_store, ok_bind]
  rfl

theorem cancel_store (i : Nat) : (store s).cancel_proposal c i = (s.cancel_proposal c i).map store := by
  simp only [SState.cancel_proposal, State.cancel_proposal, bind_map, getProposal_store, putProposal_store,
    assert_operator_or_creator_store, assert_active_or_draft_store]
  rfl

theorem update_store (i : Nat) (t : Content) : (store s).update_proposal c i t = (s.update_proposal c i t).map store := by
  simp only [SState.update_proposal, State.update_proposal, bind_map, getProposal_store, putProposal_store,
    assert_creator_store, assert_active_or_draft_store]
  rfl

theorem start_store (i : Nat) : (store s).start_voting_period c i = (s.start_voting_period c i).map store := by
  simp only [SState.start_voting_period, State.start_voting_period, bind_map, assert_operator_or_creator_store,
    assert_active_or_draft_store]
  rfl

theorem vote_store (i : Nat) : (store s).vote_proposal c i = (s.vote_proposal c i).map store := by
  simp only [SState.vote_proposal, State.vote_proposal, bind_map, assert_on_voting_store, assert_not_voted_store]
  rfl

/-- The result, with the state stored. -/
noncomputable def stored (r : State × List Promise) : SState × List Promise := (store r.1, r.2)

theorem quiet_store (r : Res State) : quiet (r.map store) = (Mpip.quiet r).map stored := by cases r <;> rfl

theorem sends_store (p : Promise) (r : Res State) : sends p (r.map store) = (Mpip.sends p r).map stored := by
  cases r <;> rfl

theorem run_store (k : Call) : run J (store s) c k = (Mpip.run J s c k).map stored := by
  cases k with
  | new_ a o t v p m st q => rfl
  | vote_proposal_callback i a t m =>
    simp only [run, Mpip.run, vote_callback_store, quiet_store]
  | remove_vote_proposal i => simp only [run, Mpip.run, remove_vote_store, quiet_store]
  | process_voting_status i => simp only [run, Mpip.run, process_store, quiet_store]
  | start_voting_period_callback i => simp only [run, Mpip.run, start_callback_store, quiet_store]
  | create_proposal_callback t => simp only [run, Mpip.run, create_callback_store, quiet_store]
  | cancel_proposal i => simp only [run, Mpip.run, cancel_store, quiet_store]
  | update_proposal i t => simp only [run, Mpip.run, update_store, quiet_store]
  | start_voting_period i => simp only [run, Mpip.run, start_store, sends_store]; rfl
  | vote_proposal i v m => simp only [run, Mpip.run, vote_store, sends_store]; rfl
  | create_proposal t =>
    have : (store s).create_proposal c = (s.create_proposal c).map store := by
      simp only [SState.create_proposal, State.create_proposal, bind_map]; rfl
    simp only [run, Mpip.run, this, sends_store]; rfl
  | pay_to_account n a =>
    have : (store s).pay_to_account c = (s.pay_to_account c).map store := by
      simp only [SState.pay_to_account, State.pay_to_account, bind_map]; rfl
    simp only [run, Mpip.run, this, sends_store]
  | update_open_for_new_mpips b =>
    rw [show run J (store s) c (.update_open_for_new_mpips b) = quiet ((s.update_open_for_new_mpips c b).map store) by
      simp only [run, SState.update_open_for_new_mpips, State.update_open_for_new_mpips, bind_map]; rfl, quiet_store]
    rfl
  | update_operator_role b =>
    rw [show run J (store s) c (.update_operator_role b) = quiet ((s.update_operator_role c b).map store) by
      simp only [run, SState.update_operator_role, State.update_operator_role, bind_map]; rfl, quiet_store]
    rfl
  | update_admin_role b =>
    rw [show run J (store s) c (.update_admin_role b) = quiet ((s.update_admin_role c b).map store) by
      simp only [run, SState.update_admin_role, State.update_admin_role, bind_map]; rfl, quiet_store]
    rfl
  | update_voting_period b =>
    rw [show run J (store s) c (.update_voting_period b) = quiet ((s.update_voting_period c b).map store) by
      simp only [run, SState.update_voting_period, State.update_voting_period, bind_map]; rfl, quiet_store]
    rfl
  | update_min_meta_amount b =>
    rw [show run J (store s) c (.update_min_meta_amount b) = quiet ((s.update_min_meta_amount c b).map store) by
      simp only [run, SState.update_min_meta_amount, State.update_min_meta_amount, bind_map]; rfl, quiet_store]
    rfl
  | update_min_voting_power_amount b =>
    rw [show run J (store s) c (.update_min_voting_power_amount b) =
        quiet ((s.update_min_voting_power_amount c b).map store) by
      simp only [run, SState.update_min_voting_power_amount, State.update_min_voting_power_amount, bind_map]; rfl, quiet_store]
    rfl
  | update_mpip_storage_near b =>
    rw [show run J (store s) c (.update_mpip_storage_near b) = quiet ((s.update_mpip_storage_near c b).map store) by
      simp only [run, SState.update_mpip_storage_near, State.update_mpip_storage_near, bind_map]; rfl, quiet_store]
    rfl
  | update_quorum_floor b =>
    rw [show run J (store s) c (.update_quorum_floor b) = quiet ((s.update_quorum_floor c b).map store) by
      simp only [run, SState.update_quorum_floor, State.update_quorum_floor, bind_map]; rfl, quiet_store]
    rfl
  | update_meta_vote_contract_address b =>
    rw [show run J (store s) c (.update_meta_vote_contract_address b) =
        quiet ((s.update_meta_vote_contract_address c b).map store) by
      simp only [run, SState.update_meta_vote_contract_address, State.update_meta_vote_contract_address, bind_map]; rfl,
      quiet_store]
    rfl

theorem exec_store (k : Call) : exec J (store s) c k = (Mpip.exec J s c k).map stored := by
  simp only [exec, Mpip.exec, bind_map, run_store]

/-! ## Views -/

theorem state_store (now i : Nat) : (store s).get_proposal_state now i = s.get_proposal_state now i := by
  simp only [SState.get_proposal_state, State.get_proposal_state, getProposal_store, on_voting_store, active_store,
    quorum_reached_store, SState.get_proposal_vote_succeeded, getTally_store, ok_bind, pure, Except.pure]
  congr 1; funext p
  congr 1; congr 1; congr 1
  congr 1; funext v
  congr 1
  congr 1; funext a
  congr 1
  congr 1; funext q
  cases q
  · simp
  · by_cases h : (s.internal_get_proposal_vote i).against_votes < (s.internal_get_proposal_vote i).for_votes <;>
      simp [State.get_proposal_vote_succeeded, tallyOf, h]

theorem votes_store (i : Nat) : (store s).get_proposal_votes i = .ok (s.get_proposal_votes i) := by
  have h : ((store s).mem.hasVoted (Nat.repr i)).entries (s.internal_get_proposal_vote i).has_voted.len =
      .ok (s.internal_get_proposal_vote i).has_voted.entries := by
    show (hasVotedOf s (Nat.repr i)).entries _ = _
    rw [hasVotedOf_repr, Cells.entries_of]
  simp only [SState.get_proposal_votes, State.get_proposal_votes, getTally_store, ok_bind, tallyOf, h]
  rfl

theorem my_vote_store (a : AccountId) (i : Nat) : (store s).get_my_vote a i = s.get_my_vote a i := by
  simp only [SState.get_my_vote, State.get_my_vote, hasVoted_store, ok_bind]
  split
  · congr 1
    simp only [SState.internal_get_voter_vote, State.internal_get_voter_vote, voters_store, ok_bind]
    cases h : s.voters.get a with
    | none => rfl
    | some v =>
      have := voterVote_store s i a v h
      simp only [Option.map_some, expect, ok_bind, this]
  · rfl

theorem voter_store (a : AccountId) : (store s).get_voter a = .ok (s.get_voter a) := by
  have h := Cells.entries_of (s.internal_get_voter a).votes
  have h' : ((store s).mem.voterVotes (handleOf a (s.internal_get_voter a)).region).entries
      (handleOf a (s.internal_get_voter a)).len = .ok (s.internal_get_voter a).votes.entries := h
  simp only [SState.get_voter, State.get_voter, getVoter_store, ok_bind, h']
  rfl

theorem proposals_store (n m : Nat) : (store s).get_proposals n m = s.get_proposals n m := by
  simp only [SState.get_proposals, State.get_proposals, store, Cells.keyAt_of, Cells.get_of, ok_bind]

end Verif.MpipStorage
