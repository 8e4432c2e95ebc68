import Verif.Mpip.BytesStep
import Verif.MetaVote.BytesView

/-!
# Views of mpip on the bytes of its storage
-/

namespace Verif.Borsh

open Verif Storage Disk

/-- `iter()` of a coded map is the list of its entries. -/
theorem IsMap.entries {K V : Type} [DecidableEq K] {kc : Codec K} {vc : Codec V} {D : Disk} {p : Bytes} {h : MapH} {m : UMap K V}
    (hm : IsMap kc vc D p h m) (hn : m.len ≤ 2 ^ 64) : MapH.entryList kc vc D h = .ok m.entries := by
  obtain ⟨rfl, ok, hl⟩ := hm
  unfold MapH.entryList
  rw [at_vkey, at_kkey]
  refine (MetaVote.Bytes.mapM_get (l := m.entries) (k := fun e _ => e) fun i hi => ?_).trans ?_
  · have hi' : i < 2 ^ 64 := Nat.lt_of_lt_of_le hi hn
    have ho := ok m.entries[i] (List.getElem_mem hi)
    have hg : (encMap kc vc m ok).entries[i]? = some (encEntry kc vc m.entries[i]) := by
      show (m.entries.map (encEntry kc vc))[i]? = _
      rw [List.getElem?_map, List.getElem?_eq_getElem hi]; rfl
    have hk : D (kkey p i) = some (kc.enc m.entries[i].1) := by
      rw [hl.keys i hi']
      show (encMap kc vc m ok).entries[i]?.map Prod.fst = _
      rw [hg]; rfl
    have hv : D (vkey p i) = some (vc.enc m.entries[i].2) := by
      rw [hl.vals i hi']
      show (encMap kc vc m ok).entries[i]?.map Prod.snd = _
      rw [hg]; rfl
    rw [hk, hv]
    simp only [kc.read_enc ho.1, vc.read_enc ho.2]
    rfl
  · simp

end Verif.Borsh

namespace Verif.Mpip.Bytes

open Verif Storage Disk Borsh

variable {H : Hash} {N : Names} {f : Nat} {s : State} {D : Disk} {c : Ctx} {i : Nat} {a : AccountId}

theorem Rep.hvEntries (h : Rep H N f s D) (i : Nat) :
    MapH.entryList string vote D (tallyOf H i (s.internal_get_proposal_vote i)).has_voted =
      .ok (s.internal_get_proposal_vote i).has_voted.entries := by
  cases hv : s.votes.get i with
  | none =>
    have e : (s.internal_get_proposal_vote i).has_voted = UMap.empty := by
      unfold State.internal_get_proposal_vote; rw [hv]; rfl
    unfold tallyOf
    rw [e]; rfl
  | some pv =>
    have hp : N.prop i := (h.tabs.coll .mpipVotes trivial).2.2 i pv hv
    obtain ⟨h1, h2⟩ := h.tabs.coll (.hasVoted (Nat.repr i)) ⟨i, hp, rfl⟩ i rfl
    exact h1.entries (Nat.le_of_lt h2.lt)

theorem Rep.vvEntries (h : Rep H N f s D) (a : AccountId) :
    MapH.entryList u32 vote D (voterOf H a (s.internal_get_voter a)).votes = .ok (s.internal_get_voter a).votes.entries := by
  cases hv : s.voters.get a with
  | none =>
    have e : (s.internal_get_voter a).votes = UMap.empty := by
      unfold State.internal_get_voter; rw [hv]; rfl
    unfold voterOf
    rw [e]; rfl
  | some v =>
    have hp : N.voter a := (h.tabs.coll .voters trivial).2.2 a v hv
    obtain ⟨h1, h2⟩ := h.tabs.coll (.votes a) hp
    exact h1.entries (Nat.le_of_lt h2.lt)

/-- A view on the storage of a state. -/
theorem Stored.view {α : Type} (h : Stored H N f s D) (g : St → Res α) : Bytes.view D g = g (self H s D) := by
  unfold Bytes.view
  rw [h.load]
  rfl

theorem Rep.get_proposal_votes (h : Rep H N f s D) (hi : i < 2 ^ 32) :
    (self H s D).get_proposal_votes H i = .ok (s.get_proposal_votes i) := by
  unfold St.get_proposal_votes State.get_proposal_votes
  rw [h.tally hi]
  show (MapH.entryList string vote D (tallyOf H i (s.internal_get_proposal_vote i)).has_voted >>= _) = _
  rw [h.hvEntries i]
  rfl

theorem Rep.vote_succeeded (h : Rep H N f s D) (hi : i < 2 ^ 32) :
    (self H s D).get_proposal_vote_succeeded H i = .ok (s.get_proposal_vote_succeeded i) := by
  unfold St.get_proposal_vote_succeeded State.get_proposal_vote_succeeded
  rw [h.tally hi]
  rfl

theorem Rep.get_proposal_state (h : Rep H N f s D) (hi : i < 2 ^ 32) (now : Nat) :
    (self H s D).get_proposal_state H now i = s.get_proposal_state now i := by
  unfold St.get_proposal_state State.get_proposal_state
  rw [h.proposal hi, h.onVoting hi, h.active hi, h.quorum hi, h.vote_succeeded hi]
  congr 1; funext p
  congr 1; congr 1; congr 1; congr 1; funext v
  congr 1; congr 1; funext w
  congr 1; congr 1; funext q
  cases q <;> cases s.get_proposal_vote_succeeded i <;> rfl

theorem Rep.get_proposals (h : Rep H N f s D) (from_index limit : Nat) :
    (self H s D).get_proposals from_index limit = s.get_proposals from_index limit := by
  obtain ⟨h1, h2⟩ := h.tabs.coll .mpips trivial
  have hl : s.proposals.len < 2 ^ 64 := h2.lt
  unfold St.get_proposals State.get_proposals
  show (if s.proposals.len ≤ from_index then _ else _) = _
  congr 1
  refine congrArg (· >>= _) (MetaVote.Bytes.mapM_same fun j hj => ?_)
  have hj : from_index + j < s.proposals.len := by
    have := List.mem_range.1 hj
    change j < min (from_index + limit) s.proposals.len - from_index at this
    omega
  rw [show MapH.keyAt u32 (self H s D).D (self H s D).r.proposals (from_index + j) = _ from h1.keyAt (Nat.lt_trans hj hl)]
  show (expect s.proposals.keys[from_index + j]? _ >>= _) = _
  cases hk : s.proposals.keys[from_index + j]? with
  | none => rfl
  | some k =>
    obtain ⟨q, hq, e⟩ := List.mem_map.1 (List.mem_of_getElem? hk)
    have hq : s.proposals.get k = some q.2 := by rw [← e]; exact UMap.get_eq_some_iff.2 hq
    have hk : k < 2 ^ 32 := u32_ok.1 (isMap_ok h1 hq).1
    show (MapH.get u32 Borsh.proposal D _ k >>= _) = _
    rw [show MapH.get u32 Borsh.proposal D (self H s D).r.proposals k = _ from h.tabs.getProposal hk]
    rfl

theorem Rep.get_my_vote (h : Rep H N f s D) (ha : StrFits a) (hi : i < 2 ^ 32) :
    (self H s D).get_my_vote a i = s.get_my_vote a i := by
  unfold St.get_my_vote State.get_my_vote
  rw [h.hasVoted ha hi, h.voterVote ha hi]
  rfl

theorem Rep.get_voter (h : Rep H N f s D) (ha : StrFits a) : (self H s D).get_voter H a = .ok (s.get_voter a) := by
  unfold St.get_voter State.get_voter
  rw [h.voter ha]
  show (MapH.entryList u32 vote D (voterOf H a (s.internal_get_voter a)).votes >>= _) = _
  rw [h.vvEntries a]
  rfl

theorem Rep.get_user_proposals_ids (h : Rep H N f s D) (ha : StrFits a) :
    (self H s D).get_user_proposals_ids a = .ok (s.get_user_proposals_ids a) := by
  unfold St.get_user_proposals_ids State.get_user_proposals_ids
  rw [show MapH.get string (list u32) (self H s D).D (self H s D).r.proposers a = _ from h.tabs.getProposer ha]
  rfl

theorem Rep.get_quorum_reached (h : Rep H N f s D) (hi : i < 2 ^ 32) (c : Ctx) :
    (self H s D).get_quorum_reached H c i = s.get_quorum_reached c i := by
  unfold St.get_quorum_reached State.get_quorum_reached
  rw [h.quorum hi]
  rfl

end Verif.Mpip.Bytes
