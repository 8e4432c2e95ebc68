import Verif.Mpip.Bytes
import Verif.MetaVote.BytesRep
import Std.Data.String.ToNat

/-!
# How the bytes of storage stand for a state of mpip

`Names` are the accounts that vote and the numbers of the proposals that are voted on; the hashes in their prefixes do not
collide.  `Tab` are the tables of the state, each of which is one collection of the storage (`TabOK`); `f` is what may still be
added to each without its length going over `2 ^ 32`.
-/

namespace Verif.Mpip.Bytes

open Verif Storage Disk Borsh

/-- Accounts that vote, numbers of proposals that are voted on, and what is in storage under keys that are not of the
contract. -/
structure Names where
  voter : String → Prop
  prop : Nat → Prop
  rest : Disk

/-- The collections that occur. -/
def Names.U (N : Names) : MpipColl → Prop
  | .hasVoted x => ∃ i, N.prop i ∧ x = Nat.repr i
  | .votes a => N.voter a
  | _ => True

/-- The hashes do not collide, the accounts can be strings of the contract and the numbers are `u32`. -/
structure Names.OK (H : Hash) (N : Names) : Prop where
  clear : Clear H MpipColl.id N.U
  voter : ∀ a, N.voter a → StrFits a
  prop : ∀ i, N.prop i → i < 2 ^ 32

/-- A key that is not of the contract. -/
def Names.Foreign (H : Hash) (N : Names) (x : Bytes) : Prop :=
  x ≠ STATE ∧ ∀ c, N.U c → ∀ e : Elem, e.of .map → x ≠ pre H c ++ e.bytes

/-- The tables of a state. -/
structure Tab where
  props : UMap Nat Proposal
  tally : UMap Nat ProposalVote
  voters : UMap String Voter
  proposers : UMap String (List Nat)
  /-- votes on a proposal -/
  hv : Nat → UMap String Vote
  /-- votes of a voter -/
  vv : String → UMap Nat Vote

/-- Maps keep room for `f` more. -/
def Room (f n : Nat) : Prop := n + f < 2 ^ 32

theorem Room.mono {f f' n : Nat} (h : Room f n) (hf : f' ≤ f) : Room f' n := by unfold Room at *; omega

theorem Room.lt {f n : Nat} (h : Room f n) : n < 2 ^ 64 := by unfold Room at h; omega

section
variable (H : Hash) (N : Names)

/-- The stored tally of a proposal. -/
def tallyOf (i : Nat) (pv : ProposalVote) : TallyRec :=
  ⟨pv.for_votes, pv.against_votes, pv.abstain_votes, .at (pre H (.hasVoted (Nat.repr i))) pv.has_voted.len⟩

/-- The stored record of a voter. -/
def voterOf (a : String) (v : Voter) : MpipVoterRec := ⟨.at (pre H (.votes a)) v.votes.len⟩

/-- One collection of the storage is its table. -/
def TabOK (f : Nat) (t : Tab) (D : Disk) : MpipColl → Prop
  | .mpips => IsMap u32 proposal D (pre H .mpips) (.at (pre H .mpips) t.props.len) t.props ∧ Room f t.props.len
  | .mpipVotes => IsMap u32 tallyRec D (pre H .mpipVotes) (.at (pre H .mpipVotes) t.tally.len) (t.tally.mapE (tallyOf H)) ∧
      Room f t.tally.len ∧ ∀ i pv, t.tally.get i = some pv → N.prop i
  | .voters => IsMap string mpipVoterRec D (pre H .voters) (.at (pre H .voters) t.voters.len) (t.voters.mapE (voterOf H)) ∧
      Room f t.voters.len ∧ ∀ a v, t.voters.get a = some v → N.voter a
  | .proposers => IsMap string (list u32) D (pre H .proposers) (.at (pre H .proposers) t.proposers.len) t.proposers ∧
      Room f t.proposers.len ∧ ∀ a l, t.proposers.get a = some l → Room f l.length
  | .hasVoted x => ∀ i, x = Nat.repr i →
      IsMap string vote D (pre H (.hasVoted x)) (.at (pre H (.hasVoted x)) (t.hv i).len) (t.hv i) ∧ Room f (t.hv i).len
  | .votes a => IsMap u32 vote D (pre H (.votes a)) (.at (pre H (.votes a)) (t.vv a).len) (t.vv a) ∧ Room f (t.vv a).len

/-- The storage is the tables, and the rest. -/
structure At (f : Nat) (t : Tab) (D : Disk) : Prop where
  coll : ∀ c, N.U c → TabOK H N f t D c
  rest : ∀ x, N.Foreign H x → D x = N.rest x

end

variable {H : Hash} {N : Names} {f f' : Nat} {t t' : Tab} {D D' : Disk}

theorem TabOK.frame {c : MpipColl} (h : TabOK H N f t D c)
    (hf : ∀ e : Elem, e.of .map → D' (pre H c ++ e.bytes) = D (pre H c ++ e.bytes)) : TabOK H N f t D' c := by
  cases c with
  | hasVoted x => exact fun i hi => ⟨(h i hi).1.frame hf, (h i hi).2⟩
  | mpips | mpipVotes | voters | proposers | votes => exact ⟨IsMap.frame h.1 hf, h.2⟩

theorem TabOK.mono {c : MpipColl} (h : TabOK H N f t D c) (hf : f' ≤ f) : TabOK H N f' t D c := by
  cases c with
  | mpips => exact ⟨h.1, h.2.mono hf⟩
  | mpipVotes => exact ⟨h.1, h.2.1.mono hf, h.2.2⟩
  | voters => exact ⟨h.1, h.2.1.mono hf, h.2.2⟩
  | proposers => exact ⟨h.1, h.2.1.mono hf, fun a l hl => (h.2.2 a l hl).mono hf⟩
  | hasVoted x => exact fun i hi => ⟨(h i hi).1, (h i hi).2.mono hf⟩
  | votes a => exact ⟨h.1, h.2.mono hf⟩

theorem At.mono (h : At H N f t D) (hf : f' ≤ f) : At H N f' t D := ⟨fun c hc => (h.coll c hc).mono hf, h.rest⟩

/-- One collection changes. -/
theorem At.change (hN : N.OK H) (h : At H N f t D) {c : MpipColl} (hc : N.U c) (fr : Frame .map (pre H c) D D') (hf : f' ≤ f)
    (h0 : TabOK H N f' t' D' c) (same : ∀ d, d ≠ c → TabOK H N f' t D' d → TabOK H N f' t' D' d) : At H N f' t' D' := by
  refine ⟨fun d hd => ?_, fun x hx => (fr x (hx.2 c hc)).trans (h.rest x hx)⟩
  by_cases e : d = c
  · subst e; exact h0
  · refine same d e (((h.coll d hd).mono hf).frame fun el hel => fr _ fun el' hel' he => e ?_)
    exact (C87_mpip hN.clear).1 d c hd hc el el' hel hel' he

/-- The contract state is no element of a collection. -/
theorem At.state (h : At H N f t D) (b : Option Bytes) : At H N f t (upd D STATE b) := by
  refine ⟨fun c hc => ?_, fun x hx => (upd_ne _ _ hx.1).trans (h.rest x hx)⟩
  refine (h.coll c hc).frame fun e he => upd_ne _ _ fun e' => ?_
  exact (C43_keys_mpip (H := H) (c := c) (d := c) (fun _ => rfl) he he).2 e'

theorem repr_inj {i j : Nat} (h : Nat.repr i = Nat.repr j) : i = j := Nat.repr_injective h

/-! ## What can be stored -/

theorem proposal_ok {p : Proposal} : proposal.ok p ↔ ProposalFits p := by
  have := C88_proposal (p := p) (b := proposal.enc p)
  rw [Codec.read_iff] at this
  simpa using this

theorem vote_ok {v : Vote} : vote.ok v ↔ VoteFits v := by
  have := C88_vote (v := v) (b := vote.enc v)
  rw [Codec.read_iff] at this
  simpa using this

theorem tally_ok {v : TallyRec} : tallyRec.ok v ↔ v.Fits := by
  have := (C88_tally (t := v) (v := ⟨.at [] 0⟩) (b := tallyRec.enc v)).1
  rw [Codec.read_iff] at this
  simpa using this

theorem voter_ok {v : MpipVoterRec} : mpipVoterRec.ok v ↔ v.Fits := by
  have := (C88_tally (t := ⟨0, 0, 0, .at [] 0⟩) (v := v) (b := mpipVoterRec.enc v)).2
  rw [Codec.read_iff] at this
  simpa using this

theorem ids_ok {l : List Nat} : (list u32).ok l ↔ l.length < 2 ^ 32 ∧ ∀ k ∈ l, k < 2 ^ 32 := by
  have := (C88_values (s := "") (l := []) (n := l) (p := ("", "")) (a := 0) (k := 0) (b := (list u32).enc l)).2.2.1
  rw [Codec.read_iff] at this
  constructor
  · intro h; exact (this.1 ⟨h, rfl⟩).1
  · intro h
    exact (this.2 ⟨h, by
      show le 4 l.length ++ l.flatMap _ = _
      rfl⟩).1

theorem pre_short (c : MpipColl) : (pre H c).length < 2 ^ 31 := by cases c <;> simp [pre, prefixOf, MpipColl.id, H.length]

theorem at_fits {c : MpipColl} {n : Nat} (h : n < 2 ^ 64) : (MapH.at (pre H c) n).Fits := mapAt_fits (pre_short c) h

/-- What is in a map can be stored. -/
theorem isMap_ok {K V : Type} [DecidableEq K] {kc : Codec K} {vc : Codec V} {p : Bytes} {h : MapH} {m : UMap K V}
    (hm : IsMap kc vc D p h m) {k : K} {v : V} (hk : m.get k = some v) : kc.ok k ∧ vc.ok v :=
  hm.2.1 _ (UMap.get_eq_some_iff.1 hk)

theorem isMap_at {K V : Type} [DecidableEq K] {kc : Codec K} {vc : Codec V} {p : Bytes} {h : MapH} {m : UMap K V}
    (hm : IsMap kc vc D p h m) : h = .at p m.len := hm.1

/-! ## Tables -/

namespace At

theorem getProposal (h : At H N f t D) {i : Nat} (hi : i < 2 ^ 32) :
    MapH.get u32 proposal D (.at (pre H .mpips) t.props.len) i = .ok (t.props.get i) :=
  (h.coll .mpips trivial).1.get (u32_ok.2 hi)

theorem getTally (h : At H N f t D) {i : Nat} (hi : i < 2 ^ 32) :
    MapH.get u32 tallyRec D (.at (pre H .mpipVotes) t.tally.len) i = .ok ((t.tally.get i).map (tallyOf H i)) := by
  rw [(h.coll .mpipVotes trivial).1.get (u32_ok.2 hi), UMap.mapE_get]

theorem getVoter (h : At H N f t D) {a : String} (ha : StrFits a) :
    MapH.get string mpipVoterRec D (.at (pre H .voters) t.voters.len) a = .ok ((t.voters.get a).map (voterOf H a)) := by
  rw [(h.coll .voters trivial).1.get (str_ok.2 ha), UMap.mapE_get]

theorem getProposer (h : At H N f t D) {a : String} (ha : StrFits a) :
    MapH.get string (list u32) D (.at (pre H .proposers) t.proposers.len) a = .ok (t.proposers.get a) :=
  (h.coll .proposers trivial).1.get (str_ok.2 ha)

theorem hasVoted (h : At H N f t D) {i : Nat} (hi : N.prop i) :
    IsMap string vote D (pre H (.hasVoted (Nat.repr i))) (.at (pre H (.hasVoted (Nat.repr i))) (t.hv i).len) (t.hv i) ∧
      Room f (t.hv i).len := h.coll (.hasVoted (Nat.repr i)) ⟨i, hi, rfl⟩ i rfl

theorem votes (h : At H N f t D) {a : String} (ha : N.voter a) :
    IsMap u32 vote D (pre H (.votes a)) (.at (pre H (.votes a)) (t.vv a).len) (t.vv a) ∧ Room f (t.vv a).len :=
  h.coll (.votes a) ha

theorem putProposal (hN : N.OK H) (h : At H N (f + 1) t D) {i : Nat} (hi : i < 2 ^ 32) {p : Proposal} (hp : ProposalFits p) :
    ∃ D', MapH.insert u32 proposal D (.at (pre H .mpips) t.props.len) i p =
        .ok (D', .at (pre H .mpips) (t.props.insert i p).len) ∧
      At H N f { t with props := t.props.insert i p } D' := by
  obtain ⟨h1, h2⟩ := h.coll .mpips trivial
  obtain ⟨D', h', e, h3, h4⟩ := h1.insert h2.lt (u32_ok.2 hi) (proposal_ok.2 hp)
  have e' := isMap_at h3
  subst e'
  have hl := UMap.len_insert_le t.props i p
  refine ⟨D', e, h.change hN (c := .mpips) trivial h4 (Nat.le_succ f) ⟨h3, ?_⟩ ?_⟩
  · unfold Room at h2 ⊢; show (t.props.insert i p).len + f < _; omega
  · intro d hd h; cases d <;> first | exact h | exact (hd rfl).elim

theorem putProposer (hN : N.OK H) (h : At H N (f + 1) t D) {a : String} (ha : StrFits a) {l : List Nat}
    (hl : Room f l.length) (hk : ∀ k ∈ l, k < 2 ^ 32) :
    ∃ D', MapH.insert string (list u32) D (.at (pre H .proposers) t.proposers.len) a l =
        .ok (D', .at (pre H .proposers) (t.proposers.insert a l).len) ∧
      At H N f { t with proposers := t.proposers.insert a l } D' := by
  obtain ⟨h1, h2, h5⟩ := h.coll .proposers trivial
  obtain ⟨D', h', e, h3, h4⟩ := h1.insert h2.lt (str_ok.2 ha) (ids_ok.2 ⟨by unfold Room at hl; omega, hk⟩)
  have e' := isMap_at h3
  subst e'
  have hle := UMap.len_insert_le t.proposers a l
  refine ⟨D', e, h.change hN (c := .proposers) trivial h4 (Nat.le_succ f) ⟨h3, ?_, ?_⟩ ?_⟩
  · unfold Room at h2 ⊢; show (t.proposers.insert a l).len + f < _; omega
  · intro b m hm
    change (t.proposers.insert a l).get b = some m at hm
    rw [UMap.get_insert] at hm
    split at hm
    · cases hm; exact hl
    · exact (h5 b m hm).mono (Nat.le_succ f)
  · intro d hd h; cases d <;> first | exact h | exact (hd rfl).elim

theorem putTally (hN : N.OK H) (h : At H N (f + 1) t D) {i : Nat} (hi : N.prop i) {pv : ProposalVote}
    (h128 : pv.for_votes < 2 ^ 128 ∧ pv.against_votes < 2 ^ 128 ∧ pv.abstain_votes < 2 ^ 128) (hl : pv.has_voted.len < 2 ^ 64) :
    ∃ D', MapH.insert u32 tallyRec D (.at (pre H .mpipVotes) t.tally.len) i (tallyOf H i pv) =
        .ok (D', .at (pre H .mpipVotes) (t.tally.insert i pv).len) ∧
      At H N f { t with tally := t.tally.insert i pv } D' := by
  obtain ⟨h1, h2, h5⟩ := h.coll .mpipVotes trivial
  obtain ⟨D', h', e, h3, h4⟩ := h1.insert (by rw [UMap.mapE_len]; exact h2.lt) (u32_ok.2 (hN.prop i hi)) (v := tallyOf H i pv)
    (tally_ok.2 ⟨h128.1, h128.2.1, h128.2.2, at_fits hl⟩)
  rw [UMap.mapE_insert (g' := tallyOf H) _ (fun _ _ => rfl)] at h3
  have e' := isMap_at h3
  rw [UMap.mapE_len] at e'
  subst e'
  have hle := UMap.len_insert_le t.tally i pv
  refine ⟨D', e, h.change hN (c := .mpipVotes) trivial h4 (Nat.le_succ f) ⟨h3, ?_, ?_⟩ ?_⟩
  · unfold Room at h2 ⊢; show (t.tally.insert i pv).len + f < _; omega
  · intro b m hm
    change (t.tally.insert i pv).get b = some m at hm
    rw [UMap.get_insert] at hm
    split at hm
    · rename_i e; subst e; exact hi
    · exact h5 b m hm
  · intro d hd h; cases d <;> first | exact h | exact (hd rfl).elim

theorem putVoter (hN : N.OK H) (h : At H N (f + 1) t D) {a : String} (ha : N.voter a) {v : Voter} (hl : v.votes.len < 2 ^ 64) :
    ∃ D', MapH.insert string mpipVoterRec D (.at (pre H .voters) t.voters.len) a (voterOf H a v) =
        .ok (D', .at (pre H .voters) (t.voters.insert a v).len) ∧
      At H N f { t with voters := t.voters.insert a v } D' := by
  obtain ⟨h1, h2, h5⟩ := h.coll .voters trivial
  obtain ⟨D', h', e, h3, h4⟩ := h1.insert (by rw [UMap.mapE_len]; exact h2.lt) (str_ok.2 (hN.voter a ha)) (v := voterOf H a v)
    (voter_ok.2 (at_fits hl))
  rw [UMap.mapE_insert (g' := voterOf H) _ (fun _ _ => rfl)] at h3
  have e' := isMap_at h3
  rw [UMap.mapE_len] at e'
  subst e'
  have hle := UMap.len_insert_le t.voters a v
  refine ⟨D', e, h.change hN (c := .voters) trivial h4 (Nat.le_succ f) ⟨h3, ?_, ?_⟩ ?_⟩
  · unfold Room at h2 ⊢; show (t.voters.insert a v).len + f < _; omega
  · intro b m hm
    change (t.voters.insert a v).get b = some m at hm
    rw [UMap.get_insert] at hm
    split at hm
    · rename_i e; subst e; exact ha
    · exact h5 b m hm
  · intro d hd h; cases d <;> first | exact h | exact (hd rfl).elim

theorem dropVoter (hN : N.OK H) (h : At H N f t D) {a : String} (ha : N.voter a) :
    ∃ D' o, MapH.remove string mpipVoterRec D (.at (pre H .voters) t.voters.len) a =
        .ok (D', .at (pre H .voters) (t.voters.remove a).len, o) ∧
      At H N f { t with voters := t.voters.remove a } D' := by
  obtain ⟨h1, h2, h5⟩ := h.coll .voters trivial
  obtain ⟨D', h', e, h3, h4⟩ := h1.remove (by rw [UMap.mapE_len]; exact h2.lt.le) (str_ok.2 (hN.voter a ha))
  rw [UMap.mapE_remove] at h3
  have e' := isMap_at h3
  rw [UMap.mapE_len] at e'
  subst e'
  have hle := UMap.len_remove_le t.voters a
  refine ⟨D', _, e, h.change hN (c := .voters) trivial h4 (Nat.le_refl f) ⟨h3, ?_, ?_⟩ ?_⟩
  · unfold Room at h2 ⊢; show (t.voters.remove a).len + f < _; omega
  · intro b m hm
    change (t.voters.remove a).get b = some m at hm
    rw [UMap.get_remove] at hm
    split at hm
    · cases hm
    · exact h5 b m hm
  · intro d hd h; cases d <;> first | exact h | exact (hd rfl).elim

theorem insertHasVoted (hN : N.OK H) (h : At H N (f + 1) t D) {i : Nat} (hi : N.prop i) {a : String} (ha : StrFits a) {v : Vote}
    (hv : VoteFits v) :
    ∃ D', MapH.insert string vote D (.at (pre H (.hasVoted (Nat.repr i))) (t.hv i).len) a v =
        .ok (D', .at (pre H (.hasVoted (Nat.repr i))) ((t.hv i).insert a v).len) ∧
      At H N f { t with hv := upd t.hv i ((t.hv i).insert a v) } D' := by
  obtain ⟨h1, h2⟩ := h.hasVoted hi
  obtain ⟨D', h', e, h3, h4⟩ := h1.insert h2.lt (str_ok.2 ha) (vote_ok.2 hv)
  have e' := isMap_at h3
  subst e'
  have hle := UMap.len_insert_le (t.hv i) a v
  refine ⟨D', e, h.change hN (c := .hasVoted (Nat.repr i)) ⟨i, hi, rfl⟩ h4 (Nat.le_succ f) ?_ ?_⟩
  · intro j hj
    cases repr_inj hj
    dsimp only
    rw [upd_self]
    exact ⟨h3, by unfold Room at h2 ⊢; omega⟩
  · intro d hd h
    cases d with
    | hasVoted x =>
      intro j hj
      have : j ≠ i := fun e => hd (by rw [hj, e])
      dsimp only
      rw [upd_ne _ _ this]
      exact h j hj
    | _ => exact h

theorem removeHasVoted (hN : N.OK H) (h : At H N f t D) {i : Nat} (hi : N.prop i) {a : String} (ha : StrFits a) :
    ∃ D' o, MapH.remove string vote D (.at (pre H (.hasVoted (Nat.repr i))) (t.hv i).len) a =
        .ok (D', .at (pre H (.hasVoted (Nat.repr i))) ((t.hv i).remove a).len, o) ∧
      At H N f { t with hv := upd t.hv i ((t.hv i).remove a) } D' := by
  obtain ⟨h1, h2⟩ := h.hasVoted hi
  obtain ⟨D', h', e, h3, h4⟩ := h1.remove h2.lt.le (str_ok.2 ha)
  have e' := isMap_at h3
  subst e'
  have hle := UMap.len_remove_le (t.hv i) a
  refine ⟨D', _, e, h.change hN (c := .hasVoted (Nat.repr i)) ⟨i, hi, rfl⟩ h4 (Nat.le_refl f) ?_ ?_⟩
  · intro j hj
    cases repr_inj hj
    dsimp only
    rw [upd_self]
    exact ⟨h3, by unfold Room at h2 ⊢; omega⟩
  · intro d hd h
    cases d with
    | hasVoted x =>
      intro j hj
      have : j ≠ i := fun e => hd (by rw [hj, e])
      dsimp only
      rw [upd_ne _ _ this]
      exact h j hj
    | _ => exact h

theorem insertVote (hN : N.OK H) (h : At H N (f + 1) t D) {a : String} (ha : N.voter a) {i : Nat} (hi : i < 2 ^ 32) {v : Vote}
    (hv : VoteFits v) :
    ∃ D', MapH.insert u32 vote D (.at (pre H (.votes a)) (t.vv a).len) i v =
        .ok (D', .at (pre H (.votes a)) ((t.vv a).insert i v).len) ∧
      At H N f { t with vv := upd t.vv a ((t.vv a).insert i v) } D' := by
  obtain ⟨h1, h2⟩ := h.votes ha
  obtain ⟨D', h', e, h3, h4⟩ := h1.insert h2.lt (u32_ok.2 hi) (vote_ok.2 hv)
  have e' := isMap_at h3
  subst e'
  have hle := UMap.len_insert_le (t.vv a) i v
  refine ⟨D', e, h.change hN (c := .votes a) ha h4 (Nat.le_succ f) ?_ ?_⟩
  · show IsMap u32 vote D' _ (.at _ (upd t.vv a _ a).len) (upd t.vv a _ a) ∧ Room f (upd t.vv a _ a).len
    rw [upd_self]
    exact ⟨h3, by unfold Room at h2 ⊢; omega⟩
  · intro d hd h
    cases d with
    | votes b =>
      have : b ≠ a := fun e => hd (by rw [e])
      show IsMap u32 vote D' _ (.at _ (upd t.vv a _ b).len) (upd t.vv a _ b) ∧ Room f (upd t.vv a _ b).len
      rw [upd_ne _ _ this]
      exact h
    | _ => exact h

theorem removeVote (hN : N.OK H) (h : At H N f t D) {a : String} (ha : N.voter a) {i : Nat} (hi : i < 2 ^ 32) :
    ∃ D' o, MapH.remove u32 vote D (.at (pre H (.votes a)) (t.vv a).len) i =
        .ok (D', .at (pre H (.votes a)) ((t.vv a).remove i).len, o) ∧
      At H N f { t with vv := upd t.vv a ((t.vv a).remove i) } D' := by
  obtain ⟨h1, h2⟩ := h.votes ha
  obtain ⟨D', h', e, h3, h4⟩ := h1.remove h2.lt.le (u32_ok.2 hi)
  have e' := isMap_at h3
  subst e'
  have hle := UMap.len_remove_le (t.vv a) i
  refine ⟨D', _, e, h.change hN (c := .votes a) ha h4 (Nat.le_refl f) ?_ ?_⟩
  · show IsMap u32 vote D' _ (.at _ (upd t.vv a _ a).len) (upd t.vv a _ a) ∧ Room f (upd t.vv a _ a).len
    rw [upd_self]
    exact ⟨h3, by unfold Room at h2 ⊢; omega⟩
  · intro d hd h
    cases d with
    | votes b =>
      have : b ≠ a := fun e => hd (by rw [e])
      show IsMap u32 vote D' _ (.at _ (upd t.vv a _ b).len) (upd t.vv a _ b) ∧ Room f (upd t.vv a _ b).len
      rw [upd_ne _ _ this]
      exact h
    | _ => exact h

end At

end Verif.Mpip.Bytes
