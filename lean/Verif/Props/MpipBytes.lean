import Verif.Mpip.BytesWorld
import Verif.Mpip.BytesView
import Verif.Props.MpipVotes

/-!
# C93: mpip on the bytes of its storage

The contract reads and writes bytes: the record under `STATE` and the elements of its collections, under keys that are made of
prefixes, 32-byte hashes of the names of voters and of the numbers of proposals, and encoded keys.  As long as the hashes of the
names that occur do not collide and no collection has grown to `2 ^ 32` entries, it does what the model with plain maps does: same
panics, same questions to meta-vote and transfers, same state, same answers to views, and nothing else in storage is touched.
-/

namespace Verif.Mpip.Bytes

open Verif Storage Disk Borsh

variable {H : Hash} {N : Names} {f : Nat} {D : Disk} {s : State} {J : Json} {me : AccountId} {c : Ctx}

/-- **C93.** A call on the bytes panics with the message with which it panics in the model, or both succeed with the same
promises and the bytes that result hold the state that results.  Keys that are not of the contract are left alone. -/
theorem C93_call (hN : N.OK H) {k : Call} (h : Stored H N (f + 4) s D) (hc : c.timestamp ≤ U64_MAX) (hk : CallOK N c k) :
    (∃ e, Mpip.exec J s c k = .error e ∧ exec H J D c k = .error e) ∨
      ∃ s' D' out, Mpip.exec J s c k = .ok (s', out) ∧ exec H J D c k = .ok (D', out) ∧ Stored H N f s' D' ∧
        ∀ x, N.Foreign H x → D' x = D x := by
  have h0 := h.exec (J := J) hN hc hk
  generalize Mpip.exec J s c k = x at h0
  generalize exec H J D c k = y at h0
  cases x with
  | error e =>
    cases y with
    | error e' => exact .inl ⟨e, rfl, by rw [show e = e' from h0]⟩
    | ok b => exact h0.elim
  | ok a =>
    cases y with
    | error e' => exact h0.elim
    | ok b =>
      obtain ⟨s', out⟩ := a
      obtain ⟨D', out'⟩ := b
      obtain ⟨h1, h2⟩ := h0
      simp only at h1 h2
      subst h1
      exact .inr ⟨s', D', out', rfl, rfl, h2, fun x hx => (h2.rep.tabs.rest x hx).trans (h.rep.tabs.rest x hx).symm⟩

/-- **C93.** On storage in which nothing of the contract is, `new` writes the bytes of the state it makes, or panics. -/
theorem C93_install (hb : Blank H N D) {a o t v : AccountId} {p m st q : Nat} (ha : StrFits a) (ho : StrFits o)
    (ht : StrFits t) (hv : StrFits v) (hd : c.deposit = 0) (hr : (Call.new_ a o t v p m st q).in_range = true) :
    (∃ e, Mpip.new false a o t v p m st q = .error e ∧ exec H J D c (.new_ a o t v p m st q) = .error e) ∨
      ∃ s D', Mpip.new false a o t v p m st q = .ok s ∧ exec H J D c (.new_ a o t v p m st q) = .ok (D', []) ∧
        Stored H N (2 ^ 32 - 1) s D' ∧ ∀ x, N.Foreign H x → D' x = D x := by
  have h0 := hb.new (J := J) (c := c) (f := 2 ^ 32 - 1) (by omega) ha ho ht hv (p := p) (m := m) (st := st) (q := q)
  have e1 : require (c.deposit = 0) "Method doesn't accept deposit" = .ok () := by rw [hd]; rfl
  have e2 : require ((Call.new_ a o t v p m st q).in_range = true) "Failed to deserialize input from JSON." = .ok () := by
    rw [hr]; rfl
  rw [e1, e2] at h0
  change Rel _ (Mpip.new false a o t v p m st q) _ at h0
  generalize Mpip.new false a o t v p m st q = x at h0
  generalize exec H J D c (.new_ a o t v p m st q) = y at h0
  cases x with
  | error e =>
    cases y with
    | error e' => exact .inl ⟨e, rfl, by rw [show e = e' from h0]⟩
    | ok b => exact h0.elim
  | ok s =>
    cases y with
    | error e' => exact h0.elim
    | ok b =>
      obtain ⟨D', out⟩ := b
      obtain ⟨h1, h2⟩ := h0
      simp only at h1 h2
      subst h1
      exact .inr ⟨s, D', rfl, rfl, h2, fun x hx => (h2.rep.tabs.rest x hx).trans (hb.2.2 x hx).symm⟩

/-- **C93.** Once there is a state `new` panics; before, every other method does. -/
theorem C93_once (c : Ctx) :
    ((D STATE).isSome → ∀ a o t v p m st q, ∃ e, exec H J D c (.new_ a o t v p m st q) = .error e) ∧
    (D STATE = none → ∀ k D' out, exec H J D c k = .ok (D', out) → ∃ a o t v p m st q, k = .new_ a o t v p m st q) := by
  refine ⟨fun h a o t v p m st q => ?_, fun h k D' out hx => ?_⟩
  · cases hx : exec H J D c (.new_ a o t v p m st q) with
    | error e => exact ⟨e, rfl⟩
    | ok x =>
      unfold Bytes.exec Bytes.new at hx
      simp only [bind_ok_iff, require_ok_iff] at hx
      obtain ⟨-, -, -, -, -, -, -, ⟨-, h0, -⟩, -⟩ := hx
      rw [h0] at h; cases h
  · unfold Bytes.exec at hx
    simp only [bind_ok_iff, require_ok_iff] at hx
    obtain ⟨-, -, -, -, -, -, hx⟩ := hx
    cases k with
    | new_ a o t v p m st q => exact ⟨a, o, t, v, p, m, st, q, rfl⟩
    | _ => simp [Bytes.load, h, bind_ok_iff] at hx

/-- **C93.** Everything that can happen to the bytes is an execution of the model, with the same questions in flight, clock and
log, and the bytes hold its state.  What was in storage under other keys is still there. -/
theorem C93_reach (hN : N.OK H) {W : Nat} {w : BWorld} (h : BReach H N J me W w) (hW : W < 2 ^ 32) :
    ∃ s, Reach J me ⟨s, w.pending, w.clock, w.log⟩ ∧ Stored H N (2 ^ 32 - 1 - W) s w.D ∧
      ∀ x, N.Foreign H x → w.D x = N.rest x := by
  obtain ⟨s, h1, h2, -⟩ := h.inv hN hW
  exact ⟨s, h1, h2, h2.rep.tabs.rest⟩

/-! ## Views -/

/-- **C93.** Views of the settings and counters. -/
theorem C93_views_state (h : Stored H N f s D) (n : Nat) :
    view D (fun x => pure (x.check_proposal_threshold n)) = .ok (s.check_proposal_threshold n) ∧
    view D (fun x => pure x.get_mpip_storage_near) = .ok s.get_mpip_storage_near ∧
    view D (fun x => x.get_last_proposal_id) = s.get_last_proposal_id ∧
    view D (fun x => pure x.get_quorum_floor) = .ok s.get_quorum_floor ∧
    view D (fun x => pure x.get_proposal_threshold) = .ok s.get_proposal_threshold ∧
    view D (fun x => pure x.get_total_voters) = .ok s.get_total_voters := by
  simp only [h.view]
  exact ⟨rfl, rfl, rfl, rfl, rfl, rfl⟩

/-- **C93.** Views of a proposal and of its votes, of any number, created or not. -/
theorem C93_views_proposal (h : Stored H N f s D) {i : Nat} (hi : i < 2 ^ 32) (now : Nat) (c : Ctx) :
    view D (fun x => x.get_proposal i) = s.get_proposal i ∧
    view D (fun x => x.get_proposal_votes H i) = .ok (s.get_proposal_votes i) ∧
    view D (fun x => x.get_proposal_state H now i) = s.get_proposal_state now i ∧
    view D (fun x => x.get_proposal_is_active_or_draft now i) = s.get_proposal_is_active_or_draft now i ∧
    view D (fun x => x.get_proposal_vote_succeeded H i) = .ok (s.get_proposal_vote_succeeded i) ∧
    view D (fun x => x.get_quorum_reached H c i) = s.get_quorum_reached c i := by
  simp only [h.view]
  have h := h.rep
  exact ⟨h.proposal hi, h.get_proposal_votes hi, h.get_proposal_state hi now, h.activeOrDraft hi now, h.vote_succeeded hi,
    h.get_quorum_reached hi c⟩

/-- **C93.** Proposals page by page. -/
theorem C93_views_list (h : Stored H N f s D) (from_index limit : Nat) :
    view D (fun x => x.get_proposals from_index limit) = s.get_proposals from_index limit := by
  rw [h.view]
  exact h.rep.get_proposals from_index limit

/-- **C93.** Views of an account. -/
theorem C93_views_account (h : Stored H N f s D) {a : AccountId} (ha : StrFits a) {i : Nat} (hi : i < 2 ^ 32) :
    view D (fun x => x.get_my_proposals a) = .ok (s.get_my_proposals a) ∧
    view D (fun x => x.get_user_proposals_ids a) = .ok (s.get_user_proposals_ids a) ∧
    view D (fun x => x.has_voted a i) = .ok (s.has_voted a i) ∧
    view D (fun x => x.get_my_vote a i) = s.get_my_vote a i ∧
    view D (fun x => x.get_voter H a) = .ok (s.get_voter a) := by
  simp only [h.view]
  have h := h.rep
  exact ⟨h.proposer ha, h.get_user_proposals_ids ha, h.hasVoted ha hi, h.get_my_vote ha hi, h.get_voter ha⟩

/-- **C93.** On the bytes, in every execution: the votes on a proposal can be listed, no voter is listed twice, the tallies are at
least the sums of the listed votes, and every account sees the vote with which it is listed. -/
theorem C93_votes (hN : N.OK H) {W : Nat} {w : BWorld} (h : BReach H N J me W w) (hW : W < 2 ^ 32) {i : Nat} (hi : i < 2 ^ 32) :
    ∃ r, view w.D (fun x => x.get_proposal_votes H i) = .ok r ∧ (r.has_voted.map Prod.fst).Nodup ∧
      (∀ t, listed r.has_voted t ≤ r.tally t) ∧
      ∀ a, StrFits a → ∃ o, view w.D (fun x => x.get_my_vote a i) = .ok o ∧ ∀ v, o = some v ↔ (a, v) ∈ r.has_voted := by
  obtain ⟨s, h1, h2, -⟩ := C93_reach hN h hW
  refine ⟨_, (C93_views_proposal h2 hi 0 ⟨"", "", "", 0, 0, []⟩).2.1, C47_one_listed _ _, fun t => C46_at_least h1 i t, fun a ha => ?_⟩
  obtain ⟨o, ho, hx⟩ := (C48_agree h1 i a).1
  exact ⟨o, ((C93_views_account h2 ha hi).2.2.2.1).trans ho, hx⟩

/-! ## Cases -/

/-- Storage with a key that is not of the contract. -/
def other : Disk := fun x => if x = [255] then some [1] else none

/-- Names for `demoActs`. -/
def few : Names := ⟨fun v => v ∈ ["alice", "bob"], fun i => i ∈ [0, 1], other⟩

/-- The ids that are hashed. -/
def ids : List String := ["alice", "bob", "0", "1"]

theorem few_ids {c : MpipColl} (h : few.U c) : ∀ i, c.id = some i → i ∈ ids := by
  intro i e
  cases c with
  | votes =>
    simp only [MpipColl.id, Option.some.injEq] at e
    subst e
    simp only [Names.U, few, List.mem_cons, List.not_mem_nil, or_false] at h
    rcases h with rfl | rfl <;> decide +kernel
  | hasVoted =>
    simp only [MpipColl.id, Option.some.injEq] at e
    subst e
    simp only [Names.U, few, List.mem_cons, List.not_mem_nil, or_false] at h
    obtain ⟨j, hj, rfl⟩ := h
    rcases hj with rfl | rfl <;> decide +kernel
  | _ => cases e

theorem ids_apart : ∀ i ∈ ids, ∀ j ∈ ids, Disk.firstByte.fn i = Disk.firstByte.fn j → i = j := by decide +kernel

theorem few_ok : few.OK Disk.firstByte := by
  refine ⟨fun c d hc hd e => ?_, fun i hi => ?_, fun i hi => ?_⟩
  · have h1 := few_ids hc
    have h2 := few_ids hd
    generalize c.id = x at h1 e
    generalize d.id = y at h2 e
    cases x <;> cases y <;> simp only [Option.map_none, Option.map_some, Option.some.injEq, reduceCtorEq] at e
    · rfl
    · rw [ids_apart _ (h1 _ rfl) _ (h2 _ rfl) e]
  · simp only [few, List.mem_cons, List.not_mem_nil, or_false] at hi
    rcases hi with rfl | rfl <;> (unfold StrFits; decide +kernel)
  · simp only [few, List.mem_cons, List.not_mem_nil, or_false] at hi
    rcases hi with rfl | rfl <;> decide

theorem foreign : few.Foreign Disk.firstByte [255] := by
  refine ⟨by decide, fun c _ e _ h => ?_⟩
  have h := congrArg List.head? h
  cases c <;> simp [pre, prefixOf, MpipColl.tag] at h

theorem other_blank : Blank Disk.firstByte few other :=
  ⟨by decide, fun c hc e he => if_neg fun h => foreign.2 c hc e he h.symm, fun _ _ => rfl⟩

def installed : Disk := ((exec Disk.firstByte demoJ other ⟨"me", "deployer", "deployer", 0, 0, []⟩
  (.new_ "admin" "operator" "meta" "vote" 300000 1000 7 3000)).getOr (other, [])).1

/-- The bytes after `demoActs`. -/
def demoB : BWorld := (bruns Disk.firstByte demoJ "me" ⟨installed, [], 0, []⟩ demoActs).get (by decide +kernel)

theorem ok_of_getOr {x : Res (Disk × List Promise)} {d : Disk × List Promise} (h : Res.isOk x = true)
    (he : (x.getOr d).2.isEmpty = true) : x = .ok ((x.getOr d).1, []) := by
  cases x with
  | error => cases h
  | ok r => obtain ⟨D, l⟩ := r; cases l with
    | nil => rfl
    | cons => cases he

theorem demo_ok : ∀ a ∈ demoActs, ActOK few "me" a := by
  intro a ha
  simp only [demoActs, List.mem_cons, List.not_mem_nil, or_false] at ha
  rcases ha with rfl | rfl | rfl | rfl | rfl | rfl | rfl | rfl | rfl | rfl <;>
    first
    | trivial
    | refine ⟨⟨?_, ?_, ?_, ?_, ?_⟩, ?_⟩ <;> (unfold StrFits; decide +kernel)
    | refine ⟨?_, ?_, by unfold StrFits; decide +kernel⟩ <;> simp [few]

theorem demoB_reach : ∃ W, W ≤ 40 ∧ BReach Disk.firstByte few demoJ "me" W demoB := by
  refine reach_bruns (l := demoActs) (.init other installed ⟨"me", "deployer", "deployer", 0, 0, []⟩ "admin" "operator" "meta" "vote"
    300000 1000 7 3000 other_blank (by decide) ?_ ?_ ?_ ?_ ?_) demo_ok (Option.some_get _).symm
  all_goals first | (unfold StrFits; decide +kernel) | skip
  exact ok_of_getOr (by decide +kernel) (by decide +kernel)

/-- What `C93_reach` and `C93_votes` ask for, and what the views answer. -/
example : few.OK Disk.firstByte ∧ (∃ W, W < 2 ^ 32 ∧ BReach Disk.firstByte few demoJ "me" W demoB) ∧
    view demoB.D (fun x => x.get_proposal_votes Disk.firstByte 0) =
      .ok ⟨2048, 1025, 0, [("alice", ⟨0, .for_, 2048, "yes"⟩), ("bob", ⟨0, .against, 1025, "no"⟩)]⟩ ∧
    view demoB.D (fun x => x.get_my_vote "bob" 0) = .ok (some ⟨0, .against, 1025, "no"⟩) ∧
    view demoB.D (fun x => x.get_my_proposals "alice") = .ok [0, 1] ∧
    view demoB.D (fun x => x.get_proposal_state Disk.firstByte 10 0) = .ok .votingProcess ∧
    few.Foreign Disk.firstByte [255] ∧ demoB.D [255] = some [1] :=
  ⟨few_ok, demoB_reach.imp fun W h => ⟨by omega, h.2⟩, by decide +kernel, by decide +kernel, by decide +kernel,
    by decide +kernel, foreign, by decide +kernel⟩

/-- What `C93_call` and the views ask for. -/
example : ∃ s f, Stored Disk.firstByte few (f + 4) s demoB.D ∧ few.OK Disk.firstByte ∧
    Res.isOk (exec Disk.firstByte demoJ demoB.D ⟨"me", "bob", "bob", 0, 11 * MS, []⟩ (.remove_vote_proposal 0)) = true ∧
    CallOK few ⟨"me", "bob", "bob", 0, 11 * MS, []⟩ (.remove_vote_proposal 0) := by
  obtain ⟨W, hW, h⟩ := demoB_reach
  obtain ⟨s, -, h, -⟩ := C93_reach few_ok h (by omega)
  exact ⟨s, 2 ^ 32 - 1 - 44, h.mono (by omega), few_ok, by decide +kernel, by simp [few], by simp [few]⟩

/-- What `C93_install` and `C93_once` ask for. -/
example : Blank Disk.firstByte few other ∧ other STATE = none ∧ (demoB.D STATE).isSome = true ∧
    Res.isOk (Mpip.new false "admin" "operator" "meta" "vote" 300000 1000 7 3000) = true :=
  ⟨other_blank, by decide +kernel, by decide +kernel, by decide +kernel⟩

end Verif.Mpip.Bytes
