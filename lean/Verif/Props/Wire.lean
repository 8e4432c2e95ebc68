import Verif.Serde.Wire
import Verif.Props.Governance
import Verif.Props.Logs
import Verif.MetaVote.Locked

/-!
# C94: the contracts understand each other's JSON
-/

namespace Verif.Joint

open Verif Storage Serde

variable {vote gov : String}

/-! ## Questions and answers -/

/-- C94: the positions that meta-vote returns to mpip are read as exactly the positions shown by its view. -/
theorem C94_positions {J : MetaVote.Json} {me : String} {w : MetaVote.World} (h : MetaVote.Reach J me w) (now : Nat) (v : String) :
    ∃ b,
      MetaVote.viewJson w.st now (Mpip.Query.get_all_locking_positions v).write.1 (Mpip.Query.get_all_locking_positions v).write.2 =
        some b ∧ Mpip.serde.read_positions b = some (w.st.get_all_locking_positions now v) := by
  have hok := MetaVote.shown_ok h now v
  refine ⟨(list positionTy).encode (w.st.get_all_locking_positions now v), ?_, ?_⟩
  · have : argsTo (Fields.one "voter_id" account) v = argsTo (Fields.one "voter_id" str) v := rfl
    simp only [MetaVote.viewJson, Mpip.Query.write, this]
    exact argsOf_argsTo (F := Fields.one "voter_id" str) (a := v) trivial (by decide)
  · have hd : Mpip.serde.positions ((list positionTy).encode (w.st.get_all_locking_positions now v)) =
        some (w.st.get_all_locking_positions now v) := (list positionTy).decode_encode hok (by decide)
    unfold Mpip.Json.read_positions
    rw [hd, Option.filter_some, if_pos]
    rw [List.all_eq_true]
    intro p hp
    have := positionTy_ok.1 (hok p hp)
    exact decide_eq_true ⟨this.2.2.2.1, this.2.1⟩

/-- C94: the total power that meta-vote returns to mpip is read as exactly that number. -/
theorem C94_total {J : MetaVote.Json} {me : String} {w : MetaVote.World} (h : MetaVote.Reach J me w) (now : Nat) : ∃ b,
    MetaVote.viewJson w.st now Mpip.Query.get_total_voting_power.write.1 Mpip.Query.get_total_voting_power.write.2 = some b ∧
      Mpip.serde.read_total b = some w.st.get_total_voting_power := by
  have hle : w.st.get_total_voting_power ≤ U128_MAX := MetaVote.reach_total h
  refine ⟨_, rfl, ?_⟩
  have hd : Mpip.serde.total (u128.encode w.st.get_total_voting_power) = some w.st.get_total_voting_power :=
    u128.decode_encode hle (by decide)
  unfold Mpip.Json.read_total
  rw [hd, Option.filter_some, if_pos (by simpa using hle)]

/-- The callback can be written and read. -/
def Sendable (q : Mpip.Pending) : Prop := q.callback.in_range = true ∧ q.callback.valid

theorem asks_sendable {s : Mpip.State} {c : Mpip.Ctx} {k : Mpip.Call} {q : Mpip.Pending} (h : Mpip.Asks s c k q)
    (hc : validAccount c.predecessor = true) (hk : k.in_range = true) : Sendable q := by
  cases h with
  | start => exact ⟨hk, trivial⟩
  | create => exact ⟨rfl, trivial⟩
  | vote => exact ⟨hk, hc⟩

theorem WStep.mp_cases {j j' : World} (h : WStep vote gov j j') : j'.mp = j.mp ∨ ∃ p', Mpip.Step Mpip.serde gov j.mp p' ∧
    j'.mp = p' ∧ ∀ c k out, p'.log = .call c k out :: j.mp.log → validAccount c.predecessor = true := by
  cases h with
  | mv => exact .inl rfl
  | call p' c name b k out hb hc h hlog hk =>
    refine .inr ⟨p', h, rfl, fun c1 k1 out1 h1 => ?_⟩
    rw [hlog] at h1
    simp only [List.cons.injEq, Mpip.Entry.call.injEq, and_true] at h1
    rw [← h1.1]; exact hc
  | reply p' pre post q w0 m ts r b h hlog =>
    refine .inr ⟨p', h, rfl, fun c1 k1 out1 h1 => ?_⟩
    rw [hlog] at h1; simp at h1
  | tick p' h hlog =>
    refine .inr ⟨p', h, rfl, fun c1 k1 out1 h1 => ?_⟩
    rw [hlog] at h1; exact absurd (congrArg List.length h1) (by simp)

theorem pending_sendable {j : World} (h : WReach vote gov j) : ∀ q ∈ j.mp.pending, Sendable q := by
  induction h with
  | init _ _ _ hp _ => rw [hp.empty.2.2.2.2.2.1]; simp
  | @step j j' hj hs ih =>
    rcases hs.mp_cases with h | ⟨p', h, h2, hc⟩
    · rw [h]; exact ih
    · rw [h2]
      intro q hq
      cases h with
      | call c k s' out _ _ _ _ he =>
        rcases List.mem_append.1 hq with hq | hq
        · exact ih q hq
        · exact asks_sendable (Mpip.exec_asks he hq) (hc _ _ _ rfl) (Mpip.exec_ok.1 he).2.2.1
      | reply pre post q1 r ts hpend =>
        refine ih q ?_
        rw [hpend]
        rcases List.mem_append.1 hq with hq | hq
        · exact List.mem_append_left _ hq
        · exact List.mem_append_right _ (List.mem_cons_of_mem _ hq)
      | tick => exact ih q hq

/-- C94: what mpip asks itself to do after the answer is read back as it was meant. -/
theorem C94_callback {j : World} (h : WReach vote gov j) {q : Mpip.Pending} (hq : q ∈ j.mp.pending) :
    Mpip.Call.read q.callback.write.1 q.callback.write.2 = some q.callback :=
  Mpip.Call.read_write (pending_sendable h q hq).1 (pending_sendable h q hq).2

/-- The answers as bytes are answers in the sense of the joint system with a decoder as parameter. -/
theorem replies_answers {w : MetaVote.World} (h : MetaVote.Reach MetaVote.serde vote w) {q : Mpip.Pending}
    {r : Mpip.Reply} (hr : Replies w.st q.query r) : Answers Mpip.serde w.st q.query r := by
  rcases hr with rfl | ⟨now, b, hb, rfl⟩
  · unfold Answers; trivial
  · obtain ⟨adr, query, cb, sg⟩ := q
    cases query with
    | get_all_locking_positions v =>
      obtain ⟨b', h1, h2⟩ := C94_positions h now v
      simp only at hb
      rw [hb] at h1; cases h1
      refine ⟨now, ?_⟩
      unfold Mpip.Json.read_positions at h2
      exact (Option.filter_eq_some_iff.1 h2).1
    | get_total_voting_power =>
      obtain ⟨b', h1, h2⟩ := C94_total h now
      simp only at hb
      rw [hb] at h1; cases h1
      unfold Mpip.Json.read_total at h2
      exact (Option.filter_eq_some_iff.1 h2).1

/-- C94: with JSON messages nothing happens that the joint system does not allow, so its properties (C67) hold. -/
theorem C94_joint {j : World} (h : WReach vote gov j) : Reach MetaVote.serde Mpip.serde vote gov j := by
  induction h with
  | init v p hv hp ha => exact .init v p hv hp ha
  | @step j j' hj hs ih =>
    refine ih.step ?_
    cases hs with
    | mv v' h => exact .mv j v' h
    | call p' c name b k out hb hc h hlog hk => exact .call j p' c k out h hlog hk
    | reply p' pre post q w0 m ts r b h hlog hq h0 h1 hr =>
      have hm : (q, w0) ∈ j.asked := by rw [hq]; simp
      exact .reply j p' pre post q w0 m ts r b h hlog hq h0 h1
        (replies_answers ((asked_reach ih _ hm).steps h0) hr)
    | tick p' h hlog => exact .tick j p' h hlog

/-- C94: with the real decoder, the power of every recorded vote is the locked power that meta-vote showed for that voter. -/
theorem C94_locked {j : World} (h : WReach vote gov j) {v : String} {i : Nat} {x : Mpip.Vote}
    (hx : j.mp.st.get_my_vote v i = .ok (some x)) : ∃ m now, Past MetaVote.serde vote j m ∧
      x.voting_power = MetaVote.lockedPower (m.st.get_all_locking_positions now v) := C67_locked (C94_joint h) hx

/-- C94: and every quorum is a share of the total power that it showed. -/
theorem C94_quorum {j : World} (h : WReach vote gov j) (hcap : j.mp.st.proposals.len < 2 ^ 32) {i q : Nat} {p : Mpip.Proposal}
    (hp : j.mp.st.get_proposal i = .ok p) (hq : p.v_power_quorum_to_reach = some q) :
    ∃ m bps, Past MetaVote.serde vote j m ∧ bps ≤ 10000 ∧ q = m.st.get_total_voting_power * bps / 10000 :=
  C67_quorum (C94_joint h) hcap hp hq

/-- C94: an answer that arrives is never lost in decoding: the callback of a vote counts exactly the locked power shown by
meta-vote in the state in which it answered. -/
theorem C94_counts {w : MetaVote.World} (h : MetaVote.Reach MetaVote.serde vote w) {v : String} {b : Bytes}
    (hr : Replies w.st (.get_all_locking_positions v) (.successful b)) : ∃ now,
      Mpip.serde.read_positions b = some (w.st.get_all_locking_positions now v) ∧
      Mpip.replyPower Mpip.serde (.successful b) = MetaVote.lockedPower (w.st.get_all_locking_positions now v) := by
  rcases hr with hr | ⟨now, b1, hb, hr⟩
  · cases hr
  · cases hr
    obtain ⟨b', h1, h2⟩ := C94_positions h now v
    rw [hb] at h1; cases h1
    refine ⟨now, h2, ?_⟩
    simp only [Mpip.replyPower, h2]
    exact lockedSum_view ..

/-! ### A run in JSON -/

/-- A call by name and input, or an answer of meta-vote. -/
inductive WAct where
  | call (predecessor : String) (deposit ts : Nat) (name : String) (input : Bytes)
  | reply (i ts : Nat)
  | fail (i ts : Nat)

/-- Carry out an action while meta-vote stands still in `v`. -/
def wact (v : MetaVote.World) (p : Mpip.World) : WAct → Option Mpip.World
  | .call pr d ts name b => if validAccount pr then
      match Mpip.Call.read name b with
      | some (.update_meta_vote_contract_address _) => none
      | some k => Mpip.actG Mpip.serde "gov" (fun _ _ _ => true) p (.call pr pr d ts k)
      | none => none
    else none
  | .reply i ts => match p.pending[i]? with
    | some q => match MetaVote.viewJson v.st (ts / 1000000) q.query.write.1 q.query.write.2 with
      | some b => Mpip.actG Mpip.serde "gov" (fun _ _ _ => true) p (.reply i (.successful b) ts)
      | none => none
    | none => none
  | .fail i ts => Mpip.actG Mpip.serde "gov" (fun _ _ _ => true) p (.reply i .failed ts)

/-- Carry out a list of actions. -/
def wruns (v : MetaVote.World) (p : Mpip.World) : List WAct → Option Mpip.World
  | [] => some p
  | a :: l => (wact v p a).bind fun p' => wruns v p' l

/-- Reachable with meta-vote standing still. -/
def WStill (v : MetaVote.World) (p : Mpip.World) : Prop := ∃ l, WReach "me" "gov" ⟨v, p, l⟩ ∧ ∀ x ∈ l, x.2 = v

theorem wstill_reply {v : MetaVote.World} {p p' : Mpip.World} (h : WStill v p) {i ts : Nat} {r : Mpip.Reply}
    (hr : ∀ q, p.pending[i]? = some q → Replies v.st q.query r)
    (ha : Mpip.actG Mpip.serde "gov" (fun _ _ _ => true) p (.reply i r ts) = some p') : WStill v p' := by
  have hstep := (Mpip.step_of_act ha).1
  obtain ⟨l, h1, h2⟩ := h
  simp only [Mpip.actG] at ha
  split at ha
  · rename_i q hq
    split at ha
    · cases ha
      obtain ⟨x, hx, hxq⟩ := List.mem_map.1 ((C94_joint h1).asked.mem_iff.1 (List.mem_of_getElem? hq))
      obtain ⟨pre, post, hpp⟩ := List.append_of_mem hx
      simp only at hpp
      refine ⟨pre ++ post, h1.step (.reply _ _ pre post x.1 x.2 v ts r
        (Mpip.exec Mpip.serde p.st (Mpip.replyCtx "gov" q ts r) q.callback).isOk hstep ?_ hpp (h2 x hx ▸ .refl) .refl ?_), ?_⟩
      · rw [hxq]
      · rw [hxq]; exact hr q hq
      · intro y hy
        refine h2 y ?_
        rw [hpp]
        rcases List.mem_append.1 hy with hy | hy
        · exact List.mem_append_left _ hy
        · exact List.mem_append_right _ (List.mem_cons_of_mem _ hy)
    · cases ha
  · cases ha

theorem wstill_act {v : MetaVote.World} {p p' : Mpip.World} (h : WStill v p) {a : WAct} (ha : wact v p a = some p') :
    WStill v p' := by
  cases a with
  | fail i ts => exact wstill_reply h (fun _ _ => .inl rfl) ha
  | reply i ts =>
    simp only [wact] at ha
    split at ha
    · rename_i q hq
      split at ha
      · rename_i b hb
        exact wstill_reply h (fun q' hq' => by rw [hq] at hq'; cases hq'; exact .inr ⟨_, b, hb, rfl⟩) ha
      · cases ha
    · cases ha
  | call pr d ts name b =>
    simp only [wact] at ha
    split at ha
    · rename_i hv
      split at ha
      · cases ha
      · rename_i k hk hread
        have hstep := (Mpip.step_of_act ha).1
        simp only [Mpip.actG] at ha
        split at ha
        · split at ha
          · cases ha
            obtain ⟨l, h1, h2⟩ := h
            refine ⟨_, h1.step (.call _ _ _ name b k _ hread ?_ hstep rfl ?_), ?_⟩
            · exact hv
            · intro a ha; subst ha; exact absurd rfl (hk a)
            · intro x hx
              rcases List.mem_append.1 hx with hx | hx
              · exact h2 x hx
              · obtain ⟨q, -, rfl⟩ := List.mem_map.1 hx; rfl
          · cases ha
        · cases ha
      · cases ha
    · cases ha

theorem wstill_runs {v : MetaVote.World} {l : List WAct} : ∀ {p p' : Mpip.World}, WStill v p → wruns v p l = some p' →
    WStill v p' := by
  induction l with
  | nil => intro p p' h hr; cases hr; exact h
  | cons a l ih =>
    intro p p' h hr
    obtain ⟨p1, h1, h2⟩ := Option.bind_eq_some_iff.1 hr
    exact ih (wstill_act h h1) h2

/-- Deposits of alice and, made by the owner, of bob. -/
def wireVote : MetaVote.World := (MetaVote.runs MetaVote.serde "me" MetaVote.demo0
  [.call "mpdao" 0 1000 (.ft_on_transfer "alice" 60000000 (MetaVote.ascii "60")),
   .call "mpdao" 0 2000 (.ft_on_transfer "owner" 30000000 (MetaVote.ascii "[ \"bob\", 30 ]")),
   .call "mpdao" 0 4000 (.ft_on_transfer "dist" 12000000 (MetaVote.ascii "for-claims:[[\"alice\",5],[\"bob\",7]]"))]).get
  (by decide +kernel)

theorem wireVote_reach : MetaVote.Reach MetaVote.serde "me" wireVote :=
  MetaVote.reach_of_runs MetaVote.demo0_init (Option.some_get _).symm

/-- Alice creates a proposal, starts the voting and votes for it, in JSON. -/
def wireGov : Mpip.World := (wruns wireVote gov0
  [.call "alice" 7 (1 * Mpip.MS) "create_proposal"
     (MetaVote.ascii "{\"title\":\"t\",\"short_description\":\"s\",\"body\":\"b\",\"data\":\"d\",\"extra\":\"e\"}"),
   .reply 0 (2 * Mpip.MS), .call "alice" 0 (3 * Mpip.MS) "start_voting_period" (MetaVote.ascii "{\"mpip_id\":0}"),
   .reply 0 (4 * Mpip.MS), .call "alice" 0 (5 * Mpip.MS) "vote_proposal"
     (MetaVote.ascii "{\"mpip_id\":0, \"vote\":\"For\", \"memo\":\"yes\"}"), .reply 0 (6 * Mpip.MS),
   .call "bob" 0 (7 * Mpip.MS) "vote_proposal" (MetaVote.ascii "{\"vote\":\"Against\",\"memo\":\"\",\"mpip_id\":0}")]).get
  (by decide +kernel)

theorem wireGov_reach : WStill wireVote wireGov :=
  wstill_runs ⟨[], .init _ _ wireVote_reach gov0_init (by decide +kernel), by simp⟩ (Option.some_get _).symm

/-- The vote of alice counts 60 units, and the question for the vote of bob is in flight. -/
example : (∃ a, WReach "me" "gov" ⟨wireVote, wireGov, a⟩) ∧
    (wireGov.st.get_my_vote "alice" 0).getOr none = some ⟨0, .for_, 60 * 10 ^ 24, "yes"⟩ ∧
    MetaVote.lockedPower (wireVote.st.get_all_locking_positions 20 "alice") = 60 * 10 ^ 24 ∧
    (Mpip.prop wireGov 0).v_power_quorum_to_reach = some (75 * 10 ^ 24 * 3000 / 10000) ∧
    wireGov.st.proposals.len < 2 ^ 32 ∧ validAccount "alice" = true ∧
    wireGov.pending = [⟨"me", .get_all_locking_positions "bob", .vote_proposal_callback 0 "bob" .against "", "bob"⟩] ∧
    Replies wireVote.st (.get_all_locking_positions "alice")
      (.successful ((list positionTy).encode (wireVote.st.get_all_locking_positions 20 "alice"))) :=
  ⟨wireGov_reach.imp fun _ h => h.1, by decide +kernel, by decide +kernel, by decide +kernel, by decide +kernel,
    by decide +kernel, by decide +kernel, .inr ⟨20, _, by decide +kernel, rfl⟩⟩

end Verif.Joint
