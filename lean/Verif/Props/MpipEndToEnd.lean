import Verif.Serde.MpipBytesApi
import Verif.Props.MpipBytes
import Verif.Props.Wire
import Verif.Props.ApiViews
import Verif.Props.Interface

/-!
# C99: a client that speaks JSON to mpip, whose state is bytes
-/

namespace Verif.Mpip.Bytes

open Verif Storage Disk Borsh Serde

variable {H : Hash} {N : Names} {f : Nat} {s : State} {D : Disk} {me : AccountId}

theorem account_fits {a : String} (h : validAccount a = true) : StrFits a := by
  unfold validAccount at h
  rw [Bool.and_eq_true, decide_eq_true_eq] at h
  exact Nat.lt_of_le_of_lt h.1.2 (by decide)

theorem id_lt {i : Nat} (h : i ≤ U32_MAX) : i < 2 ^ 32 := by unfold U32_MAX at h; omega

/-- A view on the bytes is the view of the model. -/
theorem answer_eq (h : Stored H N f s D) (c : Ctx) {v : View} (hv : v.valid) : answer H D c v = s.view c v := by
  obtain ⟨s1, s2, s3, s4, s5, s6⟩ := C93_views_state h 0
  have h0 : 0 < 2 ^ 32 := by decide
  cases v with
  | get_my_proposals a => exact (C93_views_account h (account_fits hv) h0).1
  | check_proposal_threshold n => exact (C93_views_state h n).1
  | get_mpip_storage_near => exact s2
  | get_proposal_votes i => exact (C93_views_proposal h (id_lt hv) 0 c).2.1
  | get_quorum_reached i => exact (C93_views_proposal h (id_lt hv) 0 c).2.2.2.2.2
  | get_proposal_vote_succeeded i => exact (C93_views_proposal h (id_lt hv) 0 c).2.2.2.2.1
  | get_proposal_state i => exact (C93_views_proposal h (id_lt hv) c.now c).2.2.1
  | get_proposal i => exact (C93_views_proposal h (id_lt hv) 0 c).1
  | get_proposals a n => exact C93_views_list h a n
  | get_user_proposals_ids a => exact (C93_views_account h (account_fits hv) h0).2.1
  | get_last_proposal_id => exact s3
  | get_quorum_floor => exact s4
  | get_proposal_threshold => exact s5
  | get_total_voters => exact s6
  | get_proposal_is_active_or_draft i => exact (C93_views_proposal h (id_lt hv) c.now c).2.2.2.1
  | has_voted a i => exact (C93_views_account h (account_fits hv.1) (id_lt hv.2)).2.2.1
  | get_my_vote a i =>
    have := (C93_views_account h (account_fits hv.1) (id_lt hv.2)).2.2.2.1
    show (view D (fun x => x.get_my_vote a i) >>= _) = (s.get_my_vote a i >>= _)
    rw [this]
  | get_voter a =>
    have := (C93_views_account h (account_fits hv) h0).2.2.2.2
    show (view D (fun x => x.get_voter H a) >>= _) = _
    rw [this]
    rfl

theorem callJson_eq {c : Ctx} {name : String} {b : Bytes} {k : Call} (hr : Call.read name b = some k) :
    callJson H D c name b = exec H serde D c k := by
  unfold callJson
  rw [hr]
  rfl

theorem readable {c : Ctx} {name : String} {b : Bytes} {r : Disk × List Promise} (h : callJson H D c name b = .ok r) :
    ∃ k, Call.read name b = some k ∧ exec H serde D c k = .ok r := by
  unfold callJson at h
  simp only [bind_ok_iff, expect_ok_iff] at h
  exact h

/-- **C99.** Whatever names and inputs are sent, what happens to the bytes is what calls of the methods do to them; callbacks are
read as they were written. -/
theorem C99_reach (hN : N.OK H) {W : Nat} {w : BWorld} (h : JReach H N me W w) (hW : W < 2 ^ 32) :
    BReach H N serde me W w ∧ ∀ q ∈ w.pending, Joint.Sendable q := by
  induction h with
  | init D D' c b hb hu64 hexec =>
    obtain ⟨k, hr, hx⟩ := readable hexec
    obtain ⟨-, hv, hn⟩ := Call.read_ok hr
    cases k with
    | new_ a o t v p m st q =>
      exact ⟨.init D D' c a o t v p m st q hb hu64 (account_fits hv.1) (account_fits hv.2.1) (account_fits hv.2.2.1)
        (account_fits hv.2.2.2) hx, by simp⟩
    | _ => exact absurd hn (by simp [Call.write])
  | @call W w h c name b k D' out hr hv hsig hme hres hclock hu64 hlen hk hexec ih =>
    obtain ⟨h0, hp⟩ := ih (by omega)
    rw [callJson_eq hr] at hexec
    replace hk := read_fits hr hlen hsig hk
    refine ⟨.call h0 c k D' out hme hres hclock hu64 hk hexec, fun q hq => ?_⟩
    rcases List.mem_append.1 hq with hq | hq
    · exact hp q hq
    · obtain ⟨s, -, h2, -⟩ := C93_reach hN h0 (by omega)
      rcases C93_call (J := serde) hN (f := 0) (h2.mono (by omega)) hu64 hk with ⟨e, -, he⟩ | ⟨s', D1, out1, he, he', -⟩
      · rw [hexec] at he; cases he
      · rw [hexec] at he'
        cases he'
        exact Joint.asks_sendable (exec_asks he hq) hv (exec_ok.1 he).2.2.1
  | @reply W w h pre post p r ts hpend hclock hu64 ih =>
    obtain ⟨h0, hp⟩ := ih (by omega)
    have hs := hp p (by rw [hpend]; simp)
    have e := callJson_eq (H := H) (D := w.D) (c := replyCtx me p ts r) (Call.read_write hs.1 hs.2)
    rw [e]
    refine ⟨.reply h0 pre post p r ts hpend hclock hu64, fun q hq => hp q ?_⟩
    rw [hpend]
    rcases List.mem_append.1 hq with hq | hq
    · exact List.mem_append_left _ hq
    · exact List.mem_append_right _ (List.mem_cons_of_mem _ hq)
  | tick h ts hclock hu64 ih => exact ⟨.tick (ih hW).1 ts hclock hu64, (ih hW).2⟩

/-- **C99.** A JSON call panics with the message with which the call it is read as panics in the model, or both succeed with the
same promises and the bytes that result hold the state that results.  An input that is not read is refused. -/
theorem C99_call (hN : N.OK H) {c : Ctx} {name : String} {b : Bytes} (h : Stored H N (f + 4) s D)
    (hs : validAccount c.signer = true) (ht : c.timestamp ≤ U64_MAX) (hlen : b.length < 2 ^ 31) :
    (Call.read name b = none → callJson H D c name b = .error (.assert "Failed to deserialize input from JSON.")) ∧
    ∀ k, Call.read name b = some k → Named N c k →
      (∃ e, Mpip.exec serde s c k = .error e ∧ callJson H D c name b = .error e) ∨
      ∃ s' D' out, Mpip.exec serde s c k = .ok (s', out) ∧ callJson H D c name b = .ok (D', out) ∧ Stored H N f s' D' ∧
        ∀ x, N.Foreign H x → D' x = D x := by
  constructor
  · intro e
    unfold callJson
    rw [e]
    rfl
  · intro k hr hk
    rw [callJson_eq hr]
    exact C93_call hN h ht (read_fits hr hlen hs hk)

/-- **C99.** Everything that can be sent to the contract is an execution of the model, with the same questions in flight, clock
and log; every view, asked and answered in JSON on the bytes, gives the client exactly the value of that view of the model, or is
refused with the message with which it is refused there. -/
theorem C99_client (hN : N.OK H) {W : Nat} {w : BWorld} (h : JReach H N me W w) (hW : W < 2 ^ 32) :
    ∃ s, Reach serde me ⟨s, w.pending, w.clock, w.log⟩ ∧
      ∀ c name b v, View.read name b = some v →
        (∃ e, s.view c v = .error e ∧ viewAll H w.D c name b = .error e) ∨
        ∃ r out, s.view c v = .ok r ∧ viewAll H w.D c name b = .ok out ∧
          JsonText.IsJson out (v.answer r) ∧ v.ty.decode out = some r := by
  obtain ⟨s, h1, h2, -⟩ := C93_reach hN (C99_reach hN h hW).1 hW
  have hl : s.voters.len < 2 ^ 64 := (h2.rep.tabs.coll .voters trivial).2.1.lt
  refine ⟨s, h1, fun c name b v hv => ?_⟩
  have e : viewAll H w.D c name b = (s.view c v >>= fun r => pure (v.ty.encode r)) := by
    unfold viewAll
    rw [hv]
    change (answer H w.D c v >>= _) = (s.view c v >>= _)
    rw [answer_eq h2 c (View.read_ok hv).1]
  rw [e]
  cases hr : s.view c v with
  | error e => exact .inl ⟨e, rfl, rfl⟩
  | ok r => exact .inr ⟨r, _, rfl, rfl, View.parse_answer (view_ok h1 (Nat.le_of_lt_succ hl) hr),
      v.ty.decode_encode (view_ok h1 (Nat.le_of_lt_succ hl) hr) v.depth⟩

/-! ## A case -/

/-- Actions with JSON inputs. -/
inductive JAct where
  | call (predecessor : AccountId) (deposit timestamp : Nat) (name : String) (b : Bytes)
  | reply (r : Bytes) (timestamp : Nat)

/-- Names in the input of an action occur, and the input is not too long. -/
def JActOK (N : Names) : JAct → Prop
  | .call p d ts name b => b.length < 2 ^ 31 ∧ ∀ k, Call.read name b = some k → Named N ⟨"me", p, p, d, ts, []⟩ k
  | _ => True

/-- One action on bytes; an answer is to the oldest question. -/
def jact (H : Hash) (w : BWorld) : JAct → Option BWorld
  | .call p d ts name b =>
    if validAccount p = true ∧ w.clock ≤ ts ∧ ts ≤ U64_MAX then
      match Call.read name b, callJson H w.D ⟨"me", p, p, d, ts, []⟩ name b with
      | some k, .ok r => some ⟨r.1, w.pending ++ Mpip.asked p r.2, ts, .call ⟨"me", p, p, d, ts, []⟩ k r.2 :: w.log⟩
      | _, _ => none
    else none
  | .reply b ts =>
    match w.pending with
    | p :: l =>
      if w.clock ≤ ts ∧ ts ≤ U64_MAX then
        some ⟨((callJson H w.D (replyCtx "me" p ts (.successful b)) p.callback.write.1 p.callback.write.2).getOr (w.D, [])).1, l, ts,
          .replied p ts (.successful b)
            (Res.isOk (callJson H w.D (replyCtx "me" p ts (.successful b)) p.callback.write.1 p.callback.write.2)) :: w.log⟩
      else none
    | [] => none

def jruns (H : Hash) (w : BWorld) : List JAct → Option BWorld
  | [] => some w
  | a :: l => (jact H w a).bind fun y => jruns H y l

theorem reach_jact {W : Nat} {w y : BWorld} {a : JAct} (h : JReach H N "me" W w) (ha : JActOK N a) (hx : jact H w a = some y) :
    JReach H N "me" (W + 4) y := by
  cases a with
  | call p d ts name b =>
    simp only [jact] at hx
    split at hx
    · rename_i hc
      split at hx
      · rename_i k r hk hr
        cases hx
        exact .call h ⟨"me", p, p, d, ts, []⟩ name b k r.1 r.2 hk hc.1 hc.1 rfl rfl hc.2.1 hc.2.2 ha.1 (ha.2 k hk) hr
      · cases hx
    · cases hx
  | reply b ts =>
    simp only [jact] at hx
    split at hx
    · rename_i p l hp
      split at hx
      · rename_i hc
        cases hx
        exact .reply h [] l p (.successful b) ts hp hc.1 hc.2
      · cases hx
    · cases hx

theorem reach_jruns : ∀ {l : List JAct} {W : Nat} {w y : BWorld}, JReach H N "me" W w → (∀ a ∈ l, JActOK N a) →
    jruns H w l = some y → JReach H N "me" (W + 4 * l.length) y
  | [], W, w, y, h, _, hx => by cases hx; exact h
  | a :: l, W, w, y, h, ha, hx => by
    simp only [jruns, Option.bind_eq_some_iff] at hx
    obtain ⟨z, h1, h2⟩ := hx
    have := reach_jruns (reach_jact h (ha a List.mem_cons_self) h1) (fun b hb => ha b (List.mem_cons_of_mem _ hb)) h2
    rwa [Nat.add_assoc, ← Nat.add_comm (4 * l.length), ← Nat.mul_succ] at this

def newInput : Bytes := MetaVote.ascii "{\"admin_id\":\"admin\",\"operator_id\":\"operator\",\"meta_token_contract_address\":\"meta\",\"meta_vote_contract_address\":\"vote\",\"voting_period\":\"300000\",\"min_voting_power_amount\":\"1000\",\"mpip_storage_near\":\"7\",\"quorum_floor\":3000}"

def installedJ : Disk := ((callJson Disk.firstByte other ⟨"me", "deployer", "deployer", 0, 0, []⟩ "new" newInput).getOr (other, [])).1

/-- One locked position. -/
def locked : Bytes := MetaVote.ascii "[{\"index\":0,\"amount\":\"2048\",\"locking_period\":60,\"voting_power\":\"2048\",\"unlocking_started_at\":null,\"is_unlocked\":false,\"is_unlocking\":false,\"is_locked\":true}]"

/-- Alice creates a proposal and starts the voting; bob votes on it. -/
def talk : List JAct :=
  [.call "alice" 7 (1 * MS) "create_proposal" (MetaVote.ascii "{\"title\":\"t\",\"short_description\":\"s\",\"body\":\"b\",\"data\":\"d\",\"extra\":\"e\"}"),
   .reply locked (2 * MS),
   .call "alice" 0 (3 * MS) "start_voting_period" (MetaVote.ascii "{\"mpip_id\":0}"), .reply (MetaVote.ascii "\"10000\"") (4 * MS),
   .call "bob" 0 (5 * MS) "vote_proposal" (MetaVote.ascii "{\"memo\":\"no\",\"vote\":\"Against\",\"mpip_id\":0}"), .reply locked (6 * MS)]

/-- What a client is told in the end. -/
theorem talk_run : (jruns Disk.firstByte ⟨installedJ, [], 0, []⟩ talk).map (fun w =>
      (viewAll Disk.firstByte w.D ⟨"me", "", "", 0, 7 * MS, []⟩ "get_my_vote" (MetaVote.ascii "{\"voter_id\":\"bob\",\"mpip_id\":0}"),
      viewAll Disk.firstByte w.D ⟨"me", "", "", 0, 7 * MS, []⟩ "get_proposal_state" (MetaVote.ascii "{ \"mpip_id\" : 0 }"))) =
    some (.ok (MetaVote.ascii "{\"mpip_id\":0,\"voter_id\":\"bob\",\"vote_type\":\"Against\",\"voting_power\":\"2048\",\"memo\":\"no\"}"),
      .ok (MetaVote.ascii "\"VotingProcess\"")) := by
  decide +kernel

theorem talk_ok : ∀ a ∈ talk, JActOK few a := by
  intro a ha
  simp only [talk, List.mem_cons, List.not_mem_nil, or_false] at ha
  rcases ha with rfl | rfl | rfl | rfl | rfl | rfl
  · refine ⟨by decide +kernel, fun k hk => ?_⟩
    rw [show Call.read _ _ = some (.create_proposal ⟨"t", "s", "b", "d", "e"⟩) by decide +kernel] at hk
    cases hk
    trivial
  · trivial
  · refine ⟨by decide +kernel, fun k hk => ?_⟩
    rw [show Call.read _ _ = some (.start_voting_period 0) by decide +kernel] at hk
    cases hk
    trivial
  · trivial
  · refine ⟨by decide +kernel, fun k hk => ?_⟩
    rw [show Call.read _ _ = some (.vote_proposal 0 .against "no") by decide +kernel] at hk
    cases hk
    constructor <;> simp [few]
  · trivial

theorem installedJ_reach : JReach Disk.firstByte few "me" 0 ⟨installedJ, [], 0, []⟩ :=
  .init other installedJ ⟨"me", "deployer", "deployer", 0, 0, []⟩ newInput other_blank (by decide)
    (ok_of_getOr (by decide +kernel) (by decide +kernel))

/-- The hypotheses of the theorems are met, and what a client is told. -/
example : few.OK Disk.firstByte ∧ ∃ W w, JReach Disk.firstByte few "me" W w ∧ W < 2 ^ 32 ∧
    viewAll Disk.firstByte w.D ⟨"me", "", "", 0, 7 * MS, []⟩ "get_my_vote" (MetaVote.ascii "{\"voter_id\":\"bob\",\"mpip_id\":0}") =
      .ok (MetaVote.ascii "{\"mpip_id\":0,\"voter_id\":\"bob\",\"vote_type\":\"Against\",\"voting_power\":\"2048\",\"memo\":\"no\"}") ∧
    viewAll Disk.firstByte w.D ⟨"me", "", "", 0, 7 * MS, []⟩ "get_proposal_state" (MetaVote.ascii "{ \"mpip_id\" : 0 }") =
      .ok (MetaVote.ascii "\"VotingProcess\"") := by
  obtain ⟨w, hw, e⟩ := Option.map_eq_some_iff.1 talk_run
  rw [Prod.mk.injEq] at e
  exact ⟨few_ok, _, w, reach_jruns installedJ_reach talk_ok hw, by decide, e.1, e.2⟩

end Verif.Mpip.Bytes
