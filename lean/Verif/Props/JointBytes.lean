import Verif.Joint.Bytes
import Verif.Props.EndToEnd
import Verif.Props.MpipEndToEnd

/-!
# C104: what mpip takes from meta-vote, both as deployed
-/

namespace Verif.Joint.Bytes

open Verif Storage Disk Borsh Serde

variable {X : Net} {j j' : World}

/-! ## Where answers come from -/

/-- A question on the way was asked by a call that mpip accepted. -/
def Asked (X : Net) (j : World) (q : Mpip.Pending) : Prop :=
  ∃ j0 j1 c k out, Reach X j0 ∧ Step X j0 j1 ∧ j1.mp.log = .call c k out :: j0.mp.log ∧ q ∈ Mpip.asked c.signer out ∧ Steps X j1 j

/-- An answer on the way back was given, after the question was asked, from the storage of meta-vote at that moment. -/
def Answered (X : Net) (j : World) (q : Mpip.Pending) (r : Mpip.Reply) : Prop :=
  ∃ j2, Asked X j2 q ∧ Steps X j2 j ∧ (q.contract = X.vote → r = .failed ∨ ∃ now, r = told X j2 now q.query)

theorem Asked.step {q : Mpip.Pending} (h : Asked X j q) (hs : Step X j j') : Asked X j' q := by
  obtain ⟨j0, j1, c, k, out, h1, h2, h3, h4, h5⟩ := h
  exact ⟨j0, j1, c, k, out, h1, h2, h3, h4, h5.step hs⟩

theorem Answered.step {q : Mpip.Pending} {r : Mpip.Reply} (h : Answered X j q r) (hs : Step X j j') : Answered X j' q r := by
  obtain ⟨j2, h1, h2, h3⟩ := h
  exact ⟨j2, h1, h2.step hs, h3⟩

theorem flight (h : Reach X j) : (∀ q ∈ j.asked, Asked X j q) ∧ ∀ x ∈ j.answered, Answered X j x.1 x.2 := by
  induction h with
  | init => exact ⟨by simp, by simp⟩
  | @step j j' hj hs ih =>
    have k1 : ∀ q ∈ j.asked, Asked X j' q := fun q hq => (ih.1 q hq).step hs
    have k2 : ∀ x ∈ j.answered, Answered X j' x.1 x.2 := fun x hx => (ih.2 x hx).step hs
    have sub : ∀ {α : Type} {pre post : List α} {a x : α}, x ∈ pre ++ post → x ∈ pre ++ a :: post := fun hx => by
      rcases List.mem_append.1 hx with hx | hx
      · exact List.mem_append_left _ hx
      · exact List.mem_append_right _ (List.mem_cons_of_mem _ hx)
    cases hs with
    | mv | tick => exact ⟨k1, k2⟩
    | call c name b k D' out hr hv hs hme hres hclock hu64 hlen hk hexec =>
      refine ⟨fun q hq => ?_, k2⟩
      rcases List.mem_append.1 hq with hq | hq
      · exact k1 q hq
      · exact ⟨j, _, c, k, out, hj, .call j c name b k D' out hr hv hs hme hres hclock hu64 hlen hk hexec, rfl, hq, .refl⟩
    | answer pre post q now hq hc =>
      refine ⟨fun y hy => k1 y (by rw [hq]; exact sub hy), fun x hx => ?_⟩
      rcases List.mem_append.1 hx with hx | hx
      · exact k2 x hx
      · cases List.mem_singleton.1 hx
        exact ⟨j, ih.1 q (by rw [hq]; simp), .step .refl (.answer j pre post q now hq hc), fun _ => .inr ⟨now, rfl⟩⟩
    | other pre post q r hq hc =>
      refine ⟨fun y hy => k1 y (by rw [hq]; exact sub hy), fun x hx => ?_⟩
      rcases List.mem_append.1 hx with hx | hx
      · exact k2 x hx
      · cases List.mem_singleton.1 hx
        exact ⟨j, ih.1 q (by rw [hq]; simp), .step .refl (.other j pre post q r hq hc), fun e => .inl (hc.resolve_left (· e))⟩
    | reply pre post q r pre' post' ts hq => exact ⟨k1, fun x hx => k2 x (by rw [hq]; exact sub hx)⟩

/-- The world of the value model of mpip with the receipts, clock and log of the bytes. -/
def val (s : Mpip.State) (w : Mpip.Bytes.BWorld) : Mpip.World := ⟨s, w.pending, w.clock, w.log⟩

/-- A step on the bytes is a step of the value model of mpip. -/
theorem follow (hX : X.OK) (h : Reach X j) (hs : Step X j j') (hP : j'.P < 2 ^ 32) {s : Mpip.State}
    (h2 : Mpip.Bytes.Stored X.H X.Np (2 ^ 32 - 1 - j.P) s j.mp.D) :
    ∃ s', Mpip.Bytes.Stored X.H X.Np (2 ^ 32 - 1 - j'.P) s' j'.mp.D ∧
      ((val s' j'.mp = val s j.mp) ∨ Mpip.Step Mpip.serde X.gov (val s j.mp) (val s' j'.mp)) := by
  have hle := hs.le
  obtain ⟨hb, hsend⟩ := Mpip.Bytes.C99_reach hX.np h.mp (by omega)
  obtain ⟨-, -, -, hok⟩ := hb.inv hX.np (by omega)
  cases hs with
  | mv | answer | other => exact ⟨s, h2, .inl rfl⟩
  | tick ts hclock hu64 => exact ⟨s, h2, .inr (.tick (val s j.mp) ts hclock hu64)⟩
  | call c name b k D' out hr hv hsig hme hres hclock hu64 hlen hk hexec =>
    simp only at hP ⊢
    rw [Mpip.Bytes.callJson_eq hr] at hexec
    rcases Mpip.Bytes.C93_call (J := Mpip.serde) hX.np (h2.mono (f' := 2 ^ 32 - 1 - (j.P + 4) + 4) (by omega)) hu64
      (Mpip.Bytes.read_fits hr hlen hsig hk) with ⟨e, -, he⟩ | ⟨s', D1, out1, he, he', h5, -⟩
    · rw [hexec] at he; cases he
    · rw [hexec] at he'
      cases he'
      exact ⟨s', h5, .inr (.call (val s j.mp) c k s' out hme hres hclock hu64 he)⟩
  | reply pre post q r pre' post' ts hq hpend hclock hu64 =>
    simp only at hP ⊢
    have hq' : q ∈ j.mp.pending := by rw [hpend]; simp
    have hsq := hsend q hq'
    rw [Mpip.Bytes.callJson_eq (H := X.H) (D := j.mp.D) (c := Mpip.replyCtx X.gov q ts r) (Mpip.Call.read_write hsq.1 hsq.2)]
    have h0 := (h2.mono (f' := 2 ^ 32 - 1 - (j.P + 4) + 4) (by omega)).exec (J := Mpip.serde) hX.np
      (c := Mpip.replyCtx X.gov q ts r) hu64 (hok q hq' ts r)
    refine ⟨((Mpip.exec Mpip.serde s (Mpip.replyCtx X.gov q ts r) q.callback).getOr (s, [])).1, ?_, .inr ?_⟩
    · generalize Mpip.exec Mpip.serde s (Mpip.replyCtx X.gov q ts r) q.callback = x at h0
      generalize Mpip.Bytes.exec X.H Mpip.serde j.mp.D (Mpip.replyCtx X.gov q ts r) q.callback = y at h0
      cases x <;> cases y
      · exact h2.mono (by omega)
      · exact h0.elim
      · exact h0.elim
      · exact h0.2
    · unfold val
      rw [← Mpip.Bytes.isOk_rel h0]
      exact .reply (val s j.mp) pre' post' q r ts hpend hclock hu64

/-- An answer that arrives was on the way back. -/
theorem Step.arrived (hs : Step X j j') {q : Mpip.Pending} {ts : Nat} {r : Mpip.Reply} {ok : Bool}
    (hl : j'.mp.log = .replied q ts r ok :: j.mp.log) : (q, r) ∈ j.answered := by
  cases hs with
  | mv | answer | other | tick => exact absurd (congrArg List.length hl) (by simp)
  | call => simp at hl
  | reply pre post q1 r1 pre' post' ts1 hq =>
    simp only [List.cons.injEq, Mpip.Entry.replied.injEq, and_true] at hl
    obtain ⟨rfl, -, rfl, -⟩ := hl
    rw [hq]; simp

/-! ## What mpip remembers -/

/-- The answer that made mpip record a vote. -/
def VoteFrom (X : Net) (j : World) (i : Nat) (v : String) (x : Mpip.Vote) : Prop :=
  ∃ j3 q r, Answered X j3 q r ∧ Steps X j3 j ∧ q.callback = .vote_proposal_callback i v x.vote_type x.memo ∧ x.mpip_id = i ∧
    x.voting_power = Mpip.replyPower Mpip.serde r ∧ 0 < x.voting_power

/-- The answer that gave a proposal its quorum, and the share of it. -/
def QuorumFrom (X : Net) (j : World) (i n : Nat) : Prop :=
  ∃ j3 q b total, Answered X j3 q (.successful b) ∧ Reach X j3 ∧ Steps X j3 j ∧ q.callback = .start_voting_period_callback i ∧
    Mpip.serde.read_total b = some total ∧
    ∃ s, Mpip.Reach Mpip.serde X.gov (val s j3.mp) ∧ Mpip.Bytes.Stored X.H X.Np (2 ^ 32 - 1 - j3.P) s j3.mp.D ∧ n = total * s.quorum_floor / 10000

/-- The answer that let a proposal be created. -/
def CreatedFrom (X : Net) (j : World) (creator : String) : Prop :=
  ∃ j3 q r t, Answered X j3 q r ∧ Reach X j3 ∧ Steps X j3 j ∧ q.callback = .create_proposal_callback t ∧ q.signer = creator ∧
    ∃ s, Mpip.Reach Mpip.serde X.gov (val s j3.mp) ∧ Mpip.Bytes.Stored X.H X.Np (2 ^ 32 - 1 - j3.P) s j3.mp.D ∧
      s.min_voting_power_amount ≤ Mpip.replyPower Mpip.serde r

/-- What mpip has in its storage came from answers. -/
structure From (X : Net) (j : World) (s : Mpip.State) : Prop where
  votes : ∀ i v x, s.record i v = some x → VoteFrom X j i v x
  quorum : ∀ i p n, s.proposals.get i = some p → p.v_power_quorum_to_reach = some n → QuorumFrom X j i n
  creator : ∀ i p, s.proposals.get i = some p → CreatedFrom X j p.creator_id

theorem From.step {s : Mpip.State} (h : From X j s) (hs : Step X j j') : From X j' s where
  votes i v x hx := by
    obtain ⟨j3, q, r, h1, h2, h3⟩ := h.votes i v x hx
    exact ⟨j3, q, r, h1, h2.step hs, h3⟩
  quorum i p n hp hn := by
    obtain ⟨j3, q, b, total, h1, h0, h2, h3⟩ := h.quorum i p n hp hn
    exact ⟨j3, q, b, total, h1, h0, h2.step hs, h3⟩
  creator i p hp := by
    obtain ⟨j3, q, r, t, h1, h0, h2, h3⟩ := h.creator i p hp
    exact ⟨j3, q, r, t, h1, h0, h2.step hs, h3⟩

theorem proposals_lt {f : Nat} {H : Hash} {N : Mpip.Bytes.Names} {s : Mpip.State} {D : Disk} (h : Mpip.Bytes.Stored H N f s D) :
    s.proposals.len < 2 ^ 32 := by
  have := (h.rep.tabs.coll .mpips trivial).2
  unfold Mpip.Bytes.Room at this
  exact Nat.lt_of_le_of_lt (Nat.le_add_right _ _) this

/-- The votes and proposals in the storage of mpip came from answers. -/
theorem memory (hX : X.OK) (h : Reach X j) : j.P < 2 ^ 32 → ∃ s, Mpip.Reach Mpip.serde X.gov (val s j.mp) ∧
    Mpip.Bytes.Stored X.H X.Np (2 ^ 32 - 1 - j.P) s j.mp.D ∧ From X j s := by
  induction h with
  | init V v hv D D' c b hb hu64 hexec =>
    intro hP
    obtain ⟨k, hr, hx⟩ := Mpip.Bytes.readable hexec
    obtain ⟨-, hval, hn⟩ := Mpip.Call.read_ok hr
    cases k with
    | new_ a o t v p m st q =>
      have h0 := hb.new (J := Mpip.serde) (c := c) (f := 2 ^ 32 - 1 - 0) (by omega) (Mpip.Bytes.account_fits hval.1)
        (Mpip.Bytes.account_fits hval.2.1) (Mpip.Bytes.account_fits hval.2.2.1) (Mpip.Bytes.account_fits hval.2.2.2)
        (p := p) (m := m) (st := st) (q := q)
      rw [hx] at h0
      generalize hy : (do
          require (c.deposit = 0) "Method doesn't accept deposit"
          require ((Mpip.Call.new_ a o t v p m st q).in_range = true) "Failed to deserialize input from JSON."
          Mpip.new false a o t v p m st q : Res Mpip.State) = y at h0
      cases y with
      | error e => exact h0.elim
      | ok s =>
        simp only [bind_ok_iff, require_ok_iff] at hy
        obtain ⟨-, -, -, hr, hnew⟩ := hy
        have hi : Mpip.Init (val s ⟨D', [], c.timestamp, []⟩) := .mk a o t v p m st q c.timestamp s hr hu64 hnew
        obtain ⟨e1, -, e2, -⟩ := hi.empty
        have e1 : s.proposals = _ := e1
        have e2 : s.voters = _ := e2
        refine ⟨s, .init hi, h0.2, fun i v x hx => ?_, fun i p n hp => ?_, fun i p hp => ?_⟩
        · simp [Mpip.State.record, e2] at hx
        · rw [e1] at hp; cases hp
        · rw [e1] at hp; cases hp
    | _ => exact absurd hn (by simp [Mpip.Call.write])
  | @step j j' hj hs ih =>
    intro hP
    have hle := hs.le
    obtain ⟨s, h1, h2, h3⟩ := ih (by omega)
    obtain ⟨s', h4, h5⟩ := follow hX hj hs hP h2
    have h3' := h3.step hs
    have hgiven := (flight hj).2
    rcases h5 with h5 | h5
    · have : s' = s := congrArg Mpip.World.st h5
      subst this
      exact ⟨s', by rw [h5]; exact h1, h4, h3'⟩
    have hcap : s'.proposals.len < 2 ^ 32 := proposals_lt h4
    refine ⟨s', h1.step h5, h4, fun i v x hx => ?_, fun i p n hp hn => ?_, fun i p hp => ?_⟩
    · rcases h5.votes h1 with ⟨-, hv, -⟩ | ⟨q, ts, r, i1, v1, t1, m1, hmem, hk, hst, hpos, -, -, -, -, hl⟩ | hu
      · have hv : s'.voters = s.voters := hv
        exact h3'.votes i v x (by simpa [Mpip.State.record, hv] using hx)
      · have hst : s' = s.counted i1 v1 _ := hst
        rw [hst, Mpip.counted_record] at hx
        split at hx
        · rename_i hiv
          obtain ⟨rfl, rfl⟩ := hiv
          cases hx
          exact ⟨j, q, r, hgiven _ (hs.arrived hl), .step .refl hs, hk, rfl, rfl, hpos⟩
        · exact h3'.votes i v x hx
      · obtain ⟨c, i0, x0, p0, out, -, -, -, -, -, -, hst, -⟩ := hu
        have hst : s' = s.uncounted i0 c.predecessor x0 := hst
        rw [hst, Mpip.uncounted_record] at hx
        split at hx
        · cases hx
        · exact h3'.votes i v x hx
    · cases hp0 : s.proposals.get i with
      | none =>
        exfalso
        have hd : Mpip.Dense s := Mpip.reach_dense h1
        have hd' : Mpip.Dense s' := Mpip.reach_dense (h1.step h5)
        have hne : s'.proposals.len ≠ s.proposals.len := by
          intro he
          have h1 := (hd'.get i).1 ⟨p, hp⟩
          rw [he, ← hd.get i] at h1
          obtain ⟨_, h1⟩ := h1
          rw [hp0] at h1; cases h1
        obtain ⟨y, ts, r, t, -, -, -, -, hlen, hnew, -⟩ := Mpip.C59_created h1 h5 hne
        have h6 := (hd'.get i).1 ⟨p, hp⟩
        have h7 : ¬ i < s.proposals.len := by
          rw [← hd.get i]; rintro ⟨_, h8⟩; rw [hp0] at h8; cases h8
        have hlen : s'.proposals.len = s.proposals.len + 1 := hlen
        have : i = s.proposals.len := by omega
        subst this
        have hnew : s'.get_proposal s.proposals.len = _ := hnew
        rw [Mpip.State.get_proposal, Mpip.get_proposal_ok, hp] at hnew
        cases hnew; cases hn
      | some p0 =>
        by_cases he : p0.v_power_quorum_to_reach = some n
        · exact h3'.quorum i p0 n hp0 he
        · obtain ⟨y, ts, b, total, e1, e2, e3, e4, e5, -⟩ := Mpip.C54_quorum h1 h5 hcap (Mpip.get_proposal_ok.2 hp0)
            (Mpip.get_proposal_ok.2 hp) (by rw [hn]; exact fun e => he e.symm)
          rw [hn] at e5
          exact ⟨j, y, b, total, hgiven _ (hs.arrived e1), hj, .step .refl hs, e3, e4, s, h1, h2, Option.some.inj e5⟩
    · cases hp0 : s.proposals.get i with
      | none =>
        have hd : Mpip.Dense s := Mpip.reach_dense h1
        have hd' : Mpip.Dense s' := Mpip.reach_dense (h1.step h5)
        have hne : s'.proposals.len ≠ s.proposals.len := by
          intro he
          have h1 := (hd'.get i).1 ⟨p, hp⟩
          rw [he, ← hd.get i] at h1
          obtain ⟨_, h1⟩ := h1
          rw [hp0] at h1; cases h1
        obtain ⟨y, ts, r, t, hy, hl, hcb, hth, hlen, hnew, -⟩ := Mpip.C59_created h1 h5 hne
        have h6 := (hd'.get i).1 ⟨p, hp⟩
        have h7 : ¬ i < s.proposals.len := by
          rw [← hd.get i]; rintro ⟨_, h8⟩; rw [hp0] at h8; cases h8
        have hlen : s'.proposals.len = s.proposals.len + 1 := hlen
        have : i = s.proposals.len := by omega
        subst this
        have hnew : s'.get_proposal s.proposals.len = _ := hnew
        rw [Mpip.State.get_proposal, Mpip.get_proposal_ok, hp] at hnew
        cases hnew
        exact ⟨j, y, r, t, hgiven _ (hs.arrived hl), hj, .step .refl hs, hcb, rfl, s, h1, h2, hth⟩
      | some p0 =>
        obtain ⟨p1, hp1, he⟩ := h5.evolves h1 hcap hp0
        have hp1 : s'.proposals.get i = some p1 := hp1
        rw [hp] at hp1; cases hp1
        have : p.creator_id = p0.creator_id := by
          rcases he with rfl | ⟨_, _, _, _, _, he, _⟩ | ⟨_, _, _, _, _, he, _⟩
          · rfl
          · exact he.creator.1
          · exact he.creator.1
        rw [this]
        exact h3'.creator i p0 hp0

/-! ## What a client is told -/

/-- What any client that asks meta-vote in JSON for the positions of `v` is told. -/
def ShowsPositions (X : Net) (j : World) (now : Nat) (v : String) (l : List MetaVote.LockingPositionJSON) : Prop :=
  ∃ b, JsonText.IsJson b ((MetaVote.View.get_all_locking_positions v).answer l) ∧
    ∀ i, MetaVote.View.read "get_all_locking_positions" i = some (.get_all_locking_positions v) →
      MetaVote.Bytes.viewAll X.H j.mv.D now "get_all_locking_positions" i = .ok b

/-- What any client that asks meta-vote in JSON for the total power is told. -/
def ShowsTotal (X : Net) (j : World) (n : Nat) : Prop :=
  ∃ b, JsonText.IsJson b (MetaVote.View.get_total_voting_power.answer n) ∧
    ∀ now i, MetaVote.Bytes.viewAll X.H j.mv.D now "get_total_voting_power" i = .ok b

/-- What any client that asks mpip in JSON for the share that makes the quorum is told. -/
def ShowsFloor (X : Net) (j : World) (n : Nat) : Prop :=
  ∃ b, JsonText.IsJson b (Mpip.View.get_quorum_floor.answer n) ∧
    ∀ c i, Mpip.Bytes.viewAll X.H j.mp.D c "get_quorum_floor" i = .ok b

/-- What any client that asks mpip in JSON for the power that a proposal needs is told. -/
def ShowsThreshold (X : Net) (j : World) (n : Nat) : Prop :=
  ∃ b, JsonText.IsJson b (Mpip.View.get_proposal_threshold.answer n) ∧
    ∀ c i, Mpip.Bytes.viewAll X.H j.mp.D c "get_proposal_threshold" i = .ok b

/-- The meta-vote contract that the state of mpip names. -/
def Names (j : World) (a : String) : Prop := ∃ r, Mpip.Bytes.load j.mp.D = .ok r ∧ r.meta_vote_contract_address = a

/-- In `j0` an account calls mpip with `k`, which is accepted and leads to `j1`. -/
def Accepts (X : Net) (j0 j1 : World) (c : Mpip.Ctx) (k : Mpip.Call) : Prop :=
  Reach X j0 ∧ Step X j0 j1 ∧ ∃ out, j1.mp.log = .call c k out :: j0.mp.log

theorem view_shown {s : Mpip.State} {f : Nat} (h1 : Mpip.Reach Mpip.serde X.gov (val s j.mp))
    (h2 : Mpip.Bytes.Stored X.H X.Np f s j.mp.D) (c : Mpip.Ctx) {name : String} {i : Bytes} {v : Mpip.View}
    (hv : Mpip.View.read name i = some v) {r : v.Out} (hr : s.view c v = .ok r) :
    Mpip.Bytes.viewAll X.H j.mp.D c name i = .ok (v.ty.encode r) ∧ JsonText.IsJson (v.ty.encode r) (v.answer r) := by
  have hl : s.voters.len < 2 ^ 64 := (h2.rep.tabs.coll .voters trivial).2.1.lt
  constructor
  · unfold Mpip.Bytes.viewAll
    rw [hv]
    change (Mpip.Bytes.answer X.H j.mp.D c v >>= _) = _
    rw [Mpip.Bytes.answer_eq h2 c (Mpip.View.read_ok hv).1, hr]
    rfl
  · exact Mpip.View.parse_answer (Mpip.view_ok h1 (Nat.le_of_lt_succ hl) hr)

theorem stored_vote (hX : X.OK) (h : Reach X j) (hV : j.V < 2 ^ 32) : ∃ S f, MetaVote.Bytes.Stored X.H X.Nv f S j.mv.D := by
  obtain ⟨S, -, h2, -⟩ := MetaVote.Bytes.C92_reach hX.nv (validAccount_fits hX.vote)
    (MetaVote.Bytes.C99_reach hX.nv hX.vote h.mv hV) hV
  exact ⟨S, _, h2⟩

theorem vote_shown (hX : X.OK) {S : SState} {f : Nat} (h2 : MetaVote.Bytes.Stored X.H X.Nv f S j.mv.D) (now : Nat) {name : String}
    {i : Bytes} {v : MetaVote.View} (hv : MetaVote.View.read name i = some v) (ha : MetaVote.Bytes.asked X.Nv v) {r : v.Out}
    (hr : S.view now v = .ok r) : MetaVote.Bytes.viewAll X.H j.mv.D now name i = .ok (v.ty.encode r) ∧
      JsonText.IsJson (v.ty.encode r) (v.answer r) ∧ v.ty.decode (v.ty.encode r) = some r := by
  refine ⟨?_, MetaVote.View.parse_answer (h2.view_ok ha hr), v.ty.decode_encode (h2.view_ok ha hr) v.depth⟩
  unfold MetaVote.Bytes.viewAll
  rw [hv]
  change (MetaVote.Bytes.answer X.H j.mv.D now v >>= _) = _
  rw [MetaVote.Bytes.answer_stored hX.nv h2 now (MetaVote.View.read_ok hv).1 ha, hr]
  rfl

theorem told_positions (hX : X.OK) (h : Reach X j) (hV : j.V < 2 ^ 32) {v : String} (hv : validAccount v = true) (now : Nat) :
    ∃ l, ShowsPositions X j now v l ∧
      Mpip.replyPower Mpip.serde (told X j now (.get_all_locking_positions v)) = MetaVote.lockedPower l := by
  obtain ⟨S, f, h2⟩ := stored_vote hX h hV
  have hf := validAccount_fits hv
  refine ⟨S.st.get_all_locking_positions now v, ⟨(list positionTy).encode (S.st.get_all_locking_positions now v), ?_, ?_⟩, ?_⟩
  · exact (vote_shown hX h2 now (v := .get_all_locking_positions v)
      (MetaVote.View.read_write (v := .get_all_locking_positions v) trivial) hf rfl).2.1
  · intro i hi
    exact (vote_shown hX h2 now hi hf rfl).1
  · obtain ⟨e1, -, e3⟩ := vote_shown hX h2 now (v := .get_all_locking_positions v)
      (MetaVote.View.read_write (v := .get_all_locking_positions v) trivial) hf rfl
    have e3 : (list positionTy).decode ((list positionTy).encode (S.st.get_all_locking_positions now v)) =
        some (S.st.get_all_locking_positions now v) := e3
    have e : told X j now (.get_all_locking_positions v) =
        .successful ((list positionTy).encode (S.st.get_all_locking_positions now v)) := congrArg replyOf e1
    rw [e]
    have hd : Mpip.serde.read_positions ((list positionTy).encode (S.st.get_all_locking_positions now v)) =
        some (S.st.get_all_locking_positions now v) := by
      unfold Mpip.Json.read_positions
      rw [show Mpip.serde.positions _ = _ from e3, Option.filter_some, if_pos]
      rw [List.all_eq_true]
      intro p hp
      have := positionTy_ok.1 ((list positionTy).decode_ok e3 p hp)
      exact decide_eq_true ⟨this.2.2.2.1, this.2.1⟩
    simp only [Mpip.replyPower, hd]
    exact lockedSum_view ..

theorem told_total (hX : X.OK) (h : Reach X j) (hV : j.V < 2 ^ 32) {now : Nat} {b : Bytes}
    (hb : .successful b = told X j now .get_total_voting_power) {n : Nat} (hn : Mpip.serde.read_total b = some n) :
    ShowsTotal X j n := by
  obtain ⟨S, f, h2⟩ := stored_vote hX h hV
  have main := fun now i => vote_shown hX h2 now (name := "get_total_voting_power") (i := i) (v := .get_total_voting_power) rfl
    trivial rfl
  have e : told X j now .get_total_voting_power = .successful (u128.encode S.st.get_total_voting_power) :=
    congrArg replyOf (main now []).1
  rw [e] at hb
  cases hb
  have e3 : u128.decode _ = some S.st.get_total_voting_power := (main now []).2.2
  have : n = S.st.get_total_voting_power := read_total_some (J := Mpip.serde) e3 hn
  subst this
  exact ⟨_, (main now []).2.1, fun now i => (main now i).1⟩

/-- The call that asked. -/
theorem Asked.call (hX : X.OK) {q : Mpip.Pending} (h : Asked X j q) (hP : j.P < 2 ^ 32) :
    ∃ j0 j1 c k s, Accepts X j0 j1 c k ∧ Steps X j1 j ∧ Names j0 q.contract ∧ validAccount c.predecessor = true ∧ Mpip.Asks s c k q := by
  obtain ⟨j0, j1, c, k, out, h1, h2, h3, h4, h5⟩ := h
  have hle := h2.le
  have hle' := h5.le
  obtain ⟨s, -, hst, -⟩ := memory hX h1 (by omega)
  have hacc : Accepts X j0 j1 c k := ⟨h1, h2, out, h3⟩
  cases h2 with
  | mv | answer | other | tick => exact absurd (congrArg List.length h3) (by simp)
  | reply => simp at h3
  | call c1 name b k1 D' out1 hr hv hsig hme hres hclock hu64 hlen hk hexec =>
    simp only [List.cons.injEq, Mpip.Entry.call.injEq, and_true] at h3
    obtain ⟨rfl, rfl, rfl⟩ := h3
    simp only at hle'
    rw [Mpip.Bytes.callJson_eq hr] at hexec
    rcases Mpip.Bytes.C93_call (J := Mpip.serde) hX.np (hst.mono (f' := 2 ^ 32 - 1 - (j0.P + 4) + 4) (by omega)) hu64
      (Mpip.Bytes.read_fits hr hlen hsig hk) with ⟨e, -, he⟩ | ⟨s', D1, out1, he, he', -, -⟩
    · rw [hexec] at he; cases he
    · rw [hexec] at he'
      cases he'
      have ha := Mpip.exec_asks he h4
      refine ⟨j0, _, c1, k1, s, hacc, h5, ⟨_, hst.load, ?_⟩, hv, ha⟩
      cases ha <;> rfl

/-- **C104.** If a client is told a vote of `v` on proposal `i`, then `v` called `vote_proposal` with that choice and memo, and
after that and before now meta-vote — if it is the contract that mpip named when `v` called — would have told any client the
positions of `v` whose locked power is the power of the vote. -/
theorem C104_vote (hX : X.OK) (h : Reach X j) (hV : j.V < 2 ^ 32) (hP : j.P < 2 ^ 32) {v : String} {i : Nat} {c : Mpip.Ctx}
    {b out : Bytes} (hb : Mpip.View.read "get_my_vote" b = some (.get_my_vote v i))
    (ho : Mpip.Bytes.viewAll X.H j.mp.D c "get_my_vote" b = .ok out) :
    JsonText.IsJson out .null ∨ ∃ x : Mpip.Vote, JsonText.IsJson out (Mpip.voteJson (v, x)) ∧ x.mpip_id = i ∧ 0 < x.voting_power ∧
      ∃ j0 j1 j2 c', Accepts X j0 j1 c' (.vote_proposal i x.vote_type x.memo) ∧ c'.predecessor = v ∧ Steps X j1 j2 ∧ Steps X j2 j ∧
        (Names j0 X.vote → ∃ now l, ShowsPositions X j2 now v l ∧ x.voting_power = MetaVote.lockedPower l) := by
  obtain ⟨s, h1, h2, h3⟩ := memory hX h hP
  have hr : s.view c (.get_my_vote v i) = .ok ((s.record i v).map fun x => (v, x)) := by
    show (s.get_my_vote v i >>= _) = _
    rw [Mpip.get_my_vote_view]
    rfl
  obtain ⟨e1, e2⟩ := view_shown h1 h2 c hb hr
  rw [e1] at ho
  cases ho
  cases hx : s.record i v with
  | none => rw [hx] at e2; exact .inl e2
  | some x =>
    rw [hx] at e2
    obtain ⟨j3, q, r, ⟨j2, ha, h23, hgive⟩, h3j, hcb, hi, hpow, hpos⟩ := h3.votes i v x hx
    have hle := h23.le
    have hle' := h3j.le
    obtain ⟨j0, j1, c', k, s0, hacc, h12, hname, hv, hask⟩ := ha.call hX (by omega)
    refine .inr ⟨x, e2, hi, hpos, j0, j1, j2, c', ?_⟩
    cases hask with
    | start => cases hcb
    | create => cases hcb
    | vote hp hov hn =>
      cases hcb
      refine ⟨hacc, rfl, h12, h23.trans h3j, fun hnm => ?_⟩
      have hadr : s0.meta_vote_contract_address = X.vote := by
        obtain ⟨r1, e3, e4⟩ := hname
        obtain ⟨r2, e5, e6⟩ := hnm
        rw [e3] at e5; cases e5
        exact e4.symm.trans e6
      have hj2 : Reach X j2 := (hacc.1.step hacc.2.1).steps h12
      rcases hgive hadr with rfl | ⟨now, rfl⟩
      · rw [hpow] at hpos; simp [Mpip.replyPower] at hpos
      · obtain ⟨l, h5, h6⟩ := told_positions hX hj2 (by omega) hv now
        exact ⟨now, l, h5, hpow.trans h6⟩

/-- **C104.** If a client is told that proposal `i` has a quorum, then an account called `start_voting_period`, and the quorum is
the share that mpip showed, at the moment the answer came, of the total power that meta-vote — if it is the contract that mpip
named when the account called — showed between the call and the answer. -/
theorem C104_quorum (hX : X.OK) (h : Reach X j) (hV : j.V < 2 ^ 32) (hP : j.P < 2 ^ 32) {i : Nat} {c : Mpip.Ctx}
    {b out : Bytes} (hb : Mpip.View.read "get_proposal" b = some (.get_proposal i))
    (ho : Mpip.Bytes.viewAll X.H j.mp.D c "get_proposal" b = .ok out) :
    ∃ p : Mpip.Proposal, JsonText.IsJson out (Mpip.mpipJSON p) ∧ ∀ n, p.v_power_quorum_to_reach = some n →
      ∃ j0 j1 j2 j3 c' floor total, Accepts X j0 j1 c' (.start_voting_period i) ∧ Steps X j1 j2 ∧ Steps X j2 j3 ∧ Steps X j3 j ∧
        ShowsFloor X j3 floor ∧ floor ≤ 10000 ∧ n = total * floor / 10000 ∧ (Names j0 X.vote → ShowsTotal X j2 total) := by
  obtain ⟨s, h1, h2, h3⟩ := memory hX h hP
  cases hr : s.view c (.get_proposal i) with
  | error e =>
    exfalso
    unfold Mpip.Bytes.viewAll at ho
    rw [hb] at ho
    change (Mpip.Bytes.answer X.H j.mp.D c (.get_proposal i) >>= _) = _ at ho
    rw [Mpip.Bytes.answer_eq h2 c (Mpip.View.read_ok hb).1, hr] at ho
    cases ho
  | ok p =>
  obtain ⟨e1, e2⟩ := view_shown h1 h2 c hb hr
  rw [e1] at ho
  cases ho
  refine ⟨p, e2, fun n hn => ?_⟩
  have hp : s.proposals.get i = some p := Mpip.get_proposal_ok.1 hr
  obtain ⟨j3, q, b3, total, ⟨j2, ha, h23, hgive⟩, hj3, h3j, hcb, htot, s3, r3, st3, hnq⟩ := h3.quorum i p n hp hn
  have hle := h23.le
  have hle' := h3j.le
  obtain ⟨j0, j1, c', k, s0, hacc, h12, hname, hv, hask⟩ := ha.call hX (by omega)
  have hfl := fun c i => view_shown r3 st3 c (name := "get_quorum_floor") (i := i) (v := .get_quorum_floor) rfl rfl
  refine ⟨j0, j1, j2, j3, c', s3.quorum_floor, total, ?_⟩
  cases hask with
  | create => cases hcb
  | vote => cases hcb
  | start hp0 he hs =>
    cases hcb
    refine ⟨hacc, h12, h23, h3j, ⟨_, (hfl c []).2, fun c i => (hfl c i).1⟩, Mpip.C54_floor r3, hnq, fun hnm => ?_⟩
    have hadr : s0.meta_vote_contract_address = X.vote := by
      obtain ⟨r1, e3, e4⟩ := hname
      obtain ⟨r2, e5, e6⟩ := hnm
      rw [e3] at e5; cases e5
      exact e4.symm.trans e6
    have hj2 : Reach X j2 := (hacc.1.step hacc.2.1).steps h12
    rcases hgive hadr with e | ⟨now, e⟩
    · cases e
    · exact told_total hX hj2 (by omega) e htot

/-- **C104.** If a client is told a proposal, then some account called `create_proposal` in a transaction of the creator that is
shown, and the locked power that meta-vote — if it is the contract that mpip named when the account called — showed for that
account between the call and the answer is at least the threshold that mpip showed when the answer came. -/
theorem C104_created (hX : X.OK) (h : Reach X j) (hV : j.V < 2 ^ 32) (hP : j.P < 2 ^ 32) {i : Nat} {c : Mpip.Ctx}
    {b out : Bytes} (hb : Mpip.View.read "get_proposal" b = some (.get_proposal i))
    (ho : Mpip.Bytes.viewAll X.H j.mp.D c "get_proposal" b = .ok out) :
    ∃ p : Mpip.Proposal, JsonText.IsJson out (Mpip.mpipJSON p) ∧
      ∃ j0 j1 j2 j3 c' t least, Accepts X j0 j1 c' (.create_proposal t) ∧ c'.signer = p.creator_id ∧ Steps X j1 j2 ∧ Steps X j2 j3 ∧
        Steps X j3 j ∧ ShowsThreshold X j3 least ∧ (Names j0 X.vote →
          ∃ now l, ShowsPositions X j2 now c'.predecessor l ∧ least ≤ MetaVote.lockedPower l) := by
  obtain ⟨s, h1, h2, h3⟩ := memory hX h hP
  cases hr : s.view c (.get_proposal i) with
  | error e =>
    exfalso
    unfold Mpip.Bytes.viewAll at ho
    rw [hb] at ho
    change (Mpip.Bytes.answer X.H j.mp.D c (.get_proposal i) >>= _) = _ at ho
    rw [Mpip.Bytes.answer_eq h2 c (Mpip.View.read_ok hb).1, hr] at ho
    cases ho
  | ok p =>
  obtain ⟨e1, e2⟩ := view_shown h1 h2 c hb hr
  rw [e1] at ho
  cases ho
  refine ⟨p, e2, ?_⟩
  have hp : s.proposals.get i = some p := Mpip.get_proposal_ok.1 hr
  obtain ⟨j3, q, r, t, ⟨j2, ha, h23, hgive⟩, hj3, h3j, hcb, hsg, s3, r3, st3, hth⟩ := h3.creator i p hp
  have hle := h23.le
  have hle' := h3j.le
  obtain ⟨j0, j1, c', k, s0, hacc, h12, hname, hv, hask⟩ := ha.call hX (by omega)
  have hfl := fun c i => view_shown r3 st3 c (name := "get_proposal_threshold") (i := i) (v := .get_proposal_threshold) rfl rfl
  refine ⟨j0, j1, j2, j3, c', t, s3.min_voting_power_amount, ?_⟩
  cases hask with
  | start => cases hcb
  | vote => cases hcb
  | create hop hd =>
    cases hcb
    refine ⟨hacc, hsg, h12, h23, h3j, ⟨_, (hfl c []).2, fun c i => (hfl c i).1⟩, fun hnm => ?_⟩
    have hadr : s0.meta_vote_contract_address = X.vote := by
      obtain ⟨r1, e3, e4⟩ := hname
      obtain ⟨r2, e5, e6⟩ := hnm
      rw [e3] at e5; cases e5
      exact e4.symm.trans e6
    have hj2 : Reach X j2 := (hacc.1.step hacc.2.1).steps h12
    rcases hgive hadr with rfl | ⟨now, rfl⟩
    · obtain ⟨l, h5, -⟩ := told_positions hX hj2 (by omega) hv 0
      exact ⟨0, l, h5, hth.trans (Nat.zero_le _)⟩
    · obtain ⟨l, h5, h6⟩ := told_positions hX hj2 (by omega) hv now
      exact ⟨now, l, h5, h6 ▸ hth⟩

/-! ## A concrete history -/

/-- Two voters of meta-vote and two of mpip; meta-vote is at `me` and mpip at `gov`. -/
def duo : Net := ⟨Disk.firstByte, MetaVote.Bytes.few, Mpip.Bytes.few, "me", "gov"⟩

theorem duo_ok : duo.OK := ⟨MetaVote.Bytes.few_ok, Mpip.Bytes.few_ok, by decide +kernel, by decide +kernel⟩

/-- An action of a history of mpip: an account calls it, or meta-vote answers `b` and the answer arrives. -/
inductive Act
  | call (p : String) (d ts : Nat) (name : String) (b : Bytes)
  | reply (q : Mpip.Query) (now : Nat) (b : Bytes) (ts : Nat)

/-- Names in the inputs occur, and the answers are what meta-vote says in `v`. -/
def ActOK (v : MetaVote.Bytes.BWorld) : Act → Prop
  | .call p d ts name b => b.length < 2 ^ 31 ∧ ∀ k, Mpip.Call.read name b = some k → Mpip.Bytes.Named Mpip.Bytes.few ⟨"gov", p, p, d, ts, []⟩ k
  | .reply q now b _ => MetaVote.Bytes.viewAll Disk.firstByte v.D now q.write.1 q.write.2 = .ok b

/-- One action on the bytes of mpip; the answer is to the oldest question. -/
def act (w : Mpip.Bytes.BWorld) : Act → Option Mpip.Bytes.BWorld
  | .call p d ts name b =>
    if validAccount p = true ∧ w.clock ≤ ts ∧ ts ≤ U64_MAX then
      match Mpip.Call.read name b, Mpip.Bytes.callJson Disk.firstByte w.D ⟨"gov", p, p, d, ts, []⟩ name b with
      | some k, .ok r => some ⟨r.1, w.pending ++ Mpip.asked p r.2, ts, .call ⟨"gov", p, p, d, ts, []⟩ k r.2 :: w.log⟩
      | _, _ => none
    else none
  | .reply q _ b ts =>
    match w.pending with
    | p :: l =>
      if p.contract = "me" ∧ p.query = q ∧ w.clock ≤ ts ∧ ts ≤ U64_MAX then
        some ⟨((Mpip.Bytes.callJson Disk.firstByte w.D (Mpip.replyCtx "gov" p ts (.successful b)) p.callback.write.1 p.callback.write.2).getOr
            (w.D, [])).1, l, ts,
          .replied p ts (.successful b) (Res.isOk (Mpip.Bytes.callJson Disk.firstByte w.D (Mpip.replyCtx "gov" p ts (.successful b))
            p.callback.write.1 p.callback.write.2)) :: w.log⟩
      else none
    | [] => none

def acts (w : Mpip.Bytes.BWorld) : List Act → Option Mpip.Bytes.BWorld
  | [] => some w
  | a :: l => (act w a).bind fun y => acts y l

theorem reach_act {V P : Nat} {v : MetaVote.Bytes.BWorld} {w y : Mpip.Bytes.BWorld} {a : Act}
    (h : Reach duo ⟨V, v, P, w, w.pending, []⟩) (ha : ActOK v a) (hx : act w a = some y) :
    Reach duo ⟨V, v, P + 4, y, y.pending, []⟩ := by
  cases a with
  | call p d ts name b =>
    simp only [act] at hx
    split at hx
    · rename_i hc
      split at hx
      · rename_i k r hk hr
        cases hx
        exact h.step (.call _ ⟨"gov", p, p, d, ts, []⟩ name b k r.1 r.2 hk hc.1 hc.1 rfl rfl hc.2.1 hc.2.2 ha.1 (ha.2 k hk) hr)
      · cases hx
    · cases hx
  | reply q now b ts =>
    simp only [act] at hx
    split at hx
    · rename_i p l hp
      split at hx
      · rename_i hc
        cases hx
        obtain ⟨h1, rfl, h2, h3⟩ := hc
        have ht : told duo ⟨V, v, P, w, w.pending, []⟩ now p.query = .successful b := by
          show replyOf (MetaVote.Bytes.viewAll Disk.firstByte v.D now p.query.write.1 p.query.write.2) = _
          rw [show MetaVote.Bytes.viewAll Disk.firstByte v.D now p.query.write.1 p.query.write.2 = .ok b from ha]
          rfl
        have hs := h.step (.answer _ [] l p now hp h1)
        rw [ht] at hs
        exact hs.step (.reply _ [] [] p (.successful b) [] l ts rfl hp h2 h3)
      · cases hx
    · cases hx

theorem reach_acts {V : Nat} {v : MetaVote.Bytes.BWorld} : ∀ {l : List Act} {P : Nat} {w y : Mpip.Bytes.BWorld},
    Reach duo ⟨V, v, P, w, w.pending, []⟩ → (∀ a ∈ l, ActOK v a) → acts w l = some y →
    Reach duo ⟨V, v, P + 4 * l.length, y, y.pending, []⟩
  | [], P, w, y, h, _, hx => by cases hx; exact h
  | a :: l, P, w, y, h, ha, hx => by
    simp only [acts, Option.bind_eq_some_iff] at hx
    obtain ⟨z, h1, h2⟩ := hx
    have := reach_acts (reach_act h (ha a List.mem_cons_self) h1) (fun b hb => ha b (List.mem_cons_of_mem _ hb)) h2
    rwa [Nat.add_assoc, ← Nat.add_comm (4 * l.length), ← Nat.mul_succ] at this

/-- A history of meta-vote that keeps to `keeps` is one in which nothing is required of the calls. -/
theorem any_call {H : Hash} {N : MetaVote.Bytes.Names} {me : String} {G : Disk → Disk → MetaVote.Ctx → MetaVote.Call → Prop} {W : Nat}
    {w : MetaVote.Bytes.BWorld} (h : MetaVote.Bytes.JReach H N me G W w) :
    MetaVote.Bytes.JReach H N me MetaVote.Bytes.anyCall W w := by
  induction h with
  | init D D' c b k hb hu64 hr hlen hexec => exact .init D D' c b k hb hu64 hr hlen hexec
  | call _ c name b k D' out hr hv hme hres hm hclock hu64 hlen hk hexec _ ih =>
    exact .call ih c name b k D' out hr hv hme hres hm hclock hu64 hlen hk hexec trivial
  | resolve _ pre post t ok ts hpend hclock hu64 ih => exact .resolve ih pre post t ok ts hpend hclock hu64
  | tick _ ts hclock hu64 ih => exact .tick ih ts hclock hu64

/-- What meta-vote says of eve, of bob, and of all. -/
def eveLocked : Bytes := MetaVote.ascii "[{\"index\":0,\"amount\":\"50000000\",\"locking_period\":60,\"voting_power\":\"50000000000000000000000000\",\"unlocking_started_at\":null,\"is_unlocked\":false,\"is_unlocking\":false,\"is_locked\":true}]"

def bobLocked : Bytes := MetaVote.ascii "[{\"index\":0,\"amount\":\"60000000\",\"locking_period\":60,\"voting_power\":\"60000000000000000000000000\",\"unlocking_started_at\":null,\"is_unlocked\":false,\"is_unlocking\":false,\"is_locked\":true}]"

def totalLocked : Bytes := MetaVote.ascii "\"110000000000000000000000000\""

/-- Bob and eve lock in meta-vote. -/
theorem locks_run : (MetaVote.Bytes.jruns Disk.firstByte (0, ⟨MetaVote.Bytes.installedJ, [], 0, []⟩) (MetaVote.Bytes.talk.take 2)).map
      (fun x => (decide (x.1 < 2 ^ 32),
        MetaVote.Bytes.viewAll Disk.firstByte x.2.D 2 "get_all_locking_positions" (MetaVote.ascii "{\"voter_id\":\"eve\"}"),
        MetaVote.Bytes.viewAll Disk.firstByte x.2.D 4 "get_total_voting_power" [],
        MetaVote.Bytes.viewAll Disk.firstByte x.2.D 6 "get_all_locking_positions" (MetaVote.ascii "{\"voter_id\":\"bob\"}"))) =
    some (true, .ok eveLocked, .ok totalLocked, .ok bobLocked) := by
  decide +kernel

/-- Mpip is installed naming `me` as the contract that knows voting power. -/
def govInput : Bytes := MetaVote.ascii "{\"admin_id\":\"admin\",\"operator_id\":\"operator\",\"meta_token_contract_address\":\"meta\",\"meta_vote_contract_address\":\"me\",\"voting_period\":\"300000\",\"min_voting_power_amount\":\"1000\",\"mpip_storage_near\":\"7\",\"quorum_floor\":3000}"

def govDisk : Disk :=
  ((Mpip.Bytes.callJson Disk.firstByte Mpip.Bytes.other ⟨"gov", "deployer", "deployer", 0, 0, []⟩ "new" govInput).getOr
    (Mpip.Bytes.other, [])).1

theorem govDisk_run : Mpip.Bytes.callJson Disk.firstByte Mpip.Bytes.other ⟨"gov", "deployer", "deployer", 0, 0, []⟩ "new" govInput =
    .ok (govDisk, []) :=
  Mpip.Bytes.ok_of_getOr (by decide +kernel) (by decide +kernel)

/-- Eve proposes and starts the voting; bob votes. -/
def story : List Act :=
  [.call "eve" 7 1000000 "create_proposal" (MetaVote.ascii "{\"title\":\"t\",\"short_description\":\"s\",\"body\":\"b\",\"data\":\"d\",\"extra\":\"e\"}"),
   .reply (.get_all_locking_positions "eve") 2 eveLocked 2000000,
   .call "eve" 0 3000000 "start_voting_period" (MetaVote.ascii "{\"mpip_id\":0}"), .reply .get_total_voting_power 4 totalLocked 4000000,
   .call "bob" 0 5000000 "vote_proposal" (MetaVote.ascii "{\"memo\":\"no\",\"vote\":\"Against\",\"mpip_id\":0}"),
   .reply (.get_all_locking_positions "bob") 6 bobLocked 6000000]

/-- What a client of mpip is told in the end. -/
theorem story_run : (acts ⟨govDisk, [], 0, []⟩ story).map (fun w =>
      (Mpip.Bytes.viewAll Disk.firstByte w.D ⟨"gov", "", "", 0, 7000000, []⟩ "get_my_vote"
        (MetaVote.ascii "{\"voter_id\":\"bob\",\"mpip_id\":0}"),
      Mpip.Bytes.viewAll Disk.firstByte w.D ⟨"gov", "", "", 0, 7000000, []⟩ "get_proposal" (MetaVote.ascii "{\"mpip_id\":0}"))) =
    some (.ok (MetaVote.ascii "{\"mpip_id\":0,\"voter_id\":\"bob\",\"vote_type\":\"Against\",\"voting_power\":\"60000000000000000000000000\",\"memo\":\"no\"}"),
      .ok (MetaVote.ascii "{\"mpip_id\":0,\"title\":\"t\",\"short_description\":\"s\",\"body\":\"b\",\"data\":\"d\",\"extra\":\"e\",\"creator_id\":\"eve\",\"vote_start_timestamp\":4,\"vote_end_timestamp\":300004,\"draft\":false,\"executed\":false,\"canceled\":false,\"v_power_quorum_to_reach\":\"33000000000000000000000000\"}")) := by
  decide +kernel

theorem story_ok {v : MetaVote.Bytes.BWorld}
    (h1 : MetaVote.Bytes.viewAll Disk.firstByte v.D 2 "get_all_locking_positions" (MetaVote.ascii "{\"voter_id\":\"eve\"}") = .ok eveLocked)
    (h2 : MetaVote.Bytes.viewAll Disk.firstByte v.D 4 "get_total_voting_power" [] = .ok totalLocked)
    (h3 : MetaVote.Bytes.viewAll Disk.firstByte v.D 6 "get_all_locking_positions" (MetaVote.ascii "{\"voter_id\":\"bob\"}") = .ok bobLocked) :
    ∀ a ∈ story, ActOK v a := by
  intro a ha
  simp only [story, List.mem_cons, List.not_mem_nil, or_false] at ha
  rcases ha with rfl | rfl | rfl | rfl | rfl | rfl
  · refine ⟨by decide +kernel, fun k hk => ?_⟩
    rw [show Mpip.Call.read _ _ = some (.create_proposal ⟨"t", "s", "b", "d", "e"⟩) by decide +kernel] at hk
    cases hk
    trivial
  · have e : (Mpip.Query.get_all_locking_positions "eve").write =
        ("get_all_locking_positions", MetaVote.ascii "{\"voter_id\":\"eve\"}") := by decide +kernel
    simp only [ActOK, e]
    exact h1
  · refine ⟨by decide +kernel, fun k hk => ?_⟩
    rw [show Mpip.Call.read _ _ = some (.start_voting_period 0) by decide +kernel] at hk
    cases hk
    trivial
  · have e : Mpip.Query.get_total_voting_power.write = ("get_total_voting_power", []) := by decide +kernel
    simp only [ActOK, e]
    exact h2
  · refine ⟨by decide +kernel, fun k hk => ?_⟩
    rw [show Mpip.Call.read _ _ = some (.vote_proposal 0 .against "no") by decide +kernel] at hk
    cases hk
    constructor <;> simp [Mpip.Bytes.few]
  · have e : (Mpip.Query.get_all_locking_positions "bob").write =
        ("get_all_locking_positions", MetaVote.ascii "{\"voter_id\":\"bob\"}") := by decide +kernel
    simp only [ActOK, e]
    exact h3

theorem named_of {D : Disk} {a : String} (h : (match Mpip.Bytes.load D with
    | .ok r => decide (r.meta_vote_contract_address = a)
    | .error _ => false) = true) : ∃ r, Mpip.Bytes.load D = .ok r ∧ r.meta_vote_contract_address = a := by
  split at h
  · rename_i r hr
    exact ⟨r, hr, of_decide_eq_true h⟩
  · cases h

/-- Mpip names the meta-vote contract from the start. -/
theorem gov_names : ∃ r, Mpip.Bytes.load govDisk = .ok r ∧ r.meta_vote_contract_address = "me" := named_of (by decide +kernel)

/-- The hypotheses of the three theorems are met: mpip names the meta-vote contract, and then bob's vote, the quorum and the
proposal are shown. -/
example : duo.OK ∧ ∃ j0 j c out out', Reach duo j0 ∧ Names j0 duo.vote ∧ Reach duo j ∧ j.V < 2 ^ 32 ∧ j.P < 2 ^ 32 ∧
    Mpip.View.read "get_my_vote" (MetaVote.ascii "{\"voter_id\":\"bob\",\"mpip_id\":0}") = some (.get_my_vote "bob" 0) ∧
    Mpip.View.read "get_proposal" (MetaVote.ascii "{\"mpip_id\":0}") = some (.get_proposal 0) ∧
    Mpip.Bytes.viewAll duo.H j.mp.D c "get_my_vote" (MetaVote.ascii "{\"voter_id\":\"bob\",\"mpip_id\":0}") = .ok out ∧
    Mpip.Bytes.viewAll duo.H j.mp.D c "get_proposal" (MetaVote.ascii "{\"mpip_id\":0}") = .ok out' := by
  obtain ⟨x, hx, e⟩ := Option.map_eq_some_iff.1 locks_run
  rw [Prod.mk.injEq, Prod.mk.injEq, Prod.mk.injEq, decide_eq_true_eq] at e
  have hv := any_call (MetaVote.Bytes.reach_jruns MetaVote.Bytes.installedJ_reach
    (fun a ha => MetaVote.Bytes.talk_ok a (List.mem_of_mem_take ha)) hx)
  have h0 : Reach duo ⟨x.1, x.2, 0, ⟨govDisk, [], 0, []⟩, [], []⟩ :=
    Reach.init (X := duo) x.1 x.2 hv Mpip.Bytes.other govDisk ⟨"gov", "deployer", "deployer", 0, 0, []⟩ govInput
      Mpip.Bytes.other_blank (by decide) govDisk_run
  obtain ⟨w, hw, e'⟩ := Option.map_eq_some_iff.1 story_run
  rw [Prod.mk.injEq] at e'
  have hj := reach_acts (w := ⟨govDisk, [], 0, []⟩) h0 (story_ok e.2.1 e.2.2.1 e.2.2.2) hw
  refine ⟨duo_ok, _, _, _, _, _, h0, ?_, hj, e.1, show 0 + 4 * story.length < 2 ^ 32 by decide, ?_, ?_, e'.1, e'.2⟩
  · simp only [Names, duo]
    exact gov_names
  · have hw : (Mpip.View.get_my_vote "bob" 0).write = ("get_my_vote", MetaVote.ascii "{\"voter_id\":\"bob\",\"mpip_id\":0}") := by decide +kernel
    have := Mpip.View.read_write (v := .get_my_vote "bob" 0) ⟨by decide +kernel, by decide⟩
    rwa [hw] at this
  · have hw : (Mpip.View.get_proposal 0).write = ("get_proposal", MetaVote.ascii "{\"mpip_id\":0}") := by decide +kernel
    have := Mpip.View.read_write (v := .get_proposal 0) (show 0 ≤ U32_MAX by decide)
    rwa [hw] at this

end Verif.Joint.Bytes
