import Verif.Joint.Governance
import Verif.Props.MpipProposals
import Verif.Props.Power

/-!
# C67: weight of votes on proposals, with the meta-vote contract that supplies it
-/

namespace Verif.Joint

open Verif

variable {Jv : MetaVote.Json} {J : Mpip.Json} {vote gov : String}

/-- All questions in flight are addressed to the meta-vote contract (so it is right to let it answer). -/
theorem C67_addressee {j : World} (h : Reach Jv J vote gov j) : ∀ q ∈ j.mp.pending, q.contract = vote := by
  induction h with
  | init _ _ _ hp _ => rw [hp.empty.2.2.2.2.2.1]; simp
  | @step j j' hj hs ih =>
    have hadr := hj.address
    have key : ∀ p', Mpip.Step J gov j.mp p' → ∀ q ∈ p'.pending, q.contract = vote := by
      intro p' h q hq
      cases h with
      | call c k s' out _ _ _ _ he =>
        rcases List.mem_append.1 hq with hq | hq
        · exact ih q hq
        · cases Mpip.exec_asks he hq <;> exact hadr
      | reply pre post q1 r ts hpend =>
        refine ih q ?_
        rw [hpend]
        rcases List.mem_append.1 hq with hq | hq
        · exact List.mem_append_left _ hq
        · exact List.mem_append_right _ (List.mem_cons_of_mem _ hq)
      | tick => exact ih q hq
    cases hs with
    | mv => exact ih
    | call p' c k out h => exact key p' h
    | reply p' pre post q w0 m ts r b h => exact key p' h
    | tick p' h => exact key p' h

theorem lockedSum_view (s : MetaVote.State) (now : Nat) (v : String) :
    Mpip.lockedSum (s.get_all_locking_positions now v) = MetaVote.lockedPower (s.get_all_locking_positions now v) := by
  generalize s.get_all_locking_positions now v = l
  induction l with
  | nil => rfl
  | cons a l ih =>
    simp only [Mpip.lockedSum, MetaVote.lockedPower, List.map_cons, List.sum_cons, List.filter_cons] at ih ⊢
    rw [ih]
    split <;> simp_all

/-- Worlds of meta-vote up to now. -/
def Past (Jv : MetaVote.Json) (vote : String) (j : World) (m : MetaVote.World) : Prop :=
  MetaVote.Reach Jv vote m ∧ MetaVote.Steps Jv vote m j.mv

theorem asked_reach {j : World} (h : Reach Jv J vote gov j) : ∀ x ∈ j.asked, MetaVote.Reach Jv vote x.2 := by
  induction h with
  | init => simp
  | @step j j' hj hs ih =>
    cases hs with
    | mv => exact ih
    | call p' c k out h hlog hk =>
      intro x hx
      rcases List.mem_append.1 hx with hx | hx
      · exact ih x hx
      · obtain ⟨q, -, rfl⟩ := List.mem_map.1 hx; exact hj.mv
    | reply p' pre post q w0 m ts r b h hlog hq =>
      intro x hx
      refine ih x ?_
      rw [hq]
      rcases List.mem_append.1 hx with hx | hx
      · exact List.mem_append_left _ hx
      · exact List.mem_append_right _ (List.mem_cons_of_mem _ hx)
    | tick => exact ih

/-- C67: the power of every recorded vote is the locked power that meta-vote showed for that voter in some state it
went through, whatever is voted there. -/
theorem C67_locked {j : World} (h : Reach Jv J vote gov j) {v : String} {i : Nat} {x : Mpip.Vote}
    (hx : j.mp.st.get_my_vote v i = .ok (some x)) : ∃ m now, Past Jv vote j m ∧
      x.voting_power = MetaVote.lockedPower (m.st.get_all_locking_positions now v) := by
  have hx' : j.mp.st.record i v = some x := by
    rw [Mpip.get_my_vote_view] at hx; simpa using hx
  clear hx
  induction h with
  | init _ _ _ hp _ =>
    obtain ⟨-, -, hv, -⟩ := hp.empty
    simp [Mpip.State.record, hv] at hx'
  | @step j j' hj hs ih =>
    have same : ∀ p', Mpip.Step J gov j.mp p' → (∀ q ts r, p'.log ≠ .replied q ts r true :: j.mp.log) →
        p'.st.record i v = some x → j.mp.st.record i v = some x := by
      intro p' h hlog hrec
      rcases h.votes hj.mp with ⟨-, hv, -⟩ | ⟨q, ts, r, _, _, _, _, _, _, _, _, _, _, _, _, hl⟩ | hu
      · simpa [Mpip.State.record, hv] using hrec
      · exact absurd hl (hlog _ _ _)
      · obtain ⟨c, i0, x0, p0, out, -, -, -, -, -, -, hst, -⟩ := hu
        rw [hst, Mpip.uncounted_record] at hrec
        split at hrec
        · simp at hrec
        · exact hrec
    cases hs with
    | mv v' hmv =>
      obtain ⟨m, now, ⟨h1, h2⟩, h3⟩ := ih hx'
      exact ⟨m, now, ⟨h1, h2.step hmv⟩, h3⟩
    | call p' c k out h hlog hk => exact ih (same p' h (by rw [hlog]; simp) hx')
    | tick p' h hlog =>
      refine ih (same p' h ?_ hx')
      intro q ts r he
      rw [hlog] at he
      exact absurd (congrArg List.length he) (by simp)
    | reply p' pre post q w0 m ts r b h hlog hq h0 h1 hr =>
      rcases h.votes hj.mp with ⟨-, hv, -⟩ | ⟨q1, ts1, r1, i1, v1, t1, m1, hmem, hk, hst, hpos, -, -, -, -, hl⟩ | hu
      · exact ih (by simpa [Mpip.State.record, hv] using hx')
      · rw [hlog] at hl
        simp only [List.cons.injEq, Mpip.Entry.replied.injEq, and_true] at hl
        obtain ⟨rfl, rfl, rfl, rfl⟩ := hl
        have hm := asked_reach hj (q, w0) (by rw [hq]; simp)
        simp only at hx'
        rw [hst, Mpip.counted_record] at hx'
        split at hx'
        · rename_i hiv
          obtain ⟨rfl, rfl⟩ := hiv
          simp only [Option.some.injEq] at hx'
          subst hx'
          obtain ⟨w1, c, k, s1, out, -, -, -, -, ha, -⟩ := (Mpip.pending_origin hj.mp q hmem).ex
          cases ha with
          | start => simp at hk
          | create => simp at hk
          | vote hp ho hn =>
            simp only [Mpip.Call.vote_proposal_callback.injEq] at hk
            obtain ⟨rfl, rfl, rfl, rfl⟩ := hk
            cases r with
            | failed => simp [Mpip.replyPower] at hpos
            | successful b =>
              obtain ⟨now, hb⟩ := hr
              refine ⟨m, now, ⟨hm.steps h0, h1⟩, ?_⟩
              simp only [Mpip.replyPower] at hpos ⊢
              rcases read_positions_some hb with hb | hb
              · rw [hb]; exact lockedSum_view ..
              · rw [hb] at hpos; simp at hpos
        · exact ih hx'
      · obtain ⟨c, i0, x0, p0, out, -, -, -, -, -, -, hst, -⟩ := hu
        simp only at hx'
        rw [hst, Mpip.uncounted_record] at hx'
        split at hx'
        · simp at hx'
        · exact ih hx'

/-- C67: if the voter only ever unlocked locked positions in meta-vote, that power is the available plus the used power of
the voter there, and at most the total power. -/
theorem C67_bounded {m : MetaVote.World} {v : String} (h : MetaVote.ReachG Jv vote (MetaVote.ownUnlocks v) m) (now : Nat) :
    ∃ used, m.st.get_used_voting_power v = .ok used ∧
      MetaVote.lockedPower (m.st.get_all_locking_positions now v) = m.st.get_available_voting_power v + used ∧
      MetaVote.lockedPower (m.st.get_all_locking_positions now v) ≤ m.st.get_total_voting_power := by
  have hex := MetaVote.reachG_exact h
  have hle := (MetaVote.reach_vinv h.reach).power_le_total v
  refine ⟨_, MetaVote.reach_used h.reach v, ?_, ?_⟩
  · rw [MetaVote.lockedPower_view, MetaVote.get_available_eq, ← hex]; rfl
  · rw [MetaVote.lockedPower_view, ← hex]; exact hle

/-- C67: every quorum is a share of the total power of meta-vote in some state it went through. -/
theorem C67_quorum {j : World} (h : Reach Jv J vote gov j) (hcap : j.mp.st.proposals.len < 2 ^ 32) {i q : Nat}
    {p : Mpip.Proposal} (hp : j.mp.st.get_proposal i = .ok p) (hq : p.v_power_quorum_to_reach = some q) :
    ∃ m bps, Past Jv vote j m ∧ bps ≤ 10000 ∧ q = m.st.get_total_voting_power * bps / 10000 := by
  simp only [Mpip.State.get_proposal, Mpip.get_proposal_ok] at hp
  induction h generalizing p with
  | init _ _ _ hi _ => simp [hi.empty.1] at hp
  | @step j j' hj hs ih =>
    have later : ∀ p', Mpip.Step J gov j.mp p' → p'.st.proposals.len < 2 ^ 32 → p'.st.proposals.get i = some p →
        (∀ p0, j.mp.st.proposals.get i = some p0 → p0.v_power_quorum_to_reach = some q →
          ∃ m bps, Past Jv vote j m ∧ bps ≤ 10000 ∧ q = m.st.get_total_voting_power * bps / 10000) ∧
        j.mp.st.proposals.len < 2 ^ 32 := by
      intro p' h hc hg
      have hle := h.len_le hj.mp
      exact ⟨fun p0 h0 hq0 => ih (by omega) hq0 h0, by omega⟩
    have main : ∀ p', Mpip.Step J gov j.mp p' → p'.st.proposals.len < 2 ^ 32 → p'.st.proposals.get i = some p →
        (∃ p0, j.mp.st.proposals.get i = some p0 ∧ p0.v_power_quorum_to_reach = some q) ∨
        ∃ y ts b total, p'.log = .replied y ts (.successful b) true :: j.mp.log ∧ y ∈ j.mp.pending ∧
          y.callback = .start_voting_period_callback i ∧ J.read_total b = some total ∧
          q = total * j.mp.st.quorum_floor / 10000 := by
      intro p' h hc hg
      cases h0 : j.mp.st.proposals.get i with
      | none =>
        -- a new proposal has no quorum
        exfalso
        have hd := Mpip.reach_dense hj.mp
        have hne : p'.st.proposals.len ≠ j.mp.st.proposals.len := by
          intro he
          have h1 := ((Mpip.reach_dense (hj.mp.step h)).get i).1 ⟨p, hg⟩
          rw [he, ← hd.get i] at h1
          obtain ⟨_, h1⟩ := h1
          rw [h0] at h1; simp at h1
        obtain ⟨y, ts, r, t, -, -, -, -, hlen, hnew, -⟩ := Mpip.C59_created hj.mp h hne
        have h1 := ((Mpip.reach_dense (hj.mp.step h)).get i).1 ⟨p, hg⟩
        have h2 : ¬ i < j.mp.st.proposals.len := by
          rw [← hd.get i]; rintro ⟨_, h3⟩; rw [h0] at h3; simp at h3
        have : i = j.mp.st.proposals.len := by omega
        subst this
        rw [Mpip.State.get_proposal, Mpip.get_proposal_ok, hg] at hnew
        simp only [Option.some.injEq] at hnew
        subst hnew; simp at hq
      | some p0 =>
        by_cases he : p0.v_power_quorum_to_reach = some q
        · exact .inl ⟨p0, rfl, he⟩
        · right
          obtain ⟨y, ts, b, total, h1, h2, h3, h4, h5, -⟩ := Mpip.C54_quorum hj.mp h hc (Mpip.get_proposal_ok.2 h0)
            (Mpip.get_proposal_ok.2 hg) (by rw [hq]; exact fun e => he e.symm)
          rw [hq] at h5
          exact ⟨y, ts, b, total, h1, h2, h3, h4, Option.some.inj h5⟩
    cases hs with
    | mv v' hmv =>
      obtain ⟨m, bps, ⟨h1, h2⟩, h3⟩ := ih hcap hq hp
      exact ⟨m, bps, ⟨h1, h2.step hmv⟩, h3⟩
    | call p' c k out h hlog hk =>
      rcases main p' h hcap hp with ⟨p0, h0, hq0⟩ | ⟨_, _, _, _, hl, _⟩
      · exact (later p' h hcap hp).1 p0 h0 hq0
      · rw [hlog] at hl; simp at hl
    | tick p' h hlog =>
      rcases main p' h hcap hp with ⟨p0, h0, hq0⟩ | ⟨_, _, _, _, hl, _⟩
      · exact (later p' h hcap hp).1 p0 h0 hq0
      · rw [hlog] at hl; exact absurd (congrArg List.length hl) (by simp)
    | reply p' pre post y w0 m ts r b h hlog hq' h0 h1 hr =>
      rcases main p' h hcap hp with ⟨p0, h0', hq0⟩ | ⟨y1, ts1, b1, total, hl, hmem, hcb, ht, hqe⟩
      · exact (later p' h hcap hp).1 p0 h0' hq0
      · rw [hlog] at hl
        simp only [List.cons.injEq, Mpip.Entry.replied.injEq, and_true] at hl
        obtain ⟨rfl, rfl, rfl, rfl⟩ := hl
        obtain ⟨w1, c, k, s1, out, -, -, -, -, ha, -⟩ := (Mpip.pending_origin hj.mp y hmem).ex
        have hm := asked_reach hj (y, w0) (by rw [hq']; simp)
        cases ha with
        | start =>
          refine ⟨m, j.mp.st.quorum_floor, ⟨hm.steps h0, h1⟩, Mpip.C54_floor hj.mp, ?_⟩
          rw [hqe, read_total_some hr ht]
        | create => simp at hcb
        | vote => simp at hcb

/-! ### An execution of both -/

/-- Answers from a fixed state of meta-vote, for alice. -/
def ansJ (s : MetaVote.State) : Mpip.Json :=
  ⟨fun _ => some s.get_total_voting_power, fun _ => some (s.get_all_locking_positions 20 "alice")⟩

theorem answer_total (s : MetaVote.State) (b : List UInt8) :
    Answers (ansJ s) s .get_total_voting_power (.successful b) := Eq.refl (some s.get_total_voting_power)

theorem answer_alice (s : MetaVote.State) (b : List UInt8) :
    Answers (ansJ s) s (.get_all_locking_positions "alice") (.successful b) :=
  ⟨20, Eq.refl (some (s.get_all_locking_positions 20 "alice"))⟩

/-- The locked positions of alice and the total in the meta-vote demo. -/
def aliceJ : Mpip.Json := ansJ MetaVote.demo.st

/-- mpip asks the meta-vote contract `me`. -/
def gov0 : Mpip.World :=
  ⟨(Mpip.new false "admin" "operator" "meta" "me" 300000 1000 7 3000).getOr Mpip.demo0.st, [], 0, []⟩

theorem gov0_init : Mpip.Init gov0 :=
  .mk "admin" "operator" "meta" "me" 300000 1000 7 3000 0 _ (by decide) (by decide) rfl

/-- Reachable with meta-vote standing still. -/
def Still (j : World) : Prop := Reach MetaVote.demoJ aliceJ "me" "gov" j ∧ (∀ x ∈ j.asked, x.2 = j.mv) ∧ j.mv = MetaVote.demo

/-- Actions of mpip under which meta-vote answers for alice. -/
def fair (w : Mpip.World) : Mpip.Action → Bool
  | .call _ _ _ _ (.update_meta_vote_contract_address _) => false
  | .call .. => true
  | .reply i (.successful _) _ => match w.pending[i]? with
    | some q => decide (q.query = .get_total_voting_power ∨ q.query = .get_all_locking_positions "alice")
    | none => false
  | .reply _ .failed _ => true
  | .tick _ => true

theorem still_act {j : World} (h : Still j) {a : Mpip.Action} (ha : fair j.mp a = true) {p' : Mpip.World}
    (hact : Mpip.actG aliceJ "gov" (fun _ _ _ => true) j.mp a = some p') :
    ∃ l, Still ⟨j.mv, p', l⟩ := by
  have hstep := (Mpip.step_of_act hact).1
  cases a with
  | call p sg d ts k =>
    simp only [Mpip.actG] at hact
    split at hact
    · split at hact
      · rename_i r hr
        cases hact
        refine ⟨_, h.1.step (.call j _ _ _ _ hstep rfl ?_), ?_, ?_⟩
        · intro a hk; subst hk; simp [fair] at ha
        · intro x hx
          rcases List.mem_append.1 hx with hx | hx
          · exact h.2.1 x hx
          · obtain ⟨q, -, rfl⟩ := List.mem_map.1 hx; rfl
        · exact h.2.2
      · simp at hact
    · simp at hact
  | reply i r ts =>
    simp only [Mpip.actG] at hact
    split at hact
    · rename_i q hq
      split at hact
      · cases hact
        have hmem : q ∈ j.mp.pending := List.mem_of_getElem? hq
        obtain ⟨x, hx, rfl⟩ := List.mem_map.1 (h.1.asked.mem_iff.1 hmem)
        obtain ⟨pre, post, hpp⟩ := List.append_of_mem hx
        have hx2 := h.2.1 x hx
        refine ⟨pre ++ post, h.1.step (.reply j _ pre post x.1 x.2 j.mv ts r _ hstep rfl hpp (hx2 ▸ .refl) .refl ?_),
          ?_, h.2.2⟩
        · cases r with
          | failed => unfold Answers; trivial
          | successful b =>
            simp only [fair, hq, decide_eq_true_eq] at ha
            rcases ha with ha | ha <;> rw [ha, h.2.2]
            · exact answer_total _ b
            · exact answer_alice _ b
        · intro y hy
          refine h.2.1 y ?_
          rw [hpp]
          rcases List.mem_append.1 hy with hy | hy
          · exact List.mem_append_left _ hy
          · exact List.mem_append_right _ (List.mem_cons_of_mem _ hy)
      · simp at hact
    · simp at hact
  | tick ts =>
    simp only [Mpip.actG] at hact
    split at hact
    · cases hact
      exact ⟨j.asked, h.1.step (.tick j _ hstep rfl), h.2⟩
    · simp at hact

/-- Run a list of fair actions. -/
def fairRuns (w : Mpip.World) : List Mpip.Action → Option Mpip.World
  | [] => some w
  | a :: l => if fair w a then
      match Mpip.actG aliceJ "gov" (fun _ _ _ => true) w a with
      | some w' => fairRuns w' l
      | none => none
    else none

theorem still_runs {l : List Mpip.Action} {p' : Mpip.World} : ∀ {j : World}, Still j →
    fairRuns j.mp l = some p' → ∃ a, Still ⟨j.mv, p', a⟩ := by
  induction l with
  | nil => intro j h hr; cases hr; exact ⟨j.asked, h⟩
  | cons a l ih =>
    intro j h hr
    simp only [fairRuns] at hr
    split at hr
    · rename_i hf
      split at hr
      · rename_i w' hw
        obtain ⟨x, hx⟩ := still_act h hf hw
        exact ih (j := ⟨j.mv, w', x⟩) hx hr
      · simp at hr
    · simp at hr

theorem still_runs' {l : List Mpip.Action} {v : MetaVote.World} {p p' : Mpip.World}
    {a : List (Mpip.Pending × MetaVote.World)} (h : Still ⟨v, p, a⟩) (hr : fairRuns p l = some p') :
    ∃ a, Still ⟨v, p', a⟩ := still_runs (j := ⟨v, p, a⟩) h hr

/-- Alice creates a proposal, starts the voting and votes for it. -/
def govActs : List Mpip.Action :=
  [.call "alice" "alice" 7 (1 * Mpip.MS) (.create_proposal ⟨"t", "s", "b", "d", "e"⟩),
   .reply 0 (.successful []) (2 * Mpip.MS), .call "alice" "alice" 0 (3 * Mpip.MS) (.start_voting_period 0),
   .reply 0 (.successful []) (4 * Mpip.MS), .call "alice" "alice" 0 (5 * Mpip.MS) (.vote_proposal 0 .for_ "yes"),
   .reply 0 (.successful []) (6 * Mpip.MS)]

/-- The mpip world after `govActs`. -/
def gov1 : Mpip.World := (fairRuns gov0 govActs).get (by decide +kernel)

theorem still_init {v : MetaVote.World} (hv : v = MetaVote.demo) {p : Mpip.World} (hp : Mpip.Init p)
    (ha : p.st.meta_vote_contract_address = "me") : Still ⟨v, p, []⟩ :=
  ⟨Reach.init v p (hv.symm ▸ MetaVote.demo_reach) hp ha, fun _ hx => absurd hx (List.not_mem_nil), hv⟩

theorem gov1_reach : ∃ a, Reach MetaVote.demoJ aliceJ "me" "gov" ⟨MetaVote.demo, gov1, a⟩ := by
  have h0 := still_init rfl gov0_init (by decide +kernel)
  have h1 : fairRuns gov0 govActs = some gov1 := (Option.some_get _).symm
  obtain ⟨a, ha⟩ := still_runs' h0 h1
  exact ⟨a, ha.1⟩

/-- Alice has 60 units locked in meta-vote, 35 of them available; the vote counts 60. -/
example : (∃ a, Reach MetaVote.demoJ aliceJ "me" "gov" ⟨MetaVote.demo, gov1, a⟩) ∧
    (gov1.st.get_my_vote "alice" 0).getOr none = some ⟨0, .for_, 60 * 10 ^ 24, "yes"⟩ ∧
    MetaVote.lockedPower (MetaVote.demo.st.get_all_locking_positions 20 "alice") = 60 * 10 ^ 24 ∧
    (Mpip.prop gov1 0).v_power_quorum_to_reach = some (83 * 10 ^ 24 * 3000 / 10000) ∧
    gov1.st.proposals.len < 2 ^ 32 :=
  ⟨gov1_reach, by decide +kernel, by decide +kernel, by decide +kernel, by decide +kernel⟩

/-- Before the answer to alice's vote. -/
def govB : Mpip.World := (fairRuns gov0 (govActs.take 5)).get (by decide +kernel)
/-- After it. -/
def govA : Mpip.World := (Mpip.runs aliceJ "gov" govB [.reply 0 (.successful []) (6 * Mpip.MS)]).get (by decide +kernel)

deriving instance DecidableEq for Mpip.Entry

/-- The hypotheses of `Mpip.C67_weight`. -/
example : Mpip.Step aliceJ "gov" govB govA ∧
    govA.log = .replied ⟨"me", .get_all_locking_positions "alice", .vote_proposal_callback 0 "alice" .for_ "yes", "alice"⟩
      (6 * Mpip.MS) (.successful []) true :: govB.log ∧
    aliceJ.read_positions [] = some (MetaVote.demo.st.get_all_locking_positions 20 "alice") :=
  ⟨Mpip.step_of_runs (Option.some_get _).symm, by decide +kernel, by decide +kernel⟩

end Verif.Joint
