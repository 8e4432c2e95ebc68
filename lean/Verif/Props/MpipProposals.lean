import Verif.Mpip.PropInv
import Verif.Props.MpipVotes

/-!
# C51–C60: proposals of the mpip contract
-/

namespace Verif.Mpip

open Verif

variable {J : Json} {me : AccountId}

/-! ## C51 -/

/-- C51: there is a number `n` of proposals, the ids are exactly `0, …, n-1`, each proposal carries its id, and
`get_last_proposal_id` is `n-1` (below `2^32` proposals). -/
theorem C51_dense {w : World} (h : Reach J me w) : ∃ n, n ≤ 2 ^ 32 ∧
    (∀ i, (∃ p, w.st.get_proposal i = .ok p) ↔ i < n) ∧
    (∀ i p, w.st.get_proposal i = .ok p → p.mpip_id = i) ∧
    (n < 2 ^ 32 → w.st.get_last_proposal_id = .ok (if n = 0 then none else some (n - 1))) := by
  have hd := reach_dense h
  refine ⟨w.st.proposals.len, hd.2, ?_, ?_, ?_⟩
  · intro i; simp only [State.get_proposal, get_proposal_ok]; exact hd.get i
  · intro i p hp; exact (reach_pok h i p (get_proposal_ok.1 hp)).id_
  · intro hn
    unfold State.get_last_proposal_id
    have hm : w.st.proposals.len % 4294967296 = w.st.proposals.len := Nat.mod_eq_of_lt hn
    by_cases h0 : w.st.proposals.len = 0
    · simp [h0, pure, Except.pure]
    · have h1 : 1 ≤ w.st.proposals.len := by omega
      rw [hm]
      simp [h0, Nat.pos_of_ne_zero h0, subU, h1, bind, Except.bind, pure, Except.pure]

/-- C51: a proposal stays under its id, with its creator, for ever (below `2^32` proposals). -/
theorem C51_permanent {w w' : World} (h : Reach J me w) (hs : Steps J me w w')
    (hcap : w'.st.proposals.len < 2 ^ 32) {i : Nat} {p : Proposal} (hp : w.st.get_proposal i = .ok p) :
    ∃ p', w'.st.get_proposal i = .ok p' ∧ p'.creator_id = p.creator_id ∧ p'.mpip_id = p.mpip_id := by
  simp only [State.get_proposal, get_proposal_ok] at hp ⊢
  induction hs with
  | refl => exact ⟨p, hp, rfl, rfl⟩
  | @step w1 w2 hs1 hs2 ih =>
    have h1 := h.steps hs1
    have hle := hs2.len_le h1
    obtain ⟨p1, hp1, e1, e2⟩ := ih (by omega)
    obtain ⟨p2, hp2, he⟩ := hs2.evolves h1 hcap hp1
    refine ⟨p2, hp2, ?_⟩
    rcases he with rfl | ⟨_, _, _, _, _, he, _⟩ | ⟨_, _, _, _, _, he, _⟩
    · exact ⟨e1, e2⟩
    · exact ⟨he.creator.1.trans e1, he.creator.2.trans e2⟩
    · exact ⟨he.creator.1.trans e1, he.creator.2.trans e2⟩

/-- C51: the list of an account holds exactly the ids it created, in order (below `2^32` proposals). -/
theorem C51_creators {w : World} (h : Reach J me w) (hcap : w.st.proposals.len < 2 ^ 32) (a : AccountId) :
    w.st.get_user_proposals_ids a = w.st.get_my_proposals a ∧ (w.st.get_my_proposals a).Pairwise (· < ·) ∧
    ∀ i, i ∈ w.st.get_my_proposals a ↔ ∃ p, w.st.get_proposal i = .ok p ∧ p.creator_id = a := by
  have hl := reach_listed h hcap a
  have hd := reach_dense h
  have he : w.st.get_my_proposals a = (w.st.proposers.get a).getD [] := rfl
  rw [he, hl]
  refine ⟨by rw [← hl]; rfl, List.Pairwise.filter _ List.pairwise_lt_range, ?_⟩
  intro i
  simp only [List.mem_filter, List.mem_range, decide_eq_true_eq, State.get_proposal, get_proposal_ok, ← hd.get]
  constructor
  · rintro ⟨⟨p, hp⟩, hc⟩
    rw [hp] at hc; simp at hc
    exact ⟨p, hp, hc⟩
  · rintro ⟨p, hp, rfl⟩
    exact ⟨⟨p, hp⟩, by simp [hp]⟩

/-- C51: the pages of `get_proposals`: the proposals `from, …` in the order of their ids. -/
theorem C51_pages {w : World} (h : Reach J me w) (from_index limit : Nat) :
    (w.st.proposals.len ≤ from_index → w.st.get_proposals from_index limit = .ok none) ∧
    (from_index < w.st.proposals.len → ∃ l, w.st.get_proposals from_index limit = .ok (some l) ∧
      l.length = min limit (w.st.proposals.len - from_index) ∧
      ∀ n (hn : n < l.length), w.st.get_proposal (from_index + n) = .ok l[n]) := by
  have hd := reach_dense h
  refine ⟨?_, ?_⟩
  · intro hle; simp [State.get_proposals, hle, pure, Except.pure]
  · intro hlt
    have key : ∀ m, from_index + m ≤ w.st.proposals.len → ∃ l : List Proposal,
        (List.range m).mapM (fun i => do
          let k ← expect w.st.proposals.keys[from_index + i]? "called `Option::unwrap()` on a `None` value"
          expect (w.st.proposals.get k) "called `Option::unwrap()` on a `None` value") = (.ok l : Res _) ∧
        l.length = m ∧ ∀ n (hn : n < l.length), w.st.get_proposal (from_index + n) = .ok l[n] := by
      intro m
      induction m with
      | zero => intro _; exact ⟨[], rfl, rfl, by simp⟩
      | succ m ih =>
        intro hm
        obtain ⟨l, h1, h2, h3⟩ := ih (by omega)
        obtain ⟨p, hp⟩ := (hd.get (from_index + m)).2 (by omega)
        refine ⟨l ++ [p], ?_, by simp [h2], ?_⟩
        · rw [List.range_succ, List.mapM_append, h1]
          have : w.st.proposals.keys[from_index + m]? = some (from_index + m) := by
            rw [hd.1, List.getElem?_range (by omega)]
          simp [this, expect, hp, bind, Except.bind, pure, Except.pure]
        · intro n hn
          by_cases hlt : n < l.length
          · rw [List.getElem_append_left hlt]; exact h3 n hlt
          · have : n = l.length := by simp at hn; omega
            subst this
            rw [List.getElem_append_right (Nat.le_refl _)]
            simp only [State.get_proposal, get_proposal_ok, h2, hp, Nat.sub_self, List.getElem_cons_zero]
    obtain ⟨l, h1, h2, h3⟩ := key (min (from_index + limit) w.st.proposals.len - from_index) (by omega)
    refine ⟨l, ?_, by omega, h3⟩
    unfold State.get_proposals
    rw [if_neg (by omega), h1]
    rfl

example : Reach demoJ "me" demo ∧ demo.st.proposals.len = 2 ∧ demo.st.get_my_proposals "alice" = [0, 1] :=
  ⟨demo_reach, by decide +kernel⟩

/-! ## C52 -/

/-- C52, one step: after the millisecond in which voting started, no step changes text or creator. -/
theorem C52_step {w w' : World} (h : Reach J me w) (hs : Step J me w w') (hcap : w'.st.proposals.len < 2 ^ 32)
    {i t : Nat} {p : Proposal} (hp : w.st.get_proposal i = .ok p) (ht : p.vote_start_timestamp = some t)
    (hlate : t < w'.clock / 1000000) :
    ∃ p', w'.st.get_proposal i = .ok p' ∧ p'.content = p.content ∧ p'.creator_id = p.creator_id := by
  simp only [State.get_proposal, get_proposal_ok] at hp ⊢
  obtain ⟨p', hp', he⟩ := hs.evolves h hcap hp
  refine ⟨p', hp', ?_⟩
  have key : ∀ (c : Ctx) (k : Call), w'.clock = c.timestamp → Evolves J w.st c k i p p' →
      p'.content = p.content ∧ p'.creator_id = p.creator_id := by
    intro c k hc he
    cases he with
    | same => exact ⟨rfl, rfl⟩
    | started => exact ⟨rfl, rfl⟩
    | canceled => exact ⟨rfl, rfl⟩
    | executed => exact ⟨rfl, rfl⟩
    | edited hed hsg =>
      have h1 := hed.1 t ht
      unfold Ctx.now at h1
      rw [← hc] at h1; omega
  rcases he with rfl | ⟨c, k, _, _, _, he, _, hc, _⟩ | ⟨q, ts, r, _, _, he, _, hc⟩
  · exact ⟨rfl, rfl⟩
  · exact key c k hc he
  · exact key _ _ hc he

/-- Zero or more steps with calls that satisfy `G`. -/
inductive StepsG (J : Json) (me : AccountId) (G : World → Ctx → Call → Prop) (w : World) : World → Prop
  | refl : StepsG J me G w w
  | step {w1 w2 : World} (h : StepsG J me G w w1) (hs : Step J me w1 w2)
      (hg : ∀ c k out, w2.log = .call c k out :: w1.log → G w1 c k) : StepsG J me G w w2

theorem ReachG.steps {G : World → Ctx → Call → Prop} {w w' : World} (h : ReachG J me G w)
    (hs : StepsG J me G w w') : ReachG J me G w' := by
  induction hs with
  | refl => exact h
  | step _ hs hg ih => exact ih.step hs hg

theorem StepsG.clock {G : World → Ctx → Call → Prop} {w w' : World} (hs : StepsG J me G w w') :
    w.clock ≤ w'.clock := by
  induction hs with
  | refl => exact Nat.le_refl _
  | step _ hs _ ih => exact Nat.le_trans ih hs.clock_le

/-- Proposal of a start in flight. -/
def startKey (p : Pending) : Option Nat :=
  match p.callback with
  | .start_voting_period_callback i => some i
  | _ => none

/-- With `StartOnce`: one start in flight per proposal, and only before it has started. -/
theorem reachG_start {w : World} (h : ReachG J me StartOnce w) : (w.pending.filterMap startKey).Nodup ∧
    ∀ i ∈ w.pending.filterMap startKey, w.st.proposals.len < CAP →
      ∃ p, w.st.proposals.get i = some p ∧ p.vote_start_timestamp = none := by
  induction h with
  | init h => rw [h.empty.2.2.2.2.2.1]; simp
  | @step w w' h hs hg ih =>
    have hr := h.reach
    have hlen := hs.len_le hr
    obtain ⟨ihn, ihp⟩ := ih
    cases hs with
    | call c k s' out hme hres hclock hu64 hexec =>
      have hs := Step.call w c k s' out hme hres hclock hu64 hexec
      have one : ((asked c.signer out).filterMap startKey).Nodup := by
        obtain ⟨-, -, -, hx⟩ := exec_ok.1 hexec
        cases k <;> simp only [run, quiet_ok, sends_ok] at hx <;> obtain ⟨-, rfl⟩ := hx <;>
          simp [asked, startKey, List.filterMap_cons]
      have key : ∀ i ∈ (asked c.signer out).filterMap startKey, i ∉ w.pending.filterMap startKey ∧
          ∃ p, w.st.proposals.get i = some p ∧ p.vote_start_timestamp = none := by
        intro i hi
        obtain ⟨q, hq, hqi⟩ := List.mem_filterMap.1 hi
        cases exec_asks hexec hq with
        | @start j p hp he hs0 =>
          simp only [startKey, Option.some.injEq] at hqi
          subst hqi
          obtain ⟨h1, h2⟩ := hg _ _ _ rfl j rfl
          refine ⟨?_, p, hp, h2 p (get_proposal_ok.2 hp)⟩
          intro hmem
          obtain ⟨q1, hq1, hk1⟩ := List.mem_filterMap.1 hmem
          have := h1 q1 hq1
          simp only [startKey] at hk1
          split at hk1
          · rename_i a he; cases hk1; exact this he
          · simp at hk1
        | create => simp [startKey] at hqi
        | vote => simp [startKey] at hqi
      have pres : ∀ i, s'.proposals.len < CAP →
          (∃ p, w.st.proposals.get i = some p ∧ p.vote_start_timestamp = none) →
          ∃ p, s'.proposals.get i = some p ∧ p.vote_start_timestamp = none := by
        rintro i hcap ⟨p, hp, hn⟩
        obtain ⟨p', hp', he⟩ := hs.evolves hr hcap hp
        refine ⟨p', hp', ?_⟩
        rcases he with rfl | ⟨c1, k1, _, hres1, _, he, _⟩ | ⟨q, ts, r, _, hl, _⟩
        · exact hn
        · cases he with
          | same => exact hn
          | started hb => rw [hres1] at hb; simp at hb
          | canceled => exact hn
          | edited => exact hn
          | executed => exact hn
        · simp at hl
      refine ⟨?_, ?_⟩
      · simp only [List.filterMap_append]
        rw [List.nodup_append]
        exact ⟨ihn, one, by intro a ha b hb hab; subst hab; exact (key _ hb).1 ha⟩
      · intro i hi hcap
        simp only [List.filterMap_append, List.mem_append] at hi
        refine pres i hcap ?_
        rcases hi with hi | hi
        · exact ihp i hi (by simp only at hlen hcap; omega)
        · exact (key i hi).2
    | reply pre post q r ts hpend hclock hu64 =>
      have hs := Step.reply (J := J) (me := me) w pre post q r ts hpend hclock hu64
      have hperm : (w.pending.filterMap startKey).Perm ((q :: (pre ++ post)).filterMap startKey) := by
        rw [hpend]; exact List.Perm.filterMap _ List.perm_middle
      have hnd0 := hperm.nodup_iff.1 ihn
      have hnd : ((pre ++ post).filterMap startKey).Nodup := by
        rw [List.filterMap_cons] at hnd0
        split at hnd0
        · exact hnd0
        · exact (List.nodup_cons.1 hnd0).2
      refine ⟨hnd, ?_⟩
      intro i hi hcap
      have hmem : i ∈ w.pending.filterMap startKey := by
        rw [hperm.mem_iff, List.filterMap_cons]
        split
        · exact hi
        · exact List.mem_cons_of_mem _ hi
      obtain ⟨p, hp, hn⟩ := ihp i hmem (by simp only at hlen hcap; omega)
      obtain ⟨p', hp', he⟩ := hs.evolves hr hcap hp
      refine ⟨p', hp', ?_⟩
      rcases he with rfl | ⟨c1, k1, _, _, hl, _⟩ | ⟨q1, ts1, r1, _, hl, he, _⟩
      · exact hn
      · simp at hl
      · simp only [List.cons.injEq, Entry.replied.injEq, and_true] at hl
        obtain ⟨rfl, rfl, rfl, -⟩ := hl
        generalize hk : q.callback = k at he
        cases he with
        | same => exact hn
        | started hb =>
          exfalso
          have : startKey q = some i := by simp [startKey, hk]
          rw [List.filterMap_cons, this] at hnd0
          exact (List.nodup_cons.1 hnd0).1 hi
        | canceled => exact hn
        | edited => exact hn
        | executed => exact hn
    | tick ts => exact ⟨ihn, ihp⟩

/-- With `StartOnce`, a window that is set stays. -/
theorem window_step {w w' : World} (h : ReachG J me StartOnce w) (hs : Step J me w w')
    (hcap : w'.st.proposals.len < 2 ^ 32) {i t : Nat} {p : Proposal} (hp : w.st.proposals.get i = some p)
    (ht : p.vote_start_timestamp = some t) :
    ∃ p', w'.st.proposals.get i = some p' ∧ p'.vote_start_timestamp = some t ∧
      p'.vote_end_timestamp = p.vote_end_timestamp ∧ p'.v_power_quorum_to_reach = p.v_power_quorum_to_reach ∧
      (t < w'.clock / 1000000 → p'.content = p.content) := by
  have hr := h.reach
  obtain ⟨p', hp', he⟩ := hs.evolves hr hcap hp
  have hc52 : t < w'.clock / 1000000 → p'.content = p.content := by
    intro hl
    obtain ⟨p2, h1, h2, -⟩ := C52_step hr hs hcap (get_proposal_ok.2 hp) ht hl
    rw [State.get_proposal, get_proposal_ok, hp'] at h1
    cases h1; exact h2
  refine ⟨p', hp', ?_⟩
  rcases he with rfl | ⟨c1, k1, _, hres, hl, he, _⟩ | ⟨q1, ts1, r1, hq, hl, he, _⟩
  · exact ⟨ht, rfl, rfl, fun _ => rfl⟩
  · cases he with
    | same => exact ⟨ht, rfl, rfl, hc52⟩
    | started hb => rw [hres] at hb; simp at hb
    | canceled => exact ⟨ht, rfl, rfl, hc52⟩
    | edited => exact ⟨ht, rfl, rfl, hc52⟩
    | executed => exact ⟨ht, rfl, rfl, hc52⟩
  · generalize hk : q1.callback = k at he
    cases he with
    | same => exact ⟨ht, rfl, rfl, hc52⟩
    | started hb =>
      exfalso
      have hlen := hs.len_le hr
      have hmem : i ∈ w.pending.filterMap startKey := List.mem_filterMap.2 ⟨q1, hq, by simp [startKey, hk]⟩
      obtain ⟨p0, hp0, hn⟩ := (reachG_start h).2 i hmem (by unfold CAP; omega)
      rw [hp] at hp0; cases hp0
      rw [ht] at hn; simp at hn
    | canceled => exact ⟨ht, rfl, rfl, hc52⟩
    | edited => exact ⟨ht, rfl, rfl, hc52⟩
    | executed => exact ⟨ht, rfl, rfl, hc52⟩

/-- C60 for histories in which a proposal is started at most once: start, end and quorum stay.
Missing: the other histories, for which it is false (`C60_false`). -/
theorem C60_partial {w w' : World} (h : ReachG J me StartOnce w) (hs : StepsG J me StartOnce w w')
    (hcap : w'.st.proposals.len < 2 ^ 32) {i t : Nat} {p : Proposal} (hp : w.st.get_proposal i = .ok p)
    (ht : p.vote_start_timestamp = some t) :
    ∃ p', w'.st.get_proposal i = .ok p' ∧ p'.vote_start_timestamp = some t ∧
      p'.vote_end_timestamp = p.vote_end_timestamp ∧ p'.v_power_quorum_to_reach = p.v_power_quorum_to_reach := by
  simp only [State.get_proposal, get_proposal_ok] at hp ⊢
  induction hs with
  | refl => exact ⟨p, hp, ht, rfl, rfl⟩
  | @step w1 w2 hs1 hs2 hg ih =>
    have h1 := h.steps hs1
    have hle := hs2.len_le h1.reach
    obtain ⟨p1, hp1, e1, e2, e3⟩ := ih (by omega)
    obtain ⟨p2, hp2, f1, f2, f3, -⟩ := window_step h1 hs2 hcap hp1 e1
    exact ⟨p2, hp2, f1, f2.trans e2, f3.trans e3⟩

/-- C52 for histories in which a proposal is started at most once: from the millisecond after the start on, text and
creator stay for ever.  Missing: the other histories, for which it is false (`C52_false`). -/
theorem C52_partial {w w' : World} (h : ReachG J me StartOnce w) (hs : StepsG J me StartOnce w w')
    (hcap : w'.st.proposals.len < 2 ^ 32) {i t : Nat} {p : Proposal} (hp : w.st.get_proposal i = .ok p)
    (ht : p.vote_start_timestamp = some t) (hlate : t < w.clock / 1000000) :
    ∃ p', w'.st.get_proposal i = .ok p' ∧ p'.content = p.content ∧ p'.creator_id = p.creator_id := by
  have key : ∃ p', w'.st.proposals.get i = some p' ∧ p'.vote_start_timestamp = some t ∧ p'.content = p.content := by
    simp only [State.get_proposal, get_proposal_ok] at hp
    induction hs with
    | refl => exact ⟨p, hp, ht, rfl⟩
    | @step w1 w2 hs1 hs2 hg ih =>
      have h1 := h.steps hs1
      have hle := hs2.len_le h1.reach
      obtain ⟨p1, hp1, e1, e2⟩ := ih (by omega)
      obtain ⟨p2, hp2, f1, -, -, f2⟩ := window_step h1 hs2 hcap hp1 e1
      refine ⟨p2, hp2, f1, (f2 ?_).trans e2⟩
      have hc1 := hs1.clock
      have hc2 := hs2.clock_le
      exact Nat.lt_of_lt_of_le hlate (Nat.div_le_div_right (Nat.le_trans hc1 hc2))
  have hst : Steps J me w w' := by
    clear key hcap
    induction hs with
    | refl => exact .refl
    | step _ hs _ ih => exact ih.step hs
  obtain ⟨p1, hp1, e1, -⟩ := C51_permanent h.reach hst hcap hp
  obtain ⟨p2, hp2, -, e2⟩ := key
  rw [State.get_proposal, get_proposal_ok, hp2] at hp1
  obtain rfl := Option.some.inj hp1
  exact ⟨p2, get_proposal_ok.2 hp2, e2, e1⟩

/-- A guarded run of the demo. -/
theorem demo_start_once : ReachG demoJ "me" StartOnce demo :=
  reachG_of_runs (g := startOnce) (l := demoActs) startOnce_sound (.init demo0_init) (by
    have : (runsG demoJ "me" startOnce demo0 demoActs).isSome = true := by decide +kernel
    rw [show demo = (runsG demoJ "me" startOnce demo0 demoActs).get this from rfl]
    exact (Option.some_get _).symm)

/-- The proposal with id `i`, or an empty one. -/
def prop (w : World) (i : Nat) : Proposal :=
  (w.st.get_proposal i).getOr ⟨0, ⟨"", "", "", "", ""⟩, "", none, none, false, false, false, none⟩

example : ReachG demoJ "me" StartOnce demo ∧ (prop demo 0).vote_start_timestamp = some 6 ∧
    6 < demo.clock / 1000000 := ⟨demo_start_once, by decide +kernel⟩

/-- Two starts of proposal 1 in flight; the first is answered at 12 ms. -/
def restart0 : World := (runs demoJ "me" demo [.call "alice" "alice" 0 (11 * MS) (.start_voting_period 1),
  .call "alice" "alice" 0 (11 * MS) (.start_voting_period 1), .reply 0 (tells 40 0) (12 * MS),
  .tick (20 * MS)]).get (by decide +kernel)

/-- The second answer moves the window at 20 ms; in that millisecond the text is changed. -/
def restart : World := (runs demoJ "me" restart0 [.reply 0 (tells 1 0) (20 * MS),
  .call "alice" "alice" 0 (20 * MS) (.update_proposal 1 ⟨"changed", "", "", "", ""⟩)]).get (by decide +kernel)

theorem restart0_reach : Reach demoJ "me" restart0 := demo_reach.steps (steps_of_runs (Option.some_get _).symm)
theorem restart_steps : Steps demoJ "me" restart0 restart := steps_of_runs (Option.some_get _).symm

/-- C60 is false of the code. -/
theorem C60_false : ∃ (J : Json) (me : AccountId) (w w' : World), Reach J me w ∧ Steps J me w w' ∧
    (prop w 1).vote_start_timestamp = some 12 ∧ (prop w 1).vote_end_timestamp = some 300012 ∧
    (prop w 1).v_power_quorum_to_reach = some 3072 ∧
    (prop w' 1).vote_start_timestamp = some 20 ∧ (prop w' 1).vote_end_timestamp = some 300020 ∧
    (prop w' 1).v_power_quorum_to_reach = some 76 :=
  ⟨demoJ, "me", restart0, restart, restart0_reach, restart_steps, by decide +kernel⟩

/-- C52 over histories is false of the code: voting on proposal 1 started at 12 ms, its text changes at 20 ms. -/
theorem C52_false : ∃ (J : Json) (me : AccountId) (w w' : World), Reach J me w ∧ Steps J me w w' ∧
    (prop w 1).vote_start_timestamp = some 12 ∧ 12 < w.clock / 1000000 ∧
    (prop w' 1).content ≠ (prop w 1).content :=
  ⟨demoJ, "me", restart0, restart, restart0_reach, restart_steps, by decide +kernel⟩

/-! ## C53 -/

/-- C53: canceled and executed stay, and exclude each other. -/
theorem C53_terminal {w w' : World} (h : Reach J me w) (hs : Steps J me w w') (hcap : w'.st.proposals.len < 2 ^ 32)
    {i now now' : Nat} {x : MpipState} (hx : x = .canceled ∨ x = .executed)
    (hst : w.st.get_proposal_state now i = .ok x) : w'.st.get_proposal_state now' i = .ok x := by
  have shown : ∀ (s : State) (n : Nat) (p : Proposal), s.proposals.get i = some p →
      (p.executed = true ∧ p.canceled = false → s.get_proposal_state n i = .ok .executed) ∧
      (p.canceled = true ∧ p.executed = false → s.get_proposal_state n i = .ok .canceled) := by
    intro s n p hp
    refine ⟨?_, ?_⟩ <;> rintro ⟨h1, h2⟩ <;>
      simp [State.get_proposal_state, State.internal_get_proposal, hp, expect, bind, Except.bind, h1, h2, pure,
        Except.pure]
  -- what the state says about the flags
  have back : ∃ p, w.st.proposals.get i = some p ∧ ((x = .executed ∧ p.executed = true ∧ p.canceled = false) ∨
      (x = .canceled ∧ p.canceled = true ∧ p.executed = false)) := by
    simp only [State.get_proposal_state, bind_ok_iff, get_proposal_ok] at hst
    obtain ⟨p, hp, hst⟩ := hst
    refine ⟨p, hp, ?_⟩
    have hok := reach_pok h i p hp
    split at hst
    · rename_i he
      cases hst
      exact .inl ⟨rfl, he, (hok.exec_ he).1⟩
    · rename_i he
      split at hst
      · rename_i hc
        cases hst
        exact .inr ⟨rfl, hc, by simpa using he⟩
      · exfalso
        split at hst
        · cases hst; simp at hx
        · simp only [bind_ok_iff] at hst
          obtain ⟨b, -, hst⟩ := hst
          split at hst
          · cases hst; simp at hx
          · simp only [bind_ok_iff] at hst
            obtain ⟨b, -, hst⟩ := hst
            split at hst
            · cases hst; simp at hx
            · simp only [bind_ok_iff] at hst
              obtain ⟨b, -, hst⟩ := hst
              split at hst <;> cases hst <;> simp at hx
  obtain ⟨p, hp, hfl⟩ := back
  have keep : ∃ p', w'.st.proposals.get i = some p' ∧ p'.executed = p.executed ∧ p'.canceled = p.canceled := by
    induction hs with
    | refl => exact ⟨p, hp, rfl, rfl⟩
    | @step w1 w2 hs1 hs2 ih =>
      have h1 := h.steps hs1
      have hle := hs2.len_le h1
      obtain ⟨p1, hp1, e1, e2⟩ := ih (by omega)
      obtain ⟨p2, hp2, he⟩ := hs2.evolves h1 hcap hp1
      refine ⟨p2, hp2, ?_⟩
      have key : ∀ c k, Evolves J w1.st c k i p1 p2 → p2.executed = p.executed ∧ p2.canceled = p.canceled := by
        intro c k he
        cases he with
        | same => exact ⟨e1, e2⟩
        | started => exact ⟨e1, e2⟩
        | edited => exact ⟨e1, e2⟩
        | canceled hed hsg =>
          exfalso
          rcases hfl with ⟨-, h1, h2⟩ | ⟨-, h1, h2⟩
          · have := hed.2.2; rw [e1, h1] at this; simp at this
          · have := hed.2.1; rw [e2, h1] at this; simp at this
        | executed ho =>
          exfalso
          obtain ⟨_, _, _, _, _, _, _, f1, f2⟩ := ho
          rcases hfl with ⟨-, h1, h2⟩ | ⟨-, h1, h2⟩
          · rw [e1, h1] at f2; simp at f2
          · rw [e2, h1] at f1; simp at f1
      rcases he with rfl | ⟨c, k, _, _, _, he, _⟩ | ⟨_, _, _, _, _, he, _⟩
      · exact ⟨e1, e2⟩
      · exact key _ _ he
      · exact key _ _ he
  obtain ⟨p', hp', e1, e2⟩ := keep
  rcases hfl with ⟨rfl, h1, h2⟩ | ⟨rfl, h1, h2⟩
  · exact (shown _ now' p' hp').1 ⟨by rw [e1, h1], by rw [e2, h2]⟩
  · exact (shown _ now' p' hp').2 ⟨by rw [e2, h1], by rw [e1, h2]⟩

/-- C53: a proposal is never both. -/
theorem C53_exclusive {w : World} (h : Reach J me w) {i : Nat} {p : Proposal} (hp : w.st.get_proposal i = .ok p) :
    ¬ (p.canceled = true ∧ p.executed = true) := by
  rintro ⟨h1, h2⟩
  have := ((reach_pok h i p (get_proposal_ok.1 hp)).exec_ h2).1
  rw [h1] at this; simp at this

/-- Proposal 1 is canceled. -/
def cancelled : World := (runs demoJ "me" demo [.call "operator" "operator" 0 (11 * MS) (.cancel_proposal 1)]).get
  (by decide +kernel)

example : Reach demoJ "me" cancelled ∧ (cancelled.st.get_proposal_state 99 1).getOr .draft = .canceled :=
  ⟨demo_reach.steps (steps_of_runs (Option.some_get _).symm), by decide +kernel⟩

/-! ## C54 -/

/-- C54: basis points stay within 100 %. -/
theorem C54_floor {w : World} (h : Reach J me w) : w.st.get_quorum_floor ≤ 10000 := by
  refine h.state_inv (fun s => s.quorum_floor ≤ 10000) ?_ ?_
  · intro w h; exact h.empty.2.2.2.2.1
  · intro s c k s' hs hc
    cases hc with
    | config _ _ _ _ hq => exact hq hs
    | started => exact hs
    | created => exact hs
    | canceled => exact hs
    | edited => exact hs
    | voted => exact hs
    | unvoted => exact hs
    | executed => exact hs

/-- C54: whenever a step sets or changes the quorum of a proposal, it is the answer to a start, and the quorum is the
configured share of the total it reports, rounded down, hence at most the total. -/
theorem C54_quorum {w w' : World} (h : Reach J me w) (hs : Step J me w w') (hcap : w'.st.proposals.len < 2 ^ 32)
    {i : Nat} {p p' : Proposal} (hp : w.st.get_proposal i = .ok p) (hp' : w'.st.get_proposal i = .ok p')
    (hne : p'.v_power_quorum_to_reach ≠ p.v_power_quorum_to_reach) :
    ∃ q ts b total, w'.log = .replied q ts (.successful b) true :: w.log ∧ q ∈ w.pending ∧
      q.callback = .start_voting_period_callback i ∧ J.read_total b = some total ∧
      p'.v_power_quorum_to_reach = some (total * w.st.get_quorum_floor / 10000) ∧
      total * w.st.get_quorum_floor / 10000 ≤ total := by
  simp only [State.get_proposal, get_proposal_ok] at hp hp'
  obtain ⟨p2, hp2, he⟩ := hs.evolves h hcap hp
  rw [hp'] at hp2; cases hp2
  have hf := C54_floor h
  rcases he with rfl | ⟨c, k, _, hres, hl, he, _⟩ | ⟨q, ts, r, hq, hl, he, _⟩
  · exact absurd rfl hne
  · cases he with
    | started hb => rw [hres] at hb; simp at hb
    | same => exact absurd rfl hne
    | canceled => exact absurd rfl hne
    | edited => exact absurd rfl hne
    | executed => exact absurd rfl hne
  · generalize hk : q.callback = k at he
    cases he with
    | @started _ _ b total hb ht hfit hq' =>
      have : r = .successful b := by simpa [replyCtx] using hb
      subst this
      refine ⟨q, ts, b, total, hl, hq, hk, ht, ?_, ?_⟩
      · simp only [State.get_quorum_floor, Nat.div_div_eq_div_mul]
      · refine Nat.le_trans (Nat.div_le_div_right (Nat.mul_le_mul_left _ hf)) ?_
        rw [Nat.mul_div_cancel _ (by decide)]
    | same => exact absurd rfl hne
    | canceled => exact absurd rfl hne
    | edited => exact absurd rfl hne
    | executed => exact absurd rfl hne

example : (prop demo 0).v_power_quorum_to_reach = some (10240 * 3000 / 10000) ∧
    (prop demo 1).v_power_quorum_to_reach = none := by decide +kernel

/-! ## C55 -/

/-- C55, as long as the for and abstain votes together fit `u128`: `get_proposal_state` returns the documented state.
Missing: beyond that it panics (`C55_false`). -/
theorem C55_partial {w : World} (h : Reach J me w) {i : Nat} {p : Proposal} (hp : w.st.get_proposal i = .ok p)
    (now : Nat) (hfit : (w.st.get_proposal_votes i).for_votes + (w.st.get_proposal_votes i).abstain_votes ≤ U128_MAX) :
    w.st.get_proposal_state now i = .ok (stateOf p (w.st.get_proposal_votes i) now) := by
  simp only [State.get_proposal, get_proposal_ok] at hp
  have hok := reach_pok h i p hp
  have hg : w.st.internal_get_proposal i = .ok p := get_proposal_ok.2 hp
  simp only [State.get_proposal_state, hg, stateOf, bind, Except.bind, pure, Except.pure]
  by_cases h1 : p.executed = true
  · simp [h1]
  by_cases h2 : p.canceled = true
  · simp [h1, h2]
  by_cases h3 : p.draft = true
  · simp [h1, h2, h3]
  simp only [Bool.not_eq_true] at h1 h2 h3
  obtain ⟨t, ht⟩ : ∃ t, p.vote_start_timestamp = some t := by
    cases hs : p.vote_start_timestamp with
    | some t => exact ⟨t, rfl⟩
    | none => rw [hok.draft_.2 hs] at h3; simp at h3
  obtain ⟨-, e, he, -⟩ := hok.window t ht
  obtain ⟨q, hq⟩ : ∃ q, p.v_power_quorum_to_reach = some q := by
    cases hs : p.v_power_quorum_to_reach with
    | some t => exact ⟨t, rfl⟩
    | none => rw [hok.quorum.1 hs] at ht; simp at ht
  have hv : w.st.internal_proposal_is_on_voting now i = .ok (decide (t ≤ now ∧ now ≤ e)) := by
    simp only [State.internal_proposal_is_on_voting, hg, bind, Except.bind, ht, he, expect, h1, h2, h3, pure,
      Except.pure]
    by_cases hle : t ≤ now <;> simp [hle]
  have ha : w.st.internal_proposal_is_active now i = .ok (decide (now ≤ t)) := by
    simp only [State.internal_proposal_is_active, hg, bind, Except.bind, ht, h1, h2, h3, pure, Except.pure]
    simp
  have hqr : w.st.internal_is_quorum_reached i = .ok (decide (q ≤ (w.st.get_proposal_votes i).for_votes +
      (w.st.get_proposal_votes i).abstain_votes)) := by
    simp only [State.internal_is_quorum_reached, hg, bind, Except.bind, hq, expect, pure, Except.pure, addU128, addMax]
    rw [if_pos]
    · rfl
    · exact hfit
  simp only [h1, h2, h3, hv, ha, hqr, ht, he, hq, Option.getD_some, Bool.false_eq_true, if_false, decide_eq_true_eq,
    State.get_proposal_vote_succeeded, Bool.and_eq_true]
  split
  · rfl
  · split
    · rfl
    · simp only [State.get_proposal_votes]
      by_cases hb : q ≤ (w.st.internal_get_proposal_vote i).for_votes +
          (w.st.internal_get_proposal_vote i).abstain_votes ∧
          (w.st.internal_get_proposal_vote i).against_votes < (w.st.internal_get_proposal_vote i).for_votes
      · exact (if_pos hb).trans (congrArg Except.ok (if_pos hb).symm)
      · exact (if_neg hb).trans (congrArg Except.ok (if_neg hb).symm)

example : Reach demoJ "me" demo ∧ stateOf (prop demo 0) (demo.st.get_proposal_votes 0) 10 = .votingProcess ∧
    stateOf (prop demo 0) (demo.st.get_proposal_votes 0) 300007 = .rejected ∧
    stateOf (prop demo 1) (demo.st.get_proposal_votes 1) 10 = .draft := ⟨demo_reach, by decide +kernel⟩

/-- A reply that reports `2^128 - 1`. -/
def huge : Reply := .successful (List.replicate 16 255)

/-- For and abstain votes of `2^128 - 1` each. -/
def overfull : World := (runs demoJ "me" demo [.call "carol" "carol" 0 (11 * MS) (.vote_proposal 0 .abstain "a"),
  .reply 0 huge (12 * MS)]).get (by decide +kernel)

theorem overfull_reach : Reach demoJ "me" overfull := demo_reach.steps (steps_of_runs (Option.some_get _).symm)

/-- C55 is false of the code: after the end, `get_proposal_state` of an existing proposal panics when the for and
abstain votes together do not fit. -/
theorem C55_false : ∃ (J : Json) (me : AccountId) (w : World), Reach J me w ∧
    Res.isOk (w.st.get_proposal 0) = true ∧ Res.isOk (w.st.get_proposal_state 400000 0) = false :=
  ⟨demoJ, "me", overfull, overfull_reach, by decide +kernel⟩

/-! ## C56, C57 -/

/-- C56, what holds: a proposal becomes executed only by `process_voting_status`, called by admin or operator in
exactly the last millisecond of the voting, with the quorum reached.
Missing: the majority is not checked (`C56_false`). -/
theorem C56_partial {w w' : World} (h : Reach J me w) (hs : Step J me w w') (hcap : w'.st.proposals.len < 2 ^ 32)
    {i : Nat} {p p' : Proposal} (hp : w.st.get_proposal i = .ok p) (hp' : w'.st.get_proposal i = .ok p')
    (h0 : p.executed = false) (h1 : p'.executed = true) :
    ∃ c out q, w'.log = .call c (.process_voting_status i) out :: w.log ∧
      (w.st.admin_id = c.signer ∨ w.st.operator_id = c.signer) ∧ p.vote_end_timestamp = some c.now ∧
      p.v_power_quorum_to_reach = some q ∧
      q ≤ (w.st.get_proposal_votes i).for_votes + (w.st.get_proposal_votes i).abstain_votes ∧
      p.canceled = false ∧ p.draft = false := by
  simp only [State.get_proposal, get_proposal_ok] at hp hp'
  obtain ⟨p2, hp2, he⟩ := hs.evolves h hcap hp
  rw [hp'] at hp2; cases hp2
  rcases he with rfl | ⟨c, k, out, hres, hl, he, _⟩ | ⟨q, ts, r, hq, hl, he, _⟩
  · rw [h0] at h1; simp at h1
  · cases he with
    | executed ho he hq hr hs =>
      obtain ⟨_, _, _, _, _, _, f1, f2, f3⟩ := ho
      exact ⟨c, out, _, hl, hs, he, hq, hr, f2, f1⟩
    | started => simp only at h1; rw [h0] at h1; simp at h1
    | same => rw [h0] at h1; simp at h1
    | canceled => simp only at h1; rw [h0] at h1; simp at h1
    | edited => simp only at h1; rw [h0] at h1; simp at h1
  · have hpr := pending_private h hq
    generalize hk : q.callback = k at he hpr
    cases he with
    | executed => simp [Call.is_private] at hpr
    | started => simp only at h1; rw [h0] at h1; simp at h1
    | same => rw [h0] at h1; simp at h1
    | canceled => simp only at h1; rw [h0] at h1; simp at h1
    | edited => simp only at h1; rw [h0] at h1; simp at h1

/-- Dave votes against with a large power, Carol for; the quorum is reached, the majority is against, and the
proposal is processed in the last millisecond. -/
def outvoted : World := (runs demoJ "me" demo [.call "dave" "dave" 0 (11 * MS) (.vote_proposal 0 .against "n"),
  .reply 0 (tells 99 0) (12 * MS), .call "carol" "carol" 0 (13 * MS) (.vote_proposal 0 .for_ "y"),
  .reply 0 (tells 8 0) (14 * MS),
  .call "operator" "operator" 0 (300006 * MS) (.process_voting_status 0)]).get (by decide +kernel)

theorem outvoted_reach : Reach demoJ "me" outvoted := demo_reach.steps (steps_of_runs (Option.some_get _).symm)

/-- C56 is false of the code: an executed proposal with more votes against than for. -/
theorem C56_false : ∃ (J : Json) (me : AccountId) (w : World), Reach J me w ∧ (prop w 0).executed = true ∧
    (w.st.get_proposal_votes 0).for_votes = 4096 ∧ (w.st.get_proposal_votes 0).against_votes = 26369 :=
  ⟨demoJ, "me", outvoted, outvoted_reach, by decide +kernel⟩

/-- C57, what holds: in exactly the last millisecond of the voting, `process_voting_status` of admin or operator marks
a proposal with quorum executed.  Missing: afterwards it does nothing (`C57_never`, `C57_false`). -/
theorem C57_partial {w : World} {c : Ctx} {i q : Nat} {p : Proposal} (hr : i ≤ U32_MAX) (hd : c.deposit = 0)
    (hauth : w.st.admin_id = c.signer ∨ w.st.operator_id = c.signer) (hp : w.st.get_proposal i = .ok p)
    (hv : OnVoting p c.now) (hend : p.vote_end_timestamp = some c.now) (hq : p.v_power_quorum_to_reach = some q)
    (hfit : (w.st.get_proposal_votes i).for_votes + (w.st.get_proposal_votes i).abstain_votes ≤ U128_MAX)
    (hreach : q ≤ (w.st.get_proposal_votes i).for_votes + (w.st.get_proposal_votes i).abstain_votes) :
    ∃ s', exec J w.st c (.process_voting_status i) = .ok (s', []) ∧
      s'.get_proposal i = .ok { p with executed := true } := by
  refine ⟨{ w.st with proposals := w.st.proposals.insert i { p with executed := true } }, ?_, ?_⟩
  · refine exec_ok.2 ⟨.inr hd, by simp [Call.is_private], by simpa [Call.in_range] using hr, ?_⟩
    simp only [run, quiet_ok, and_true]
    have h1 : w.st.internal_proposal_is_on_voting c.now i = .ok true := on_voting_true.2 ⟨p, get_proposal_ok.1 hp, hv⟩
    have hp' : w.st.internal_get_proposal i = .ok p := hp
    have h2 : w.st.internal_is_quorum_reached i = .ok true := by
      simp only [State.internal_is_quorum_reached, hp', bind, Except.bind, hq, expect, pure, Except.pure, addU128, addMax]
      rw [if_pos]
      · simp only [Except.ok.injEq, decide_eq_true_eq]; exact hreach
      · exact hfit
    have h3 : w.st.assert_only_operator c = .ok () := by simp [State.assert_only_operator, hauth]
    simp [State.process_voting_status, h1, h2, h3, hp', hend, expect, bind, Except.bind, pure, Except.pure]
  · simp [State.get_proposal, get_proposal_ok]

/-- C57: after the last millisecond of the voting, `process_voting_status` never changes anything. -/
theorem C57_never {w : World} {c : Ctx} {i e : Nat} {p : Proposal} (hp : w.st.get_proposal i = .ok p)
    (he : p.vote_end_timestamp = some e) (hlate : e < c.now) {s' : State} {out : List Promise}
    (hx : exec J w.st c (.process_voting_status i) = .ok (s', out)) : s' = w.st := by
  obtain ⟨-, -, -, hr⟩ := exec_ok.1 hx
  simp only [run, quiet_ok, State.process_voting_status, bind_ok_iff] at hr
  obtain ⟨⟨-, -, b, hb, hr⟩, -⟩ := hr
  split at hr
  · cases hr; rfl
  · rename_i hbt
    exfalso
    simp only [Bool.not_eq_false] at hbt
    subst hbt
    obtain ⟨p1, hp1, t, e', -, he', -, hle, -⟩ := on_voting_true.1 hb
    rw [get_proposal_ok.1 hp] at hp1; cases hp1
    rw [he] at he'; cases he'
    omega

/-- A proposal with quorum and majority, just after the end. -/
def passed : World := (runs demoJ "me" demo [.call "carol" "carol" 0 (13 * MS) (.vote_proposal 0 .for_ "y"),
  .reply 0 (tells 8 0) (14 * MS), .tick (300007 * MS)]).get (by decide +kernel)

theorem passed_reach : Reach demoJ "me" passed := demo_reach.steps (steps_of_runs (Option.some_get _).symm)

/-- C57 is false of the code: an accepted proposal is never marked executed once the last millisecond is over. -/
theorem C57_false : ∃ (J : Json) (me : AccountId) (w : World), Reach J me w ∧
    (w.st.get_proposal_state (w.clock / 1000000) 0).getOr .draft = .accepted ∧
    ∀ c s' out, w.clock ≤ c.timestamp → exec J w.st c (.process_voting_status 0) = .ok (s', out) → s' = w.st := by
  refine ⟨demoJ, "me", passed, passed_reach, by decide +kernel, ?_⟩
  intro c s' out hc hx
  refine C57_never (p := prop passed 0) (e := 300006) (by decide +kernel) (by decide +kernel) ?_ hx
  have h1 : passed.clock = 300007 * MS := by decide +kernel
  rw [h1] at hc
  unfold Ctx.now MS at *
  omega

/-! ## C58 -/

/-- Who may make a call. -/
def Authorized (s : State) (c : Ctx) : Call → Prop
  | .new_ .. => False
  | .update_open_for_new_mpips .. | .update_operator_role .. | .update_admin_role .. | .pay_to_account ..
  | .update_meta_vote_contract_address .. => c.signer = s.admin_id
  | .update_voting_period .. | .update_min_meta_amount .. | .update_min_voting_power_amount ..
  | .update_mpip_storage_near .. | .update_quorum_floor .. | .process_voting_status .. =>
    c.signer = s.admin_id ∨ c.signer = s.operator_id
  | .start_voting_period i | .cancel_proposal i =>
    ∃ p, s.get_proposal i = .ok p ∧ (c.signer = s.operator_id ∨ c.signer = p.creator_id)
  | .update_proposal i _ => ∃ p, s.get_proposal i = .ok p ∧ c.signer = p.creator_id
  | .start_voting_period_callback .. | .create_proposal_callback .. | .vote_proposal_callback .. =>
    c.predecessor = c.current
  | .create_proposal .. | .vote_proposal .. | .remove_vote_proposal .. => True

/-- C58: privileged calls need the right signer (or, for callbacks, the contract itself). -/
theorem C58_auth {s s' : State} {c : Ctx} {k : Call} {out : List Promise} (h : exec J s c k = .ok (s', out)) :
    Authorized s c k := by
  obtain ⟨-, hpriv, -, hr⟩ := exec_ok.1 h
  cases k <;> simp only [run, quiet_ok, sends_ok] at hr <;> simp only [Authorized]
  case new_ => simp [new] at hr
  case start_voting_period_callback => exact hpriv rfl
  case create_proposal_callback => exact hpriv rfl
  case vote_proposal_callback => exact hpriv rfl
  all_goals
    obtain ⟨hr, -⟩ := hr
    simp only [State.update_open_for_new_mpips, State.update_operator_role, State.update_admin_role,
      State.pay_to_account, State.update_voting_period, State.update_min_meta_amount,
      State.update_min_voting_power_amount, State.update_mpip_storage_near, State.update_quorum_floor,
      State.start_voting_period, State.update_meta_vote_contract_address, State.cancel_proposal, State.update_proposal,
      State.process_voting_status, State.assert_only_admin, State.assert_only_operator, operator_or_creator_ok,
      creator_ok, bind_ok_iff, require_ok_iff] at hr
    obtain ⟨_, hr, _⟩ := hr
    try simp only [State.get_proposal, get_proposal_ok]
    first
      | exact hr.symm
      | exact hr.imp Eq.symm Eq.symm
      | (obtain ⟨p, hp, hs⟩ := hr; exact ⟨p, hp, hs.imp Eq.symm Eq.symm⟩)
      | (obtain ⟨p, hp, hs⟩ := hr; exact ⟨p, hp, hs.symm⟩)

/-- C58: money only leaves by `pay_to_account`. -/
theorem C58_pay {s s' : State} {c : Ctx} {k : Call} {out : List Promise} (h : exec J s c k = .ok (s', out))
    {a : AccountId} {n : Nat} (hpay : .pay a n ∈ out) : k = .pay_to_account n a ∧ c.signer = s.admin_id := by
  have hauth := C58_auth h
  obtain ⟨-, hpriv, -, hr⟩ := exec_ok.1 h
  cases k <;> simp only [run, quiet_ok, sends_ok] at hr <;> obtain ⟨-, rfl⟩ := hr <;> simp at hpay
  obtain ⟨rfl, rfl⟩ := hpay
  exact ⟨rfl, hauth⟩

example : Res.isOk (exec demoJ demo.st ⟨"me", "x", "admin", 0, 11 * MS, []⟩ (.update_admin_role "new")) = true ∧
    Res.isOk (exec demoJ demo.st ⟨"me", "x", "operator", 0, 11 * MS, []⟩ (.update_admin_role "new")) = false ∧
    Res.isOk (exec demoJ demo.st ⟨"me", "x", "admin", 0, 11 * MS, []⟩ (.cancel_proposal 1)) = false := by
  decide +kernel

/-! ## C59 -/

/-- C59: the number of proposals only grows, by one, when the answer to a `create_proposal` arrives that reports at
least the threshold of locked power; that call was made while the contract was open, with the deposit attached; the
creator is the signer. -/
theorem C59_created {w w' : World} (h : Reach J me w) (hs : Step J me w w')
    (hgrow : w'.st.proposals.len ≠ w.st.proposals.len) :
    ∃ p ts r t, p ∈ w.pending ∧ w'.log = .replied p ts r true :: w.log ∧ p.callback = .create_proposal_callback t ∧
      w.st.get_proposal_threshold ≤ replyPower J r ∧ w'.st.proposals.len = w.st.proposals.len + 1 ∧
      w'.st.get_proposal w.st.proposals.len =
        .ok ⟨w.st.proposals.len, t, p.signer, none, none, true, false, false, none⟩ ∧
      (∀ i q, w.st.get_proposal i = .ok q → w'.st.get_proposal i = .ok q) ∧
      ∃ w0 c s1 out, Reach J me w0 ∧ exec J w0.st c (.create_proposal t) = .ok (s1, out) ∧
        w0.st.open_for_new_mpips = true ∧ w0.st.mpip_storage_near ≤ c.deposit ∧ c.signer = p.signer ∧
        p.query = .get_all_locking_positions c.predecessor := by
  have hd := reach_dense h
  have hle := hs.len_le h
  rcases hs.cases_change with he | ⟨c, k, out, h1, hres, h2, h3, he, hlog⟩ | ⟨p, ts, r, out, hp, h2, h3, he, hlog⟩
  · rw [he] at hgrow; exact absurd rfl hgrow
  · rcases exec_proposals hd he with ⟨hd', ⟨e, -⟩ | ⟨t, b, l, -, hb, -⟩ | e⟩
    · exact absurd e hgrow
    · rw [hres] at hb; simp at hb
    · have := hd'.2; unfold CAP at *; omega
  · rcases exec_proposals hd he with ⟨hd', ⟨e, -⟩ | ⟨t, b, l, hk, hb, hl, hmax, hth, hlt, e1, e2, e3, e4⟩ | e⟩
    · exact absurd e hgrow
    · have hrb : r = .successful b := by simpa [replyCtx] using hb
      subst hrb
      refine ⟨p, ts, _, t, hp, hlog, hk, ?_, e1, get_proposal_ok.2 e2, ?_, ?_⟩
      · simp only [replyPower, hl]; exact hth
      · intro i q hq
        exact get_proposal_ok.2 (e3 i q (get_proposal_ok.1 hq))
      · obtain ⟨w0, c, k, s1, o1, g1, g2, g3, g4, g5, g6⟩ := (pending_origin h p hp).ex
        cases g5 with
        | create ho hdep =>
          simp only [Call.create_proposal_callback.injEq] at hk
          subst hk
          exact ⟨w0, c, s1, o1, g1, g4, ho, hdep, rfl, rfl⟩
        | start => simp at hk
        | vote => simp at hk
    · have := hd'.2; unfold CAP at *; omega

/-- C59: when the contract is closed, or the deposit is too small, `create_proposal` is rejected. -/
theorem C59_rejected {s : State} {c : Ctx} {t : Content} (h : s.open_for_new_mpips = false ∨ c.deposit < s.mpip_storage_near) :
    ∀ r, exec J s c (.create_proposal t) ≠ .ok r := by
  rintro ⟨s', out⟩ hx
  obtain ⟨-, -, -, hr⟩ := exec_ok.1 hx
  simp only [run, sends_ok, State.create_proposal, bind_ok_iff, State.assert_open_for_new_mpips,
    State.assert_proposal_storage_is_covered, require_ok_iff] at hr
  obtain ⟨⟨-, ho, -, hd, -⟩, -⟩ := hr
  rcases h with h | h
  · rw [ho] at h; simp at h
  · omega

/-- Just before the answer that creates proposal 1. -/
def creating : World := (runs demoJ "me" demo0 (demoActs.take 3)).get (by decide +kernel)
/-- Just after it. -/
def creating' : World := (runs demoJ "me" creating [.reply 0 (tells 8 0) (4 * MS)]).get (by decide +kernel)

example : Reach demoJ "me" creating ∧ Step demoJ "me" creating creating' ∧
    creating'.st.proposals.len ≠ creating.st.proposals.len :=
  ⟨reach_of_runs demo0_init (Option.some_get _).symm, step_of_runs (Option.some_get _).symm, by decide +kernel⟩

end Verif.Mpip
