import Verif.Mpip.Guard
import Verif.MetaVote.ViewLemmas

/-!
# C46–C50, C67: votes of the mpip contract
-/

namespace Verif.Mpip

open Verif

variable {J : Json} {me : AccountId}

/-! ## What the views show -/

theorem tally_view (s : State) (i : Nat) (t : VoteType) : (s.get_proposal_votes i).tally t = s.tally i t := by
  cases t <;> rfl

theorem listed_view (s : State) (i : Nat) (t : VoteType) :
    listed (s.get_proposal_votes i).has_voted t = s.recorded i t := rfl

theorem slot_view (s : State) (i : Nat) (v : AccountId) (x : Vote) :
    (v, x) ∈ (s.get_proposal_votes i).has_voted ↔ s.slot i v = some x := UMap.get_eq_some_iff.symm

theorem has_voted_view (s : State) (i : Nat) (v : AccountId) : s.has_voted v i = (s.record i v).isSome :=
  has_voted_eq

theorem get_my_vote_view (s : State) (i : Nat) (v : AccountId) : s.get_my_vote v i = .ok (s.record i v) := by
  unfold State.get_my_vote State.internal_get_voter_vote
  rw [has_voted_eq]
  unfold State.record
  cases h1 : s.voters.get v with
  | none => simp [pure, Except.pure]
  | some x =>
    cases h2 : x.votes.get i with
    | none => simp [h2, pure, Except.pure]
    | some y => simp [h2, expect, bind, Except.bind, pure, Except.pure]

/-! ## C46 -/

/-- C46, every interleaving: the tallies are what the accepted votes added minus what the accepted removals took
back. -/
theorem C46_exact {w : World} (h : Reach J me w) (i : Nat) (t : VoteType) :
    (w.st.get_proposal_votes i).tally t + debited J (fun _ => true) w.log i t =
      credited J (fun _ => true) w.log i t := by
  rw [tally_view]; exact (reach_replay h).2 i t

/-- C46, every interleaving: the tallies never fall below the listed votes. -/
theorem C46_at_least {w : World} (h : Reach J me w) (i : Nat) (t : VoteType) :
    listed (w.st.get_proposal_votes i).has_voted t ≤ (w.st.get_proposal_votes i).tally t := by
  rw [tally_view, listed_view]; exact (reach_vote_inv h).cover i t

/-- C46 for histories in which nobody votes on a proposal while an earlier vote of theirs on it is in flight: the
tallies equal the listed votes.  Missing: the other histories, for which it is false (`C46_false`). -/
theorem C46_partial {w : World} (h : ReachG J me NoOverlap w) (i : Nat) (t : VoteType) :
    (w.st.get_proposal_votes i).tally t = listed (w.st.get_proposal_votes i).has_voted t := by
  rw [tally_view, listed_view, (reachG_once h).exact_]

/-- A guarded run of the demo. -/
theorem demo_once : ReachG demoJ "me" NoOverlap demo :=
  reachG_of_runs (g := noOverlap) (l := demoActs) noOverlap_sound (.init demo0_init) (by
    have : (runsG demoJ "me" noOverlap demo0 demoActs).isSome = true := by decide +kernel
    rw [show demo = (runsG demoJ "me" noOverlap demo0 demoActs).get this from rfl]
    exact (Option.some_get _).symm)

example : ReachG demoJ "me" NoOverlap demo ∧ (demo.st.get_proposal_votes 0).for_votes = 2048 ∧
    (demo.st.get_proposal_votes 0).against_votes = 1025 := ⟨demo_once, by decide +kernel⟩

example : Reach demoJ "me" demo ∧ credited demoJ (fun _ => true) demo.log 0 .for_ = 2048 :=
  ⟨demo_reach, by decide +kernel⟩

/-- Carol votes twice before the first answer arrives. -/
def twice : World := (runs demoJ "me" demo [.call "carol" "carol" 0 (11 * MS) (.vote_proposal 0 .for_ "a"),
  .call "carol" "carol" 0 (11 * MS) (.vote_proposal 0 .for_ "b"), .reply 0 (tells 4 0) (12 * MS),
  .reply 0 (tells 4 0) (12 * MS)]).get (by decide +kernel)

theorem twice_reach : Reach demoJ "me" twice := demo_reach.steps (steps_of_runs (Option.some_get _).symm)

/-- C46 is false of the code: two votes of the same voter in flight make the tally larger than the listed votes. -/
theorem C46_false : ¬ ∀ (J : Json) (me : AccountId) (w : World), Reach J me w → ∀ i t,
    (w.st.get_proposal_votes i).tally t = listed (w.st.get_proposal_votes i).has_voted t := by
  intro h
  have h1 : (twice.st.get_proposal_votes 0).tally .for_ ≠ listed (twice.st.get_proposal_votes 0).has_voted .for_ := by
    decide +kernel
  exact h1 (h _ _ _ twice_reach 0 .for_)

/-! ## C47 -/

/-- What the listed vote of `v` is worth for type `t`. -/
def standing (l : List (AccountId × Vote)) (v : AccountId) (t : VoteType) : Nat :=
  listed (l.filter (fun x => decide (x.1 = v))) t

theorem standing_share (s : State) (i : Nat) (v : AccountId) (t : VoteType) :
    standing (s.get_proposal_votes i).has_voted v t = s.share i v t := by
  have key : ∀ l : List (AccountId × Vote), (l.map Prod.fst).Nodup →
      standing l v t = match findL l v with
        | some x => if x.vote_type = t then x.voting_power else 0
        | none => 0 := by
    intro l
    induction l with
    | nil => intro _; rfl
    | cons p l ih =>
      obtain ⟨u, x⟩ := p
      intro hn
      simp only [List.map_cons, List.nodup_cons] at hn
      by_cases hu : u = v
      · subst hu
        have h0 : l.filter (fun y => decide (y.1 = u)) = [] := by
          rw [List.filter_eq_nil_iff]
          rintro ⟨a, b⟩ hab
          simp only [decide_eq_true_eq]
          rintro rfl
          exact hn.1 (List.mem_map_of_mem (f := Prod.fst) hab)
        simp [standing, findL, listed, h0]
      · have h1 := ih hn.2
        simp only [standing, findL, hu, if_false, List.filter_cons, decide_false] at h1 ⊢
        simpa using h1
  exact key _ (s.internal_get_proposal_vote i).has_voted.nodup

/-- C47 for histories without overlapping votes: everything the votes of `v` have added to a tally, minus what the
removals of `v` took back, is the power of the one vote listed for `v`.  Missing: the other histories, for
which it is false (`C47_false`). -/
theorem C47_partial {w : World} (h : ReachG J me NoOverlap w) (i : Nat) (v : AccountId) (t : VoteType) :
    credited J (fun a => decide (a = v)) w.log i t =
      debited J (fun a => decide (a = v)) w.log i t + standing (w.st.get_proposal_votes i).has_voted v t := by
  rw [standing_share, ← (reachG_once h).once i v t, Nat.add_comm]

/-- At most one vote is listed for each voter. -/
theorem C47_one_listed (s : State) (i : Nat) : ((s.get_proposal_votes i).has_voted.map Prod.fst).Nodup :=
  (s.internal_get_proposal_vote i).has_voted.nodup

example : ReachG demoJ "me" NoOverlap demo ∧ credited demoJ (fun a => decide (a = "bob")) demo.log 0 .against = 1025 :=
  ⟨demo_once, by decide +kernel⟩

/-- C47 is false of the code: Carol, with power 1024, has added 2048 to the tally and removed nothing. -/
theorem C47_false : ∃ (J : Json) (me : AccountId) (w : World), Reach J me w ∧
    credited J (fun a => decide (a = "carol")) w.log 0 .for_ = 2048 ∧
    debited J (fun a => decide (a = "carol")) w.log 0 .for_ = 0 ∧
    w.st.get_my_vote "carol" 0 = .ok (some ⟨0, .for_, 1024, "b"⟩) ∧
    (w.st.get_proposal_votes 0).for_votes = (demo.st.get_proposal_votes 0).for_votes + 2048 :=
  ⟨demoJ, "me", twice, twice_reach, by decide +kernel, by decide +kernel, by
    rw [get_my_vote_view]
    have : twice.st.record 0 "carol" = some ⟨0, .for_, 1024, "b"⟩ := by decide +kernel
    rw [this], by decide +kernel⟩

/-! ## C48 -/

/-- C48: the two sides list the same votes. -/
theorem C48_agree {w : World} (h : Reach J me w) (i : Nat) (v : AccountId) :
    (∃ o, w.st.get_my_vote v i = .ok o ∧ ∀ x, o = some x ↔ (v, x) ∈ (w.st.get_proposal_votes i).has_voted) ∧
    (w.st.has_voted v i = true ↔ ∃ x, (v, x) ∈ (w.st.get_proposal_votes i).has_voted) := by
  have hi := reach_vote_inv h
  refine ⟨⟨_, get_my_vote_view _ _ _, ?_⟩, ?_⟩
  · intro x; rw [hi.agree, slot_view]
  · simp only [has_voted_view, slot_view, hi.agree, Option.isSome_iff_exists]

/-- C48: the standing vote is the last counted one not removed since. -/
theorem C48_last {w : World} (h : Reach J me w) (i : Nat) (v : AccountId) :
    w.st.get_my_vote v i = .ok (recordOf J w.log i v) := by
  rw [get_my_vote_view, (reach_vote_inv h).agree, (reach_replay h).1]

/-- C48: `get_voter` lists exactly the votes of the voter, one per proposal, each with the id of its proposal. -/
theorem C48_voter {w : World} (h : Reach J me w) (v : AccountId) :
    (∀ x, x ∈ w.st.get_voter v ↔ (v, x) ∈ (w.st.get_proposal_votes x.mpip_id).has_voted) ∧
    ((w.st.get_voter v).map (·.mpip_id)).Nodup := by
  have hi := reach_vote_inv h
  have hid : ∀ p ∈ (w.st.internal_get_voter v).votes.entries, p.2.mpip_id = p.1 := by
    rintro ⟨i, x⟩ hp
    have := UMap.get_eq_some_iff.2 hp
    rw [voter_votes, hi.agree] at this
    exact (hi.good _ _ _ this).1
  refine ⟨?_, ?_⟩
  · intro x
    rw [slot_view, ← hi.agree, ← voter_votes, UMap.get_eq_some_iff]
    simp only [State.get_voter, UMap.values, List.mem_map]
    constructor
    · rintro ⟨⟨i, y⟩, hp, rfl⟩
      rw [show (i, y).2 = y from rfl, show y.mpip_id = i from hid _ hp]; exact hp
    · intro hp; exact ⟨_, hp, rfl⟩
  · simp only [State.get_voter, UMap.values, List.map_map]
    have : (w.st.internal_get_voter v).votes.entries.map ((fun x => x.mpip_id) ∘ Prod.snd) =
      (w.st.internal_get_voter v).votes.entries.map Prod.fst := List.map_congr_left (fun p hp => hid p hp)
    rw [this]
    exact (w.st.internal_get_voter v).votes.nodup

/-- C48: `get_total_voters` is the number of accounts with at least one vote. -/
theorem C48_voters {w : World} (h : Reach J me w) : ∃ l : List AccountId, l.Nodup ∧
    w.st.get_total_voters = l.length ∧ ∀ v, v ∈ l ↔ ∃ i, w.st.has_voted v i = true := by
  have hi := reach_vote_inv h
  refine ⟨w.st.voters.keys, w.st.voters.nodup, by simp [State.get_total_voters, UMap.len, UMap.keys], ?_⟩
  intro v
  simp only [has_voted_view, UMap.mem_keys_iff, State.record]
  constructor
  · rintro ⟨x, hx⟩
    have := hi.nonempty v x hx
    have hne : ¬ ∀ k, x.votes.get k = none := by
      intro h0; rw [UMap.isEmpty_iff_get.2 h0] at this; simp at this
    simp only [not_forall] at hne
    obtain ⟨i, hi⟩ := hne
    exact ⟨i, by simpa [hx, Option.isSome_iff_ne_none] using hi⟩
  · rintro ⟨i, hi⟩
    cases hx : w.st.voters.get v with
    | none => simp [hx] at hi
    | some x => exact ⟨x, rfl⟩

example : Reach demoJ "me" demo ∧ demo.st.has_voted "bob" 0 = true ∧ demo.st.has_voted "carol" 0 = false ∧
    demo.st.get_total_voters = 2 := ⟨demo_reach, by decide +kernel⟩

/-! ## C49 -/

/-- C49: a tally only grows when the answer to a vote arrives that was made, by the voter, in the voting window.
Missing: the window is not checked again when the answer arrives (`C49_false`). -/
theorem C49_partial {w w' : World} (h : Reach J me w) (hs : Step J me w w') {i : Nat} {t : VoteType}
    (hgrow : (w.st.get_proposal_votes i).tally t < (w'.st.get_proposal_votes i).tally t) :
    ∃ p ts r v m, p ∈ w.pending ∧ w'.log = .replied p ts r true :: w.log ∧
      p.callback = .vote_proposal_callback i v t m ∧ p.query = .get_all_locking_positions v ∧
      (w'.st.get_proposal_votes i).tally t = (w.st.get_proposal_votes i).tally t + replyPower J r ∧
      ∃ w0 c s1 out q, Reach J me w0 ∧ exec J w0.st c (.vote_proposal i t m) = .ok (s1, out) ∧
        c.predecessor = v ∧ w0.st.get_proposal i = .ok q ∧ OnVoting q c.now ∧ w0.st.has_voted v i = false ∧
        w0.clock ≤ c.timestamp ∧ c.timestamp ≤ ts := by
  simp only [tally_view] at hgrow ⊢
  rcases hs.votes h with ⟨hv, hr, -, -, -⟩ | ⟨p, ts, r, j, v, t', m, hp, hk, hst, hpos, hmax, hfit, hc1, hc2, hlog⟩ |
    ⟨c, j, x, p, out, -, hp, ho, hx, hle, -, hst, hlog, -⟩
  · rw [(votes_frame hv hr).2.2.1] at hgrow; omega
  · rw [hst, counted_tally] at hgrow ⊢
    by_cases hj : j = i ∧ t' = t
    · obtain ⟨rfl, rfl⟩ := hj
      obtain ⟨w0, c, k, s1, out, h1, h2, h3, h4, h5, h6⟩ := (pending_origin h p hp).ex
      have hclk := h6.clock
      refine ⟨p, ts, r, v, m, hp, hlog, hk, ?_, by simp, ?_⟩
      · cases h5 with
        | vote => simp only [Call.vote_proposal_callback.injEq] at hk; rw [hk.2.1]
        | start => simp at hk
        | create => simp at hk
      · cases h5 with
        | @vote i0 t0 m0 q hq ho hn =>
          simp only [Call.vote_proposal_callback.injEq] at hk
          obtain ⟨rfl, rfl, rfl, rfl⟩ := hk
          refine ⟨w0, c, s1, out, q, h1, h4, rfl, get_proposal_ok.2 hq, ho, ?_, h3, ?_⟩
          · rw [has_voted_view, hn]; rfl
          · simp only at hclk; omega
        | start => simp at hk
        | create => simp at hk
    · rw [if_neg] at hgrow
      · omega
      · simpa using hj
  · rw [hst, uncounted_tally] at hgrow; omega

/-- Carol votes in the window … -/
def late0 : World := (runs demoJ "me" demo [.call "carol" "carol" 0 (11 * MS) (.vote_proposal 0 .for_ "a")]).get
  (by decide +kernel)

/-- … and the answer arrives three hours later, long after the end. -/
def late : World := (runs demoJ "me" late0 [.reply 0 (tells 4 0) (10800000 * MS)]).get (by decide +kernel)

theorem late0_reach : Reach demoJ "me" late0 := demo_reach.steps (steps_of_runs (Option.some_get _).symm)

theorem late_step : Step demoJ "me" late0 late := step_of_runs (Option.some_get _).symm

example : (late0.st.get_proposal_votes 0).tally .for_ < (late.st.get_proposal_votes 0).tally .for_ := by decide +kernel

/-- C49 is false of the code: a vote is counted although the voting window is over (the proposal was
already rejected, and is accepted by it). -/
theorem C49_false : ¬ ∀ (J : Json) (me : AccountId) (w w' : World), Reach J me w → Step J me w w' → ∀ i t,
    (w.st.get_proposal_votes i).tally t < (w'.st.get_proposal_votes i).tally t →
    w.st.get_proposal_state (w'.clock / 1000000) i = .ok .votingProcess := by
  intro h
  have h3 : (late0.st.get_proposal_votes 0).tally .for_ < (late.st.get_proposal_votes 0).tally .for_ := by
    decide +kernel
  have h4 := h _ _ _ _ late0_reach late_step 0 .for_ h3
  have h6 : ((late0.st.get_proposal_state (late.clock / 1000000) 0).getOr .draft) = .votingProcess := by rw [h4]; rfl
  have h7 : ((late0.st.get_proposal_state (late.clock / 1000000) 0).getOr .draft) = .rejected := by decide +kernel
  rw [h7] at h6; simp at h6

example : (late.st.get_proposal_state (late.clock / 1000000) 0).getOr .draft = .accepted := by decide +kernel

/-! ## C50 -/

/-- C50: removing a vote is accepted exactly in the voting window for those who have a vote; it never fails on
arithmetic, and takes exactly that vote back, from its type, on both sides. -/
theorem C50_remove {w : World} (h : Reach J me w) (c : Ctx) (i : Nat) (s' : State) (out : List Promise) :
    exec J w.st c (.remove_vote_proposal i) = .ok (s', out) →
    (∃ p, w.st.get_proposal i = .ok p ∧ OnVoting p c.now) ∧
    ∃ x, w.st.get_my_vote c.predecessor i = .ok (some x) ∧
      (∀ j t, (s'.get_proposal_votes j).tally t + (if i = j ∧ x.vote_type = t then x.voting_power else 0) =
        (w.st.get_proposal_votes j).tally t) ∧
      (∀ j v, s'.get_my_vote v j = if i = j ∧ c.predecessor = v then .ok none else w.st.get_my_vote v j) ∧
      (∀ j v y, (v, y) ∈ (s'.get_proposal_votes j).has_voted ↔
        (v, y) ∈ (w.st.get_proposal_votes j).has_voted ∧ ¬ (i = j ∧ c.predecessor = v)) ∧ out = [] := by
  intro hx
  have hi := reach_vote_inv h
  have hout : out = [] := by
    obtain ⟨-, -, -, hr⟩ := exec_ok.1 hx
    simp only [run, quiet_ok] at hr; exact hr.2
  cases exec_vote_change hx with
  | none _ _ _ h2 => exact absurd rfl (h2 i)
  | @unvoted _ p x hp ho hvd hsl hle =>
    refine ⟨⟨p, get_proposal_ok.2 hp, ho⟩, x, ?_, ?_, ?_, ?_, hout⟩
    · rw [get_my_vote_view, hi.agree, hsl]
    · intro j t
      simp only [tally_view, uncounted_tally]
      by_cases hj : i = j ∧ x.vote_type = t
      · obtain ⟨rfl, rfl⟩ := hj
        simp only [and_self, if_true]; omega
      · simp [hj]
    · intro j v
      rw [get_my_vote_view, get_my_vote_view, uncounted_record]
      split <;> rfl
    · intro j v y
      rw [slot_view, slot_view, uncounted_slot]
      split <;> simp_all

/-- C50: and it is accepted whenever these conditions hold. -/
theorem C50_accepted {w : World} (h : Reach J me w) {c : Ctx} {i : Nat} {p : Proposal} (hd : c.deposit = 0)
    (hr : i ≤ U32_MAX) (hp : w.st.get_proposal i = .ok p) (ho : OnVoting p c.now)
    (hv : w.st.has_voted c.predecessor i = true) :
    ∃ s', exec J w.st c (.remove_vote_proposal i) = .ok (s', []) := by
  have hi := reach_vote_inv h
  rw [has_voted_view] at hv
  have hv' := hv
  rw [hi.agree] at hv'
  obtain ⟨x, hx⟩ := Option.isSome_iff_exists.1 hv'
  have hle : x.voting_power ≤ w.st.tally i x.vote_type := by
    refine Nat.le_trans ?_ (hi.cover i x.vote_type)
    have := UMap.le_sum_of_get (f := fun _ (y : Vote) => if y.vote_type = x.vote_type then y.voting_power else 0) hx
    simpa [State.recorded] using this
  suffices hs : ∃ s', w.st.remove_vote_proposal c i = .ok s' by
    obtain ⟨s', hs⟩ := hs
    exact ⟨s', exec_ok.2 ⟨.inr hd, by simp [Call.is_private], by simpa [Call.in_range] using hr, by
      simp only [run, quiet_ok]; exact ⟨hs, trivial⟩⟩⟩
  simp only [State.remove_vote_proposal, bind_ok_iff, assert_on_voting_ok, State.assert_has_voted, require_ok_iff,
      expect_ok_iff, sub_tally_ok, pure_ok_iff, has_voted_eq]
  exact ⟨_, (), ⟨p, get_proposal_ok.1 hp, ho⟩, (), hv, x, hx, _, ⟨hle, rfl⟩, rfl⟩

/-- C50: a counted vote followed by its removal restores tallies and records. -/
theorem C50_undo {w w' : World} (h : Reach J me w) (hs : Step J me w w') {p : Pending} {ts : Nat} {r : Reply}
    {i : Nat} {v : AccountId} {t : VoteType} {m : String} (hk : p.callback = .vote_proposal_callback i v t m)
    (hlog : w'.log = .replied p ts r true :: w.log) (hnew : w.st.has_voted v i = false) {c : Ctx}
    (hc : c.predecessor = v) {s2 : State} {out : List Promise}
    (hrm : exec J w'.st c (.remove_vote_proposal i) = .ok (s2, out)) :
    (∀ j t, (s2.get_proposal_votes j).tally t = (w.st.get_proposal_votes j).tally t) ∧
    (∀ j u, s2.get_my_vote u j = w.st.get_my_vote u j) := by
  subst hc
  have h' := h.step hs
  obtain ⟨-, x, hx, ht, hm, -⟩ := C50_remove h' c i s2 out hrm
  rw [has_voted_view] at hnew
  obtain ⟨hp, hst, -⟩ := hs.counted hk hlog
  · have hxe : x = ⟨i, t, replyPower J r, m⟩ := by
      rw [get_my_vote_view, hst, counted_record] at hx
      simp at hx; exact hx.symm
    subst hxe
    refine ⟨?_, ?_⟩
    · intro j t'
      have h1 := ht j t'
      simp only [tally_view] at h1 ⊢
      have h2 := counted_tally w.st i j c.predecessor ⟨i, t, replyPower J r, m⟩ t'
      rw [hst] at h1
      simp only at h1 h2
      omega
    · intro j u
      rw [hm]
      split
      · rename_i hju
        obtain ⟨rfl, rfl⟩ := hju
        rw [get_my_vote_view]
        cases hh : w.st.record i c.predecessor with
        | none => rfl
        | some y => rw [hh] at hnew; simp at hnew
      · rename_i hju
        rw [get_my_vote_view, get_my_vote_view, hst, counted_record, if_neg hju]

example : ∃ s', exec demoJ demo.st ⟨"me", "bob", "bob", 0, 11 * MS, []⟩ (.remove_vote_proposal 0) = .ok (s', []) :=
  C50_accepted (p := (demo.st.get_proposal 0).getOr ⟨0, ⟨"", "", "", "", ""⟩, "", none, none, false, false, false, none⟩)
    demo_reach rfl (by decide) (by decide +kernel) ⟨6, 300006, by decide +kernel⟩ (by decide +kernel)

/-! ## C67 -/

/-- C67: if the answer of meta-vote is its `get_all_locking_positions` for the voter, then the power counted for the
vote is the sum of the powers of the positions of the voter that are locked in meta-vote, votes there playing no role. -/
theorem C67_weight {w w' : World} (hs : Step J me w w') {p : Pending} {ts : Nat} {b : List UInt8}
    {i : Nat} {v : AccountId} {t : VoteType} {m : String} (hk : p.callback = .vote_proposal_callback i v t m)
    (hlog : w'.log = .replied p ts (.successful b) true :: w.log) (mv : MetaVote.State) (now : Nat)
    (hans : J.read_positions b = some (mv.get_all_locking_positions now v)) :
    w'.st.get_my_vote v i = .ok (some ⟨i, t, (mv.internal_get_voter v).lockedVp, m⟩) ∧
    (w'.st.get_proposal_votes i).tally t =
      (w.st.get_proposal_votes i).tally t + (mv.internal_get_voter v).lockedVp := by
  have key : ∀ l : List MetaVote.LockingPosition, ∀ n,
      ((l.zipIdx n).map (fun x => x.1.to_json now (some x.2)) |> lockedSum) =
      MetaVote.posSum (fun p => if p.unlocking_started_at = none then p.voting_power else 0) l := by
    intro l
    induction l with
    | nil => intro n; rfl
    | cons a l ih =>
      intro n
      have := ih (n + 1)
      simp only [lockedSum, List.zipIdx_cons, List.map_cons, List.sum_cons, MetaVote.posSum] at this ⊢
      rw [this]
      congr 1
      simp [MetaVote.LockingPosition.to_json, MetaVote.LockingPosition.is_locked]
  have hpow : replyPower J (.successful b) = (mv.internal_get_voter v).lockedVp := by
    simp only [replyPower, hans]
    exact key _ 0
  obtain ⟨-, hst, -⟩ := hs.counted hk hlog
  rw [hpow] at hst
  rw [get_my_vote_view, tally_view, tally_view, hst, counted_record, counted_tally]
  simp

end Verif.Mpip
