import Verif.Spec.MpipBook
import Verif.Props.MpipReplay
import Verif.Props.MpipAccepted

/-!
# The books of mpip: C85
-/

namespace Verif.Mpip

open Verif

variable {J : Json} {s s' : State} {c : Ctx} {k : Call} {out : List Promise} {me : AccountId}

theorem mbook_vote (i : Nat) (v : AccountId) : s.mbook.vote i v = s.record i v := by
  show ((s.voters.get v).map (·.votes)).bind (·.get i) = (s.voters.get v).bind (·.votes.get i)
  cases s.voters.get v <;> rfl

theorem mbook_tally (i : Nat) (t : VoteType) : s.mbook.tally i t = s.tally i t := tally_view _ _ _

theorem mbook_ext {b b' : MBook} (h1 : b.settings = b'.settings) (h2 : b.count = b'.count)
    (h3 : ∀ i, b.proposal i = b'.proposal i) (h4 : ∀ i t, b.tally i t = b'.tally i t)
    (h5 : ∀ i v, b.vote i v = b'.vote i v) : b = b' := by
  cases b; cases b'
  simp only [MBook.mk.injEq]
  exact ⟨h1, h2, funext h3, funext fun i => funext (h4 i), funext fun i => funext (h5 i)⟩

theorem mbook_edit {i : Nat} {p : Proposal} {f : Proposal → Proposal} (hp : s.proposals.get i = some p) :
    State.mbook { s with proposals := s.proposals.insert i (f p) } = s.mbook.edit i f := by
  refine mbook_ext rfl ?_ (fun j => ?_) (fun _ _ => rfl) (fun _ _ => rfl)
  · exact (replace_keys hp).2
  · show (s.proposals.insert i (f p)).get j = if j = i then (s.proposals.get i).map f else s.proposals.get j
    rw [UMap.get_insert, hp]
    by_cases h : i = j
    · subst h; simp
    · rw [if_neg h, if_neg fun e => h e.symm]

theorem edit_same {b : MBook} {i : Nat} {f : Proposal → Proposal} (h : ∀ p, b.proposal i = some p → f p = p) :
    b.edit i f = b := by
  refine mbook_ext rfl rfl (fun j => ?_) (fun _ _ => rfl) (fun _ _ => rfl)
  show (if j = i then (b.proposal i).map f else b.proposal j) = b.proposal j
  split
  · rename_i e; subst e
    cases hp : b.proposal j with
    | none => rfl
    | some p => simp [h p hp]
  · rfl

theorem mbook_process {i : Nat} (hr : s.process_voting_status c i = .ok s') :
    s'.mbook = s.mbook.edit i fun p =>
      if executes p (s.mbook.tally i .for_) (s.mbook.tally i .abstain) c.now then { p with executed := true } else p := by
  simp only [State.process_voting_status, bind_ok_iff] at hr
  obtain ⟨-, -, b, hon, hr⟩ := hr
  simp only [mbook_tally]
  split at hr
  · cases hr
    rename_i hbf
    subst hbf
    rw [edit_same]
    intro p hp
    rw [if_neg]
    intro hx
    have := on_voting_true.2 ⟨p, hp, (executes_iff.1 hx).1⟩
    rw [hon] at this; simp at this
  · rename_i hbt
    simp only [Bool.not_eq_false] at hbt
    subst hbt
    obtain ⟨p, hp, ho⟩ := on_voting_true.1 hon
    simp only [bind_ok_iff, get_proposal_ok, expect_ok_iff] at hr
    obtain ⟨p1, hp1, e, he, hr⟩ := hr
    rw [hp] at hp1; cases hp1
    have hele : c.now ≤ e := by
      obtain ⟨t, e', -, he', -, hle', -⟩ := ho
      rw [he] at he'; cases he'
      exact hle'
    split at hr
    · rename_i hle
      have : e = c.now := by omega
      subst this
      simp only [bind_ok_iff, State.internal_is_quorum_reached, get_proposal_ok, expect_ok_iff, addU128_ok_iff,
        pure_ok_iff] at hr
      obtain ⟨b, ⟨p2, hp2, q, hq, n, ⟨hn, rfl⟩, rfl⟩, hr⟩ := hr
      rw [hp] at hp2; cases hp2
      have hf : (s.internal_get_proposal_vote i).for_votes = s.tally i .for_ := rfl
      have ha : (s.internal_get_proposal_vote i).abstain_votes = s.tally i .abstain := rfl
      rw [hf, ha] at hr
      split at hr
      · rename_i hqr
        cases hr
        rw [← mbook_edit hp]
        have : executes p (s.tally i .for_) (s.tally i .abstain) c.now = true :=
          executes_iff.2 ⟨ho, he, q, hq, by simpa using hqr⟩
        simp only [this, if_true]
      · rename_i hqr
        cases hr
        rw [edit_same]
        intro p' hp'
        rw [show s.mbook.proposal i = some p from hp] at hp'; cases hp'
        rw [if_neg]
        intro hx
        obtain ⟨-, -, q', hq', h1⟩ := executes_iff.1 hx
        rw [hq] at hq'; cases hq'
        exact hqr (by simpa using h1)
    · rename_i hle
      cases hr
      rw [edit_same]
      intro p' hp'
      rw [show s.mbook.proposal i = some p from hp] at hp'; cases hp'
      rw [if_neg]
      intro hx
      obtain ⟨-, he', -⟩ := executes_iff.1 hx
      rw [he] at he'; cases he'
      exact hle (Nat.le_refl _)

theorem mbook_counted (i : Nat) (v : AccountId) (x : Vote) : (s.counted i v x).mbook = s.mbook.count_vote i v x := by
  refine mbook_ext rfl rfl (fun _ => rfl) (fun j t => ?_) (fun j u => ?_)
  · rw [mbook_tally, counted_tally]
    show _ = if j = i ∧ t = x.vote_type then s.mbook.tally i t + x.voting_power else s.mbook.tally j t
    simp only [mbook_tally]
    by_cases h : i = j
    · subst h
      by_cases ht : x.vote_type = t
      · simp [ht]
      · simp [ht, Ne.symm (fun e : x.vote_type = t => ht e)]
    · simp [h, Ne.symm (fun e : i = j => h e)]
  · rw [mbook_vote, counted_record]
    show _ = if j = i ∧ u = v then some x else s.mbook.vote j u
    rw [mbook_vote]
    by_cases h : i = j ∧ v = u
    · rw [if_pos h, if_pos ⟨h.1.symm, h.2.symm⟩]
    · rw [if_neg h, if_neg fun e => h ⟨e.1.symm, e.2.symm⟩]

theorem mbook_uncounted {i : Nat} {v : AccountId} {x : Vote} (hx : s.record i v = some x) :
    (s.uncounted i v x).mbook = s.mbook.remove_vote i v := by
  have e : s.mbook.vote i v = some x := by rw [mbook_vote]; exact hx
  unfold MBook.remove_vote
  simp only [e]
  refine mbook_ext rfl rfl (fun _ => rfl) (fun j t => ?_) (fun j u => ?_)
  · rw [mbook_tally, uncounted_tally]
    show _ = if j = i ∧ t = x.vote_type then s.mbook.tally i t - x.voting_power else s.mbook.tally j t
    simp only [mbook_tally]
    by_cases h : i = j
    · subst h
      by_cases ht : x.vote_type = t
      · simp [ht]
      · simp [ht, Ne.symm (fun e : x.vote_type = t => ht e)]
    · simp [h, Ne.symm (fun e : i = j => h e)]
  · rw [mbook_vote, uncounted_record]
    show _ = if j = i ∧ u = v then none else s.mbook.vote j u
    rw [mbook_vote]
    by_cases h : i = j ∧ v = u
    · rw [if_pos h, if_pos ⟨h.1.symm, h.2.symm⟩]
    · rw [if_neg h, if_neg fun e => h ⟨e.1.symm, e.2.symm⟩]

/-- **C85**: the complete effect of an accepted call in a reachable state, and the promises it starts. -/
theorem C85_call {w : World} (h : Reach J me w) (hx : exec J w.st c k = .ok (s', out)) :
    s'.mbook = w.st.mbook.after J c k ∧ out = promisesOf w.st.settings c k := by
  obtain ⟨hset, hout, -⟩ := C80_settings hx
  refine ⟨?_, hout⟩
  have hagree := (reach_vote_inv h).agree
  generalize w.st = s at *
  have hch := exec_change hx
  obtain ⟨-, -, -, hr⟩ := exec_ok.1 hx
  cases k with
  | process_voting_status i =>
    simp only [run, quiet_ok] at hr
    exact mbook_process hr.1
  | start_voting_period_callback i =>
    simp only [run, quiet_ok, State.start_voting_period_callback, bind_ok_iff, total_power_ok, get_proposal_ok,
      addU64_ok_iff, State.internal_get_quorum, mulU128_ok_iff, pure_ok_iff] at hr
    obtain ⟨⟨n, ⟨b, hb, hn⟩, p, hp, e, ⟨he, rfl⟩, y, ⟨z, ⟨hz, rfl⟩, rfl⟩, rfl⟩, -⟩ := hr
    have ht : MBook.total J c = n := by simp [MBook.total, MBook.reply, hb, hn]
    unfold MBook.after
    simp only [ht]
    rw [← mbook_edit hp, Nat.div_div_eq_div_mul]
    rfl
  | create_proposal_callback t =>
    simp only [run, quiet_ok, State.create_proposal_callback, bind_ok_iff, pure_ok_iff] at hr
    obtain ⟨⟨-, -, -, -, rfl⟩, -⟩ := hr
    refine mbook_ext rfl ?_ (fun j => ?_) (fun _ _ => rfl) (fun _ _ => rfl)
    · show (s.proposals.insert _ _).len = if (s.proposals.get (s.proposals.len % 2 ^ 32)).isSome then _ else _
      rw [UMap.len_insert]
      rfl
    · show (s.proposals.insert _ _).get j = if j = s.proposals.len % 2 ^ 32 then _ else s.proposals.get j
      rw [UMap.get_insert]
      by_cases e : s.proposals.len % 4294967296 = j
      · rw [if_pos e, if_pos e.symm]; rfl
      · rw [if_neg e, if_neg fun h => e h.symm]
  | cancel_proposal i =>
    simp only [run, quiet_ok, State.cancel_proposal, bind_ok_iff, get_proposal_ok, pure_ok_iff] at hr
    obtain ⟨⟨-, -, -, -, p, hp, rfl⟩, -⟩ := hr
    exact mbook_edit (f := fun p => { p with canceled := true }) hp
  | update_proposal i t =>
    simp only [run, quiet_ok, State.update_proposal, bind_ok_iff, get_proposal_ok, pure_ok_iff] at hr
    obtain ⟨⟨-, -, -, -, p, hp, rfl⟩, -⟩ := hr
    exact mbook_edit (f := fun p => { p with content := t }) hp
  | vote_proposal_callback i v t m =>
    simp only [run, quiet_ok, State.vote_proposal_callback, bind_ok_iff, user_power_ok, require_ok_iff, add_tally_ok,
      pure_ok_iff] at hr
    obtain ⟨⟨n, ⟨b, l, hb, hl, rfl, hmax⟩, -, hpos, pv, ⟨hfit, rfl⟩, rfl⟩, -⟩ := hr
    have ht : (ProposalVote.tally { s.internal_get_proposal_vote i with
        has_voted := (s.internal_get_proposal_vote i).has_voted.insert v ⟨i, t, lockedSum l, m⟩ } t) =
        (s.internal_get_proposal_vote i).tally t := by cases t <;> rfl
    have hp : replyPower J (MBook.reply c) = lockedSum l := by simp [replyPower, MBook.reply, hb, hl]
    unfold MBook.after
    simp only [hp]
    rw [← mbook_counted, ht]
    rfl
  | remove_vote_proposal i =>
    simp only [run, quiet_ok, State.remove_vote_proposal, bind_ok_iff, assert_on_voting_ok, State.assert_has_voted,
      require_ok_iff, expect_ok_iff, sub_tally_ok, pure_ok_iff, has_voted_eq] at hr
    obtain ⟨⟨-, ⟨p, hp, ho⟩, -, hvd, x, hx', pv, ⟨hle, rfl⟩, rfl⟩, -⟩ := hr
    simp only [setTally_has_voted]
    exact mbook_uncounted (by rw [hagree]; exact hx')
  | _ =>
    have hpr : s'.proposals = s.proposals ∧ s'.votes = s.votes ∧ s'.voters = s.voters := by
      cases hch; exact ⟨‹_›, ‹_›, ‹_›⟩
    obtain ⟨h1, h2, h3⟩ := hpr
    refine mbook_ext hset ?_ (fun j => ?_) (fun j t => ?_) (fun j u => ?_)
    · show s'.proposals.len = _; rw [h1]; rfl
    · show s'.proposals.get j = _; rw [h1]; rfl
    · rw [mbook_tally]; unfold State.tally State.internal_get_proposal_vote; rw [h2]; exact (mbook_tally j t).symm
    · rw [mbook_vote]; unfold State.record; rw [h3]; exact (mbook_vote j u).symm

/-- **C85**: after every history the books are those that the accepted calls and replies give, applied in order to the
books of a fresh contract. -/
theorem C85_history {w0 w : World} (hi : Init w0) (h : Steps J me w0 w) :
    w.st.mbook = (MBook.fresh w0.st.settings).replay J me w.log := by
  induction h with
  | refl =>
    cases hi with
    | mk a o t v p m st q ts s hr hts h =>
      simp only [new, bind_ok_iff, require_ok_iff, pure_ok_iff] at h
      obtain ⟨-, -, -, -, rfl⟩ := h
      exact mbook_ext rfl rfl (fun _ => rfl) (fun i t => by cases t <;> rfl) (fun _ _ => rfl)
  | @step w1 w2 h1 hs ih =>
    have hr1 : Reach J me w1 := (Reach.init hi).steps h1
    cases hs with
    | call c k s' out hme hres hclock hu64 hexec =>
      unfold MBook.replay
      rw [← ih]
      exact (C85_call hr1 hexec).1
    | reply pre post p r ts hpend hclock hu64 =>
      unfold MBook.replay
      cases hx : exec J w1.st (replyCtx me p ts r) p.callback with
      | error e => simpa [Res.getOr, Res.isOk] using ih
      | ok x =>
        simp only [Res.getOr, Res.isOk, if_true]
        rw [← ih]
        exact (C85_call (s' := x.1) (out := x.2) hr1 hx).1
    | tick ts hclock hu64 => exact ih

/-! ## The books decide what happens next -/

theorem settings_fields (h : s.settings = s'.settings) : s.admin_id = s'.admin_id ∧ s.operator_id = s'.operator_id ∧
    s.voting_period = s'.voting_period ∧ s.min_voting_power_amount = s'.min_voting_power_amount ∧
    s.mpip_storage_near = s'.mpip_storage_near ∧ s.open_for_new_mpips = s'.open_for_new_mpips ∧
    s.quorum_floor = s'.quorum_floor := by
  unfold State.settings at h
  simp only [Settings.mk.injEq] at h
  obtain ⟨h1, h2, -, -, h3, -, -, h4, -, h5, h6, h7⟩ := h
  exact ⟨h1, h2, h3, h4, h5, h6, h7⟩

theorem same_proposal (h : s.mbook = s'.mbook) (i : Nat) : s.get_proposal i = s'.get_proposal i := by
  have : s.proposals.get i = s'.proposals.get i := congrFun (congrArg MBook.proposal h) i
  unfold State.get_proposal State.internal_get_proposal
  rw [this]

theorem same_tally (h : s.mbook = s'.mbook) (i : Nat) (t : VoteType) :
    (s.get_proposal_votes i).tally t = (s'.get_proposal_votes i).tally t := congrFun (congrFun (congrArg MBook.tally h) i) t

theorem same_record (h : s.mbook = s'.mbook) (i : Nat) (v : AccountId) : s.record i v = s'.record i v := by
  rw [← mbook_vote, ← mbook_vote, h]

theorem same_has_voted (h : s.mbook = s'.mbook) (v : AccountId) (i : Nat) : s.has_voted v i = s'.has_voted v i := by
  rw [Bool.eq_iff_iff, has_voted_view, has_voted_view, same_record h]

theorem same_may_call (h : s.mbook = s'.mbook) (hx : MayCall J s c k) : MayCall J s' c k := by
  obtain ⟨c1, c2, c3, c4, c5, c6, c7⟩ := settings_fields (show s.settings = s'.settings from congrArg MBook.settings h)
  cases k <;> simp only [MayCall, State.runs, same_proposal h, same_tally h, same_has_voted h, c1, c2, c3, c4, c5, c6, c7]
    at hx ⊢
  all_goals exact hx

/-- **C85**: two mpip contracts with the same books accept the same calls and replies, start the same promises and have
the same books afterwards, whatever their histories. -/
theorem C85_same {me' : AccountId} {w w' : World} (h : Reach J me w) (h' : Reach J me' w') (hb : w.st.mbook = w'.st.mbook)
    (hx : exec J w.st c k = .ok (s, out)) : ∃ s', exec J w'.st c k = .ok (s', out) ∧ s.mbook = s'.mbook := by
  obtain ⟨⟨s', out'⟩, hx'⟩ := (C77_accepted h').2 (same_may_call hb ((C77_accepted h).1 ⟨_, hx⟩))
  obtain ⟨e1, e2⟩ := C85_call h hx
  obtain ⟨e3, e4⟩ := C85_call h' hx'
  rw [hb] at e1
  rw [show w.st.settings = w'.st.settings from congrArg MBook.settings hb, ← e4] at e2
  subst e2
  exact ⟨s', hx', e1.trans e3.symm⟩

/-- Same books, same questions in flight, same clock. -/
structure SameMBooks (w w' : World) : Prop where
  book : w.st.mbook = w'.st.mbook
  pending : w.pending = w'.pending
  clock : w.clock = w'.clock

theorem same_mstep {w w' x : World} (h : Reach J me w) (h' : Reach J me w')
    (hb : SameMBooks w w') (hs : Step J me w x) : ∃ x', Step J me w' x' ∧ SameMBooks x x' ∧
      (x.log = w.log → x'.log = w'.log) ∧ (∀ e, x.log = e :: w.log → x'.log = e :: w'.log) := by
  cases hs with
  | call c k s' out hme hres hclock hu64 hexec =>
    obtain ⟨t, ht, he⟩ := C85_same h h' hb.book hexec
    refine ⟨_, .call w' c k t out hme hres (hb.clock ▸ hclock) hu64 ht, ⟨he, by simp only [hb.pending], rfl⟩, ?_, ?_⟩
    · intro hl; simp at hl
    · intro e hl; simp only [List.cons.injEq, and_true] at hl; subst hl; rfl
  | tick ts hclock hu64 =>
    refine ⟨_, .tick w' ts (hb.clock ▸ hclock) hu64, ⟨hb.book, hb.pending, rfl⟩, fun _ => rfl, ?_⟩
    intro e hl
    have := congrArg List.length hl
    simp at this
  | reply pre post p r ts hpend hclock hu64 =>
    have hst := Step.reply (J := J) (me := me) w' pre post p r ts (hb.pending ▸ hpend) (hb.clock ▸ hclock) hu64
    have key : ((exec J w.st (replyCtx me p ts r) p.callback).getOr (w.st, [])).1.mbook =
        ((exec J w'.st (replyCtx me p ts r) p.callback).getOr (w'.st, [])).1.mbook ∧
        Res.isOk (exec J w.st (replyCtx me p ts r) p.callback) =
          Res.isOk (exec J w'.st (replyCtx me p ts r) p.callback) := by
      cases hx : exec J w.st (replyCtx me p ts r) p.callback with
      | ok x =>
        obtain ⟨y, hy, he⟩ := C85_same h h' hb.book (s := x.1) (out := x.2) hx
        rw [hy]
        exact ⟨he, rfl⟩
      | error e =>
        cases hy : exec J w'.st (replyCtx me p ts r) p.callback with
        | error q => exact ⟨hb.book, rfl⟩
        | ok x =>
          obtain ⟨y, hy', -⟩ := C85_same h' h hb.book.symm (s := x.1) (out := x.2) hy
          rw [hx] at hy'
          cases hy'
    refine ⟨_, hst, ⟨key.1, rfl, rfl⟩, ?_, ?_⟩
    · intro hl; simp at hl
    · intro e hl
      simp only [List.cons.injEq, and_true] at hl
      subst hl
      rw [key.2]

/-- **C85**: whatever one of two contracts with the same books can do from here on, the other can do too, with the same
entries in the history, and their books stay the same. -/
theorem C85_steps {w w' x : World} (h : Reach J me w) (h' : Reach J me w')
    (hb : SameMBooks w w') (hs : Steps J me w x) : ∃ x', Steps J me w' x' ∧ SameMBooks x x' ∧
      ∃ l, x.log = l ++ w.log ∧ x'.log = l ++ w'.log := by
  induction hs with
  | refl => exact ⟨w', .refl, hb, [], rfl, rfl⟩
  | step h1 hs ih =>
    rename_i w1 w2
    obtain ⟨x1, hx1, hb1, l, hl1, hl2⟩ := ih
    obtain ⟨x2, hx2, hb2, e1, e2⟩ := same_mstep (h.steps h1) (h'.steps hx1) hb1 hs
    refine ⟨x2, .step hx1 hx2, hb2, ?_⟩
    cases hs with
    | call c k s' out hme hres hclock hu64 hexec =>
      exact ⟨_ :: l, by rw [hl1]; rfl, by rw [e2 _ rfl, hl2]; rfl⟩
    | tick ts hclock hu64 => exact ⟨l, hl1, by rw [e1 rfl, hl2]⟩
    | reply pre post p r ts hpend hclock hu64 =>
      exact ⟨_ :: l, by rw [hl1]; rfl, by rw [e2 _ rfl, hl2]; rfl⟩

/-- **C85**: the views show the books: with the same books every view of a single proposal, vote, setting or count is
the same, and lists of votes differ at most in their order. -/
theorem C85_views {me' : AccountId} {w w' : World} (h : Reach J me w) (h' : Reach J me' w')
    (hb : w.st.mbook = w'.st.mbook) :
    (∀ i, w.st.get_proposal i = w'.st.get_proposal i) ∧
    (∀ now i, w.st.get_proposal_state now i = w'.st.get_proposal_state now i) ∧
    (∀ i, w.st.get_proposal_vote_succeeded i = w'.st.get_proposal_vote_succeeded i) ∧
    (∀ c i, w.st.get_quorum_reached c i = w'.st.get_quorum_reached c i) ∧
    (∀ now i, w.st.get_proposal_is_active_or_draft now i = w'.st.get_proposal_is_active_or_draft now i) ∧
    (∀ i t, (w.st.get_proposal_votes i).tally t = (w'.st.get_proposal_votes i).tally t) ∧
    (∀ i, (w.st.get_proposal_votes i).has_voted.Perm (w'.st.get_proposal_votes i).has_voted) ∧
    (∀ v i, w.st.has_voted v i = w'.st.has_voted v i) ∧
    (∀ v i, w.st.get_my_vote v i = w'.st.get_my_vote v i) ∧
    (∀ v, (w.st.get_voter v).Perm (w'.st.get_voter v)) ∧
    w.st.get_total_voters = w'.st.get_total_voters ∧
    w.st.get_last_proposal_id = w'.st.get_last_proposal_id ∧
    (∀ f l, w.st.get_proposals f l = w'.st.get_proposals f l) ∧
    w.st.get_quorum_floor = w'.st.get_quorum_floor ∧ w.st.get_proposal_threshold = w'.st.get_proposal_threshold ∧
    w.st.get_mpip_storage_near = w'.st.get_mpip_storage_near ∧
    (w.st.proposals.len < 2 ^ 32 → ∀ a, w.st.get_my_proposals a = w'.st.get_my_proposals a ∧
      w.st.get_user_proposals_ids a = w'.st.get_user_proposals_ids a) := by
  obtain ⟨c1, c2, c3, c4, c5, c6, c7⟩ :=
    settings_fields (show w.st.settings = w'.st.settings from congrArg MBook.settings hb)
  have hlen : w.st.proposals.len = w'.st.proposals.len := congrArg MBook.count hb
  have hp : ∀ i, w.st.internal_get_proposal i = w'.st.internal_get_proposal i := same_proposal hb
  have htf : ∀ i, (w.st.internal_get_proposal_vote i).for_votes = (w'.st.internal_get_proposal_vote i).for_votes :=
    fun i => same_tally hb i .for_
  have htg : ∀ i, (w.st.internal_get_proposal_vote i).against_votes = (w'.st.internal_get_proposal_vote i).against_votes :=
    fun i => same_tally hb i .against
  have hta : ∀ i, (w.st.internal_get_proposal_vote i).abstain_votes = (w'.st.internal_get_proposal_vote i).abstain_votes :=
    fun i => same_tally hb i .abstain
  have hq : ∀ i, w.st.internal_is_quorum_reached i = w'.st.internal_is_quorum_reached i := by
    intro i
    unfold State.internal_is_quorum_reached
    simp only [hp, htf, hta]
  have hsu : ∀ i, w.st.get_proposal_vote_succeeded i = w'.st.get_proposal_vote_succeeded i := by
    intro i
    unfold State.get_proposal_vote_succeeded
    simp only [htf, htg]
  have hvot : ∀ v i, w.st.has_voted v i = w'.st.has_voted v i := same_has_voted hb
  refine ⟨same_proposal hb, ?_, hsu, ?_, ?_, same_tally hb, ?_, hvot, ?_, ?_, ?_, ?_, ?_, c7, c4, c5, ?_⟩
  · intro now i
    unfold State.get_proposal_state State.internal_proposal_is_on_voting State.internal_proposal_is_active
    simp only [hp, hq, hsu]
  · intro c i
    unfold State.get_quorum_reached State.assert_only_operator
    simp only [hq, c1, c2]
  · intro now i
    unfold State.get_proposal_is_active_or_draft State.internal_proposal_is_active_or_draft
    simp only [hp]
  · intro i
    refine (List.perm_ext_iff_of_nodup ?_ ?_).2 ?_
    · exact List.Nodup.of_map _ (C47_one_listed w.st i)
    · exact List.Nodup.of_map _ (C47_one_listed w'.st i)
    · rintro ⟨v, x⟩
      rw [slot_view, slot_view, ← (reach_vote_inv h).agree, ← (reach_vote_inv h').agree, same_record hb]
  · intro v i
    rw [get_my_vote_view, get_my_vote_view, same_record hb]
  · intro v
    have n1 := (C48_voter h v).2
    have n2 := (C48_voter h' v).2
    refine (List.perm_ext_iff_of_nodup (List.Nodup.of_map _ n1) (List.Nodup.of_map _ n2)).2 fun x => ?_
    rw [(C48_voter h v).1, (C48_voter h' v).1, slot_view, slot_view, ← (reach_vote_inv h).agree,
      ← (reach_vote_inv h').agree, same_record hb]
  · obtain ⟨l, hn, hl, hm⟩ := C48_voters h
    obtain ⟨l', hn', hl', hm'⟩ := C48_voters h'
    rw [hl, hl']
    refine List.Perm.length_eq ((List.perm_ext_iff_of_nodup hn hn').2 fun v => ?_)
    rw [hm, hm']
    simp only [hvot]
  · unfold State.get_last_proposal_id
    rw [hlen]
  · intro f n
    by_cases hf : w.st.proposals.len ≤ f
    · rw [(C51_pages h f n).1 hf, (C51_pages h' f n).1 (hlen ▸ hf)]
    · obtain ⟨l, e1, e2, e3⟩ := (C51_pages h f n).2 (by omega)
      obtain ⟨l', e1', e2', e3'⟩ := (C51_pages h' f n).2 (by omega)
      rw [e1, e1']
      have : l = l' := by
        refine List.ext_getElem (by rw [e2, e2', hlen]) fun i h1 h2 => ?_
        have a1 := e3 i h1
        rw [same_proposal hb, e3' i h2] at a1
        exact (Except.ok.inj a1).symm
      rw [this]
  · intro hcap a
    have e : w.st.get_my_proposals a = w'.st.get_my_proposals a := by
      show (w.st.proposers.get a).getD [] = (w'.st.proposers.get a).getD []
      rw [reach_listed h hcap a, reach_listed h' (hlen ▸ hcap) a, hlen]
      congr 1
      funext i
      rw [show w.st.proposals.get i = w'.st.proposals.get i from congrFun (congrArg MBook.proposal hb) i]
    exact ⟨e, by rw [(C51_creators h hcap a).1, (C51_creators h' (hlen ▸ hcap) a).1, e]⟩

/-! ## Two histories with the same books -/

/-- The demo with the two votes in the other order. -/
def crossed : World := (runs demoJ "me" demo0
  [.call "alice" "alice" 7 (1 * MS) (.create_proposal ⟨"t", "s", "b", "d", "e"⟩), .reply 0 (tells 8 0) (2 * MS),
   .call "alice" "alice" 9 (3 * MS) (.create_proposal ⟨"t2", "s2", "b2", "d2", "e2"⟩), .reply 0 (tells 8 0) (4 * MS),
   .call "alice" "alice" 0 (5 * MS) (.start_voting_period 0), .reply 0 (tells 40 0) (6 * MS),
   .call "bob" "bob" 0 (7 * MS) (.vote_proposal 0 .against "no"), .reply 0 (tells 4 1) (8 * MS),
   .call "alice" "alice" 0 (9 * MS) (.vote_proposal 0 .for_ "yes"), .reply 0 (tells 8 0) (10 * MS)]).get (by decide +kernel)

theorem crossed_reach : Reach demoJ "me" crossed := reach_of_runs demo0_init (Option.some_get _).symm

theorem crossed_same : SameMBooks demo crossed := by
  have hv : demo.st.voters.entries.map (fun x => (x.1, x.2.votes.entries)) =
      [("alice", [(0, ⟨0, .for_, 2048, "yes"⟩)]), ("bob", [(0, ⟨0, .against, 1025, "no"⟩)])] ∧
    crossed.st.voters.entries.map (fun x => (x.1, x.2.votes.entries)) =
      [("bob", [(0, ⟨0, .against, 1025, "no"⟩)]), ("alice", [(0, ⟨0, .for_, 2048, "yes"⟩)])] := by decide +kernel
  have hp : demo.st.proposals = crossed.st.proposals := by decide +kernel
  have ht : demo.st.votes.entries.map (fun x => (x.1, x.2.for_votes, x.2.against_votes, x.2.abstain_votes)) =
      crossed.st.votes.entries.map (fun x => (x.1, x.2.for_votes, x.2.against_votes, x.2.abstain_votes)) := by
    decide +kernel
  refine ⟨mbook_ext (by decide +kernel) (by decide +kernel) (fun i => ?_) (fun i t => ?_) (fun i v => ?_),
    by decide +kernel, by decide +kernel⟩
  · show demo.st.proposals.get i = crossed.st.proposals.get i
    rw [hp]
  · rw [mbook_tally, mbook_tally]
    by_cases h : i = 0
    · subst h; cases t <;> decide +kernel
    · have k1 : demo.st.votes.keys = [0] ∧ crossed.st.votes.keys = [0] := by decide +kernel
      have n1 : demo.st.votes.get i = none := by
        rw [UMap.get_eq_none_iff, k1.1]; simpa using h
      have n2 : crossed.st.votes.get i = none := by
        rw [UMap.get_eq_none_iff, k1.2]; simpa using h
      simp only [State.tally, State.internal_get_proposal_vote, n1, n2]
  · rw [mbook_vote, mbook_vote]
    have k1 : demo.st.voters.keys = ["alice", "bob"] ∧ crossed.st.voters.keys = ["bob", "alice"] := by decide +kernel
    by_cases ha : v = "alice"
    · subst ha
      have : demo.st.voters.get "alice" = crossed.st.voters.get "alice" := by decide +kernel
      simp only [State.record, this]
    · by_cases hb : v = "bob"
      · subst hb
        have : demo.st.voters.get "bob" = crossed.st.voters.get "bob" := by decide +kernel
        simp only [State.record, this]
      · have n1 : demo.st.voters.get v = none := by
          rw [UMap.get_eq_none_iff, k1.1]; simp [ha, hb]
        have n2 : crossed.st.voters.get v = none := by
          rw [UMap.get_eq_none_iff, k1.2]; simp [ha, hb]
        simp only [State.record, n1, n2]

/-- The lists of votes differ, the books do not: what comes next is the same, and there is a next vote and a removal. -/
example : (demo.st.get_proposal_votes 0).has_voted ≠ (crossed.st.get_proposal_votes 0).has_voted ∧
    SameMBooks demo crossed ∧
    Res.isOk (exec demoJ demo.st ⟨"me", "alice", "alice", 0, 11 * MS, []⟩ (.remove_vote_proposal 0)) = true ∧
    Res.isOk (exec demoJ demo.st ⟨"me", "carol", "carol", 0, 11 * MS, []⟩ (.vote_proposal 0 .for_ "")) = true :=
  ⟨by decide +kernel, crossed_same, by decide +kernel, by decide +kernel⟩

example : Steps demoJ "me" demo0 settled ∧
    ((MBook.fresh demo0.st.settings).replay demoJ "me" settled.log).tally 0 .for_ = 2048 ∧
    ((MBook.fresh demo0.st.settings).replay demoJ "me" settled.log).vote 0 "bob" = some ⟨0, .against, 1025, "no"⟩ ∧
    ((MBook.fresh demo0.st.settings).replay demoJ "me" settled.log).count = 2 :=
  ⟨settled_steps, by decide +kernel, by decide +kernel, by decide +kernel⟩

end Verif.Mpip
