import Verif.Mpip.Trace

/-!
# mpip contract: where the questions in flight come from
-/

namespace Verif.Mpip

open Verif

variable {J : Json} {s s' : State} {c : Ctx} {k : Call} {out : List Promise} {me : AccountId}

/-- A question and the accepted call that asked it. -/
inductive Asks (s : State) (c : Ctx) : Call → Pending → Prop
  | start {i : Nat} {p : Proposal} (hp : s.proposals.get i = some p) (he : Editable p c.now)
      (hs : s.operator_id = c.signer ∨ p.creator_id = c.signer) :
      Asks s c (.start_voting_period i)
        ⟨s.meta_vote_contract_address, .get_total_voting_power, .start_voting_period_callback i, c.signer⟩
  | create {t : Content} (ho : s.open_for_new_mpips = true) (hd : s.mpip_storage_near ≤ c.deposit) :
      Asks s c (.create_proposal t) ⟨s.meta_vote_contract_address, .get_all_locking_positions c.predecessor,
        .create_proposal_callback t, c.signer⟩
  | vote {i : Nat} {t : VoteType} {m : String} {p : Proposal} (hp : s.proposals.get i = some p)
      (ho : OnVoting p c.now) (hn : s.record i c.predecessor = none) :
      Asks s c (.vote_proposal i t m) ⟨s.meta_vote_contract_address, .get_all_locking_positions c.predecessor,
        .vote_proposal_callback i c.predecessor t m, c.signer⟩

theorem exec_asks {p : Pending} (h : exec J s c k = .ok (s', out)) (hp : p ∈ asked c.signer out) : Asks s c k p := by
  obtain ⟨-, -, -, hr⟩ := exec_ok.1 h
  cases k <;> simp only [run, quiet_ok, sends_ok] at hr <;> obtain ⟨hr, rfl⟩ := hr <;>
    simp only [asked, List.mem_cons, List.not_mem_nil, or_false] at hp
  case start_voting_period i =>
    subst hp
    simp only [State.start_voting_period, bind_ok_iff, operator_or_creator_ok, active_or_draft_ok] at hr
    obtain ⟨-, ⟨p, hp, hs⟩, -, ⟨p1, hp1, he⟩, -⟩ := hr
    rw [hp] at hp1; cases hp1
    exact .start hp he hs
  case create_proposal t =>
    subst hp
    simp only [State.create_proposal, bind_ok_iff, State.assert_open_for_new_mpips,
      State.assert_proposal_storage_is_covered, require_ok_iff] at hr
    obtain ⟨-, ho, -, hd, -⟩ := hr
    exact .create ho hd
  case vote_proposal i t m =>
    subst hp
    simp only [State.vote_proposal, bind_ok_iff, assert_on_voting_ok, State.assert_has_not_voted, require_ok_iff,
      has_voted_eq] at hr
    obtain ⟨-, ⟨p, hp, ho⟩, -, hn, -⟩ := hr
    exact .vote hp ho (by simpa using hn)

/-- Callbacks ask nothing. -/
theorem Asks.pos {p : Pending} (h : Asks s c k p) : p.callback.is_private = true ∧ p.signer = c.signer ∧
    k.is_private = false := by cases h <;> exact ⟨rfl, rfl, rfl⟩

/-- Where a question in flight comes from. -/
structure Origin (J : Json) (me : AccountId) (w : World) (p : Pending) : Prop where
  ex : ∃ w0 c k s1 out, Reach J me w0 ∧ c.current = me ∧ w0.clock ≤ c.timestamp ∧
    exec J w0.st c k = .ok (s1, out) ∧ Asks w0.st c k p ∧
    Steps J me ⟨s1, w0.pending ++ asked c.signer out, c.timestamp, .call c k out :: w0.log⟩ w

theorem pending_origin {w : World} (h : Reach J me w) : ∀ p ∈ w.pending, Origin J me w p := by
  induction h with
  | init h => intro p hp; rw [h.empty.2.2.2.2.2.1] at hp; simp at hp
  | @step w w' h hs ih =>
    have keep : ∀ p ∈ w.pending, Origin J me w' p := by
      intro p hp
      obtain ⟨w0, c, k, s1, out, h1, h2, h3, h4, h5, h6⟩ := (ih p hp).ex
      exact ⟨w0, c, k, s1, out, h1, h2, h3, h4, h5, h6.step hs⟩
    intro p hp
    cases hs with
    | call c k s' out hme hres hclock hu64 hexec =>
      simp only [List.mem_append] at hp
      rcases hp with hp | hp
      · exact keep p hp
      · exact ⟨w, c, k, s', out, h, hme, hclock, hexec, exec_asks hexec hp, .refl⟩
    | reply pre post q r ts hpend hclock hu64 =>
      refine keep p ?_
      rw [hpend]
      simp only [List.mem_append] at hp
      simp only [List.mem_append, List.mem_cons]
      tauto
    | tick ts => exact keep p hp

theorem pending_private {w : World} (h : Reach J me w) {p : Pending} (hp : p ∈ w.pending) :
    p.callback.is_private = true := by
  obtain ⟨w0, c, k, s1, out, -, -, -, -, h5, -⟩ := (pending_origin h p hp).ex
  exact h5.pos.1

/-- Clock never runs backwards. -/
theorem Steps.clock {w w' : World} (h : Steps J me w w') : w.clock ≤ w'.clock := by
  induction h with
  | refl => exact Nat.le_refl _
  | step _ hs ih =>
    cases hs with
    | call => simp only; omega
    | reply => simp only; omega
    | tick => simp only; omega

/-! ## Replaying the log -/

/-- `debited`, without the match on the record. -/
theorem debited_call_remove (who : AccountId → Bool) (c : Ctx) (j : Nat) (out : List Promise) (l : List Entry)
    (i : Nat) (t : VoteType) : debited J who (.call c (.remove_vote_proposal j) out :: l) i t =
    (match recordOf J l i c.predecessor with
      | some x => if j = i ∧ who c.predecessor ∧ x.vote_type = t then x.voting_power else 0
      | none => 0) + debited J who l i t := rfl

theorem replay_call (h2 : ∀ i, k ≠ .remove_vote_proposal i) (l : List Entry) (who : AccountId → Bool) :
    (∀ i v, recordOf J (.call c k out :: l) i v = recordOf J l i v) ∧
    (∀ i t, credited J who (.call c k out :: l) i t = credited J who l i t) ∧
    (∀ i t, debited J who (.call c k out :: l) i t = debited J who l i t) := by
  cases k <;> first | exact ⟨fun _ _ => rfl, fun _ _ => rfl, fun _ _ => rfl⟩ | exact absurd rfl (h2 _)

theorem replay_reply {p : Pending} {ts : Nat} {r : Reply} {b : Bool}
    (h1 : b = true → ∀ i v t m, p.callback ≠ .vote_proposal_callback i v t m) (l : List Entry)
    (who : AccountId → Bool) :
    (∀ i v, recordOf J (.replied p ts r b :: l) i v = recordOf J l i v) ∧
    (∀ i t, credited J who (.replied p ts r b :: l) i t = credited J who l i t) ∧
    (∀ i t, debited J who (.replied p ts r b :: l) i t = debited J who l i t) := by
  obtain ⟨a, q, k, sg⟩ := p
  cases b
  · cases k <;> exact ⟨fun _ _ => rfl, fun _ _ => rfl, fun _ _ => rfl⟩
  · cases k <;> first | exact ⟨fun _ _ => rfl, fun _ _ => rfl, fun _ _ => rfl⟩ | exact absurd rfl (h1 rfl _ _ _ _)

/-- The steps seen by the vote records: nothing, a counted vote or a removed vote. -/
theorem Step.votes {w w' : World} (hr : Reach J me w) (h : Step J me w w') :
    (w'.st.votes = w.st.votes ∧ w'.st.voters = w.st.voters ∧
      (∀ i v, recordOf J w'.log i v = recordOf J w.log i v) ∧
      (∀ who i t, credited J who w'.log i t = credited J who w.log i t) ∧
      (∀ who i t, debited J who w'.log i t = debited J who w.log i t)) ∨
    (∃ p ts r i v t m, p ∈ w.pending ∧ p.callback = .vote_proposal_callback i v t m ∧
      w'.st = w.st.counted i v ⟨i, t, replyPower J r, m⟩ ∧ 0 < replyPower J r ∧ replyPower J r ≤ U128_MAX ∧
      w.st.tally i t + replyPower J r ≤ U128_MAX ∧ w.clock ≤ ts ∧ w'.clock = ts ∧
      w'.log = .replied p ts r true :: w.log) ∨
    (∃ c i x p out, c.current = me ∧ w.st.proposals.get i = some p ∧ OnVoting p c.now ∧
      w.st.slot i c.predecessor = some x ∧ x.voting_power ≤ w.st.tally i x.vote_type ∧
      w.clock ≤ c.timestamp ∧ w'.st = w.st.uncounted i c.predecessor x ∧
      w'.log = .call c (.remove_vote_proposal i) out :: w.log ∧ w'.pending = w.pending) := by
  cases h with
  | call c k s' out hme hres hclock hu64 hexec =>
    cases exec_vote_change hexec with
    | none hv hr h1 h2 =>
      refine .inl ⟨hv, hr, ?_, ?_, ?_⟩
      · exact (replay_call h2 _ (fun _ => true)).1
      · exact fun who => (replay_call h2 _ who).2.1
      · exact fun who => (replay_call h2 _ who).2.2
    | voted hb => rw [hres] at hb; simp at hb
    | @unvoted i p x hp ho hvd hx hle =>
      have ha : asked c.signer out = [] := by
        cases hq : asked c.signer out with
        | nil => rfl
        | cons q l => have := exec_asks hexec (p := q) (by simp [hq]); cases this
      exact .inr (.inr ⟨c, i, x, p, out, hme, hp, ho, hx, hle, hclock, rfl, rfl, by simp [ha]⟩)
  | reply pre post p r ts hpend hclock hu64 =>
    have hmem : p ∈ w.pending := by simp [hpend]
    cases hx : exec J w.st (replyCtx me p ts r) p.callback with
    | error e =>
      refine .inl ⟨by simp [Res.getOr], by simp [Res.getOr], ?_, ?_, ?_⟩
      · exact (replay_reply (by simp [Res.isOk]) _ (fun _ => true)).1
      · exact fun who => (replay_reply (by simp [Res.isOk]) _ who).2.1
      · exact fun who => (replay_reply (by simp [Res.isOk]) _ who).2.2
    | ok x =>
      obtain ⟨s1, o1⟩ := x
      simp only [Res.getOr, Res.isOk]
      have hch := exec_vote_change hx
      have hpr := pending_private hr hmem
      cases hk : p.callback with
      | vote_proposal_callback i v t m =>
        rw [hk] at hch
        cases hch with
        | none hv hr h1 h2 => exact absurd rfl (h1 _ _ _ _)
        | @voted _ _ _ _ b l hb hl hpos hmax hfit =>
          have : r = .successful b := by simpa [replyCtx] using hb
          subst this
          have hpow : replyPower J (.successful b) = lockedSum l := by simp [replyPower, hl]
          refine .inr (.inl ⟨p, ts, _, i, v, t, m, hmem, hk, ?_, ?_, ?_, ?_, hclock, rfl, rfl⟩) <;> simp only [hpow]
          · exact hpos
          · exact hmax
          · exact hfit
      | remove_vote_proposal i => rw [hk] at hpr; simp [Call.is_private] at hpr
      | _ =>
        rw [hk] at hch
        cases hch with
        | none hv hr h1 h2 =>
          refine .inl ⟨hv, hr, ?_, ?_, ?_⟩
          · exact (replay_reply (by simp [hk]) _ (fun _ => true)).1
          · exact fun who => (replay_reply (by simp [hk]) _ who).2.1
          · exact fun who => (replay_reply (by simp [hk]) _ who).2.2
  | tick ts => exact .inl ⟨rfl, rfl, fun _ _ => rfl, fun _ _ _ => rfl, fun _ _ _ => rfl⟩

/-- A step that is the answer to a vote, and accepted, counts the vote. -/
theorem Step.counted {w w' : World} (h : Step J me w w') {p : Pending} {ts : Nat} {r : Reply}
    {i : Nat} {v : AccountId} {t : VoteType} {m : String} (hk : p.callback = .vote_proposal_callback i v t m)
    (hlog : w'.log = .replied p ts r true :: w.log) : p ∈ w.pending ∧
    w'.st = w.st.counted i v ⟨i, t, replyPower J r, m⟩ ∧ 0 < replyPower J r ∧ w'.clock = ts ∧ w.clock ≤ ts := by
  cases h with
  | call => simp at hlog
  | tick =>
    have := congrArg List.length hlog
    simp at this
  | reply pre post p' r' ts' hpend hclock hu64 =>
    simp only [List.cons.injEq, Entry.replied.injEq, and_true] at hlog
    obtain ⟨rfl, rfl, rfl, hok⟩ := hlog
    obtain ⟨⟨s1, o1⟩, hx⟩ := Res.isOk_iff.1 hok
    simp only [hx, Res.getOr]
    have hch := exec_vote_change hx
    rw [hk] at hch
    cases hch with
    | none hv hr h1 h2 => exact absurd rfl (h1 _ _ _ _)
    | @voted _ _ _ _ b l hb hl hpos hmax hfit =>
      have : r' = .successful b := by simpa [replyCtx] using hb
      subst this
      have hpow : replyPower J (.successful b) = lockedSum l := by simp [replyPower, hl]
      exact ⟨by simp [hpend], by rw [hpow], by rw [hpow]; exact hpos, trivial, hclock⟩

theorem recordOf_counted {p : Pending} {ts : Nat} {r : Reply} {i : Nat} {v : AccountId} {t : VoteType} {m : String}
    (hk : p.callback = .vote_proposal_callback i v t m) (l : List Entry) (j : Nat) (u : AccountId) :
    recordOf J (.replied p ts r true :: l) j u =
      if i = j ∧ v = u then some ⟨j, t, replyPower J r, m⟩ else recordOf J l j u := by
  obtain ⟨a, q, k, sg⟩ := p
  cases hk; rfl

theorem credited_counted {p : Pending} {ts : Nat} {r : Reply} {i : Nat} {v : AccountId} {t : VoteType} {m : String}
    (hk : p.callback = .vote_proposal_callback i v t m) (l : List Entry) (who : AccountId → Bool) (j : Nat)
    (t' : VoteType) : credited J who (.replied p ts r true :: l) j t' =
      (if i = j ∧ who v ∧ t = t' then replyPower J r else 0) + credited J who l j t' := by
  obtain ⟨a, q, k, sg⟩ := p
  cases hk; rfl

theorem debited_counted {p : Pending} {ts : Nat} {r : Reply} {i : Nat} {v : AccountId} {t : VoteType} {m : String}
    (hk : p.callback = .vote_proposal_callback i v t m) (l : List Entry) (who : AccountId → Bool) (j : Nat)
    (t' : VoteType) : debited J who (.replied p ts r true :: l) j t' = debited J who l j t' := by
  obtain ⟨a, q, k, sg⟩ := p
  cases hk; rfl

/-- Records and tallies are those of the log. -/
theorem reach_replay {w : World} (h : Reach J me w) : (∀ i v, w.st.slot i v = recordOf J w.log i v) ∧
    ∀ i t, w.st.tally i t + debited J (fun _ => true) w.log i t = credited J (fun _ => true) w.log i t := by
  induction h with
  | init h =>
    obtain ⟨-, hv, hr, -, -, -, hl⟩ := h.empty
    refine ⟨?_, ?_⟩ <;> intro i v <;>
      simp [State.slot, State.tally, State.internal_get_proposal_vote, hv, hl, recordOf, credited, debited,
        ProposalVote.new]
    cases v <;> rfl
  | @step w w' h hs ih =>
    obtain ⟨ih1, ih2⟩ := ih
    rcases hs.votes h with ⟨hv, hr, e1, e2, e3⟩ | ⟨p, ts, r, i, v, t, m, hp, hk, hst, hpos, hmax, hfit, -, -, hlog⟩ |
      ⟨c, i, x, p, out, -, hp, ho, hx, hle, -, hst, hlog, -⟩
    · obtain ⟨f1, f2, f3, f4⟩ := votes_frame hv hr
      exact ⟨by intro i v; rw [f1, e1, ih1], by intro i t; rw [f3, e2, e3, ih2]⟩
    · rw [hst, hlog]
      refine ⟨?_, ?_⟩
      · intro j u
        rw [counted_slot, recordOf_counted hk, ih1]
        split
        · rename_i hj; rw [hj.1]
        · rfl
      · intro j t'
        rw [counted_tally, credited_counted hk, debited_counted hk]
        have := ih2 j t'
        simp only [true_and]
        omega
    · rw [hst, hlog]
      refine ⟨?_, ?_⟩
      · intro j u
        rw [uncounted_slot, ih1]; rfl
      · intro j t'
        rw [uncounted_tally, debited_call_remove]
        have h1 := ih2 j t'
        have h2 : credited J (fun _ => true) (.call c (.remove_vote_proposal i) out :: w.log) j t' =
          credited J (fun _ => true) w.log j t' := rfl
        rw [h2]
        by_cases hij : i = j
        · subst hij
          rw [← ih1, hx]
          by_cases ht : x.vote_type = t'
          · subst ht
            simp only [and_self, if_true]
            omega
          · simp [ht, h1]
        · have : (match recordOf J w.log j c.predecessor with
            | some x => if i = j ∧ (fun _ => true) c.predecessor ∧ x.vote_type = t' then x.voting_power else 0
            | none => 0) = 0 := by
            split <;> simp [hij]
          rw [this]
          simp [hij, h1]

end Verif.Mpip
