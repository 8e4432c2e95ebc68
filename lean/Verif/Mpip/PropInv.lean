import Verif.Mpip.Guard

/-!
# mpip contract: invariants of the proposals
-/

namespace Verif.Mpip

open Verif

variable {J : Json} {s s' : State} {c : Ctx} {k : Call} {out : List Promise} {me : AccountId}

/-- How an accepted call may change proposal `i`. -/
inductive Evolves (J : Json) (s : State) (c : Ctx) : Call → Nat → Proposal → Proposal → Prop
  | same {k : Call} {i : Nat} {p : Proposal} : Evolves J s c k i p p
  | started {i : Nat} {p : Proposal} {b : List UInt8} {total : Nat} (hb : c.results = [.successful b])
      (ht : J.read_total b = some total) (he : c.now + s.voting_period ≤ U64_MAX)
      (hq : total * s.quorum_floor ≤ U128_MAX) :
      Evolves J s c (.start_voting_period_callback i) i p { p with
        vote_start_timestamp := some c.now, vote_end_timestamp := some (c.now + s.voting_period),
        draft := false, v_power_quorum_to_reach := some (total * s.quorum_floor / 100 / 100) }
  | canceled {i : Nat} {p : Proposal} (he : Editable p c.now)
      (hs : s.operator_id = c.signer ∨ p.creator_id = c.signer) :
      Evolves J s c (.cancel_proposal i) i p { p with canceled := true }
  | edited {i : Nat} {p : Proposal} {t : Content} (he : Editable p c.now) (hs : p.creator_id = c.signer) :
      Evolves J s c (.update_proposal i t) i p { p with content := t }
  | executed {i : Nat} {p : Proposal} {q : Nat} (ho : OnVoting p c.now)
      (he : p.vote_end_timestamp = some c.now) (hq : p.v_power_quorum_to_reach = some q)
      (hr : q ≤ (s.internal_get_proposal_vote i).for_votes + (s.internal_get_proposal_vote i).abstain_votes)
      (hs : s.admin_id = c.signer ∨ s.operator_id = c.signer) :
      Evolves J s c (.process_voting_status i) i p { p with executed := true }

/-- `2^32` -/
def CAP : Nat := 4294967296

/-- Ids are `0, 1, …`. -/
def Dense (s : State) : Prop := s.proposals.keys = List.range s.proposals.len ∧ s.proposals.len ≤ CAP

theorem Dense.get (h : Dense s) (i : Nat) : (∃ p, s.proposals.get i = some p) ↔ i < s.proposals.len := by
  rw [← UMap.mem_keys_iff, h.1, List.mem_range]

theorem Dense.none (h : Dense s) : s.proposals.get s.proposals.len = none := by
  rw [UMap.get_eq_none_iff, h.1]; simp

theorem keys_insert (m : UMap Nat Proposal) (i : Nat) (p : Proposal) :
    (m.insert i p).keys = if i ∈ m.keys then m.keys else m.keys ++ [i] := insertL_keys _ _ _

/-- Replacing a proposal keeps the ids. -/
theorem replace_keys {i : Nat} {p p' : Proposal} (hp : s.proposals.get i = some p) :
    (s.proposals.insert i p').keys = s.proposals.keys ∧ (s.proposals.insert i p').len = s.proposals.len := by
  have h := UMap.mem_keys_iff.2 ⟨p, hp⟩
  exact ⟨by rw [keys_insert, if_pos h], by rw [UMap.len_insert, hp]; rfl⟩

/-- All that an accepted call may do to the proposals. -/
theorem exec_proposals (hd : Dense s) (h : exec J s c k = .ok (s', out)) :
    Dense s' ∧ ((s'.proposals.len = s.proposals.len ∧ s'.proposers = s.proposers ∧
      (∀ i p, s.proposals.get i = some p → ∃ p', s'.proposals.get i = some p' ∧ Evolves J s c k i p p') ∧
      ∀ t, k ≠ .create_proposal_callback t) ∨
    (∃ t b l, k = .create_proposal_callback t ∧ c.results = [.successful b] ∧ J.read_positions b = some l ∧
      lockedSum l ≤ U128_MAX ∧ s.min_voting_power_amount ≤ lockedSum l ∧ s.proposals.len < CAP ∧
      s'.proposals.len = s.proposals.len + 1 ∧
      s'.proposals.get s.proposals.len =
        some ⟨s.proposals.len, t, c.signer, none, none, true, false, false, none⟩ ∧
      (∀ i p, s.proposals.get i = some p → s'.proposals.get i = some p) ∧
      s'.proposers = s.proposers.insert c.signer ((s.proposers.get c.signer).getD [] ++ [s.proposals.len])) ∨
    s.proposals.len = CAP) := by
  have repl : ∀ {i : Nat} {p p' : Proposal} (_ : s.proposals.get i = some p) (_ : Evolves J s c k i p p')
      (_ : s'.proposals = s.proposals.insert i p') (_ : s'.proposers = s.proposers),
      Dense s' ∧ (s'.proposals.len = s.proposals.len ∧ s'.proposers = s.proposers ∧
        ∀ i p, s.proposals.get i = some p → ∃ p', s'.proposals.get i = some p' ∧ Evolves J s c k i p p') := by
    intro i p p' hp he hs hc
    obtain ⟨h1, h2⟩ := replace_keys (p' := p') hp
    refine ⟨⟨by rw [hs, h1, h2]; exact hd.1, by rw [hs, h2]; exact hd.2⟩, by rw [hs, h2], hc, ?_⟩
    intro j q hq
    rw [hs, UMap.get_insert]
    by_cases hij : i = j
    · subst hij
      rw [hp] at hq; cases hq
      exact ⟨p', by simp, he⟩
    · exact ⟨q, by simp [hij, hq], .same⟩
  have hch := exec_change h
  cases hch with
  | config hp hv hr hc hq =>
    by_cases hk : ∃ t, k = .create_proposal_callback t
    · exfalso
      obtain ⟨t, rfl⟩ := hk
      obtain ⟨-, -, -, hx⟩ := exec_ok.1 h
      simp only [run, quiet_ok, State.create_proposal_callback, bind_ok_iff, user_power_ok,
        State.assert_proposal_threshold, require_ok_iff, pure_ok_iff] at hx
      obtain ⟨⟨n, -, -, -, rfl⟩, -⟩ := hx
      have h1 := congrArg (fun m => (UMap.get m c.signer)) hc
      simp only [UMap.get_insert_self, State.internal_get_proposer] at h1
      have h2 := congrArg (Option.map List.length) h1
      cases hg : s.proposers.get c.signer <;> simp [hg] at h2
    · refine ⟨⟨by rw [hp]; exact hd.1, by rw [hp]; exact hd.2⟩, .inl ⟨by rw [hp], hc, ?_, ?_⟩⟩
      · intro i p h; exact ⟨p, by rw [hp]; exact h, .same⟩
      · intro t ht; exact hk ⟨t, ht⟩
  | started hb ht hp he hq =>
    obtain ⟨h1, h2, h3, h4⟩ := repl hp (.started hb ht he hq) rfl rfl
    exact ⟨h1, .inl ⟨h2, h3, h4, by simp⟩⟩
  | canceled hp he hs =>
    obtain ⟨h1, h2, h3, h4⟩ := repl hp (.canceled he hs) rfl rfl
    exact ⟨h1, .inl ⟨h2, h3, h4, by simp⟩⟩
  | edited hp he hs =>
    obtain ⟨h1, h2, h3, h4⟩ := repl hp (.edited he hs) rfl rfl
    exact ⟨h1, .inl ⟨h2, h3, h4, by simp⟩⟩
  | executed hp ho he hq hfit hr hs =>
    obtain ⟨h1, h2, h3, h4⟩ := repl hp (.executed ho he hq hr hs) rfl rfl
    exact ⟨h1, .inl ⟨h2, h3, h4, by simp⟩⟩
  | voted => exact ⟨hd, .inl ⟨rfl, rfl, fun i p h => ⟨p, h, .same⟩, by simp⟩⟩
  | unvoted => exact ⟨hd, .inl ⟨rfl, rfl, fun i p h => ⟨p, h, .same⟩, by simp⟩⟩
  | @created t b l hb hl hmax hth =>
    by_cases hlt : s.proposals.len < CAP
    · have hm : s.proposals.len % 4294967296 = s.proposals.len := Nat.mod_eq_of_lt hlt
      simp only [hm]
      have hnot : s.proposals.len ∉ s.proposals.keys := by rw [hd.1]; simp
      have hlen : ∀ q, (s.proposals.insert s.proposals.len q).len = s.proposals.len + 1 := by
        intro q; rw [UMap.len_insert, hd.none]; rfl
      refine ⟨⟨?_, ?_⟩, .inr (.inl ⟨t, b, l, rfl, hb, hl, hmax, hth, hlt, hlen _, by simp, ?_, trivial⟩)⟩
      · rw [hlen, keys_insert, if_neg hnot, List.range_succ]
        exact congrArg (· ++ [s.proposals.len]) hd.1
      · simp only [hlen]; unfold CAP at hlt ⊢; omega
      · intro i p hp
        have : s.proposals.len ≠ i := by
          rintro rfl
          rw [hd.none] at hp; simp at hp
        simp [UMap.get_insert, this, hp]
    · have hcap : s.proposals.len = CAP := by have := hd.2; omega
      refine ⟨?_, .inr (.inr hcap)⟩
      have hm : s.proposals.len % 4294967296 = 0 := by rw [hcap]; rfl
      simp only [hm]
      obtain ⟨p, hp⟩ := (hd.get 0).2 (by rw [hcap]; decide)
      obtain ⟨h1, h2⟩ := replace_keys (p' := ⟨0, t, c.signer, none, none, true, false, false, none⟩) hp
      exact ⟨by rw [h1, h2]; exact hd.1, by rw [h2]; exact hd.2⟩

theorem reach_dense {w : World} (h : Reach J me w) : Dense w.st := by
  induction h with
  | init h => obtain ⟨hp, -⟩ := h.empty; unfold Dense; rw [hp]; exact ⟨rfl, by decide⟩
  | step h hs ih =>
    rcases hs.cases_change with h | ⟨c, k, out, -, -, -, -, h, -⟩ | ⟨p, ts, r, out, -, -, -, h, -⟩
    · rw [h]; exact ih
    · exact (exec_proposals ih h).1
    · exact (exec_proposals ih h).1

/-- A step, as an accepted call (perhaps a callback), or nothing. -/
theorem Step.accepted {w w' : World} (h : Step J me w w') : w'.st = w.st ∨
    ∃ c k out, exec J w.st c k = .ok (w'.st, out) ∧ w.clock ≤ c.timestamp ∧ w'.clock = c.timestamp ∧
      c.current = me := by
  rcases h.cases_change with h | ⟨c, k, out, h1, -, h2, h3, h, -⟩ | ⟨p, ts, r, out, -, h2, h3, h, -⟩
  · exact .inl h
  · exact .inr ⟨c, k, out, h, h2, h3, h1⟩
  · exact .inr ⟨_, _, out, h, h2, h3, rfl⟩

theorem Step.clock_le {w w' : World} (h : Step J me w w') : w.clock ≤ w'.clock :=
  (Steps.step .refl h).clock

/-- Number of proposals never falls. -/
theorem Step.len_le {w w' : World} (hr : Reach J me w) (h : Step J me w w') :
    w.st.proposals.len ≤ w'.st.proposals.len := by
  rcases h.accepted with h | ⟨c, k, out, h, -⟩
  · rw [h]
  · have hd := reach_dense hr
    obtain ⟨hd', hx⟩ := exec_proposals hd h
    rcases hx with ⟨h1, -⟩ | ⟨t, b, l, -, -, -, -, -, -, h1, -⟩ | h1
    · omega
    · omega
    · have hsome : ∀ i, i < CAP → i < w'.st.proposals.len := by
        intro i hi
        have hch := exec_change h
        have key : ∀ m : UMap Nat Proposal, m = w.st.proposals ∨ (∃ j q, m = w.st.proposals.insert j q) →
            ∃ p, m.get i = some p := by
          rintro m (rfl | ⟨j, q, rfl⟩)
          · exact (hd.get i).2 (by omega)
          · rw [UMap.get_insert]
            split
            · exact ⟨q, rfl⟩
            · exact (hd.get i).2 (by omega)
        rw [← hd'.get]
        generalize w'.st = s2 at hch
        cases hch with
        | config hp => exact key _ (.inl hp)
        | started => exact key _ (.inr ⟨_, _, rfl⟩)
        | created => exact key _ (.inr ⟨_, _, rfl⟩)
        | canceled => exact key _ (.inr ⟨_, _, rfl⟩)
        | edited => exact key _ (.inr ⟨_, _, rfl⟩)
        | executed => exact key _ (.inr ⟨_, _, rfl⟩)
        | voted => exact key _ (.inl rfl)
        | unvoted => exact key _ (.inl rfl)
      have := hsome (CAP - 1) (by decide)
      rw [h1]; unfold CAP at *; omega

theorem Steps.len_le {w w' : World} (hr : Reach J me w) (h : Steps J me w w') :
    w.st.proposals.len ≤ w'.st.proposals.len := by
  induction h with
  | refl => exact Nat.le_refl _
  | step h hs ih => exact Nat.le_trans ih (hs.len_le (hr.steps h))

/-- One step of one proposal. -/
theorem Step.evolves {w w' : World} (hr : Reach J me w) (h : Step J me w w') (hcap : w'.st.proposals.len < CAP)
    {i : Nat} {p : Proposal} (hp : w.st.proposals.get i = some p) :
    ∃ p', w'.st.proposals.get i = some p' ∧ (p' = p ∨
      ((∃ c k out, c.results = [] ∧ w'.log = .call c k out :: w.log ∧ Evolves J w.st c k i p p' ∧
        w.clock ≤ c.timestamp ∧ w'.clock = c.timestamp ∧ exec J w.st c k = .ok (w'.st, out)) ∨
      (∃ q ts r, q ∈ w.pending ∧ w'.log = .replied q ts r true :: w.log ∧
        Evolves J w.st (replyCtx me q ts r) q.callback i p p' ∧ w.clock ≤ ts ∧ w'.clock = ts))) := by
  have hle := h.len_le hr
  have hd := reach_dense hr
  rcases h.cases_change with h | ⟨c, k, out, h1, hres, h2, h3, h, hlog⟩ | ⟨q, ts, r, out, hq, h2, h3, h, hlog⟩
  · exact ⟨p, by rw [h]; exact hp, .inl rfl⟩
  · rcases (exec_proposals hd h).2 with ⟨-, -, he, -⟩ | ⟨t, b, l, -, -, -, -, -, -, -, -, he, -⟩ | he
    · obtain ⟨p', hp', he⟩ := he i p hp
      exact ⟨p', hp', .inr (.inl ⟨c, k, out, hres, hlog, he, h2, h3, h⟩)⟩
    · exact ⟨p, he i p hp, .inl rfl⟩
    · omega
  · rcases (exec_proposals hd h).2 with ⟨-, -, he, -⟩ | ⟨t, b, l, -, -, -, -, -, -, -, -, he, -⟩ | he
    · obtain ⟨p', hp', he⟩ := he i p hp
      exact ⟨p', hp', .inr (.inr ⟨q, ts, r, hq, hlog, he, h2, h3⟩)⟩
    · exact ⟨p, he i p hp, .inl rfl⟩
    · omega

/-- Invariant of each proposal. -/
structure POK (now i : Nat) (p : Proposal) : Prop where
  id_ : p.mpip_id = i
  draft_ : p.draft = true ↔ p.vote_start_timestamp = none
  window : ∀ t, p.vote_start_timestamp = some t → t ≤ now ∧ ∃ e, p.vote_end_timestamp = some e ∧ t ≤ e ∧ e ≤ U64_MAX
  quorum : p.v_power_quorum_to_reach = none ↔ p.vote_start_timestamp = none
  noend : p.vote_end_timestamp = none ↔ p.vote_start_timestamp = none
  exec_ : p.executed = true → p.canceled = false ∧ p.draft = false

theorem POK.evolves {i : Nat} {p p' : Proposal} {n m : Nat} (h : POK n i p) (hn : n ≤ m) (hm : m = c.now)
    (he : Evolves J s c k i p p') : POK m i p' := by
  have keep : POK m i p := ⟨h.id_, h.draft_, fun t ht => ⟨by have := (h.window t ht).1; omega, (h.window t ht).2⟩,
    h.quorum, h.noend, h.exec_⟩
  cases he with
  | same => exact keep
  | started hb ht hfit hq =>
    refine ⟨h.id_, by simp, ?_, by simp, by simp, ?_⟩
    · intro t ht
      simp only [Option.some.injEq] at ht
      exact ⟨by omega, _, rfl, by omega, hfit⟩
    · intro hx; exact ⟨(h.exec_ hx).1, rfl⟩
  | canceled he hs =>
    exact ⟨keep.id_, keep.draft_, keep.window, keep.quorum, keep.noend, by
      intro hx; simp only at hx; rw [he.2.2] at hx; simp at hx⟩
  | edited he hs => exact ⟨keep.id_, keep.draft_, keep.window, keep.quorum, keep.noend, keep.exec_⟩
  | executed ho he hq hr hs =>
    obtain ⟨t, e, h1, h2, h3, h4, h5, h6, h7⟩ := ho
    exact ⟨keep.id_, keep.draft_, keep.window, keep.quorum, keep.noend, fun _ => ⟨h6, h5⟩⟩

/-- Every proposal satisfies the invariant, also after ids have been reused. -/
theorem reach_pok {w : World} (h : Reach J me w) : ∀ i p, w.st.proposals.get i = some p →
    POK (w.clock / 1000000) i p := by
  induction h with
  | init h => intro i p hp; rw [h.empty.1] at hp; simp at hp
  | @step w w' h hs ih =>
    intro i p hp
    have hcl := hs.clock_le
    have hdiv : w.clock / 1000000 ≤ w'.clock / 1000000 := Nat.div_le_div_right hcl
    have later : ∀ q, POK (w.clock / 1000000) i q → POK (w'.clock / 1000000) i q := fun q hq =>
      ⟨hq.id_, hq.draft_, fun t ht => ⟨by have := (hq.window t ht).1; omega, (hq.window t ht).2⟩, hq.quorum, hq.noend,
        hq.exec_⟩
    rcases hs.accepted with he | ⟨c, k, out, he, h1, h2, -⟩
    · rw [he] at hp; exact later _ (ih i p hp)
    · have hnow : w'.clock / 1000000 = c.now := by rw [h2]; rfl
      have repl : ∀ {j : Nat} {q q' : Proposal}, w.st.proposals.get j = some q → Evolves J w.st c k j q q' →
          (w.st.proposals.insert j q').get i = some p → POK (w'.clock / 1000000) i p := by
        intro j q q' hq hev hg
        rw [UMap.get_insert] at hg
        split at hg
        · rename_i hji; subst hji; cases hg
          exact (ih _ _ hq).evolves hdiv hnow hev
        · exact later _ (ih i p hg)
      have hch := exec_change he
      clear he
      generalize w'.st = s2 at hch hp
      cases hch with
      | config hpr => rw [hpr] at hp; exact later _ (ih i p hp)
      | started hb ht hq he hm => exact repl hq (.started hb ht he hm) hp
      | canceled hq he hs => exact repl hq (.canceled he hs) hp
      | edited hq he hs => exact repl hq (.edited he hs) hp
      | executed hq ho he hm hf hr hs => exact repl hq (.executed ho he hm hr hs) hp
      | voted => exact later _ (ih i p hp)
      | unvoted => exact later _ (ih i p hp)
      | created hb hl hmax hth =>
        simp only [UMap.get_insert] at hp
        split at hp
        · rename_i hji; cases hp
          exact ⟨hji, by simp, by simp, by simp, by simp, by simp⟩
        · exact later _ (ih i p hp)

/-- Creators' lists: the ids each account created, in order. -/
def Listed (s : State) : Prop := s.proposals.len < CAP → ∀ a, (s.proposers.get a).getD [] =
  (List.range s.proposals.len).filter (fun i => decide ((s.proposals.get i).map (·.creator_id) = some a))

theorem Evolves.creator {i : Nat} {p p' : Proposal} (h : Evolves J s c k i p p') :
    p'.creator_id = p.creator_id ∧ p'.mpip_id = p.mpip_id := by cases h <;> exact ⟨rfl, rfl⟩

theorem reach_listed {w : World} (h : Reach J me w) : Listed w.st := by
  induction h with
  | init h => obtain ⟨hp, -, -, hc, -⟩ := h.empty; intro _ a; rw [hp, hc]; rfl
  | @step w w' h hs ih =>
    intro hcap a
    have hd := reach_dense h
    have hle := hs.len_le h
    rcases hs.accepted with he | ⟨c, k, out, he, h1, h2, -⟩
    · rw [he] at hcap ⊢; exact ih hcap a
    · have ih' := ih (by omega)
      rcases (exec_proposals hd he).2 with ⟨e1, e2, e3, -⟩ | ⟨t, b, l, -, -, -, -, -, -, e1, e2, e3, e4⟩ | e
      · rw [e1, e2, ih' a]
        apply List.filter_congr
        intro i hi
        rw [List.mem_range] at hi
        obtain ⟨p, hp⟩ := (hd.get i).2 hi
        obtain ⟨p', hp', hev⟩ := e3 i p hp
        simp [hp, hp', hev.creator.1]
      · rw [e1, e4, List.range_succ, List.filter_append, UMap.get_insert]
        have hold : (List.range w.st.proposals.len).filter
            (fun i => decide ((w'.st.proposals.get i).map (·.creator_id) = some a)) =
            (List.range w.st.proposals.len).filter
            (fun i => decide ((w.st.proposals.get i).map (·.creator_id) = some a)) := by
          apply List.filter_congr
          intro i hi
          rw [List.mem_range] at hi
          obtain ⟨p, hp⟩ := (hd.get i).2 hi
          rw [e3 i p hp, hp]
        rw [hold, ← ih' a]
        by_cases ha : c.signer = a
        · subst ha; simp [e2]
        · simp [ha, e2]
      · omega

end Verif.Mpip
