import Verif.Mpip.Pending

/-!
# mpip contract: histories without overlapping votes
-/

namespace Verif.Mpip

open Verif

variable {J : Json} {s s' : State} {c : Ctx} {k : Call} {out : List Promise} {me : AccountId}

/-- Proposal and voter of a vote in flight. -/
def voteKey (p : Pending) : Option (Nat × AccountId) :=
  match p.callback with
  | .vote_proposal_callback i v _ _ => some (i, v)
  | _ => none

/-- What one voter's record contributes to the tally of type `t`. -/
def State.share (s : State) (i : Nat) (v : AccountId) (t : VoteType) : Nat :=
  match s.slot i v with
  | some x => if x.vote_type = t then x.voting_power else 0
  | none => 0

/-- Invariant of histories without overlapping votes. -/
structure OnceInv (J : Json) (w : World) : Prop where
  nodup : (w.pending.filterMap voteKey).Nodup
  fresh : ∀ i v, (i, v) ∈ w.pending.filterMap voteKey → w.st.slot i v = none
  exact_ : ∀ i t, w.st.recorded i t = w.st.tally i t
  once : ∀ i v t, w.st.share i v t + debited J (fun a => decide (a = v)) w.log i t =
    credited J (fun a => decide (a = v)) w.log i t

theorem share_frame {i : Nat} {v : AccountId} {t : VoteType} (h : s'.slot i v = s.slot i v) :
    s'.share i v t = s.share i v t := by simp [State.share, h]

theorem OnceInv.counted {w w' : World} (hi : OnceInv J w) {p : Pending} {ts : Nat} {r : Reply} {i : Nat}
    {v : AccountId} {t : VoteType} {m : String} (hk : p.callback = .vote_proposal_callback i v t m)
    (hst : w'.st = w.st.counted i v ⟨i, t, replyPower J r, m⟩) (hlog : w'.log = .replied p ts r true :: w.log)
    (hfresh : w.st.slot i v = none) (hnd : (w'.pending.filterMap voteKey).Nodup)
    (hsub : ∀ q ∈ w'.pending.filterMap voteKey, q ∈ w.pending.filterMap voteKey)
    (hnot : (i, v) ∉ w'.pending.filterMap voteKey) : OnceInv J w' := by
  refine ⟨hnd, ?_, ?_, ?_⟩
  · intro j u hu
    rw [hst, counted_slot]
    split
    · rename_i h; obtain ⟨rfl, rfl⟩ := h; exact absurd hu hnot
    · exact hi.fresh _ _ (hsub _ hu)
  · intro j t'
    have h1 := counted_recorded w.st i j v ⟨i, t, replyPower J r, m⟩ t'
    have h2 := counted_tally w.st i j v ⟨i, t, replyPower J r, m⟩ t'
    have h3 := hi.exact_ j t'
    rw [hfresh] at h1
    rw [hst]
    simp only [ite_self, Nat.add_zero] at h1
    simp only at h2
    omega
  · intro j u t'
    have h3 := hi.once j u t'
    rw [hlog, credited_counted hk, debited_counted hk, hst]
    by_cases h : i = j ∧ v = u
    · obtain ⟨rfl, rfl⟩ := h
      simp only [State.share, counted_slot, and_self, if_true, decide_true, true_and]
      simp only [State.share, hfresh] at h3
      omega
    · rw [share_frame (s := w.st) (by rw [counted_slot, if_neg h])]
      have : (if i = j ∧ decide (v = u) = true ∧ t = t' then replyPower J r else 0) = 0 := by
        rw [if_neg]; simp only [decide_eq_true_eq]; tauto
      omega

theorem OnceInv.uncounted {w w' : World} (hr : Reach J me w) (hi : OnceInv J w) {c : Ctx} {i : Nat} {x : Vote}
    (hx : w.st.slot i c.predecessor = some x) (hst : w'.st = w.st.uncounted i c.predecessor x)
    (hlog : w'.log = .call c (.remove_vote_proposal i) out :: w.log) (hpend : w'.pending = w.pending) :
    OnceInv J w' := by
  refine ⟨by rw [hpend]; exact hi.nodup, ?_, ?_, ?_⟩
  · intro j u hu
    rw [hst, uncounted_slot]
    split
    · rfl
    · exact hi.fresh _ _ (by rw [← hpend]; exact hu)
  · intro j t'
    have h1 := uncounted_recorded w.st i j c.predecessor x t'
    have h2 := uncounted_tally w.st i j c.predecessor x t'
    have h3 := hi.exact_ j t'
    rw [hst]
    rw [hx] at h1
    by_cases h : i = j
    · subst h
      simp only [if_true, true_and] at h1 h2
      omega
    · simp only [h, if_false, false_and] at h1 h2
      omega
  · intro j u t'
    have h3 := hi.once j u t'
    have hrec := (reach_replay hr).1
    rw [hlog, debited_call_remove, hst]
    have hc : credited J (fun a => decide (a = u)) (.call c (.remove_vote_proposal i) out :: w.log) j t' =
      credited J (fun a => decide (a = u)) w.log j t' := rfl
    rw [hc, ← hrec]
    by_cases h : i = j ∧ c.predecessor = u
    · obtain ⟨rfl, rfl⟩ := h
      simp only [State.share, uncounted_slot, and_self, if_true, decide_true, true_and, hx]
      simp only [State.share, hx] at h3
      omega
    · rw [share_frame (s := w.st) (by rw [uncounted_slot, if_neg h])]
      have hne : ∀ y : Vote, ¬ (i = j ∧ decide (c.predecessor = u) = true ∧ y.vote_type = t') := by
        intro y; simp only [decide_eq_true_eq]; tauto
      cases w.st.slot j c.predecessor with
      | none => simp only; omega
      | some y => simp only [if_neg (hne y)]; omega

theorem OnceInv.same {w w' : World} (hi : OnceInv J w) (hv : w'.st.votes = w.st.votes)
    (hr : w'.st.voters = w.st.voters) (e2 : ∀ who i t, credited J who w'.log i t = credited J who w.log i t)
    (e3 : ∀ who i t, debited J who w'.log i t = debited J who w.log i t)
    (hnd : (w'.pending.filterMap voteKey).Nodup)
    (hsub : ∀ i v, (i, v) ∈ w'.pending.filterMap voteKey → w.st.slot i v = none) : OnceInv J w' := by
  obtain ⟨f1, f2, f3, f4⟩ := votes_frame hv hr
  refine ⟨hnd, ?_, ?_, ?_⟩
  · intro i v h; rw [f1]; exact hsub i v h
  · intro i t; rw [f3, f4]; exact hi.exact_ i t
  · intro i v t; rw [e2, e3, share_frame (f1 i v)]; exact hi.once i v t

theorem reachG_once {w : World} (h : ReachG J me NoOverlap w) : OnceInv J w := by
  induction h with
  | @init w h =>
    obtain ⟨-, hv, hr, -, -, hp, hl⟩ := h.empty
    refine ⟨by simp [hp], by simp [hp], ?_, ?_⟩
    · intro i t
      cases t <;> simp [State.recorded, State.tally, State.internal_get_proposal_vote, hv, ProposalVote.new,
        ProposalVote.tally]
    · intro i v t
      simp [State.share, State.slot, State.internal_get_proposal_vote, hv, ProposalVote.new, hl, credited, debited]
  | @step w w' h hs hg ih =>
    have hr := h.reach
    cases hs with
    | call c k s' out hme hres hclock hu64 hexec =>
      rcases (Step.call w c k s' out hme hres hclock hu64 hexec).votes hr with
        ⟨hv, hr, e1, e2, e3⟩ | ⟨p, ts, r, i, v, t, m, hp, hk, hst, hpos, hmax, hfit, -, -, hlog⟩ |
        ⟨c', i, x, p, out', -, hp, ho, hx, hle, -, hst, hlog, hpend⟩
      · have key : ∀ q ∈ (asked c.signer out).filterMap voteKey, q ∉ w.pending.filterMap voteKey ∧
            w.st.slot q.1 q.2 = none := by
          intro q hq
          obtain ⟨p, hp, hpq⟩ := List.mem_filterMap.1 hq
          cases exec_asks hexec hp with
          | start => simp [voteKey] at hpq
          | create => simp [voteKey] at hpq
          | @vote i t m p0 hp0 ho hn =>
            simp only [voteKey, Option.some.injEq] at hpq
            subst hpq
            refine ⟨?_, by rw [← (reach_vote_inv h.reach).agree]; exact hn⟩
            intro hmem
            obtain ⟨p1, hp1, hq1⟩ := List.mem_filterMap.1 hmem
            have := hg _ _ _ rfl i t m rfl p1 hp1
            simp only [voteKey] at hq1
            split at hq1
            · rename_i j u t' m' he
              cases hq1
              exact this _ _ he
            · simp at hq1
        have one : ((asked c.signer out).filterMap voteKey).Nodup := by
          obtain ⟨-, -, -, hx⟩ := exec_ok.1 hexec
          cases k <;> simp only [run, quiet_ok, sends_ok] at hx <;> obtain ⟨-, rfl⟩ := hx <;> simp [asked, voteKey, List.filterMap_cons]
        refine ih.same hv hr e2 e3 ?_ ?_
        · simp only [List.filterMap_append]
          rw [List.nodup_append]
          refine ⟨ih.nodup, one, ?_⟩
          intro a ha b hb hab
          subst hab
          exact (key _ hb).1 ha
        · intro i v hm
          simp only [List.filterMap_append, List.mem_append] at hm
          rcases hm with hm | hm
          · exact ih.fresh _ _ hm
          · exact (key _ hm).2
      · simp at hlog
      · simp only [List.cons.injEq, Entry.call.injEq, and_true] at hlog
        obtain ⟨rfl, rfl, rfl⟩ := hlog
        exact ih.uncounted (out := out) hr hx hst rfl hpend
    | reply pre post p r ts hpend hclock hu64 =>
      have hperm : (w.pending.filterMap voteKey).Perm ((p :: (pre ++ post)).filterMap voteKey) := by
        rw [hpend]; exact List.Perm.filterMap _ List.perm_middle
      have hnd0 := hperm.nodup_iff.1 ih.nodup
      have hnd : ((pre ++ post).filterMap voteKey).Nodup := by
        rw [List.filterMap_cons] at hnd0
        split at hnd0
        · exact hnd0
        · exact (List.nodup_cons.1 hnd0).2
      have hsub : ∀ q ∈ (pre ++ post).filterMap voteKey, q ∈ w.pending.filterMap voteKey := by
        intro q hq
        rw [hperm.mem_iff, List.filterMap_cons]
        split
        · exact hq
        · exact List.mem_cons_of_mem _ hq
      rcases (Step.reply w pre post p r ts hpend hclock hu64).votes hr with
        ⟨hv, hr, e1, e2, e3⟩ | ⟨p', ts', r', i, v, t, m, hp, hk, hst, hpos, hmax, hfit, -, -, hlog⟩ |
        ⟨c', i, x, p', out', -, hp, ho, hx, hle, -, hst, hlog, -⟩
      · exact ih.same hv hr e2 e3 hnd (fun i v hm => ih.fresh _ _ (hsub _ hm))
      · have hl := hlog
        simp only [List.cons.injEq, Entry.replied.injEq, and_true] at hl
        obtain ⟨rfl, rfl, rfl, hok⟩ := hl
        have hkey : voteKey p = some (i, v) := by simp [voteKey, hk]
        rw [List.filterMap_cons, hkey] at hnd0 hperm
        simp only at hnd0 hperm
        refine ih.counted hk hst hlog (ih.fresh i v (by rw [hperm.mem_iff]; simp)) hnd hsub ?_
        exact (List.nodup_cons.1 hnd0).1
      · simp at hlog
    | tick ts => exact ⟨ih.nodup, ih.fresh, ih.exact_, ih.once⟩

end Verif.Mpip
