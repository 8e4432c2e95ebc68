import Verif.Mpip.VoteInv

/-!
# mpip contract: running concrete executions

For the examples that hypotheses can be met and the counterexamples.
-/

namespace Verif.Mpip

open Verif

variable {J : Json} {me : AccountId}

/-- What happens next. -/
inductive Action where
  | call (predecessor signer : AccountId) (deposit timestamp : Nat) (k : Call)
  /-- the `i`-th question is answered -/
  | reply (i : Nat) (r : Reply) (timestamp : Nat)
  | tick (timestamp : Nat)

/-- Execute one action (`none`: rejected) whose call passes the guard `g`. -/
def actG (J : Json) (me : AccountId) (g : World → Ctx → Call → Bool) (w : World) : Action → Option World
  | .call p sg d ts k =>
    if w.clock ≤ ts ∧ ts ≤ U64_MAX ∧ g w ⟨me, p, sg, d, ts, []⟩ k = true then
      match exec J w.st ⟨me, p, sg, d, ts, []⟩ k with
      | .ok r => some ⟨r.1, w.pending ++ asked sg r.2, ts, .call ⟨me, p, sg, d, ts, []⟩ k r.2 :: w.log⟩
      | .error _ => none
    else none
  | .reply i r ts =>
    match w.pending[i]? with
    | some p =>
      if w.clock ≤ ts ∧ ts ≤ U64_MAX then
        some ⟨((exec J w.st (replyCtx me p ts r) p.callback).getOr (w.st, [])).1,
          w.pending.take i ++ w.pending.drop (i + 1), ts,
          .replied p ts r (exec J w.st (replyCtx me p ts r) p.callback).isOk :: w.log⟩
      else none
    | none => none
  | .tick ts => if w.clock ≤ ts ∧ ts ≤ U64_MAX then some { w with clock := ts } else none

/-- Execute a list of actions. -/
def runsG (J : Json) (me : AccountId) (g : World → Ctx → Call → Bool) (w : World) : List Action → Option World
  | [] => some w
  | a :: l => match actG J me g w a with
    | some w' => runsG J me g w' l
    | none => none

/-- Without a guard. -/
def runs (J : Json) (me : AccountId) (w : World) (l : List Action) : Option World := runsG J me (fun _ _ _ => true) w l

theorem step_of_act {g : World → Ctx → Call → Bool} {w w' : World} {a : Action} (h : actG J me g w a = some w') :
    Step J me w w' ∧ ∀ c k out, w'.log = .call c k out :: w.log → g w c k = true := by
  cases a with
  | call p sg d ts k =>
    simp only [actG] at h
    split at h
    · rename_i hc
      split at h
      · rename_i r hr
        cases h
        refine ⟨.call w ⟨me, p, sg, d, ts, []⟩ k r.1 r.2 rfl rfl hc.1 hc.2.1 hr, ?_⟩
        intro c k' out he
        simp only [List.cons.injEq, Entry.call.injEq, and_true] at he
        obtain ⟨rfl, rfl, -⟩ := he
        exact hc.2.2
      · simp at h
    · simp at h
  | reply i r ts =>
    simp only [actG] at h
    split at h
    · rename_i t ht
      split at h
      · rename_i hc
        cases h
        refine ⟨.reply w _ _ t r ts ?_ hc.1 hc.2, by simp⟩
        obtain ⟨hi, rfl⟩ := List.getElem?_eq_some_iff.1 ht
        rw [← List.drop_eq_getElem_cons hi, List.take_append_drop]
      · simp at h
    · simp at h
  | tick ts =>
    simp only [actG] at h
    split at h
    · rename_i hc
      cases h
      exact ⟨.tick w ts hc.1 hc.2, by
        intro c k out he
        have := congrArg List.length he
        simp at this⟩
    · simp at h

theorem reachG_of_runs {g : World → Ctx → Call → Bool} {G : World → Ctx → Call → Prop}
    (hg : ∀ w c k, g w c k = true → G w c k) : ∀ {l : List Action} {w w' : World}, ReachG J me G w →
    runsG J me g w l = some w' → ReachG J me G w'
  | [], w, w', h0, h => by cases h; exact h0
  | a :: l, w, w', h0, h => by
    simp only [runsG] at h
    split at h
    · rename_i w1 hw1
      obtain ⟨hs, hl⟩ := step_of_act hw1
      exact reachG_of_runs hg (h0.step hs (fun c k out he => hg _ _ _ (hl c k out he))) h
    · simp at h

theorem Steps.trans {a b c : World} (h : Steps J me a b) (h' : Steps J me b c) : Steps J me a c := by
  induction h' with
  | refl => exact h
  | step _ hs ih => exact .step ih hs

theorem steps_of_runs : ∀ {l : List Action} {w w' : World}, runs J me w l = some w' → Steps J me w w'
  | [], w, w', h => by cases h; exact .refl
  | a :: l, w, w', h => by
    simp only [runs, runsG] at h
    split at h
    · rename_i w1 hw1
      exact (Steps.step .refl (step_of_act hw1).1).trans (steps_of_runs (l := l) h)
    · simp at h

theorem step_of_runs {a : Action} {w w' : World} (h : runs J me w [a] = some w') : Step J me w w' := by
  simp only [runs, runsG] at h
  split at h
  · rename_i w1 hw1; cases h; exact (step_of_act hw1).1
  · simp at h

theorem reach_of_runs {l : List Action} {w w' : World} (hi : Init w) (h : runs J me w l = some w') :
    Reach J me w' := (Reach.init hi).steps (steps_of_runs h)

/-- Decision of `NoOverlap`. -/
def noOverlap (w : World) (c : Ctx) (k : Call) : Bool :=
  match k with
  | .vote_proposal i _ _ => w.pending.all (fun p => match p.callback with
    | .vote_proposal_callback j v _ _ => !(decide (j = i) && decide (v = c.predecessor))
    | _ => true)
  | _ => true

theorem noOverlap_sound (w : World) (c : Ctx) (k : Call) (h : noOverlap w c k = true) : NoOverlap w c k := by
  rintro i t m rfl p hp t' m' he
  simp only [noOverlap, List.all_eq_true] at h
  have := h p hp
  simp [he] at this

/-- Decision of `StartOnce`. -/
def startOnce (w : World) (_ : Ctx) (k : Call) : Bool :=
  match k with
  | .start_voting_period i => w.pending.all (fun p => decide (p.callback ≠ .start_voting_period_callback i)) &&
    (match w.st.get_proposal i with
      | .ok q => q.vote_start_timestamp.isNone
      | .error _ => true)
  | _ => true

theorem startOnce_sound (w : World) (c : Ctx) (k : Call) (h : startOnce w c k = true) : StartOnce w c k := by
  rintro i rfl
  simp only [startOnce, Bool.and_eq_true, List.all_eq_true, decide_eq_true_eq] at h
  refine ⟨h.1, ?_⟩
  intro q hq
  have := h.2
  rw [hq] at this
  simpa using this

/-! ## A contract with data -/

/-- Quorum 30 %, voting period 5 minutes, threshold 1000, storage deposit 7. -/
def demo0 : World := ⟨⟨"admin", "operator", "meta", "vote", UMap.empty, UMap.empty, UMap.empty, UMap.empty, 300000,
  0, 0, 1000, 0, 7, true, 3000⟩, [], 0, []⟩

theorem demo0_init : Init demo0 :=
  .mk "admin" "operator" "meta" "vote" 300000 1000 7 3000 0 _ (by decide) (by decide) rfl

/-- One locked position of the given power, and one that is unlocking. -/
def onePosition (n : Nat) : List MetaVote.LockingPositionJSON :=
  [⟨some 0, n, 60, n, none, false, false, true⟩, ⟨some 1, 5, 60, 5, some 1, false, true, false⟩]

/-- A reader of replies: a number in one, two or more digits of base 256, as a total or as a position. -/
def demoJ : Json :=
  let num := fun (b : List UInt8) => b.foldl (fun a x => a * 256 + x.toNat) 0
  ⟨fun b => some (num b), fun b => some (onePosition (num b))⟩

/-- A reply that says `256 * a + b`. -/
def tells (a b : UInt8) : Reply := .successful [a, b]

/-- One millisecond. -/
def MS : Nat := 1000000

/-- Alice creates two proposals; voting starts on the first one; alice and bob vote on it. -/
def demoActs : List Action :=
  [.call "alice" "alice" 7 (1 * MS) (.create_proposal ⟨"t", "s", "b", "d", "e"⟩), .reply 0 (tells 8 0) (2 * MS),
   .call "alice" "alice" 9 (3 * MS) (.create_proposal ⟨"t2", "s2", "b2", "d2", "e2"⟩), .reply 0 (tells 8 0) (4 * MS),
   .call "alice" "alice" 0 (5 * MS) (.start_voting_period 0), .reply 0 (tells 40 0) (6 * MS),
   .call "alice" "alice" 0 (7 * MS) (.vote_proposal 0 .for_ "yes"), .reply 0 (tells 8 0) (8 * MS),
   .call "bob" "bob" 0 (9 * MS) (.vote_proposal 0 .against "no"), .reply 0 (tells 4 1) (10 * MS)]

/-- The world after `demoActs`. -/
def demo : World := (runs demoJ "me" demo0 demoActs).get (by decide +kernel)

theorem demo_reach : Reach demoJ "me" demo := reach_of_runs demo0_init (Option.some_get _).symm

end Verif.Mpip
