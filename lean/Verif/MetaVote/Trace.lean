import Verif.MetaVote.Reach
import Verif.MetaVote.Views

/-!
# Running concrete executions

`runs` executes a list of actions; a successful run is a reachable world (`reach_of_runs`).  It is used
for witnesses: examples that the hypotheses of the theorems can be met, and counterexamples to the
properties that the code does not have.
-/

namespace Verif.MetaVote

open Verif

/-- What happens next. -/
inductive Action where
  /-- an accepted call: predecessor, deposit, timestamp -/
  | call (predecessor : AccountId) (deposit timestamp : Nat) (k : Call)
  /-- resolution of the `i`-th pending transfer -/
  | resolve (i : Nat) (ok : Bool) (timestamp : Nat)
  | tick (timestamp : Nat)

/-- Execute one action; `none` if the call is rejected or the action impossible. -/
def act (J : Json) (me : AccountId) (w : World) : Action → Option World
  | .call p d ts k =>
    if ¬ mirrored p ∧ w.clock ≤ ts ∧ ts ≤ U64_MAX then
      match exec J w.st ⟨me, p, d, ts, []⟩ k with
      | .ok r => some ⟨r.1, w.pending ++ r.2, ts, .call ⟨me, p, d, ts, []⟩ k r.2 :: w.log⟩
      | .error _ => none
    else none
  | .resolve i ok ts =>
    match w.pending[i]? with
    | some t =>
      if w.clock ≤ ts ∧ ts ≤ U64_MAX then
        some ⟨((exec J w.st ⟨me, me, 0, ts, [ok]⟩ t.callbackCall).getOr (w.st, [])).1,
          w.pending.take i ++ w.pending.drop (i + 1), ts,
          .resolved t ok (Res.isOk (exec J w.st ⟨me, me, 0, ts, [ok]⟩ t.callbackCall)) :: w.log⟩
      else none
    | none => none
  | .tick ts => if w.clock ≤ ts ∧ ts ≤ U64_MAX then some { w with clock := ts } else none

/-- Execute a list of actions. -/
def runs (J : Json) (me : AccountId) (w : World) : List Action → Option World
  | [] => some w
  | a :: l => match act J me w a with
    | some w' => runs J me w' l
    | none => none

theorem step_of_act {J : Json} {me : AccountId} {w w' : World} {a : Action}
    (h : act J me w a = some w') : Step J me w w' := by
  cases a with
  | call p d ts k =>
    simp only [act] at h
    split at h
    · rename_i hc
      split at h
      · rename_i r hr
        cases h
        exact .call w ⟨me, p, d, ts, []⟩ k r.1 r.2 rfl rfl hc.1 hc.2.1 hc.2.2 hr
      · simp at h
    · simp at h
  | resolve i ok ts =>
    simp only [act] at h
    split at h
    · rename_i t ht
      split at h
      · rename_i hc
        cases h
        refine .resolve w _ _ t ok ts ?_ hc.1 hc.2
        obtain ⟨hi, rfl⟩ := List.getElem?_eq_some_iff.1 ht
        rw [← List.drop_eq_getElem_cons hi, List.take_append_drop]
      · simp at h
    · simp at h
  | tick ts =>
    simp only [act] at h
    split at h
    · rename_i hc
      cases h
      exact .tick w ts hc.1 hc.2
    · simp at h

/-- Reachability from a given world. -/
inductive Steps (J : Json) (me : AccountId) (w : World) : World → Prop
  | refl : Steps J me w w
  | step {w1 w2 : World} (h : Steps J me w w1) (hs : Step J me w1 w2) : Steps J me w w2

theorem Steps.trans {J : Json} {me : AccountId} {a b c : World} (h : Steps J me a b)
    (h' : Steps J me b c) : Steps J me a c := by
  induction h' with
  | refl => exact h
  | step _ hs ih => exact .step ih hs

theorem Reach.steps {J : Json} {me : AccountId} {a b : World} (h : Reach J me a)
    (h' : Steps J me a b) : Reach J me b := by
  induction h' with
  | refl => exact h
  | step _ hs ih => exact .step ih hs

theorem steps_of_runs {J : Json} {me : AccountId} : ∀ {l : List Action} {w w' : World},
    runs J me w l = some w' → Steps J me w w'
  | [], w, w', h => by cases h; exact .refl
  | a :: l, w, w', h => by
    simp only [runs] at h
    split at h
    · rename_i w1 hw1
      exact (Steps.step .refl (step_of_act hw1)).trans (steps_of_runs h)
    · simp at h

/-- A contract initialized with the given limits. -/
def initWorld (minDays maxDays minDeposit maxL maxV : Nat) : World :=
  ⟨⟨"owner", "operator", UMap.empty, UMap.empty, minDays, maxDays, minDeposit, maxL, maxV, "mpdao", 0,
    UMap.empty, 0, 0, "stnear", UMap.empty, 0, 0, 0, UMap.empty, "old-gov", UMap.empty, UMap.empty,
    UMap.empty, 0, none, 0⟩, [], 0, []⟩

theorem initWorld_init {a b d l v : Nat} (hr : a < b ∧ b ≤ U16_MAX ∧ d ≤ U128_MAX ∧ l ≤ U8_MAX ∧ v ≤ U8_MAX) :
    Init (initWorld a b d l v) := by
  refine Init.mk "owner" "operator" a b d l v "mpdao" "stnear" 0 "old-gov" 0 _ ?_ (by decide) ?_
  · simp only [Call.in_range, decide_eq_true_eq]
    exact ⟨by omega, hr.2.1, hr.2.2.1, hr.2.2.2.1, hr.2.2.2.2, by decide⟩
  · simp [new, require, hr.1, bind, Except.bind, pure, Except.pure]

/-- Standard limits used in the examples: 1 to 300 days, 1 mpDAO, 3 positions, 2 apps. -/
def demo0 : World := initWorld 1 300 1000000 3 2

theorem demo0_init : Init demo0 := initWorld_init (by decide)

/-- A JSON decoder good enough for the examples: `[1]` after the prefix is two claims, `[91,..]` is a
deposit for `bob`. -/
def demoJ : Json :=
  { claims := fun m => if m = [49] then some [("alice", 5), ("bob", 7)] else none
    pair := fun m => if m = [91, 49] then some ("bob", 30)
      else if m = [91, 50] then some ("0xee.evmp.near", 30) else none }

theorem reach_of_runs {J : Json} {me : AccountId} {w w' : World} {l : List Action} (hi : Init w)
    (h : runs J me w l = some w') : Reach J me w' := (Reach.init hi).steps (steps_of_runs h)

/-- ASCII message. -/
def ascii (s : String) : List UInt8 := s.toList.map (fun c => UInt8.ofNat c.toNat)

/-- One day in nanoseconds. -/
def DAY : Nat := 86400000000000

/-- A run used in most examples: deposits by alice and bob, votes, a mirrored EVM account with a
delegate, claims of both tokens, and an unlock. -/
def demoActs : List Action :=
  [ .call "mpdao" 0 1000 (.ft_on_transfer "alice" 60000000 (ascii "60")),
    .call "mpdao" 0 2000 (.ft_on_transfer "owner" 30000000 [91, 49]),
    .call "mpdao" 0 3000 (.ft_on_transfer "alice" 10000000 (ascii "10")),
    .call "mpdao" 0 4000 (.ft_on_transfer "dist" 12000000 (FOR_CLAIMS ++ [49])),
    .call "stnear" 0 5000 (.ft_on_transfer "dist" 1200000000000000000000 (FOR_CLAIMS ++ [49])),
    .call "alice" 0 6000 (.vote 20000000000000000000000000 "app" "obj #1 x"),
    .call "alice" 0 6000 (.vote 5000000000000000000000000 "app" "obj2"),
    .call "bob" 0 7000 (.vote 15000000000000000000000000 "app" "obj #1 x"),
    .call "operator" 0 8000 (.operator_mirror_lps "0xee" [(60, 8000000)]),
    .call "carol" 1 9000 (.pre_delegate_evm_address "0xee" "sig"),
    .call "operator" 1 9500 (.operator_confirm_delegated_evm_address "0xee"),
    .call "carol" 0 10000 (.vote_delegated "0xee" 3000000000000000000000000 "app" "obj2"),
    .call "alice" 0 11000 (.unlock_position 1) ]

/-- The world after `demoActs`. -/
def demo : World := (runs demoJ "me" demo0 demoActs).get (by decide +kernel)

theorem demo_reach : Reach demoJ "me" demo := reach_of_runs demo0_init (Option.some_get _).symm

end Verif.MetaVote
