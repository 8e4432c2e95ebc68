import Verif.Storage.Contract
import Verif.MetaVote.Trace

/-!
# Running concrete executions over storage
-/

namespace Verif.Storage

open Verif MetaVote

/-- Execute one action; `none` if the call is rejected or the action impossible. -/
def sact (J : Json) (me : AccountId) (w : SWorld) : Action → Option SWorld
  | .call p d ts k =>
    if ¬ mirrored p ∧ w.clock ≤ ts ∧ ts ≤ U64_MAX then
      match sexec J w.S ⟨me, p, d, ts, []⟩ k with
      | .ok r => some ⟨r.1, w.pending ++ r.2, ts, .call ⟨me, p, d, ts, []⟩ k r.2 :: w.log⟩
      | .error _ => none
    else none
  | .resolve i ok ts =>
    match w.pending[i]? with
    | some t =>
      if w.clock ≤ ts ∧ ts ≤ U64_MAX then
        some ⟨((sexec J w.S ⟨me, me, 0, ts, [ok]⟩ t.callbackCall).getOr (w.S, [])).1,
          w.pending.take i ++ w.pending.drop (i + 1), ts,
          .resolved t ok (Res.isOk (sexec J w.S ⟨me, me, 0, ts, [ok]⟩ t.callbackCall)) :: w.log⟩
      else none
    | none => none
  | .tick ts => if w.clock ≤ ts ∧ ts ≤ U64_MAX then some { w with clock := ts } else none

/-- Execute a list of actions. -/
def sruns (J : Json) (me : AccountId) (w : SWorld) : List Action → Option SWorld
  | [] => some w
  | a :: l => match sact J me w a with
    | some w' => sruns J me w' l
    | none => none

theorem sstep_of_sact {J : Json} {me : AccountId} {w w' : SWorld} {a : Action}
    (h : sact J me w a = some w') : SStep J me w w' := by
  cases a with
  | call p d ts k =>
    simp only [sact] at h
    split at h
    · rename_i hc
      split at h
      · rename_i r hr
        cases h
        exact .call w ⟨me, p, d, ts, []⟩ k r.1 r.2 rfl rfl hc.1 hc.2.1 hc.2.2 hr
      · simp at h
    · simp at h
  | resolve i ok ts =>
    simp only [sact] at h
    split at h
    · rename_i t ht
      split at h
      · rename_i hc
        cases h
        refine .resolve w _ _ t ok ts ?_ hc.1 hc.2
        obtain ⟨hi, rfl⟩ := List.getElem?_eq_some_iff.1 ht
        rw [← List.drop_eq_getElem_cons hi, List.take_append_drop]
      · simp at h
    · simp at h
  | tick ts =>
    simp only [sact] at h
    split at h
    · rename_i hc
      cases h
      exact .tick w ts hc.1 hc.2
    · simp at h

theorem sreach_of_sruns {J : Json} {me : AccountId} : ∀ {l : List Action} {w w' : SWorld},
    SReach J me w → sruns J me w l = some w' → SReach J me w'
  | [], w, w', hr, h => by cases h; exact hr
  | a :: l, w, w', hr, h => by
    simp only [sruns] at h
    split at h
    · rename_i w1 hw1
      exact sreach_of_sruns (.step hr (sstep_of_sact hw1)) h
    · simp at h

/-- `MetaVote.demo0` with untouched storage. -/
def sdemo0 : SWorld := ⟨⟨demo0.st, fun _ => 0, Mem.empty⟩, [], demo0.clock, []⟩

theorem sdemo0_reach {J : Json} {me : AccountId} : SReach J me sdemo0 := .init (.mk demo0 demo0_init)

end Verif.Storage
