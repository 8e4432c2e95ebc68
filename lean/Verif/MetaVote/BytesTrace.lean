import Verif.MetaVote.BytesWorld
import Verif.MetaVote.Trace

/-!
# Running meta-vote on bytes
-/

namespace Verif.MetaVote.Bytes

open Verif Storage Disk Borsh

/-- Execute one action; `none` if the call is rejected or the action impossible. -/
def bact (H : Hash) (J : Json) (me : AccountId) (w : BWorld) : Action → Option BWorld
  | .call p d ts k =>
    if ¬ mirrored p ∧ w.clock ≤ ts ∧ ts ≤ U64_MAX then
      match exec H J w.D ⟨me, p, d, ts, []⟩ k with
      | .ok r => some ⟨r.1, w.pending ++ r.2, ts, .call ⟨me, p, d, ts, []⟩ k r.2 :: w.log⟩
      | .error _ => none
    else none
  | .resolve i ok ts =>
    match w.pending[i]? with
    | some t =>
      if w.clock ≤ ts ∧ ts ≤ U64_MAX then
        some ⟨((exec H J w.D ⟨me, me, 0, ts, [ok]⟩ t.callbackCall).getOr (w.D, [])).1,
          w.pending.take i ++ w.pending.drop (i + 1), ts,
          .resolved t ok (Res.isOk (exec H J w.D ⟨me, me, 0, ts, [ok]⟩ t.callbackCall)) :: w.log⟩
      else none
    | none => none
  | .tick ts => if w.clock ≤ ts ∧ ts ≤ U64_MAX then some { w with clock := ts } else none

/-- Execute a list of actions. -/
def bruns (H : Hash) (J : Json) (me : AccountId) (w : BWorld) : List Action → Option BWorld
  | [] => some w
  | a :: l => match bact H J me w a with
    | some w' => bruns H J me w' l
    | none => none

/-- The names of an action occur. -/
def ActOK (N : Names) (J : Json) : Action → Prop
  | .call p _ _ k => StrFits p ∧ CallOK N J k
  | _ => True

/-- What an action may add. -/
def actWeight (J : Json) : Action → Nat
  | .call _ _ _ k => weight J k
  | .resolve .. => 3
  | .tick _ => 0

/-- The condition on calls, checked along the way. -/
def bchecks (H : Hash) (J : Json) (me : AccountId) (g : Disk → Disk → Ctx → Call → Bool) (w : BWorld) : List Action → Bool
  | [] => true
  | a :: l => match bact H J me w a with
    | some w' => (match a with
      | .call p d ts k => g w.D w'.D ⟨me, p, d, ts, []⟩ k
      | _ => true) && bchecks H J me g w' l
    | none => true

/-- What the condition on calls has to be about. -/
def ActG (G : Disk → Disk → Ctx → Call → Prop) (me : AccountId) (D D' : Disk) : Action → Prop
  | .call p d ts k => G D D' ⟨me, p, d, ts, []⟩ k
  | _ => True

variable {H : Hash} {N : Names} {J : Json} {me : AccountId} {G : Disk → Disk → Ctx → Call → Prop}

theorem reach_bact {W : Nat} {w w' : BWorld} (h : BReach H N J me G W w) {a : Action} (ha : ActOK N J a)
    (hx : bact H J me w a = some w') (hg : ActG G me w.D w'.D a) : BReach H N J me G (W + actWeight J a) w' := by
  cases a with
  | call p d ts k =>
    simp only [bact] at hx
    split at hx
    · rename_i hc
      split at hx
      · rename_i r hr
        cases hx
        exact .call h ⟨me, p, d, ts, []⟩ k r.1 r.2 rfl rfl hc.1 hc.2.1 hc.2.2 ha.1 ha.2 hr hg
      · cases hx
    · cases hx
  | resolve i ok ts =>
    simp only [bact] at hx
    split at hx
    · rename_i t ht
      split at hx
      · rename_i hc
        cases hx
        obtain ⟨hi, e⟩ := List.getElem?_eq_some_iff.1 ht
        refine .resolve h (w.pending.take i) (w.pending.drop (i + 1)) t ok ts ?_ hc.1 hc.2
        rw [← e, List.getElem_cons_drop, List.take_append_drop]
      · cases hx
    · cases hx
  | tick ts =>
    simp only [bact] at hx
    split at hx
    · rename_i hc; cases hx; exact .tick h ts hc.1 hc.2
    · cases hx

theorem reach_bruns {g : Disk → Disk → Ctx → Call → Bool} : ∀ {l : List Action} {W : Nat} {w w' : BWorld},
    BReach H N J me (fun D D' c k => g D D' c k = true) W w → (∀ a ∈ l, ActOK N J a) → bchecks H J me g w l = true →
    bruns H J me w l = some w' →
    BReach H N J me (fun D D' c k => g D D' c k = true) (W + (l.map (actWeight J)).sum) w'
  | [], W, w, w', h, _, _, hx => by cases hx; exact h
  | a :: l, W, w, w', h, ha, hg, hx => by
    simp only [bruns] at hx
    split at hx
    · rename_i w1 h1
      simp only [bchecks, h1, Bool.and_eq_true] at hg
      have h2 : ActG (fun D D' c k => g D D' c k = true) me w.D w1.D a := by
        cases a <;> first | exact hg.1 | trivial
      have := reach_bruns (reach_bact h (ha a List.mem_cons_self) h1 h2) (fun b hb => ha b (List.mem_cons_of_mem _ hb)) hg.2 hx
      rw [List.map_cons, List.sum_cons, ← Nat.add_assoc]
      exact this
    · cases hx

end Verif.MetaVote.Bytes
