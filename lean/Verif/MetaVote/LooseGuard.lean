import Verif.MetaVote.Loose
import Verif.MetaVote.Guard

/-!
# Loose executions whose calls satisfy a guard
-/

namespace Verif.MetaVote

open Verif

variable {J : Json} {me : AccountId} {G : State → Ctx → Call → Prop} {w : World}

/-- Worlds reachable with loose calls that satisfy `G` (in the state in which they are made). -/
inductive LReachG (J : Json) (me : AccountId) (G : State → Ctx → Call → Prop) : World → Prop
  | init {w : World} (h : Init w) : LReachG J me G w
  | step {w w' : World} (h : LReachG J me G w) (hs : LStep J me w w')
      (hg : ∀ c k out, w'.log = .call c k out :: w.log → G w.st c k) : LReachG J me G w'

theorem ReachG.loose (h : ReachG J me G w) : LReachG J me G w := by
  induction h with
  | init h => exact .init h
  | step _ hs hg ih => exact .step ih hs.loose hg

theorem LReachG.state_inv (P : State → Prop) (hinit : ∀ w, Init w → P w.st)
    (hcb : ∀ s c (t : Transfer), G s c t.callbackCall)
    (hstep : ∀ s c k s' out, P s → G s c k → Ran J s c k s' out → P s') (h : LReachG J me G w) : P w.st := by
  induction h with
  | init h => exact hinit _ h
  | step h hs hg ih =>
    cases hs with
    | call c k s' out hme hres hm hclock hu64 hran => exact hstep _ _ _ _ _ ih (hg _ _ _ rfl) hran
    | resolve pre post t ok ts hpend hclock hu64 =>
      simp only
      cases hr : exec J _ ⟨me, me, 0, ts, [ok]⟩ t.callbackCall with
      | error e => simpa [Res.getOr] using ih
      | ok r => simpa [Res.getOr] using hstep _ _ _ r.1 r.2 ih (hcb _ _ _) (.exact hr)
    | tick ts hclock hu64 => exact ih

end Verif.MetaVote
