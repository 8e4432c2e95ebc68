import Verif.MetaVote.ViewLemmas
import Verif.MetaVote.Trace
import Verif.MetaVote.Cons

/-!
# Executions whose calls satisfy a guard

Used for properties that the code only has when users avoid certain calls.
-/

namespace Verif.MetaVote

open Verif

/-- Worlds reachable with calls that satisfy `G` (in the state in which they are made). -/
inductive ReachG (J : Json) (me : AccountId) (G : State → Ctx → Call → Prop) : World → Prop
  | init {w : World} (h : Init w) : ReachG J me G w
  | step {w w' : World} (h : ReachG J me G w) (hs : Step J me w w')
      (hg : ∀ c k out, w'.log = .call c k out :: w.log → G w.st c k) : ReachG J me G w'

theorem ReachG.reach {J : Json} {me : AccountId} {G : State → Ctx → Call → Prop} {w : World}
    (h : ReachG J me G w) : Reach J me w := by
  induction h with
  | init h => exact .init h
  | step _ hs _ ih => exact .step ih hs

theorem ReachG.state_inv {J : Json} {me : AccountId} {G : State → Ctx → Call → Prop} (P : State → Prop)
    (hinit : ∀ w, Init w → P w.st)
    (hcb : ∀ s c (t : Transfer), G s c t.callbackCall)
    (hstep : ∀ s c k s' out, P s → VInv s → G s c k → exec J s c k = .ok (s', out) → P s')
    {w : World} (h : ReachG J me G w) : P w.st := by
  induction h with
  | init h => exact hinit _ h
  | step h hs hg ih =>
    have hv := reach_vinv h.reach
    cases hs with
    | call c k s' out hme hres hm hclock hu64 hexec =>
      exact hstep _ _ _ _ _ ih hv (hg _ _ _ rfl) hexec
    | resolve pre post t ok ts hpend hclock hu64 =>
      simp only
      cases hr : exec J _ ⟨me, me, 0, ts, [ok]⟩ t.callbackCall with
      | error e => simpa [Res.getOr] using ih
      | ok r => simpa [Res.getOr] using hstep _ _ _ r.1 r.2 ih hv (hcb _ _ _) hr
    | tick ts hclock hu64 => exact ih

/-- Execute an action if the guard holds. -/
def actG (J : Json) (me : AccountId) (G : State → Ctx → Call → Prop) [∀ s c k, Decidable (G s c k)]
    (w : World) (a : Action) : Option World :=
  match a with
  | .call p d ts k => if G w.st ⟨me, p, d, ts, []⟩ k then act J me w a else none
  | _ => act J me w a

def runsG (J : Json) (me : AccountId) (G : State → Ctx → Call → Prop) [∀ s c k, Decidable (G s c k)]
    (w : World) : List Action → Option World
  | [] => some w
  | a :: l => match actG J me G w a with
    | some w' => runsG J me G w' l
    | none => none

theorem act_log {J : Json} {me : AccountId} {w w' : World} {a : Action} (h : act J me w a = some w') :
    (∃ p d ts k out, a = .call p d ts k ∧ w'.log = .call ⟨me, p, d, ts, []⟩ k out :: w.log) ∨
    ((∀ p d ts k, a ≠ .call p d ts k) ∧ ∀ c k out, w'.log ≠ .call c k out :: w.log) := by
  cases a with
  | call p d ts k =>
    left
    simp only [act] at h
    split at h
    · split at h
      · cases h; exact ⟨p, d, ts, k, _, rfl, rfl⟩
      · simp at h
    · simp at h
  | resolve i ok ts =>
    right
    refine ⟨by simp, ?_⟩
    simp only [act] at h
    split at h
    · split at h
      · cases h; intro c k out; simp
      · simp at h
    · simp at h
  | tick ts =>
    right
    refine ⟨by simp, ?_⟩
    simp only [act] at h
    split at h
    · cases h
      intro c k out hl
      have := congrArg List.length hl
      simp at this
    · simp at h

theorem reachG_of_runs {J : Json} {me : AccountId} {G : State → Ctx → Call → Prop}
    [∀ s c k, Decidable (G s c k)] : ∀ {l : List Action} {w w' : World}, ReachG J me G w →
    runsG J me G w l = some w' → ReachG J me G w'
  | [], w, w', hw, h => by cases h; exact hw
  | a :: l, w, w', hw, h => by
    simp only [runsG] at h
    split at h
    · rename_i w1 hw1
      have hact : act J me w a = some w1 := by
        unfold actG at hw1
        split at hw1
        · split at hw1
          · exact hw1
          · simp at hw1
        · exact hw1
      refine reachG_of_runs (.step hw (step_of_act hact) ?_) h
      intro c k out hl
      rcases act_log hact with ⟨p, d, ts, k', out', rfl, hl'⟩ | ⟨-, hn⟩
      · rw [hl'] at hl
        simp only [List.cons.injEq, Entry.call.injEq] at hl
        obtain ⟨⟨rfl, rfl, -⟩, -⟩ := hl
        simp only [actG] at hw1
        split at hw1
        · assumption
        · simp at hw1
      · exact absurd hl (hn _ _ _)
    · simp at h

instance (s : State) (c : Ctx) (k : Call) : Decidable (unlocksLocked s c k) := by
  have : ∀ i : Nat, Decidable (∀ p : LockingPosition, (s.voterD c.predecessor).locking_positions[i]? = some p →
      p.unlocking_started_at = none) := by
    intro i
    cases h : (s.voterD c.predecessor).locking_positions[i]? with
    | none => exact .isTrue (by simp)
    | some p => exact decidable_of_iff (p.unlocking_started_at = none) (by simp)
  cases k <;> simp only [unlocksLocked] <;> infer_instance

/-- Guarded calls of one account: it unlocks only locked positions. -/
def ownUnlocks (id : String) (s : State) (c : Ctx) (k : Call) : Prop := c.predecessor = id → unlocksLocked s c k

instance (id : String) (s : State) (c : Ctx) (k : Call) : Decidable (ownUnlocks id s c k) := by
  unfold ownUnlocks; infer_instance

theorem unlocksLocked_callback (s : State) (c : Ctx) (t : Transfer) : unlocksLocked s c t.callbackCall := by
  unfold Transfer.callbackCall
  split <;> trivial

/-- A step lets what a voter lacks only grow, and only if the voter unlocks a position that is not locked. -/
theorem Step.short {J : Json} {me : AccountId} {w w' : World} (hs : Step J me w w') {f : String → Nat}
    (h : Short f w.st) (hi : VInv w.st) (hf : ∀ id, mirrored id → f id = 0) :
    ∃ f', Short f' w'.st ∧ (∀ id, mirrored id → f' id = 0) ∧ (∀ id, f id ≤ f' id) ∧
      ∀ id, (∀ c k out, w'.log = .call c k out :: w.log → ownUnlocks id w.st c k) → f' id = f id := by
  have hf' : ∀ e, f (pseudo_near_address e) = 0 := fun e => hf _ (mirrored_pseudo e)
  cases hs with
  | call c k s' out hme hres hm hclock hu64 hexec =>
    obtain ⟨n, h1, h2⟩ := exec_short h hi hf' hexec
    refine ⟨_, h1, ?_, ?_, ?_⟩
    · intro id hid
      unfold bump
      split
      · rename_i he; subst he; exact absurd hid hm
      · exact hf id hid
    · intro id; unfold bump; split <;> omega
    · intro id hg
      unfold bump
      split
      · rename_i he; have := h2 (hg _ _ _ rfl he.symm); omega
      · rfl
  | resolve pre post t ok ts hpend hclock hu64 =>
    refine ⟨f, ?_, hf, fun _ => le_rfl, fun _ _ => rfl⟩
    simp only
    cases hr : exec J w.st ⟨me, me, 0, ts, [ok]⟩ t.callbackCall with
    | error e => exact h
    | ok r =>
      obtain ⟨n, h1, h2⟩ := exec_short h hi hf' hr
      rw [h2 (unlocksLocked_callback _ _ _), bump_zero] at h1
      exact h1
  | tick ts hclock hu64 => exact ⟨f, h, hf, fun _ => le_rfl, fun _ _ => rfl⟩

theorem Init.short {w : World} (h : Init w) : Short (fun _ => 0) w.st := by
  cases h with
  | mk o op a b d l v m st r p ts s hr hts hn =>
    obtain ⟨-, -, rfl⟩ := new_ok hn
    intro id; rfl

/-- What every voter lacks of its locked power. -/
theorem reach_short {J : Json} {me : AccountId} {w : World} (h : Reach J me w) :
    ∃ f, Short f w.st ∧ ∀ id, mirrored id → f id = 0 := by
  induction h with
  | init h => exact ⟨_, h.short, fun _ _ => rfl⟩
  | step h hs ih =>
    obtain ⟨f, h1, h2⟩ := ih
    obtain ⟨f', h1', h2', -⟩ := hs.short h1 (reach_vinv h) h2
    exact ⟨f', h1', h2'⟩

/-- A voter that unlocked only locked positions has exactly its locked power, available or used. -/
theorem reachG_exact {J : Json} {me : AccountId} {id : String} {w : World} (h : ReachG J me (ownUnlocks id) w) :
    (w.st.voterD id).power = (w.st.voterD id).lockedVp := by
  suffices ∃ f, Short f w.st ∧ (∀ i, mirrored i → f i = 0) ∧ f id = 0 by
    obtain ⟨f, h1, -, h2⟩ := this
    have := h1 id
    omega
  induction h with
  | init h => exact ⟨_, h.short, fun _ _ => rfl, rfl⟩
  | step h hs hg ih =>
    obtain ⟨f, h1, h2, h3⟩ := ih
    obtain ⟨f', h1', h2', -, h4⟩ := hs.short h1 (reach_vinv h.reach) h2
    exact ⟨f', h1', h2', by rw [h4 id hg, h3]⟩

end Verif.MetaVote
