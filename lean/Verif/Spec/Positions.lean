import Verif.Spec.MetaVote

/-!
# Specification vocabulary for locking positions
-/

namespace Verif.MetaVote

open Verif

/-- Unbonding has ended: it was started and the full period has passed. -/
def LockingPosition.matured (p : LockingPosition) (now : Nat) : Prop :=
  ∃ t, p.unlocking_started_at = some t ∧ t + p.locking_period * 86400000 < now

/-- Still unbonding. -/
def LockingPosition.maturing (p : LockingPosition) (now : Nat) : Prop :=
  ∃ t, p.unlocking_started_at = some t ∧ now ≤ t + p.locking_period * 86400000

instance (p : LockingPosition) (now : Nat) : Decidable (p.matured now) :=
  match h : p.unlocking_started_at with
  | some t => if h2 : t + p.locking_period * 86400000 < now then .isTrue ⟨t, h, h2⟩
    else .isFalse (by rintro ⟨x, hx, h3⟩; rw [h] at hx; cases hx; exact h2 h3)
  | none => .isFalse (by rintro ⟨x, hx, -⟩; rw [h] at hx; cases hx)

instance (p : LockingPosition) (now : Nat) : Decidable (p.maturing now) :=
  match h : p.unlocking_started_at with
  | some t => if h2 : now ≤ t + p.locking_period * 86400000 then .isTrue ⟨t, h, h2⟩
    else .isFalse (by rintro ⟨x, hx, h3⟩; rw [h] at hx; cases hx; exact h2 h3)
  | none => .isFalse (by rintro ⟨x, hx, -⟩; rw [h] at hx; cases hx)

/-- mpDAO the voter can withdraw at `now`: balance plus matured positions. -/
def Voter.withdrawable (v : Voter) (now : Nat) : Nat :=
  v.balance + posSum (fun p => if p.matured now then p.amount else 0) v.locking_positions

/-- Positions of `l` that are not matured. -/
def notMatured (now : Nat) (l : List LockingPosition) : List LockingPosition :=
  l.filter (fun p => decide (¬ p.matured now))

/-- The locked positions of period `d`. -/
def isLockedFor (d : Nat) (p : LockingPosition) : Bool :=
  decide (p.unlocking_started_at = none ∧ p.locking_period = d)

/-- mpDAO locked for `d` days. -/
def lockedAmount (d : Nat) (l : List LockingPosition) : Nat :=
  posSum (fun p => if isLockedFor d p then p.amount else 0) l

/-- Voting power of the positions locked for `d` days. -/
def lockedVpFor (d : Nat) (l : List LockingPosition) : Nat :=
  posSum (fun p => if isLockedFor d p then p.voting_power else 0) l

/-- All the positions except those locked for `d` days, in order. -/
def restPositions (d : Nat) (l : List LockingPosition) : List LockingPosition :=
  l.filter (fun p => !isLockedFor d p)

/-- `m` is a decimal number (with an optional `+`) that fits a `u16`, and `n` its value. -/
def isDays (m : List UInt8) (n : Nat) : Prop :=
  ∃ ds : List UInt8, ds ≠ [] ∧ (m = ds ∨ m = 43 :: ds) ∧ (∀ b ∈ ds, 48 ≤ b.toNat ∧ b.toNat ≤ 57) ∧
    n = ds.foldl (fun v b => v * 10 + (b.toNat - 48)) 0 ∧ n ≤ U16_MAX

/-- The position a mirroring installs for the pair (days, amount): locked, with its power. -/
def mirrorPosition (lp : Nat × Nat) : LockingPosition := ⟨lp.2, lp.1, lp.2 * 10 ^ 18 * lp.1 / 60, none⟩

/-- Power of the pairs (days, amount). -/
def mirrorPower (l : List (Nat × Nat)) : Nat := (l.map (fun lp => lp.2 * 10 ^ 18 * lp.1 / 60)).sum

end Verif.MetaVote
