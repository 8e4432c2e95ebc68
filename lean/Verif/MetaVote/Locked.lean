import Verif.MetaVote.Clear
import Verif.MetaVote.Dist

/-!
# Deposits into positions, and the message of a deposit
-/

namespace Verif.MetaVote

open Verif

theorem restPositions_set {d i : Nat} {p q : LockingPosition} {l : List LockingPosition}
    (hp : l[i]? = some p) (h1 : isLockedFor d p = true) (h2 : isLockedFor d q = true) :
    restPositions d (l.set i q) = restPositions d l := by
  unfold restPositions
  induction l generalizing i with
  | nil => rfl
  | cons a t ih =>
    cases i with
    | zero =>
      simp only [List.getElem?_cons_zero, Option.some.injEq] at hp
      subst hp
      simp [h1, h2]
    | succ i =>
      simp only [List.getElem?_cons_succ] at hp
      simp only [List.set_cons_succ, List.filter_cons, ih hp]

/-- A deposit of `a` for `d` days: what is locked for `d` days grows, the other positions are kept. -/
theorem Deposited.locked {v : Voter} {m a d vp : Nat} {ps : List LockingPosition}
    (h : Deposited v m a d vp ps) :
    lockedAmount d ps = lockedAmount d v.locking_positions + a ∧
    lockedVpFor d ps = lockedVpFor d v.locking_positions + vp ∧
    restPositions d ps = restPositions d v.locking_positions := by
  cases h with
  | increase i p hf hp hd hl ha hv =>
    have h1 : isLockedFor d p = true := by simp [isLockedFor, hd, hl]
    have h2 : isLockedFor d ⟨p.amount + a, d, p.voting_power + vp, none⟩ = true := by simp [isLockedFor]
    refine ⟨?_, ?_, restPositions_set hp h1 h2⟩
    · have := posSum_set (fun p => if isLockedFor d p then p.amount else 0) _ i p
        ⟨p.amount + a, d, p.voting_power + vp, none⟩ hp
      simp only [h1, h2, if_true] at this
      unfold lockedAmount; omega
    · have := posSum_set (fun p => if isLockedFor d p then p.voting_power else 0) _ i p
        ⟨p.amount + a, d, p.voting_power + vp, none⟩ hp
      simp only [h1, h2, if_true] at this
      unfold lockedVpFor; omega
  | create hf hl =>
    have h2 : isLockedFor d ⟨a, d, vp, none⟩ = true := by simp [isLockedFor]
    refine ⟨?_, ?_, ?_⟩
    · simp [lockedAmount, MetaVote.posSum, h2]
    · simp [lockedVpFor, MetaVote.posSum, h2]
    · simp [restPositions, h2]

theorem digits_iff : ∀ (l : List UInt8) (acc n : Nat), digits l acc = some n ↔
    (∀ b ∈ l, 48 ≤ b.toNat ∧ b.toNat ≤ 57) ∧ n = l.foldl (fun v b => v * 10 + (b.toNat - 48)) acc
  | [], acc, n => by simp [digits, eq_comm]
  | b :: t, acc, n => by
    unfold digits
    split
    · rename_i hb
      rw [digits_iff t]; simp [hb]
    · rename_i hb
      simp only [reduceCtorEq, List.mem_cons, forall_eq_or_imp, false_iff]
      exact fun h => hb h.1.1

theorem digits_bound {ds : List UInt8} {n : Nat} : (match digits ds 0 with
    | some n => if n ≤ U16_MAX then some n else none
    | none => none) = some n ↔ digits ds 0 = some n ∧ n ≤ U16_MAX := by
  cases digits ds 0 with
  | none => simp
  | some k =>
    by_cases hk : k ≤ U16_MAX
    · simp only [hk, if_true, Option.some.injEq]; exact ⟨fun h => ⟨h, h ▸ hk⟩, fun h => h.1⟩
    · simp only [hk, if_false, Option.some.injEq, reduceCtorEq, false_iff]
      rintro ⟨rfl, h⟩; exact hk h

/-- The parser of the days accepts exactly the decimal numbers that fit a `u16`. -/
theorem parse_u16_iff (m : List UInt8) (n : Nat) : parse_u16 m = some n ↔ isDays m n := by
  have key : ∀ ds : List UInt8, ((if ds = [] then none else match digits ds 0 with
      | some n => if n ≤ U16_MAX then some n else none
      | none => none) = some n) ↔ ds ≠ [] ∧ (∀ b ∈ ds, 48 ≤ b.toNat ∧ b.toNat ≤ 57) ∧
      n = ds.foldl (fun v b => v * 10 + (b.toNat - 48)) 0 ∧ n ≤ U16_MAX := by
    intro ds
    by_cases h0 : ds = []
    · simp [h0]
    · rw [if_neg h0, digits_bound, digits_iff]; simp [h0, and_assoc]
  refine Iff.trans (key (match m with | 43 :: t => t | _ => m)) ?_
  unfold isDays
  split
  · rename_i t
    constructor
    · rintro ⟨h0, h1, h2⟩; exact ⟨t, h0, .inr rfl, h1, h2⟩
    · rintro ⟨ds, h0, rfl | h, h1, h2⟩
      · have := h1 43 (by simp); simp at this
      · rw [List.cons.injEq] at h; obtain ⟨-, rfl⟩ := h; exact ⟨h0, h1, h2⟩
  · rename_i hn
    constructor
    · rintro ⟨h0, h1, h2⟩; exact ⟨m, h0, .inl rfl, h1, h2⟩
    · rintro ⟨ds, h0, rfl | rfl, h1, h2⟩
      · exact ⟨h0, h1, h2⟩
      · exact absurd rfl (hn ds)

theorem has_prefix_eq_true {m p : List UInt8} (h : p <+: m)
    (hb : is_char_boundary m p.length = true) : has_prefix m p = .ok true := by
  unfold has_prefix
  rw [if_pos h.length_le]
  simp only [bind_ok_iff, require_ok_iff, pure_ok_iff]
  exact ⟨(), hb, by simpa using (List.prefix_iff_eq_take.1 h).symm⟩

end Verif.MetaVote
