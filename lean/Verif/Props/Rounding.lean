import Verif.MetaVote.Near
import Verif.MetaVote.Trace
import Verif.MetaVote.ViewLemmas

/-!
# C75: the recorded power of a position and the formula
-/

namespace Verif.MetaVote

open Verif

/-- **C75**: sixty times the power of a position differs from amount (in 10^-24 units) times days by less than sixty for the
position itself and for every deposit to, or split of, a position of the voter.  `roundsIn` counts, in the history, the token
deposits for the voter, the positions migrated for the voter, and the calls of the voter that lock, relock or unlock in part. -/
theorem C75_close {J : Json} {me : AccountId} {w : World} (h : LReach J me w) (id : String) (now : Nat) :
    ∀ p ∈ w.st.get_all_locking_positions now id,
      p.amount * 10 ^ 18 * p.locking_period ≤ 60 * p.voting_power + 59 * (roundsIn J id w.log + 1) ∧
      60 * p.voting_power ≤ p.amount * 10 ^ 18 * p.locking_period + 59 * (roundsIn J id w.log + 1) := by
  intro p hp
  simp only [State.get_all_locking_positions, positions_json, internal_get_voter_eq, List.mem_map] at hp
  obtain ⟨⟨q, i⟩, hq, rfl⟩ := hp
  exact LReach.near h id q (List.fst_mem_of_mem_zipIdx hq)

/-- **C75**: so the power is the formula up to one unit per deposit or split. -/
theorem C75_units {J : Json} {me : AccountId} {w : World} (h : LReach J me w) (id : String) (now : Nat) :
    ∀ p ∈ w.st.get_all_locking_positions now id,
      p.amount * 10 ^ 18 * p.locking_period / 60 ≤ p.voting_power + roundsIn J id w.log + 1 ∧
      p.voting_power ≤ p.amount * 10 ^ 18 * p.locking_period / 60 + roundsIn J id w.log + 1 := by
  intro p hp
  have key : ∀ x y n : Nat, x ≤ 60 * y + 59 * (n + 1) ∧ 60 * y ≤ x + 59 * (n + 1) → x / 60 ≤ y + n + 1 ∧ y ≤ x / 60 + n + 1 := by
    intro x y n ⟨h1, h2⟩; omega
  exact key _ _ _ (C75_close h id now p hp)

/-- One mpDAO deposited twice for one day. -/
def twice : List Action :=
  [ .call "mpdao" 0 1000 (.ft_on_transfer "alice" 1000000 (ascii "1")),
    .call "mpdao" 0 3000 (.ft_on_transfer "alice" 1000000 (ascii "1")) ]

def twiceW : World := (runs demoJ "me" demo0 twice).get (by decide +kernel)

/-- **C75**: the power of a position is not always the one of the formula for its amount and period: two deposits to a
position give less than one deposit of both. -/
theorem C75_not_exact : ¬ ∀ (J : Json) (me : AccountId) (w : World), Reach J me w → ∀ id now,
    ∀ p ∈ w.st.get_all_locking_positions now id, p.voting_power = p.amount * 10 ^ 18 * p.locking_period / 60 := by
  intro h
  have := h demoJ "me" twiceW (reach_of_runs demo0_init (Option.some_get _).symm) "alice" 0
    ⟨some 0, 2000000, 1, 33333333333333333333332, none, false, false, true⟩ (by decide +kernel)
  revert this
  decide

example : roundsIn demoJ "alice" twiceW.log = 2 ∧ (twiceW.st.get_all_locking_positions 0 "alice").length = 1 := by
  decide +kernel

end Verif.MetaVote
