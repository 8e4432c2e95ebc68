import Verif.MetaVote.Step

/-!
# Specification vocabulary for the meta-vote contract

Quantities a user can observe through the views, defined directly on the data and independently of
the functions of the contract.
-/

namespace Verif.MetaVote

open Verif

/-- Sum of a quantity over a list of positions. -/
def posSum (g : LockingPosition → Nat) (l : List LockingPosition) : Nat := (l.map g).sum

/-- Two-level lookup, 0 when absent. -/
def vget (m : UMap String (UMap String Nat)) (c o : String) : Nat :=
  ((m.get c).bind (·.get o)).getD 0

/-- Sum of all entries of a two-level map. -/
def vsum (m : UMap String (UMap String Nat)) : Nat := m.sum (fun _ x => x.sum (fun _ n => n))

/-- No contract is listed without objects. -/
def vclean (m : UMap String (UMap String Nat)) : Prop :=
  ∀ c x, m.get c = some x → x.isEmpty = false

/-- No recorded vote is zero. -/
def vpos (m : UMap String (UMap String Nat)) : Prop :=
  ∀ c x, m.get c = some x → ∀ o n, x.get o = some n → n ≠ 0

namespace Voter

/-- Voting power of the locked positions. -/
def lockedVp (v : Voter) : Nat :=
  posSum (fun p => if p.unlocking_started_at = none then p.voting_power else 0) v.locking_positions

/-- mpDAO in all positions, locked or not. -/
def inPositions (v : Voter) : Nat := posSum (·.amount) v.locking_positions

/-- mpDAO the contract holds for the voter (claims apart). -/
def held (v : Voter) : Nat := v.balance + v.inPositions

/-- Votes given to object `o` of contract `c`. -/
def votesOf (v : Voter) (c o : String) : Nat := vget v.vote_positions c o

/-- All the votes given. -/
def used (v : Voter) : Nat := vsum v.vote_positions

/-- Available plus used voting power. -/
def power (v : Voter) : Nat := v.available_voting_power + v.used

end Voter

namespace State

/-- The voter record, a blank one when there is none. -/
def voterD (s : State) (id : String) : Voter := (s.voters.get id).getD ⟨0, [], 0, UMap.empty⟩

/-- Total votes of object `o` of contract `c`, as returned by `get_total_votes`. -/
def totalVotes (s : State) (c o : String) : Nat := vget s.votes c o

end State

end Verif.MetaVote
