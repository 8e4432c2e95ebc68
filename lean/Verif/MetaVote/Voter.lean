import Verif.MetaVote.Types
import Mathlib.Data.List.Sort

/-!
# meta-vote contract: `voter.rs`
-/

namespace Verif.MetaVote

open Verif

/-- Checked sum of `u128` values, `result += x` in a loop or `Iterator::sum::<u128>()`. -/
def sumU128 : List Nat → Res Nat
  | [] => pure 0
  | x :: t => do
    let r ← sumU128 t
    addU128 x r

namespace Voter

/-- `voter.rs:24-35`.  Simplification: the storage prefixes are not part of the
value, so a map recreated over stale entries, or two maps sharing a prefix, are not represented
(`Verif/Storage` models them as they are stored). -/
def new : Voter := ⟨0, [], 0, UMap.empty⟩

/-- `voter.rs:37-39` -/
def is_empty (v : Voter) : Bool := v.balance == 0 && v.locking_positions.isEmpty

/-- `voter.rs:41-49` (sum order reversed; the checked sum does not depend on it). -/
def sum_locked (v : Voter) : Res Nat :=
  sumU128 ((v.locking_positions.filter (·.is_locked)).map (·.amount))

/-- `voter.rs:51-59` -/
def sum_unlocking (v : Voter) (now : Nat) : Res Nat :=
  sumU128 ((v.locking_positions.filter (·.is_unlocking now)).map (·.amount))

/-- `voter.rs:61-69` -/
def sum_unlocked (v : Voter) (now : Nat) : Res Nat :=
  sumU128 ((v.locking_positions.filter (·.is_unlocked now)).map (·.amount))

/-- `voter.rs:71-77` -/
def sum_used_votes (v : Voter) : Res Nat := do
  let sums ← v.vote_positions.values.mapM (fun m => sumU128 m.values)
  sumU128 sums

/-- `voter.rs:79-88` -/
def find_locked_position (v : Voter) (unbond_days : Nat) : Option Nat :=
  v.locking_positions.findIdx? (fun p => p.locking_period == unbond_days && p.is_locked)

/-- `voter.rs:90-94` -/
def get_position (v : Voter) (index : Nat) : Res LockingPosition :=
  expect v.locking_positions[index]? "Index out of range!"

/-- `Vector::replace(index, p)`: only called after `get_position(index)` succeeded. -/
def replace_position (v : Voter) (index : Nat) (p : LockingPosition) : Voter :=
  { v with locking_positions := v.locking_positions.set index p }

/-- `voter.rs:96-98`: only called after `get_position(index)` succeeded. -/
def remove_position (v : Voter) (index : Nat) : Voter :=
  { v with locking_positions := swapRemove v.locking_positions index }

/-- `voter.rs:100-111` -/
def get_vote_position_for_address (v : Voter) (contract_address : String) : UMap String Nat :=
  (v.vote_positions.get contract_address).getD UMap.empty

/-- `voter.rs:113-125` -/
def get_unlocked_position_indexes (v : Voter) (now : Nat) : List Nat :=
  (List.range v.locking_positions.length).filter (fun i =>
    match v.locking_positions[i]? with
    | some p => p.is_unlocked now
    | none => false)

/-- Body of the loop at `voter.rs:161-168`. -/
def clear_one (now : Nat) (v : Voter) (index : Nat) : Res Voter := do
  let locking_position ← v.get_position index
  if locking_position.is_unlocked now then
    let balance ← addU128 v.balance locking_position.amount
    pure (({ v with balance := balance }).remove_position index)
  else
    pure v

/-- `voter.rs:158-160`: `sort(); reverse()`, i.e. descending order. -/
def sortDesc (l : List Nat) : List Nat := l.insertionSort (fun a b => b ≤ a)

/-- `voter.rs:157-169` -/
def clear_fully_unlocked_positions (v : Voter) (now : Nat) (position_index_list : List Nat) : Res Voter :=
  (sortDesc position_index_list).foldlM (clear_one now) v

end Voter

end Verif.MetaVote
