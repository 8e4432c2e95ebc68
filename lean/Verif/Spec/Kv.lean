import Verif.Kv.Model

/-! # What a log of accepted calls to the key-value store means -/

namespace Verif.Kv

/-- What one call does to key `key`: `none` if nothing, else the new value (or its absence). -/
def effect (key : String) : Call → Option (Option String)
  | .set_value k v => if k = key then some (some v) else none
  | .set_values l => match l.reverse.find? (fun kv => kv.1 = key) with
    | some kv => some (some kv.2)
    | none => none
  | .remove_value k => if k = key then some none else none
  | _ => none

/-- Value of a key: that of the newest call that concerns it. -/
def valueOf (key : String) : List (Ctx × Call) → Option String
  | [] => none
  | (_, k) :: l => match effect key k with
    | some x => x
    | none => valueOf key l

/-- Owner according to the log. -/
def ownerOf (owner : String) : List (Ctx × Call) → String
  | [] => owner
  | (_, .set_owner_id a) :: _ => a
  | _ :: l => ownerOf owner l

/-- Operator according to the log. -/
def operatorOf (operator : String) : List (Ctx × Call) → String
  | [] => operator
  | (_, .set_operator_id a) :: _ => a
  | _ :: l => operatorOf operator l

/-- A call that changes the stored data. -/
def writes : Call → Bool
  | .set_value .. | .set_values .. | .remove_value .. => true
  | _ => false

end Verif.Kv
