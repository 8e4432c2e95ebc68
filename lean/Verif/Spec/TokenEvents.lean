import Verif.Token.Events

/-!
# What the lines of the token say
-/

namespace Verif.Token

/-- What a line gives to an account. -/
def Line.gives (a : AccountId) : Line → Nat
  | .mint o n => if o = a then n else 0
  | .transfer _ o n => if o = a then n else 0
  | _ => 0

/-- What an event of the standard takes from an account. -/
def Line.takes (a : AccountId) : Line → Nat
  | .burn o n => if o = a then n else 0
  | .transfer o _ n => if o = a then n else 0
  | _ => 0

/-- What was in an account when it was closed. -/
def Line.closes (a : AccountId) : Line → Nat
  | .closed o n => if o = a then n else 0
  | _ => 0

/-- Created, destroyed, and lost with closed accounts. -/
def Line.made : Line → Nat
  | .mint _ n => n
  | _ => 0
def Line.destroyed : Line → Nat
  | .burn _ n => n
  | _ => 0
def Line.lost : Line → Nat
  | .closed _ n => n
  | _ => 0

/-- Sum over lines. -/
def total (f : Line → Nat) (l : List Line) : Nat := (l.map f).sum

end Verif.Token
