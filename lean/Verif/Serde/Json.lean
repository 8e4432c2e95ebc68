import Verif.Storage.Keys

/-!
# JSON text

The text format in which arguments, answers and results travel (crate `serde_json`, not in `/repo`; modelled from its published
source and RFC 8259).  `render` is `serde_json::to_vec`; `parse` is `serde_json::from_slice` up to the choice of the Rust type,
with its limit of 127 nested arrays and objects.  The text of a number is kept, since Rust types differ in what they accept.
Simplification: the values of members that the Rust type does not have are checked like all others (serde_json skips them without
looking at surrogates and UTF-8 in their strings and at the size of their numbers).
-/

namespace Verif.Serde

open Verif Storage

/-- A JSON value. -/
inductive Val where
  | null
  | bool (b : Bool)
  /-- a number, as it is written -/
  | num (t : Bytes)
  | str (s : String)
  | arr (l : List Val)
  | obj (l : List (String × Val))

/-! ## Writer -/

/-- Lowercase hexadecimal digit. -/
def hexDigit (n : Nat) : UInt8 := if n < 10 then UInt8.ofNat (48 + n) else UInt8.ofNat (87 + n)

/-- One byte inside a string (`serde_json::ser::format_escaped_str_contents`, table `ESCAPE`). -/
def escape (b : UInt8) : Bytes :=
  if b = 0x22 then [0x5C, 0x22]
  else if b = 0x5C then [0x5C, 0x5C]
  else if b = 0x08 then [0x5C, 0x62]
  else if b = 0x09 then [0x5C, 0x74]
  else if b = 0x0A then [0x5C, 0x6E]
  else if b = 0x0C then [0x5C, 0x66]
  else if b = 0x0D then [0x5C, 0x72]
  else if b < 0x20 then [0x5C, 0x75, 0x30, 0x30, hexDigit (b.toNat / 16), hexDigit (b.toNat % 16)]
  else [b]

/-- A string with its quotes. -/
def quote (s : String) : Bytes := 0x22 :: (utf8 s).flatMap escape ++ [0x22]

mutual
/-- `serde_json::to_vec` -/
def render : Val → Bytes
  | .null => [0x6E, 0x75, 0x6C, 0x6C]
  | .bool true => [0x74, 0x72, 0x75, 0x65]
  | .bool false => [0x66, 0x61, 0x6C, 0x73, 0x65]
  | .num t => t
  | .str s => quote s
  | .arr [] => [0x5B, 0x5D]
  | .arr (v :: l) => 0x5B :: (render v ++ renderElems l)
  | .obj [] => [0x7B, 0x7D]
  | .obj (p :: l) => 0x7B :: (quote p.1 ++ 0x3A :: (render p.2 ++ renderMembers l))
/-- What follows an element. -/
def renderElems : List Val → Bytes
  | [] => [0x5D]
  | v :: l => 0x2C :: (render v ++ renderElems l)
/-- What follows a member. -/
def renderMembers : List (String × Val) → Bytes
  | [] => [0x7D]
  | p :: l => 0x2C :: (quote p.1 ++ 0x3A :: (render p.2 ++ renderMembers l))
end

/-! ## Reader -/

/-- White space is skipped. -/
def ws : Bytes → Bytes
  | [] => []
  | b :: t => if b = 0x20 ∨ b = 0x0A ∨ b = 0x09 ∨ b = 0x0D then ws t else b :: t

/-- Value of a hexadecimal digit. -/
def unhex (b : UInt8) : Option Nat :=
  if 0x30 ≤ b ∧ b ≤ 0x39 then some (b.toNat - 48)
  else if 0x61 ≤ b ∧ b ≤ 0x66 then some (b.toNat - 87)
  else if 0x41 ≤ b ∧ b ≤ 0x46 then some (b.toNat - 55)
  else none

/-- Four of them. -/
def unhex4 (a b c d : UInt8) : Option Nat :=
  match unhex a, unhex b, unhex c, unhex d with
  | some a, some b, some c, some d => some (((a * 16 + b) * 16 + c) * 16 + d)
  | _, _, _, _ => none

/-- UTF-8 bytes of a code point. -/
def point (n : Nat) : Bytes := utf8 (String.singleton (Char.ofNat n))

/-- The escapes of one letter. -/
def unescape (e : UInt8) : Option UInt8 :=
  if e = 0x22 ∨ e = 0x5C ∨ e = 0x2F then some e
  else if e = 0x62 then some 0x08
  else if e = 0x66 then some 0x0C
  else if e = 0x6E then some 0x0A
  else if e = 0x72 then some 0x0D
  else if e = 0x74 then some 0x09
  else none

/-- The bytes of a string up to its closing quote, and what follows.  Surrogates have to come in pairs. -/
def chars : Bytes → Option (Bytes × Bytes)
  | [] => none
  | c :: t =>
    if c = 0x22 then some ([], t)
    else if c < 0x20 then none
    else if c = 0x5C then
      match t with
      | [] => none
      | e :: t =>
        if e = 0x75 then
          match t with
          | h1 :: h2 :: h3 :: h4 :: t =>
            match unhex4 h1 h2 h3 h4 with
            | none => none
            | some n =>
              if 0xD800 ≤ n ∧ n ≤ 0xDBFF then
                match t with
                | 0x5C :: 0x75 :: l1 :: l2 :: l3 :: l4 :: t =>
                  match unhex4 l1 l2 l3 l4 with
                  | none => none
                  | some m =>
                    if 0xDC00 ≤ m ∧ m ≤ 0xDFFF then
                      (chars t).map fun r => (point (0x10000 + (n - 0xD800) * 0x400 + (m - 0xDC00)) ++ r.1, r.2)
                    else none
                | _ => none
              else if 0xDC00 ≤ n ∧ n ≤ 0xDFFF then none
              else (chars t).map fun r => (point n ++ r.1, r.2)
          | _ => none
        else
          match unescape e with
          | none => none
          | some b => (chars t).map fun r => (b :: r.1, r.2)
    else (chars t).map fun r => (c :: r.1, r.2)

/-- A string after its opening quote: it has to be UTF-8. -/
def string (b : Bytes) : Option (String × Bytes) :=
  match chars b with
  | none => none
  | some (u, r) => match String.fromUTF8? ⟨u.toArray⟩ with
    | none => none
    | some s => some (s, r)

/-- A decimal digit. -/
def isDigit (b : UInt8) : Bool := decide (0x30 ≤ b ∧ b ≤ 0x39)

/-- The digits at the beginning, and the rest. -/
def spanDigits : Bytes → Bytes × Bytes
  | [] => ([], [])
  | b :: t => if isDigit b then (b :: (spanDigits t).1, (spanDigits t).2) else ([], b :: t)

/-- `0`, or digits that do not begin with `0`. -/
def intPart (b : Bytes) : Option (Bytes × Bytes) :=
  match spanDigits b with
  | ([], _) => none
  | (x :: d, r) => if x = 0x30 ∧ d ≠ [] then none else some (x :: d, r)

/-- Nothing, or a point and digits. -/
def fracPart : Bytes → Option (Bytes × Bytes)
  | 0x2E :: t => match spanDigits t with
    | ([], _) => none
    | (d, r) => some (0x2E :: d, r)
  | b => some ([], b)

/-- A sign, or nothing. -/
def sign : Bytes → Bytes × Bytes
  | 0x2B :: u => ([0x2B], u)
  | 0x2D :: u => ([0x2D], u)
  | u => ([], u)

/-- Nothing, or `e`, a sign, and digits. -/
def expPart : Bytes → Option (Bytes × Bytes)
  | c :: t =>
    if c = 0x65 ∨ c = 0x45 then
      match spanDigits (sign t).2 with
      | ([], _) => none
      | (d, r) => some (c :: (sign t).1 ++ d, r)
    else some ([], c :: t)
  | [] => some ([], [])

/-- A minus sign, or nothing. -/
def minus : Bytes → Bytes × Bytes
  | 0x2D :: u => ([0x2D], u)
  | u => ([], u)

/-- A number. -/
def number (b : Bytes) : Option (Bytes × Bytes) :=
  match intPart (minus b).2 with
  | none => none
  | some (i, r) => match fracPart r with
    | none => none
    | some (f, r) => match expPart r with
      | none => none
      | some (e, r) => some ((minus b).1 ++ i ++ f ++ e, r)

mutual
/-- A value and what follows it; `d` is one more than the number of arrays and objects that may be nested, `n` bounds the
recursion (`parse` gives enough). -/
def value (n d : Nat) (b : Bytes) : Option (Val × Bytes) :=
  match n with
  | 0 => none
  | n + 1 => match ws b with
    | 0x22 :: t => (string t).map fun r => (.str r.1, r.2)
    | 0x5B :: t =>
      if d ≤ 1 then none
      else match ws t with
        | 0x5D :: r => some (.arr [], r)
        | t => (elems n (d - 1) t).map fun r => (.arr r.1, r.2)
    | 0x7B :: t =>
      if d ≤ 1 then none
      else match ws t with
        | 0x7D :: r => some (.obj [], r)
        | t => (members n (d - 1) t).map fun r => (.obj r.1, r.2)
    | 0x6E :: 0x75 :: 0x6C :: 0x6C :: r => some (.null, r)
    | 0x74 :: 0x72 :: 0x75 :: 0x65 :: r => some (.bool true, r)
    | 0x66 :: 0x61 :: 0x6C :: 0x73 :: 0x65 :: r => some (.bool false, r)
    | t => (number t).map fun r => (.num r.1, r.2)
/-- Elements up to the closing bracket. -/
def elems (n d : Nat) (b : Bytes) : Option (List Val × Bytes) :=
  match n with
  | 0 => none
  | n + 1 => match value n d b with
    | none => none
    | some (v, r) => match ws r with
      | 0x2C :: r => (elems n d r).map fun q => (v :: q.1, q.2)
      | 0x5D :: r => some ([v], r)
      | _ => none
/-- Members up to the closing brace. -/
def members (n d : Nat) (b : Bytes) : Option (List (String × Val) × Bytes) :=
  match n with
  | 0 => none
  | n + 1 => match ws b with
    | 0x22 :: t => match string t with
      | none => none
      | some (k, r) => match ws r with
        | 0x3A :: r => match value n d r with
          | none => none
          | some (v, r) => match ws r with
            | 0x2C :: r => (members n d r).map fun q => ((k, v) :: q.1, q.2)
            | 0x7D :: r => some ([(k, v)], r)
            | _ => none
        | _ => none
    | _ => none
end

/-- `serde_json::from_slice`: nothing but white space may follow. -/
def parse (b : Bytes) : Option Val :=
  match value (2 * b.length + 2) 128 b with
  | some (v, r) => match ws r with
    | [] => some v
    | _ => none
  | none => none

end Verif.Serde
