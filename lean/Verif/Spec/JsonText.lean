import Verif.Serde.Json

/-!
# JSON texts

The grammar of RFC 8259 as relations between values and bytes.  Nothing here uses the reader; a value is an abstract tree
(`Serde.Val`), with numbers kept as they are written.
-/

namespace Verif.JsonText

open Verif Storage Serde

/-- White space (RFC 8259, section 2). -/
def Space (b : Bytes) : Prop := ∀ c ∈ b, c = 0x20 ∨ c = 0x09 ∨ c = 0x0A ∨ c = 0x0D

/-- `DIGIT` -/
def Digit (c : UInt8) : Prop := 0x30 ≤ c ∧ c ≤ 0x39

/-- `1*DIGIT` -/
def Digits (b : Bytes) : Prop := b ≠ [] ∧ ∀ c ∈ b, Digit c

/-- `int = zero / ( digit1-9 *DIGIT )` (section 6) -/
def IsInt (b : Bytes) : Prop := b = [0x30] ∨ ∃ x t, b = x :: t ∧ 0x31 ≤ x ∧ x ≤ 0x39 ∧ ∀ c ∈ t, Digit c

/-- `[ decimal-point 1*DIGIT ]` -/
def IsFrac (b : Bytes) : Prop := b = [] ∨ ∃ d, b = 0x2E :: d ∧ Digits d

/-- `[ e [ minus / plus ] 1*DIGIT ]` -/
def IsExp (b : Bytes) : Prop :=
  b = [] ∨ ∃ e s d, b = e :: (s ++ d) ∧ (e = 0x65 ∨ e = 0x45) ∧ (s = [] ∨ s = [0x2B] ∨ s = [0x2D]) ∧ Digits d

/-- `number = [ minus ] int [ frac ] [ exp ]` -/
def IsNumber (b : Bytes) : Prop :=
  ∃ m i f e, b = m ++ (i ++ (f ++ e)) ∧ (m = [] ∨ m = [0x2D]) ∧ IsInt i ∧ IsFrac f ∧ IsExp e

/-- Hexadecimal digits, small or capital, and their values. -/
inductive Hex : UInt8 → Nat → Prop
  | digit (n : Nat) (h : n < 10) : Hex (UInt8.ofNat (0x30 + n)) n
  | small (n : Nat) (h : n < 6) : Hex (UInt8.ofNat (0x61 + n)) (10 + n)
  | capital (n : Nat) (h : n < 6) : Hex (UInt8.ofNat (0x41 + n)) (10 + n)

/-- Four of them. -/
def Hex4 (b : Bytes) (n : Nat) : Prop :=
  ∃ c1 c2 c3 c4 n1 n2 n3 n4, b = [c1, c2, c3, c4] ∧ Hex c1 n1 ∧ Hex c2 n2 ∧ Hex c3 n3 ∧ Hex c4 n4 ∧
    n = n1 * 4096 + n2 * 256 + n3 * 16 + n4

/-- What is between the quotes of a string, and the UTF-8 bytes it stands for (section 7): bytes other than quote, backslash and
control characters stand for themselves; eight escapes of one letter; `\uXXXX` for a code point, in pairs of surrogates above
`0xFFFF`. -/
inductive Chars : Bytes → Bytes → Prop
  | nil : Chars [] []
  | plain (c : UInt8) {q u : Bytes} (h : 0x20 ≤ c) (hq : c ≠ 0x22) (hb : c ≠ 0x5C) (ht : Chars q u) : Chars (c :: q) (c :: u)
  | letter (e b : UInt8) {q u : Bytes}
      (h : (e, b) ∈ [((0x22, 0x22) : UInt8 × UInt8), (0x5C, 0x5C), (0x2F, 0x2F), (0x62, 0x08), (0x66, 0x0C), (0x6E, 0x0A),
        (0x72, 0x0D), (0x74, 0x09)])
      (ht : Chars q u) : Chars (0x5C :: e :: q) (b :: u)
  | unit (h : Bytes) (n : Nat) {q u : Bytes} (hn : Hex4 h n) (hs : n < 0xD800 ∨ 0xDFFF < n) (ht : Chars q u) :
      Chars (0x5C :: 0x75 :: (h ++ q)) (utf8 (String.singleton (Char.ofNat n)) ++ u)
  | pair (h l : Bytes) (n m : Nat) {q u : Bytes} (hn : Hex4 h n) (hm : Hex4 l m) (h1 : 0xD800 ≤ n ∧ n ≤ 0xDBFF)
      (h2 : 0xDC00 ≤ m ∧ m ≤ 0xDFFF) (ht : Chars q u) :
      Chars (0x5C :: 0x75 :: (h ++ 0x5C :: 0x75 :: (l ++ q)))
        (utf8 (String.singleton (Char.ofNat (0x10000 + (n - 0xD800) * 0x400 + (m - 0xDC00)))) ++ u)

mutual

/-- A value without white space around it (section 3). -/
inductive Text : Val → Bytes → Prop
  /-- `null` -/
  | null : Text .null [0x6E, 0x75, 0x6C, 0x6C]
  /-- `true` -/
  | yes : Text (.bool true) [0x74, 0x72, 0x75, 0x65]
  /-- `false` -/
  | no : Text (.bool false) [0x66, 0x61, 0x6C, 0x73, 0x65]
  | num (t : Bytes) (h : IsNumber t) : Text (.num t) t
  | str (q : Bytes) (s : String) (h : Chars q (utf8 s)) : Text (.str s) (0x22 :: (q ++ [0x22]))
  /-- `[]` -/
  | arr0 (s : Bytes) (h : Space s) : Text (.arr []) (0x5B :: (s ++ [0x5D]))
  | arr (l : List Val) (b : Bytes) (h : Elems l b) : Text (.arr l) (0x5B :: b)
  /-- `{}` -/
  | obj0 (s : Bytes) (h : Space s) : Text (.obj []) (0x7B :: (s ++ [0x7D]))
  | obj (l : List (String × Val)) (b : Bytes) (h : Members l b) : Text (.obj l) (0x7B :: b)

/-- Elements of an array with commas between them, up to the closing bracket (section 5). -/
inductive Elems : List Val → Bytes → Prop
  | last (v : Val) (s t s' : Bytes) (h : Space s) (ht : Text v t) (h' : Space s') : Elems [v] (s ++ (t ++ (s' ++ [0x5D])))
  | more (v : Val) (s t s' : Bytes) (l : List Val) (b : Bytes) (h : Space s) (ht : Text v t) (h' : Space s') (hl : Elems l b) :
      Elems (v :: l) (s ++ (t ++ (s' ++ 0x2C :: b)))

/-- Members of an object: names and values with colons and commas, up to the closing brace (section 4). -/
inductive Members : List (String × Val) → Bytes → Prop
  | last (k : String) (v : Val) (s q s1 s2 t s' : Bytes) (h : Space s) (hq : Chars q (utf8 k)) (h1 : Space s1) (h2 : Space s2)
      (ht : Text v t) (h' : Space s') : Members [(k, v)] (s ++ 0x22 :: (q ++ 0x22 :: (s1 ++ 0x3A :: (s2 ++ (t ++ (s' ++ [0x7D]))))))
  | more (k : String) (v : Val) (s q s1 s2 t s' : Bytes) (l : List (String × Val)) (b : Bytes) (h : Space s) (hq : Chars q (utf8 k))
      (h1 : Space s1) (h2 : Space s2) (ht : Text v t) (h' : Space s') (hl : Members l b) :
      Members ((k, v) :: l) (s ++ 0x22 :: (q ++ 0x22 :: (s1 ++ 0x3A :: (s2 ++ (t ++ (s' ++ 0x2C :: b))))))

end

/-- A JSON text: a value with white space around it. -/
def Document (v : Val) (b : Bytes) : Prop := ∃ s t s', b = s ++ (t ++ s') ∧ Space s ∧ Text v t ∧ Space s'

/-- At most `d` arrays and objects are nested in each other. -/
inductive Nested : Nat → Val → Prop
  | null (d : Nat) : Nested d .null
  | bool (d : Nat) (b : Bool) : Nested d (.bool b)
  | num (d : Nat) (t : Bytes) : Nested d (.num t)
  | str (d : Nat) (s : String) : Nested d (.str s)
  | arr {d : Nat} {l : List Val} (h : ∀ v ∈ l, Nested d v) : Nested (d + 1) (.arr l)
  | obj {d : Nat} {l : List (String × Val)} (h : ∀ p ∈ l, Nested d p.2) : Nested (d + 1) (.obj l)

/-- The bytes are a JSON text of this value, within the recursion limit of `serde_json`. -/
def IsJson (b : Bytes) (v : Val) : Prop := Document v b ∧ Nested 127 v

end Verif.JsonText
