import Verif.Serde.Types

/-!
# Base64

`Base64VecU8` of near-sdk: bytes as a string in the standard alphabet with padding.  The reader takes canonical text only.
-/

namespace Verif.Serde

open Verif Storage

/-- The standard alphabet. -/
def alphabet : List Char := "ABCDEFGHIJKLMNOPQRSTUVWXYZabcdefghijklmnopqrstuvwxyz0123456789+/".toList

/-- The character of six bits. -/
def sextet (n : Nat) : Char := alphabet.getD n 'A'

/-- The six bits of a character. -/
def bits (c : Char) : Nat := alphabet.idxOf c

theorem bits_sextet : ∀ n < 64, bits (sextet n) = n := by decide +kernel

theorem sextet_ne : ∀ n < 64, sextet n ≠ '=' := by decide +kernel

/-- Three bytes are four characters; one or two bytes at the end are padded. -/
def base64 : List UInt8 → List Char
  | [] => []
  | [a] => [sextet (a.toNat / 4), sextet (a.toNat % 4 * 16), '=', '=']
  | [a, b] => [sextet (a.toNat / 4), sextet (a.toNat % 4 * 16 + b.toNat / 16), sextet (b.toNat % 16 * 4), '=']
  | a :: b :: c :: l =>
    sextet (a.toNat / 4) :: sextet (a.toNat % 4 * 16 + b.toNat / 16) :: sextet (b.toNat % 16 * 4 + c.toNat / 64) ::
      sextet (c.toNat % 64) :: base64 l

/-- The bytes of text in groups of four, whatever the characters. -/
def unbase64 : List Char → List UInt8
  | w :: x :: y :: z :: l =>
    if z = '=' then
      if y = '=' then [UInt8.ofNat (bits w * 4 + bits x / 16)]
      else [UInt8.ofNat (bits w * 4 + bits x / 16), UInt8.ofNat (bits x % 16 * 16 + bits y / 4)]
    else UInt8.ofNat (bits w * 4 + bits x / 16) :: UInt8.ofNat (bits x % 16 * 16 + bits y / 4) ::
      UInt8.ofNat (bits y % 4 * 64 + bits z) :: unbase64 l
  | _ => []

theorem byte_of {a : UInt8} {n : Nat} (h : n = a.toNat) : UInt8.ofNat n = a := by
  subst h; exact UInt8.ofNat_toNat

theorem unbase64_base64 : ∀ l : List UInt8, unbase64 (base64 l) = l
  | [] => rfl
  | [a] => by
    have := a.toNat_lt
    simp only [base64, unbase64, if_true]
    rw [bits_sextet _ (by omega), bits_sextet _ (by omega), byte_of (a := a) (by omega)]
  | [a, b] => by
    have := a.toNat_lt
    have := b.toNat_lt
    simp only [base64, unbase64, if_true]
    rw [if_neg (sextet_ne _ (by omega)), bits_sextet _ (by omega), bits_sextet _ (by omega), bits_sextet _ (by omega),
      byte_of (a := a) (by omega), byte_of (a := b) (by omega)]
  | a :: b :: c :: l => by
    have := a.toNat_lt
    have := b.toNat_lt
    have := c.toNat_lt
    simp only [base64, unbase64]
    rw [if_neg (sextet_ne _ (by omega)), bits_sextet _ (by omega), bits_sextet _ (by omega), bits_sextet _ (by omega),
      bits_sextet _ (by omega), byte_of (a := a) (by omega), byte_of (a := b) (by omega), byte_of (a := c) (by omega),
      unbase64_base64 l]

/-- `Base64VecU8` -/
def base64Ty : Ty Bytes where
  write b := .str (String.ofList (base64 b))
  read
    | .str s => if base64 (unbase64 s.toList) = s.toList then some (unbase64 s.toList) else none
    | _ => none
  ok _ := True
  depth := 0
  law b _ := by simp [unbase64_base64]
  good _ _ := .str _ _
  sound _ _ _ := trivial

theorem base64_ne_null (b : Bytes) : base64Ty.write b ≠ .null := by simp [base64Ty]

end Verif.Serde
