import Verif.Storage.Keys

/-!
# Borsh

The binary format in which near-sdk stores values (crate `borsh`, not in `/repo`; modelled from its specification): integers
little-endian in their width, strings and vectors with their length as `u32` first, options and enumerations with a byte for
the variant, structures as their fields in order.

A codec comes with the set of values that the Rust type has (`ok`) and with its law: reading succeeds exactly on encodings of
such values followed by anything, and gives back the value and what follows.
-/

namespace Verif.Borsh

open Verif Storage

/-- Writer and reader of a type. -/
structure Codec (α : Type) where
  enc : α → Bytes
  dec : Bytes → Option (α × Bytes)
  ok : α → Prop
  law : ∀ b a r, dec b = some (a, r) ↔ ok a ∧ b = enc a ++ r

namespace Codec

/-- `try_from_slice`: nothing may be left over. -/
def read {α : Type} (c : Codec α) (b : Bytes) : Option α :=
  match c.dec b with
  | some (a, []) => some a
  | _ => none

theorem dec_enc {α : Type} (c : Codec α) {a : α} (h : c.ok a) (r : Bytes) : c.dec (c.enc a ++ r) = some (a, r) :=
  (c.law _ _ _).2 ⟨h, rfl⟩

theorem read_iff {α : Type} (c : Codec α) {b : Bytes} {a : α} : c.read b = some a ↔ c.ok a ∧ b = c.enc a := by
  have := c.law b a []
  rw [List.append_nil] at this
  rw [← this]
  unfold read
  split
  · rename_i a' h; rw [h]; simp
  · rename_i h
    constructor
    · intro h'; cases h'
    · intro h'; exact absurd h' (h a)

theorem read_enc {α : Type} (c : Codec α) {a : α} (h : c.ok a) : c.read (c.enc a) = some a := c.read_iff.2 ⟨h, rfl⟩

end Codec

/-! ## Integers -/

/-- Value of little-endian bytes. -/
def unle : Bytes → Nat
  | [] => 0
  | b :: l => b.toNat + 256 * unle l

theorem unle_le {n x : Nat} (h : x < 256 ^ n) : unle (le n x) = x := by
  induction n generalizing x with
  | zero => simp at h; simp [le, unle, h]
  | succ n ih =>
    simp only [le, unle]
    rw [ih (x := x / 256) (by rw [Nat.pow_succ] at h; omega), UInt8.toNat_ofNat']
    omega

theorem le_unle (l : Bytes) : le l.length (unle l) = l ∧ unle l < 256 ^ l.length := by
  induction l with
  | nil => exact ⟨rfl, by decide⟩
  | cons b t ih =>
    have hb : b.toNat < 256 := b.toNat_lt
    refine ⟨?_, ?_⟩
    · simp only [List.length_cons, le, unle]
      rw [show (b.toNat + 256 * unle t) % 256 = b.toNat by omega, show (b.toNat + 256 * unle t) / 256 = unle t by omega, ih.1,
        UInt8.ofNat_toNat]
    · simp only [List.length_cons, unle, Nat.pow_succ]
      have := ih.2
      omega

/-- Unsigned integer of `n` bytes. -/
def uint (n : Nat) : Codec Nat where
  enc := le n
  dec b := if n ≤ b.length then some (unle (b.take n), b.drop n) else none
  ok x := x < 256 ^ n
  law b a r := by
    constructor
    · intro h
      by_cases hn : n ≤ b.length
      · rw [if_pos hn] at h
        cases h
        have hl : (b.take n).length = n := by simp [hn]
        have := le_unle (b.take n)
        rw [hl] at this
        exact ⟨this.2, by rw [this.1, List.take_append_drop]⟩
      · rw [if_neg hn] at h; cases h
    · rintro ⟨ha, rfl⟩
      have hl : (le n a).length = n := le_length n a
      rw [if_pos (by simp [hl]), List.take_left' hl, List.drop_left' hl, unle_le ha]

/-! ## Combinations -/

/-- Two values one after the other. -/
def pair {α β : Type} (c : Codec α) (d : Codec β) : Codec (α × β) where
  enc x := c.enc x.1 ++ d.enc x.2
  dec b := match c.dec b with
    | none => none
    | some (a, r) => match d.dec r with
      | none => none
      | some (x, r) => some ((a, x), r)
  ok x := c.ok x.1 ∧ d.ok x.2
  law b x r := by
    obtain ⟨x, y⟩ := x
    constructor
    · intro h
      cases h1 : c.dec b with
      | none => rw [h1] at h; cases h
      | some p =>
        obtain ⟨a, r1⟩ := p
        rw [h1] at h
        cases h2 : d.dec r1 with
        | none => simp only [h2] at h; cases h
        | some q =>
          obtain ⟨e, r2⟩ := q
          simp only [h2] at h
          cases h
          obtain ⟨o1, rfl⟩ := (c.law _ _ _).1 h1
          obtain ⟨o2, rfl⟩ := (d.law _ _ _).1 h2
          exact ⟨⟨o1, o2⟩, by simp⟩
    · rintro ⟨⟨o1, o2⟩, rfl⟩
      simp only [List.append_assoc, c.dec_enc o1, d.dec_enc o2]

/-- The same bytes for a type with the same values. -/
def iso {α β : Type} (c : Codec α) (f : α → β) (g : β → α) (hfg : ∀ b, f (g b) = b) (hgf : ∀ a, g (f a) = a) : Codec β where
  enc b := c.enc (g b)
  dec b := match c.dec b with
    | none => none
    | some (a, r) => some (f a, r)
  ok b := c.ok (g b)
  law b x r := by
    constructor
    · intro h
      cases h1 : c.dec b with
      | none => rw [h1] at h; cases h
      | some p =>
        obtain ⟨a, r1⟩ := p
        rw [h1] at h
        cases h
        rw [hgf]
        exact (c.law _ _ _).1 h1
    · rintro ⟨o, rfl⟩
      simp only [c.dec_enc o, hfg]

/-- `n` values one after the other. -/
def decN {α : Type} (c : Codec α) : Nat → Bytes → Option (List α × Bytes)
  | 0, b => some ([], b)
  | n + 1, b => match c.dec b with
    | none => none
    | some (a, r) => match decN c n r with
      | none => none
      | some (l, r) => some (a :: l, r)

theorem decN_law {α : Type} (c : Codec α) (n : Nat) (b : Bytes) (l : List α) (r : Bytes) :
    decN c n b = some (l, r) ↔ l.length = n ∧ (∀ a ∈ l, c.ok a) ∧ b = l.flatMap c.enc ++ r := by
  induction n generalizing b l with
  | zero =>
    simp only [decN, Option.some.injEq, Prod.mk.injEq]
    constructor
    · rintro ⟨rfl, rfl⟩; simp
    · rintro ⟨h, -, h2⟩
      cases l with
      | nil => exact ⟨rfl, by simpa using h2⟩
      | cons _ _ => simp at h
  | succ n ih =>
    constructor
    · intro h
      simp only [decN] at h
      cases h1 : c.dec b with
      | none => rw [h1] at h; cases h
      | some p =>
        obtain ⟨a, r1⟩ := p
        simp only [h1] at h
        cases h2 : decN c n r1 with
        | none => simp only [h2] at h; cases h
        | some q =>
          obtain ⟨t, r2⟩ := q
          simp only [h2] at h
          cases h
          obtain ⟨o, rfl⟩ := (c.law _ _ _).1 h1
          obtain ⟨rfl, o2, rfl⟩ := (ih _ _).1 h2
          refine ⟨rfl, ?_, by simp⟩
          intro x hx
          rcases List.mem_cons.1 hx with rfl | hx
          · exact o
          · exact o2 x hx
    · rintro ⟨hl, ho, rfl⟩
      cases l with
      | nil => simp at hl
      | cons a t =>
        simp only [List.length_cons, Nat.add_right_cancel_iff] at hl
        have h1 := c.dec_enc (ho a List.mem_cons_self) (t.flatMap c.enc ++ r)
        have h2 := (ih (t.flatMap c.enc ++ r) t).2 ⟨hl, fun x hx => ho x (List.mem_cons_of_mem _ hx), rfl⟩
        simp only [decN, List.flatMap_cons, List.append_assoc, h1, h2]

/-- `Vec<T>` -/
def list {α : Type} (c : Codec α) : Codec (List α) where
  enc l := le 4 l.length ++ l.flatMap c.enc
  dec b := match (uint 4).dec b with
    | none => none
    | some (n, r) => decN c n r
  ok l := l.length < 256 ^ 4 ∧ ∀ a ∈ l, c.ok a
  law b l r := by
    constructor
    · intro h
      cases h1 : (uint 4).dec b with
      | none => rw [h1] at h; cases h
      | some p =>
        obtain ⟨n, r1⟩ := p
        simp only [h1] at h
        obtain ⟨o, rfl⟩ := ((uint 4).law _ _ _).1 h1
        obtain ⟨rfl, o2, rfl⟩ := (decN_law _ _ _ _ _).1 h
        exact ⟨⟨o, o2⟩, by simp [uint]⟩
    · rintro ⟨⟨o, o2⟩, rfl⟩
      have h1 := (uint 4).dec_enc (a := l.length) o (l.flatMap c.enc ++ r)
      rw [List.append_assoc, show le 4 l.length = (uint 4).enc l.length from rfl, h1]
      exact (decN_law _ _ _ _ _).2 ⟨rfl, o2, rfl⟩

/-- `u8` in a vector of bytes -/
def byte : Codec UInt8 where
  enc x := [x]
  dec b := match b with
    | [] => none
    | x :: r => some (x, r)
  ok _ := True
  law b a r := by
    cases b with
    | nil => simp
    | cons x t => simp

/-- `Vec<u8>` -/
def bytes : Codec Bytes := list byte

/-- Variants of an enumeration without fields. -/
def tag (n : Nat) (hn : n ≤ 256) : Codec (Fin n) where
  enc x := [UInt8.ofNat x.1]
  dec b := match b with
    | [] => none
    | x :: r => if h : x.toNat < n then some (⟨x.toNat, h⟩, r) else none
  ok _ := True
  law b a r := by
    cases b with
    | nil => simp
    | cons x t =>
      constructor
      · intro h
        by_cases hx : x.toNat < n
        · simp only [dif_pos hx] at h
          cases h
          exact ⟨trivial, by simp⟩
        · simp only [dif_neg hx] at h
          cases h
      · rintro ⟨-, h⟩
        simp only [List.cons_append, List.nil_append, List.cons.injEq] at h
        obtain ⟨rfl, rfl⟩ := h
        have ha : (UInt8.ofNat a.1).toNat = a.1 := by
          rw [UInt8.toNat_ofNat']
          exact Nat.mod_eq_of_lt (by have := a.2; omega)
        simp only [ha, dif_pos a.2]

/-- `bool` -/
def bool : Codec Bool :=
  iso (tag 2 (by decide)) (fun x => x = 1) (fun b => if b then 1 else 0) (by decide) (by decide)

/-- `Option<T>` -/
def option {α : Type} (c : Codec α) : Codec (Option α) where
  enc
    | none => [0]
    | some a => 1 :: c.enc a
  dec b := match b with
    | [] => none
    | x :: r => if x = 0 then some (none, r) else if x = 1 then
        match c.dec r with
        | none => none
        | some (a, r) => some (some a, r)
      else none
  ok
    | none => True
    | some a => c.ok a
  law b a r := by
    cases b with
    | nil => cases a <;> simp
    | cons x t =>
      by_cases h0 : x = 0
      · subst h0
        cases a <;> simp [eq_comm]
      · by_cases h1 : x = 1
        · subst h1
          simp only [h0, if_false, if_true]
          cases a with
          | none =>
            simp only [true_and, List.cons_append, List.nil_append, List.cons.injEq, h0, false_and, iff_false]
            cases c.dec t <;> simp
          | some a =>
            simp only [List.cons_append, List.cons.injEq, true_and]
            rw [← c.law]
            cases hd : c.dec t with
            | none => simp
            | some p => obtain ⟨p, q⟩ := p; simp
        · simp only [h0, h1, if_false]
          cases a <;> simp [h0, h1]

/-- `String`; also `AccountId`, whose check for a valid id is left out since only valid ids are written. -/
def string : Codec String where
  enc := borshString
  dec b := match bytes.dec b with
    | none => none
    | some (u, r) => match String.fromUTF8? ⟨u.toArray⟩ with
      | none => none
      | some s => some (s, r)
  ok s := (utf8 s).length < 256 ^ 4
  law b s r := by
    have henc : ∀ u : Bytes, bytes.enc u = le 4 u.length ++ u := fun u => by
      show le 4 u.length ++ u.flatMap (fun x => [x]) = _
      rw [List.flatMap_singleton']
    have hok : ∀ u : Bytes, bytes.ok u ↔ u.length < 256 ^ 4 := fun u =>
      ⟨fun h => h.1, fun h => ⟨h, fun _ _ => trivial⟩⟩
    constructor
    · intro h
      cases h1 : bytes.dec b with
      | none => rw [h1] at h; cases h
      | some p =>
        obtain ⟨u, r1⟩ := p
        simp only [h1] at h
        obtain ⟨o, rfl⟩ := (bytes.law _ _ _).1 h1
        cases h2 : String.fromUTF8? ⟨u.toArray⟩ with
        | none => simp only [h2] at h; cases h
        | some s' =>
          simp only [h2] at h
          cases h
          have hu : utf8 s = u := by
            unfold String.fromUTF8? at h2
            split at h2
            · cases h2; rfl
            · cases h2
          rw [hu, henc, borshString, hu]
          exact ⟨(hok u).1 o, rfl⟩
    · rintro ⟨o, rfl⟩
      have h1 := bytes.dec_enc ((hok (utf8 s)).2 o) r
      rw [henc] at h1
      have h2 : String.fromUTF8? ⟨(utf8 s).toArray⟩ = some s := by
        unfold String.fromUTF8?
        have : (⟨(utf8 s).toArray⟩ : ByteArray) = s.toByteArray := by simp [utf8]
        simp only [this]
        rw [dif_pos s.isValidUTF8]
        rfl
      simp only [borshString, h1, h2]

end Verif.Borsh
