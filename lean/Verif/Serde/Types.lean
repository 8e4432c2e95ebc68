import Verif.Serde.Round

/-!
# Typed JSON: the `Serialize` and `Deserialize` of the types that cross a contract boundary

A `Ty α` is a type with its two `serde` implementations, the values it is faithful on (`ok`: numbers fit, account ids are
valid) and the laws that what is written is read back and that only such values are read.  The derived implementations are modelled after `serde_derive`:

* a struct is read from an object (a field that comes twice is refused, unknown members are ignored, a missing member is
  refused unless its type is `Option`) or from an array of exactly its fields;
* a tuple is read from an array of exactly its length;
* an enum of unit variants is read from the name of the variant, or from an object with that one member and `null`;
* `u16`, `u32`, `u64` are read from a number written with digits only that fits.

Not modelled: `serde_json` is laxer about members it ignores (it does not look into their strings and nesting).
-/

namespace Verif.Serde

open Verif Storage

/-- A type with its JSON form. -/
structure Ty (α : Type) where
  write : α → Val
  read : Val → Option α
  ok : α → Prop
  depth : Nat
  law : ∀ a, ok a → read (write a) = some a
  good : ∀ a, ok a → Good (depth + 1) (write a)
  sound : ∀ v a, read v = some a → ok a

/-- `serde_json::to_vec` -/
def Ty.encode {α : Type} (T : Ty α) (a : α) : Bytes := render (T.write a)

/-- `serde_json::from_slice` -/
def Ty.decode {α : Type} (T : Ty α) (b : Bytes) : Option α := (parse b).bind T.read

theorem Ty.decode_encode {α : Type} (T : Ty α) {a : α} (h : T.ok a) (hd : T.depth ≤ 127) : T.decode (T.encode a) = some a := by
  unfold Ty.decode Ty.encode
  rw [parse_render ((T.good a h).mono (by omega))]
  exact T.law a h

/-- What is read is in range. -/
theorem Ty.decode_ok {α : Type} (T : Ty α) {a : α} {b : Bytes} (h : T.decode b = some a) : T.ok a := by
  obtain ⟨v, -, h1⟩ := Option.bind_eq_some_iff.1 h
  exact T.sound _ _ h1

/-! ## Leaves -/

/-- `String` -/
def str : Ty String where
  write s := .str s
  read := fun | .str s => some s | _ => none
  ok _ := True
  depth := 0
  law _ _ := rfl
  good s _ := .str _ s
  sound _ _ _ := trivial

/-- `bool` -/
def bool : Ty Bool where
  write b := .bool b
  read := fun | .bool b => some b | _ => none
  ok _ := True
  depth := 0
  law _ _ := rfl
  good b _ := .bool _ b
  sound _ _ _ := trivial

/-- Digits, at least one, whose value fits. -/
def fits (max : Nat) (t : Bytes) : Option Nat :=
  if t = [] then none
  else match undecimal t 0 with
    | some n => if n ≤ max then some n else none
    | none => none

theorem fits_decimal {max n : Nat} (h : n ≤ max) : fits max (decimal n) = some n := by
  obtain ⟨x, t, h1, -⟩ := decimal_head n
  unfold fits
  rw [if_neg (by rw [h1]; simp), decimal_value]
  simp [h]

theorem fits_le {max n : Nat} {t : Bytes} (h : fits max t = some n) : n ≤ max := by
  unfold fits at h
  split at h
  · cases h
  split at h
  · split at h
    · rename_i h1; cases h; exact h1
    · cases h
  · cases h

/-- `u16`, `u32`, `u64` -/
def uint (max : Nat) : Ty Nat where
  write n := .num (decimal n)
  read := fun | .num t => fits max t | _ => none
  ok n := n ≤ max
  depth := 0
  law _ h := fits_decimal h
  good n _ := .num _ n
  sound v n h := by
    cases v with
    | num t => exact fits_le h
    | _ => cases h

/-- A number as a string of digits. -/
def decimalS (n : Nat) : String := String.ofList ((decimal n).map fun b => Char.ofNat b.toNat)

theorem utf8_ofList (l : List Char) : utf8 (String.ofList l) = l.flatMap String.utf8EncodeChar := by
  simp [utf8, String.ofList, List.utf8Encode]

theorem digit_char : ∀ n < 10, String.utf8EncodeChar (Char.ofNat (digit n).toNat) = [digit n] := by decide +kernel

theorem isDigit_digit {b : UInt8} (h : isDigit b = true) : ∃ n < 10, b = digit n := by
  simp only [isDigit, decide_eq_true_eq] at h
  refine ⟨b.toNat - 48, ?_, ?_⟩
  · have := UInt8.le_iff_toNat_le.1 h.2
    have e : (0x39 : UInt8).toNat = 57 := rfl
    omega
  · have := UInt8.le_iff_toNat_le.1 h.1
    have e : (0x30 : UInt8).toNat = 48 := rfl
    unfold digit
    rw [show 48 + (b.toNat - 48) = b.toNat by omega, UInt8.ofNat_toNat]

theorem utf8_decimalS (n : Nat) : utf8 (decimalS n) = decimal n := by
  unfold decimalS
  rw [utf8_ofList]
  have := decimal_digits n
  generalize decimal n = l at this
  induction l with
  | nil => rfl
  | cons b t ih =>
    obtain ⟨k, hk, rfl⟩ := isDigit_digit (this b List.mem_cons_self)
    rw [List.map_cons, List.flatMap_cons, digit_char k hk, ih fun x hx => this x (List.mem_cons_of_mem _ hx)]
    rfl

/-- `str::parse` of an unsigned integer: an optional `+`, at least one digit, a value that fits. -/
def parseUint (max : Nat) (b : Bytes) : Option Nat :=
  match b with
  | 0x2B :: t => fits max t
  | t => fits max t

theorem parseUint_decimal {max n : Nat} (h : n ≤ max) : parseUint max (decimal n) = some n := by
  obtain ⟨x, t, h1, -⟩ := decimal_head n
  have hx : x ≠ 0x2B := by
    rintro rfl
    have := decimal_digits n 0x2B (by rw [h1]; exact List.mem_cons_self)
    exact absurd this (by decide)
  unfold parseUint
  split
  · rename_i h2; rw [h1] at h2; exact absurd (List.cons.inj h2).1 hx
  · exact fits_decimal h

theorem parseUint_le {max n : Nat} {b : Bytes} (h : parseUint max b = some n) : n ≤ max := by
  unfold parseUint at h
  split at h <;> exact fits_le h

/-- `near_sdk::json_types::{U64, U128}`: a number in a string. -/
def ustr (max : Nat) : Ty Nat where
  write n := .str (decimalS n)
  read := fun | .str s => parseUint max (utf8 s) | _ => none
  ok n := n ≤ max
  depth := 0
  law n h := by simp only [utf8_decimalS]; exact parseUint_decimal h
  good n _ := .str _ _
  sound v n h := by
    cases v with
    | str t => exact parseUint_le h
    | _ => cases h

/-- `U128` -/
def u128 : Ty Nat := ustr U128_MAX
/-- `U64` -/
def u64s : Ty Nat := ustr U64_MAX
def u64 : Ty Nat := uint U64_MAX
def u32 : Ty Nat := uint U32_MAX
def u16 : Ty Nat := uint U16_MAX
def u8 : Ty Nat := uint U8_MAX

/-- Characters of an account id: letters and digits with single separators between them. -/
def accountChars : List Char → Bool → Bool
  | [], sep => !sep
  | c :: l, sep =>
    if ('a' ≤ c ∧ c ≤ 'z') ∨ ('0' ≤ c ∧ c ≤ '9') then accountChars l false
    else if c = '-' ∨ c = '_' ∨ c = '.' then !sep && accountChars l true
    else false

/-- `env::is_valid_account_id` of `near-sdk`. -/
def validAccount (s : String) : Bool := decide (2 ≤ (utf8 s).length ∧ (utf8 s).length ≤ 64) && accountChars s.toList true

/-- `AccountId` of `near-sdk`: checked when read. -/
def account : Ty String where
  write s := .str s
  read := fun | .str s => if validAccount s then some s else none | _ => none
  ok s := validAccount s = true
  depth := 0
  law s h := by simp [h]
  good s _ := .str _ s
  sound v s h := by
    cases v with
    | str t =>
      simp only at h
      split at h
      · rename_i h1; cases h; exact h1
      · cases h
    | _ => cases h

/-- An enum of unit variants. -/
def enum {α : Type} (name : α → String) (all : List α) (h : ∀ a, all.find? (fun x => name x = name a) = some a) : Ty α where
  write a := .str (name a)
  read
    | .str s => all.find? fun x => name x = s
    | .obj [(s, .null)] => all.find? fun x => name x = s
    | _ => none
  ok _ := True
  depth := 0
  law a _ := h a
  good _ _ := .str _ _
  sound _ _ _ := trivial

/-! ## Composites -/

/-- `Option<T>`; no value of `T` is written `null`. -/
def opt {α : Type} (T : Ty α) (h : ∀ a, T.write a ≠ .null) : Ty (Option α) where
  write
    | none => .null
    | some a => T.write a
  read
    | .null => some none
    | v => (T.read v).map some
  ok a := ∀ x, a = some x → T.ok x
  depth := T.depth
  law a ha := by
    cases a with
    | none => rfl
    | some x =>
      have h1 := T.law x (ha x rfl)
      simp only
      split
      · rename_i h2; exact absurd h2 (h x)
      · rw [h1]; rfl
  good a ha := by
    cases a with
    | none => exact .null _
    | some x => exact T.good x (ha x rfl)
  sound v a h x hx := by
    split at h
    · cases h; cases hx
    · obtain ⟨y, h1, rfl⟩ := Option.map_eq_some_iff.1 h
      cases hx
      exact T.sound _ _ h1

/-- All of them, or nothing. -/
def allOf {α : Type} (f : Val → Option α) : List Val → Option (List α)
  | [] => some []
  | v :: l => match f v, allOf f l with
    | some a, some r => some (a :: r)
    | _, _ => none

theorem allOf_map {α : Type} (T : Ty α) {l : List α} (h : ∀ a ∈ l, T.ok a) : allOf T.read (l.map T.write) = some l := by
  induction l with
  | nil => rfl
  | cons a l ih =>
    rw [List.map_cons, allOf, T.law a (h a List.mem_cons_self), ih fun x hx => h x (List.mem_cons_of_mem _ hx)]

theorem allOf_sound {α : Type} (T : Ty α) : ∀ {vs : List Val} {l : List α}, allOf T.read vs = some l → ∀ a ∈ l, T.ok a := by
  intro vs
  induction vs with
  | nil => intro l h; cases h; simp
  | cons v vs ih =>
    intro l h
    unfold allOf at h
    split at h
    · rename_i a r h1 h2
      cases h
      intro x hx
      rcases List.mem_cons.1 hx with rfl | hx
      · exact T.sound _ _ h1
      · exact ih h2 x hx
    · cases h

/-- `Vec<T>` -/
def list {α : Type} (T : Ty α) : Ty (List α) where
  write l := .arr (l.map T.write)
  read := fun | .arr l => allOf T.read l | _ => none
  ok l := ∀ a ∈ l, T.ok a
  depth := T.depth + 1
  law _ h := allOf_map T h
  good l h := by
    refine .arr fun v hv => ?_
    obtain ⟨a, ha, rfl⟩ := List.mem_map.1 hv
    exact T.good a (h a ha)
  sound v l h := by
    cases v with
    | arr vs => exact allOf_sound T h
    | _ => cases h

/-- `(S, T)` -/
def pair {α β : Type} (S : Ty α) (T : Ty β) : Ty (α × β) where
  write p := .arr [S.write p.1, T.write p.2]
  read
    | .arr [v, w] => match S.read v, T.read w with
      | some a, some b => some (a, b)
      | _, _ => none
    | _ => none
  ok p := S.ok p.1 ∧ T.ok p.2
  depth := max S.depth T.depth + 1
  law p h := by simp only [S.law p.1 h.1, T.law p.2 h.2]
  good p h := by
    refine .arr fun v hv => ?_
    simp only [List.mem_cons, List.not_mem_nil, or_false] at hv
    rcases hv with rfl | rfl
    · exact (S.good _ h.1).mono (by omega)
    · exact (T.good _ h.2).mono (by omega)
  sound v p h := by
    split at h
    · split at h
      · rename_i h1 h2; cases h; exact ⟨S.sound _ _ h1, T.sound _ _ h2⟩
      · cases h
    · cases h

/-- The fields of a struct, or the arguments of a method; a missing field is `none`. -/
structure Fields (α : Type) where
  keys : List String
  vals : α → List Val
  read : List (Option Val) → Option α
  ok : α → Prop
  depth : Nat
  len : ∀ a, (vals a).length = keys.length
  law : ∀ a, ok a → read ((vals a).map some) = some a
  good : ∀ a, ok a → ∀ v ∈ vals a, Good (depth + 1) v
  sound : ∀ l a, read l = some a → ok a

/-- No field. -/
def Fields.nil : Fields Unit where
  keys := []
  vals _ := []
  read l := if l = [] then some () else none
  ok _ := True
  depth := 0
  len _ := rfl
  law _ _ := rfl
  good _ _ _ h := by cases h
  sound _ _ _ := trivial

/-- One field that must be there. -/
def Fields.one {α : Type} (k : String) (T : Ty α) : Fields α where
  keys := [k]
  vals a := [T.write a]
  read := fun | [some v] => T.read v | _ => none
  ok := T.ok
  depth := T.depth
  len _ := rfl
  law a h := T.law a h
  good a h v hv := by rw [List.mem_singleton] at hv; rw [hv]; exact T.good a h
  sound l a h := by
    split at h
    · exact T.sound _ _ h
    · cases h

/-- One field of type `Option<T>`, which may be missing. -/
def Fields.opt {α : Type} (k : String) (T : Ty α) (h : ∀ a, T.write a ≠ .null) : Fields (Option α) where
  keys := [k]
  vals a := [(Serde.opt T h).write a]
  read := fun | [some v] => (Serde.opt T h).read v | [none] => some none | _ => none
  ok := (Serde.opt T h).ok
  depth := T.depth
  len _ := rfl
  law a ha := (Serde.opt T h).law a ha
  good a ha v hv := by rw [List.mem_singleton] at hv; rw [hv]; exact (Serde.opt T h).good a ha
  sound l a ha := by
    split at ha
    · exact (Serde.opt T h).sound _ _ ha
    · cases ha; exact fun _ hx => by cases hx
    · cases ha

/-- Fields one after another. -/
def Fields.and {α β : Type} (F : Fields α) (G : Fields β) : Fields (α × β) where
  keys := F.keys ++ G.keys
  vals p := F.vals p.1 ++ G.vals p.2
  read l := match F.read (l.take F.keys.length), G.read (l.drop F.keys.length) with
    | some a, some b => some (a, b)
    | _, _ => none
  ok p := F.ok p.1 ∧ G.ok p.2
  depth := max F.depth G.depth
  len p := by rw [List.length_append, List.length_append, F.len, G.len]
  law p h := by
    have e : F.keys.length = ((F.vals p.1).map some).length := by rw [List.length_map, F.len]
    simp only [List.map_append]
    rw [List.take_left' e.symm, List.drop_left' e.symm, F.law _ h.1, G.law _ h.2]
  good p h v hv := by
    rcases List.mem_append.1 hv with hv | hv
    · exact (F.good _ h.1 v hv).mono (by omega)
    · exact (G.good _ h.2 v hv).mono (by omega)
  sound l p h := by
    split at h
    · rename_i h1 h2; cases h; exact ⟨F.sound _ _ h1, G.sound _ _ h2⟩
    · cases h

@[inherit_doc] scoped infixr:60 " ⊗ " => Fields.and

/-- The same fields under a constructor. -/
def Fields.iso {α β : Type} (F : Fields α) (f : α → β) (g : β → α) (h : ∀ b, f (g b) = b) (h' : ∀ a, g (f a) = a) : Fields β where
  keys := F.keys
  vals b := F.vals (g b)
  read l := (F.read l).map f
  ok b := F.ok (g b)
  depth := F.depth
  len b := F.len _
  law b hb := by rw [F.law _ hb, Option.map_some, h]
  good b hb := F.good _ hb
  sound l b hb := by
    obtain ⟨a, h1, rfl⟩ := Option.map_eq_some_iff.1 hb
    rw [h']
    exact F.sound _ _ h1

/-- Value of a member. -/
def member (l : List (String × Val)) (k : String) : Option Val := (l.find? fun p => p.1 = k).map (·.2)

/-- How often a member occurs. -/
def times (l : List (String × Val)) (k : String) : Nat := (l.filter fun p => p.1 = k).length

theorem member_zip {ks : List String} {vs : List Val} (h : ks.Nodup) (hl : vs.length = ks.length) :
    ks.map (member (ks.zip vs)) = vs.map some := by
  induction ks generalizing vs with
  | nil => cases vs with
    | nil => rfl
    | cons => simp at hl
  | cons k ks ih =>
    cases vs with
    | nil => simp at hl
    | cons v vs =>
      rw [List.nodup_cons] at h
      rw [List.zip_cons_cons, List.map_cons, List.map_cons, ← ih h.2 (by simpa using hl)]
      congr 1
      · simp [member]
      · refine List.map_congr_left fun x hx => ?_
        have : k ≠ x := by rintro rfl; exact h.1 hx
        simp [member, this]

theorem times_zip {ks : List String} {vs : List Val} (h : ks.Nodup) (k : String) : times (ks.zip vs) k ≤ 1 := by
  induction ks generalizing vs with
  | nil => simp [times]
  | cons x ks ih =>
    cases vs with
    | nil => simp [times]
    | cons v vs =>
      rw [List.nodup_cons] at h
      unfold times at ih ⊢
      rw [List.zip_cons_cons, List.filter_cons]
      split
      · rename_i hx
        have hx : x = k := by simpa using hx
        have : (ks.zip vs).filter (fun p => p.1 = k) = [] := by
          rw [List.filter_eq_nil_iff]
          intro p hp
          have := (List.of_mem_zip hp).1
          simp only [decide_eq_true_eq]
          rintro rfl
          exact h.1 (hx ▸ this)
        rw [this]; simp
      · exact ih h.2

/-- A struct with derived `Serialize` and `Deserialize`. -/
def struct {α : Type} (F : Fields α) (h : F.keys.Nodup := by decide) : Ty α where
  write a := .obj (F.keys.zip (F.vals a))
  read
    | .obj l => if F.keys.all (fun k => decide (times l k ≤ 1)) then F.read (F.keys.map (member l)) else none
    | .arr l => if l.length = F.keys.length then F.read (l.map some) else none
    | _ => none
  ok := F.ok
  depth := F.depth + 1
  law a ha := by
    have : (F.keys.all fun k => decide (times (F.keys.zip (F.vals a)) k ≤ 1)) = true := by
      rw [List.all_eq_true]
      exact fun k _ => decide_eq_true (times_zip h k)
    simp only
    rw [if_pos this, member_zip h (F.len a), F.law a ha]
  good a ha := by
    refine .obj fun p hp => ?_
    exact F.good a ha _ (List.of_mem_zip hp).2
  sound v a ha := by
    split at ha
    · split at ha
      · exact F.sound _ _ ha
      · cases ha
    · split at ha
      · exact F.sound _ _ ha
      · cases ha
    · cases ha

/-- Reading of the arguments of a method (`#[near_bindgen]`: `serde_json::from_slice` into a struct of the arguments; the
input of a method without arguments is not looked at). -/
def argsOf {α γ : Type} (F : Fields α) (mk : α → γ) (b : Bytes) (h : F.keys.Nodup := by decide) : Option γ :=
  ((struct F h).decode b).map mk

/-- Arguments of a method as written by a caller (`ext_contract`: `serde_json::to_vec` of a struct of the arguments). -/
def argsTo {α : Type} (F : Fields α) (a : α) (h : F.keys.Nodup := by decide) : Bytes := (struct F h).encode a

theorem argsOf_argsTo {α γ : Type} {F : Fields α} {mk : α → γ} {a : α} {h h' : F.keys.Nodup} (ha : F.ok a) (hd : F.depth ≤ 126) :
    argsOf F mk (argsTo F a h') h = some (mk a) := by
  unfold argsOf argsTo
  rw [(struct F h).decode_encode ha (Nat.succ_le_succ hd)]
  rfl

theorem argsOf_ok {α γ : Type} {F : Fields α} {mk : α → γ} {b : Bytes} {k : γ} {h : F.keys.Nodup} (hk : argsOf F mk b h = some k) :
    ∃ a, F.ok a ∧ mk a = k := by
  obtain ⟨a, h1, rfl⟩ := Option.map_eq_some_iff.1 hk
  exact ⟨a, (struct F h).decode_ok h1, rfl⟩

end Verif.Serde
