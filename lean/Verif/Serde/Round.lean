import Verif.Serde.Json
import Mathlib.Tactic.IntervalCases

/-!
# What is written is read back
-/

namespace Verif.Serde

open Verif Storage

/-! ## Decimals -/

/-- Digit of a number below ten. -/
def digit (n : Nat) : UInt8 := UInt8.ofNat (48 + n)

/-- Decimal digits, the last `f + 1` of them. -/
def decimalF : Nat → Nat → Bytes
  | 0, n => [digit (n % 10)]
  | f + 1, n => if n < 10 then [digit n] else decimalF f (n / 10) ++ [digit (n % 10)]

/-- A number in decimal digits (`Display` of the unsigned integers; crate `itoa` in `serde_json`). -/
def decimal (n : Nat) : Bytes := decimalF n.log2 n

/-- Value of decimal digits; `none` on another byte. -/
def undecimal : Bytes → Nat → Option Nat
  | [], acc => some acc
  | b :: t, acc => if isDigit b then undecimal t (acc * 10 + (b.toNat - 48)) else none

theorem digit_spec : ∀ n < 10, isDigit (digit n) = true ∧ (digit n).toNat - 48 = n ∧ (digit n = 0x30 → n = 0) := by decide

theorem undecimal_snoc {l : Bytes} {acc m k : Nat} (h : undecimal l acc = some m) (hk : k < 10) :
    undecimal (l ++ [digit k]) acc = some (m * 10 + k) := by
  induction l generalizing acc with
  | nil => cases h; simp [undecimal, digit_spec k hk]
  | cons b t ih =>
    simp only [undecimal] at h
    split at h
    · rename_i hb
      simp only [List.cons_append, undecimal, hb, if_true]
      exact ih h
    · cases h

theorem decimalF_value {f : Nat} : ∀ {n : Nat}, n < 10 ^ (f + 1) → undecimal (decimalF f n) 0 = some n := by
  induction f with
  | zero =>
    intro n h
    have h : n < 10 := by simpa using h
    have h1 := digit_spec n h
    simp [decimalF, Nat.mod_eq_of_lt h, undecimal, h1]
  | succ f ih =>
    intro n h
    unfold decimalF
    split
    · rename_i hn
      simp [undecimal, digit_spec n hn]
    · have := undecimal_snoc (ih (n := n / 10) (by rw [Nat.pow_succ] at h; omega)) (k := n % 10) (Nat.mod_lt _ (by decide))
      rw [this]
      congr 1
      omega

theorem decimalF_digits {f : Nat} : ∀ {n : Nat}, ∀ b ∈ decimalF f n, isDigit b = true := by
  induction f with
  | zero => intro n b hb; rw [decimalF, List.mem_singleton] at hb; rw [hb]; exact (digit_spec _ (Nat.mod_lt _ (by decide))).1
  | succ f ih =>
    intro n b hb
    unfold decimalF at hb
    split at hb
    · rename_i hn
      rw [List.mem_singleton] at hb; rw [hb]; exact (digit_spec _ hn).1
    · rcases List.mem_append.1 hb with hb | hb
      · exact ih b hb
      · rw [List.mem_singleton] at hb; rw [hb]; exact (digit_spec _ (Nat.mod_lt _ (by decide))).1

theorem decimalF_head {f : Nat} : ∀ {n : Nat}, n < 10 ^ (f + 1) → ∃ x t, decimalF f n = x :: t ∧ (x = 0x30 → t = [] ∧ n = 0) := by
  induction f with
  | zero =>
    intro n h
    have h : n < 10 := by simpa using h
    exact ⟨_, [], rfl, fun e => ⟨rfl, by have := (digit_spec _ (Nat.mod_lt n (by decide))).2.2 e; omega⟩⟩
  | succ f ih =>
    intro n h
    unfold decimalF
    split
    · rename_i hn
      exact ⟨_, [], rfl, fun e => ⟨rfl, (digit_spec _ hn).2.2 e⟩⟩
    · rename_i hn
      obtain ⟨x, t, h1, h2⟩ := ih (n := n / 10) (by rw [Nat.pow_succ] at h; omega)
      refine ⟨x, t ++ [digit (n % 10)], by rw [h1]; rfl, fun e => ?_⟩
      have := (h2 e).2
      omega

theorem log2_fuel (n : Nat) : n < 10 ^ (n.log2 + 1) :=
  Nat.lt_of_lt_of_le Nat.lt_log2_self (Nat.pow_le_pow_left (by decide) _)

theorem decimal_value (n : Nat) : undecimal (decimal n) 0 = some n := decimalF_value (log2_fuel n)
theorem decimal_digits (n : Nat) : ∀ b ∈ decimal n, isDigit b = true := decimalF_digits
theorem decimal_head (n : Nat) : ∃ x t, decimal n = x :: t ∧ (x = 0x30 → t = [] ∧ n = 0) := decimalF_head (log2_fuel n)

/-! ## Strings -/

theorem control_read : ∀ n < 32, unhex4 0x30 0x30 (hexDigit ((UInt8.ofNat n).toNat / 16)) (hexDigit ((UInt8.ofNat n).toNat % 16)) =
    some n ∧ point n = [UInt8.ofNat n] := by decide +kernel

theorem chars_escape (b : UInt8) (t : Bytes) : chars (escape b ++ t) = (chars t).map fun r => (b :: r.1, r.2) := by
  unfold escape
  split
  · rename_i h; subst h; simp only [List.cons_append, List.nil_append]; rw [chars.eq_def]; simp [unescape]
  split
  · rename_i h; subst h; simp only [List.cons_append, List.nil_append]; rw [chars.eq_def]; simp [unescape]
  split
  · rename_i h; subst h; simp only [List.cons_append, List.nil_append]; rw [chars.eq_def]; simp [unescape]
  split
  · rename_i h; subst h; simp only [List.cons_append, List.nil_append]; rw [chars.eq_def]; simp [unescape]
  split
  · rename_i h; subst h; simp only [List.cons_append, List.nil_append]; rw [chars.eq_def]; simp [unescape]
  split
  · rename_i h; subst h; simp only [List.cons_append, List.nil_append]; rw [chars.eq_def]; simp [unescape]
  split
  · rename_i h; subst h; simp only [List.cons_append, List.nil_append]; rw [chars.eq_def]; simp [unescape]
  split
  · rename_i h
    have hb : b.toNat < 32 := h
    have h1 := control_read b.toNat hb
    rw [UInt8.ofNat_toNat] at h1
    have e1 : ¬ (0xD800 ≤ b.toNat ∧ b.toNat ≤ 0xDBFF) := by omega
    have e2 : ¬ (0xDC00 ≤ b.toNat ∧ b.toNat ≤ 0xDFFF) := by omega
    simp only [List.cons_append, List.nil_append]
    rw [chars.eq_def]
    simp [h1.1, h1.2, e1, e2]
  · rename_i h1 h2 h3 h4 h5 h6 h7 h8
    simp only [List.cons_append, List.nil_append]
    rw [chars.eq_def]
    simp [h1, h2, h8]

theorem chars_quote (u r : Bytes) : chars (u.flatMap escape ++ 0x22 :: r) = some (u, r) := by
  induction u with
  | nil => rw [List.flatMap_nil, List.nil_append, chars.eq_def]; rfl
  | cons b t ih => rw [List.flatMap_cons, List.append_assoc, chars_escape, ih]; rfl

theorem fromUTF8_utf8 (s : String) : String.fromUTF8? ⟨(utf8 s).toArray⟩ = some s := by
  unfold String.fromUTF8?
  have : (⟨(utf8 s).toArray⟩ : ByteArray) = s.toByteArray := by simp [utf8]
  simp only [this]
  rw [dif_pos s.isValidUTF8]
  rfl

theorem string_quote (s : String) (r : Bytes) : string ((utf8 s).flatMap escape ++ 0x22 :: r) = some (s, r) := by
  unfold string
  rw [chars_quote]
  simp only [fromUTF8_utf8]

/-! ## Numbers -/

/-- What follows does not belong to a number. -/
def Delim : Bytes → Prop
  | [] => True
  | c :: _ => isDigit c = false ∧ c ≠ 0x2E ∧ c ≠ 0x65 ∧ c ≠ 0x45

theorem spanDigits_append {d r : Bytes} (hd : ∀ b ∈ d, isDigit b = true) (hr : Delim r) : spanDigits (d ++ r) = (d, r) := by
  induction d with
  | nil =>
    cases r with
    | nil => rfl
    | cons c t => simp [spanDigits, hr.1]
  | cons b t ih =>
    have := ih fun x hx => hd x (List.mem_cons_of_mem _ hx)
    simp [spanDigits, hd b List.mem_cons_self, this]

theorem fracPart_delim {r : Bytes} (hr : Delim r) : fracPart r = some ([], r) := by
  unfold fracPart
  split
  · exact absurd rfl hr.2.1
  · rfl

theorem expPart_delim {r : Bytes} (hr : Delim r) : expPart r = some ([], r) := by
  cases r with
  | nil => rfl
  | cons c t => simp [expPart, hr.2.2.1, hr.2.2.2]

theorem number_decimal (n : Nat) {r : Bytes} (hr : Delim r) : number (decimal n ++ r) = some (decimal n, r) := by
  obtain ⟨x, t, h1, h2⟩ := decimal_head n
  have hd := decimal_digits n
  have hs := spanDigits_append hd hr
  have hx : x ≠ 0x2D := by
    rintro rfl
    have := hd 0x2D (by rw [h1]; exact List.mem_cons_self)
    exact absurd this (by decide)
  have hi : intPart (decimal n ++ r) = some (decimal n, r) := by
    unfold intPart
    rw [hs, h1]
    simp only
    rw [if_neg]
    rintro ⟨e, h⟩
    exact h (h2 e).1
  have e : minus (decimal n ++ r) = ([], decimal n ++ r) := by
    rw [h1, List.cons_append]
    unfold minus
    split
    · rename_i u h; exact absurd (List.cons.inj h).1 hx
    · rfl
  unfold number
  simp only [e, hi, fracPart_delim hr, expPart_delim hr, List.nil_append, List.append_nil]

/-! ## Values -/

/-- Values that are written: numbers are decimals, and at most `d - 1` arrays and objects are nested. -/
inductive Good : Nat → Val → Prop
  | null (d : Nat) : Good d .null
  | bool (d : Nat) (b : Bool) : Good d (.bool b)
  | num (d n : Nat) : Good d (.num (decimal n))
  | str (d : Nat) (s : String) : Good d (.str s)
  | arr {d : Nat} {l : List Val} (h : ∀ v ∈ l, Good (d + 1) v) : Good (d + 2) (.arr l)
  | obj {d : Nat} {l : List (String × Val)} (h : ∀ p ∈ l, Good (d + 1) p.2) : Good (d + 2) (.obj l)

theorem Good.mono {d d' : Nat} {v : Val} (h : Good d v) : d ≤ d' → Good d' v := by
  induction h generalizing d' with
  | null => intro _; exact .null _
  | bool => intro _; exact .bool _ _
  | num => intro _; exact .num _ _
  | str => intro _; exact .str _ _
  | arr _ ih =>
    intro hd
    obtain ⟨k, rfl⟩ : ∃ k, d' = k + 2 := ⟨d' - 2, by omega⟩
    exact .arr fun v hv => ih v hv (by omega)
  | obj _ ih =>
    intro hd
    obtain ⟨k, rfl⟩ : ∃ k, d' = k + 2 := ⟨d' - 2, by omega⟩
    exact .obj fun v hv => ih v hv (by omega)

/-- A byte with which a value begins. -/
def Starts (c : UInt8) : Prop := c ≠ 0x20 ∧ c ≠ 0x0A ∧ c ≠ 0x09 ∧ c ≠ 0x0D ∧ c ≠ 0x5D ∧ c ≠ 0x7D

theorem ws_starts {c : UInt8} (h : Starts c) (t : Bytes) : ws (c :: t) = c :: t := by
  unfold ws
  rw [if_neg]
  rintro (e | e | e | e)
  · exact h.1 e
  · exact h.2.1 e
  · exact h.2.2.1 e
  · exact h.2.2.2.1 e

theorem digit_starts {c : UInt8} (h : isDigit c = true) : Starts c ∧ c ≠ 0x22 ∧ c ≠ 0x5B ∧ c ≠ 0x7B ∧ c ≠ 0x6E ∧ c ≠ 0x74 ∧ c ≠ 0x66 := by
  refine ⟨⟨?_, ?_, ?_, ?_, ?_, ?_⟩, ?_, ?_, ?_, ?_, ?_, ?_⟩ <;> (rintro rfl; exact absurd h (by decide))

theorem render_head {d : Nat} {v : Val} (h : Good d v) : ∃ c t, render v = c :: t ∧ Starts c := by
  cases h with
  | null => exact ⟨_, _, by rw [render], by unfold Starts; decide⟩
  | bool _ b => cases b <;> exact ⟨_, _, by rw [render], by unfold Starts; decide⟩
  | num _ n =>
    obtain ⟨x, t, h1, -⟩ := decimal_head n
    exact ⟨x, t, by rw [render, h1], (digit_starts (decimal_digits n x (by rw [h1]; exact List.mem_cons_self))).1⟩
  | str _ s => exact ⟨_, _, by rw [render, quote]; rfl, by unfold Starts; decide⟩
  | @arr _ l _ => cases l <;> exact ⟨_, _, by rw [render], by unfold Starts; decide⟩
  | @obj _ l _ => cases l <;> exact ⟨_, _, by rw [render], by unfold Starts; decide⟩

theorem delim_elems (l : List Val) (r : Bytes) : Delim (renderElems l ++ r) := by
  cases l <;> (rw [renderElems]; exact ⟨by decide, by decide, by decide, by decide⟩)

theorem delim_members (l : List (String × Val)) (r : Bytes) : Delim (renderMembers l ++ r) := by
  cases l <;> (rw [renderMembers]; exact ⟨by decide, by decide, by decide, by decide⟩)

/-- Reading of values whose text has at most `k` bytes. -/
def Reads (k : Nat) : Prop := ∀ v d n r, Good d v → (render v).length ≤ k → 2 * (render v).length ≤ n → Delim r →
  value n d (render v ++ r) = some (v, r)

theorem ws_comma (t : Bytes) : ws (0x2C :: t) = 0x2C :: t := by simp [ws]
theorem ws_bracket (t : Bytes) : ws (0x5D :: t) = 0x5D :: t := by simp [ws]
theorem ws_brace (t : Bytes) : ws (0x7D :: t) = 0x7D :: t := by simp [ws]
theorem ws_colon (t : Bytes) : ws (0x3A :: t) = 0x3A :: t := by simp [ws]
theorem ws_quote (t : Bytes) : ws (0x22 :: t) = 0x22 :: t := by simp [ws]

theorem elems_read {k : Nat} (hk : Reads k) {d : Nat} : ∀ {l : List Val} {v : Val} {n : Nat} {r : Bytes},
    (∀ x ∈ v :: l, Good d x) → (render v ++ renderElems l).length ≤ k → 2 * (render v ++ renderElems l).length ≤ n →
      elems n d (render v ++ (renderElems l ++ r)) = some (v :: l, r) := by
  intro l
  induction l with
  | nil =>
    intro v n r hg h1 h2
    rw [renderElems, List.length_append] at h1 h2
    obtain ⟨m, rfl⟩ : ∃ m, n = m + 1 := ⟨n - 1, by simp at h2; omega⟩
    rw [elems, hk v d m _ (hg v List.mem_cons_self) (by omega) (by simp at h2; omega) (delim_elems [] r)]
    simp [renderElems, ws_bracket]
  | cons w l ih =>
    intro v n r hg h1 h2
    rw [renderElems, List.length_append, List.length_cons] at h1 h2
    obtain ⟨m, rfl⟩ : ∃ m, n = m + 1 := ⟨n - 1, by omega⟩
    rw [elems, hk v d m _ (hg v List.mem_cons_self) (by omega) (by omega) (delim_elems (w :: l) r)]
    have := ih (v := w) (n := m) (r := r) (fun x hx => hg x (List.mem_cons_of_mem _ hx)) (by omega) (by omega)
    simp only [renderElems, List.cons_append, ws_comma, List.append_assoc, this]
    rfl

theorem members_read {k : Nat} (hk : Reads k) {d : Nat} : ∀ {l : List (String × Val)} {p : String × Val} {n : Nat} {r : Bytes},
    (∀ x ∈ p :: l, Good d x.2) → (quote p.1 ++ 0x3A :: (render p.2 ++ renderMembers l)).length ≤ k →
      2 * (quote p.1 ++ 0x3A :: (render p.2 ++ renderMembers l)).length ≤ n →
      members n d (quote p.1 ++ 0x3A :: (render p.2 ++ (renderMembers l ++ r))) = some (p :: l, r) := by
  intro l
  induction l with
  | nil =>
    intro p n r hg h1 h2
    simp only [renderMembers, List.length_append, List.length_cons, List.length_nil] at h1 h2
    obtain ⟨m, rfl⟩ : ∃ m, n = m + 1 := ⟨n - 1, by omega⟩
    have e : quote p.1 ++ 0x3A :: (render p.2 ++ (renderMembers [] ++ r)) =
      0x22 :: ((utf8 p.1).flatMap escape ++ 0x22 :: 0x3A :: (render p.2 ++ (renderMembers [] ++ r))) := by
      simp [quote]
    rw [members, e, ws_quote]
    simp only [string_quote, ws_colon]
    rw [hk p.2 d m _ (hg p List.mem_cons_self) (by omega) (by omega) (delim_members [] r)]
    simp [renderMembers, ws_brace]
  | cons w l ih =>
    intro p n r hg h1 h2
    simp only [renderMembers, List.length_append, List.length_cons] at h1 h2
    obtain ⟨m, rfl⟩ : ∃ m, n = m + 1 := ⟨n - 1, by omega⟩
    have e : quote p.1 ++ 0x3A :: (render p.2 ++ (renderMembers (w :: l) ++ r)) =
      0x22 :: ((utf8 p.1).flatMap escape ++ 0x22 :: 0x3A :: (render p.2 ++ (renderMembers (w :: l) ++ r))) := by
      simp [quote]
    rw [members, e, ws_quote]
    simp only [string_quote, ws_colon]
    rw [hk p.2 d m _ (hg p List.mem_cons_self) (by omega) (by omega) (delim_members (w :: l) r)]
    have := ih (p := w) (n := m) (r := r) (fun x hx => hg x (List.mem_cons_of_mem _ hx))
      (by simp only [List.length_append, List.length_cons]; omega) (by simp only [List.length_append, List.length_cons]; omega)
    simp only [renderMembers, List.cons_append, ws_comma, List.append_assoc, this]
    rfl

theorem reads (k : Nat) : Reads k := by
  induction k with
  | zero =>
    intro v d n r hg h
    obtain ⟨c, t, h1, -⟩ := render_head hg
    rw [h1] at h; simp at h
  | succ k ih =>
    intro v d n r hg h hn hr
    obtain ⟨c0, t0, h0, hs⟩ := render_head hg
    obtain ⟨m, rfl⟩ : ∃ m, n = m + 1 := ⟨n - 1, by rw [h0] at hn; simp at hn; omega⟩
    cases hg with
    | null => simp [render, value, ws]
    | bool _ b => cases b <;> simp [render, value, ws]
    | num _ i =>
      rw [render] at h0 ⊢
      have hd := digit_starts (decimal_digits i c0 (by rw [h0]; exact List.mem_cons_self))
      have hw : ws (decimal i ++ r) = decimal i ++ r := by rw [h0, List.cons_append, ws_starts hs]
      have hq := number_decimal i hr
      rw [value, hw]
      rw [h0, List.cons_append] at hq ⊢
      split
      · rename_i h; exact absurd (List.cons.inj h).1 hd.2.1
      · rename_i h; exact absurd (List.cons.inj h).1 hd.2.2.1
      · rename_i h; exact absurd (List.cons.inj h).1 hd.2.2.2.1
      · rename_i h; exact absurd (List.cons.inj h).1 hd.2.2.2.2.1
      · rename_i h; exact absurd (List.cons.inj h).1 hd.2.2.2.2.2.1
      · rename_i h; exact absurd (List.cons.inj h).1 hd.2.2.2.2.2.2
      · rw [hq]; rfl
    | str _ s =>
      have e : render (.str s) ++ r = 0x22 :: ((utf8 s).flatMap escape ++ 0x22 :: r) := by simp [render, quote]
      rw [e, value, ws_quote]
      simp only [string_quote]
      rfl
    | @arr d l hl =>
      cases l with
      | nil => simp [render, value, ws]
      | cons w l =>
        rw [render] at h hn ⊢
        simp only [List.length_cons] at h hn
        obtain ⟨c, t, h1, h2⟩ := render_head (hl w List.mem_cons_self)
        have := elems_read ih (d := d + 1) (n := m) (r := r) hl (by omega) (by omega)
        rw [List.cons_append, List.append_assoc, value]
        have e : ws (0x5B :: (render w ++ (renderElems l ++ r))) = 0x5B :: (render w ++ (renderElems l ++ r)) := by simp [ws]
        have e1 : ws (render w ++ (renderElems l ++ r)) = render w ++ (renderElems l ++ r) := by
          rw [h1, List.cons_append, ws_starts h2]
        rw [e]
        simp only [e1]
        rw [if_neg (by omega)]
        split
        · rename_i h; rw [h1] at h; exact absurd (List.cons.inj h).1 h2.2.2.2.2.1
        · rw [show d + 2 - 1 = d + 1 from rfl, this]; rfl
    | @obj d l hl =>
      cases l with
      | nil => simp [render, value, ws]
      | cons w l =>
        rw [render] at h hn ⊢
        simp only [List.length_cons] at h hn
        have := members_read ih (d := d + 1) (n := m) (r := r) hl (by omega) (by omega)
        rw [List.cons_append, value]
        have e : ∀ t, ws (0x7B :: t) = 0x7B :: t := fun t => by simp [ws]
        have e1 : (quote w.1 ++ 0x3A :: (render w.2 ++ renderMembers l)) ++ r =
          0x22 :: ((utf8 w.1).flatMap escape ++ 0x22 :: 0x3A :: (render w.2 ++ (renderMembers l ++ r))) := by simp [quote]
        have e2 : quote w.1 ++ 0x3A :: (render w.2 ++ (renderMembers l ++ r)) =
          0x22 :: ((utf8 w.1).flatMap escape ++ 0x22 :: 0x3A :: (render w.2 ++ (renderMembers l ++ r))) := by simp [quote]
        rw [e2] at this
        rw [e, e1]
        simp only [ws_quote]
        rw [if_neg (by omega), show d + 2 - 1 = d + 1 from rfl]
        split
        · rename_i h; exact absurd (List.cons.inj h).1 (by decide)
        · rw [this]; rfl

/-- What is written is read back. -/
theorem parse_render {v : Val} (h : Good 128 v) : parse (render v) = some v := by
  have := reads (render v).length v 128 (2 * (render v).length + 2) [] h (Nat.le_refl _) (by omega) trivial
  rw [List.append_nil] at this
  unfold parse
  rw [this]
  rfl

/-! ## The bound of the recursion is no restriction -/

theorem ws_length (b : Bytes) : (ws b).length ≤ b.length := by
  induction b with
  | nil => exact Nat.le_refl _
  | cons c t ih =>
    unfold ws
    split
    · exact Nat.le_succ_of_le ih
    · exact Nat.le_refl _


theorem chars_length (b : Bytes) : ∀ {u r : Bytes}, chars b = some (u, r) → r.length < b.length := by
  fun_induction chars b
  all_goals intro u r h
  all_goals first
    | (cases h; done)
    | (simp only [Option.some.injEq, Prod.mk.injEq] at h; obtain ⟨-, rfl⟩ := h; simp)
    | (rename_i ih
       simp only [Option.map_eq_some_iff, Prod.mk.injEq] at h
       obtain ⟨⟨u', r'⟩, h1, -, rfl⟩ := h
       have := ih h1
       simp only [List.length_cons] at this ⊢
       omega)

theorem string_length {b : Bytes} {s : String} {r : Bytes} (h : string b = some (s, r)) : r.length < b.length := by
  unfold string at h
  split at h
  · cases h
  · rename_i h1
    split at h
    · cases h
    · cases h
      exact chars_length _ h1

theorem spanDigits_length (b : Bytes) : (spanDigits b).1.length + (spanDigits b).2.length = b.length := by
  induction b with
  | nil => rfl
  | cons c t ih =>
    unfold spanDigits
    split
    · simp only [List.length_cons]; omega
    · simp

theorem intPart_length {b d r : Bytes} (h : intPart b = some (d, r)) : r.length < b.length := by
  unfold intPart at h
  split at h
  · cases h
  · rename_i x d' r' e
    have := spanDigits_length b
    rw [e] at this
    split at h
    · cases h
    · cases h; simp only [List.length_cons] at this; omega

theorem fracPart_length {b d r : Bytes} (h : fracPart b = some (d, r)) : r.length ≤ b.length := by
  unfold fracPart at h
  split at h
  · rename_i t
    split at h
    · cases h
    · rename_i d' r' e1 e
      have := spanDigits_length t
      rw [e] at this
      cases h
      simp only [List.length_cons]; simp only at this; omega
  · cases h; exact Nat.le_refl _

theorem sign_length (b : Bytes) : (sign b).2.length ≤ b.length := by
  unfold sign
  split <;> simp

theorem minus_length (b : Bytes) : (minus b).2.length ≤ b.length := by
  unfold minus
  split <;> simp

theorem expPart_length {b d r : Bytes} (h : expPart b = some (d, r)) : r.length ≤ b.length := by
  unfold expPart at h
  split at h
  · rename_i c t
    split at h
    · split at h
      · cases h
      · rename_i d' r' e1 e
        have := spanDigits_length (sign t).2
        have h2 := sign_length t
        rw [e] at this
        cases h
        simp only [List.length_cons]; simp only at this; omega
    · cases h; exact Nat.le_refl _
  · cases h; exact Nat.le_refl _

theorem number_length {b d r : Bytes} (h : number b = some (d, r)) : r.length < b.length := by
  unfold number at h
  split at h
  · cases h
  · rename_i h1
    split at h
    · cases h
    · rename_i h2
      split at h
      · cases h
      · rename_i h3
        cases h
        have := intPart_length h1
        have := fracPart_length h2
        have := expPart_length h3
        have := minus_length b
        omega

/-- What is left after a value, elements or members is shorter. -/
def Shrinks (n : Nat) : Prop := ∀ d b,
  (∀ v r, value n d b = some (v, r) → r.length < b.length) ∧
  (∀ v r, elems n d b = some (v, r) → r.length < b.length) ∧
  (∀ v r, members n d b = some (v, r) → r.length < b.length)

theorem shrinks (n : Nat) : Shrinks n := by
  induction n with
  | zero => intro d b; simp [value, elems, members]
  | succ n ih =>
    intro d b
    refine ⟨fun v r h => ?_, fun v r h => ?_, fun v r h => ?_⟩
    · have hb := ws_length b
      rw [value] at h
      split at h
      · rename_i t e
        rw [e] at hb
        obtain ⟨⟨s, r'⟩, h1, h2⟩ := Option.map_eq_some_iff.1 h
        obtain ⟨-, rfl⟩ : _ ∧ r' = r := Prod.mk.inj h2
        have := string_length h1
        simp only [List.length_cons] at hb
        omega
      · rename_i t e
        rw [e] at hb
        have ht := ws_length t
        simp only [List.length_cons] at hb
        split at h
        · cases h
        · split at h
          · rename_i e1; cases h; rw [e1] at ht; simp only [List.length_cons] at ht; omega
          · obtain ⟨⟨s, r'⟩, h1, h2⟩ := Option.map_eq_some_iff.1 h
            obtain ⟨-, rfl⟩ : _ ∧ r' = r := Prod.mk.inj h2
            have := (ih _ _).2.1 _ _ h1
            omega
      · rename_i t e
        rw [e] at hb
        have ht := ws_length t
        simp only [List.length_cons] at hb
        split at h
        · cases h
        · split at h
          · rename_i e1; cases h; rw [e1] at ht; simp only [List.length_cons] at ht; omega
          · obtain ⟨⟨s, r'⟩, h1, h2⟩ := Option.map_eq_some_iff.1 h
            obtain ⟨-, rfl⟩ : _ ∧ r' = r := Prod.mk.inj h2
            have := (ih _ _).2.2 _ _ h1
            omega
      · rename_i e; rw [e] at hb; cases h; simp only [List.length_cons] at hb; omega
      · rename_i e; rw [e] at hb; cases h; simp only [List.length_cons] at hb; omega
      · rename_i e; rw [e] at hb; cases h; simp only [List.length_cons] at hb; omega
      · obtain ⟨⟨s, r'⟩, h1, h2⟩ := Option.map_eq_some_iff.1 h
        obtain ⟨-, rfl⟩ : _ ∧ r' = r := Prod.mk.inj h2
        have := number_length h1
        omega
    · rw [elems] at h
      split at h
      · cases h
      · rename_i w q e
        have h1 := (ih _ _).1 _ _ e
        have hq := ws_length q
        split at h
        · rename_i e1
          obtain ⟨⟨s, r'⟩, h1, h2⟩ := Option.map_eq_some_iff.1 h
          obtain ⟨-, rfl⟩ : _ ∧ r' = r := Prod.mk.inj h2
          have := (ih _ _).2.1 _ _ h1
          rw [e1] at hq; simp only [List.length_cons] at hq; omega
        · rename_i e1
          cases h; rw [e1] at hq; simp only [List.length_cons] at hq; omega
        · cases h
    · have hb := ws_length b
      rw [members] at h
      split at h
      · rename_i t e
        rw [e] at hb; simp only [List.length_cons] at hb
        split at h
        · cases h
        · rename_i k q hs
          have h0 := string_length hs
          have hq := ws_length q
          split at h
          · rename_i q1 e1
            rw [e1] at hq; simp only [List.length_cons] at hq
            split at h
            · cases h
            · rename_i w q2 e2
              have h1 := (ih _ _).1 _ _ e2
              have hq2 := ws_length q2
              split at h
              · rename_i e3
                obtain ⟨⟨s, r'⟩, h1, h2⟩ := Option.map_eq_some_iff.1 h
                obtain ⟨-, rfl⟩ : _ ∧ r' = r := Prod.mk.inj h2
                have := (ih _ _).2.2 _ _ h1
                rw [e3] at hq2; simp only [List.length_cons] at hq2; omega
              · rename_i e3
                cases h; rw [e3] at hq2; simp only [List.length_cons] at hq2; omega
              · cases h
          · cases h
      · cases h

/-- More than enough is as good as enough. -/
theorem fuel (n : Nat) : ∀ m d b,
    (2 * b.length + 1 ≤ n → n ≤ m → value m d b = value n d b) ∧
    (2 * b.length + 2 ≤ n → n ≤ m → elems m d b = elems n d b) ∧
    (2 * b.length + 2 ≤ n → n ≤ m → members m d b = members n d b) := by
  induction n with
  | zero => intro m d b; exact ⟨fun h => by omega, fun h => by omega, fun h => by omega⟩
  | succ n ih =>
    intro m d b
    refine ⟨fun h hm => ?_, fun h hm => ?_, fun h hm => ?_⟩
    all_goals obtain ⟨m, rfl⟩ : ∃ k, m = k + 1 := ⟨m - 1, by omega⟩
    · have hb := ws_length b
      rw [value, value]
      split
      · rfl
      · rename_i t e
        rw [e] at hb; simp only [List.length_cons] at hb
        have ht := ws_length t
        have h1 := (ih m (d - 1) (ws t)).2.1 (by omega) (by omega)
        split
        · rfl
        · split
          · rfl
          · rw [h1]
      · rename_i t e
        rw [e] at hb; simp only [List.length_cons] at hb
        have ht := ws_length t
        have h1 := (ih m (d - 1) (ws t)).2.2 (by omega) (by omega)
        split
        · rfl
        · split
          · rfl
          · rw [h1]
      · rfl
      · rfl
      · rfl
      · rfl
    · rw [elems, elems, (ih m d b).1 (by omega) (by omega)]
      split
      · rfl
      · rename_i w q e
        have h1 := (shrinks _ _ _).1 _ _ e
        have hq := ws_length q
        split
        · rename_i e1
          rw [e1] at hq; simp only [List.length_cons] at hq
          rw [(ih m d _).2.1 (by omega) (by omega)]
        · rfl
        · rfl
    · have hb := ws_length b
      rw [members, members]
      split
      · rename_i t e
        rw [e] at hb; simp only [List.length_cons] at hb
        split
        · rfl
        · rename_i k q hs
          have h0 := string_length hs
          have hq := ws_length q
          split
          · rename_i q1 e1
            rw [e1] at hq; simp only [List.length_cons] at hq
            rw [(ih m d _).1 (by omega) (by omega)]
            split
            · rfl
            · rename_i w q2 e2
              have h1 := (shrinks _ _ _).1 _ _ e2
              have hq2 := ws_length q2
              split
              · rename_i e3
                rw [e3] at hq2; simp only [List.length_cons] at hq2
                rw [(ih m d _).2.2 (by omega) (by omega)]
              · rfl
              · rfl
          · rfl
      · rfl

/-- The recursion bound in `parse` cuts nothing off. -/
theorem parse_fuel {m : Nat} {b : Bytes} (h : 2 * b.length + 2 ≤ m) : value m 128 b = value (2 * b.length + 2) 128 b :=
  (fuel _ m 128 b).1 (by omega) h

end Verif.Serde
