import Verif.Spec.JsonText
import Verif.Serde.Round

/-!
# The reader reads exactly the JSON texts

`parse` accepts a text of the grammar (`Spec/JsonText`) and yields its value, and accepts nothing else.
-/

namespace Verif.Serde

open Verif Storage JsonText

/-! ## White space -/

theorem ws_space {s : Bytes} (h : Space s) (t : Bytes) : ws (s ++ t) = ws t := by
  induction s with
  | nil => rfl
  | cons c s ih =>
    rw [List.cons_append, ws, if_pos, ih fun x hx => h x (List.mem_cons_of_mem _ hx)]
    have := h c List.mem_cons_self
    tauto

theorem space_ws (b : Bytes) : ∃ s, b = s ++ ws b ∧ Space s := by
  induction b with
  | nil => exact ⟨[], rfl, fun _ h => by cases h⟩
  | cons c t ih =>
    unfold ws
    split
    · rename_i hc
      obtain ⟨s, h1, h2⟩ := ih
      refine ⟨c :: s, by rw [List.cons_append, ← h1], fun x hx => ?_⟩
      rcases List.mem_cons.1 hx with rfl | hx
      · tauto
      · exact h2 x hx
    · exact ⟨[], rfl, fun _ h => by cases h⟩

/-- What follows a value in a text. -/
def Ends : Bytes → Prop
  | [] => True
  | c :: _ => c = 0x20 ∨ c = 0x09 ∨ c = 0x0A ∨ c = 0x0D ∨ c = 0x2C ∨ c = 0x5D ∨ c = 0x7D

theorem Ends.delim {r : Bytes} (h : Ends r) : Delim r := by
  cases r with
  | nil => trivial
  | cons c r =>
    rcases h with rfl | rfl | rfl | rfl | rfl | rfl | rfl <;> exact ⟨by decide, by decide, by decide, by decide⟩

theorem ends_space {s r : Bytes} (h : Space s) (hr : Ends r) : Ends (s ++ r) := by
  cases s with
  | nil => exact hr
  | cons c s =>
    have := h c List.mem_cons_self
    show _ ∨ _
    tauto

/-! ## Strings -/

theorem hex_unhex {c : UInt8} {n : Nat} (h : Hex c n) : unhex c = some n := by
  have h1 : ∀ n < 10, unhex (UInt8.ofNat (0x30 + n)) = some n := by decide
  have h2 : ∀ n < 6, unhex (UInt8.ofNat (0x61 + n)) = some (10 + n) := by decide
  have h3 : ∀ n < 6, unhex (UInt8.ofNat (0x41 + n)) = some (10 + n) := by decide
  cases h with
  | digit n h => exact h1 n h
  | small n h => exact h2 n h
  | capital n h => exact h3 n h

theorem unhex_hex {c : UInt8} {n : Nat} (h : unhex c = some n) : Hex c n := by
  have key : ∀ (k a : Nat), k ≤ c.toNat → c = UInt8.ofNat (k + (c.toNat - k)) := by
    intro k _ hk
    rw [Nat.add_sub_cancel' hk, UInt8.ofNat_toNat]
  unfold unhex at h
  split at h
  · rename_i hc
    cases h
    have h1 : 48 ≤ c.toNat := UInt8.le_iff_toNat_le.1 hc.1
    have h2 : c.toNat ≤ 57 := UInt8.le_iff_toNat_le.1 hc.2
    have := Hex.digit (c.toNat - 48) (by omega)
    rw [← key 48 0 h1] at this
    exact this
  · split at h
    · rename_i hc
      cases h
      have h1 : 97 ≤ c.toNat := UInt8.le_iff_toNat_le.1 hc.1
      have h2 : c.toNat ≤ 102 := UInt8.le_iff_toNat_le.1 hc.2
      have := Hex.small (c.toNat - 97) (by omega)
      rw [← key 97 0 h1, show 10 + (c.toNat - 97) = c.toNat - 87 by omega] at this
      exact this
    · split at h
      · rename_i hc
        cases h
        have h1 : 65 ≤ c.toNat := UInt8.le_iff_toNat_le.1 hc.1
        have h2 : c.toNat ≤ 70 := UInt8.le_iff_toNat_le.1 hc.2
        have := Hex.capital (c.toNat - 65) (by omega)
        rw [← key 65 0 h1, show 10 + (c.toNat - 65) = c.toNat - 55 by omega] at this
        exact this
      · cases h

theorem hex4_unhex {b : Bytes} {n : Nat} (h : Hex4 b n) : ∃ c1 c2 c3 c4, b = [c1, c2, c3, c4] ∧ unhex4 c1 c2 c3 c4 = some n := by
  obtain ⟨c1, c2, c3, c4, n1, n2, n3, n4, rfl, h1, h2, h3, h4, rfl⟩ := h
  refine ⟨c1, c2, c3, c4, rfl, ?_⟩
  simp only [unhex4, hex_unhex h1, hex_unhex h2, hex_unhex h3, hex_unhex h4]
  congr 1
  omega

theorem unhex_hex4 {c1 c2 c3 c4 : UInt8} {n : Nat} (h : unhex4 c1 c2 c3 c4 = some n) : Hex4 [c1, c2, c3, c4] n := by
  unfold unhex4 at h
  split at h
  · rename_i n1 n2 n3 n4 h1 h2 h3 h4
    cases h
    exact ⟨c1, c2, c3, c4, n1, n2, n3, n4, rfl, unhex_hex h1, unhex_hex h2, unhex_hex h3, unhex_hex h4, by omega⟩
  · cases h

theorem unescape_iff {e b : UInt8} : unescape e = some b ↔
    (e, b) ∈ [((0x22, 0x22) : UInt8 × UInt8), (0x5C, 0x5C), (0x2F, 0x2F), (0x62, 0x08), (0x66, 0x0C), (0x6E, 0x0A), (0x72, 0x0D),
      (0x74, 0x09)] := by
  constructor
  · intro h
    unfold unescape at h
    split at h
    · rename_i hc; cases h; rcases hc with rfl | rfl | rfl <;> decide
    · repeat' (split at h; · (rename_i hc; cases h; subst hc; decide))
      cases h
  · intro h
    simp only [List.mem_cons, Prod.mk.injEq, List.not_mem_nil, or_false] at h
    rcases h with ⟨rfl, rfl⟩ | ⟨rfl, rfl⟩ | ⟨rfl, rfl⟩ | ⟨rfl, rfl⟩ | ⟨rfl, rfl⟩ | ⟨rfl, rfl⟩ | ⟨rfl, rfl⟩ | ⟨rfl, rfl⟩ <;> decide

theorem chars_of {q u : Bytes} (h : Chars q u) (r : Bytes) : chars (q ++ 0x22 :: r) = some (u, r) := by
  induction h with
  | nil => rw [List.nil_append, chars.eq_def]; rfl
  | plain c hc hq hb _ ih =>
    rw [List.cons_append, chars.eq_def]
    simp only [if_neg hq, if_neg (UInt8.not_lt.2 hc), if_neg hb, ih]
    rfl
  | letter e b he _ ih =>
    have hu := unescape_iff.2 he
    have h75 : e ≠ 0x75 := by rintro rfl; cases hu
    rw [List.cons_append, List.cons_append, chars.eq_def]
    simp only [if_neg (show (0x5C : UInt8) ≠ 0x22 by decide), if_neg (show ¬ (0x5C : UInt8) < 0x20 by decide), if_neg h75, hu, ih]
    rfl
  | unit h n hn hs _ ih =>
    obtain ⟨c1, c2, c3, c4, rfl, hu⟩ := hex4_unhex hn
    rw [List.cons_append, List.cons_append, List.append_assoc, chars.eq_def]
    simp only [List.cons_append, List.nil_append, if_neg (show (0x5C : UInt8) ≠ 0x22 by decide),
      if_neg (show ¬ (0x5C : UInt8) < 0x20 by decide), hu]
    simp only [if_true]
    rw [if_neg (by omega), if_neg (by omega), ih]
    rfl
  | pair h l n m hn hm h1 h2 _ ih =>
    obtain ⟨c1, c2, c3, c4, rfl, hu⟩ := hex4_unhex hn
    obtain ⟨d1, d2, d3, d4, rfl, hv⟩ := hex4_unhex hm
    rw [List.cons_append, List.cons_append, List.append_assoc, chars.eq_def]
    simp only [List.cons_append, List.nil_append, if_neg (show (0x5C : UInt8) ≠ 0x22 by decide),
      if_neg (show ¬ (0x5C : UInt8) < 0x20 by decide), hu]
    simp only [if_true, if_pos h1, hv, if_pos h2, ih]
    rfl

theorem of_chars (b : Bytes) : ∀ {u r : Bytes}, chars b = some (u, r) → ∃ q, b = q ++ 0x22 :: r ∧ Chars q u := by
  fun_induction chars b
  all_goals intro u r h
  all_goals first
    | (cases h; done)
    | skip
  · cases h
    exact ⟨[], rfl, .nil⟩
  · rename_i c1 c2 c3 c4 n hn h1 d1 d2 d3 d4 t m hm h2 _ _ ih
    obtain ⟨⟨v, r'⟩, h3, h4⟩ := Option.map_eq_some_iff.1 h
    obtain ⟨rfl, rfl⟩ := Prod.mk.inj h4
    obtain ⟨q, rfl, hq⟩ := ih h3
    exact ⟨_, rfl, .pair [c1, c2, c3, c4] [d1, d2, d3, d4] n m (unhex_hex4 hn) (unhex_hex4 hm) h1 h2 hq⟩
  · rename_i c1 c2 c3 c4 t n hn h1 h2 _ _ ih
    obtain ⟨⟨v, r'⟩, h3, h4⟩ := Option.map_eq_some_iff.1 h
    obtain ⟨rfl, rfl⟩ := Prod.mk.inj h4
    obtain ⟨q, rfl, hq⟩ := ih h3
    exact ⟨_, rfl, .unit [c1, c2, c3, c4] n (unhex_hex4 hn) (by omega) hq⟩
  · rename_i e t _ b hb _ _ ih
    obtain ⟨⟨v, r'⟩, h3, h4⟩ := Option.map_eq_some_iff.1 h
    obtain ⟨rfl, rfl⟩ := Prod.mk.inj h4
    obtain ⟨q, rfl, hq⟩ := ih h3
    exact ⟨_, rfl, .letter e b (unescape_iff.1 hb) hq⟩
  · rename_i c t h1 h2 h5 ih
    obtain ⟨⟨v, r'⟩, h3, h4⟩ := Option.map_eq_some_iff.1 h
    obtain ⟨rfl, rfl⟩ := Prod.mk.inj h4
    obtain ⟨q, rfl, hq⟩ := ih h3
    exact ⟨_, rfl, .plain c (UInt8.not_lt.1 h2) h1 h5 hq⟩

theorem utf8_of {u : Bytes} {s : String} (h : String.fromUTF8? ⟨u.toArray⟩ = some s) : u = utf8 s := by
  unfold String.fromUTF8? at h
  split at h
  · cases h
    simp [utf8, String.fromUTF8]
  · cases h

theorem string_of {q r : Bytes} {s : String} (h : Chars q (utf8 s)) : string (q ++ 0x22 :: r) = some (s, r) := by
  unfold string
  rw [chars_of h]
  simp only [fromUTF8_utf8]

theorem of_string {b r : Bytes} {s : String} (h : string b = some (s, r)) : ∃ q, b = q ++ 0x22 :: r ∧ Chars q (utf8 s) := by
  unfold string at h
  split at h
  · cases h
  · rename_i u r' hc
    split at h
    · cases h
    · rename_i s' hs
      cases h
      rw [← utf8_of hs]
      exact of_chars b hc

/-! ## Numbers -/

theorem digit_iff {c : UInt8} : isDigit c = true ↔ Digit c := by
  unfold isDigit Digit
  exact decide_eq_true_iff

/-- What follows does not begin with a digit. -/
def Stops : Bytes → Prop
  | [] => True
  | c :: _ => isDigit c = false

theorem spanDigits_of {d r : Bytes} (hd : ∀ b ∈ d, Digit b) (hr : Stops r) : spanDigits (d ++ r) = (d, r) := by
  induction d with
  | nil =>
    cases r with
    | nil => rfl
    | cons c t => simp [spanDigits, show isDigit c = false from hr]
  | cons b t ih =>
    have := ih fun x hx => hd x (List.mem_cons_of_mem _ hx)
    simp [spanDigits, digit_iff.2 (hd b List.mem_cons_self), this]

theorem of_spanDigits (b : Bytes) : ∀ {d r : Bytes}, spanDigits b = (d, r) → b = d ++ r ∧ ∀ c ∈ d, Digit c := by
  induction b with
  | nil => intro d r h; cases h; exact ⟨rfl, fun c hc => by cases hc⟩
  | cons c t ih =>
    intro d r h
    unfold spanDigits at h
    split at h
    · rename_i hc
      obtain ⟨rfl, rfl⟩ := Prod.mk.inj h
      obtain ⟨h1, h2⟩ := ih (d := (spanDigits t).1) (r := (spanDigits t).2) rfl
      refine ⟨by rw [List.cons_append, ← h1], fun x hx => ?_⟩
      rcases List.mem_cons.1 hx with rfl | hx
      · exact digit_iff.1 hc
      · exact h2 x hx
    · cases h; exact ⟨rfl, fun c hc => by cases hc⟩

theorem IsInt.head {i : Bytes} (h : IsInt i) : ∃ x t, i = x :: t ∧ Digit x ∧ (∀ c ∈ t, Digit c) ∧ (x = 0x30 → t = []) := by
  rcases h with rfl | ⟨x, t, rfl, h1, h2, h3⟩
  · exact ⟨_, _, rfl, by unfold Digit; decide, fun c hc => (by cases hc), fun _ => rfl⟩
  · refine ⟨x, t, rfl, ⟨UInt8.le_trans (by decide) h1, h2⟩, h3, ?_⟩
    rintro rfl
    exact absurd h1 (by decide)

theorem intPart_of {i r : Bytes} (h : IsInt i) (hr : Stops r) : intPart (i ++ r) = some (i, r) := by
  obtain ⟨x, t, rfl, h1, h2, h3⟩ := IsInt.head h
  unfold intPart
  rw [spanDigits_of (d := x :: t) (fun b hb => by rcases List.mem_cons.1 hb with rfl | hb; exacts [h1, h2 b hb]) hr]
  simp only
  rw [if_neg]
  rintro ⟨e, h⟩
  exact h (h3 e)

theorem of_intPart {b i r : Bytes} (h : intPart b = some (i, r)) : b = i ++ r ∧ IsInt i := by
  unfold intPart at h
  split at h
  · cases h
  · rename_i x d r' hs
    obtain ⟨h1, h2⟩ := of_spanDigits b hs
    split at h
    · cases h
    · rename_i hx
      cases h
      refine ⟨h1, ?_⟩
      have hd := h2 x List.mem_cons_self
      by_cases e : x = 0x30
      · subst e
        have : d = [] := by
          by_contra hne
          exact hx ⟨rfl, hne⟩
        rw [this]
        exact .inl rfl
      · refine .inr ⟨x, d, rfl, ?_, hd.2, fun c hc => h2 c (List.mem_cons_of_mem _ hc)⟩
        have h3 := UInt8.le_iff_toNat_le.1 hd.1
        refine UInt8.le_iff_toNat_le.2 ?_
        have : x.toNat ≠ 48 := fun h => e (UInt8.toNat_inj.1 h)
        change 48 ≤ x.toNat at h3
        change 49 ≤ x.toNat
        omega

/-- What follows the digits before the point, after the fraction, after the exponent. -/
theorem fracPart_of {f r : Bytes} (h : IsFrac f) (hr : Stops r) (hp : ∀ t, r ≠ 0x2E :: t) : fracPart (f ++ r) = some (f, r) := by
  rcases h with rfl | ⟨d, rfl, hne, hd⟩
  · rw [List.nil_append]
    unfold fracPart
    split
    · exact absurd rfl (hp _)
    · rfl
  · rw [List.cons_append]
    unfold fracPart
    simp only [spanDigits_of hd hr]

theorem of_fracPart {b f r : Bytes} (h : fracPart b = some (f, r)) : b = f ++ r ∧ IsFrac f := by
  unfold fracPart at h
  split at h
  · split at h
    · cases h
    · rename_i t d r' hne hs
      cases h
      obtain ⟨h1, h2⟩ := of_spanDigits _ hs
      exact ⟨by rw [h1]; rfl, .inr ⟨d, rfl, fun e => hne (by rw [e]), h2⟩⟩
  · cases h; exact ⟨rfl, .inl rfl⟩

theorem sign_of {s d r : Bytes} (h : s = [] ∨ s = [0x2B] ∨ s = [0x2D]) (hd : Digits d) : sign (s ++ (d ++ r)) = (s, d ++ r) := by
  rcases h with rfl | rfl | rfl
  · obtain ⟨hne, hd⟩ := hd
    cases d with
    | nil => exact absurd rfl hne
    | cons x d =>
      have hx := hd x List.mem_cons_self
      rw [List.nil_append, List.cons_append]
      unfold sign
      split
      · rename_i e; rw [(List.cons.inj e).1] at hx; exact absurd hx (by unfold Digit; decide)
      · rename_i e; rw [(List.cons.inj e).1] at hx; exact absurd hx (by unfold Digit; decide)
      · rfl
  · rfl
  · rfl

theorem of_sign (b : Bytes) : b = (sign b).1 ++ (sign b).2 ∧ ((sign b).1 = [] ∨ (sign b).1 = [0x2B] ∨ (sign b).1 = [0x2D]) := by
  unfold sign
  split
  · exact ⟨rfl, .inr (.inl rfl)⟩
  · exact ⟨rfl, .inr (.inr rfl)⟩
  · exact ⟨rfl, .inl rfl⟩

theorem expPart_of {e r : Bytes} (h : IsExp e) (hr : Delim r) : expPart (e ++ r) = some (e, r) := by
  have hs : Stops r := by cases r with
    | nil => trivial
    | cons c t => exact hr.1
  rcases h with rfl | ⟨c, s, d, rfl, hc, h1, hd⟩
  · exact expPart_delim hr
  · rw [List.cons_append, List.append_assoc]
    unfold expPart
    simp only [sign_of h1 hd, if_pos hc, spanDigits_of hd.2 hs]
    cases d with
    | nil => exact absurd rfl hd.1
    | cons x d => rfl

theorem of_expPart {b e r : Bytes} (h : expPart b = some (e, r)) : b = e ++ r ∧ IsExp e := by
  unfold expPart at h
  split at h
  · rename_i c t
    split at h
    · rename_i hc
      split at h
      · cases h
      · rename_i d r' hne hs
        cases h
        obtain ⟨h1, h2⟩ := of_spanDigits _ hs
        obtain ⟨h3, h4⟩ := of_sign t
        refine ⟨?_, .inr ⟨c, (sign t).1, d, rfl, hc, h4, fun e => hne (by rw [e]), h2⟩⟩
        rw [List.cons_append, List.cons_append, List.append_assoc, ← h1, ← h3]
    · cases h; exact ⟨rfl, .inl rfl⟩
  · cases h; exact ⟨rfl, .inl rfl⟩

theorem of_minus (b : Bytes) : b = (minus b).1 ++ (minus b).2 ∧ ((minus b).1 = [] ∨ (minus b).1 = [0x2D]) := by
  unfold minus
  split
  · exact ⟨rfl, .inr rfl⟩
  · exact ⟨rfl, .inl rfl⟩

theorem minus_of {m i r : Bytes} (h : m = [] ∨ m = [0x2D]) (hi : IsInt i) : minus (m ++ (i ++ r)) = (m, i ++ r) := by
  rcases h with rfl | rfl
  · obtain ⟨x, t, rfl, hx, -, -⟩ := IsInt.head hi
    rw [List.nil_append, List.cons_append]
    unfold minus
    split
    · rename_i e; rw [(List.cons.inj e).1] at hx; exact absurd hx (by unfold Digit; decide)
    · rfl
  · rfl

theorem number_of {t r : Bytes} (h : IsNumber t) (hr : Delim r) : number (t ++ r) = some (t, r) := by
  obtain ⟨m, i, f, e, rfl, hm, hi, hf, he⟩ := h
  have hs : Stops r := by cases r with
    | nil => trivial
    | cons c t => exact hr.1
  have h1 : Stops (e ++ r) ∧ ∀ t, e ++ r ≠ 0x2E :: t := by
    rcases he with rfl | ⟨c, s, d, rfl, hc, -, -⟩
    · refine ⟨hs, fun t e => ?_⟩
      rw [List.nil_append] at e
      rw [e] at hr
      exact hr.2.1 rfl
    · rcases hc with rfl | rfl
      · exact ⟨by show isDigit _ = false; decide, fun t e => absurd (List.cons.inj e).1 (by decide)⟩
      · exact ⟨by show isDigit _ = false; decide, fun t e => absurd (List.cons.inj e).1 (by decide)⟩
  have h2 : Stops (f ++ (e ++ r)) := by
    rcases hf with rfl | ⟨d, rfl, -⟩
    · exact h1.1
    · show isDigit _ = false; decide
  have e0 : m ++ (i ++ (f ++ e)) ++ r = m ++ (i ++ (f ++ (e ++ r))) := by simp only [List.append_assoc]
  unfold number
  rw [e0, minus_of hm hi]
  simp only [intPart_of hi h2, fracPart_of hf h1.1 h1.2, expPart_of he hr, List.append_assoc]

theorem of_number {b t r : Bytes} (h : number b = some (t, r)) : b = t ++ r ∧ IsNumber t := by
  unfold number at h
  split at h
  · cases h
  · rename_i i r1 hi
    split at h
    · cases h
    · rename_i f r2 hf
      split at h
      · cases h
      · rename_i e r3 he
        cases h
        obtain ⟨h1, h2⟩ := of_minus b
        obtain ⟨h3, h4⟩ := of_intPart hi
        obtain ⟨h5, h6⟩ := of_fracPart hf
        obtain ⟨h7, h8⟩ := of_expPart he
        refine ⟨?_, (minus b).1, i, f, e, by simp only [List.append_assoc], h2, h4, h6, h8⟩
        rw [List.append_assoc, List.append_assoc, List.append_assoc, ← h7, ← h5, ← h3, ← h1]

theorem IsNumber.head {t : Bytes} (h : IsNumber t) : ∃ x u, t = x :: u ∧ (x = 0x2D ∨ Digit x) := by
  obtain ⟨m, i, f, e, rfl, hm, hi, hf, he⟩ := h
  obtain ⟨x, u, rfl, hx, -, -⟩ := IsInt.head hi
  rcases hm with rfl | rfl
  · exact ⟨x, _, rfl, .inr hx⟩
  · exact ⟨_, _, rfl, .inl rfl⟩

/-! ## Values -/

theorem Text.head {v : Val} {t : Bytes} (h : Text v t) : ∃ c u, t = c :: u ∧ Starts c := by
  cases h with
  | null => exact ⟨_, _, rfl, by unfold Starts; decide⟩
  | yes => exact ⟨_, _, rfl, by unfold Starts; decide⟩
  | no => exact ⟨_, _, rfl, by unfold Starts; decide⟩
  | num _ h =>
    obtain ⟨x, u, rfl, hx⟩ := IsNumber.head h
    refine ⟨x, u, rfl, ?_⟩
    rcases hx with rfl | hx
    · unfold Starts; decide
    · exact (digit_starts (digit_iff.2 hx)).1
  | str q s h => exact ⟨_, _, rfl, by unfold Starts; decide⟩
  | arr0 s h => exact ⟨_, _, rfl, by unfold Starts; decide⟩
  | arr l b h => exact ⟨_, _, rfl, by unfold Starts; decide⟩
  | obj0 s h => exact ⟨_, _, rfl, by unfold Starts; decide⟩
  | obj l b h => exact ⟨_, _, rfl, by unfold Starts; decide⟩

theorem ws_text {v : Val} {t : Bytes} (h : Text v t) {s : Bytes} (hs : Space s) (r : Bytes) : ws (s ++ (t ++ r)) = t ++ r := by
  obtain ⟨c, u, rfl, hc⟩ := Text.head h
  rw [ws_space hs, List.cons_append, ws_starts hc]

theorem ends_bracket (r : Bytes) : Ends (0x5D :: r) := .inr (.inr (.inr (.inr (.inr (.inl rfl)))))
theorem ends_comma (r : Bytes) : Ends (0x2C :: r) := .inr (.inr (.inr (.inr (.inl rfl))))
theorem ends_brace (r : Bytes) : Ends (0x7D :: r) := .inr (.inr (.inr (.inr (.inr (.inr rfl)))))

theorem ws_open (r : Bytes) : ws (0x5B :: r) = 0x5B :: r := by simp [ws]
theorem ws_curly (r : Bytes) : ws (0x7B :: r) = 0x7B :: r := by simp [ws]

theorem Elems.head {l : List Val} {b : Bytes} (h : Elems l b) : ∃ s c u, b = s ++ c :: u ∧ Space s ∧ Starts c := by
  cases h with
  | last v s t s' h ht h' => obtain ⟨c, u, rfl, hc⟩ := Text.head ht; exact ⟨s, c, _, rfl, h, hc⟩
  | more v s t s' l b h ht h' hl => obtain ⟨c, u, rfl, hc⟩ := Text.head ht; exact ⟨s, c, _, rfl, h, hc⟩

theorem Members.head {l : List (String × Val)} {b : Bytes} (h : Members l b) : ∃ s u, b = s ++ 0x22 :: u ∧ Space s := by
  cases h with
  | last k v s q s1 s2 t s' h hq h1 h2 ht h' => exact ⟨s, _, rfl, h⟩
  | more k v s q s1 s2 t s' l b h hq h1 h2 ht h' hl => exact ⟨s, _, rfl, h⟩

theorem value_space {s : Bytes} (h : Space s) (n d : Nat) (b : Bytes) : value n d (s ++ b) = value n d b := by
  cases n with
  | zero => rfl
  | succ n => rw [value, value, ws_space h]

theorem elems_space {s : Bytes} (h : Space s) (n d : Nat) (b : Bytes) : elems n d (s ++ b) = elems n d b := by
  cases n with
  | zero => rfl
  | succ n => rw [elems, elems, value_space h]

theorem members_space {s : Bytes} (h : Space s) (n d : Nat) (b : Bytes) : members n d (s ++ b) = members n d b := by
  cases n with
  | zero => rfl
  | succ n => rw [members, members, ws_space h]

theorem Space.append {s t : Bytes} (hs : Space s) (ht : Space t) : Space (s ++ t) := by
  intro c hc
  rcases List.mem_append.1 hc with h | h
  exacts [hs c h, ht c h]

theorem Elems.pad {l : List Val} {b s : Bytes} (hs : Space s) (h : Elems l b) : Elems l (s ++ b) := by
  cases h with
  | last v s0 t s' h ht h' => rw [← List.append_assoc]; exact .last v _ t s' (Space.append hs h) ht h'
  | more v s0 t s' l b h ht h' hl => rw [← List.append_assoc]; exact .more v _ t s' l b (Space.append hs h) ht h' hl

theorem Members.pad {l : List (String × Val)} {b s : Bytes} (hs : Space s) (h : Members l b) : Members l (s ++ b) := by
  cases h with
  | last k v s0 q s1 s2 t s' h hq h1 h2 ht h' =>
    rw [← List.append_assoc]; exact .last k v _ q s1 s2 t s' (Space.append hs h) hq h1 h2 ht h'
  | more k v s0 q s1 s2 t s' l b h hq h1 h2 ht h' hl =>
    rw [← List.append_assoc]; exact .more k v _ q s1 s2 t s' l b (Space.append hs h) hq h1 h2 ht h' hl

mutual

theorem value_of {v : Val} {t : Bytes} (h : Text v t) : ∀ {n d : Nat} {s r : Bytes}, Nested d v → 2 * t.length ≤ n → Space s → Ends r →
    value n (d + 1) (s ++ (t ++ r)) = some (v, r) := by
  intro n d s r hd hn hs hr
  obtain ⟨m, rfl⟩ : ∃ m, n = m + 1 := by
    obtain ⟨c, u, rfl, -⟩ := Text.head h
    simp only [List.length_cons] at hn
    exact ⟨n - 1, by omega⟩
  rw [value, ws_text h hs]
  cases h with
  | null => rfl
  | yes => rfl
  | no => rfl
  | num _ h =>
    have hq := number_of h hr.delim
    obtain ⟨x, u, rfl, hx⟩ := IsNumber.head h
    rw [List.cons_append] at hq ⊢
    have hd : x ≠ 0x22 ∧ x ≠ 0x5B ∧ x ≠ 0x7B ∧ x ≠ 0x6E ∧ x ≠ 0x74 ∧ x ≠ 0x66 := by
      rcases hx with rfl | hx
      · decide
      · exact (digit_starts (digit_iff.2 hx)).2
    split
    · rename_i h; exact absurd (List.cons.inj h).1 hd.1
    · rename_i h; exact absurd (List.cons.inj h).1 hd.2.1
    · rename_i h; exact absurd (List.cons.inj h).1 hd.2.2.1
    · rename_i h; exact absurd (List.cons.inj h).1 hd.2.2.2.1
    · rename_i h; exact absurd (List.cons.inj h).1 hd.2.2.2.2.1
    · rename_i h; exact absurd (List.cons.inj h).1 hd.2.2.2.2.2
    · rw [hq]; rfl
  | str q s h =>
    have e : 0x22 :: (q ++ [0x22]) ++ r = 0x22 :: (q ++ 0x22 :: r) := by simp
    rw [e]
    simp only [string_of h]
    rfl
  | arr0 s' h =>
    cases hd with
    | arr hl =>
    have e : 0x5B :: (s' ++ [0x5D]) ++ r = 0x5B :: (s' ++ 0x5D :: r) := by simp
    rw [e]
    simp only [ws_space h, ws_bracket]
    rw [if_neg (by omega)]
  | arr l b h =>
    cases hd with
    | @arr d _ hl =>
    simp only [List.length_cons] at hn
    obtain ⟨s', c, u, e, hs', hc⟩ := Elems.head h
    have e1 : ws (b ++ r) = c :: (u ++ r) := by
      rw [e, List.append_assoc, ws_space hs', List.cons_append, ws_starts hc]
    have := elems_of h (n := m) (d := d) (r := r) hl (by omega)
    rw [e, List.append_assoc, elems_space hs'] at this
    rw [List.cons_append]
    simp only [e1]
    rw [if_neg (by omega)]
    split
    · rename_i h; exact absurd (List.cons.inj h).1 hc.2.2.2.2.1
    · rw [show d + 1 + 1 - 1 = d + 1 from rfl]
      rw [List.cons_append] at this
      rw [this]; rfl
  | obj0 s' h =>
    cases hd with
    | obj hl =>
    have e : 0x7B :: (s' ++ [0x7D]) ++ r = 0x7B :: (s' ++ 0x7D :: r) := by simp
    rw [e]
    simp only [ws_space h, ws_brace]
    rw [if_neg (by omega)]
  | obj l b h =>
    cases hd with
    | @obj d _ hl =>
    simp only [List.length_cons] at hn
    obtain ⟨s', u, e, hs'⟩ := Members.head h
    have e1 : ws (b ++ r) = 0x22 :: (u ++ r) := by
      rw [e, List.append_assoc, ws_space hs', List.cons_append, ws_quote]
    have := members_of h (n := m) (d := d) (r := r) hl (by omega)
    rw [e, List.append_assoc, members_space hs'] at this
    rw [List.cons_append]
    simp only [e1]
    rw [if_neg (by omega)]
    split
    · rename_i h; exact absurd (List.cons.inj h).1 (by decide)
    · rw [show d + 1 + 1 - 1 = d + 1 from rfl]
      rw [List.cons_append] at this
      rw [this]; rfl

theorem elems_of {l : List Val} {b : Bytes} (h : Elems l b) : ∀ {n d : Nat} {r : Bytes}, (∀ v ∈ l, Nested d v) → 2 * b.length ≤ n →
    elems n (d + 1) (b ++ r) = some (l, r) := by
  intro n d r hd hn
  cases h with
  | last v s t s' h ht h' =>
    simp only [List.length_append, List.length_cons, List.length_nil] at hn
    obtain ⟨m, rfl⟩ : ∃ m, n = m + 1 := ⟨n - 1, by omega⟩
    have := value_of ht (n := m) (d := d) (s := s) (r := s' ++ 0x5D :: r) (hd v List.mem_cons_self) (by omega) h
      (ends_space h' (ends_bracket r))
    have e : s ++ (t ++ (s' ++ [0x5D])) ++ r = s ++ (t ++ (s' ++ 0x5D :: r)) := by simp
    rw [elems, e, this]
    simp only [ws_space h', ws_bracket]
  | more v s t s' l b h ht h' hl =>
    simp only [List.length_append, List.length_cons] at hn
    obtain ⟨m, rfl⟩ : ∃ m, n = m + 1 := ⟨n - 1, by omega⟩
    have := value_of ht (n := m) (d := d) (s := s) (r := s' ++ 0x2C :: (b ++ r)) (hd v List.mem_cons_self) (by omega) h
      (ends_space h' (ends_comma _))
    have h2 := elems_of hl (n := m) (d := d) (r := r) (fun x hx => hd x (List.mem_cons_of_mem _ hx)) (by omega)
    have e : s ++ (t ++ (s' ++ 0x2C :: b)) ++ r = s ++ (t ++ (s' ++ 0x2C :: (b ++ r))) := by simp
    rw [elems, e, this]
    simp only [ws_space h', ws_comma, h2]
    rfl

theorem members_of {l : List (String × Val)} {b : Bytes} (h : Members l b) : ∀ {n d : Nat} {r : Bytes}, (∀ p ∈ l, Nested d p.2) →
    2 * b.length ≤ n → members n (d + 1) (b ++ r) = some (l, r) := by
  intro n d r hd hn
  cases h with
  | last k v s q s1 s2 t s' h hq h1 h2 ht h' =>
    simp only [List.length_append, List.length_cons, List.length_nil] at hn
    obtain ⟨m, rfl⟩ : ∃ m, n = m + 1 := ⟨n - 1, by omega⟩
    have := value_of ht (n := m) (d := d) (s := s2) (r := s' ++ 0x7D :: r) (hd _ List.mem_cons_self) (by omega) h2
      (ends_space h' (ends_brace r))
    have e : s ++ 0x22 :: (q ++ 0x22 :: (s1 ++ 0x3A :: (s2 ++ (t ++ (s' ++ [0x7D]))))) ++ r =
        s ++ 0x22 :: (q ++ 0x22 :: (s1 ++ 0x3A :: (s2 ++ (t ++ (s' ++ 0x7D :: r))))) := by simp
    rw [members, e, ws_space h, ws_quote]
    simp only [string_of hq, ws_space h1, ws_colon, this, ws_space h', ws_brace]
  | more k v s q s1 s2 t s' l b h hq h1 h2 ht h' hl =>
    simp only [List.length_append, List.length_cons] at hn
    obtain ⟨m, rfl⟩ : ∃ m, n = m + 1 := ⟨n - 1, by omega⟩
    have := value_of ht (n := m) (d := d) (s := s2) (r := s' ++ 0x2C :: (b ++ r)) (hd _ List.mem_cons_self) (by omega) h2
      (ends_space h' (ends_comma _))
    have h3 := members_of hl (n := m) (d := d) (r := r) (fun x hx => hd x (List.mem_cons_of_mem _ hx)) (by omega)
    have e : s ++ 0x22 :: (q ++ 0x22 :: (s1 ++ 0x3A :: (s2 ++ (t ++ (s' ++ 0x2C :: b))))) ++ r =
        s ++ 0x22 :: (q ++ 0x22 :: (s1 ++ 0x3A :: (s2 ++ (t ++ (s' ++ 0x2C :: (b ++ r)))))) := by simp
    rw [members, e, ws_space h, ws_quote]
    simp only [string_of hq, ws_space h1, ws_colon, this, ws_space h', ws_comma, h3]
    rfl

end

/-- Soundness of reading with `n` steps. -/
def Sound (n : Nat) : Prop := ∀ d b,
  (∀ v r, value n (d + 1) b = some (v, r) → Nested d v ∧ ∃ s t, b = s ++ (t ++ r) ∧ Space s ∧ Text v t) ∧
  (∀ l r, elems n (d + 1) b = some (l, r) → (∀ v ∈ l, Nested d v) ∧ ∃ t, b = t ++ r ∧ Elems l t) ∧
  (∀ l r, members n (d + 1) b = some (l, r) → (∀ p ∈ l, Nested d p.2) ∧ ∃ t, b = t ++ r ∧ Members l t)

theorem space_nil : Space [] := fun _ h => by cases h

theorem sound (n : Nat) : Sound n := by
  induction n with
  | zero => intro d b; simp [value, elems, members]
  | succ n ih =>
    intro d b
    refine ⟨fun v r h => ?_, fun l r h => ?_, fun l r h => ?_⟩
    · obtain ⟨s, hb, hs⟩ := space_ws b
      rw [value] at h
      split at h
      · rename_i t e
        rw [e] at hb
        obtain ⟨⟨x, r'⟩, h1, h2⟩ := Option.map_eq_some_iff.1 h
        obtain ⟨rfl, rfl⟩ := Prod.mk.inj h2
        obtain ⟨q, rfl, hq⟩ := of_string h1
        exact ⟨.str _ _, s, _, by rw [hb]; simp, hs, .str q x hq⟩
      · rename_i t e
        rw [e] at hb
        obtain ⟨s', ht, hs'⟩ := space_ws t
        split at h
        · cases h
        · rename_i hd
          obtain ⟨d, rfl⟩ : ∃ k, d = k + 1 := ⟨d - 1, by omega⟩
          split at h
          · rename_i e1
            cases h
            rw [e1] at ht
            exact ⟨.arr fun v hv => (by cases hv), s, _, by rw [hb, ht]; simp, hs, .arr0 s' hs'⟩
          · obtain ⟨⟨x, r'⟩, h1, h2⟩ := Option.map_eq_some_iff.1 h
            obtain ⟨rfl, rfl⟩ := Prod.mk.inj h2
            obtain ⟨h3, u, h4, h5⟩ := (ih d _).2.1 _ _ h1
            rw [h4] at ht
            exact ⟨.arr h3, s, 0x5B :: (s' ++ u), by rw [hb, ht]; simp, hs, .arr _ _ (Elems.pad hs' h5)⟩
      · rename_i t e
        rw [e] at hb
        obtain ⟨s', ht, hs'⟩ := space_ws t
        split at h
        · cases h
        · rename_i hd
          obtain ⟨d, rfl⟩ : ∃ k, d = k + 1 := ⟨d - 1, by omega⟩
          split at h
          · rename_i e1
            cases h
            rw [e1] at ht
            exact ⟨.obj fun v hv => (by cases hv), s, _, by rw [hb, ht]; simp, hs, .obj0 s' hs'⟩
          · obtain ⟨⟨x, r'⟩, h1, h2⟩ := Option.map_eq_some_iff.1 h
            obtain ⟨rfl, rfl⟩ := Prod.mk.inj h2
            obtain ⟨h3, u, h4, h5⟩ := (ih d _).2.2 _ _ h1
            rw [h4] at ht
            exact ⟨.obj h3, s, 0x7B :: (s' ++ u), by rw [hb, ht]; simp, hs, .obj _ _ (Members.pad hs' h5)⟩
      · rename_i e; rw [e] at hb; cases h; exact ⟨.null _, s, _, by rw [hb]; simp, hs, .null⟩
      · rename_i e; rw [e] at hb; cases h; exact ⟨.bool _ _, s, _, by rw [hb]; simp, hs, .yes⟩
      · rename_i e; rw [e] at hb; cases h; exact ⟨.bool _ _, s, _, by rw [hb]; simp, hs, .no⟩
      · obtain ⟨⟨x, r'⟩, h1, h2⟩ := Option.map_eq_some_iff.1 h
        obtain ⟨rfl, rfl⟩ := Prod.mk.inj h2
        obtain ⟨h3, h4⟩ := of_number h1
        exact ⟨.num _ _, s, x, by rw [← h3]; exact hb, hs, .num x h4⟩
    · rw [elems] at h
      split at h
      · cases h
      · rename_i w q e
        obtain ⟨h1, s, t, rfl, hs, ht⟩ := (ih _ _).1 _ _ e
        obtain ⟨s', hq, hs'⟩ := space_ws q
        split at h
        · rename_i e1
          obtain ⟨⟨x, r'⟩, h2, h3⟩ := Option.map_eq_some_iff.1 h
          obtain ⟨rfl, rfl⟩ := Prod.mk.inj h3
          obtain ⟨h4, u, rfl, h5⟩ := (ih _ _).2.1 _ _ h2
          rw [e1] at hq
          refine ⟨fun v hv => ?_, _, ?_, .more w s t s' x u hs ht hs' h5⟩
          · rcases List.mem_cons.1 hv with rfl | hv
            exacts [h1, h4 v hv]
          · rw [hq]; simp
        · rename_i e1
          cases h
          rw [e1] at hq
          refine ⟨fun v hv => ?_, _, ?_, .last w s t s' hs ht hs'⟩
          · rw [List.mem_singleton.1 hv]; exact h1
          · rw [hq]; simp
        · cases h
    · obtain ⟨s, hb, hs⟩ := space_ws b
      rw [members] at h
      split at h
      · rename_i t e
        rw [e] at hb
        split at h
        · cases h
        · rename_i k q hk
          obtain ⟨p, rfl, hp⟩ := of_string hk
          obtain ⟨s1, hq, hs1⟩ := space_ws q
          split at h
          · rename_i q1 e1
            rw [e1] at hq
            split at h
            · cases h
            · rename_i w q2 e2
              obtain ⟨h1, s2, t, rfl, hs2, ht⟩ := (ih _ _).1 _ _ e2
              obtain ⟨s', hq2, hs'⟩ := space_ws q2
              split at h
              · rename_i e3
                obtain ⟨⟨x, r'⟩, h2, h3⟩ := Option.map_eq_some_iff.1 h
                obtain ⟨rfl, rfl⟩ := Prod.mk.inj h3
                obtain ⟨h4, u, rfl, h5⟩ := (ih _ _).2.2 _ _ h2
                rw [e3] at hq2
                refine ⟨fun v hv => ?_, _, ?_, .more k w s p s1 s2 t s' x u hs hp hs1 hs2 ht hs' h5⟩
                · rcases List.mem_cons.1 hv with rfl | hv
                  exacts [h1, h4 v hv]
                · rw [hb, hq, hq2]; simp
              · rename_i e3
                cases h
                rw [e3] at hq2
                refine ⟨fun v hv => ?_, _, ?_, .last k w s p s1 s2 t s' hs hp hs1 hs2 ht hs'⟩
                · rw [List.mem_singleton.1 hv]; exact h1
                · rw [hb, hq, hq2]; simp
              · cases h
          · cases h
      · cases h

/-- What is read is a text of the grammar, and every text that is not nested too deeply is read. -/
theorem parse_iff {b : Bytes} {v : Val} : parse b = some v ↔ Document v b ∧ Nested 127 v := by
  constructor
  · intro h
    unfold parse at h
    split at h
    · rename_i w r e
      split at h
      · rename_i e1
        cases h
        obtain ⟨h1, s, t, h2, h3, h4⟩ := (sound _ 127 b).1 _ _ e
        obtain ⟨s', h5, h6⟩ := space_ws r
        rw [e1, List.append_nil] at h5
        subst h5
        exact ⟨⟨s, t, r, h2, h3, h4, h6⟩, h1⟩
      · cases h
    · cases h
  · rintro ⟨⟨s, t, s', rfl, h1, h2, h3⟩, h4⟩
    have := value_of h2 (n := 2 * (s ++ (t ++ s')).length + 2) (d := 127) (s := s) (r := s') h4 (by simp; omega) h1
      (by simpa using ends_space h3 (r := []) trivial)
    unfold parse
    rw [this]
    have e := ws_space h3 []
    rw [List.append_nil] at e
    simp only [e]
    rfl

end Verif.Serde
