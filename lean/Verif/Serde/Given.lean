import Verif.Spec.Interface
import Verif.Props.Api
import Verif.Serde.Grammar

/-!
# Arguments given as members of an object, as the readers see them
-/

namespace Verif.Serde

open Verif Storage Interface

mutual

/-- Equality of JSON values is decidable. -/
def Val.dec : (a b : Val) → Decidable (a = b)
  | .null, .null => .isTrue rfl
  | .bool x, .bool y => decidable_of_iff (x = y) (by simp)
  | .num x, .num y => decidable_of_iff (x = y) (by simp)
  | .str x, .str y => decidable_of_iff (x = y) (by simp)
  | .arr x, .arr y => match decArr x y with
    | .isTrue h => .isTrue (h ▸ rfl)
    | .isFalse h => .isFalse fun e => h (by injection e)
  | .obj x, .obj y => match decObj x y with
    | .isTrue h => .isTrue (h ▸ rfl)
    | .isFalse h => .isFalse fun e => h (by injection e)
  | .null, .bool _ | .null, .num _ | .null, .str _ | .null, .arr _ | .null, .obj _ => .isFalse nofun
  | .bool _, .null | .bool _, .num _ | .bool _, .str _ | .bool _, .arr _ | .bool _, .obj _ => .isFalse nofun
  | .num _, .null | .num _, .bool _ | .num _, .str _ | .num _, .arr _ | .num _, .obj _ => .isFalse nofun
  | .str _, .null | .str _, .bool _ | .str _, .num _ | .str _, .arr _ | .str _, .obj _ => .isFalse nofun
  | .arr _, .null | .arr _, .bool _ | .arr _, .num _ | .arr _, .str _ | .arr _, .obj _ => .isFalse nofun
  | .obj _, .null | .obj _, .bool _ | .obj _, .num _ | .obj _, .str _ | .obj _, .arr _ => .isFalse nofun

def decArr : (a b : List Val) → Decidable (a = b)
  | [], [] => .isTrue rfl
  | x :: xs, y :: ys => match Val.dec x y, decArr xs ys with
    | .isTrue h, .isTrue h' => .isTrue (h ▸ h' ▸ rfl)
    | .isFalse h, _ => .isFalse fun e => h (by injection e)
    | _, .isFalse h => .isFalse fun e => h (by injection e)
  | [], _ :: _ => .isFalse nofun
  | _ :: _, [] => .isFalse nofun

def decObj : (a b : List (String × Val)) → Decidable (a = b)
  | [], [] => .isTrue rfl
  | (k, x) :: xs, (l, y) :: ys => match decEq k l, Val.dec x y, decObj xs ys with
    | .isTrue h, .isTrue h', .isTrue h'' => .isTrue (h ▸ h' ▸ h'' ▸ rfl)
    | .isFalse h, _, _ => .isFalse fun e => h (by injection e with e _; injection e)
    | _, .isFalse h, _ => .isFalse fun e => h (by injection e with e _; injection e)
    | _, _, .isFalse h => .isFalse fun e => h (by injection e)
  | [], _ :: _ => .isFalse nofun
  | _ :: _, [] => .isFalse nofun

end

instance : DecidableEq Val := Val.dec

/-! ## Numbers -/

theorem digit_repr : ∀ k < 10, utf8 (String.singleton (Nat.digitChar k)) = [digit k] := by decide +kernel

theorem utf8_append (s t : String) : utf8 (s ++ t) = utf8 s ++ utf8 t := by simp [utf8]

theorem decimalF_eq {f n : Nat} (h : n.log2 ≤ f) : decimalF f n = utf8 n.repr := by
  induction f generalizing n with
  | zero =>
    have hn : n < 2 := by
      rcases Nat.eq_zero_or_pos n with rfl | hp
      · omega
      · have := (Nat.log2_lt (n := n) (k := 1) (by omega)).1 (by omega); simpa using this
    unfold decimalF
    rw [Nat.mod_eq_of_lt (by omega), Nat.repr_of_lt (by omega), digit_repr _ (by omega)]
  | succ f ih =>
    unfold decimalF
    split
    · rename_i h10; rw [Nat.repr_of_lt h10, digit_repr _ h10]
    · rename_i h10
      have h1 : (n / 10).log2 ≤ f := by
        have h2 : n < 2 ^ (f + 2) := (Nat.log2_lt (n := n) (k := f + 2) (by omega)).1 (by omega)
        have h3 : n / 10 < 2 ^ (f + 1) := by
          have : 2 ^ (f + 2) = 2 * 2 ^ (f + 1) := by rw [Nat.pow_succ]; omega
          omega
        have := (Nat.log2_lt (n := n / 10) (k := f + 1) (by omega)).2 h3
        omega
      rw [ih h1, Nat.repr_of_ge (n := n) (by omega), utf8_append, digit_repr _ (Nat.mod_lt _ (by omega))]

/-- The digits that the contracts write are the decimal representation. -/
theorem decimal_repr (n : Nat) : decimal n = utf8 n.repr := decimalF_eq (Nat.le_refl _)

theorem decimalS_repr (n : Nat) : decimalS n = n.repr := utf8_inj (by rw [utf8_decimalS, decimal_repr])

theorem number_eq : Interface.number = fun n => Val.num (decimal n) := funext fun n => by rw [Interface.number, decimal_repr]

theorem quoted_eq : quoted = fun n => Val.str (decimalS n) := funext fun n => by rw [quoted, decimalS_repr]

theorem u8_le {n : Nat} (h : n < 2 ^ 8) : n ≤ U8_MAX := Nat.le_of_lt_succ h
theorem u16_le {n : Nat} (h : n < 2 ^ 16) : n ≤ U16_MAX := Nat.le_of_lt_succ h
theorem u32_le {n : Nat} (h : n < 2 ^ 32) : n ≤ U32_MAX := Nat.le_of_lt_succ h
theorem u64_le {n : Nat} (h : n < 2 ^ 64) : n ≤ U64_MAX := Nat.le_of_lt_succ h
theorem u128_le {n : Nat} (h : n < 2 ^ 128) : n ≤ U128_MAX := Nat.le_of_lt_succ h
theorem u8_lt {n : Nat} (h : n ≤ U8_MAX) : n < 2 ^ 8 := Nat.lt_succ_of_le h
theorem u16_lt {n : Nat} (h : n ≤ U16_MAX) : n < 2 ^ 16 := Nat.lt_succ_of_le h
theorem u32_lt {n : Nat} (h : n ≤ U32_MAX) : n < 2 ^ 32 := Nat.lt_succ_of_le h
theorem u64_lt {n : Nat} (h : n ≤ U64_MAX) : n < 2 ^ 64 := Nat.lt_succ_of_le h
theorem u128_lt {n : Nat} (h : n ≤ U128_MAX) : n < 2 ^ 128 := Nat.lt_succ_of_le h

/-! ## Account ids -/

theorem alnum_not_sep {c : Char} (h : Alnum c) : c ≠ '-' ∧ c ≠ '_' ∧ c ≠ '.' := by
  refine ⟨?_, ?_, ?_⟩ <;> rintro rfl <;> revert h <;> unfold Alnum <;> decide

theorem accountChars_cons (c : Char) (l : List Char) (sep : Bool) : accountChars (c :: l) sep =
    if ('a' ≤ c ∧ c ≤ 'z') ∨ ('0' ≤ c ∧ c ≤ '9') then accountChars l false
    else if c = '-' ∨ c = '_' ∨ c = '.' then !sep && accountChars l true
    else false := rfl

/-- Words, after any number of characters of the first one. -/
theorem accountChars_false {l : List Char} : accountChars l false = true ↔
    ∃ w r, (∀ c ∈ w, Alnum c) ∧ l = w ++ r ∧ (r = [] ∨ ∃ c t, r = c :: t ∧ (c = '-' ∨ c = '_' ∨ c = '.') ∧ accountChars t true = true) := by
  induction l with
  | nil =>
    simp only [accountChars, Bool.not_false, true_iff]
    exact ⟨[], [], by simp, rfl, .inl rfl⟩
  | cons c l ih =>
    rw [accountChars_cons]
    constructor
    · intro h
      split at h
      · rename_i hc
        obtain ⟨w, r, hw, rfl, hr⟩ := ih.1 h
        exact ⟨c :: w, r, by rintro x (_ | ⟨_, hx⟩) <;> [exact hc; exact hw x hx], rfl, hr⟩
      · split at h
        · rename_i hs
          exact ⟨[], c :: l, by simp, rfl, .inr ⟨c, l, rfl, hs, by simpa using h⟩⟩
        · cases h
    · rintro ⟨w, r, hw, he, hr⟩
      cases w with
      | nil =>
        rcases hr with rfl | ⟨d, t, rfl, hs, ht⟩
        · cases he
        · cases he
          have : ¬Alnum c := fun ha => by
            have := alnum_not_sep ha
            rcases hs with h | h | h
            · exact this.1 h
            · exact this.2.1 h
            · exact this.2.2 h
          refine (congrArg (· = true) (if_neg this)).mpr ?_
          rw [if_pos hs]
          simpa using ht
      | cons d w =>
        cases he
        refine (congrArg (· = true) (if_pos (hw c List.mem_cons_self))).mpr ?_
        exact ih.2 ⟨w, r, fun x hx => hw x (List.mem_cons_of_mem _ hx), rfl, hr⟩

theorem words_ne {l : List Char} (h : Words l) : l ≠ [] := by cases h <;> simp_all

theorem accountChars_iff (n : Nat) : ∀ {l : List Char}, l.length ≤ n → (accountChars l true = true ↔ Words l) := by
  have first : ∀ {l : List Char}, accountChars l true = true ↔ ∃ c t, l = c :: t ∧ Alnum c ∧ accountChars t false = true := by
    intro l
    cases l with
    | nil => simp [accountChars]
    | cons c l =>
      rw [accountChars_cons]
      constructor
      · intro h
        split at h
        · rename_i hc; exact ⟨c, l, rfl, hc, h⟩
        · split at h <;> simp at h
      · rintro ⟨d, t, he, hc, ht⟩
        cases he
        exact (congrArg (· = true) (if_pos hc)).mpr ht
  induction n with
  | zero =>
    intro l hl
    have : l = [] := List.length_eq_zero_iff.1 (by omega)
    subst this
    constructor
    · intro h; simp [accountChars] at h
    · intro h; exact absurd rfl (words_ne h)
  | succ n ih =>
    intro l hl
    rw [first]
    constructor
    · rintro ⟨c, t, rfl, hc, ht⟩
      obtain ⟨w, r, hw, rfl, hr⟩ := accountChars_false.1 ht
      have hw' : ∀ x ∈ c :: w, Alnum x := by rintro x (_ | ⟨_, hx⟩) <;> [exact hc; exact hw x hx]
      rcases hr with rfl | ⟨d, t, rfl, hs, ht⟩
      · rw [List.append_nil]; exact .last _ (by simp) hw'
      · refine .more (c :: w) d t (by simp) hw' hs ((ih ?_).1 ht)
        simp only [List.length_cons, List.length_append] at hl; omega
    · intro h
      cases h with
      | last w hne hw =>
        obtain ⟨c, t, rfl⟩ := List.exists_cons_of_ne_nil hne
        exact ⟨c, t, rfl, hw c List.mem_cons_self,
          accountChars_false.2 ⟨t, [], fun x hx => hw x (List.mem_cons_of_mem _ hx), by simp, .inl rfl⟩⟩
      | more w d r hne hw hs hr =>
        obtain ⟨c, t, rfl⟩ := List.exists_cons_of_ne_nil hne
        refine ⟨c, t ++ d :: r, rfl, hw c List.mem_cons_self, accountChars_false.2
          ⟨t, d :: r, fun x hx => hw x (List.mem_cons_of_mem _ hx), rfl, .inr ⟨d, r, rfl, hs, (ih ?_).2 hr⟩⟩⟩
        simp only [List.length_cons, List.length_append, List.cons_append] at hl; omega

theorem words_ascii {l : List Char} (h : Words l) : ∀ c ∈ l, c.val < 128 := by
  have ha : ∀ {c : Char}, Alnum c → c.val < 128 := by
    intro c hc
    rcases hc with hc | hc
    · exact UInt32.lt_of_le_of_lt hc.2 (by decide)
    · exact UInt32.lt_of_le_of_lt hc.2 (by decide)
  induction h with
  | last w _ hw => exact fun c hc => ha (hw c hc)
  | more w d r _ hw hs _ ih =>
    intro c hc
    rcases List.mem_append.1 hc with hc | hc
    · exact ha (hw c hc)
    · rcases List.mem_cons.1 hc with rfl | hc
      · rcases hs with rfl | rfl | rfl <;> decide
      · exact ih c hc

theorem utf8_length_ascii {l : List Char} (h : ∀ c ∈ l, c.val < 128) : (utf8 (String.ofList l)).length = l.length := by
  rw [utf8_ofList]
  induction l with
  | nil => rfl
  | cons c l ih =>
    rw [List.flatMap_cons, List.length_append, ih fun x hx => h x (List.mem_cons_of_mem _ hx), String.length_utf8EncodeChar,
      Char.utf8Size, if_pos (by have := h c List.mem_cons_self; exact UInt32.le_iff_toNat_le.2 (Nat.le_of_lt_succ (UInt32.lt_iff_toNat_lt.1 this))), List.length_cons, Nat.add_comm]

/-- The check of account ids is the grammar of account ids. -/
theorem account_iff {s : String} : validAccount s = true ↔ IsAccountId s := by
  unfold validAccount IsAccountId
  rw [Bool.and_eq_true, decide_eq_true_eq, accountChars_iff _ (Nat.le_refl _), and_assoc]
  have key : Words s.toList → (utf8 s).length = s.length := by
    intro h
    have := utf8_length_ascii (words_ascii h)
    rw [String.ofList_toList] at this
    rw [this, String.length_toList]
  constructor
  · rintro ⟨h1, h2, h3⟩; rw [key h3] at h1 h2; exact ⟨h1, h2, h3⟩
  · rintro ⟨h1, h2, h3⟩; rw [key h3]; exact ⟨h1, h2, h3⟩

/-! ## Members -/

/-- A missing member is `null`. -/
def Seen (o : Option Val) (v : Val) : Prop := o = some v ∨ (o = none ∧ v = .null)

/-- Members that are `null` may be missing. -/
def Fields.Lax {α : Type} (F : Fields α) : Prop :=
  ∀ a, F.ok a → ∀ l, List.Forall₂ Seen l (F.vals a) → F.read l = some a

theorem Fields.Lax.one {α : Type} {k : String} {T : Ty α} (h : ∀ a, T.write a ≠ .null) : (Fields.one k T).Lax := by
  intro a ha l hl
  cases hl with
  | cons h1 h2 =>
    cases h2
    rcases h1 with rfl | ⟨-, h1⟩
    · exact T.law a ha
    · exact absurd h1 (h a)

theorem Fields.Lax.opt {α : Type} {k : String} {T : Ty α} {h : ∀ a, T.write a ≠ .null} : (Fields.opt k T h).Lax := by
  intro a ha l hl
  cases hl with
  | cons h1 h2 =>
    cases h2
    rcases h1 with rfl | ⟨rfl, h1⟩
    · exact (Serde.opt T h).law a ha
    · cases a with
      | none => rfl
      | some x => exact absurd h1 (h x)

theorem seen_append {x y : List Val} {l : List (Option Val)} (h : List.Forall₂ Seen l (x ++ y)) :
    List.Forall₂ Seen (l.take x.length) x ∧ List.Forall₂ Seen (l.drop x.length) y := by
  induction x generalizing l with
  | nil => exact ⟨by simp, by simpa using h⟩
  | cons v x ih =>
    cases h with
    | cons h1 h2 => exact ⟨.cons h1 (ih h2).1, (ih h2).2⟩

theorem Fields.Lax.and {α β : Type} {F : Fields α} {G : Fields β} (hF : F.Lax) (hG : G.Lax) : (F ⊗ G).Lax := by
  intro p hp l hl
  have hl' := seen_append (x := F.vals p.1) (y := G.vals p.2) hl
  rw [F.len] at hl'
  change (match F.read (l.take F.keys.length), G.read (l.drop F.keys.length) with
    | some a, some b => some (a, b)
    | _, _ => none) = some p
  rw [hF _ hp.1 _ hl'.1, hG _ hp.2 _ hl'.2]

theorem Fields.Lax.iso {α β : Type} {F : Fields α} {f : α → β} {g : β → α} {h : ∀ b, f (g b) = b} {h' : ∀ a, g (f a) = a}
    (hF : F.Lax) : (F.iso f g h h').Lax := by
  intro b hb l hl
  change (F.read l).map f = some b
  rw [hF _ hb _ hl, Option.map_some, h]

theorem member_cons {p : String × Val} {l : List (String × Val)} {k : String} :
    member (p :: l) k = if p.1 = k then some p.2 else member l k := by
  unfold member
  rw [List.find?_cons]
  by_cases h : p.1 = k <;> simp [h]

theorem member_none {l : List (String × Val)} {k : String} (h : ∀ p ∈ l, p.1 ≠ k) : member l k = none := by
  unfold member
  rw [List.find?_eq_none.2 fun p hp => by simpa using h p hp]
  rfl

theorem member_append {l m : List (String × Val)} {k : String} (h : ∀ p ∈ m, p.1 ≠ k) : member (l ++ m) k = member l k := by
  induction l with
  | nil => rw [List.nil_append, member_none h]; rfl
  | cons p l ih => rw [List.cons_append, member_cons, member_cons, ih]

theorem times_append (l m : List (String × Val)) (k : String) : times (l ++ m) k = times l k + times m k := by
  simp [times]

theorem times_none {l : List (String × Val)} {k : String} (h : ∀ p ∈ l, p.1 ≠ k) : times l k = 0 := by
  unfold times
  rw [List.length_eq_zero_iff, List.filter_eq_nil_iff]
  exact fun p hp => by simpa using h p hp

/-- Members left out of a list of different names. -/
theorem member_given {ks : List String} {vs : List Val} (hk : ks.Nodup) (hl : vs.length = ks.length) {given : List (String × Val)}
    (hs : given.Sublist (ks.zip vs)) (hn : ∀ m ∈ ks.zip vs, m ∈ given ∨ m.2 = .null) :
    List.Forall₂ Seen (ks.map (member given)) vs := by
  induction ks generalizing vs given with
  | nil => cases vs with
    | nil => exact .nil
    | cons => simp at hl
  | cons k ks ih =>
    cases vs with
    | nil => simp at hl
    | cons v vs =>
      rw [List.nodup_cons] at hk
      rw [List.zip_cons_cons] at hs hn
      have hne : ∀ p ∈ ks.zip vs, p.1 ≠ k := fun p hp e => hk.1 (e ▸ (List.of_mem_zip hp).1)
      have hlen : vs.length = ks.length := by simpa using hl
      rw [List.map_cons]
      cases hs with
      | cons _ hs =>
        have hg : ∀ p ∈ given, p.1 ≠ k := fun p hp => hne p (hs.subset hp)
        refine .cons (.inr ⟨member_none hg, ?_⟩) (ih hk.2 hlen hs fun m hm => hn m (List.mem_cons_of_mem _ hm))
        rcases hn _ List.mem_cons_self with h | h
        · exact absurd rfl (hg _ h)
        · exact h
      | cons_cons _ hs =>
        rename_i g
        refine .cons (.inl (by rw [member_cons, if_pos rfl])) ?_
        have := ih hk.2 hlen hs fun m hm => by
          rcases hn m (List.mem_cons_of_mem _ hm) with h | h
          · rcases List.mem_cons.1 h with rfl | h
            · exact absurd rfl (hne _ hm)
            · exact .inl h
          · exact .inr h
        have e : ks.map (member ((k, v) :: g)) = ks.map (member g) := by
          refine List.map_congr_left fun x hx => ?_
          rw [member_cons, if_neg]
          rintro rfl
          exact hk.1 hx
        rw [e]; exact this

/-- Arguments that are given are read. -/
theorem args_given {α γ : Type} {F : Fields α} {mk : α → γ} {b : Bytes} {a : α} {ms : List (String × Val)} {h : F.keys.Nodup}
    (hL : F.Lax) (hm : F.keys.zip (F.vals a) = ms) (hne : ms ≠ []) (hb : Given b ms) (ha : F.ok a) : argsOf F mk b h = some (mk a) := by
  rcases hb with hb | ⟨l, given, extra, hb, hp, hs, hn, hx⟩
  · exact absurd hb hne
  subst hm
  have hkeys : ∀ k ∈ F.keys, ∀ e ∈ extra, e.1 ≠ k := by
    intro k hk e he
    obtain ⟨i, hi, rfl⟩ := List.getElem_of_mem hk
    have hi' : i < (F.keys.zip (F.vals a)).length := by rw [List.length_zip, F.len]; omega
    have := hx e he _ (List.getElem_mem hi')
    rwa [List.getElem_zip] at this
  have h1 : F.read (F.keys.map (member (given ++ extra))) = some a := by
    rw [List.map_congr_left fun k hk => member_append (hkeys k hk)]
    exact hL a ha _ (member_given h (F.len a) hs hn)
  have h2 : (F.keys.all fun k => decide (times (given ++ extra) k ≤ 1)) = true := by
    rw [List.all_eq_true]
    intro k hk
    rw [decide_eq_true_eq, times_append, times_none (hkeys k hk)]
    exact Nat.le_trans (hs.filter _).length_le (times_zip h k)
  unfold argsOf Ty.decode
  rw [parse_iff.2 hb, Option.bind_some, struct_perm hp]
  simp only [struct]
  rw [if_pos h2, h1]
  rfl

/-- What is written is given. -/
theorem given_written {α : Type} {F : Fields α} {a : α} {ms : List (String × Val)} {h : F.keys.Nodup} (hm : F.keys.zip (F.vals a) = ms)
    (ha : F.ok a) (hd : F.depth ≤ 126) : Given (argsTo F a h) ms := by
  refine .inr ⟨ms, ms, [], ?_, by rw [List.append_nil], .refl _, fun m hm => .inl hm, fun e he => (by cases he)⟩
  subst hm
  exact parse_iff.1 (parse_render (((struct F h).good a ha).mono (Nat.add_le_add_right (Nat.succ_le_succ hd) 1)))

end Verif.Serde
