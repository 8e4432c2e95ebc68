import Verif.Props.Interface
import Verif.Props.WireTokens

/-!
# Inputs are JSON (C101)
-/

namespace Verif.JsonText

open Verif Storage Serde Interface

theorem Nested.mono {d d' : Nat} {v : Val} (h : Nested d v) : d ≤ d' → Nested d' v := by
  induction h generalizing d' with
  | null => intro _; exact .null _
  | bool => intro _; exact .bool _ _
  | num => intro _; exact .num _ _
  | str => intro _; exact .str _ _
  | arr _ ih =>
    intro hd
    obtain ⟨k, rfl⟩ : ∃ k, d' = k + 1 := ⟨d' - 1, by omega⟩
    exact .arr fun v hv => ih v hv (by omega)
  | obj _ ih =>
    intro hd
    obtain ⟨k, rfl⟩ : ∃ k, d' = k + 1 := ⟨d' - 1, by omega⟩
    exact .obj fun v hv => ih v hv (by omega)

theorem bounded {α : Type} {P : Nat → α → Prop} (hm : ∀ d d' a, P d a → d ≤ d' → P d' a) :
    ∀ l : List α, (∀ a ∈ l, ∃ d, P d a) → ∃ d, ∀ a ∈ l, P d a
  | [], _ => ⟨0, fun _ h => by cases h⟩
  | a :: l, h => by
    obtain ⟨d, hd⟩ := h a List.mem_cons_self
    obtain ⟨e, he⟩ := bounded hm l fun x hx => h x (List.mem_cons_of_mem _ hx)
    refine ⟨max d e, fun x hx => ?_⟩
    rcases List.mem_cons.1 hx with rfl | hx
    · exact hm _ _ _ hd (Nat.le_max_left _ _)
    · exact hm _ _ _ (he x hx) (Nat.le_max_right _ _)

mutual

theorem nested_exists : (v : Val) → ∃ d, Nested d v
  | .null => ⟨0, .null _⟩
  | .bool b => ⟨0, .bool _ b⟩
  | .num t => ⟨0, .num _ t⟩
  | .str s => ⟨0, .str _ s⟩
  | .arr l => (bounded (fun _ _ _ h => h.mono) l (nested_elems l)).elim fun d h => ⟨d + 1, .arr h⟩
  | .obj l => (bounded (P := fun d p => Nested d p.2) (fun _ _ _ h => h.mono) l (nested_members l)).elim fun d h => ⟨d + 1, .obj h⟩

theorem nested_elems : (l : List Val) → ∀ v ∈ l, ∃ d, Nested d v
  | [] => fun _ h => by cases h
  | a :: l => fun v hv => by
    rcases List.mem_cons.1 hv with h | h
    · rw [h]; exact nested_exists a
    · exact nested_elems l v h

theorem nested_members : (l : List (String × Val)) → ∀ p ∈ l, ∃ d, Nested d p.2
  | [] => fun _ h => by cases h
  | (k, a) :: l => fun p hp => by
    rcases List.mem_cons.1 hp with h | h
    · rw [h]; exact nested_exists a
    · exact nested_members l p h

end

/-- C101: the reader accepts exactly the JSON texts with at most 127 levels of nesting, and yields their value. -/
theorem C101_exact {b : Bytes} {v : Val} : parse b = some v ↔ IsJson b v := parse_iff

/-- C101: a JSON text has one value, however deeply nested. -/
theorem C101_one {b : Bytes} {v w : Val} (hv : Document v b) (hw : Document w b) : v = w := by
  obtain ⟨d, hd⟩ := nested_exists v
  obtain ⟨e, he⟩ := nested_exists w
  have key : ∀ {x : Val} {f : Nat}, Document x b → Nested f x → f ≤ max d e →
      (value (2 * b.length) (max d e + 1) b).bind (fun p => if ws p.2 = [] then some p.1 else none) = some x := by
    rintro x f ⟨s, t, s', rfl, h1, h2, h3⟩ hx hf
    rw [value_of h2 (hx.mono hf) (by simp only [List.length_append]; omega) h1 (by simpa using ends_space h3 (r := []) trivial)]
    have e := ws_space h3 []
    rw [List.append_nil] at e
    simp only [Option.bind_some, e]
    rfl
  have h1 := key hv hd (Nat.le_max_left _ _)
  rw [key hw he (Nat.le_max_right _ _)] at h1
  exact (Option.some.inj h1).symm

/-- C101: every value that is written is written as a JSON text of that value. -/
theorem C101_written {α : Type} (T : Ty α) {a : α} (h : T.ok a) (hd : T.depth ≤ 127) : IsJson (T.encode a) (T.write a) :=
  parse_iff.1 (parse_render ((T.good a h).mono (Nat.add_le_add_right hd 1)))

/-! Decimals. -/

theorem undecimal_append {l r : Bytes} {acc : Nat} : undecimal (l ++ r) acc = (undecimal l acc).bind fun m => undecimal r m := by
  induction l generalizing acc with
  | nil => rfl
  | cons b t ih =>
    rw [List.cons_append, undecimal, undecimal]
    split
    · exact ih
    · rfl

theorem undecimal_pos {l : Bytes} : ∀ {acc n : Nat}, undecimal l acc = some n → acc ≤ n := by
  induction l with
  | nil => intro acc n h; cases h; exact Nat.le_refl _
  | cons b t ih =>
    intro acc n h
    rw [undecimal] at h
    split at h
    · have := ih h; omega
    · cases h

theorem digit_toNat {c : UInt8} (h : Digit c) : 48 ≤ c.toNat ∧ c.toNat ≤ 57 ∧ digit (c.toNat - 48) = c := by
  have h1 : 48 ≤ c.toNat := UInt8.le_iff_toNat_le.1 h.1
  have h2 : c.toNat ≤ 57 := UInt8.le_iff_toNat_le.1 h.2
  refine ⟨h1, h2, ?_⟩
  unfold digit
  rw [Nat.add_sub_cancel' h1, UInt8.ofNat_toNat]

theorem decimalF_unique {f : Nat} : ∀ {n : Nat} {t : Bytes}, n < 10 ^ (f + 1) → IsInt t → undecimal t 0 = some n → decimalF f n = t := by
  have one : ∀ {n : Nat} {x : UInt8}, Digit x → undecimal [x] 0 = some n → [digit n] = [x] ∧ n < 10 := by
    intro n x hx h
    have hd := digit_toNat hx
    rw [undecimal, if_pos (digit_iff.2 hx), undecimal] at h
    have : n = x.toNat - 48 := by have := Option.some.inj h; omega
    rw [this, hd.2.2]
    exact ⟨rfl, by omega⟩
  have step : ∀ {n : Nat} {x y : UInt8} {t : Bytes}, IsInt (x :: (t ++ [y])) → undecimal (x :: (t ++ [y])) 0 = some n →
      ∃ m, IsInt (x :: t) ∧ undecimal (x :: t) 0 = some m ∧ 10 ≤ n ∧ n / 10 = m ∧ [digit (n % 10)] = [y] := by
    intro n x y t hi h
    rcases hi with e | ⟨x', t', e, h1, h2, h3⟩
    · cases t <;> cases e
    · obtain ⟨rfl, rfl⟩ := List.cons.inj e
      have hy := h3 y (List.mem_append_right _ List.mem_cons_self)
      have hd := digit_toNat hy
      rw [← List.cons_append, undecimal_append] at h
      obtain ⟨m, hm, h⟩ := Option.bind_eq_some_iff.1 h
      rw [undecimal, if_pos (digit_iff.2 hy), undecimal] at h
      have hn : n = m * 10 + (y.toNat - 48) := (Option.some.inj h).symm
      have hx1 : 49 ≤ x.toNat := UInt8.le_iff_toNat_le.1 h1
      have hpos : 1 ≤ m := by
        have hm' := hm
        rw [undecimal] at hm'
        split at hm'
        · have := undecimal_pos hm'; omega
        · cases hm'
      refine ⟨m, .inr ⟨x, t, rfl, h1, h2, fun c hc => h3 c (List.mem_append_left _ hc)⟩, hm, by omega, by omega, ?_⟩
      rw [show n % 10 = y.toNat - 48 by omega, hd.2.2]
  induction f with
  | zero =>
    intro n t hn hi h
    obtain ⟨x, u, rfl, hx, -, -⟩ := IsInt.head hi
    rcases List.eq_nil_or_concat u with rfl | ⟨u, y, rfl⟩
    · obtain ⟨h1, h2⟩ := one hx h
      rw [decimalF, Nat.mod_eq_of_lt h2, h1]
    · rw [List.concat_eq_append] at hi h
      obtain ⟨m, -, -, h1, -⟩ := step hi h
      omega
  | succ f ih =>
    intro n t hn hi h
    obtain ⟨x, u, rfl, hx, -, -⟩ := IsInt.head hi
    rcases List.eq_nil_or_concat u with rfl | ⟨u, y, rfl⟩
    · obtain ⟨h1, h2⟩ := one hx h
      rw [decimalF, if_pos h2, h1]
    · rw [List.concat_eq_append] at hi h ⊢
      obtain ⟨m, h0, h1, h2, h3, h4⟩ := step hi h
      have hlt : n / 10 < 10 ^ (f + 1) := by
        rw [Nat.div_lt_iff_lt_mul (by decide)]
        rw [Nat.pow_succ] at hn
        exact hn
      rw [decimalF, if_neg (by omega), ih hlt h0 (by rw [h1, h3]), h4, List.cons_append]

theorem undecimal_digits {l : Bytes} : ∀ {acc n : Nat}, undecimal l acc = some n → ∀ c ∈ l, Digit c := by
  induction l with
  | nil => intro _ _ _ c hc; cases hc
  | cons b t ih =>
    intro acc n h c hc
    rw [undecimal] at h
    split at h
    · rename_i hb
      rcases List.mem_cons.1 hc with rfl | hc
      exacts [digit_iff.1 hb, ih h c hc]
    · cases h

/-- A number with digits only is its value in decimal. -/
theorem fits_unique {max n : Nat} {t : Bytes} (ht : IsNumber t) (h : fits max t = some n) : .num t = Interface.number n ∧ n ≤ max := by
  have hle := fits_le h
  refine ⟨?_, hle⟩
  unfold fits at h
  split at h
  · cases h
  · split at h
    · rename_i k hk
      split at h
      · cases h
        have hd := undecimal_digits hk
        have hi : IsInt t := by
          obtain ⟨m, i, f, e, rfl, hm, hi, hf, he⟩ := ht
          have h1 : m = [] := by
            rcases hm with rfl | rfl
            · rfl
            · exact absurd (hd 0x2D (by simp)) (by unfold Digit; decide)
          have h2 : f = [] := by
            rcases hf with rfl | ⟨d, rfl, -⟩
            · rfl
            · exact absurd (hd 0x2E (by simp)) (by unfold Digit; decide)
          have h3 : e = [] := by
            rcases he with rfl | ⟨c, s, d, rfl, hc, -⟩
            · rfl
            · rcases hc with rfl | rfl
              · exact absurd (hd 0x65 (by simp)) (by unfold Digit; decide)
              · exact absurd (hd 0x45 (by simp)) (by unfold Digit; decide)
          rw [h1, h2, h3, List.nil_append, List.append_nil, List.append_nil]
          exact hi
        rw [number_eq]
        show Val.num t = Val.num (decimal n)
        unfold decimal
        rw [decimalF_unique (log2_fuel n) hi hk]
      · cases h
    · cases h

theorem Document.inv {v : Val} {b : Bytes} (h : Document v b) : ∃ t, Text v t := by
  obtain ⟨_, t, _, _, _, ht, _⟩ := h
  exact ⟨t, ht⟩

theorem elems_text {l : List Val} {b : Bytes} (h : Elems l b) : ∀ v ∈ l, ∃ t, Text v t := by
  induction l generalizing b with
  | nil => intro v hv; cases hv
  | cons a l ih =>
    intro v hv
    cases h with
    | last _ s t s' _ ht _ => rw [List.mem_singleton.1 hv]; exact ⟨t, ht⟩
    | more _ s t s' _ u _ ht _ hl =>
      rcases List.mem_cons.1 hv with h | h
      · rw [h]; exact ⟨t, ht⟩
      · exact ih hl v h

theorem arr_text {l : List Val} {t : Bytes} (h : Text (.arr l) t) : ∀ v ∈ l, ∃ u, Text v u := by
  cases h with
  | arr0 => intro v hv; cases hv
  | arr _ b h => exact elems_text h

theorem pair_read {max : Nat} {v : Val} {p : String × Nat} {t : Bytes} (ht : Text v t) (h : (pair str (uint max)).read v = some p) :
    v = two text Interface.number p ∧ p.2 ≤ max := by
  obtain ⟨s, n⟩ := p
  unfold pair at h
  dsimp only at h
  split at h
  · rename_i x y
    split at h
    · rename_i a b h1 h2
      cases h
      obtain ⟨u, hu⟩ := arr_text ht y (by simp)
      have hx : x = .str s := by
        cases x with
        | str z => exact congrArg Val.str (Option.some.inj h1)
        | _ => cases h1
      cases y with
      | num z =>
        cases hu with
        | num _ hz =>
          obtain ⟨h3, h4⟩ := fits_unique hz h2
          exact ⟨by rw [hx, h3]; rfl, h4⟩
      | _ => cases h2
    · cases h
  · cases h

theorem decode_json {α : Type} {T : Ty α} {b : Bytes} {a : α} (h : T.decode b = some a) : ∃ v, IsJson b v ∧ T.read v = some a := by
  obtain ⟨v, h1, h2⟩ := Option.bind_eq_some_iff.1 h
  exact ⟨v, parse_iff.1 h1, h2⟩

/-- C101: the messages of a transfer that are accepted: exactly the JSON texts of a list of claims `[["account",amount],…]`
(`Vec<(String, u64)>`, `deposit.rs:24`), and of an account with a number of days `["account",days]` (`(String, u16)`,
`deposit.rs:39`). -/
theorem C101_messages {b : Bytes} : (∀ l : List (String × Nat), (list (pair str u64)).decode b = some l ↔
      (∀ x ∈ l, x.2 < 2 ^ 64) ∧ IsJson b (array (two text Interface.number) l)) ∧
    ∀ p : String × Nat, (pair str u16).decode b = some p ↔ p.2 < 2 ^ 16 ∧ IsJson b (two text Interface.number p) := by
  refine ⟨fun l => ⟨fun h => ?_, fun h => MetaVote.C100_messages.1 l h.1 h.2⟩,
    fun p => ⟨fun h => ?_, fun h => MetaVote.C100_messages.2 p h.1 h.2⟩⟩
  · obtain ⟨v, h1, h2⟩ := decode_json h
    cases v with
    | arr vs =>
      obtain ⟨t, ht⟩ := Document.inv h1.1
      have ha := arr_text ht
      have key : ∀ {vs : List Val} {l : List (String × Nat)}, (∀ v ∈ vs, ∃ u, Text v u) → allOf (pair str u64).read vs = some l →
          vs = l.map (two text Interface.number) ∧ ∀ x ∈ l, x.2 < 2 ^ 64 := by
        intro vs
        induction vs with
        | nil => intro l _ h; cases h; exact ⟨rfl, fun x hx => by cases hx⟩
        | cons v vs ih =>
          intro l hv h
          rw [allOf] at h
          split at h
          · rename_i a m h1 h2
            cases h
            obtain ⟨u, hu⟩ := hv v List.mem_cons_self
            obtain ⟨h3, h4⟩ := pair_read hu h1
            obtain ⟨h5, h6⟩ := ih (fun x hx => hv x (List.mem_cons_of_mem _ hx)) h2
            refine ⟨by rw [List.map_cons, ← h3, ← h5], fun x hx => ?_⟩
            rcases List.mem_cons.1 hx with rfl | hx
            exacts [u64_lt h4, h6 x hx]
          · cases h
      obtain ⟨h3, h4⟩ := key ha h2
      rw [h3] at h1
      exact ⟨h4, h1⟩
    | _ => cases h2
  · obtain ⟨v, h1, h2⟩ := decode_json h
    obtain ⟨t, ht⟩ := Document.inv h1.1
    obtain ⟨h3, h4⟩ := pair_read ht h2
    rw [h3] at h1
    exact ⟨u16_lt h4, h1⟩

/-- C101: the input of a method with arguments is JSON, an object or an array. -/
theorem C101_args {α γ : Type} {F : Fields α} {mk : α → γ} {b : Bytes} {h : F.keys.Nodup} {k : γ} (hk : argsOf F mk b h = some k) :
    (∃ l, IsJson b (.obj l)) ∨ ∃ l, IsJson b (.arr l) := by
  obtain ⟨a, h1, -⟩ := Option.map_eq_some_iff.1 hk
  obtain ⟨v, h2, h3⟩ := decode_json h1
  cases v with
  | obj l => exact .inl ⟨l, h2⟩
  | arr l => exact .inr ⟨l, h2⟩
  | _ => cases h3

theorem digits_of {l : Bytes} : ∀ {acc n : Nat}, MetaVote.digits l acc = some n → ∀ c ∈ l, Digit c := by
  induction l with
  | nil => intro _ _ _ c hc; cases hc
  | cons b t ih =>
    intro acc n h c hc
    rw [MetaVote.digits] at h
    split at h
    · rename_i hb
      rcases List.mem_cons.1 hc with rfl | hc
      · exact ⟨UInt8.le_iff_toNat_le.2 hb.1, UInt8.le_iff_toNat_le.2 hb.2⟩
      · exact ih h c hc
    · cases h

/-- C101: whatever transfer is accepted by meta-vote, its message is `for-claims:` and a JSON list of claims, or a JSON pair of an
account and a number of days sent by the owner, or digits, perhaps with a plus sign. -/
theorem C101_deposit {s s' : MetaVote.State} {c : MetaVote.Ctx} {sender : String} {n : Nat} {msg : Bytes}
    (h : s.ft_on_transfer MetaVote.serde c sender n msg = .ok s') :
    (∃ l b, msg = utf8 "for-claims:" ++ b ∧ IsJson b (array (two text Interface.number) l) ∧ (∀ x ∈ l, x.2 < 2 ^ 64) ∧
      (c.predecessor = s.mpdao_token_contract_address ∨ c.predecessor = s.stnear_token_contract_address)) ∨
    c.predecessor = s.mpdao_token_contract_address ∧
      ((∃ p : String × Nat, IsJson msg (two text Interface.number p) ∧ p.2 < 2 ^ 16 ∧ sender = s.owner_id) ∨
        ∃ plus ds, msg = plus ++ ds ∧ (plus = [] ∨ plus = [0x2B]) ∧ Digits ds) := by
  have hf : utf8 "for-claims:" = MetaVote.FOR_CLAIMS := by decide +kernel
  unfold MetaVote.State.ft_on_transfer at h
  obtain ⟨b, h1, h⟩ := bind_ok_iff.1 h
  rw [MetaVote.has_prefix_iff] at h1
  cases b with
  | true =>
    obtain ⟨t, rfl⟩ := h1.2.1 rfl
    rw [if_pos rfl, List.drop_left' (by decide)] at h
    obtain ⟨l, h2, h⟩ := bind_ok_iff.1 h
    have h3 : (list (pair str u64)).decode t = some l := by
      rw [expect_ok_iff] at h2
      unfold MetaVote.Json.parse_claims at h2
      split at h2
      · rename_i l' e
        split at h2
        · cases h2; exact e
        · cases h2
      · cases h2
    obtain ⟨h4, h5⟩ := (C101_messages.1 l).1 h3
    refine .inl ⟨l, t, by rw [hf], h5, h4, ?_⟩
    unfold MetaVote.State.distribute_for_claims at h
    by_cases hm : c.predecessor = s.mpdao_token_contract_address
    · exact .inl hm
    · by_cases hn : c.predecessor = s.stnear_token_contract_address
      · exact .inr hn
      · rw [if_neg hm, if_neg hn] at h
        cases h
  | false =>
    rw [if_neg (by decide)] at h
    obtain ⟨_, h2, h⟩ := bind_ok_iff.1 h
    refine .inr ⟨require_ok_iff.1 h2, ?_⟩
    obtain ⟨p, h3, h⟩ := bind_ok_iff.1 h
    unfold MetaVote.State.deposit_target at h3
    obtain ⟨b, h4, h3⟩ := bind_ok_iff.1 h3
    cases b with
    | true =>
      rw [if_pos rfl] at h3
      obtain ⟨q, h5, h3⟩ := bind_ok_iff.1 h3
      obtain ⟨_, h6, h3⟩ := bind_ok_iff.1 h3
      have h7 : (pair str u16).decode msg = some q := by
        rw [expect_ok_iff] at h5
        unfold MetaVote.Json.parse_pair at h5
        split at h5
        · rename_i l' e
          split at h5
          · cases h5; exact e
          · cases h5
        · cases h5
      obtain ⟨h8, h9⟩ := (C101_messages.2 q).1 h7
      exact .inl ⟨q, h9, h8, require_ok_iff.1 h6⟩
    | false =>
      rw [if_neg (by decide)] at h3
      obtain ⟨d, h5, h3⟩ := bind_ok_iff.1 h3
      rw [expect_ok_iff] at h5
      have key : ∀ ds : Bytes, (if ds = [] then none else match MetaVote.digits ds 0 with
          | some n => if n ≤ U16_MAX then some n else none
          | none => none) = some d → Digits ds := by
        intro ds h
        split at h
        · cases h
        · rename_i hne
          split at h
          · rename_i k hk
            exact ⟨hne, digits_of hk⟩
          · cases h
      unfold MetaVote.parse_u16 at h5
      dsimp only at h5
      split at h5
      · exact .inr ⟨[0x2B], _, rfl, .inr rfl, key _ h5⟩
      · exact .inr ⟨[], msg, rfl, .inl rfl, key msg h5⟩

/-- A text with white space, escapes, a pair of surrogates, a number with all its parts, and nesting. -/
example : IsJson (MetaVote.ascii " {\"a\\u0062\\n\" : [ 1, -0.5e+3 ,\"\\ud83d\\uDE00\" ] ,\"\":{}\t} \n")
    (.obj [("ab\n", .arr [.num (MetaVote.ascii "1"), .num (MetaVote.ascii "-0.5e+3"), .str "😀"]), ("", .obj [])]) :=
  parse_iff.1 (by decide +kernel)

/-- Not JSON: a leading zero, a comma too many, a single quote, half a pair of surrogates, text after the value. -/
example : ∀ b ∈ ["01", "[1,]", "'a'", "\"\\ud83d\"", "1 2", "{\"a\" 1}", "[1", ""].map MetaVote.ascii, ∀ v, ¬ IsJson b v := by
  have h : ∀ b ∈ ["01", "[1,]", "'a'", "\"\\ud83d\"", "1 2", "{\"a\" 1}", "[1", ""].map MetaVote.ascii, parse b = none := by
    decide +kernel
  intro b hb v hv
  have hv := parse_iff.2 hv
  rw [h b hb] at hv
  cases hv

/-- Deposits that are accepted. -/
example : (MetaVote.demo0.st.ft_on_transfer MetaVote.serde ⟨"me", "mpdao", 0, 1000, []⟩ "owner" 30000000
      (MetaVote.ascii "[ \"bob\" , 30 ]")).isOk = true ∧
    (MetaVote.demo0.st.ft_on_transfer MetaVote.serde ⟨"me", "mpdao", 0, 1000, []⟩ "alice" 30000000 (MetaVote.ascii "+060")).isOk = true ∧
    (MetaVote.demo0.st.ft_on_transfer MetaVote.serde ⟨"me", "mpdao", 0, 1000, []⟩ "alice" 30000000
      (MetaVote.ascii "for-claims: [[\"bob\",10],\n[\"amy\",20]]")).isOk = true := by decide +kernel

/-- Messages as they are sent. -/
example : IsJson (MetaVote.ascii "[[\"bob.near\",120],[\"amy.near\", 7]]")
      (array (two text Interface.number) [("bob.near", 120), ("amy.near", 7)]) ∧
    IsJson (MetaVote.ascii "[\"bob.near\", 300]") (two text Interface.number ("bob.near", 300)) :=
  ⟨parse_iff.1 (by decide +kernel), parse_iff.1 (by decide +kernel)⟩

end Verif.JsonText
