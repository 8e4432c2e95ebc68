import Verif.Serde.Grammar
import Verif.Serde.Types

/-!
# Values are no larger than the text they are read from
-/

namespace Verif.Serde

open Verif Storage JsonText

/-- Texts and arrays in the value have at most `n` bytes and elements. -/
inductive Small (n : Nat) : Val → Prop
  | null : Small n .null
  | bool (b : Bool) : Small n (.bool b)
  | num (t : Bytes) : Small n (.num t)
  | str (s : String) (h : (utf8 s).length ≤ n) : Small n (.str s)
  | arr {l : List Val} (hn : l.length ≤ n) (h : ∀ v ∈ l, Small n v) : Small n (.arr l)
  | obj {l : List (String × Val)} (h : ∀ p ∈ l, Small n p.2) : Small n (.obj l)

theorem Small.mono {n m : Nat} {v : Val} (h : Small n v) (hm : n ≤ m) : Small m v := by
  induction h with
  | null => exact .null
  | bool b => exact .bool b
  | num t => exact .num t
  | str s h => exact .str s (Nat.le_trans h hm)
  | arr hn _ ih => exact .arr (Nat.le_trans hn hm) ih
  | obj _ ih => exact .obj ih

theorem point_length (n : Nat) : (utf8 (String.singleton (Char.ofNat n))).length ≤ 4 := by
  have : (utf8 (String.singleton (Char.ofNat n))).length = (String.singleton (Char.ofNat n)).utf8ByteSize := by
    simp only [utf8, Array.length_toList]; rfl
  rw [this, String.utf8ByteSize_singleton]
  exact Char.utf8Size_le_four _

theorem hex4_length {b : Bytes} {n : Nat} (h : Hex4 b n) : b.length = 4 := by
  obtain ⟨_, _, _, _, _, _, _, _, rfl, _⟩ := h
  rfl

theorem chars_small {q u : Bytes} (h : Chars q u) : u.length ≤ q.length := by
  induction h with
  | nil => exact Nat.le_refl _
  | plain c _ _ _ _ ih => simp only [List.length_cons]; omega
  | letter e b _ _ ih => simp only [List.length_cons]; omega
  | unit h n hn _ _ ih =>
    have := point_length n
    have := hex4_length hn
    simp only [List.length_cons, List.length_append]; omega
  | pair h l n m hn hm _ _ _ ih =>
    have := point_length (0x10000 + (n - 0xD800) * 0x400 + (m - 0xDC00))
    have := hex4_length hn
    have := hex4_length hm
    simp only [List.length_cons, List.length_append]; omega

mutual

theorem text_small {v : Val} {t : Bytes} (h : Text v t) : Small t.length v := by
  cases h with
  | null => exact .null
  | yes => exact .bool _
  | no => exact .bool _
  | num _ h => exact .num _
  | str q s h =>
    have := chars_small h
    exact .str s (by simp only [List.length_cons, List.length_append]; omega)
  | arr0 s h => exact .arr (Nat.zero_le _) fun v hv => by cases hv
  | arr l b h =>
    have h1 := elems_small h
    exact .arr (Nat.le_succ_of_le h1.1) fun v hv => (h1.2 v hv).mono (Nat.le_succ _)
  | obj0 s h => exact .obj fun v hv => by cases hv
  | obj l b h => exact .obj fun p hp => (members_small h p hp).mono (Nat.le_succ _)

theorem elems_small {l : List Val} {b : Bytes} (h : Elems l b) : l.length ≤ b.length ∧ ∀ v ∈ l, Small b.length v := by
  cases h with
  | last v s t s' h ht h' =>
    have h1 := text_small ht
    refine ⟨by simp only [List.length_cons, List.length_append, List.length_nil]; omega, fun x hx => ?_⟩
    rw [List.mem_singleton.1 hx]
    exact h1.mono (by simp only [List.length_append]; omega)
  | more v s t s' l b h ht h' hl =>
    have h1 := text_small ht
    have h2 := elems_small hl
    refine ⟨by simp only [List.length_cons, List.length_append]; omega, fun x hx => ?_⟩
    rcases List.mem_cons.1 hx with e | hx
    · rw [e]; exact h1.mono (by simp only [List.length_append]; omega)
    · exact (h2.2 x hx).mono (by simp only [List.length_append, List.length_cons]; omega)

theorem members_small {l : List (String × Val)} {b : Bytes} (h : Members l b) : ∀ p ∈ l, Small b.length p.2 := by
  cases h with
  | last k v s q s1 s2 t s' h hq h1 h2 ht h' =>
    have h1 := text_small ht
    intro x hx
    rw [List.mem_singleton.1 hx]
    exact h1.mono (by simp only [List.length_append, List.length_cons]; omega)
  | more k v s q s1 s2 t s' l b h hq h1 h2 ht h' hl =>
    have h1 := text_small ht
    have h2 := members_small hl
    intro x hx
    rcases List.mem_cons.1 hx with e | hx
    · rw [e]; exact h1.mono (by simp only [List.length_append, List.length_cons]; omega)
    · exact (h2 x hx).mono (by simp only [List.length_append, List.length_cons]; omega)

end

theorem parse_small {b : Bytes} {v : Val} (h : parse b = some v) : Small b.length v := by
  obtain ⟨⟨s, t, s', rfl, -, h1, -⟩, -⟩ := parse_iff.1 h
  exact (text_small h1).mono (by simp only [List.length_append]; omega)

/-- What is read from a small value has this property. -/
def Ty.Gives {α : Type} (T : Ty α) (n : Nat) (P : α → Prop) : Prop := ∀ v a, Small n v → T.read v = some a → P a

/-- The same of fields. -/
def Fields.Gives {α : Type} (F : Fields α) (n : Nat) (P : α → Prop) : Prop :=
  ∀ l a, (∀ v, some v ∈ l → Small n v) → F.read l = some a → P a

theorem gives_any {α : Type} (T : Ty α) (n : Nat) : T.Gives n fun _ => True := fun _ _ _ _ => trivial

theorem str_gives (n : Nat) : str.Gives n fun s => (utf8 s).length ≤ n := by
  intro v a hv h
  cases hv with
  | str s hs => cases h; exact hs
  | _ => cases h

theorem opt_gives {α : Type} {T : Ty α} {n : Nat} {P : α → Prop} (hT : T.Gives n P) (hne : ∀ a, T.write a ≠ .null) :
    (opt T hne).Gives n fun o => ∀ x, o = some x → P x := by
  intro v a hv h x hx
  unfold opt at h
  dsimp only at h
  split at h
  · cases h; cases hx
  · obtain ⟨y, h1, rfl⟩ := Option.map_eq_some_iff.1 h
    cases hx
    exact hT _ _ hv h1

theorem list_gives {α : Type} {T : Ty α} {n : Nat} {P : α → Prop} (hT : T.Gives n P) :
    (list T).Gives n fun l => l.length ≤ n ∧ ∀ x ∈ l, P x := by
  intro v l hv h
  cases hv with
  | @arr vs hn hs =>
    change allOf T.read vs = some l at h
    have key : ∀ {vs : List Val} {l : List α}, (∀ v ∈ vs, Small n v) → allOf T.read vs = some l → l.length = vs.length ∧ ∀ x ∈ l, P x := by
      intro vs
      induction vs with
      | nil => intro l _ h; cases h; exact ⟨rfl, fun x hx => by cases hx⟩
      | cons v vs ih =>
        intro l hv h
        rw [allOf] at h
        split at h
        · rename_i a m h1 h2
          cases h
          obtain ⟨h3, h4⟩ := ih (fun x hx => hv x (List.mem_cons_of_mem _ hx)) h2
          refine ⟨by rw [List.length_cons, List.length_cons, h3], fun x hx => ?_⟩
          rcases List.mem_cons.1 hx with rfl | hx
          exacts [hT _ _ (hv v List.mem_cons_self) h1, h4 x hx]
        · cases h
    obtain ⟨h1, h2⟩ := key hs h
    exact ⟨by omega, h2⟩
  | _ => cases h

theorem pair_gives {α β : Type} {S : Ty α} {T : Ty β} {n : Nat} {P : α → Prop} {Q : β → Prop} (hS : S.Gives n P) (hT : T.Gives n Q) :
    (pair S T).Gives n fun p => P p.1 ∧ Q p.2 := by
  intro v p hv h
  unfold pair at h
  dsimp only at h
  split at h
  · rename_i x y
    cases hv with
    | arr _ hs =>
      split at h
      · rename_i a b h1 h2
        cases h
        exact ⟨hS _ _ (hs x (by simp)) h1, hT _ _ (hs y (by simp)) h2⟩
      · cases h
  · cases h

theorem Fields.Gives.one {α : Type} {T : Ty α} {n : Nat} {P : α → Prop} (k : String) (h : T.Gives n P) : (Fields.one k T).Gives n P := by
  intro l a hl ha
  unfold Fields.one at ha
  dsimp only at ha
  split at ha
  · rename_i v; exact h _ _ (hl v (by simp)) ha
  · cases ha

theorem Fields.Gives.opt {α : Type} {T : Ty α} {n : Nat} {P : α → Prop} (k : String) (hne : ∀ a, T.write a ≠ .null)
    (h : T.Gives n P) : (Fields.opt k T hne).Gives n fun o => ∀ x, o = some x → P x := by
  intro l a hl ha
  unfold Fields.opt at ha
  dsimp only at ha
  split at ha
  · rename_i v; exact opt_gives h hne _ _ (hl v (by simp)) ha
  · cases ha; exact fun x hx => by cases hx
  · cases ha

theorem Fields.Gives.and {α β : Type} {F : Fields α} {G : Fields β} {n : Nat} {P : α → Prop} {Q : β → Prop} (hF : F.Gives n P)
    (hG : G.Gives n Q) : (F ⊗ G).Gives n fun p => P p.1 ∧ Q p.2 := by
  intro l a hl ha
  unfold Fields.and at ha
  dsimp only at ha
  split at ha
  · rename_i x y h1 h2
    cases ha
    exact ⟨hF _ _ (fun v hv => hl v (List.mem_of_mem_take hv)) h1, hG _ _ (fun v hv => hl v (List.mem_of_mem_drop hv)) h2⟩
  · cases ha

theorem Fields.Gives.iso {α β : Type} {F : Fields α} {n : Nat} {P : α → Prop} {f : α → β} {g : β → α} {h : ∀ b, f (g b) = b}
    {h' : ∀ a, g (f a) = a} (hF : F.Gives n P) : (F.iso f g h h').Gives n fun b => P (g b) := by
  intro l a hl ha
  obtain ⟨x, h1, rfl⟩ := Option.map_eq_some_iff.1 ha
  rw [h']
  exact hF _ _ hl h1

theorem struct_gives {α : Type} {F : Fields α} {n : Nat} {P : α → Prop} {h : F.keys.Nodup} (hF : F.Gives n P) : (struct F h).Gives n P := by
  intro v a hv ha
  cases hv with
  | @obj l hl =>
    unfold struct at ha
    dsimp only at ha
    split at ha
    · refine hF _ _ (fun v hv => ?_) ha
      obtain ⟨k, -, hk⟩ := List.mem_map.1 hv
      unfold member at hk
      obtain ⟨p, h1, rfl⟩ := Option.map_eq_some_iff.1 hk
      exact hl p (List.mem_of_find?_eq_some h1)
    · cases ha
  | @arr l _ hl =>
    unfold struct at ha
    dsimp only at ha
    split at ha
    · refine hF _ _ (fun v hv => ?_) ha
      obtain ⟨w, hw, e⟩ := List.mem_map.1 hv
      cases e
      exact hl _ hw
    · cases ha
  | _ => cases ha

/-- Arguments are no larger than the input. -/
theorem args_gives {α γ : Type} {F : Fields α} {P : α → Prop} {mk : α → γ} {b : Bytes} {h : F.keys.Nodup} {k : γ}
    (hF : F.Gives b.length P) (hk : argsOf F mk b h = some k) : ∃ a, P a ∧ mk a = k := by
  obtain ⟨a, h1, h2⟩ := Option.map_eq_some_iff.1 hk
  obtain ⟨v, h3, h4⟩ := Option.bind_eq_some_iff.1 h1
  exact ⟨a, struct_gives hF _ _ (parse_small h3) h4, h2⟩

theorem args_pos {α γ : Type} {F : Fields α} {mk : α → γ} {b : Bytes} {h : F.keys.Nodup} {k : γ} (hk : argsOf F mk b h = some k) :
    0 < b.length := by
  obtain ⟨a, h1, -⟩ := Option.map_eq_some_iff.1 hk
  obtain ⟨v, h3, -⟩ := Option.bind_eq_some_iff.1 h1
  obtain ⟨⟨s, t, s', rfl, -, h1, -⟩, -⟩ := parse_iff.1 h3
  obtain ⟨c, u, rfl, -⟩ := Text.head h1
  simp only [List.length_append, List.length_cons]
  omega

end Verif.Serde
