import Verif.Spec.Logs

/-!
# The text of the lines can be read back
-/

namespace Verif.MetaVote

open Verif

theorem words_ne (l : List Char) : words l ≠ [] := by
  cases l with
  | nil => simp [words]
  | cons c l =>
    unfold words
    split
    · simp
    · split <;> simp

theorem words_front : ∀ (a x : List Char), ' ' ∉ a → words (a ++ ' ' :: x) = a :: words x
  | [], x, _ => by simp [words]
  | c :: a, x, h => by
    have h1 : c ≠ ' ' := fun e => h (by simp [e])
    have h2 : ' ' ∉ a := fun e => h (List.mem_cons_of_mem _ e)
    rw [List.cons_append, words, if_neg h1, words_front a x h2]

theorem words_one : ∀ (a : List Char), ' ' ∉ a → words a = [a]
  | [], _ => rfl
  | c :: a, h => by
    have h1 : c ≠ ' ' := fun e => h (by simp [e])
    have h2 : ' ' ∉ a := fun e => h (List.mem_cons_of_mem _ e)
    rw [words, if_neg h1, words_one a h2]

theorem words_back : ∀ (x b : List Char), ' ' ∉ b → words (x ++ ' ' :: b) = words x ++ [b]
  | [], b, h => by
    show words (' ' :: b) = [[], b]
    conv => lhs; unfold words
    rw [if_pos rfl, words_one b h]
  | c :: x, b, h => by
    rw [List.cons_append, words, words_back x b h]
    conv => rhs; rw [words]
    split
    · rfl
    · cases hw : words x with
      | nil => exact absurd hw (words_ne x)
      | cons w r => rfl

theorem unwords_words : ∀ (x : List Char), unwords (words x) = x
  | [] => rfl
  | c :: x => by
    have ih := unwords_words x
    rw [words]
    split
    · rename_i e
      cases hw : words x with
      | nil => exact absurd hw (words_ne x)
      | cons w r => rw [hw] at ih; rw [unwords, ih, e]; rfl; simp
    · cases hw : words x with
      | nil => exact absurd hw (words_ne x)
      | cons w r =>
        rw [hw] at ih
        cases r with
        | nil => simp only [unwords] at ih ⊢; rw [ih]
        | cons u r => simp only [unwords] at ih ⊢; rw [List.cons_append, ih]

theorem place_words (o a : String) :
    place (words o.toList ++ ["at".toList, "address".toList, a.toList ++ ['.']]) = some (o, a) := by
  unfold place
  rw [List.reverse_append]
  simp [unwords_words, String.ofList_toList]

theorem digits_space (n : Nat) : ' ' ∉ (toString n).toList := by
  rw [show toString n = n.repr from rfl, Nat.toList_repr]
  intro h
  have := Nat.isDigit_of_mem_toDigits (by decide) (by decide) h
  revert this; decide

theorem digits_read (n : Nat) : Nat.ofDigitChars 10 (toString n).toList 0 = n := by
  rw [show toString n = n.repr from rfl, Nat.toList_repr]
  exact Nat.ofDigitChars_ten_toDigits

/-- Words without spaces, each followed by a space. -/
def lead : List (List Char) → List Char → List Char
  | [], x => x
  | w :: r, x => w ++ ' ' :: lead r x

theorem words_lead : ∀ (ws : List (List Char)) (x : List Char), (∀ w ∈ ws, ' ' ∉ w) → words (lead ws x) = ws ++ words x
  | [], _, _ => rfl
  | w :: r, x, h => by
    rw [lead, words_front _ _ (h w List.mem_cons_self), words_lead r x fun y hy => h y (List.mem_cons_of_mem _ hy)]
    rfl

/-- The end of a line about a vote. -/
def tail (o a : String) : List Char := o.toList ++ ' ' :: "at".toList ++ ' ' :: "address".toList ++ ' ' :: (a.toList ++ ['.'])

theorem words_tail (o a : String) (ha : ' ' ∉ a.toList) :
    words (tail o a) = words o.toList ++ ["at".toList, "address".toList, a.toList ++ ['.']] := by
  unfold tail
  generalize h1 : "at".toList = x1
  generalize h2 : "address".toList = x2
  have s1 : ' ' ∉ x1 := by rw [← h1]; decide
  have s2 : ' ' ∉ x2 := by rw [← h2]; decide
  rw [words_back _ _ (by simpa using ha), words_back _ _ s2, words_back _ _ s1]
  simp

theorem join3 (a b c : String) : (a ++ b ++ c).toList = a.toList ++ (b.toList ++ c.toList) := by
  rw [String.toList_append, String.toList_append, List.append_assoc]

theorem join4 (a b c d : String) : (a ++ b ++ c ++ d).toList = a.toList ++ (b.toList ++ (c.toList ++ d.toList)) := by
  rw [String.toList_append, join3, List.append_assoc, List.append_assoc]

theorem join7 (a b c d e f g : String) : (a ++ b ++ c ++ d ++ e ++ f ++ g).toList =
    a.toList ++ (b.toList ++ (c.toList ++ (d.toList ++ (e.toList ++ (f.toList ++ g.toList))))) := by
  rw [String.toList_append, String.toList_append, String.toList_append, join4]
  simp only [List.append_assoc]

theorem join9 (a b c d e f g h i : String) : (a ++ b ++ c ++ d ++ e ++ f ++ g ++ h ++ i).toList =
    a.toList ++ (b.toList ++ (c.toList ++ (d.toList ++ (e.toList ++ (f.toList ++ (g.toList ++ (h.toList ++ i.toList))))))) := by
  rw [String.toList_append, String.toList_append, join7]
  simp only [List.append_assoc]

theorem text_gave (v o a : String) (n : Nat) : (Line.gave v n o a).text.toList =
    lead ["VOTE:".toList, v.toList, "gave".toList, (toString n).toList, "votes".toList, "for".toList, "object".toList]
      (tail o a) := by
  unfold Line.text
  simp only
  generalize toString n = d
  rw [join9]
  simp [-String.toList_append, lead, tail]

theorem text_increased (v o a : String) (n : Nat) : (Line.increased v n o a).text.toList =
    lead ["VOTE:".toList, v.toList, "increased".toList, "to".toList, (toString n).toList, "votes".toList, "for".toList,
      "object".toList] (tail o a) := by
  unfold Line.text
  simp only
  generalize toString n = d
  rw [join9]
  simp [-String.toList_append, lead, tail]

theorem text_decreased (v o a : String) (n : Nat) : (Line.decreased v n o a).text.toList =
    lead ["VOTE:".toList, v.toList, "decreased".toList, "to".toList, (toString n).toList, "votes".toList, "for".toList,
      "object".toList] (tail o a) := by
  unfold Line.text
  simp only
  generalize toString n = d
  rw [join9]
  simp [-String.toList_append, lead, tail]

theorem text_unvoted (v o a : String) : (Line.unvoted v o a).text.toList =
    lead ["UNVOTE:".toList, v.toList, "unvoted".toList, "object".toList] (tail o a) := by
  unfold Line.text
  simp only
  rw [join7]
  simp [-String.toList_append, lead, tail]

theorem text_godspeed (v : String) : (Line.godspeed v).text.toList =
    lead ["GODSPEED:".toList, v.toList, "is".toList, "no".toList, "longer".toList, "part".toList, "of".toList,
      "Meta".toList] "Vote!".toList := by
  unfold Line.text
  simp only
  rw [join3]
  simp [-String.toList_append, lead]

theorem text_stnear (v : String) (n : Nat) : (Line.withdrawn_stnear v n).text.toList =
    lead [v.toList, "WITHDRAW".toList, (toString n).toList] "stNEAR".toList := by
  unfold Line.text
  simp only
  generalize toString n = d
  rw [join4]
  simp [-String.toList_append, lead]

/-- The text starts with `p`. -/
def StartsWith (p t : String) : Prop := ∃ r, t = p ++ r

theorem starts_one (p r : String) : StartsWith p (p ++ r) := ⟨r, rfl⟩

theorem starts_more {p t : String} (h : StartsWith p t) (r : String) : StartsWith p (t ++ r) := by
  obtain ⟨x, rfl⟩ := h
  exact ⟨x ++ r, String.append_assoc⟩

/-- A line that starts with another word is not about votes. -/
theorem read_other {p t : String} (w : List Char) (h : StartsWith p t) {y : List Char} (hp : p.toList = w ++ ' ' :: y) (hw : ' ' ∉ w)
    (h1 : w ≠ "VOTE:".toList) (h2 : w ≠ "UNVOTE:".toList) (h3 : w ≠ "GODSPEED:".toList) : readLine t = none := by
  obtain ⟨x, rfl⟩ := h
  unfold readLine
  rw [String.toList_append, hp, List.append_assoc, List.cons_append, words_front _ _ hw]
  split
  · rename_i e
    injection e with e1 e2
    subst e1
    simp only [h1, h2, h3, false_and, if_false]
  · rfl

/-- The words of a line about a vote. -/
theorem words_line {x : List Char} {ws : List (List Char)} {o a : String} (h : x = lead ws (tail o a))
    (hw : ∀ w ∈ ws, ' ' ∉ w) (ha : ' ' ∉ a.toList) : words x =
      ws ++ (words o.toList ++ ["at".toList, "address".toList, a.toList ++ ['.']]) := by
  rw [h, words_lead _ _ hw, words_tail _ _ ha]

theorem read_gave {v o a : String} {n : Nat} (hv : ' ' ∉ v.toList) (ha : ' ' ∉ a.toList) :
    readLine (Line.gave v n o a).text = some (.more v a o n) := by
  unfold readLine
  rw [words_line (text_gave v o a n) _ ha]
  · simp only [List.cons_append, List.nil_append]
    rw [if_neg (by intro h; exact absurd h.1 (by decide)), if_pos (by refine ⟨?_, ?_, ?_⟩ <;> trivial)]
    simp only [List.drop_succ_cons, List.drop_zero]
    rw [place_words, Option.map_some, List.headD_cons, digits_read, String.ofList_toList]
  · intro w hw
    simp only [List.mem_cons, List.not_mem_nil, or_false] at hw
    rcases hw with rfl | rfl | rfl | rfl | rfl | rfl | rfl
    · decide
    · exact hv
    · decide
    · exact digits_space n
    all_goals decide

theorem read_now {t v o a : String} {n : Nat} {y : List Char} (hv : ' ' ∉ v.toList) (ha : ' ' ∉ a.toList)
    (hy : y = "increased".toList ∨ y = "decreased".toList)
    (ht : t.toList = lead ["VOTE:".toList, v.toList, y, "to".toList, (toString n).toList, "votes".toList, "for".toList,
      "object".toList] (tail o a)) : readLine t = some (.now v a o n) := by
  unfold readLine
  rw [words_line ht _ ha]
  · simp only [List.cons_append, List.nil_append]
    rw [if_neg (by intro h; exact absurd h.1 (by decide)),
      if_neg (by intro h; rcases hy with rfl | rfl <;> exact absurd h.2.1 (by decide)), if_pos (by refine ⟨?_, hy, ?_⟩ <;> trivial)]
    simp only [List.drop_succ_cons, List.drop_zero]
    rw [place_words, Option.map_some, List.headD_cons, digits_read, String.ofList_toList]
  · intro w hw
    simp only [List.mem_cons, List.not_mem_nil, or_false] at hw
    rcases hw with rfl | rfl | rfl | rfl | rfl | rfl | rfl | rfl
    · decide
    · exact hv
    · rcases hy with rfl | rfl <;> decide
    · decide
    · exact digits_space n
    all_goals decide

theorem read_unvoted {v o a : String} (hv : ' ' ∉ v.toList) (ha : ' ' ∉ a.toList) :
    readLine (Line.unvoted v o a).text = some (.none v a o) := by
  unfold readLine
  rw [words_line (text_unvoted v o a) _ ha]
  · simp only [List.cons_append, List.nil_append]
    rw [if_pos (by refine ⟨?_, ?_, ?_⟩ <;> trivial)]
    simp only [List.drop_succ_cons, List.drop_zero]
    rw [place_words, Option.map_some, String.ofList_toList]
  · intro w hw
    simp only [List.mem_cons, List.not_mem_nil, or_false] at hw
    rcases hw with rfl | rfl | rfl | rfl
    · decide
    · exact hv
    all_goals decide

theorem read_godspeed {v : String} (hv : ' ' ∉ v.toList) : readLine (Line.godspeed v).text = some (.gone v) := by
  unfold readLine
  rw [text_godspeed, words_lead, words_one _ (by decide)]
  · simp only [List.cons_append, List.nil_append]
    rw [if_neg (by intro h; exact absurd h.1 (by decide)), if_neg (by intro h; exact absurd h.1 (by decide)),
      if_neg (by intro h; exact absurd h.1 (by decide)), if_pos (by refine ⟨?_, ?_, ?_⟩ <;> trivial), String.ofList_toList]
  · intro w hw
    simp only [List.mem_cons, List.not_mem_nil, or_false] at hw
    rcases hw with rfl | rfl | rfl | rfl | rfl | rfl | rfl | rfl
    · decide
    · exact hv
    all_goals decide

theorem read_stnear {v : String} {n : Nat} (hv : ' ' ∉ v.toList) :
    readLine (Line.withdrawn_stnear v n).text = none := by
  unfold readLine
  rw [text_stnear, words_lead, words_one _ (by decide)]
  · simp only [List.cons_append, List.nil_append]
    rw [if_neg (by intro h; exact absurd h.2.2 (by decide)), if_neg (by intro h; exact absurd h.2.2 (by decide)),
      if_neg (by intro h; exact absurd h.2.2 (by decide)), if_neg (by intro h; exact absurd h.2.2 (by decide))]
  · intro w hw
    simp only [List.mem_cons, List.not_mem_nil, or_false] at hw
    rcases hw with rfl | rfl | rfl
    · exact hv
    · decide
    · exact digits_space n

theorem read_text (l : Line) (h : l.tidy) : readLine l.text = l.news := by
  cases l with
  | gave v n o a => exact read_gave h.1 h.2
  | increased v n o a => exact read_now h.1 h.2 (.inl rfl) (text_increased v o a n)
  | decreased v n o a => exact read_now h.1 h.2 (.inr rfl) (text_decreased v o a n)
  | unvoted v o a => exact read_unvoted h.1 h.2
  | godspeed v => exact read_godspeed h
  | withdrawn_stnear v n => exact read_stnear h
  | unlocked v i =>
    exact read_other "UNLOCK:".toList (y := []) (starts_more (starts_more (starts_more (starts_one "UNLOCK: " _) _) _) _)
      (by decide) (by decide) (by decide) (by decide) (by decide)
  | partially_unlocked v i =>
    exact read_other "UNLOCK:".toList (y := []) (starts_more (starts_more (starts_more (starts_one "UNLOCK: " _) _) _) _)
      (by decide) (by decide) (by decide) (by decide) (by decide)
  | extended v i d =>
    exact read_other "EXTEND-TIME:".toList (y := [])
      (starts_more (starts_more (starts_more (starts_more (starts_more (starts_one "EXTEND-TIME: " _) _) _) _) _) _)
      (by decide) (by decide) (by decide) (by decide) (by decide)
  | relocked v i =>
    exact read_other "RELOCK:".toList (y := []) (starts_more (starts_more (starts_more (starts_one "RELOCK: " _) _) _) _)
      (by decide) (by decide) (by decide) (by decide) (by decide)
  | partially_relocked v i =>
    exact read_other "RELOCK:".toList (y := []) (starts_more (starts_more (starts_more (starts_one "RELOCK: " _) _) _) _)
      (by decide) (by decide) (by decide) (by decide) (by decide)
  | relocked_balance v =>
    exact read_other "RELOCK:".toList (y := []) (starts_more (starts_one "RELOCK: " _) _)
      (by decide) (by decide) (by decide) (by decide) (by decide)
  | mirror p n u =>
    exact read_other "MIRROR:".toList (y := "prev_vp ".toList) (starts_more (starts_more (starts_more (starts_more
        (starts_more (starts_one "MIRROR: prev_vp " _) _) _) _) _) _)
      (by decide) (by decide) (by decide) (by decide) (by decide)
  | deposit n v =>
    exact read_other "DEPOSIT:".toList (y := []) (starts_more (starts_more (starts_one "DEPOSIT: " _) _) _)
      (by decide) (by decide) (by decide) (by decide) (by decide)
  | withdrawn n v =>
    exact read_other "WITHDRAW:".toList (y := []) (starts_more (starts_more (starts_one "WITHDRAW: " _) _) _)
      (by decide) (by decide) (by decide) (by decide) (by decide)
  | failed_mpdao n v =>
    exact read_other "FAILED:".toList (y := []) (starts_more (starts_more (starts_more (starts_one "FAILED: " _) _) _) _)
      (by decide) (by decide) (by decide) (by decide) (by decide)
  | failed_stnear n v =>
    exact read_other "FAILED:".toList (y := []) (starts_more (starts_more (starts_more (starts_one "FAILED: " _) _) _) _)
      (by decide) (by decide) (by decide) (by decide) (by decide)

end Verif.MetaVote
