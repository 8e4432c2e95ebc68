import Verif.MetaVote.LogText

/-!
# Every line can be read back
-/

namespace Verif.MetaVote

open Verif

theorem join5 (a b c d e : String) : (a ++ b ++ c ++ d ++ e).toList =
    a.toList ++ (b.toList ++ (c.toList ++ (d.toList ++ e.toList))) := by
  rw [String.toList_append, join4]
  simp only [List.append_assoc]

theorem number_read (n : Nat) : number (toString n).toList = n := digits_read n

theorem number_digits (n : Nat) : number (Nat.toDigits 10 n) = n := Nat.ofDigitChars_ten_toDigits

theorem number_dot (n : Nat) : number ((toString n).toList ++ ['.']).dropLast = n := by
  rw [List.dropLast_concat, number_read]

theorem digits_dot (n : Nat) : ' ' ∉ (toString n).toList ++ ['.'] := by
  rw [List.mem_append]
  rintro (h | h)
  · exact digits_space n h
  · revert h; decide

theorem digits_hash (n : Nat) : ' ' ∉ '#' :: (toString n).toList := by
  rw [List.mem_cons]
  rintro (h | h)
  · revert h; decide
  · exact digits_space n h

theorem read_unlocked (v : String) (i : Nat) (hv : ' ' ∉ v.toList) : readOther (Line.unlocked v i).text = some (.unlocked v i) := by
  have ht : (Line.unlocked v i).text.toList = lead ["UNLOCK:".toList, v.toList, "unlocked".toList, "position".toList] ((toString i).toList ++ ['.']) := by
    unfold Line.text
    simp only
    generalize toString i = di
    simp only [String.toList_append, List.append_assoc]
    simp [-String.toList_append, lead]
  unfold readOther
  rw [ht, words_lead, words_one]
  · simp only [List.cons_append, List.nil_append]
    simp (decide := true) [number_digits]
  · exact digits_dot i
  · intro w hw
    simp only [List.mem_cons, List.not_mem_nil, or_false] at hw
    rcases hw with rfl | rfl | rfl | rfl
    · decide
    · exact hv
    · decide
    · decide

theorem read_partially_unlocked (v : String) (i : Nat) (hv : ' ' ∉ v.toList) : readOther (Line.partially_unlocked v i).text = some (.partially_unlocked v i) := by
  have ht : (Line.partially_unlocked v i).text.toList = lead ["UNLOCK:".toList, v.toList, "partially".toList, "unlocked".toList, "position".toList] ((toString i).toList ++ ['.']) := by
    unfold Line.text
    simp only
    generalize toString i = di
    simp only [String.toList_append, List.append_assoc]
    simp [-String.toList_append, lead]
  unfold readOther
  rw [ht, words_lead, words_one]
  · simp only [List.cons_append, List.nil_append]
    simp (decide := true) [number_digits]
  · exact digits_dot i
  · intro w hw
    simp only [List.mem_cons, List.not_mem_nil, or_false] at hw
    rcases hw with rfl | rfl | rfl | rfl | rfl
    · decide
    · exact hv
    · decide
    · decide
    · decide

theorem read_extended (v : String) (i d : Nat) (hv : ' ' ∉ v.toList) : readOther (Line.extended v i d).text = some (.extended v i d) := by
  have ht : (Line.extended v i d).text.toList = lead ["EXTEND-TIME:".toList, v.toList, "position".toList, '#' :: (toString i).toList, (toString d).toList] "days".toList := by
    unfold Line.text
    simp only
    generalize toString i = di
    generalize toString d = dd
    simp only [String.toList_append, List.append_assoc]
    simp [-String.toList_append, lead]
  unfold readOther
  rw [ht, words_lead, words_one]
  · simp only [List.cons_append, List.nil_append]
    simp (decide := true) [number_digits]
  · decide
  · intro w hw
    simp only [List.mem_cons, List.not_mem_nil, or_false] at hw
    rcases hw with rfl | rfl | rfl | rfl | rfl
    · decide
    · exact hv
    · decide
    · exact digits_hash _
    · exact digits_space _

theorem read_relocked (v : String) (i : Nat) (hv : ' ' ∉ v.toList) : readOther (Line.relocked v i).text = some (.relocked v i) := by
  have ht : (Line.relocked v i).text.toList = lead ["RELOCK:".toList, v.toList, "relocked".toList, "position".toList] ((toString i).toList ++ ['.']) := by
    unfold Line.text
    simp only
    generalize toString i = di
    simp only [String.toList_append, List.append_assoc]
    simp [-String.toList_append, lead]
  unfold readOther
  rw [ht, words_lead, words_one]
  · simp only [List.cons_append, List.nil_append]
    simp (decide := true) [number_digits]
  · exact digits_dot i
  · intro w hw
    simp only [List.mem_cons, List.not_mem_nil, or_false] at hw
    rcases hw with rfl | rfl | rfl | rfl
    · decide
    · exact hv
    · decide
    · decide

theorem read_partially_relocked (v : String) (i : Nat) (hv : ' ' ∉ v.toList) : readOther (Line.partially_relocked v i).text = some (.partially_relocked v i) := by
  have ht : (Line.partially_relocked v i).text.toList = lead ["RELOCK:".toList, v.toList, "partially".toList, "relocked".toList, "position".toList] ((toString i).toList ++ ['.']) := by
    unfold Line.text
    simp only
    generalize toString i = di
    simp only [String.toList_append, List.append_assoc]
    simp [-String.toList_append, lead]
  unfold readOther
  rw [ht, words_lead, words_one]
  · simp only [List.cons_append, List.nil_append]
    simp (decide := true) [number_digits]
  · exact digits_dot i
  · intro w hw
    simp only [List.mem_cons, List.not_mem_nil, or_false] at hw
    rcases hw with rfl | rfl | rfl | rfl | rfl
    · decide
    · exact hv
    · decide
    · decide
    · decide

theorem read_relocked_balance (v : String) (hv : ' ' ∉ v.toList) : readOther (Line.relocked_balance v).text = some (.relocked_balance v) := by
  have ht : (Line.relocked_balance v).text.toList = lead ["RELOCK:".toList, v.toList, "relocked".toList] "position.".toList := by
    unfold Line.text
    simp only
    simp only [String.toList_append, List.append_assoc]
    simp [-String.toList_append, lead]
  unfold readOther
  rw [ht, words_lead, words_one]
  · simp only [List.cons_append, List.nil_append]
    simp (decide := true)
  · decide
  · intro w hw
    simp only [List.mem_cons, List.not_mem_nil, or_false] at hw
    rcases hw with rfl | rfl | rfl
    · decide
    · exact hv
    · decide

theorem read_mirror (p n u : Nat) : readOther (Line.mirror p n u).text = some (.mirror p n u) := by
  have ht : (Line.mirror p n u).text.toList = lead ["MIRROR:".toList, "prev_vp".toList, (toString p).toList, "new_vp".toList, (toString n).toList, "used_vp".toList] ((toString u).toList ++ ['.']) := by
    unfold Line.text
    simp only
    generalize toString p = dp
    generalize toString n = dn
    generalize toString u = du
    simp only [String.toList_append, List.append_assoc]
    simp [-String.toList_append, lead]
  unfold readOther
  rw [ht, words_lead, words_one]
  · simp only [List.cons_append, List.nil_append]
    simp (decide := true) [number_digits]
  · exact digits_dot u
  · intro w hw
    simp only [List.mem_cons, List.not_mem_nil, or_false] at hw
    rcases hw with rfl | rfl | rfl | rfl | rfl | rfl
    · decide
    · decide
    · exact digits_space _
    · decide
    · exact digits_space _
    · decide

theorem read_deposit (n : Nat) (v : String) (hv : ' ' ∉ v.toList) : readOther (Line.deposit n v).text = some (.deposit n v) := by
  have ht : (Line.deposit n v).text.toList = lead ["DEPOSIT:".toList, (toString n).toList, "mpDAO".toList, "deposited".toList, "from".toList] v.toList := by
    unfold Line.text
    simp only
    generalize toString n = dn
    simp only [String.toList_append, List.append_assoc]
    simp [-String.toList_append, lead]
  unfold readOther
  rw [ht, words_lead, words_one]
  · simp only [List.cons_append, List.nil_append]
    simp (decide := true) [number_digits]
  · exact hv
  · intro w hw
    simp only [List.mem_cons, List.not_mem_nil, or_false] at hw
    rcases hw with rfl | rfl | rfl | rfl | rfl
    · decide
    · exact digits_space _
    · decide
    · decide
    · decide

theorem read_withdrawn (n : Nat) (v : String) (hv : ' ' ∉ v.toList) : readOther (Line.withdrawn n v).text = some (.withdrawn n v) := by
  have ht : (Line.withdrawn n v).text.toList = lead ["WITHDRAW:".toList, (toString n).toList, "mpDAO".toList, "transfer".toList, "to".toList] v.toList := by
    unfold Line.text
    simp only
    generalize toString n = dn
    simp only [String.toList_append, List.append_assoc]
    simp [-String.toList_append, lead]
  unfold readOther
  rw [ht, words_lead, words_one]
  · simp only [List.cons_append, List.nil_append]
    simp (decide := true) [number_digits]
  · exact hv
  · intro w hw
    simp only [List.mem_cons, List.not_mem_nil, or_false] at hw
    rcases hw with rfl | rfl | rfl | rfl | rfl
    · decide
    · exact digits_space _
    · decide
    · decide
    · decide

theorem read_failed_mpdao (n : Nat) (v : String) (hv : ' ' ∉ v.toList) : readOther (Line.failed_mpdao n v).text = some (.failed_mpdao n v) := by
  have ht : (Line.failed_mpdao n v).text.toList = lead ["FAILED:".toList, (toString n).toList, "mpDAO".toList, "not".toList, "transferred.".toList, "Recovering".toList, v.toList] "state.".toList := by
    unfold Line.text
    simp only
    generalize toString n = dn
    simp only [String.toList_append, List.append_assoc]
    simp [-String.toList_append, lead]
  unfold readOther
  rw [ht, words_lead, words_one]
  · simp only [List.cons_append, List.nil_append]
    simp (decide := true) [number_digits]
  · decide
  · intro w hw
    simp only [List.mem_cons, List.not_mem_nil, or_false] at hw
    rcases hw with rfl | rfl | rfl | rfl | rfl | rfl | rfl
    · decide
    · exact digits_space _
    · decide
    · decide
    · decide
    · decide
    · exact hv

theorem read_failed_stnear (n : Nat) (v : String) (hv : ' ' ∉ v.toList) : readOther (Line.failed_stnear n v).text = some (.failed_stnear n v) := by
  have ht : (Line.failed_stnear n v).text.toList = lead ["FAILED:".toList, (toString n).toList, "stNEAR".toList, "not".toList, "transferred.".toList, "Recovering".toList, v.toList] "state.".toList := by
    unfold Line.text
    simp only
    generalize toString n = dn
    simp only [String.toList_append, List.append_assoc]
    simp [-String.toList_append, lead]
  unfold readOther
  rw [ht, words_lead, words_one]
  · simp only [List.cons_append, List.nil_append]
    simp (decide := true) [number_digits]
  · decide
  · intro w hw
    simp only [List.mem_cons, List.not_mem_nil, or_false] at hw
    rcases hw with rfl | rfl | rfl | rfl | rfl | rfl | rfl
    · decide
    · exact digits_space _
    · decide
    · decide
    · decide
    · decide
    · exact hv

theorem read_withdrawn_stnear (v : String) (n : Nat) (hv : ' ' ∉ v.toList) : readOther (Line.withdrawn_stnear v n).text = some (.withdrawn_stnear v n) := by
  have ht : (Line.withdrawn_stnear v n).text.toList = lead [v.toList, "WITHDRAW".toList, (toString n).toList] "stNEAR".toList := by
    unfold Line.text
    simp only
    generalize toString n = dn
    simp only [String.toList_append, List.append_assoc]
    simp [-String.toList_append, lead]
  unfold readOther
  rw [ht, words_lead, words_one]
  · simp only [List.cons_append, List.nil_append]
    simp (decide := true) [number_digits]
  · decide
  · intro w hw
    simp only [List.mem_cons, List.not_mem_nil, or_false] at hw
    rcases hw with rfl | rfl | rfl
    · exact hv
    · decide
    · exact digits_space _

theorem readAll_text (l : Line) (h : l.plain) : readAll l.text = some l := by
  have ht : l.tidy := by cases l <;> first | exact h | trivial
  unfold readAll
  rw [read_text l ht]
  cases l with
  | gave v n o a => rfl
  | unvoted v o a => rfl
  | godspeed v => rfl
  | increased v n o a =>
    simp only [Line.news]
    rw [words_line (text_increased v o a n) _ h.2]
    · rfl
    · intro w hw
      simp only [List.mem_cons, List.not_mem_nil, or_false] at hw
      rcases hw with rfl | rfl | rfl | rfl | rfl | rfl | rfl | rfl
      · decide
      · exact h.1
      · decide
      · decide
      · exact digits_space _
      all_goals decide
  | decreased v n o a =>
    simp only [Line.news]
    rw [words_line (text_decreased v o a n) _ h.2]
    · exact if_neg (by simp)
    · intro w hw
      simp only [List.mem_cons, List.not_mem_nil, or_false] at hw
      rcases hw with rfl | rfl | rfl | rfl | rfl | rfl | rfl | rfl
      · decide
      · exact h.1
      · decide
      · decide
      · exact digits_space _
      all_goals decide
  | unlocked v i => exact read_unlocked v i h
  | partially_unlocked v i => exact read_partially_unlocked v i h
  | extended v i d => exact read_extended v i d h
  | relocked v i => exact read_relocked v i h
  | partially_relocked v i => exact read_partially_relocked v i h
  | relocked_balance v => exact read_relocked_balance v h
  | mirror p n u => exact read_mirror p n u
  | deposit n v => exact read_deposit n v h
  | withdrawn n v => exact read_withdrawn n v h
  | failed_mpdao n v => exact read_failed_mpdao n v h
  | failed_stnear n v => exact read_failed_stnear n v h
  | withdrawn_stnear v n => exact read_withdrawn_stnear v n h

end Verif.MetaVote
