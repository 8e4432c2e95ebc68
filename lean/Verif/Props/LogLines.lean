import Verif.Props.Logs
import Verif.Props.Accepted

/-!
# C84: every line of the log is true, and none is missing
-/

namespace Verif.MetaVote

open Verif

variable {J : Json} {s s' : State} {c : Ctx} {k : Call} {out : List Transfer} {me : AccountId}

theorem acct_congr {b b' : Book} (h : b'.voter = b.voter) (v : String) : b'.acct v = b.acct v := by
  unfold Book.acct; rw [h]

theorem lock_acct (b : Book) (id : String) (r : Voter) (a d : Nat) :
    ((b.lock id r a d).acct id).locking_positions = lockOn a d r.locking_positions ∧
      ((b.lock id r a d).acct id).balance = r.balance := by
  unfold Book.lock
  rw [acct_put, if_pos rfl]
  exact ⟨rfl, rfl⟩

theorem internal_withdraw_knows {id : String} {l : List Nat} {o : Option Nat} {r : State × Transfer}
    (h : s.internal_withdraw c id l o = .ok r) : s.book.voter id ≠ none := by
  obtain ⟨v, v2, hv, -⟩ := internal_withdraw_ok (s' := r.1) (t := r.2) h
  show s.voters.get id ≠ none
  rw [hv]; simp

theorem pay_lines {b b' : Book} {id : String} {now : Nat} {l : List Nat} {a : Nat} {L : List Line}
    (hL : L = if ((b.acct id).clearedAt now l).balance = b.withdrawn id now l a ∧
      ((b.acct id).clearedAt now l).locking_positions = [] then [Line.godspeed id] else [])
    (hv : b'.voter = (b.pay id now l a).voter) (hk : b.voter id ≠ none) :
    (∀ x ∈ L, x.holds now b b') ∧ ∀ P : Prop, P → L.length = if decide (b'.voter id = none) then 1 else 0 := by
  unfold Book.pay at hv
  by_cases hz : ((b.acct id).clearedAt now l).balance = b.withdrawn id now l a ∧
      ((b.acct id).clearedAt now l).locking_positions = []
  · rw [if_pos hz] at hv hL
    have : b'.voter id = none := by rw [hv]; simp [Book.erase, upd]
    subst hL
    refine ⟨?_, fun _ _ => by simp [this]⟩
    simp only [List.mem_singleton, forall_eq, Line.holds]
    exact ⟨hk, this⟩
  · rw [if_neg hz] at hv hL
    have : b'.voter id ≠ none := by rw [hv]; simp [Book.put, upd]
    subst hL
    exact ⟨by simp, fun _ _ => by simp [this]⟩

theorem head_false {l : List Bool} (h : l ≠ []) (ht : ¬ l.head? = some true) : l.head? = some false := by
  cases l with
  | nil => exact absurd rfl h
  | cons b l => cases b <;> simp_all

/-- **C84**: every line that an accepted call writes is true of the state before and after it, and no line is missing:
calls that unlock, extend, re-lock, vote or settle a payment write one line, a deposit writes one line, a withdrawal
writes one if and only if the record of the caller is deleted, and all others but mirroring write none. -/
theorem C84_lines {w : World} (h : Reach J me w) (hx : exec J w.st c k = .ok (s', out)) :
    (∀ l ∈ w.st.lines J c k, l.holds c.now w.st.book s'.book) ∧
    ((∀ e l, k ≠ .operator_mirror_lps e l) →
      (w.st.lines J c k).length = k.lineCount (decide (s'.book.voter c.predecessor = none))) := by
  have hm := (C76_accepted h).1 ⟨_, hx⟩
  have hb := (C82_call hx).1
  have hv : s'.book.voter = (w.st.book.change J c k).voter := by rw [hb]; rfl
  have hacct := acct_congr hv
  obtain ⟨-, -, -, hr⟩ := exec_ok.1 hx
  cases k <;> simp only [run, quiet_ok, sends_ok] at hr
  case new_ => simp [new] at hr
  case migrate => simp [migrate, expect, bind_ok_iff] at hr
  case unlock_position i =>
    obtain ⟨-, p, hp, -⟩ := hm
    refine ⟨?_, fun _ => rfl⟩
    simp only [State.lines, List.mem_singleton, forall_eq, Line.holds]
    refine ⟨p, hp, ?_⟩
    rw [hacct]
    have : w.st.book.position c i = some p := hp
    simp only [Book.change, this, Book.unlock]
    rw [acct_put, if_pos rfl]
  case unlock_partial_position i a =>
    obtain ⟨-, -, p, hp, hm⟩ := hm
    have hp' : w.st.book.position c i = some p := hp
    have hp2 : (w.st.internal_get_voter c.predecessor).locking_positions[i]? = some p := by
      rw [internal_get_voter_eq]; exact hp
    have hl : w.st.lines J c (.unlock_partial_position i a) = if a = p.amount then [.unlocked c.predecessor i]
        else [.partially_unlocked c.predecessor i] := by
      simp only [State.lines, State.unlock_partial_lines, hp2]
    rw [hl]
    by_cases ha : a = p.amount
    · rw [if_pos ha]
      refine ⟨?_, fun _ => rfl⟩
      simp only [List.mem_singleton, forall_eq, Line.holds]
      refine ⟨p, hp, ?_⟩
      rw [hacct]
      simp only [Book.change, hp', if_pos ha, Book.unlock]
      rw [acct_put, if_pos rfl]
    · rw [if_neg ha]
      refine ⟨?_, fun _ => rfl⟩
      simp only [List.mem_singleton, forall_eq, Line.holds]
      refine ⟨p, a, hp, by omega, ?_⟩
      rw [hacct]
      simp only [Book.change, hp', if_neg ha, Book.split]
      rw [acct_put, if_pos rfl]
  case locking_position_extend_days i d =>
    obtain ⟨-, p, hp, -, hd, -⟩ := hm
    have hp' : w.st.book.position c i = some p := hp
    refine ⟨?_, fun _ => rfl⟩
    simp only [State.lines, List.mem_singleton, forall_eq, Line.holds]
    refine ⟨p, hp, hd.le, ?_⟩
    rw [hacct]
    simp only [Book.change, hp', Book.extend]
    rw [acct_put, if_pos rfl]
  case relock_position i d x =>
    obtain ⟨-, hbal, p, t, hp, ht, -⟩ := hm
    have hp' : w.st.book.position c i = some p := hp
    refine ⟨?_, fun _ => rfl⟩
    simp only [State.lines, List.mem_singleton, forall_eq, Line.holds]
    refine ⟨p, d, x, hp, by simp [ht], hbal, ?_⟩
    rw [hacct]
    simp only [Book.change, hp']
    exact ⟨(lock_acct _ _ _ _ _).2, (lock_acct _ _ _ _ _).1⟩
  case relock_partial_position i a d x =>
    obtain ⟨-, hbal, -, p, t, hp, ht, ha, hm⟩ := hm
    refine ⟨?_, fun _ => rfl⟩
    simp only [State.lines, List.mem_singleton, forall_eq, Line.holds]
    refine ⟨p, a, d, x, hp, by simp [ht], ha, hbal, ?_⟩
    rw [hacct]
    have : w.st.book.position c i = some p := hp
    simp only [Book.change, this]
    split
    · rw [(lock_acct _ _ _ _ _).1]; simp
    · rw [(lock_acct _ _ _ _ _).1]; simp
  case relock_from_balance d x =>
    obtain ⟨-, -, hbal, -⟩ := hm
    refine ⟨?_, fun _ => rfl⟩
    simp only [State.lines, List.mem_singleton, forall_eq, Line.holds]
    refine ⟨d, x, hbal, ?_⟩
    rw [hacct]
    exact ⟨(lock_acct _ _ _ _ _).2, (lock_acct _ _ _ _ _).1⟩
  case withdraw l a =>
    obtain ⟨t, hr, rfl⟩ := hr
    obtain ⟨h1, h2⟩ := pay_lines (withdraw_lines_eq hr) (by rw [hv]; rfl) (internal_withdraw_knows hr)
    exact ⟨h1, h2 _⟩
  case withdraw_all =>
    obtain ⟨t, ht, rfl⟩ := hr
    obtain ⟨v, hv0, ht⟩ := withdraw_all_ok ht
    rw [← voterD_of_get hv0] at ht
    have hl : w.st.lines J c .withdraw_all = w.st.withdraw_lines c c.predecessor
        ((w.st.voterD c.predecessor).get_unlocked_position_indexes c.now) (if 0 = 0 then none else some 0) := by
      simp only [State.lines, internal_get_voter_eq, if_true]
    obtain ⟨h1, h2⟩ := pay_lines (withdraw_lines_eq (a := 0) ht) (by rw [hv, indexes_matured]; rfl)
      (internal_withdraw_knows ht)
    rw [hl]
    exact ⟨h1, h2 _⟩
  case after_transfer_mpdao_callback v a =>
    refine ⟨?_, fun _ => ?_⟩
    · simp only [State.lines]
      split <;> simp only [List.mem_singleton, forall_eq, Line.holds]
      · rename_i ht
        rw [hb]
        simp only [Book.after, Book.change, ht, Option.some.injEq, Bool.true_eq_false, if_false]
        rfl
      · rename_i ht
        rw [hacct]
        simp only [Book.change, if_pos (head_false hm.2.2.2.1 ht)]
        rw [acct_put, if_pos rfl]
    · simp only [State.lines]; split <;> rfl
  case after_transfer_stnear_callback v a =>
    refine ⟨?_, fun _ => ?_⟩
    · simp only [State.lines]
      split <;> simp only [List.mem_singleton, forall_eq, Line.holds]
      · rename_i ht
        rw [hb]
        simp only [Book.after, Book.change, ht, Option.some.injEq, Bool.true_eq_false, if_false]
        rfl
      · rename_i ht
        rw [hb]
        simp only [Book.after, Book.change, if_pos (head_false hm.2.2.2.1 ht), upd, if_true]
    · simp only [State.lines]; split <;> rfl
  case ft_on_transfer se a m =>
    by_cases hf : forClaims m
    · have hl : w.st.lines J c (.ft_on_transfer se a m) = [] := by
        simp only [State.lines, State.on_transfer_lines]
        split
        · rename_i hp; exact absurd hf (has_prefix_false hp)
        · rfl
      rw [hl]
      exact ⟨by simp, fun _ => by simp [Call.lineCount, hf]⟩
    · have hd := C84_deposits hf hx
      obtain ⟨-, -, rfl, hf'⟩ := ft_call_ok hx
      rcases ft_on_transfer_ok hf' with ⟨info, hp, -⟩ | ⟨t, v', hp, -, ht, -, -⟩
      · exact absurd (has_prefix_true hp) hf
      · have hl : w.st.lines J c (.ft_on_transfer se a m) = [.deposit a t.1] := by
          simp only [State.lines, State.on_transfer_lines, hp, ht]
        rw [hl] at hd ⊢
        refine ⟨?_, fun _ => by simp [Call.lineCount, hf]⟩
        simp only [List.mem_singleton, forall_eq, Line.holds]
        have := hd t.1
        rw [book_acct, book_acct]
        simpa [depositLines] using this
  case operator_mirror_lps e l =>
    refine ⟨fun x hx' => ?_, fun hn => absurd rfl (hn e l)⟩
    rw [C84_mirror hx] at hx'
    simp only [List.mem_cons, List.mem_map] at hx'
    rcases hx' with rfl | ⟨y, -, rfl⟩ <;> trivial
  case rebalance n a o =>
    constructor
    · intro l hl
      simp only [State.lines, State.rebalance_lines] at hl
      split at hl
      · rw [List.mem_singleton.1 hl]; trivial
      · split at hl <;> (rw [List.mem_singleton.1 hl]; trivial)
    · intro _
      simp only [State.lines, State.rebalance_lines]
      split
      · rfl
      · split <;> rfl
  all_goals exact ⟨by simp [State.lines, Line.holds], fun _ => rfl⟩

/-- Alice unlocks a part, in the demo world. -/
example : Reach demoJ "me" demo ∧ ∃ s' out, exec demoJ demo.st ⟨"me", "alice", 0, 12000, []⟩
    (.unlock_partial_position 0 20000000) = .ok (s', out) ∧
    demo.st.lines demoJ ⟨"me", "alice", 0, 12000, []⟩ (.unlock_partial_position 0 20000000) =
      [.partially_unlocked "alice" 0] := by
  refine ⟨demo_reach, ?_⟩
  obtain ⟨⟨s', out⟩, h⟩ : ∃ r, exec demoJ demo.st ⟨"me", "alice", 0, 12000, []⟩ (.unlock_partial_position 0 20000000)
    = .ok r := Res.isOk_iff.1 (by decide +kernel)
  exact ⟨s', out, h, by decide +kernel⟩

end Verif.MetaVote
