import Verif.Spec.TokenEvents
import Verif.Token.Effects
import Verif.Props.Token

/-!
# C90: balances and supply of the token can be read from its log
-/

namespace Verif.Token

open Verif

variable {me : AccountId} {w : World} {s s' : State} {c : Ctx} {k : Call} {out : List Promise} {l : List Line}

theorem total_append (f : Line → Nat) (l l' : List Line) : total f (l ++ l') = total f l + total f l' := by
  simp [total]

/-- The lines of a step tell its effect. -/
def Told (s s' : State) (l : List Line) : Prop :=
  (∀ a, bal s' a + (total (·.takes a) l + total (·.closes a) l) = bal s a + total (·.gives a) l) ∧
  s'.total_supply + (total (·.destroyed) l + total (·.lost) l) = s.total_supply + total (·.made) l

theorem told_nil {s s' : State} (h : s'.accounts = s.accounts) (ht : s'.total_supply = s.total_supply) : Told s s' [] := by
  refine ⟨fun a => ?_, ?_⟩
  · simp [total, bal, h]
  · simp [total, ht]

theorem bal_of {s : State} {m : UMap AccountId Nat} (h : s.accounts = m) (a : AccountId) : bal s a = (m.get a).getD 0 := by
  rw [bal, h]

theorem told_moved {s s' : State} {p r : AccountId} {n b b' : Nat} (hne : p ≠ r) (hb : s.accounts.get p = some b) (h1 : n ≤ b)
    (hr : s.accounts.get r = some b') (ha : s'.accounts = (s.accounts.insert p (b - n)).insert r (b' + n))
    (ht : s'.total_supply = s.total_supply) : Told s s' [.transfer p r n] := by
  refine ⟨fun a => ?_, by simp [total, ht, Line.destroyed, Line.lost, Line.made]⟩
  rw [bal_of ha, UMap.get_insert, UMap.get_insert]
  simp only [total, List.map_cons, List.map_nil, List.sum_cons, List.sum_nil, Line.takes, Line.gives, Line.closes, bal]
  by_cases e1 : r = a
  · subst e1; simp [hne, hr]
  · by_cases e2 : p = a
    · subst e2; simp [e1, hb]; omega
    · simp [e1, e2]

theorem exec_told (h : exec s c k = .ok (s', out)) : Told s s' (s.lines c k) := by
  have h0 := h
  simp only [exec, bind_ok_iff, require_ok_iff] at h
  obtain ⟨-, -, -, -, h⟩ := h
  cases k <;> simp only [bind_ok_iff, pure_ok_iff, Prod.mk.injEq] at h
  case set_owner_id a =>
    obtain ⟨_, h, rfl, -⟩ := h
    simp only [State.set_owner_id, State.assert_owner_calling, bind_ok_iff, require_ok_iff, pure_ok_iff] at h
    obtain ⟨-, h, rfl⟩ := h
    exact told_nil rfl rfl
  case add_minter a =>
    obtain ⟨_, h, rfl, -⟩ := h
    simp only [State.add_minter, assert_one_yocto, State.assert_owner_calling, bind_ok_iff, require_ok_iff,
      pure_ok_iff] at h
    obtain ⟨-, h1, -, h2, -, h3, rfl⟩ := h
    exact told_nil rfl rfl
  case remove_minter a =>
    obtain ⟨_, h, rfl, -⟩ := h
    simp only [State.remove_minter, assert_one_yocto, State.assert_owner_calling, bind_ok_iff, require_ok_iff,
      pure_ok_iff] at h
    obtain ⟨-, h1, -, h2, -, h3, rfl⟩ := h
    exact told_nil rfl rfl
  case assert_minter a =>
    obtain ⟨_, h, rfl, -⟩ := h
    exact told_nil rfl rfl
  case ft_mint n =>
    obtain ⟨_, h, rfl, -⟩ := h
    simp only [State.ft_mint, assert_one_yocto, State.assert_minter, State.internal_deposit,
      State.internal_unwrap_balance_of, bind_ok_iff, require_ok_iff, expect_ok_iff, addU128_ok_iff, pure_ok_iff] at h
    obtain ⟨-, h1, -, h2, b, hb, _, ⟨h3, rfl⟩, _, ⟨h4, rfl⟩, rfl⟩ := h
    refine ⟨fun a => ?_, by simp [State.lines, total, Line.destroyed, Line.lost, Line.made]⟩
    rw [bal_of rfl, UMap.get_insert]
    simp only [State.lines, total, List.map_cons, List.map_nil, List.sum_cons, List.sum_nil, Line.takes, Line.gives,
      Line.closes, bal]
    by_cases e : c.predecessor = a
    · subst e; simp [hb]
    · simp [e]
  case ft_burn n =>
    obtain ⟨_, h, rfl, -⟩ := h
    simp only [State.ft_burn, assert_one_yocto, State.internal_withdraw,
      State.internal_unwrap_balance_of, bind_ok_iff, require_ok_iff, expect_ok_iff, subU_ok_iff, pure_ok_iff] at h
    obtain ⟨-, h1, b, hb, _, ⟨h3, rfl⟩, _, ⟨h4, rfl⟩, rfl⟩ := h
    refine ⟨fun a => ?_, by simp [State.lines, total, Line.destroyed, Line.lost, Line.made]; omega⟩
    rw [bal_of rfl, UMap.get_insert]
    simp only [State.lines, total, List.map_cons, List.map_nil, List.sum_cons, List.sum_nil, Line.takes, Line.gives,
      Line.closes, bal]
    by_cases e : c.predecessor = a
    · subst e; simp [hb]; omega
    · simp [e]
  case ft_transfer r n =>
    obtain ⟨_, h, rfl, -⟩ := h
    obtain ⟨-, h1, h2, b, b', h3, h4, h5, h6, h7, -, rfl⟩ := transfer_ok.1 h
    exact told_moved h1 h3 h4 h6 rfl rfl
  case ft_transfer_call r n m =>
    obtain ⟨_, h, rfl, -⟩ := h
    obtain ⟨-, h1, h2, b, b', h3, h4, h5, h6, h7, -, rfl⟩ := transfer_ok.1 h
    exact told_moved h1 h3 h4 h6 rfl rfl
  case ft_resolve_transfer a r n =>
    simp only [require_ok_iff] at h
    obtain ⟨-, hpr, x, h, rfl, -⟩ := h
    simp only [State.internal_ft_resolve_transfer] at h
    simp only [State.lines, State.resolveLines]
    split at h
    · rename_i hpos
      rw [if_pos hpos]
      generalize hR : min ((s.accounts.get r).getD 0) (min n (c.result.getD n)) = R at h ⊢
      have hle : R ≤ (s.accounts.get r).getD 0 := by omega
      have hR0 : 0 < R := by omega
      simp only [bind_ok_iff, subU_ok_iff] at h
      obtain ⟨_, ⟨-, rfl⟩, h⟩ := h
      split at h
      · rename_i b hb
        simp only [bind_ok_iff, addU128_ok_iff, subU_ok_iff, pure_ok_iff] at h
        obtain ⟨_, ⟨h1, rfl⟩, _, -, rfl⟩ := h
        simp only [hb]
        refine ⟨fun i => ?_, by simp [total, Line.destroyed, Line.lost, Line.made]⟩
        rw [bal_of rfl]
        simp only [UMap.get_insert, total, List.map_cons, List.map_nil, List.sum_cons, List.sum_nil, Line.takes, Line.gives,
          Line.closes, bal] at hb ⊢
        by_cases e1 : a = i
        · subst e1
          by_cases e2 : r = a
          · subst e2; simp at hb ⊢; omega
          · simp [e2] at hb ⊢; simp [hb]
        · by_cases e2 : r = i
          · subst e2; simp [e1]; omega
          · simp [e1, e2]
      · rename_i hb
        simp only [bind_ok_iff, subU_ok_iff, pure_ok_iff] at h
        obtain ⟨_, ⟨h1, rfl⟩, rfl⟩ := h
        simp only [hb, if_pos hR0]
        refine ⟨fun i => ?_, by simp [total, Line.destroyed, Line.lost, Line.made]; omega⟩
        rw [bal_of rfl]
        simp only [UMap.get_insert, total, List.map_cons, List.map_nil, List.sum_cons, List.sum_nil, Line.takes, Line.gives,
          Line.closes, bal, List.cons_append, List.nil_append]
        by_cases e2 : r = i
        · subst e2; simp; omega
        · simp [e2]
    · rename_i hpos
      rw [if_neg hpos]
      simp only [pure_ok_iff] at h
      rw [← h]; exact told_nil rfl rfl
  case storage_deposit a o =>
    obtain ⟨x, h, rfl, -⟩ := h
    simp only [State.storage_deposit] at h
    split at h
    · rename_i hb
      simp only [pure_ok_iff] at h; rw [← h]
      simp only [State.lines, hb]
      exact told_nil rfl rfl
    · rename_i hn
      simp only [State.internal_register_account, bind_ok_iff, require_ok_iff, pure_ok_iff] at h
      obtain ⟨-, h1, _, ⟨-, -, rfl⟩, rfl⟩ := h
      refine ⟨fun i => ?_, by simp only [State.lines, hn]; rfl⟩
      rw [bal_of rfl, UMap.get_insert]
      simp only [State.lines, hn, total, List.map_nil, List.sum_nil, bal, Nat.add_zero]
      by_cases e : a.getD c.predecessor = i
      · subst e; simp [hn]
      · simp [e]
  case storage_withdraw a =>
    obtain ⟨_, h, rfl, -⟩ := h
    simp only [State.storage_withdraw, assert_one_yocto, bind_ok_iff, require_ok_iff, pure_ok_iff] at h
    obtain ⟨-, -, -, -, -, -, rfl⟩ := h
    exact told_nil rfl rfl
  case storage_unregister f =>
    obtain ⟨x, h, rfl, -⟩ := h
    simp only [State.internal_storage_unregister, assert_one_yocto, bind_ok_iff, require_ok_iff] at h
    obtain ⟨-, -, h⟩ := h
    simp only [State.lines]
    split at h
    · rename_i b hb
      split at h
      · rename_i h0
        simp only [bind_ok_iff, subU_ok_iff, pure_ok_iff] at h
        obtain ⟨_, ⟨h1, rfl⟩, rfl⟩ := h
        simp only [hb]
        refine ⟨fun i => ?_, by simp [total, Line.destroyed, Line.lost, Line.made]; omega⟩
        rw [bal_of rfl, UMap.get_remove]
        simp only [total, List.map_cons, List.map_nil, List.sum_cons, List.sum_nil, Line.takes, Line.gives, Line.closes, bal]
        by_cases e : c.predecessor = i
        · subst e; simp [hb]
        · simp [e]
      · simp at h
    · rename_i hb
      simp only [pure_ok_iff] at h; rw [← h, hb]; exact told_nil rfl rfl

/-- **C90**: in every history, what the lines give to an account is what they take from it, what was in it when it was closed, and
its balance; and likewise for the supply. -/
theorem C90_lines (h : Writes me w l) :
    (∀ a, w.st.ft_balance_of a + (total (·.takes a) l + total (·.closes a) l) = total (·.gives a) l) ∧
    w.st.ft_total_supply + (total (·.destroyed) l + total (·.lost) l) = total (·.made) l := by
  have join : ∀ {s s' : State} {l l' : List Line}, ((∀ a, bal s a + (total (·.takes a) l + total (·.closes a) l) = total (·.gives a) l) ∧
      s.total_supply + (total (·.destroyed) l + total (·.lost) l) = total (·.made) l) → Told s s' l' →
      ((∀ a, bal s' a + (total (·.takes a) (l ++ l') + total (·.closes a) (l ++ l')) = total (·.gives a) (l ++ l')) ∧
      s'.total_supply + (total (·.destroyed) (l ++ l') + total (·.lost) (l ++ l')) = total (·.made) (l ++ l')) := by
    intro s s' l l' h1 h2
    simp only [total_append]
    refine ⟨fun a => ?_, ?_⟩
    · have := h1.1 a
      have := h2.1 a
      omega
    · have := h1.2
      have := h2.2
      omega
  change (∀ a, bal w.st a + _ = _) ∧ _
  induction h with
  | init cost owner supply s hs h =>
    simp only [new, State.internal_register_account, State.internal_deposit, State.internal_unwrap_balance_of, bind_ok_iff,
      require_ok_iff, expect_ok_iff, addU128_ok_iff, pure_ok_iff] at h
    obtain ⟨-, -, -, -, _, ⟨-, -, rfl⟩, b, hb, _, ⟨-, rfl⟩, _, ⟨-, rfl⟩, rfl⟩ := h
    simp only [UMap.get_insert, if_true, Option.some.injEq] at hb
    subst hb
    refine ⟨fun a => ?_, by simp [newLines, total, Line.destroyed, Line.lost, Line.made, State.ft_total_supply]⟩
    rw [bal_of rfl]
    simp only [UMap.get_insert, newLines, total, List.map_cons, List.map_nil, List.sum_cons, List.sum_nil, Line.takes, Line.gives,
      Line.closes]
    by_cases e : owner = a <;> simp [e]
  | call hw c k s' out hme hpr h ih => exact join ih (exec_told h)
  | @resolve w l hw pre post p r hp ih =>
    refine join ih ?_
    show Told _ ((exec w.st ⟨me, me, 0, r⟩ (.ft_resolve_transfer p.sender p.receiver p.amount)).getOr (w.st, [])).1 _
    cases he : exec w.st ⟨me, me, 0, r⟩ (.ft_resolve_transfer p.sender p.receiver p.amount) with
    | error e => exact told_nil rfl rfl
    | ok x => exact exec_told (s' := x.1) (out := x.2) he

/-- Every execution writes something, and what is written belongs to an execution. -/
theorem C90_exists : Reach me w ↔ ∃ l, Writes me w l := by
  constructor
  · intro h
    induction h with
    | init h =>
      cases h with
      | mk cost owner supply s hs h => exact ⟨_, .init cost owner supply s hs h⟩
    | step h hs ih =>
      obtain ⟨l, hl⟩ := ih
      cases hs with
      | call c k s' out hme hpr h => exact ⟨_, .call hl c k s' out hme hpr h⟩
      | resolve pre post p r hp => exact ⟨_, .resolve hl pre post p r hp⟩
  · rintro ⟨l, h⟩
    induction h with
    | init cost owner supply s hs h => exact .init (.mk cost owner supply s hs h)
    | call hw c k s' out hme hpr h ih => exact .step ih (.call _ c k s' out hme hpr h)
    | resolve hw pre post p r hp ih => exact .step ih (.resolve _ pre post p r hp)

/-- **C90** (partial): the events of the standard alone tell every balance and the supply, as long as no account with a
balance was closed. -/
theorem C90_events_partial (h : Writes me w l) (hc : ∀ a n, .closed a n ∈ l → n = 0) :
    (∀ a, w.st.ft_balance_of a + total (·.takes a) l = total (·.gives a) l) ∧
    w.st.ft_total_supply + total (·.destroyed) l = total (·.made) l := by
  have hz : ∀ f : Line → Nat, (∀ x ∈ l, f x = 0) → total f l = 0 := by
    intro f hf
    exact List.sum_eq_zero_iff_forall_eq_nat.2 fun n hn => by
      obtain ⟨x, hx, rfl⟩ := List.mem_map.1 hn
      exact hf x hx
  obtain ⟨h1, h2⟩ := C90_lines h
  have hl : total (·.lost) l = 0 := hz _ fun x hx => by
    cases x <;> first | rfl | exact hc _ _ hx
  refine ⟨fun a => ?_, by omega⟩
  have := h1 a
  have : total (·.closes a) l = 0 := hz _ fun x hx => by
    cases x <;> first | rfl | (simp only [Line.closes]; rw [hc _ _ hx]; exact ite_self 0)
  omega

/-- **C90**: the lines of an accepted call tell its effect on every balance and on the supply. -/
theorem C90_call (h : exec s c k = .ok (s', out)) :
    (∀ a, s'.ft_balance_of a + (total (·.takes a) (s.lines c k) + total (·.closes a) (s.lines c k)) =
      s.ft_balance_of a + total (·.gives a) (s.lines c k)) ∧
    s'.ft_total_supply + (total (·.destroyed) (s.lines c k) + total (·.lost) (s.lines c k)) =
      s.ft_total_supply + total (·.made) (s.lines c k) := exec_told h

/-! ## An execution -/

/-- `runs` with the lines written. -/
def runsL (me : AccountId) (w : World) (l : List Line) : List ((Ctx × Call) ⊕ Option Nat) → Option (World × List Line)
  | [] => some (w, l)
  | .inl (c, k) :: t => if c.current = me ∧ c.predecessor ≠ me then
      match exec w.st c k with
      | .ok r => runsL me ⟨r.1, w.pending ++ notified r.2⟩ (l ++ w.st.lines c k) t
      | .error _ => none
    else none
  | .inr r :: t => match w.pending with
    | [] => none
    | p :: post => runsL me ⟨((exec w.st ⟨me, me, 0, r⟩
        (.ft_resolve_transfer p.sender p.receiver p.amount)).getOr (w.st, [])).1, post⟩
        (l ++ if Res.isOk (exec w.st ⟨me, me, 0, r⟩ (.ft_resolve_transfer p.sender p.receiver p.amount)) then
          w.st.lines ⟨me, me, 0, r⟩ (.ft_resolve_transfer p.sender p.receiver p.amount) else []) t

theorem writes_of_runs {t : List ((Ctx × Call) ⊕ Option Nat)} : ∀ {w : World} {l : List Line} {x : World × List Line},
    Writes me w l → runsL me w l t = some x → Writes me x.1 x.2 := by
  induction t with
  | nil => intro w l x h hr; cases hr; exact h
  | cons y t ih =>
    intro w l x h hr
    rcases y with ⟨c, k⟩ | r
    · simp only [runsL] at hr
      split at hr
      · rename_i hc
        split at hr
        · rename_i y he
          exact ih (.call h c k y.1 y.2 hc.1 hc.2 he) hr
        · simp at hr
      · simp at hr
    · simp only [runsL] at hr
      split at hr
      · simp at hr
      · rename_i p post hp
        exact ih (.resolve h [] post p r hp) hr

theorem start_writes : Writes me start [.mint "alice" 1000] := .init 5 "alice" 1000 _ (by decide) (by rfl)

/-- As `demo`, with both transfer-calls settled. -/
def demoL : World × List Line := (runsL "tok" start [.mint "alice" 1000]
  [.inl (⟨"tok", "bob", 5, none⟩, .storage_deposit none none), .inl (⟨"tok", "bob", 9, none⟩, .storage_deposit (some "dex") none),
   .inl (⟨"tok", "alice", 1, none⟩, .add_minter "bob"), .inl (⟨"tok", "bob", 1, none⟩, .ft_mint 50),
   .inl (⟨"tok", "alice", 1, none⟩, .ft_transfer_call "dex" 100 []), .inr (some 30),
   .inl (⟨"tok", "dex", 1, none⟩, .ft_burn 20), .inl (⟨"tok", "bob", 1, none⟩, .ft_transfer_call "dex" 40 []),
   .inl (⟨"tok", "alice", 1, none⟩, .ft_transfer_call "dex" 10 []),
   .inl (⟨"tok", "bob", 1, none⟩, .storage_unregister (some true)), .inr (some 15), .inr none]).get (by decide +kernel)

theorem demoL_writes : Writes "tok" demoL.1 demoL.2 := writes_of_runs start_writes (Option.some_get _).symm

theorem demoL_lines : demoL.2 = [.mint "alice" 1000, .mint "bob" 50, .transfer "alice" "dex" 100, .transfer "dex" "alice" 30,
    .burn "dex" 20, .transfer "bob" "dex" 40, .transfer "alice" "dex" 10, .closed "bob" 10, .deleted, .burn "dex" 15,
    .burned "bob" 15, .transfer "dex" "alice" 10] := by
  decide +kernel

/-- The hypotheses of `C90_lines` and `C90_call`. -/
example : Writes "tok" demoL.1 demoL.2 ∧ demoL.1.st.ft_balance_of "alice" = 930 ∧ demoL.1.st.ft_balance_of "dex" = 75 ∧
    demoL.1.st.ft_total_supply = 1005 ∧ Reach "tok" demoL.1 :=
  ⟨demoL_writes, by decide +kernel, by decide +kernel, by decide +kernel, C90_exists.2 ⟨_, demoL_writes⟩⟩

/-- Without the forced closing, those of `C90_events_partial`. -/
example : ∃ w l, Writes "tok" w l ∧ (∀ a n, Line.closed a n ∈ l → n = 0) ∧ .closed "bob" 0 ∈ l ∧ .burn "dex" 15 ∈ l := by
  have h : (runsL "tok" start [.mint "alice" 1000]
    [.inl (⟨"tok", "bob", 5, none⟩, .storage_deposit none none), .inl (⟨"tok", "bob", 9, none⟩, .storage_deposit (some "dex") none),
     .inl (⟨"tok", "alice", 1, none⟩, .ft_transfer "bob" 40), .inl (⟨"tok", "bob", 1, none⟩, .ft_transfer_call "dex" 40 []),
     .inl (⟨"tok", "bob", 1, none⟩, .storage_unregister none), .inr (some 15)]).map (·.2) =
     some [.mint "alice" 1000, .transfer "alice" "bob" 40, .transfer "bob" "dex" 40, .closed "bob" 0, .deleted, .burn "dex" 15,
       .burned "bob" 15] := by decide +kernel
  obtain ⟨x, hx, hl⟩ := Option.map_eq_some_iff.1 h
  refine ⟨x.1, x.2, writes_of_runs start_writes hx, ?_, ?_, ?_⟩
  · rw [hl]; intro a n hm; simp at hm; exact hm.2
  · rw [hl]; decide
  · rw [hl]; decide

/-- **C90** (negation): the events of the standard alone do not tell the supply, nor the balances: closing an account by force
destroys its balance with no `FtBurn`. -/
theorem C90_false : ∃ w l a, Writes "tok" w l ∧ w.st.ft_balance_of a + total (·.takes a) l ≠ total (·.gives a) l ∧
    w.st.ft_total_supply + total (·.destroyed) l ≠ total (·.made) l :=
  ⟨demoL.1, demoL.2, "bob", demoL_writes, by decide +kernel, by decide +kernel⟩

end Verif.Token
