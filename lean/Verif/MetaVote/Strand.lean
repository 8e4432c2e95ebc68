import Verif.MetaVote.Ledger

/-!
# Failed transfers are always given back, and tokens of the transfers
-/

namespace Verif.MetaVote

open Verif

theorem heldN_le (s : State) (id : String) : heldN s id ≤ heldSum s := by
  unfold heldN State.voterD heldSum
  cases hv : s.voters.get id with
  | none => simp [Voter.held, Voter.inPositions, posSum]
  | some v =>
    have := UMap.le_sum_of_get (f := fun id v => if mirrored id then 0 else v.held) hv
    simpa using this

/-- The callback of a failed mpDAO transfer succeeds when the sum fits. -/
theorem callback_mp_succeeds {J : Json} {s : State} {me : AccountId} {ts a : Nat} {id : String}
    (ha : (s.voterD id).balance + a ≤ U128_MAX) :
    ∃ s', exec J s ⟨me, me, 0, ts, [false]⟩ (.after_transfer_mpdao_callback id a) = .ok (s', []) := by
  have h : ∃ s', s.after_transfer_mpdao_callback ⟨me, me, 0, ts, [false]⟩ id a = .ok s' := by
    simp only [State.after_transfer_mpdao_callback, List.head?_cons, bind_ok_iff, expect_ok_iff,
      Option.some.injEq, exists_eq_left', Bool.false_eq_true, if_false, State.restore_transfer_to_mpdao,
      addU128_ok_iff, pure_ok_iff]
    exact ⟨_, _, ⟨ha, rfl⟩, rfl⟩
  obtain ⟨s', hs'⟩ := h
  exact ⟨s', exec_ok.2 ⟨.inr rfl, fun _ => rfl, by simp only [Call.in_range, decide_eq_true_eq]; omega, by
    simp only [run, quiet_ok]; exact ⟨hs', trivial⟩⟩⟩

theorem callback_st_succeeds {J : Json} {s : State} {me : AccountId} {ts a : Nat} {id : String}
    (hc : CInv s) (hp : 0 < a) (ha : s.total_unclaimed_stnear + a ≤ U128_MAX) :
    ∃ s', exec J s ⟨me, me, 0, ts, [false]⟩ (.after_transfer_stnear_callback id a) = .ok (s', []) := by
  have hle := claimOf_le_sum s.claimable_stnear id
  rw [← hc.stnear] at hle
  unfold claimOf at hle
  have h : ∃ s', s.after_transfer_stnear_callback ⟨me, me, 0, ts, [false]⟩ id a = .ok s' := by
    simp only [State.after_transfer_stnear_callback, List.head?_cons, bind_ok_iff, expect_ok_iff,
      Option.some.injEq, exists_eq_left', Bool.false_eq_true, if_false, State.add_claimable_stnear, add_claimable,
      addU128_ok_iff, require_ok_iff, pure_ok_iff]
    exact ⟨_, (), hp, _, ⟨_, ⟨by omega, rfl⟩, _, ⟨ha, rfl⟩, rfl⟩, rfl⟩
  obtain ⟨s', hs'⟩ := h
  exact ⟨s', exec_ok.2 ⟨.inr rfl, fun _ => rfl, by simp only [Call.in_range, decide_eq_true_eq]; omega, by
    simp only [run, quiet_ok]; exact ⟨hs', trivial⟩⟩⟩

/-- As long as the net receipts of mpDAO fit a `u128`, every failed transfer is given back. -/
theorem lreach_stranded_mp {J : Json} {me : AccountId} {w : World} (h : LReach J me w)
    (hb : netFits J w.st.mpdao_token_contract_address w.log) : logStranded (·.isMpdao) w.log = 0 := by
  induction h with
  | init h =>
    cases h with
    | mk o op a b d l v m st r p ts s hr hts hn => rfl
  | @step w w' h hs ih =>
    have hl := lreach_ledger h
    cases hs with
    | call c k s' out hme hres hm hclock hu64 hran =>
      have hmp := hran.max.2.2.2
      simp only [hmp] at hb
      simp only [logStranded_call]
      exact ih (fun l hl => hb l (hl.trans (List.suffix_cons _ _)))
    | resolve pre post t ok ts hpend hclock hu64 =>
      have ht := hl.pending t (by rw [hpend]; simp)
      have hmp : ∀ (s : State) (x : Res (State × List Transfer)),
          (∀ s' o, x = .ok (s', o) → s'.mpdao_token_contract_address = s.mpdao_token_contract_address) →
          (x.getOr (s, [])).1.mpdao_token_contract_address = s.mpdao_token_contract_address := by
        intro s x hx
        cases x with
        | error e => rfl
        | ok r => exact hx r.1 r.2 rfl
      rw [hmp _ _ (fun s' o hx => (exec_max hx).2.2.2)] at hb
      replace hb : ∀ l, l <:+ w.log → _ := fun l hl => hb l (hl.trans (List.suffix_cons _ _))
      have h0 := ih hb
      replace hb := hb _ (List.suffix_refl _)
      simp only [logStranded_resolved, h0]
      split
      · rename_i hc
        obtain ⟨rfl, hr, hf⟩ := hc
        exfalso
        obtain ⟨-, hcb, hm⟩ := ht.mpdao hf
        have hA := hl.mpAll
        have hN := heldN_le w.st t.receiver
        rw [hpend, amounts_append, amounts_cons, if_pos hf] at hA
        simp only [heldN, hm, if_false] at hN
        obtain ⟨s', hs'⟩ := callback_mp_succeeds (J := J) (me := me) (ts := ts) (id := t.receiver)
          (a := t.amount) (s := w.st) (by
            have : ∀ v : Voter, v.balance ≤ v.held := fun v => by unfold Voter.held; omega
            refine le_trans (Nat.add_le_add_right ((this _).trans hN) _) ?_
            omega)
        unfold Transfer.callbackCall at hr
        rw [hcb] at hr
        simp only [hs', Res.isOk] at hr
        simp at hr
      · rfl
    | tick ts hclock hu64 => exact ih hb

/-- As long as the net receipts of stNEAR fit a `u128`, every failed transfer is given back. -/
theorem lreach_stranded_st {J : Json} {me : AccountId} {w : World} (h : LReach J me w)
    (hb : netFitsSt w.st.mpdao_token_contract_address w.log) :
    logStranded (fun t => !t.isMpdao) w.log = 0 := by
  induction h with
  | init h =>
    cases h with
    | mk o op a b d l v m st r p ts s hr hts hn => rfl
  | @step w w' h hs ih =>
    have hl := lreach_ledger h
    have hci := lreach_cinv h
    cases hs with
    | call c k s' out hme hres hm hclock hu64 hran =>
      have hmp := hran.max.2.2.2
      simp only [hmp] at hb
      simp only [logStranded_call]
      exact ih (fun l hl => hb l (hl.trans (List.suffix_cons _ _)))
    | resolve pre post t ok ts hpend hclock hu64 =>
      have ht := hl.pending t (by rw [hpend]; simp)
      have hmp : ∀ (s : State) (x : Res (State × List Transfer)),
          (∀ s' o, x = .ok (s', o) → s'.mpdao_token_contract_address = s.mpdao_token_contract_address) →
          (x.getOr (s, [])).1.mpdao_token_contract_address = s.mpdao_token_contract_address := by
        intro s x hx
        cases x with
        | error e => rfl
        | ok r => exact hx r.1 r.2 rfl
      rw [hmp _ _ (fun s' o hx => (exec_max hx).2.2.2)] at hb
      replace hb : ∀ l, l <:+ w.log → _ := fun l hl => hb l (hl.trans (List.suffix_cons _ _))
      have h0 := ih hb
      replace hb := hb _ (List.suffix_refl _)
      simp only [logStranded_resolved, h0]
      split
      · rename_i hc
        obtain ⟨rfl, hr, hf⟩ := hc
        have hA := hl.stAll
        rw [hpend, amounts_append, amounts_cons, if_pos hf] at hA
        obtain ⟨src, hcb⟩ := ht.stnear (by simpa using hf)
        rcases Nat.eq_zero_or_pos t.amount with h0 | hpos
        · rw [h0]
        · exfalso
          obtain ⟨s', hs'⟩ := callback_st_succeeds (J := J) (me := me) (ts := ts) (id := src)
            (a := t.amount) hci hpos (by omega)
          unfold Transfer.callbackCall at hr
          rw [hcb] at hr
          simp only [hs', Res.isOk] at hr
          simp at hr
      · rfl
    | tick ts hclock hu64 => exact ih hb

/-- While the stNEAR token address is not replaced, every stNEAR receipt comes from it and every claim is
paid in it. -/
theorem lreach_stnear_token {J : Json} {me : AccountId} {w : World} (h : LReach J me w)
    (hf : stnearFixed w.log) :
    (∀ t ∈ w.pending, t.isMpdao = false → t.token = w.st.stnear_token_contract_address) ∧
    (∀ t a b, Entry.resolved t a b ∈ w.log → t.isMpdao = false → t.token = w.st.stnear_token_contract_address) ∧
    (∀ c k o, Entry.call c k o ∈ w.log → receivedStBy w.st.mpdao_token_contract_address c k ≠ 0 →
      c.predecessor = w.st.stnear_token_contract_address) := by
  induction h with
  | init h =>
    cases h with
    | mk o op a b d l v m st r p ts s hr hts hn => simp
  | @step w w' h hs ih =>
    cases hs with
    | call c k s' out hme hres hm hclock hu64 hran =>
      have hmp := hran.max.2.2.2
      have hst : s'.stnear_token_contract_address = w.st.stnear_token_contract_address := by
        have h1 := congrArg Config.stnear (hran.config)
        have h2 : (configAfter w.st.config k).stnear = w.st.config.stnear := by
          cases k <;> first | rfl | skip
          exact absurd (List.mem_cons_self ..) (hf _ _ _)
        exact h1.trans h2
      obtain ⟨i1, i2, i3⟩ := ih (fun c a o hx => hf c a o (List.mem_cons_of_mem _ hx))
      simp only [hmp, hst]
      refine ⟨?_, ?_, ?_⟩
      · intro t ht hn
        simp only [List.mem_append] at ht
        rcases ht with ht | ht
        · exact i1 t ht hn
        · cases hran.eff with
          | claim_stnear k a i s' h hid hk => simp only [List.mem_singleton] at ht; rw [ht]
          | withdraw k a s' h hpos hfit hk => simp only [List.mem_singleton] at ht; rw [ht] at hn; simp [Transfer.isMpdao] at hn
          | _ => simp at ht
      · intro t a b ht hn
        simp only [List.mem_cons, reduceCtorEq, false_or] at ht
        exact i2 t a b ht hn
      · intro c' k' o' hc hn
        simp only [List.mem_cons, Entry.call.injEq] at hc
        rcases hc with ⟨rfl, rfl, rfl⟩ | hc
        · cases hran.eff with
          | distribute_stnear se a m s' hm hp hp2 h => exact hp2
          | distribute_mpdao se a m s' hm hp h => simp [receivedStBy, hp] at hn
          | deposit se a m t s' v' hm hp ht hmin h => simp [receivedStBy, hp] at hn
          | voter k s' i h hid hk => exact absurd (plain_zero hk J _ i _).2.2.2.2.2.2 hn
          | config k s' h hk => exact absurd (plain_zero hk J _ "" _).2.2.2.2.2.2 hn
          | claim_stnear k a i s' h hid hk => exact absurd (plain_zero hk J _ "" _).2.2.2.2.2.2 hn
          | withdraw k a s' h hpos hfit hk => exact absurd (plain_zero hk J _ "" _).2.2.2.2.2.2 hn
          | _ => simp [receivedStBy] at hn
        · exact i3 c' k' o' hc hn
    | resolve pre post t ok ts hpend hclock hu64 =>
      obtain ⟨i1, i2, i3⟩ := ih (fun c a o hx => hf c a o (List.mem_cons_of_mem _ hx))
      have hmp : ∀ (s : State) (x : Res (State × List Transfer)),
          (∀ s' o, x = .ok (s', o) → s'.mpdao_token_contract_address = s.mpdao_token_contract_address ∧
            s'.stnear_token_contract_address = s.stnear_token_contract_address) →
          (x.getOr (s, [])).1.mpdao_token_contract_address = s.mpdao_token_contract_address ∧
          (x.getOr (s, [])).1.stnear_token_contract_address = s.stnear_token_contract_address := by
        intro s x hx
        cases x with
        | error e => exact ⟨rfl, rfl⟩
        | ok r => exact hx r.1 r.2 rfl
      obtain ⟨e1, e2⟩ := hmp _ _ (fun s' o (hx : exec J w.st ⟨me, me, 0, ts, [ok]⟩ t.callbackCall = .ok (s', o)) =>
        ⟨(exec_max hx).2.2.2, by
          have h1 := congrArg Config.stnear (exec_config hx)
          unfold Transfer.callbackCall at h1
          cases hc : t.callback <;> rw [hc] at h1 <;> exact h1⟩)
      rw [e1, e2]
      refine ⟨?_, ?_, ?_⟩
      · intro x hx hn; apply i1 x _ hn; rw [hpend]; simp only [List.mem_append, List.mem_cons] at *; tauto
      · intro x a b hx hn
        simp only [List.mem_cons, Entry.resolved.injEq] at hx
        rcases hx with ⟨rfl, -, -⟩ | hx
        · exact i1 x (by rw [hpend]; simp) hn
        · exact i2 x a b hx hn
      · intro c' k' o' hc hn
        simp only [List.mem_cons, reduceCtorEq, false_or] at hc
        exact i3 c' k' o' hc hn
    | tick ts hclock hu64 => exact ih hf

theorem reach_stranded_mp {J : Json} {me : AccountId} {w : World} (h : Reach J me w)
    (hb : netFits J w.st.mpdao_token_contract_address w.log) : logStranded (·.isMpdao) w.log = 0 :=
  lreach_stranded_mp h.loose hb

theorem reach_stranded_st {J : Json} {me : AccountId} {w : World} (h : Reach J me w)
    (hb : netFitsSt w.st.mpdao_token_contract_address w.log) :
    logStranded (fun t => !t.isMpdao) w.log = 0 := lreach_stranded_st h.loose hb

theorem reach_stnear_token {J : Json} {me : AccountId} {w : World} (h : Reach J me w)
    (hf : stnearFixed w.log) :
    (∀ t ∈ w.pending, t.isMpdao = false → t.token = w.st.stnear_token_contract_address) ∧
    (∀ t a b, Entry.resolved t a b ∈ w.log → t.isMpdao = false → t.token = w.st.stnear_token_contract_address) ∧
    (∀ c k o, Entry.call c k o ∈ w.log → receivedStBy w.st.mpdao_token_contract_address c k ≠ 0 →
      c.predecessor = w.st.stnear_token_contract_address) := lreach_stnear_token h.loose hf

end Verif.MetaVote
