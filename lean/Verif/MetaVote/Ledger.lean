import Verif.MetaVote.Loose

/-!
# Invariants of the funds over all executions
-/

namespace Verif.MetaVote

open Verif

/-- The four ledgers, and the shape of the pending transfers. -/
structure Ledger (J : Json) (w : World) : Prop where
  pending : ∀ t ∈ w.pending, TransferOK w.st.mpdao_token_contract_address t
  mp : ∀ id, ¬ mirrored id → owedMp w.st id + amounts (mpOf id) w.pending + logPaid (mpOf id) w.log
    + logStranded (mpOf id) w.log = logCalls (creditOf J w.st.mpdao_token_contract_address id) w.log
  st : ∀ id, owedSt w.st id + amounts (stOf id) w.pending + logPaid (stOf id) w.log
    + logStranded (stOf id) w.log = logCalls (creditStOf J w.st.mpdao_token_contract_address id) w.log
  mpAll : heldSum w.st + w.st.total_unclaimed_mpdao + amounts (·.isMpdao) w.pending
    + logPaid (·.isMpdao) w.log + logStranded (·.isMpdao) w.log
    = logCalls (receivedBy J w.st.mpdao_token_contract_address) w.log + logCalls (fun _ => migratedBy) w.log
  stAll : w.st.total_unclaimed_stnear + amounts (fun t => !t.isMpdao) w.pending
    + logPaid (fun t => !t.isMpdao) w.log + logStranded (fun t => !t.isMpdao) w.log
    = logCalls (receivedStBy w.st.mpdao_token_contract_address) w.log

/-- A callback gives back what its transfer carried, and credits nothing else. -/
theorem callback_restores {mp : AccountId} {J : Json} {t : Transfer} (h : TransferOK mp t) (c : Ctx)
    (id : String) :
    restoredMp id c t.callbackCall = (if c.promise_results.head? = some false ∧ mpOf id t = true then t.amount else 0) ∧
    restoredSt id c t.callbackCall = (if c.promise_results.head? = some false ∧ stOf id t = true then t.amount else 0) ∧
    restoredAllMp c t.callbackCall = (if c.promise_results.head? = some false ∧ t.isMpdao = true then t.amount else 0) ∧
    restoredAllSt c t.callbackCall = (if c.promise_results.head? = some false ∧ t.isMpdao = false then t.amount else 0) ∧
    creditOf J mp id c t.callbackCall = 0 ∧ creditStOf J mp id c t.callbackCall = 0 ∧
    receivedBy J mp c t.callbackCall = 0 ∧ migratedBy t.callbackCall = 0 ∧
    receivedStBy mp c t.callbackCall = 0 ∧ t.callbackCall.plain = false := by
  cases hb : t.isMpdao with
  | true =>
    obtain ⟨-, hc, hm⟩ := h.mpdao hb
    simp only [Transfer.callbackCall, hc, restoredMp, restoredSt, restoredAllMp, restoredAllSt, mpOf, stOf, hb,
      Transfer.source, creditOf, creditStOf, receivedBy, migratedBy, receivedStBy, Call.plain]
    simp [hm, and_comm]
  | false =>
    obtain ⟨src, hc⟩ := h.stnear hb
    simp only [Transfer.callbackCall, hc, restoredMp, restoredSt, restoredAllMp, restoredAllSt, mpOf, stOf, hb,
      Transfer.source, creditOf, creditStOf, receivedBy, migratedBy, receivedStBy, Call.plain]
    simp [and_comm]

theorem lreach_ledger {J : Json} {me : AccountId} {w : World} (h : LReach J me w) : Ledger J w := by
  induction h with
  | init h =>
    cases h with
    | mk o op a b d l v m st r p ts s hr hts hn =>
      obtain ⟨-, -, rfl⟩ := new_ok hn
      exact ⟨by simp, fun _ _ => rfl, fun _ => rfl, rfl, rfl⟩
  | step h hs ih =>
    cases hs with
    | call c k s' out hme hres hm hclock hu64 hran =>
      have hmp := hran.max.2.2.2
      have hz := call_not_callback k hres
      refine ⟨?_, ?_, ?_, ?_, ?_⟩
      · intro t ht
        simp only [List.mem_append] at ht
        rw [hmp]
        rcases ht with ht | ht
        · exact ih.pending t ht
        · exact hran.out_ok (fun _ => hm) t ht
      · intro id hid
        have h1 := ih.mp id hid
        have h2 := hran.owedMp id hid
        simp only [hmp, amounts_append, logPaid_call, logStranded_call, logCalls_call, (hz id).1] at *
        omega
      · intro id
        have h1 := ih.st id
        have h2 := hran.owedSt id
        simp only [hmp, amounts_append, logPaid_call, logStranded_call, logCalls_call, (hz id).2.1] at *
        omega
      · have h1 := ih.mpAll
        have h2 := hran.heldSum (fun _ => hm)
        simp only [hmp, amounts_append, logPaid_call, logStranded_call, logCalls_call, (hz "").2.2.1] at *
        omega
      · have h1 := ih.stAll
        have h2 := hran.unclaimedSt
        simp only [hmp, amounts_append, logPaid_call, logStranded_call, logCalls_call, (hz "").2.2.2] at *
        omega
    | resolve pre post t ok ts hpend hclock hu64 =>
      have ht := ih.pending t (by rw [hpend]; simp)
      have hcb := fun id => callback_restores (J := J) ht ⟨me, me, 0, ts, [ok]⟩ id
      obtain ⟨ip, im, is, iM, iS⟩ := ih
      simp only [hpend, amounts_append, amounts_cons] at im is iM iS
      cases hr : exec J _ ⟨me, me, 0, ts, [ok]⟩ t.callbackCall with
      | error e =>
        simp only [Res.getOr, Res.isOk]
        refine ⟨?_, ?_, ?_, ?_, ?_⟩
        · intro x hx; apply ip; rw [hpend]; simp only [List.mem_append, List.mem_cons] at *; tauto
        · intro id hid
          have h1 := im id hid
          simp only [amounts_append, logPaid_resolved, logStranded_resolved, logCalls_resolved]
          cases ok <;> cases hf : mpOf id t <;> simp [hf] at h1 ⊢ <;> omega
        · intro id
          have h1 := is id
          simp only [amounts_append, logPaid_resolved, logStranded_resolved, logCalls_resolved]
          cases ok <;> cases hf : stOf id t <;> simp [hf] at h1 ⊢ <;> omega
        · have h1 := iM
          simp only [amounts_append, logPaid_resolved, logStranded_resolved, logCalls_resolved]
          cases ok <;> cases hf : t.isMpdao <;> simp [hf] at h1 ⊢ <;> omega
        · have h1 := iS
          simp only [amounts_append, logPaid_resolved, logStranded_resolved, logCalls_resolved]
          cases ok <;> cases hf : t.isMpdao <;> simp [hf] at h1 ⊢ <;> omega
      | ok r =>
        obtain ⟨s', out⟩ := r
        have hmp := (exec_max hr).2.2.2
        have hout : out = [] := by
          have := exec_ok.1 hr
          unfold Transfer.callbackCall at this
          cases hc : t.callback <;> rw [hc] at this <;> simp only [run, quiet_ok] at this
          · exact this.2.2.2.2
          · exact this.2.2.2.2
        subst hout
        simp only [Res.getOr, Res.isOk]
        refine ⟨?_, ?_, ?_, ?_, ?_⟩
        · intro x hx; rw [hmp]; apply ip; rw [hpend]; simp only [List.mem_append, List.mem_cons] at *; tauto
        · intro id hid
          have h1 := im id hid
          have h2 := exec_owedMp hr id hid
          obtain ⟨z1, z2, z3, z4, z5, z6, z7, z8, z9, z10⟩ := hcb id
          simp only [hmp, amounts_append, logPaid_resolved, logStranded_resolved, logCalls_resolved, z1, z5,
            amounts_nil] at *
          cases ok <;> cases hf : mpOf id t <;> simp [hf] at h1 h2 ⊢ <;> omega
        · intro id
          have h1 := is id
          have h2 := exec_owedSt hr id
          obtain ⟨z1, z2, z3, z4, z5, z6, z7, z8, z9, z10⟩ := hcb id
          simp only [hmp, amounts_append, logPaid_resolved, logStranded_resolved, logCalls_resolved, z2, z6,
            amounts_nil] at *
          cases ok <;> cases hf : stOf id t <;> simp [hf] at h1 h2 ⊢ <;> omega
        · have h1 := iM
          obtain ⟨z1, z2, z3, z4, z5, z6, z7, z8, z9, z10⟩ := hcb ""
          have h2 := exec_heldSum hr (by rw [z10]; simp)
          simp only [hmp, amounts_append, logPaid_resolved, logStranded_resolved, logCalls_resolved, z3, z7,
            z8, amounts_nil] at *
          cases ok <;> cases hf : t.isMpdao <;> simp [hf] at h1 h2 ⊢ <;> omega
        · have h1 := iS
          obtain ⟨z1, z2, z3, z4, z5, z6, z7, z8, z9, z10⟩ := hcb ""
          have h2 := exec_unclaimedSt hr
          simp only [hmp, amounts_append, logPaid_resolved, logStranded_resolved, logCalls_resolved, z4, z9,
            amounts_nil] at *
          cases ok <;> cases hf : t.isMpdao <;> simp [hf] at h1 h2 ⊢ <;> omega
    | tick ts hclock hu64 => exact ⟨ih.pending, ih.mp, ih.st, ih.mpAll, ih.stAll⟩

theorem reach_ledger {J : Json} {me : AccountId} {w : World} (h : Reach J me w) : Ledger J w := lreach_ledger h.loose

/-- In every reachable world balances fit a `u128` and unlockings started in the past. -/
theorem lreach_fundOK {J : Json} {me : AccountId} {w : World} (h : LReach J me w) (id : String) :
    FundOK (w.clock / 1000000) (w.st.voterD id).balance (w.st.voterD id).locking_positions := by
  induction h with
  | init h =>
    cases h with
    | mk o op a b d l v m st r p ts s hr hts hn =>
      obtain ⟨-, -, rfl⟩ := new_ok hn
      simp [FundOK, State.voterD]
  | @step w w' h hs ih =>
    cases hs with
    | call c k s' out hme hres hm hclock hu64 hran =>
      exact (hran.edits id).fundOK (ih.mono (Nat.div_le_div_right hclock))
    | resolve pre post t ok ts hpend hclock hu64 =>
      have ih' := ih.mono (Nat.div_le_div_right (c := 1000000) hclock)
      cases hr : exec J w.st ⟨me, me, 0, ts, [ok]⟩ t.callbackCall with
      | error e => simpa [Res.getOr, hr] using ih'
      | ok r =>
        have := (exec_edits (s' := r.1) (out := r.2) hr id).fundOK ih'
        simpa only [Res.getOr, hr, Ctx.now] using this
    | tick ts hclock hu64 => exact ih.mono (Nat.div_le_div_right hclock)

theorem reach_fundOK {J : Json} {me : AccountId} {w : World} (h : Reach J me w) (id : String) :
    FundOK (w.clock / 1000000) (w.st.voterD id).balance (w.st.voterD id).locking_positions := lreach_fundOK h.loose id

theorem getElem?_lt {α : Type} {l : List α} {i : Nat} {x : α} (h : l[i]? = some x) : i < l.length := by
  rw [List.getElem?_eq_some_iff] at h; exact h.1

/-- The number of positions is bounded. -/
theorem Edits.count {s : State} {c : Ctx} {k : Call} {id : String} {b b' : Nat} {l l' : List LockingPosition} {x y : Nat}
    (h : Edits s c k id b l b' l' x y) (h8 : s.max_locking_positions ≤ U8_MAX) (hl : l.length ≤ s.max_locking_positions) :
    l'.length ≤ s.max_locking_positions := by
  have dep : ∀ {l ps : List LockingPosition} {a d vp : Nat}, l.length ≤ s.max_locking_positions →
      Dep l s.max_locking_positions a d vp ps → ps.length ≤ s.max_locking_positions := by
    intro l ps a d vp hl hd
    cases hd with
    | increase i p hf hp hd hl ha hv => simpa
    | create hf hm =>
      simp only [U8_MAX, List.length_append, List.length_singleton] at *
      rw [Nat.mod_eq_of_lt (by omega)] at hm
      omega
  induction h with
  | refl => exact hl
  | step h hs ih =>
    replace ih := ih hl
    have sw : ∀ {l : List LockingPosition} {i : Nat}, l.length ≤ s.max_locking_positions →
        i < l.length → (swapRemove l i).length ≤ s.max_locking_positions := by
      intro l i hl hi
      have := swapRemove_length l i hi
      omega
    cases hs with
    | clear hp hm hb => exact sw ih (getElem?_lt hp)
    | pay h0 h => exact ih
    | back h => exact ih
    | deposit hok hmin hd => exact dep ih hd
    | migrate hk hok hd => exact dep ih hd
    | unlock hk hp => simpa
    | split hk hp ha hmin h1 hvp hle hlen =>
      simp only [U8_MAX, List.length_append, List.length_singleton, List.length_set] at *
      rw [Nat.mod_eq_of_lt (by omega)] at hlen
      omega
    | extend => simpa
    | relock hk hid hs hp ht hx hlong hok hd => exact dep (sw ih (getElem?_lt hp)) hd
    | relockPart hk hp ht hx ha hmin hnow hlong hvp2 hok hd => exact dep (by simpa) hd
    | relockEnded hk hp ht hx ha hmin hnow hfit hok hd => exact dep (sw ih (getElem?_lt hp)) hd
    | relockBalance hk hx hmin hok hd => exact dep ih hd
    | mirror hk hm hps hnd hn => exact hn h8

theorem lreach_count {J : Json} {me : AccountId} {w : World} (h : LReach J me w) (id : String) :
    w.st.max_locking_positions ≤ U8_MAX ∧ (w.st.voterD id).locking_positions.length ≤ w.st.max_locking_positions := by
  refine h.state_inv (P := fun s => s.max_locking_positions ≤ U8_MAX ∧
    (s.voterD id).locking_positions.length ≤ s.max_locking_positions) ?_ ?_
  · intro w h
    refine ⟨(init_vinv h).max8, ?_⟩
    cases h with
    | mk o op a b d l v m st r p ts s hr hts hn =>
      obtain ⟨-, -, rfl⟩ := new_ok hn
      simp [State.voterD]
  · intro s c k s' out ⟨h8, hl⟩ hx
    rw [hx.max.2.1]
    exact ⟨h8, (hx.edits id).count h8 hl⟩

end Verif.MetaVote
