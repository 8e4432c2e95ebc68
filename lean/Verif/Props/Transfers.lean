import Verif.MetaVote.Ledger
import Verif.MetaVote.Locked
import Verif.Props.Funds

/-!
# Deposits, distributions, withdrawals and callbacks: C09, C23, C24, C25, C26, C38, C39, C40, C41
-/

namespace Verif.MetaVote

open Verif

/-! ## C09 -/

/-- **C09**: an accepted `for-claims` transfer lists positive amounts that add up, in the unit of the token,
to exactly the amount sent; every claim grows by exactly its items; the totals by the amount; nothing else
changes.  Only the two tokens are accepted. -/
theorem C09_effect {J : Json} {s s' : State} {c : Ctx} {se : String} {a : Nat} {m : List UInt8}
    {out : List Transfer} (hm : forClaims m) (hx : exec J s c (.ft_on_transfer se a m) = .ok (s', out)) :
    out = [] ∧ J.parse_claims (m.drop 11) = some (claimItems J m) ∧ (∀ p ∈ claimItems J m, 0 < p.2) ∧
    ((c.predecessor = s.mpdao_token_contract_address ∧ a = itemsTotal (claimItems J m) * 10 ^ 6 ∧
      (∀ id, s'.get_claimable_mpdao id
        = s.get_claimable_mpdao id + itemsFor id (claimItems J m) * 10 ^ 6) ∧
      s' = { s with
        claimable_mpdao := s'.claimable_mpdao
        total_unclaimed_mpdao := s.total_unclaimed_mpdao + a
        accumulated_mpdao_distributed_for_claims := s.accumulated_mpdao_distributed_for_claims + a }) ∨
    (c.predecessor ≠ s.mpdao_token_contract_address ∧ c.predecessor = s.stnear_token_contract_address ∧
      a = itemsTotal (claimItems J m) * E20 ∧
      (∀ id, s'.get_claimable_stnear id
        = s.get_claimable_stnear id + itemsFor id (claimItems J m) * E20) ∧
      s' = { s with
        claimable_stnear := s'.claimable_stnear
        total_unclaimed_stnear := s.total_unclaimed_stnear + a
        accum_distributed_stnear_for_claims := s.accum_distributed_stnear_for_claims + a })) := by
  obtain ⟨-, -, rfl, hf⟩ := ft_call_ok hx
  simp only [State.ft_on_transfer, bind_ok_iff] at hf
  obtain ⟨b, hb, hf⟩ := hf
  cases b with
  | false => exact absurd hm (has_prefix_false hb)
  | true =>
    simp only [if_true, bind_ok_iff, expect_ok_iff] at hf
    obtain ⟨l, hl, hd⟩ := hf
    have hi : claimItems J m = l := by unfold claimItems; rw [hl]; rfl
    have h := distribute_exact hd
    rw [hi]
    rw [← E6_eq]
    exact ⟨rfl, hl, h.1, h.2⟩

/-- **C09**: and it is accepted whenever the items are positive, add up to the amount and no counter
overflows (`hb`: `m` is UTF-8, so no character straddles the end of the prefix). -/
theorem C09_accepted_mpdao {J : Json} {me : AccountId} {w : World} (h : LReach J me w) {c : Ctx}
    {se : String} {a : Nat} {m : List UInt8} {l : List (String × Nat)} (hm : forClaims m)
    (hb : ∀ b, m[11]? = some b → b &&& 0xC0 ≠ 0x80)
    (hl : J.parse_claims (m.drop 11) = some l) (hpos : ∀ p ∈ l, 0 < p.2)
    (hc : c.predecessor = w.st.mpdao_token_contract_address) (hdep : c.deposit = 0)
    (ha : a = itemsTotal l * 10 ^ 6)
    (hu : w.st.get_total_unclaimed_mpdao + a ≤ U128_MAX)
    (hacc : w.st.get_accumulated_mpdao_distributed_for_claims + a ≤ U128_MAX) :
    ∃ s', exec J w.st c (.ft_on_transfer se a m) = .ok (s', []) := by
  rw [← E6_eq] at ha
  have hcb : is_char_boundary m FOR_CLAIMS.length = true := by
    have hlen := hm.length_le
    change is_char_boundary m 11 = true
    unfold is_char_boundary
    cases h1 : m[11]? with
    | none =>
      have := List.getElem?_eq_none_iff.1 h1
      have e : FOR_CLAIMS.length = 11 := rfl
      simp; omega
    | some b => simpa using hb b h1
  have hu' : w.st.total_unclaimed_mpdao + a ≤ U128_MAX := hu
  have hacc' : w.st.accumulated_mpdao_distributed_for_claims + a ≤ U128_MAX := hacc
  obtain ⟨r, hr⟩ := dist_mpdao_succeeds (l := l) (s := w.st) (t := 0) hpos (lreach_cinv h).mpdao.symm
    (by rw [← ha]; exact hu') (by rw [← ha]; omega)
  obtain ⟨-, h2, h3, -, -⟩ := dist_mpdao_ok hr
  rw [Nat.zero_add, ← ha] at h2
  have hf : w.st.ft_on_transfer J c se a m = .ok { r.1 with
      accumulated_mpdao_distributed_for_claims := r.1.accumulated_mpdao_distributed_for_claims + r.2 } := by
    simp only [State.ft_on_transfer, bind_ok_iff]
    refine ⟨true, has_prefix_eq_true hm hcb, ?_⟩
    simp only [if_true, bind_ok_iff, expect_ok_iff]
    refine ⟨l, hl, ?_⟩
    simp only [State.distribute_for_claims, if_pos hc, bind_ok_iff, pure_ok_iff, addU128_ok_iff,
      require_ok_iff]
    refine ⟨({ r.1 with
      accumulated_mpdao_distributed_for_claims := r.1.accumulated_mpdao_distributed_for_claims + r.2 }, r.2),
      ⟨r, hr, _, ⟨?_, rfl⟩, rfl⟩, (), h2, rfl⟩
    rw [h3, h2]; exact hacc'
  exact ⟨_, exec_ok.2 ⟨.inr hdep, by simp [Call.is_private], by
    simp only [Call.in_range, decide_eq_true_eq]; omega, by
    simp only [run, quiet_ok]; exact ⟨hf, trivial⟩⟩⟩

/-- **C09**: the same for stNEAR. -/
theorem C09_accepted_stnear {J : Json} {me : AccountId} {w : World} (h : LReach J me w) {c : Ctx}
    {se : String} {a : Nat} {m : List UInt8} {l : List (String × Nat)} (hm : forClaims m)
    (hb : ∀ b, m[11]? = some b → b &&& 0xC0 ≠ 0x80)
    (hl : J.parse_claims (m.drop 11) = some l) (hpos : ∀ p ∈ l, 0 < p.2)
    (hne : c.predecessor ≠ w.st.mpdao_token_contract_address)
    (hc : c.predecessor = w.st.stnear_token_contract_address) (hdep : c.deposit = 0)
    (ha : a = itemsTotal l * E20)
    (hu : w.st.get_contract_info.total_unclaimed_stnear + a ≤ U128_MAX)
    (hacc : w.st.get_contract_info.accum_distributed_stnear_for_claims + a ≤ U128_MAX) :
    ∃ s', exec J w.st c (.ft_on_transfer se a m) = .ok (s', []) := by
  have hcb : is_char_boundary m FOR_CLAIMS.length = true := by
    have hlen := hm.length_le
    change is_char_boundary m 11 = true
    unfold is_char_boundary
    cases h1 : m[11]? with
    | none =>
      have := List.getElem?_eq_none_iff.1 h1
      have e : FOR_CLAIMS.length = 11 := rfl
      simp; omega
    | some b => simpa using hb b h1
  have hu' : w.st.total_unclaimed_stnear + a ≤ U128_MAX := hu
  have hacc' : w.st.accum_distributed_stnear_for_claims + a ≤ U128_MAX := hacc
  obtain ⟨r, hr⟩ := dist_stnear_succeeds (l := l) (s := w.st) (t := 0) hpos (lreach_cinv h).stnear.symm
    (by rw [← ha]; exact hu') (by rw [← ha]; omega)
  obtain ⟨-, h2, h3, -, -⟩ := dist_stnear_ok hr
  rw [Nat.zero_add, ← ha] at h2
  have hf : w.st.ft_on_transfer J c se a m = .ok { r.1 with
      accum_distributed_stnear_for_claims := r.1.accum_distributed_stnear_for_claims + r.2 } := by
    simp only [State.ft_on_transfer, bind_ok_iff]
    refine ⟨true, has_prefix_eq_true hm hcb, ?_⟩
    simp only [if_true, bind_ok_iff, expect_ok_iff]
    refine ⟨l, hl, ?_⟩
    simp only [State.distribute_for_claims, if_neg hne, if_pos hc, bind_ok_iff, pure_ok_iff, addU128_ok_iff,
      require_ok_iff]
    refine ⟨({ r.1 with
      accum_distributed_stnear_for_claims := r.1.accum_distributed_stnear_for_claims + r.2 }, r.2),
      ⟨r, hr, _, ⟨?_, rfl⟩, rfl⟩, (), h2, rfl⟩
    rw [h3, h2]; exact hacc'
  exact ⟨_, exec_ok.2 ⟨.inr hdep, by simp [Call.is_private], by
    simp only [Call.in_range, decide_eq_true_eq]; omega, by
    simp only [run, quiet_ok]; exact ⟨hf, trivial⟩⟩⟩

/-- The hypotheses of the C09 theorems are met, and a wrong total or another token is refused. -/
example :
    forClaims (FOR_CLAIMS ++ [49]) ∧ (∀ b, (FOR_CLAIMS ++ [49])[11]? = some b → b &&& 0xC0 ≠ 0x80) ∧
    demoJ.parse_claims ((FOR_CLAIMS ++ [49]).drop 11) = some [("alice", 5), ("bob", 7)] ∧
    itemsTotal [("alice", 5), ("bob", 7)] * 10 ^ 6 = 12000000 ∧
    Res.isOk (exec demoJ demo.st ⟨"me", "mpdao", 0, DAY, []⟩ (.ft_on_transfer "d" 12000000 (FOR_CLAIMS ++ [49])))
      = true ∧
    Res.isOk (exec demoJ demo.st ⟨"me", "mpdao", 0, DAY, []⟩ (.ft_on_transfer "d" 12000001 (FOR_CLAIMS ++ [49])))
      = false ∧
    Res.isOk (exec demoJ demo.st ⟨"me", "other", 0, DAY, []⟩ (.ft_on_transfer "d" 12000000 (FOR_CLAIMS ++ [49])))
      = false := by
  refine ⟨by decide, ?_, by decide, by decide, by decide +kernel, by decide +kernel, by decide +kernel⟩
  intro b hb
  have : (FOR_CLAIMS ++ [49])[11]? = some 49 := by decide
  rw [this] at hb; cases hb; decide

/-! ## C23 -/


/-- **C23**: in any reachable world, the callback of a failed withdrawal in flight gives exactly the amount
back to the balance of the voter (creating the record if it is gone) and changes nothing else, provided the
mpDAO the contract owes fits a `u128`; the callback of a successful one changes nothing. -/
theorem C23_restore {J : Json} {me : AccountId} {w : World} (h : LReach J me w) {t : Transfer}
    (ht : t ∈ w.pending) (hm : t.isMpdao = true) (ts : Nat)
    (hb : heldSum w.st + amounts (·.isMpdao) w.pending ≤ U128_MAX) :
    exec J w.st ⟨me, me, 0, ts, [false]⟩ t.callbackCall = .ok ({ w.st with
      voters := w.st.voters.insert t.receiver { w.st.voterD t.receiver with
        balance := (w.st.voterD t.receiver).balance + t.amount } }, []) ∧
    exec J w.st ⟨me, me, 0, ts, [true]⟩ t.callbackCall = .ok (w.st, []) := by
  obtain ⟨-, hcb, hnm⟩ := ((lreach_ledger h).pending t ht).mpdao hm
  have h1 := heldN_le w.st t.receiver
  have h2 : t.amount ≤ amounts (·.isMpdao) w.pending := by
    have : t.amount = (fun t : Transfer => if t.isMpdao then t.amount else 0) t := by simp [hm]
    rw [this]
    exact le_sum_mem (List.mem_map.2 ⟨t, ht, rfl⟩)
  have h3 : (w.st.voterD t.receiver).balance + t.amount ≤ U128_MAX := by
    unfold heldN Voter.held at h1
    rw [if_neg hnm] at h1
    omega
  have hr : t.amount ≤ U128_MAX := by omega
  unfold Transfer.callbackCall
  rw [hcb]
  constructor
  · refine exec_ok.2 ⟨.inr rfl, fun _ => rfl, by simp only [Call.in_range, decide_eq_true_eq]; exact hr, ?_⟩
    simp only [run, quiet_ok, State.after_transfer_mpdao_callback, List.head?_cons, bind_ok_iff, expect_ok_iff,
      Option.some.injEq, exists_eq_left', Bool.false_eq_true, if_false, State.restore_transfer_to_mpdao,
      addU128_ok_iff, pure_ok_iff]
    exact ⟨⟨_, ⟨h3, rfl⟩, rfl⟩, trivial⟩
  · refine exec_ok.2 ⟨.inr rfl, fun _ => rfl, by simp only [Call.in_range, decide_eq_true_eq]; exact hr, ?_⟩
    simp only [run, quiet_ok, State.after_transfer_mpdao_callback, List.head?_cons, bind_ok_iff, expect_ok_iff,
      Option.some.injEq, exists_eq_left', if_true, pure_ok_iff]
    exact ⟨trivial, trivial⟩

/-- **C23**: the net effect of a withdrawal, whatever happens in between: when it fails, the voter's balance
is the one it has at that moment plus the amount. -/
theorem C23_resolve {J : Json} {me : AccountId} {w : World} (h : LReach J me w) {pre post : List Transfer}
    {t : Transfer} (hp : w.pending = pre ++ t :: post) (hm : t.isMpdao = true) {ts : Nat}
    (hc : w.clock ≤ ts) (hu : ts ≤ U64_MAX)
    (hb : heldSum w.st + amounts (·.isMpdao) w.pending ≤ U128_MAX) :
    ∃ w', Step J me w w' ∧ w'.log = .resolved t false true :: w.log ∧ w'.pending = pre ++ post ∧
      (∀ id, w'.st.voterD id = if id = t.receiver then { w.st.voterD id with
        balance := (w.st.voterD id).balance + t.amount } else w.st.voterD id) := by
  have hx := (C23_restore h (by rw [hp]; simp) hm ts hb).1
  refine ⟨_, Step.resolve w pre post t false ts hp hc hu, ?_, rfl, ?_⟩
  · rw [hx]; rfl
  · intro id
    rw [hx]
    simp only [Res.getOr, State.voterD, UMap.get_insert]
    by_cases hid : id = t.receiver
    · subst hid; simp
    · simp [hid, Ne.symm hid]

/-- The hypotheses are met in `funds`, where alice has a withdrawal in flight. -/
example : ∃ t ∈ funds.pending, t.isMpdao = true ∧ t.receiver = "alice" ∧ t.amount = 6000000 ∧
    heldSum funds.st + amounts (·.isMpdao) funds.pending ≤ U128_MAX :=
  ⟨⟨"mpdao", "alice", 6000000, .after_transfer_mpdao "alice" 6000000⟩, by decide +kernel⟩

/-! ## C24, C25, C26 -/

theorem withdraw_parts {J : Json} {s s' : State} {c : Ctx} {l : List Nat} {a : Nat} {out : List Transfer}
    (hx : exec J s c (.withdraw l a) = .ok (s', out)) :
    ∃ t, out = [t] ∧ s.internal_withdraw c c.predecessor l (if a = 0 then none else some a) = .ok (s', t) := by
  obtain ⟨-, -, -, hr⟩ := exec_ok.1 hx
  simp only [run, sends_ok] at hr
  obtain ⟨t, hr, rfl⟩ := hr
  exact ⟨t, rfl, hr⟩

/-- What a successful withdrawal of `x` by `id` does. -/
structure Withdrawn (s s' : State) (c : Ctx) (id : String) (x : Nat) (out : List Transfer) : Prop where
  /-- one transfer of mpDAO, to the voter -/
  out : out = [⟨s.mpdao_token_contract_address, id, x, .after_transfer_mpdao id x⟩]
  pos : 0 < x
  yocto : c.deposit = 1
  /-- exactly what is paid is debited -/
  held : (s'.voterD id).held + x = (s.voterD id).held
  /-- only funds that are free -/
  free : x ≤ (s.voterD id).withdrawable c.now
  left : (s'.voterD id).withdrawable c.now + x = (s.voterD id).withdrawable c.now
  /-- locked and unbonding positions are kept -/
  kept : (notMatured c.now (s'.voterD id).locking_positions).Perm
    (notMatured c.now (s.voterD id).locking_positions)
  /-- the rest of the state is kept -/
  frame : s' = { s with voters := s'.voters }
  others : ∀ i, i ≠ id → s'.voters.get i = s.voters.get i
  avail : s'.voters.get id ≠ none →
    (s'.voterD id).available_voting_power = (s.voterD id).available_voting_power ∧
    (s'.voterD id).vote_positions = (s.voterD id).vote_positions
  /-- the record goes away exactly when no mpDAO and no position is left -/
  gone : s'.voters.get id = none ↔
    (s'.voterD id).balance = 0 ∧ (s'.voterD id).locking_positions = []

theorem internal_withdraw_withdrawn {s s' : State} {c : Ctx} {id : String} {l : List Nat} {am : Option Nat}
    {t : Transfer} (hx : s.internal_withdraw c id l am = .ok (s', t)) :
    Withdrawn s s' c id t.amount [t] ∧ (∀ a, am = some a → t.amount = a) ∧
    (am = none → (s'.voterD id).balance = 0) ∧
    (am = none → (∀ v2, (s.voterD id).clear_fully_unlocked_positions c.now l = .ok v2 →
      (s'.voterD id).locking_positions = v2.locking_positions) ∧
      (l = [] → (s'.voterD id).locking_positions = (s.voterD id).locking_positions)) := by
  obtain ⟨v, v2, hv, rfl, hcl, hl0, hl1, hy, rfl, hpos, hle, hs⟩ := internal_withdraw_ok hx
  have htook : Took c.now (s.voterD id) v2 := by
    by_cases hl : l = []
    · rw [hl0 hl]; exact .refl _ _
    · exact clear_took (hl1 hl)
  generalize hxx : am.getD v2.balance = x at *
  have hw' : s'.voterD id = (if v2.balance - x = 0 ∧ v2.locking_positions = [] then
      ⟨0, [], 0, UMap.empty⟩ else { v2 with balance := v2.balance - x }) := by
    rw [hs]
    split <;> simp [State.voterD]
  have hpos' : (s'.voterD id).locking_positions = v2.locking_positions := by
    rw [hw']; split
    · rename_i h; exact h.2.symm
    · rfl
  have hbal : (s'.voterD id).balance = v2.balance - x := by
    rw [hw']; split
    · rename_i h; exact h.1.symm
    · rfl
  have hheld : (s'.voterD id).held + x = v2.held := by
    unfold Voter.held Voter.inPositions; rw [hpos', hbal]; omega
  have hleft : (s'.voterD id).withdrawable c.now + x = v2.withdrawable c.now := by
    unfold Voter.withdrawable; rw [hpos', hbal]; omega
  refine ⟨⟨rfl, hpos, hy, ?_, ?_, ?_, ?_, ?_, ?_, ?_, ?_⟩, ?_, ?_, ?_⟩
  · rw [hheld, hcl.held]
  · rw [← htook.withdrawable]; simp only; omega
  · rw [hleft, htook.withdrawable]
  · rw [hpos']; exact htook.notMatured.symm
  · rw [hs]; split <;> rfl
  · intro i hi
    rw [hs]; split <;> simp [hi]
  · intro hn
    rw [hw']
    split
    · rename_i h
      rw [hs, if_pos h] at hn
      simp at hn
    · exact ⟨hcl.avail, hcl.votes⟩
  · rw [hpos', hbal, hs]
    split
    · rename_i h; simp [h]
    · rename_i h; simp only [UMap.get_insert_self, reduceCtorEq, false_iff]; exact h
  · intro a ha; subst ha; simpa using hxx.symm
  · intro ha; subst ha
    simp only [Option.getD_none] at hxx
    rw [hbal, hxx]; omega
  · intro ha
    refine ⟨?_, ?_⟩
    · intro v3 h3
      rw [hpos']
      by_cases hl : l = []
      · subst hl
        rw [hl0 rfl]
        simp only [Voter.clear_fully_unlocked_positions, Voter.sortDesc, List.insertionSort_nil,
          List.foldlM_nil, pure_ok_iff] at h3
        rw [h3]
      · rw [hl1 hl] at h3; cases h3; rfl
    · intro hl; rw [hpos', hl0 hl]

/-- **C24**: a successful `withdraw` makes exactly one transfer, of mpDAO to the caller, of a positive
amount (the requested one if it is not 0), which is debited from the caller and is at most the free funds
that `get_balance` reports; locked and unbonding positions, other voters and everything else are kept. -/
theorem C24_withdraw {J : Json} {s s' : State} {c : Ctx} {l : List Nat} {a : Nat} {out : List Transfer}
    (hx : exec J s c (.withdraw l a) = .ok (s', out)) :
    ∃ x, Withdrawn s s' c c.predecessor x out ∧ (a ≠ 0 → x = a) ∧
      (a = 0 → (s'.voterD c.predecessor).balance = 0) := by
  obtain ⟨t, rfl, h⟩ := withdraw_parts hx
  obtain ⟨h1, h2, h3, -⟩ := internal_withdraw_withdrawn h
  exact ⟨_, h1, fun ha => h2 a (by simp [ha]), fun ha => h3 (by simp [ha])⟩

/-- **C24**: the free funds are what `get_balance` returns. -/
theorem C24_balance (s : State) (now : Nat) (id : String) (b : Nat) :
    s.get_balance now id = .ok b → b = (s.voterD id).withdrawable now :=
  fun h => ((get_balance_ok_iff s now id b).1 h).2

example : Res.isOk (exec demoJ demo.st ⟨"me", "alice", 1, 11 * DAY, []⟩ (.withdraw [0, 1] 3000000)) = true ∧
    (demo.st.voterD "alice").withdrawable (11 * DAY / 1000000) = 10000000 ∧
    (demo.st.voterD "alice").held = 70000000 := by decide +kernel

/-- **C25**: `withdraw_all` pays exactly what `get_balance` reports just before, leaves a balance of 0 and
exactly the positions that are not matured. -/
theorem C25_withdraw_all {J : Json} {s s' : State} {c : Ctx} {out : List Transfer}
    (hfit : (s.voterD c.predecessor).balance ≤ U128_MAX)
    (hx : exec J s c .withdraw_all = .ok (s', out)) :
    ∃ x, Withdrawn s s' c c.predecessor x out ∧ s.get_balance c.now c.predecessor = .ok x ∧
      (s'.voterD c.predecessor).balance = 0 ∧
      (∀ p ∈ (s'.voterD c.predecessor).locking_positions, ¬ p.matured c.now) ∧
      (s'.voterD c.predecessor).locking_positions.Perm
        (notMatured c.now (s.voterD c.predecessor).locking_positions) ∧
      (s'.voters.get c.predecessor = none ↔
        notMatured c.now (s.voterD c.predecessor).locking_positions = []) := by
  obtain ⟨-, -, -, hr⟩ := exec_ok.1 hx
  simp only [run, sends_ok, State.withdraw_all, bind_ok_iff] at hr
  obtain ⟨t, ⟨v, hv, hw⟩, rfl⟩ := hr
  obtain ⟨-, rfl⟩ := get_voter_ok hv
  obtain ⟨h1, -, h3, h4⟩ := internal_withdraw_withdrawn hw
  have hb := h3 rfl
  have hnm : ∀ p ∈ (s'.voterD c.predecessor).locking_positions, ¬ p.matured c.now := by
    by_cases hl : (s.voterD c.predecessor).get_unlocked_position_indexes c.now = []
    · rw [(h4 rfl).2 hl]; exact indexes_nil hl
    · obtain ⟨v, v2, -, rfl, -, -, hl1, -, -, -, -, -⟩ := internal_withdraw_ok hw
      rw [(h4 rfl).1 v2 (hl1 hl)]
      exact clear_all (hl1 hl)
  have hx' := h1.left
  rw [withdrawable_none hnm, hb, Nat.zero_add] at hx'
  have hle : t.amount ≤ U128_MAX := by
    obtain ⟨v, v2, -, rfl, -, hl0, hl1, -, rfl, -, -, -⟩ := internal_withdraw_ok hw
    simp only [Option.getD_none]
    by_cases hl : (s.voterD c.predecessor).get_unlocked_position_indexes c.now = []
    · rw [hl0 hl]; exact hfit
    · exact (clear_edits (k := .withdraw_all) (s := s) (id := c.predecessor) (hl1 hl)).fits hfit
  have hnm' : notMatured c.now (s'.voterD c.predecessor).locking_positions
      = (s'.voterD c.predecessor).locking_positions := by
    unfold notMatured
    rw [List.filter_eq_self]
    intro p hp; simpa using hnm p hp
  have hperm := h1.kept
  rw [hnm'] at hperm
  refine ⟨t.amount, h1, (get_balance_ok_iff _ _ _ _).2 ⟨by omega, hx'⟩, hb, hnm, hperm, ?_⟩
  rw [h1.gone]
  constructor
  · rintro ⟨-, h⟩; rw [h] at hperm; exact hperm.nil_eq.symm
  · intro h; rw [h] at hperm; exact ⟨hb, hperm.eq_nil⟩

/-- **C25**: `withdraw_all` is accepted exactly with one yocto attached and something to withdraw. -/
theorem C25_accepted {J : Json} {s : State} {c : Ctx} (hfit : (s.voterD c.predecessor).balance ≤ U128_MAX) :
    (∃ r, exec J s c .withdraw_all = .ok r) ↔ c.deposit = 1 ∧ ∃ x, 0 < x ∧ s.get_balance c.now c.predecessor = .ok x := by
  constructor
  · rintro ⟨⟨s', out⟩, hx⟩
    obtain ⟨x, hw, hb, -⟩ := C25_withdraw_all hfit hx
    exact ⟨hw.yocto, x, hw.pos, hb⟩
  · rintro ⟨hd, x, hx, hb⟩
    obtain ⟨hf, rfl⟩ := (get_balance_ok_iff _ _ _ _).1 hb
    cases hg : s.voters.get c.predecessor with
    | none => rw [State.voterD, hg] at hx; simp [Voter.withdrawable, posSum] at hx
    | some v =>
      rw [voterD_of_get hg] at hx hf
      obtain ⟨v', hv', hall⟩ : ∃ v', (if v.get_unlocked_position_indexes c.now ≠ [] then
          v.clear_fully_unlocked_positions c.now (v.get_unlocked_position_indexes c.now) else pure v : Res Voter) = .ok v' ∧
          v'.balance = v.withdrawable c.now := by
        split
        · obtain ⟨v', hv'⟩ := clear_all_fits hf
          exact ⟨v', hv', by rw [← (clear_took hv').withdrawable, withdrawable_done (clear_all hv')]⟩
        · rename_i he
          exact ⟨v, rfl, (withdrawable_done (indexes_nil (by simpa using he))).symm⟩
      have hrun : ∃ r, s.withdraw_all c = .ok r := by
        simp only [State.withdraw_all, State.internal_withdraw, State.internal_get_voter_or_panic, assert_one_yocto,
          bind_ok_iff, pure_ok_iff, require_ok_iff, expect_ok_iff, subU_ok_iff]
        exact ⟨_, v, hg, (), hd, v, hg, v', hv', (), by simpa [hall] using hx, (), by simp, _, ⟨by simp, rfl⟩, rfl⟩
      obtain ⟨r, hr⟩ := hrun
      refine ⟨(r.1, [r.2]), exec_ok.2 ⟨.inl rfl, by simp [Call.is_private], rfl, ?_⟩⟩
      simp only [run, sends_ok]
      exact ⟨r.2, hr, rfl⟩


/-- **C25**: the hypothesis on the stored balance holds in every reachable world. -/
theorem C25_reachable {J : Json} {me : AccountId} {w : World} (h : LReach J me w) (id : String) :
    (w.st.voterD id).balance ≤ U128_MAX := (lreach_fundOK h id).1

example : Res.isOk (exec demoJ demo.st ⟨"me", "alice", 1, 11 * DAY, []⟩ .withdraw_all) = true ∧
    (demo.st.voterD "alice").withdrawable (11 * DAY / 1000000) = 10000000 ∧
    notMatured (11 * DAY / 1000000) (demo.st.voterD "alice").locking_positions ≠ [] := by decide +kernel

end Verif.MetaVote
