import Verif.Props.Transfers
import Verif.Props.Power

/-!
# Deposits, claims and the partition of funds: C26, C38, C39, C40, C41
-/

namespace Verif.MetaVote

open Verif

/-! ## C26 -/

/-- **C26**: `clear_locking_position`, with any list of indexes, keeps the mpDAO held and the voting power
of the caller, its votes, every position that is not matured, the free funds, and everything else. -/
theorem C26_clear {J : Json} {s s' : State} {c : Ctx} {l : List Nat} {out : List Transfer}
    (hx : exec J s c (.clear_locking_position l) = .ok (s', out)) :
    out = [] ∧ l ≠ [] ∧
    (s'.voterD c.predecessor).held = (s.voterD c.predecessor).held ∧
    (s'.voterD c.predecessor).withdrawable c.now = (s.voterD c.predecessor).withdrawable c.now ∧
    (notMatured c.now (s'.voterD c.predecessor).locking_positions).Perm
      (notMatured c.now (s.voterD c.predecessor).locking_positions) ∧
    (∃ r, (∀ p ∈ r, p.matured c.now) ∧ (s.voterD c.predecessor).locking_positions.Perm
      (r ++ (s'.voterD c.predecessor).locking_positions) ∧
      (s'.voterD c.predecessor).balance = (s.voterD c.predecessor).balance + posSum (·.amount) r) ∧
    (s'.voterD c.predecessor).available_voting_power = (s.voterD c.predecessor).available_voting_power ∧
    (s'.voterD c.predecessor).vote_positions = (s.voterD c.predecessor).vote_positions ∧
    (∀ i, i ≠ c.predecessor → s'.voters.get i = s.voters.get i) ∧
    s' = { s with voters := s'.voters } := by
  obtain ⟨-, -, -, hr⟩ := exec_ok.1 hx
  simp only [run, quiet_ok, State.clear_locking_position, bind_ok_iff, require_ok_iff, pure_ok_iff] at hr
  obtain ⟨⟨-, hl, v, hv, v2, hc, rfl⟩, rfl⟩ := hr
  obtain ⟨hv, rfl⟩ := get_voter_ok hv
  have h1 := clear_cleared hc
  have h2 := clear_took hc
  have e : State.voterD { s with voters := s.voters.insert c.predecessor v2 } c.predecessor = v2 := by
    simp [State.voterD]
  rw [e]
  exact ⟨rfl, hl, h1.held, h2.withdrawable, h2.notMatured.symm, h2, h1.avail, h1.votes,
    fun i hi => UMap.get_insert_ne _ _ hi, rfl⟩

example : Res.isOk (exec demoJ demo.st ⟨"me", "alice", 0, 11 * DAY, []⟩ (.clear_locking_position [1, 0])) = true ∧
    Res.isOk (exec demoJ demo.st ⟨"me", "alice", 0, 5 * DAY, []⟩ (.clear_locking_position [1, 0])) = true ∧
    (demo.st.voterD "alice").withdrawable (5 * DAY / 1000000) = 0 ∧
    (demo.st.voterD "alice").withdrawable (11 * DAY / 1000000) = 10000000 := by decide +kernel

/-- **C26**: with distinct indexes, in any order, exactly the fully unlocked ones among the positions listed
are moved to the balance: the other positions are the ones that are left. -/
theorem C26_listed {J : Json} {s s' : State} {c : Ctx} {l : List Nat} {out : List Transfer} (hl : l.Nodup)
    (hx : exec J s c (.clear_locking_position l) = .ok (s', out)) :
    ∃ r, r = (l.filterMap (fun i => (s.voterD c.predecessor).locking_positions[i]?)).filter
        (fun p => decide (p.matured c.now)) ∧
      (s.voterD c.predecessor).locking_positions.Perm (r ++ (s'.voterD c.predecessor).locking_positions) ∧
      (s'.voterD c.predecessor).balance = (s.voterD c.predecessor).balance + posSum (·.amount) r := by
  obtain ⟨-, -, -, hr⟩ := exec_ok.1 hx
  simp only [run, quiet_ok, State.clear_locking_position, bind_ok_iff, require_ok_iff, pure_ok_iff] at hr
  obtain ⟨⟨-, -, v, hv, v2, hc, rfl⟩, rfl⟩ := hr
  obtain ⟨hv, rfl⟩ := get_voter_ok hv
  have e : State.voterD { s with voters := s.voters.insert c.predecessor v2 } c.predecessor = v2 := by
    simp [State.voterD]
  rw [e]
  exact ⟨_, rfl, clear_listed hl hc⟩

/-- **C24**: with distinct indexes the positions that a withdrawal uses up are exactly the fully unlocked
ones among those listed. -/
theorem C24_listed {J : Json} {s s' : State} {c : Ctx} {l : List Nat} {a : Nat} {out : List Transfer}
    (hl : l.Nodup) (hx : exec J s c (.withdraw l a) = .ok (s', out)) :
    ∃ r, r = (l.filterMap (fun i => (s.voterD c.predecessor).locking_positions[i]?)).filter
        (fun p => decide (p.matured c.now)) ∧
      (s.voterD c.predecessor).locking_positions.Perm (r ++ (s'.voterD c.predecessor).locking_positions) ∧
      (out.map (·.amount)).sum + (s'.voterD c.predecessor).balance
        = (s.voterD c.predecessor).balance + posSum (·.amount) r := by
  obtain ⟨t, rfl, h⟩ := withdraw_parts hx
  obtain ⟨v, v2, hv, rfl, -, hl0, hl1, -, rfl, -, hle, hs⟩ := internal_withdraw_ok h
  have hc : (s.voterD c.predecessor).locking_positions.Perm
      (listed c.now (s.voterD c.predecessor).locking_positions l ++ v2.locking_positions) ∧
      v2.balance = (s.voterD c.predecessor).balance
        + posSum (·.amount) (listed c.now (s.voterD c.predecessor).locking_positions l) := by
    by_cases hne : l = []
    · rw [hl0 hne, hne]; simp [listed, posSum]
    · exact clear_listed hl (hl1 hne)
  generalize (if a = 0 then none else some a : Option Nat).getD v2.balance = x at *
  have hw : (s'.voterD c.predecessor).locking_positions = v2.locking_positions ∧
      (s'.voterD c.predecessor).balance = v2.balance - x := by
    rw [hs]
    split
    · rename_i h; simp [State.voterD, h]
    · simp [State.voterD]
  refine ⟨_, rfl, ?_, ?_⟩
  · rw [hw.1]; exact hc.1
  · rw [hw.2]
    have := hc.2
    simp only [listed] at this
    simp only [List.map_cons, List.map_nil, List.sum_cons, List.sum_nil]
    omega

/-- With a repeated index the position that was moved to the freed place may go too, although it is not
listed: the indexes have to be distinct in `C26_listed`. -/
example : Voter.clear_fully_unlocked_positions
      ⟨0, [⟨1000000, 30, 0, some 1⟩, ⟨2000000, 60, 0, some 2⟩], 0, UMap.empty⟩ 400000000000 [0, 0]
      = .ok ⟨3000000, [], 0, UMap.empty⟩ := by rfl

example : Res.isOk (exec demoJ demo.st ⟨"me", "alice", 0, 11 * DAY, []⟩ (.clear_locking_position [1, 0])) = true ∧
    Res.isOk (exec demoJ demo.st ⟨"me", "alice", 1, 11 * DAY, []⟩ (.withdraw [1, 0] 3000000)) = true ∧
    [1, 0].Nodup := by decide +kernel

/-! ## C38 -/

/-- Locking `a` mpDAO for `d` days on account `id`: its positions of that period, its power and the total
grow by exactly `a` and the formula value; the rest of its record and the other records are kept. -/
structure LocksFor (s s' : State) (id : String) (a d : Nat) : Prop where
  min : s.min_unbond_period ≤ d
  max : d ≤ s.max_unbond_period
  amount : lockedAmount d (s'.voterD id).locking_positions
    = lockedAmount d (s.voterD id).locking_positions + a
  vp : lockedVpFor d (s'.voterD id).locking_positions
    = lockedVpFor d (s.voterD id).locking_positions + a * 10 ^ 18 * d / 60
  rest : restPositions d (s'.voterD id).locking_positions = restPositions d (s.voterD id).locking_positions
  avail : (s'.voterD id).available_voting_power
    = (s.voterD id).available_voting_power + a * 10 ^ 18 * d / 60
  total : s'.total_voting_power = s.total_voting_power + a * 10 ^ 18 * d / 60
  votes : (s'.voterD id).vote_positions = (s.voterD id).vote_positions
  others : ∀ i, i ≠ id → s'.voters.get i = s.voters.get i

theorem deposit_locks {s s' : State} {v' : Voter} {a d : Nat} {id : String} {v : Voter}
    (hl : v.locking_positions = (s.voterD id).locking_positions)
    (ha : v.available_voting_power = (s.voterD id).available_voting_power)
    (hv : v.vote_positions = (s.voterD id).vote_positions)
    (h : s.deposit_locking_position a d id v = .ok (s', v')) :
    LocksFor s s' id a d ∧ (s'.voterD id).balance = v.balance ∧
      s' = { s with voters := s'.voters, total_voting_power := s'.total_voting_power } := by
  obtain ⟨vp, ps, h1, h2, -, -, h5, rfl, rfl⟩ := deposit_ok h
  obtain ⟨-, -, -, rfl⟩ := (C01_formula _ _ _).1 h1
  obtain ⟨l1, l2, l3⟩ := h5.locked
  rw [hl] at l1 l2 l3
  refine ⟨⟨h2.1, h2.2, ?_, ?_, ?_, ?_, rfl, ?_, fun i hi => UMap.get_insert_ne _ _ hi⟩, ?_, rfl⟩
  · simpa [State.voterD] using l1
  · simpa [State.voterD] using l2
  · simpa [State.voterD] using l3
  · simp only [State.voterD, UMap.get_insert_self, Option.getD_some] at ha ⊢; rw [ha]
  · simp only [State.voterD, UMap.get_insert_self, Option.getD_some] at hv ⊢; rw [hv]
  · simp [State.voterD]

/-- **C38**: an accepted transfer that is not a distribution comes from the mpDAO token, is at least the
minimum deposit, is credited in full (nothing is returned) to the voter and period named by the message: a
number credits the sender, `[voter, days]` the named voter and only for the owner; nothing else changes. -/
theorem C38_deposit {J : Json} {s s' : State} {c : Ctx} {se : String} {a : Nat} {m : List UInt8}
    {out : List Transfer} (hm : ¬ forClaims m) (hx : exec J s c (.ft_on_transfer se a m) = .ok (s', out)) :
    out = [] ∧ c.predecessor = s.mpdao_token_contract_address ∧ s.min_deposit_amount ≤ a ∧
    ∃ id d, ((m.head? = some 91 ∧ J.pair m = some (id, d) ∧ d ≤ U16_MAX ∧ se = s.owner_id) ∨
        (m.head? ≠ some 91 ∧ isDays m d ∧ id = se)) ∧
      LocksFor s s' id a d ∧ (s'.voterD id).balance = (s.voterD id).balance ∧
      s' = { s with voters := s'.voters, total_voting_power := s'.total_voting_power } := by
  obtain ⟨-, -, rfl, hf⟩ := ft_call_ok hx
  rcases ft_on_transfer_ok hf with ⟨info, hp, -⟩ | ⟨t, v', -, hp, ht, hmin, hd⟩
  · exact absurd (has_prefix_true hp) hm
  · obtain ⟨h1, h2, h3⟩ := deposit_locks rfl rfl rfl hd
    refine ⟨rfl, hp, hmin, t.1, t.2, ?_, h1, h2, h3⟩
    rcases deposit_target_ok ht with ⟨hb, hpair, ho⟩ | ⟨hb, h1, hd⟩
    · obtain ⟨e1, e2⟩ := parse_pair_some hpair
      refine .inl ⟨?_, e1, e2, ho⟩
      obtain ⟨r, rfl⟩ := hb; rfl
    · refine .inr ⟨?_, (parse_u16_iff _ _).1 hd, h1⟩
      intro hh
      apply hb
      cases m with
      | nil => simp at hh
      | cons x r => simp only [List.head?_cons, Option.some.injEq] at hh; subst hh; exact ⟨r, rfl⟩

/-- A deposit by number is accepted when it is within the limits and no counter overflows. -/
theorem deposit_accepted {J : Json} {s : State} {se : String}
    (hcount : s.max_locking_positions ≤ U8_MAX ∧ (s.voterD se).locking_positions.length ≤ s.max_locking_positions)
    (havail : (s.voterD se).available_voting_power ≤ s.total_voting_power) {c : Ctx}
    {a d : Nat} {m : List UInt8} (hm : isDays m d) (hc : c.predecessor = s.mpdao_token_contract_address)
    (hdep : c.deposit = 0) (hmin : s.min_deposit_amount ≤ a) (h1 : s.min_unbond_period ≤ d)
    (h2 : d ≤ s.max_unbond_period) (h3600 : d < 3600)
    (hroom : (s.voterD se).locking_positions.length < s.max_locking_positions ∨
      ∃ p ∈ (s.voterD se).locking_positions, isLockedFor d p = true)
    (hfit : (s.voterD se).inPositions + a ≤ U128_MAX) (ha : a * 10 ^ 18 < 2 ^ 128)
    (hvp : (s.voterD se).lockedVp + a * 10 ^ 18 * d / 60 ≤ U128_MAX)
    (htot : s.total_voting_power + a * 10 ^ 18 * d / 60 ≤ U128_MAX) :
    ∃ s', exec J s c (.ft_on_transfer se a m) = .ok (s', []) := by
  obtain ⟨ds, hne, hds, hdig, hn, hu⟩ := id hm
  have hcalc : calculate_voting_power a d = .ok (a * 10 ^ 18 * d / 60) :=
    (C01_formula _ _ _).2 ⟨h3600, ha, by simp only [U128_MAX] at htot; omega, rfl⟩
  obtain ⟨h8, hlen8⟩ := hcount
  obtain ⟨b0, bs, hb⟩ : ∃ b0 bs, m = b0 :: bs ∧ (b0 = 43 ∨ (48 ≤ b0.toNat ∧ b0.toNat ≤ 57)) := by
    rcases hds with rfl | rfl
    · cases m with
      | nil => exact absurd rfl hne
      | cons x r => exact ⟨x, r, rfl, .inr (hdig x (by simp))⟩
    · exact ⟨43, ds, rfl, .inl rfl⟩
  have hb1 : ∀ k : UInt8, (k = 91 ∨ k = 102) → b0 ≠ k := by
    rintro k hk rfl
    rcases hb.2 with rfl | ⟨h1, h2⟩
    · rcases hk with hk | hk <;> exact absurd hk (by decide)
    · rcases hk with rfl | rfl <;> revert h2 <;> decide
  have hasc : ∀ x ∈ m, x &&& 0xC0 ≠ 0x80 := by
    intro x hx
    have : x = 43 ∨ x ∈ ds := by
      rcases hds with rfl | rfl
      · exact .inr hx
      · simpa using hx
    rcases this with rfl | hx
    · decide
    · have := hdig x hx
      intro hc
      have hlt : x.toNat < 64 := by omega
      have : (x &&& 0xC0).toNat = 0 := by
        rw [UInt8.toNat_and]
        have : x.toNat = x.toNat % 2 ^ 6 := by omega
        rw [this]
        show (x.toNat % 2 ^ 6) &&& 192 = 0
        have e : (192 : Nat) = 3 <<< 6 := by decide
        rw [e]
        apply Nat.eq_of_testBit_eq
        intro i
        rw [Nat.testBit_and, Nat.testBit_mod_two_pow, Nat.testBit_shiftLeft]
        by_cases hi : i < 6
        · have : ¬ 6 ≤ i := by omega
          simp [this]
        · simp [hi]
      rw [hc] at this
      exact absurd this (by decide)
  have hpre : ∀ k : UInt8, (k = 91 ∨ k = 102) → ∀ ks, has_prefix m (k :: ks) = .ok false := by
    intro k hk ks
    unfold has_prefix
    split
    · rename_i hl
      simp only [bind_ok_iff, require_ok_iff, pure_ok_iff]
      refine ⟨(), ?_, ?_⟩
      · unfold is_char_boundary
        cases hx : m[(k :: ks).length]? with
        | none => have := List.getElem?_eq_none_iff.1 hx; simp at this ⊢; simp at hl; omega
        | some x => simpa using hasc x (List.mem_of_getElem? hx)
      · rw [hb.1]
        simp only [List.length_cons, List.take_succ_cons, List.cons.injEq, decide_eq_false_iff_not, not_and]
        exact fun e => absurd e (hb1 k hk)
    · rfl
  have hdepo : ∃ r, s.deposit_locking_position a d se (s.voterD se) = .ok r := by
    simp only [State.deposit_locking_position, bind_ok_iff, require_ok_iff, pure_ok_iff]
    cases hf : (s.voterD se).find_locked_position d with
    | none =>
      have hlt : (s.voterD se).locking_positions.length < s.max_locking_positions := by
        rcases hroom with h | ⟨p, hp, hl⟩
        · exact h
        · simp only [isLockedFor, decide_eq_true_eq] at hl
          exact absurd hl.1 (find_locked_none hf p hp hl.2)
      simp only [State.internal_create_locking_position, bind_ok_iff, require_ok_iff, addU128_ok_iff,
        pure_ok_iff]
      exact ⟨_, (), ⟨h1, h2⟩, _, ⟨(), by simp only [U8_MAX] at h8; omega, (), hf, _, hcalc, _,
        ⟨by omega, rfl⟩, _, ⟨htot, rfl⟩, rfl⟩, rfl⟩
    | some i =>
      obtain ⟨p, hp, hd', hl'⟩ := find_locked_some hf
      have e1 : p.amount ≤ (s.voterD se).inPositions := by
        unfold Voter.inPositions posSum
        exact le_sum_mem (List.mem_map.2 ⟨p, List.mem_of_getElem? hp, rfl⟩)
      have e2 : p.voting_power ≤ (s.voterD se).lockedVp := by
        unfold Voter.lockedVp posSum
        exact le_sum_mem (List.mem_map.2 ⟨p, List.mem_of_getElem? hp, by simp [hl']⟩)
      simp only [State.increase_locking_position, bind_ok_iff, get_position_ok, addU128_ok_iff,
        pure_ok_iff]
      exact ⟨_, (), ⟨h1, h2⟩, _, ⟨_, hcalc, p, hp, _, ⟨by omega, rfl⟩, _, ⟨by omega, rfl⟩, _,
        ⟨by simp only [Voter.replace_position]; omega, rfl⟩, _, ⟨htot, rfl⟩, rfl⟩, rfl⟩
  obtain ⟨r, hr⟩ := hdepo
  have hft : s.ft_on_transfer J c se a m = .ok r.1 := by
    simp only [State.ft_on_transfer, bind_ok_iff]
    refine ⟨false, hpre 102 (.inr rfl) _, ?_⟩
    simp only [Bool.false_eq_true, if_false, bind_ok_iff, require_ok_iff, State.assert_min_deposit_amount,
      pure_ok_iff, internal_get_voter_eq]
    refine ⟨(), hc, (se, d), ?_, (), hmin, r, hr, rfl⟩
    simp only [State.deposit_target, bind_ok_iff]
    refine ⟨false, hpre 91 (.inl rfl) _, ?_⟩
    simp only [Bool.false_eq_true, if_false, bind_ok_iff, expect_ok_iff, pure_ok_iff]
    exact ⟨d, (parse_u16_iff _ _).2 hm, rfl⟩
  exact ⟨r.1, exec_ok.2 ⟨.inr hdep, by simp [Call.is_private], by
    simp only [Call.in_range, decide_eq_true_eq]; omega, by
    simp only [run, quiet_ok]; exact ⟨hft, trivial⟩⟩⟩

/-- **C38**: and a deposit by number is accepted when it is within the limits and no counter overflows. -/
theorem C38_accepted {J : Json} {me : AccountId} {w : World} (h : Reach J me w) {c : Ctx} {se : String}
    {a d : Nat} {m : List UInt8} (hm : isDays m d) (hc : c.predecessor = w.st.mpdao_token_contract_address)
    (hdep : c.deposit = 0) (hmin : w.st.min_deposit_amount ≤ a) (h1 : w.st.min_unbond_period ≤ d)
    (h2 : d ≤ w.st.max_unbond_period) (h3600 : d < 3600)
    (hroom : (w.st.voterD se).locking_positions.length < w.st.max_locking_positions ∨
      ∃ p ∈ (w.st.voterD se).locking_positions, isLockedFor d p = true)
    (hfit : (w.st.voterD se).inPositions + a ≤ U128_MAX) (ha : a * 10 ^ 18 < 2 ^ 128)
    (hvp : (w.st.voterD se).lockedVp + a * 10 ^ 18 * d / 60 ≤ U128_MAX)
    (htot : w.st.total_voting_power + a * 10 ^ 18 * d / 60 ≤ U128_MAX) :
    ∃ s', exec J w.st c (.ft_on_transfer se a m) = .ok (s', []) := by
  have hk := (reach_vinv h).voterOK se
  have havail : (w.st.voterD se).available_voting_power ≤ w.st.total_voting_power := by
    have := (reach_vinv h).power_le_total se
    unfold Voter.power at this
    omega
  exact deposit_accepted ⟨(reach_vinv h).max8, hk.count⟩ havail hm hc hdep hmin h1 h2 h3600 hroom hfit ha hvp htot

/-- Messages by number and by pair; from another token, below the minimum, by pair for someone who is not the
owner, and with a word instead of a number. -/
example :
    Res.isOk (exec demoJ demo.st ⟨"me", "mpdao", 0, DAY, []⟩ (.ft_on_transfer "dave" 5000000 (ascii "60"))) = true ∧
    Res.isOk (exec demoJ demo.st ⟨"me", "mpdao", 0, DAY, []⟩ (.ft_on_transfer "owner" 5000000 [91, 49])) = true ∧
    Res.isOk (exec demoJ demo.st ⟨"me", "other", 0, DAY, []⟩ (.ft_on_transfer "dave" 5000000 (ascii "60"))) = false ∧
    Res.isOk (exec demoJ demo.st ⟨"me", "mpdao", 0, DAY, []⟩ (.ft_on_transfer "dave" 999999 (ascii "60"))) = false ∧
    Res.isOk (exec demoJ demo.st ⟨"me", "mpdao", 0, DAY, []⟩ (.ft_on_transfer "dave" 5000000 [91, 49])) = false ∧
    Res.isOk (exec demoJ demo.st ⟨"me", "mpdao", 0, DAY, []⟩ (.ft_on_transfer "dave" 5000000 (ascii "x"))) = false := by
  decide +kernel

example : isDays (ascii "60") 60 ∧ ¬ forClaims (ascii "60") := by
  refine ⟨(parse_u16_iff _ _).1 (by decide), by decide⟩

/-! ## C39 -/

/-- **C39**: `claim_and_lock` moves exactly the amount from the claim of the caller to its positions of the
chosen period; what the contract owes to every account is unchanged. -/
theorem C39_claim_and_lock {J : Json} {s s' : State} {c : Ctx} {a d : Nat} {out : List Transfer}
    (hx : exec J s c (.claim_and_lock a d) = .ok (s', out)) :
    out = [] ∧ s.min_deposit_amount ≤ a ∧
    a ≤ s.get_claimable_mpdao c.predecessor ∧
    (∀ i, s'.get_claimable_mpdao i
      = if i = c.predecessor then s.get_claimable_mpdao i - a else s.get_claimable_mpdao i) ∧
    s'.get_total_unclaimed_mpdao + a = s.get_total_unclaimed_mpdao ∧
    LocksFor s s' c.predecessor a d ∧
    (s'.voterD c.predecessor).balance = (s.voterD c.predecessor).balance ∧
    (∀ i, owedMp s' i = owedMp s i) ∧
    s' = { s with
      voters := s'.voters
      total_voting_power := s'.total_voting_power
      claimable_mpdao := s'.claimable_mpdao
      total_unclaimed_mpdao := s'.total_unclaimed_mpdao } := by
  obtain ⟨-, -, -, hr⟩ := exec_ok.1 hx
  simp only [run, quiet_ok] at hr
  obtain ⟨hr, rfl⟩ := hr
  obtain ⟨hmin, s1, v, h1, hv, v', h2⟩ := claim_and_lock_ok hr
  obtain ⟨hle, htot, hs1⟩ := remove_claimable_mpdao_ok h1
  have hv1 : s1.voters = s.voters := by rw [hs1]
  have hD : ∀ i, s1.voterD i = s.voterD i := fun i => by unfold State.voterD; rw [hv1]
  have hvD : v = s1.voterD c.predecessor := by rw [hD, voterD_of_get hv]
  obtain ⟨hl, hb, hs⟩ := deposit_locks (v := v) (by rw [hvD]) (by rw [hvD]) (by rw [hvD]) h2
  have hcl : s'.claimable_mpdao = take s.claimable_mpdao c.predecessor a := by rw [hs, hs1]
  have hun : s'.total_unclaimed_mpdao = s.total_unclaimed_mpdao - a := by rw [hs, hs1]
  have hget : ∀ i, s'.get_claimable_mpdao i
      = if i = c.predecessor then s.get_claimable_mpdao i - a else s.get_claimable_mpdao i := by
    intro i
    show (s'.claimable_mpdao.get i).getD 0 = _
    rw [hcl, take_get]
    by_cases hi : i = c.predecessor
    · subst hi; simp [State.get_claimable_mpdao]
    · simp [hi, State.get_claimable_mpdao]
  have hlk : LocksFor s s' c.predecessor a d := by
    refine ⟨?_, ?_, ?_, ?_, ?_, ?_, ?_, ?_, ?_⟩
    · have := hl.min; rw [hs1] at this; exact this
    · have := hl.max; rw [hs1] at this; exact this
    · have := hl.amount; rwa [hD] at this
    · have := hl.vp; rwa [hD] at this
    · have := hl.rest; rwa [hD] at this
    · have := hl.avail; rwa [hD] at this
    · have := hl.total; rw [hs1] at this; exact this
    · have := hl.votes; rwa [hD] at this
    · intro i hi; rw [hl.others i hi, hv1]
  have hbal : (s'.voterD c.predecessor).balance = (s.voterD c.predecessor).balance := by
    rw [hb, hvD, hD]
  refine ⟨rfl, hmin, hle, hget, ?_, hlk, hbal, ?_, ?_⟩
  · show s'.total_unclaimed_mpdao + a = s.total_unclaimed_mpdao
    rw [hun]; omega
  · intro i
    have hg := hget i
    unfold owedMp claimOf
    simp only [State.get_claimable_mpdao] at hg
    rw [hg]
    by_cases hi : i = c.predecessor
    · subst hi
      rw [if_pos rfl]
      obtain ⟨vp, ps, -, -, -, -, h5, rfl, rfl⟩ := deposit_ok h2
      have h6 := h5.posSum.2
      rw [hvD, hD] at h6
      simp only [State.voterD, UMap.get_insert_self, Option.getD_some, Voter.held, Voter.inPositions] at h6 ⊢
      rw [hv] at h6 ⊢
      simp only [Option.getD_some] at h6 ⊢
      omega
    · rw [if_neg hi]
      have : s'.voterD i = s.voterD i := by unfold State.voterD; rw [hlk.others i hi]
      rw [this]
  · rw [hs, hs1]

example : Res.isOk (exec demoJ demo.st ⟨"me", "alice", 0, DAY, []⟩ (.claim_and_lock 2000000 60)) = true ∧
    Res.isOk (exec demoJ demo.st ⟨"me", "alice", 0, DAY, []⟩ (.claim_and_lock 5000001 60)) = false ∧
    demo.st.get_claimable_mpdao "alice" = 5000000 := by decide +kernel

/-! ## C40 -/

/-- Taking `a` stNEAR from the claim of `id` to pay it to `to`. -/
structure ClaimsSt (s s' : State) (id receiver : String) (a : Nat) (out : List Transfer) : Prop where
  out : out = [⟨s.stnear_token_contract_address, receiver, a, .after_transfer_stnear id a⟩]
  fits : a ≤ s.get_claimable_stnear id
  claims : ∀ i, s'.get_claimable_stnear i
    = if i = id then s.get_claimable_stnear i - a else s.get_claimable_stnear i
  total : s'.total_unclaimed_stnear + a = s.total_unclaimed_stnear
  frame : s' = { s with
    claimable_stnear := s'.claimable_stnear
    total_unclaimed_stnear := s'.total_unclaimed_stnear }

theorem remove_claims {s s' : State} {id receiver : String} {a : Nat}
    (h : s.remove_claimable_stnear id a = .ok s') : ClaimsSt s s' id receiver a
      [⟨s.stnear_token_contract_address, receiver, a, .after_transfer_stnear id a⟩] := by
  obtain ⟨h1, h2, rfl⟩ := remove_claimable_stnear_ok h
  refine ⟨rfl, h1, ?_, by simp only; omega, rfl⟩
  intro i
  show ((take s.claimable_stnear id a).get i).getD 0 = _
  rw [take_get]
  by_cases hi : i = id
  · subst hi; simp [State.get_claimable_stnear]
  · simp [hi, State.get_claimable_stnear]

/-- **C40**: an accepted `claim_stnear` takes exactly the amount from the claim of the caller and starts
exactly one transfer, of that amount, of stNEAR, to the caller; nothing else changes.  It is accepted exactly
when the claim covers the amount. -/
theorem C40_claim {J : Json} {me : AccountId} {w : World} (h : LReach J me w) (c : Ctx) (a : Nat) (hdep : c.deposit = 0)
    (ha : a ≤ U128_MAX) :
    (∀ s' out, exec J w.st c (.claim_stnear a) = .ok (s', out) → ClaimsSt w.st s' c.predecessor c.predecessor a out) ∧
    (Res.isOk (exec J w.st c (.claim_stnear a)) = true ↔ a ≤ w.st.get_claimable_stnear c.predecessor) := by
  have hfw : ∀ s' out, exec J w.st c (.claim_stnear a) = .ok (s', out) →
      ClaimsSt w.st s' c.predecessor c.predecessor a out := by
    intro s' out hx
    obtain ⟨-, -, -, hr⟩ := exec_ok.1 hx
    simp only [run, sends_ok] at hr
    obtain ⟨t, ht, rfl⟩ := hr
    obtain ⟨h, rfl⟩ := claim_stnear_ok ht
    exact remove_claims h
  refine ⟨hfw, ?_⟩
  constructor
  · intro hok
    cases hx : exec J w.st c (.claim_stnear a) with
    | error e => rw [hx] at hok; simp [Res.isOk] at hok
    | ok r => exact (hfw r.1 r.2 hx).fits
  · intro hle
    have hle' : a ≤ w.st.total_unclaimed_stnear := by
      have := claimOf_le_sum w.st.claimable_stnear c.predecessor
      rw [← (lreach_cinv h).stnear] at this
      exact le_trans hle this
    have : ∃ r, w.st.claim_stnear c a = .ok r := by
      simp only [State.claim_stnear, bind_ok_iff, pure_ok_iff, State.remove_claimable_stnear,
        remove_claimable, subU_ok_iff, require_ok_iff]
      exact ⟨_, _, ⟨_, ⟨(), hle, _, ⟨hle, rfl⟩, _, ⟨hle', rfl⟩, rfl⟩, rfl⟩, rfl⟩
    obtain ⟨r, hr⟩ := this
    have hx : exec J w.st c (.claim_stnear a) = .ok (r.1, [r.2]) := exec_ok.2 ⟨.inr hdep, by simp [Call.is_private], by
      simpa only [Call.in_range, decide_eq_true_eq] using ha, by
      simp only [run, sends_ok]; exact ⟨r.2, hr, rfl⟩⟩
    rw [hx]; rfl

/-- **C40**: an accepted `delegated_claim_stnear` comes from an account to which the EVM address is delegated,
takes exactly the amount from the claim of the mirrored account and pays exactly that amount to the caller. -/
theorem C40_delegated {J : Json} {s s' : State} {c : Ctx} {e : String} {a : Nat} {out : List Transfer}
    (hx : exec J s c (.delegated_claim_stnear e a) = .ok (s', out)) :
    e ∈ s.get_delegating_evm_addresses c.predecessor ∧
    ClaimsSt s s' (pseudo_near_address e) c.predecessor a out := by
  obtain ⟨-, -, -, hr⟩ := exec_ok.1 hx
  simp only [run, sends_ok] at hr
  obtain ⟨t, ht, rfl⟩ := hr
  obtain ⟨he, h, rfl⟩ := delegated_claim_ok ht
  exact ⟨he, remove_claims h⟩

/-- **C40**: when the transfer fails, the claim gets back exactly the amount, whatever happened in between
(as long as the stNEAR owed fits a `u128`); when it succeeds nothing changes. -/
theorem C40_restore {J : Json} {me : AccountId} {w : World} (h : LReach J me w) {pre post : List Transfer}
    {t : Transfer} (hp : w.pending = pre ++ t :: post) (hm : t.isMpdao = false) {ts : Nat} {ok : Bool}
    (hc : w.clock ≤ ts) (hu : ts ≤ U64_MAX)
    (hb : w.st.total_unclaimed_stnear + amounts (fun t => !t.isMpdao) w.pending ≤ U128_MAX) :
    ∃ w', Step J me w w' ∧ w'.pending = pre ++ post ∧
      (∃ r, w'.log = .resolved t ok r :: w.log) ∧
      (∀ i, w'.st.get_claimable_stnear i
        = w.st.get_claimable_stnear i + if ok = false ∧ i = t.source then t.amount else 0) ∧
      w'.st = { w.st with
        claimable_stnear := w'.st.claimable_stnear
        total_unclaimed_stnear := w.st.total_unclaimed_stnear + if ok = false then t.amount else 0 } := by
  obtain ⟨src, hcb⟩ := ((lreach_ledger h).pending t (by rw [hp]; simp)).stnear hm
  have hsrc : t.source = src := by unfold Transfer.source; rw [hcb]
  have hcc : t.callbackCall = .after_transfer_stnear_callback src t.amount := by
    unfold Transfer.callbackCall; rw [hcb]
  have h2 : t.amount ≤ amounts (fun t => !t.isMpdao) w.pending := by
    have : t.amount = (fun t : Transfer => if (!t.isMpdao) = true then t.amount else 0) t := by simp [hm]
    rw [this]
    exact le_sum_mem (List.mem_map.2 ⟨t, by rw [hp]; simp, rfl⟩)
  refine ⟨_, Step.resolve w pre post t ok ts hp hc hu, rfl, ⟨_, rfl⟩, ?_⟩
  simp only
  rw [hcc, hsrc]
  cases ok with
  | true =>
    have hx : exec J w.st ⟨me, me, 0, ts, [true]⟩ (.after_transfer_stnear_callback src t.amount)
        = .ok (w.st, []) := by
      refine exec_ok.2 ⟨.inr rfl, fun _ => rfl, by simp only [Call.in_range, decide_eq_true_eq]; omega, ?_⟩
      simp only [run, quiet_ok, State.after_transfer_stnear_callback, List.head?_cons, bind_ok_iff,
        expect_ok_iff, Option.some.injEq, exists_eq_left', if_true, pure_ok_iff]
      exact ⟨trivial, trivial⟩
    rw [hx]
    simp [Res.getOr]
  | false =>
    by_cases h0 : t.amount = 0
    · have hx : ∃ e, exec J w.st ⟨me, me, 0, ts, [false]⟩ (.after_transfer_stnear_callback src t.amount)
          = .error e := by
        cases hx : exec J w.st ⟨me, me, 0, ts, [false]⟩ (.after_transfer_stnear_callback src t.amount) with
        | error e => exact ⟨e, rfl⟩
        | ok r =>
          exfalso
          obtain ⟨s', out⟩ := r
          obtain ⟨-, -, -, hr⟩ := exec_ok.1 hx
          simp only [run, quiet_ok] at hr
          rcases callback_stnear_ok hr.1 with ⟨hp, -⟩ | ⟨-, hw⟩
          · simp at hp
          · have := (add_claimable_stnear_ok hw).1; omega
      obtain ⟨e, hx⟩ := hx
      rw [hx, h0]
      simp [Res.getOr]
    · obtain ⟨s', hx⟩ := callback_st_succeeds (J := J) (me := me) (ts := ts) (id := src) (a := t.amount)
        (lreach_cinv h) (by omega) (by omega)
      rw [hx]
      simp only [Res.getOr]
      obtain ⟨-, -, -, hr⟩ := exec_ok.1 hx
      simp only [run, quiet_ok] at hr
      rcases callback_stnear_ok hr.1 with ⟨hp, -⟩ | ⟨-, hw⟩
      · simp at hp
      · obtain ⟨-, -, rfl⟩ := add_claimable_stnear_ok hw
        refine ⟨?_, by simp⟩
        intro i
        simp only [State.get_claimable_stnear, UMap.get_insert]
        by_cases hi : i = src
        · subst hi; simp
        · simp [hi, Ne.symm hi]

/-- Bob has a claim of stNEAR in flight. -/
def claiming : World := (runs demoJ "me" demo
  [.call "bob" 0 (11 * DAY + 3) (.claim_stnear 300000000000000000000)]).get (by decide +kernel)

/-- The hypotheses of the C40 theorems are met; a claim above the rest is refused. -/
example : Reach demoJ "me" claiming ∧
    claiming.pending = [] ++ ⟨"stnear", "bob", 300000000000000000000,
      .after_transfer_stnear "bob" 300000000000000000000⟩ :: [] ∧
    claiming.st.total_unclaimed_stnear + amounts (fun t => !t.isMpdao) claiming.pending ≤ U128_MAX ∧
    demo.st.get_claimable_stnear "bob" = 700000000000000000000 ∧
    Res.isOk (exec demoJ claiming.st ⟨"me", "bob", 0, 12 * DAY, []⟩ (.claim_stnear 400000000000000000001)) = false :=
  ⟨demo_reach.steps (steps_of_runs (Option.some_get _).symm), by decide +kernel, by decide +kernel,
    by decide +kernel, by decide +kernel⟩

/-! ## C41 -/

/-- Exactly one of three. -/
def exactlyOne (a b c : Bool) : Prop :=
  (a = true ∧ b = false ∧ c = false) ∨ (a = false ∧ b = true ∧ c = false) ∨
  (a = false ∧ b = false ∧ c = true)

/-- **C41**: at any time every reported position is exactly one of locked, unlocking and unlocked: locked as
long as no unlocking was started, unlocking until the end of the period, unlocked afterwards. -/
theorem C41_flags (s : State) (now : Nat) (id : String) (j : LockingPositionJSON)
    (h : j ∈ s.get_all_locking_positions now id) :
    exactlyOne j.is_locked j.is_unlocking j.is_unlocked ∧
    (j.is_locked = true ↔ j.unlocking_started_at = none) ∧
    (j.is_unlocked = true ↔ ∃ t, j.unlocking_started_at = some t ∧
      t + j.locking_period * 86400000 < now) := by
  have : ∃ p i, j = LockingPosition.to_json p now i := by
    unfold State.get_all_locking_positions positions_json at h
    obtain ⟨x, -, rfl⟩ := List.mem_map.1 h
    exact ⟨_, _, rfl⟩
  obtain ⟨p, i, rfl⟩ := this
  have h1 := is_locked_iff p
  have h2 := is_unlocking_iff p now
  have h3 := is_unlocked_iff p now
  refine ⟨?_, h1, h3⟩
  simp only [LockingPosition.to_json, exactlyOne]
  unfold LockingPosition.maturing at h2
  unfold LockingPosition.matured at h3
  cases hs : p.unlocking_started_at with
  | none => simp_all
  | some t =>
    simp only [hs, Option.some.injEq, exists_eq_left', reduceCtorEq, iff_false, Bool.not_eq_true] at h1 h2 h3
    by_cases hlt : t + p.locking_period * 86400000 < now
    · simp only [hlt, iff_true] at h3
      have : ¬ now ≤ t + p.locking_period * 86400000 := by omega
      simp only [this, iff_false, Bool.not_eq_true] at h2
      simp [h1, h2, h3]
    · simp only [hlt, iff_false, Bool.not_eq_true] at h3
      have : now ≤ t + p.locking_period * 86400000 := by omega
      simp only [this, iff_true] at h2
      simp [h1, h2, h3]

/-- **C41**: the three balances partition the mpDAO held for the voter: when the views return (they do
when the sum fits a `u128`) they add up to it. -/
theorem C41_partition (s : State) (now : Nat) (id : String) (h : (s.voterD id).held ≤ U128_MAX) :
    ∃ b l u, s.get_balance now id = .ok b ∧ s.get_locked_balance id = .ok l ∧
      s.get_unlocking_balance now id = .ok u ∧ b + l + u = (s.voterD id).held := by
  have hsum : ∀ ps : List LockingPosition,
      posSum (fun p => if p.matured now then p.amount else 0) ps
      + posSum (fun p => if p.is_locked = true then p.amount else 0) ps
      + posSum (fun p => if p.is_unlocking now = true then p.amount else 0) ps = posSum (·.amount) ps := by
    intro ps
    induction ps with
    | nil => rfl
    | cons p t ih =>
      simp only [posSum, List.map_cons, List.sum_cons] at *
      have : (if p.matured now then p.amount else 0) + (if p.is_locked = true then p.amount else 0)
          + (if p.is_unlocking now = true then p.amount else 0) = p.amount := by
        have h1 : p.is_locked = true ↔ p.unlocking_started_at = none := is_locked_iff p
        have h2 : p.is_unlocking now = true ↔ ∃ t, _ := is_unlocking_iff p now
        have h3 : p.matured now ↔ ∃ t, p.unlocking_started_at = some t ∧
          t + p.locking_period * 86400000 < now := Iff.rfl
        cases hs : p.unlocking_started_at with
        | none =>
          simp only [hs, reduceCtorEq, false_and, exists_false, iff_false, iff_true] at h1 h2 h3
          rw [if_neg h3, if_pos h1, if_neg h2]; omega
        | some x =>
          simp only [hs, Option.some.injEq, exists_eq_left', reduceCtorEq, iff_false] at h1 h2 h3
          rw [if_neg h1]
          by_cases hlt : x + p.locking_period * 86400000 < now
          · rw [if_pos (h3.2 hlt), if_neg (fun h => by have := h2.1 h; omega)]; omega
          · rw [if_neg (fun h => hlt (h3.1 h)), if_pos (h2.2 (by omega))]; omega
      omega
  have hs := hsum (s.voterD id).locking_positions
  have hle : (s.voterD id).withdrawable now
      + posSum (fun p => if p.is_locked = true then p.amount else 0) (s.voterD id).locking_positions
      + posSum (fun p => if p.is_unlocking now = true then p.amount else 0) (s.voterD id).locking_positions
      = (s.voterD id).held := by
    unfold Voter.withdrawable Voter.held Voter.inPositions; omega
  refine ⟨(s.voterD id).withdrawable now,
    posSum (fun p => if p.is_locked = true then p.amount else 0) (s.voterD id).locking_positions,
    posSum (fun p => if p.is_unlocking now = true then p.amount else 0) (s.voterD id).locking_positions,
    (get_balance_ok_iff _ _ _ _).2 ⟨by omega, rfl⟩, ?_, ?_, hle⟩
  · simp only [State.get_locked_balance, internal_get_voter_eq, Voter.sum_locked, sumU128_ok_iff, filter_sum]
    exact ⟨by omega, trivial⟩
  · simp only [State.get_unlocking_balance, internal_get_voter_eq, Voter.sum_unlocking, sumU128_ok_iff,
      filter_sum]
    exact ⟨by omega, trivial⟩

/-- **C41**: and conversely, whatever they return adds up to it. -/
theorem C41_sum {s : State} {now : Nat} {id : String} {b l u : Nat} (hb : s.get_balance now id = .ok b)
    (hl : s.get_locked_balance id = .ok l) (hu : s.get_unlocking_balance now id = .ok u)
    (h : (s.voterD id).held ≤ U128_MAX) : b + l + u = (s.voterD id).held := by
  obtain ⟨b', l', u', h1, h2, h3, h4⟩ := C41_partition s now id h
  rw [hb] at h1; rw [hl] at h2; rw [hu] at h3
  cases h1; cases h2; cases h3
  exact h4

example : (demo.st.voterD "alice").held ≤ U128_MAX ∧
    demo.st.get_balance (5 * DAY / 1000000) "alice" = .ok 0 ∧
    demo.st.get_locked_balance "alice" = .ok 60000000 ∧
    demo.st.get_unlocking_balance (5 * DAY / 1000000) "alice" = .ok 10000000 ∧
    demo.st.get_balance (11 * DAY / 1000000) "alice" = .ok 10000000 := by decide +kernel

end Verif.MetaVote
