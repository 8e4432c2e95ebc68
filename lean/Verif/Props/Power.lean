import Verif.MetaVote.Ledger
import Verif.MetaVote.Guard

/-!
# Voting power: C01, C02, C03, C04, C05, C11, C34, C35, C36
-/

namespace Verif.MetaVote

open Verif

/-! ## C01 -/

/-- **C01**: the power of `a` mpDAO locked for `d` days is exactly `⌊a·10^18·d/60⌋`, and the
computation is rejected exactly when `d ≥ 3600`, `a·10^18` or the result does not fit a `u128`. -/
theorem C01_formula (a d n : Nat) : calculate_voting_power a d = .ok n ↔
    d < 3600 ∧ a * 10 ^ 18 < 2 ^ 128 ∧ a * 10 ^ 18 * d / 60 < 2 ^ 128 ∧ n = a * 10 ^ 18 * d / 60 := by
  have e : E18 = 10 ^ 18 := by decide
  have hm : ∀ x, x ≤ U128_MAX ↔ x < 2 ^ 128 := by intro x; simp only [U128_MAX]; omega
  simp only [calculate_voting_power, proportional, bind_ok_iff, mulU128_ok_iff, require_ok_iff,
    pure_ok_iff, e, hm]
  constructor
  · rintro ⟨x, ⟨h1, rfl⟩, -, h2, -, -, -, h3, rfl⟩
    exact ⟨h2, h1, h3, rfl⟩
  · rintro ⟨h1, h2, h3, rfl⟩
    exact ⟨_, ⟨h2, rfl⟩, (), h1, (), by decide, (), h3, rfl⟩

example : calculate_voting_power 1000000 60 = .ok 1000000000000000000000000 := by decide
example : ∃ e, calculate_voting_power 1000000 3600 = .error e := ⟨_, rfl⟩

/-- **C01**: more mpDAO or more days never give less power. -/
theorem C01_monotone {a a' d d' n n' : Nat} (ha : a ≤ a') (hd : d ≤ d')
    (h : calculate_voting_power a d = .ok n) (h' : calculate_voting_power a' d' = .ok n') : n ≤ n' := by
  obtain ⟨-, -, -, rfl⟩ := (C01_formula _ _ _).1 h
  obtain ⟨-, -, -, rfl⟩ := (C01_formula _ _ _).1 h'
  exact Nat.div_le_div_right (Nat.mul_le_mul (Nat.mul_le_mul_right _ ha) hd)

/-- **C01**: splitting an amount in two never gains power and loses at most one unit. -/
theorem C01_split {a b d n m k : Nat} (ha : calculate_voting_power a d = .ok n)
    (hb : calculate_voting_power b d = .ok m) (hab : calculate_voting_power (a + b) d = .ok k) :
    n + m ≤ k ∧ k ≤ n + m + 1 := by
  obtain ⟨-, -, -, rfl⟩ := (C01_formula _ _ _).1 ha
  obtain ⟨-, -, -, rfl⟩ := (C01_formula _ _ _).1 hb
  obtain ⟨-, -, -, rfl⟩ := (C01_formula _ _ _).1 hab
  have key : ∀ x y z : Nat, z = x + y → x / 60 + y / 60 ≤ z / 60 ∧ z / 60 ≤ x / 60 + y / 60 + 1 := by
    intro x y z h; omega
  exact key _ _ _ (by rw [Nat.add_mul, Nat.add_mul])

example : calculate_voting_power 1 1 = .ok 16666666666666666 ∧
    calculate_voting_power 2 1 = .ok 33333333333333333 := by decide

/-! ## C02 -/

/-- **C02** (map level): in every reachable state the total votes of an object are the sum over the
voters of their votes for it.  Partial: `UMap` gives every (voter, app) pair its own storage; see
`Verif.Props.Storage` for what the storage layout of the code does to this property. -/
theorem C02_total_votes_partial {J : Json} {me : AccountId} {w : World} (h : Reach J me w)
    (app obj : String) :
    w.st.get_total_votes app obj = sumVoters w.st (fun id => w.st.get_votes_for_object id app obj) := by
  rw [get_total_votes_eq, (reach_vinv h).votes]
  simp only [get_votes_for_object_eq]
  exact (sumVoters_eq w.st (fun v => v.votesOf app obj)).symm

/-- **C02**: accounts that are not voters have no votes. -/
theorem C02_nonvoters (s : State) {id : String} (h : id ∉ s.voters.keys) (app obj : String) :
    s.get_votes_for_object id app obj = 0 := by
  rw [get_votes_for_object_eq, State.voterD, UMap.get_eq_none_iff.2 h]; rfl

example : Reach demoJ "me" demo ∧ demo.st.get_total_votes "app" "obj #1 x" = 35000000000000000000000000 ∧
    demo.st.get_votes_for_object "alice" "app" "obj #1 x" = 20000000000000000000000000 :=
  ⟨demo_reach, by decide +kernel, by decide +kernel⟩

/-! ## C03, C04 -/

/-- **C03** (map level): available plus used power is at most the power of the locked positions. -/
theorem C03_power_le_locked_partial {J : Json} {me : AccountId} {w : World} (h : Reach J me w)
    (id : String) (now : Nat) :
    ∃ used, w.st.get_used_voting_power id = .ok used ∧
      w.st.get_available_voting_power id + used ≤ lockedPower (w.st.get_all_locking_positions now id) := by
  refine ⟨_, reach_used h id, ?_⟩
  rw [lockedPower_view, get_available_eq]
  exact ((reach_vinv h).voterOK id).power

example : lockedPower (demo.st.get_all_locking_positions 11 "alice") = 60000000000000000000000000 ∧
    demo.st.get_available_voting_power "alice" = 35000000000000000000000000 ∧
    demo.st.get_used_voting_power "alice" = .ok 25000000000000000000000000 := by
  refine ⟨by decide +kernel, by decide +kernel, by decide +kernel⟩

/-- Alice locks 60 mpDAO for 60 days and 10 for 10 days and unlocks the second position twice. -/
def doubleUnlock : List Action :=
  [ .call "mpdao" 0 1000 (.ft_on_transfer "alice" 60000000 (ascii "60")),
    .call "mpdao" 0 3000 (.ft_on_transfer "alice" 10000000 (ascii "10")),
    .call "alice" 0 4000 (.unlock_position 1),
    .call "alice" 0 5000 (.unlock_position 1) ]

def doubleUnlockW : World := (runs demoJ "me" demo0 doubleUnlock).get (by decide +kernel)

/-- **C04** is false of the code: unlocking a position that is already unlocking takes its power away
a second time. -/
theorem C04_false : ¬ ∀ (J : Json) (me : AccountId) (w : World), Reach J me w → ∀ id now used,
    w.st.get_used_voting_power id = .ok used →
    w.st.get_available_voting_power id + used = lockedPower (w.st.get_all_locking_positions now id) := by
  intro h
  have := h demoJ "me" doubleUnlockW (reach_of_runs demo0_init (Option.some_get _).symm) "alice" 0 0
    (by decide +kernel)
  revert this
  decide +kernel

/-- **C04** (partial): equality holds for a voter in every history in which that voter unlocks only locked positions. -/
theorem C04_exact_partial {J : Json} {me : AccountId} {w : World} {id : String} (h : ReachG J me (ownUnlocks id) w)
    (now : Nat) :
    ∃ used, w.st.get_used_voting_power id = .ok used ∧
      w.st.get_available_voting_power id + used = lockedPower (w.st.get_all_locking_positions now id) := by
  refine ⟨_, reach_used h.reach id, ?_⟩
  rw [lockedPower_view, get_available_eq]
  exact reachG_exact h

example : ∃ w, ReachG demoJ "me" (ownUnlocks "alice") w ∧ w.st.get_available_voting_power "alice" ≠ 0 :=
  ⟨(runsG demoJ "me" (ownUnlocks "alice") demo0 demoActs).get (by decide +kernel),
    reachG_of_runs (.init demo0_init) (Option.some_get _).symm, by decide +kernel⟩

/-! ## C05 -/

/-- **C05** (map level): the contract total is the sum over the voters of available plus used power. -/
theorem C05_total_power_partial {J : Json} {me : AccountId} {w : World} (h : Reach J me w) :
    ∃ used : String → Nat, (∀ id, w.st.get_used_voting_power id = .ok (used id)) ∧
      w.st.get_total_voting_power
        = sumVoters w.st (fun id => w.st.get_available_voting_power id + used id) := by
  refine ⟨fun id => (w.st.voterD id).used, fun id => reach_used h id, ?_⟩
  show w.st.total_voting_power = _
  rw [(reach_vinv h).total]
  exact (sumVoters_eq w.st Voter.power).symm

example : demo.st.get_total_voting_power = 83000000000000000000000000 := by decide +kernel

/-! ## C11 -/

/-- **C11**: no voter has more than `max_locking_positions` positions. -/
theorem C11_locking_positions {J : Json} {me : AccountId} {w : World} (h : LReach J me w)
    (id : String) (now : Nat) :
    (w.st.get_all_locking_positions now id).length ≤ w.st.get_contract_info.max_locking_positions ∧
    (w.st.get_all_locking_positions now id).length < 256 := by
  obtain ⟨h2, h1⟩ := lreach_count h id
  have h3 : (w.st.get_all_locking_positions now id).length = (w.st.voterD id).locking_positions.length := by
    simp [State.get_all_locking_positions, positions_json, internal_get_voter_eq]
  rw [h3]
  refine ⟨h1, ?_⟩
  simp only [U8_MAX] at h2
  omega

example : (demo.st.get_all_locking_positions 0 "alice").length = 2 := by decide +kernel

/-! ## C34, C35 -/

/-- **C34** is false of the code: after unlocking twice the same position, a voter without votes cannot
unlock its other position. -/
theorem C34_false : ¬ ∀ (J : Json) (me : AccountId) (w : World), Reach J me w → ∀ (c : Ctx) (i : Nat) p,
    c.deposit = 0 → i ≤ U64_MAX → w.st.get_used_voting_power c.predecessor = .ok 0 →
    w.st.get_locking_position c.now i c.predecessor = some p → p.is_locked = true →
    ∃ r, exec J w.st c (.unlock_position i) = .ok r := by
  intro h
  obtain ⟨r, hr⟩ := h demoJ "me" doubleUnlockW (reach_of_runs demo0_init (Option.some_get _).symm)
    ⟨"me", "alice", 0, 6000, []⟩ 0 ⟨some 0, 60000000, 60, 60000000000000000000000000, none, false, false, true⟩ rfl
    (by decide) (by decide +kernel) (by decide +kernel) rfl
  have hf : Res.isOk (exec demoJ doubleUnlockW.st ⟨"me", "alice", 0, 6000, []⟩ (.unlock_position 0)) = false := by
    decide +kernel
  rw [hr] at hf
  simp [Res.isOk] at hf

/-- **C34** (partial): it holds for a voter in every history in which that voter unlocked only locked positions. -/
theorem C34_can_unlock_partial {J : Json} {me : AccountId} {w : World} {c : Ctx}
    (h : ReachG J me (ownUnlocks c.predecessor) w) (i : Nat) (p : LockingPositionJSON) (hdep : c.deposit = 0) (hi : i ≤ U64_MAX)
    (hu : w.st.get_used_voting_power c.predecessor = .ok 0)
    (hp : w.st.get_locking_position c.now i c.predecessor = some p) (hl : p.is_locked = true) :
    ∃ r, exec J w.st c (.unlock_position i) = .ok r := by
  have hex := reachG_exact h
  rw [reach_used h.reach] at hu
  simp only [ok_ok_iff] at hu
  simp only [State.get_locking_position, internal_get_voter_eq] at hp
  split at hp
  · rename_i q hq
    simp only [Option.some.injEq] at hp
    subst hp
    have hl' : q.unlocking_started_at = none := by
      simpa [LockingPosition.to_json, LockingPosition.is_locked] using hl
    have hle := posSum_le_of_mem
      (fun p => if p.unlocking_started_at = none then p.voting_power else 0) _ i q hq
    simp only [hl', if_true] at hle
    have hav : q.voting_power ≤ (w.st.voterD c.predecessor).available_voting_power := by
      simp only [Voter.power, Voter.lockedVp] at hex
      omega
    have hv : w.st.voters.get c.predecessor = some (w.st.voterD c.predecessor) := by
      cases hv : w.st.voters.get c.predecessor with
      | none => simp [State.voterD, hv] at hq
      | some v => simp [State.voterD, hv]
    have hrun : ∃ s', w.st.unlock_position c i = .ok s' := by
      simp only [State.unlock_position, bind_ok_iff, get_position_ok, require_ok_iff, subU_ok_iff,
        pure_ok_iff, State.internal_get_voter_or_panic, expect_ok_iff]
      exact ⟨_, _, hv, q, hq, (), hav, _, ⟨hav, rfl⟩, rfl⟩
    obtain ⟨s', hs'⟩ := hrun
    exact ⟨(s', []), exec_ok.2 ⟨by simp [hdep], by simp [Call.is_private], by simp [Call.in_range, hi],
      by simp only [run, quiet_ok]; exact ⟨hs', trivial⟩⟩⟩
  · simp at hp

example : ∃ w, ReachG demoJ "me" (ownUnlocks "bob") w ∧ w.st.get_used_voting_power "bob" = .ok 0 ∧
    (w.st.get_locking_position 1 0 "bob").isSome :=
  ⟨(runsG demoJ "me" (ownUnlocks "bob") demo0 (demoActs.take 4)).get (by decide +kernel),
    reachG_of_runs (.init demo0_init) (Option.some_get _).symm, by decide +kernel, by decide +kernel⟩

/-- What unlocking the position `p` at index `i` does: its unbonding starts now, exactly its power leaves the available and
the total power; amounts, votes and everything else are unchanged. -/
structure Unlocked (s s' : State) (c : Ctx) (i : Nat) (p : LockingPosition) : Prop where
  total : s'.get_total_voting_power + p.voting_power = s.get_total_voting_power
  available : s'.get_available_voting_power c.predecessor + p.voting_power = s.get_available_voting_power c.predecessor
  voter : s'.voterD c.predecessor = { s.voterD c.predecessor with
    available_voting_power := s'.get_available_voting_power c.predecessor
    locking_positions := (s.voterD c.predecessor).locking_positions.set i
      ⟨p.amount, p.locking_period, p.voting_power, some c.now⟩ }
  others : ∀ id, id ≠ c.predecessor → s'.voters.get id = s.voters.get id
  rest : s' = { s with voters := s'.voters, total_voting_power := s'.total_voting_power }

/-- What unlocking `amount` of the position `p` at index `i` does: exactly `amount` is split off into a new unlocking position
of the same period, at least the minimum deposit and one mpDAO stay in it, and exactly the power `vp` of the new position
leaves the old one and the available and total power. -/
structure PartUnlocked (s s' : State) (c : Ctx) (i amount : Nat) (p : LockingPosition) (vp : Nat) : Prop where
  power : vp = amount * 10 ^ 18 * p.locking_period / 60
  less : amount < p.amount
  min : s.min_deposit_amount ≤ p.amount - amount
  one : 1000000 ≤ p.amount - amount
  one' : 1000000 ≤ amount
  le : vp ≤ p.voting_power
  total : s'.get_total_voting_power + vp = s.get_total_voting_power
  available : s'.get_available_voting_power c.predecessor + vp = s.get_available_voting_power c.predecessor
  voter : s'.voterD c.predecessor = { s.voterD c.predecessor with
    available_voting_power := s'.get_available_voting_power c.predecessor
    locking_positions := (s.voterD c.predecessor).locking_positions.set i
        { p with amount := p.amount - amount, voting_power := p.voting_power - vp }
      ++ [⟨amount, p.locking_period, vp, some c.now⟩] }
  others : ∀ id, id ≠ c.predecessor → s'.voters.get id = s.voters.get id
  rest : s' = { s with voters := s'.voters, total_voting_power := s'.total_voting_power }

theorem unlocked {J : Json} {s s' : State} {c : Ctx} {i : Nat} {out : List Transfer}
    (h : (s.voterD c.predecessor).available_voting_power ≤ s.total_voting_power)
    (hx : exec J s c (.unlock_position i) = .ok (s', out))
    {p : LockingPosition} (hp : (s.voterD c.predecessor).locking_positions[i]? = some p) :
    out = [] ∧ Unlocked s s' c i p := by
  obtain ⟨-, -, -, hr⟩ := exec_ok.1 hx
  simp only [run, quiet_ok] at hr
  obtain ⟨hr, rfl⟩ := hr
  have hf := unlock_position_veffect hr
  simp only [State.unlock_position, bind_ok_iff, get_position_ok, require_ok_iff, subU_ok_iff,
    pure_ok_iff] at hr
  obtain ⟨v, hv, q, hq, -, hle, x, ⟨-, rfl⟩, rfl⟩ := hr
  obtain ⟨hv, rfl⟩ := get_voter_ok hv
  rw [hp] at hq; cases hq
  refine ⟨rfl, ?_, ?_, ?_, hf.others, rfl⟩
  · simp only [State.get_total_voting_power]; omega
  · simp only [get_available_eq, State.voterD, UMap.get_insert_self, Option.getD_some] at *
    simp only [Voter.replace_position] at *
    omega
  · simp [State.voterD, Voter.replace_position, State.get_available_voting_power,
      State.internal_get_voter]

theorem part_unlocked {J : Json} {s s' : State} {c : Ctx} {i amount : Nat} {out : List Transfer}
    (h : (s.voterD c.predecessor).available_voting_power ≤ s.total_voting_power)
    (hx : exec J s c (.unlock_partial_position i amount) = .ok (s', out))
    {p : LockingPosition} (hp : (s.voterD c.predecessor).locking_positions[i]? = some p)
    (hne : amount ≠ p.amount) : out = [] ∧ ∃ vp, PartUnlocked s s' c i amount p vp := by
  obtain ⟨-, -, -, hr⟩ := exec_ok.1 hx
  simp only [run, quiet_ok] at hr
  obtain ⟨hr, rfl⟩ := hr
  have hf := unlock_partial_veffect hr
  simp only [State.unlock_partial_position, bind_ok_iff, get_position_ok] at hr
  obtain ⟨v, hv, q, hq, hr⟩ := hr
  obtain ⟨hv, rfl⟩ := get_voter_ok hv
  rw [hp] at hq; cases hq
  rw [if_neg hne] at hr
  simp only [bind_ok_iff, require_ok_iff, subU_ok_iff, pure_ok_iff, assert_at_least_1_mpdao,
    State.create_unlocking_position] at hr
  obtain ⟨-, hlt, r, ⟨-, rfl⟩, -, hmin, -, h1m, vp, hvp, -, hvple, -, hav, v2, ⟨-, hlen, rfl⟩, y, ⟨-, rfl⟩,
    z, ⟨-, rfl⟩, -, h1r, w', ⟨-, rfl⟩, rfl⟩ := hr
  have hil : i < (s.voterD c.predecessor).locking_positions.length :=
    (List.getElem?_eq_some_iff.1 hp).1
  refine ⟨rfl, vp, ((C01_formula _ _ _).1 hvp).2.2.2, hlt, hmin, h1r, h1m, hvple, ?_, ?_, ?_, hf.others, rfl⟩
  · simp only [State.get_total_voting_power]; omega
  · simp only [get_available_eq, State.voterD, UMap.get_insert_self, Option.getD_some] at *
    simp only [Voter.replace_position] at *
    omega
  · simp [State.voterD, Voter.replace_position, State.get_available_voting_power,
      State.internal_get_voter]
    rw [List.set_append_left]
    exact hil

theorem reach_available {J : Json} {me : AccountId} {w : World} (h : Reach J me w) (id : String) :
    (w.st.voterD id).available_voting_power ≤ w.st.total_voting_power := by
  have := (reach_vinv h).power_le_total id
  unfold Voter.power at this
  omega

/-- **C35**: unlocking a position starts its unbonding now and removes exactly its power from the available and the total
power; amounts, votes and everything else are unchanged. -/
theorem C35_unlock {J : Json} {me : AccountId} {w : World} (h : Reach J me w) {c : Ctx} {i : Nat}
    {s' : State} {out : List Transfer} (hx : exec J w.st c (.unlock_position i) = .ok (s', out))
    {p : LockingPosition} (hp : (w.st.voterD c.predecessor).locking_positions[i]? = some p) :
    out = [] ∧ Unlocked w.st s' c i p := unlocked (reach_available h _) hx hp

example : Res.isOk (exec demoJ demo.st ⟨"me", "carol", 0, 12000, []⟩ (.unlock_position 0)) = false ∧
    Res.isOk (exec demoJ (demo.st) ⟨"me", "alice", 0, 12000, []⟩ (.unlock_position 1)) = true := by
  decide +kernel

/-- **C35**: unlocking part of a position splits off exactly `amount` into a new unlocking position of
the same period, leaves at least the minimum deposit and one mpDAO in it, and removes exactly the
power of the new position from the old one and from the available and total power. -/
theorem C35_partial_unlock {J : Json} {me : AccountId} {w : World} (h : Reach J me w) {c : Ctx}
    {i amount : Nat} {s' : State} {out : List Transfer}
    (hx : exec J w.st c (.unlock_partial_position i amount) = .ok (s', out))
    {p : LockingPosition} (hp : (w.st.voterD c.predecessor).locking_positions[i]? = some p)
    (hne : amount ≠ p.amount) : out = [] ∧ ∃ vp, PartUnlocked w.st s' c i amount p vp :=
  part_unlocked (reach_available h _) hx hp hne

example : Res.isOk (exec demoJ demo.st ⟨"me", "alice", 0, 12000, []⟩ (.unlock_partial_position 0 1000000))
    = true := by decide +kernel

/-! ## C36 -/

/-- **C36**: extending sets the longer period on a locked position, gives it the formula power, and
raises the available and the total power by the difference. -/
theorem C36_extend {J : Json} {s s' : State} {c : Ctx} {i days : Nat} {out : List Transfer}
    (hx : exec J s c (.locking_position_extend_days i days) = .ok (s', out)) :
    out = [] ∧ ∃ p vp, (s.voterD c.predecessor).locking_positions[i]? = some p ∧
    p.unlocking_started_at = none ∧ p.locking_period < days ∧ p.voting_power ≤ vp ∧
    vp = p.amount * 10 ^ 18 * days / 60 ∧
    s'.get_total_voting_power + p.voting_power = s.get_total_voting_power + vp ∧
    s'.get_available_voting_power c.predecessor + p.voting_power
      = s.get_available_voting_power c.predecessor + vp ∧
    s'.voterD c.predecessor = { s.voterD c.predecessor with
      available_voting_power := s'.get_available_voting_power c.predecessor
      locking_positions := (s.voterD c.predecessor).locking_positions.set i ⟨p.amount, days, vp, none⟩ } ∧
    (∀ id, id ≠ c.predecessor → s'.voters.get id = s.voters.get id) ∧
    s' = { s with voters := s'.voters, total_voting_power := s'.total_voting_power } := by
  obtain ⟨-, -, -, hr⟩ := exec_ok.1 hx
  simp only [run, quiet_ok] at hr
  obtain ⟨hr, rfl⟩ := hr
  have hf := extend_veffect hr
  simp only [State.locking_position_extend_days, bind_ok_iff, get_position_ok, require_ok_iff,
    subU_ok_iff, addU128_ok_iff, pure_ok_iff] at hr
  obtain ⟨v, hv, p, hp, -, hl, -, hd, vp, hvp, de, ⟨hle, rfl⟩, t, ⟨ht, rfl⟩, av, ⟨ha, rfl⟩, rfl⟩ := hr
  obtain ⟨hv, rfl⟩ := get_voter_ok hv
  refine ⟨rfl, p, vp, hp, hl, hd, hle, ((C01_formula _ _ _).1 hvp).2.2.2, ?_, ?_, ?_, hf.others, rfl⟩
  · simp only [State.get_total_voting_power]; omega
  · simp only [get_available_eq, State.voterD, UMap.get_insert_self, Option.getD_some] at *
    simp only [Voter.replace_position] at *
    omega
  · simp [State.voterD, Voter.replace_position, State.get_available_voting_power,
      State.internal_get_voter, hl]

example : Res.isOk (exec demoJ demo.st ⟨"me", "alice", 0, 12000, []⟩ (.locking_position_extend_days 0 90))
    = true := by decide +kernel

end Verif.MetaVote
