import Verif.Spec.Accept
import Verif.Props.Transfers
import Verif.Props.Deposits
import Verif.Props.Delegation
import Verif.Props.Votes

/-!
# Acceptance of each method, on a state with the invariants
-/

namespace Verif.MetaVote

open Verif

theorem exec_iff {J : Json} {s : State} {c : Ctx} {k : Call} : (∃ r, exec J s c k = .ok r) ↔
    (k.payable = true ∨ c.deposit = 0) ∧ (k.is_private = true → c.predecessor = c.current) ∧
      k.in_range = true ∧ ∃ r, run J s c k = .ok r := by
  simp only [exec_ok]
  constructor
  · rintro ⟨r, h1, h2, h3, h4⟩; exact ⟨h1, h2, h3, r, h4⟩
  · rintro ⟨h1, h2, h3, r, h4⟩; exact ⟨r, h1, h2, h3, h4⟩

theorem quiet_iff {r : Res State} : (∃ x, quiet r = .ok x) ↔ ∃ s, r = .ok s := by
  constructor
  · rintro ⟨⟨s, o⟩, h⟩; exact ⟨s, (quiet_ok.1 h).1⟩
  · rintro ⟨s, h⟩; exact ⟨(s, []), quiet_ok.2 ⟨h, rfl⟩⟩

theorem sends_iff {r : Res (State × Transfer)} : (∃ x, sends r = .ok x) ↔ ∃ x, r = .ok x := by
  constructor
  · rintro ⟨⟨s, o⟩, h⟩
    obtain ⟨t, ht, -⟩ := sends_ok.1 h
    exact ⟨_, ht⟩
  · rintro ⟨⟨s, t⟩, h⟩; exact ⟨(s, [t]), sends_ok.2 ⟨t, h, rfl⟩⟩

/-- The unclaimed totals fit. -/
def Fits (s : State) : Prop := s.total_unclaimed_mpdao ≤ U128_MAX ∧ s.total_unclaimed_stnear ≤ U128_MAX

/-- Acceptance of a distribution. -/
theorem distribute_iff {s : State} {c : Ctx} {a : Nat} {l : List (String × Nat)} (hc : CInv s) (hf : Fits s) :
    (∃ s', s.distribute_for_claims c a l = .ok s') ↔ (∀ p ∈ l, 0 < p.2) ∧
    ((c.predecessor = s.mpdao_token_contract_address ∧ a = itemsTotal l * 10 ^ 6 ∧
      s.total_unclaimed_mpdao + a ≤ U128_MAX ∧ s.accumulated_mpdao_distributed_for_claims + a ≤ U128_MAX) ∨
     (c.predecessor ≠ s.mpdao_token_contract_address ∧ c.predecessor = s.stnear_token_contract_address ∧
      a = itemsTotal l * E20 ∧ s.total_unclaimed_stnear + a ≤ U128_MAX ∧
      s.accum_distributed_stnear_for_claims + a ≤ U128_MAX)) := by
  rw [← E6_eq]
  constructor
  · rintro ⟨s', hx⟩
    simp only [State.distribute_for_claims, bind_ok_iff, require_ok_iff, pure_ok_iff] at hx
    obtain ⟨⟨s1, t1⟩, hr, -, hta, rfl⟩ := hx
    split at hr
    · rename_i hp
      simp only [bind_ok_iff, addU128_ok_iff, pure_ok_iff, Prod.mk.injEq] at hr
      obtain ⟨⟨s2, t2⟩, hfold, acc, ⟨hacc, rfl⟩, rfl, rfl⟩ := hr
      simp only at hta
      subst hta
      obtain ⟨h1, h2, h3, -, h5⟩ := dist_mpdao_ok hfold
      simp only [Nat.zero_add] at h2 h3 h5
      refine ⟨h1, .inl ⟨hp, h2, ?_, ?_⟩⟩
      · rw [h2]
        by_cases hl : l = []
        · subst hl
          rw [show itemsTotal [] = 0 from rfl, Nat.zero_mul]
          exact hf.1
        · exact h5 hl
      · rw [h3] at hacc; exact hacc
    · split at hr
      · rename_i hp hp2
        simp only [bind_ok_iff, addU128_ok_iff, pure_ok_iff, Prod.mk.injEq] at hr
        obtain ⟨⟨s2, t2⟩, hfold, acc, ⟨hacc, rfl⟩, rfl, rfl⟩ := hr
        simp only at hta
        subst hta
        obtain ⟨h1, h2, h3, -, h5⟩ := dist_stnear_ok hfold
        simp only [Nat.zero_add] at h2 h3 h5
        refine ⟨h1, .inr ⟨hp, hp2, h2, ?_, ?_⟩⟩
        · rw [h2]
          by_cases hl : l = []
          · subst hl
            rw [show itemsTotal [] = 0 from rfl, Nat.zero_mul]
            exact hf.2
          · exact h5 hl
        · rw [h3] at hacc; exact hacc
      · cases hr
  · rintro ⟨hpos, ⟨hp, ha, hu, hacc⟩ | ⟨hne, hp, ha, hu, hacc⟩⟩
    · obtain ⟨r, hr⟩ := dist_mpdao_succeeds (l := l) (s := s) (t := 0) hpos hc.mpdao.symm
        (by rw [← ha]; exact hu) (by rw [← ha]; omega)
      obtain ⟨-, h2, h3, -, -⟩ := dist_mpdao_ok hr
      rw [Nat.zero_add, ← ha] at h2
      refine ⟨{ r.1 with
        accumulated_mpdao_distributed_for_claims := r.1.accumulated_mpdao_distributed_for_claims + r.2 }, ?_⟩
      simp only [State.distribute_for_claims, if_pos hp, bind_ok_iff, pure_ok_iff, addU128_ok_iff, require_ok_iff]
      refine ⟨({ r.1 with
        accumulated_mpdao_distributed_for_claims := r.1.accumulated_mpdao_distributed_for_claims + r.2 }, r.2),
        ⟨r, hr, _, ⟨?_, rfl⟩, rfl⟩, (), h2, rfl⟩
      rw [h3, h2]; exact hacc
    · obtain ⟨r, hr⟩ := dist_stnear_succeeds (l := l) (s := s) (t := 0) hpos hc.stnear.symm
        (by rw [← ha]; exact hu) (by rw [← ha]; omega)
      obtain ⟨-, h2, h3, -, -⟩ := dist_stnear_ok hr
      rw [Nat.zero_add, ← ha] at h2
      refine ⟨{ r.1 with
        accum_distributed_stnear_for_claims := r.1.accum_distributed_stnear_for_claims + r.2 }, ?_⟩
      simp only [State.distribute_for_claims, if_neg hne, if_pos hp, bind_ok_iff, pure_ok_iff, addU128_ok_iff,
        require_ok_iff]
      refine ⟨({ r.1 with
        accum_distributed_stnear_for_claims := r.1.accum_distributed_stnear_for_claims + r.2 }, r.2),
        ⟨r, hr, _, ⟨?_, rfl⟩, rfl⟩, (), h2, rfl⟩
      rw [h3, h2]; exact hacc

/-- Accepted calls keep the unclaimed totals in range. -/
theorem Ran.fits {J : Json} {s s' : State} {c : Ctx} {k : Call} {out : List Transfer}
    (hx : Ran J s c k s' out) (hi : CInv s) (hf : Fits s) : Fits s' := by
  have hv : ∀ {id : String} {s' : State}, VFrame id s s' → Fits s' := fun h => by
    unfold Fits; rw [h.state]; exact hf
  cases hx with
  | vote id hk hm h => exact hv h
  | mirror hop h => exact hv h
  | exact hx =>
    have hx0 := hx
    cases exec_eff hx with
    | voter k s' id he hid => exact hv he.toVFrame
    | claim_and_lock a d s1 s' v v' h1 hg h2 =>
      obtain ⟨-, -, rfl⟩ := remove_claimable_mpdao_ok h1
      obtain ⟨-, -, -, -, -, -, -, -, rfl⟩ := deposit_ok h2
      exact ⟨(Nat.sub_le _ _).trans hf.1, hf.2⟩
    | config k s' hm => unfold Fits; rw [hm.unclaimed, hm.unclaimed_st]; exact hf
    | claim_stnear k a id s' hr hid =>
      obtain ⟨-, -, rfl⟩ := remove_claimable_stnear_ok hr
      exact ⟨hf.1, (Nat.sub_le _ _).trans hf.2⟩
    | withdraw k a s' he hpos => exact hv he.toVFrame
    | restore_mpdao id a s' hp h => exact hv h.toVFrame
    | done_mpdao => exact hf
    | restore_stnear id a s' hp h =>
      obtain ⟨-, hle, rfl⟩ := add_claimable_stnear_ok h
      exact ⟨hf.1, hle⟩
    | done_stnear => exact hf
    | distribute_mpdao se a m s' hm hp h =>
      obtain ⟨-, -, -, hr⟩ := ft_call_ok hx0
      rcases ft_on_transfer_ok hr with ⟨info, -, -, hd⟩ | ⟨t, v', hm', -⟩
      · obtain ⟨-, h1 | h1⟩ := (distribute_iff hi hf).1 ⟨_, hd⟩
        · obtain ⟨-, ⟨-, -, -, hs⟩ | ⟨hne, -⟩⟩ := distribute_exact hd
          · rw [hs]; exact ⟨h1.2.2.1, hf.2⟩
          · exact absurd hp hne
        · exact absurd hp h1.1
      · rw [hm] at hm'; simp at hm'
    | distribute_stnear se a m s' hm hp hp2 h =>
      obtain ⟨-, -, -, hr⟩ := ft_call_ok hx0
      rcases ft_on_transfer_ok hr with ⟨info, -, -, hd⟩ | ⟨t, v', hm', -⟩
      · obtain ⟨-, h1 | h1⟩ := (distribute_iff hi hf).1 ⟨_, hd⟩
        · exact absurd h1.1 hp
        · obtain ⟨-, ⟨he, -⟩ | ⟨-, -, -, -, hs⟩⟩ := distribute_exact hd
          · exact absurd he hp
          · rw [hs]; exact ⟨hf.1, h1.2.2.2.1⟩
      · rw [hm] at hm'; simp at hm'
    | deposit se a m t s' v' hm hp ht hmin h =>
      obtain ⟨-, -, -, -, -, -, -, -, rfl⟩ := deposit_ok h
      exact hf
    | migration i l d s' s1 hp h hs => unfold Fits; rw [hs, h.state]; exact hf
    | mirror e l s' hop h => exact hv h

theorem lreach_fits {J : Json} {me : AccountId} {w : World} (h : LReach J me w) : Fits w.st := by
  have : CInv w.st ∧ Fits w.st := by
    refine h.state_inv (fun s => CInv s ∧ Fits s) ?_ (fun _ _ _ _ _ hi hx => ⟨hx.cinv hi.1, hx.fits hi.1 hi.2⟩)
    intro w hw
    refine ⟨init_cinv hw, ?_⟩
    cases hw with
    | mk o op a b d l v m st r p ts s hr hts hn =>
      obtain ⟨-, -, rfl⟩ := new_ok hn
      exact ⟨Nat.zero_le _, Nat.zero_le _⟩
  exact this.2

/-- What the acceptance theorems use of a reachable state. -/
structure Sound (s : State) : Prop where
  vinv : VInv s
  cinv : CInv s
  dinv : DInv s
  total : s.total_voting_power ≤ U128_MAX
  balance : ∀ id, (s.voterD id).balance ≤ U128_MAX
  fits : Fits s

theorem Sound.available {s : State} (h : Sound s) (id : String) :
    (s.voterD id).available_voting_power ≤ s.total_voting_power := by
  have := h.vinv.power_le_total id
  unfold Voter.power at this
  omega

theorem Sound.votes_le {s : State} (h : Sound s) (id a o : String) :
    (s.voterD id).available_voting_power + (s.voterD id).votesOf a o ≤ s.total_voting_power := by
  have := h.vinv.power_le_total id
  have h2 : (s.voterD id).votesOf a o ≤ (s.voterD id).used := vget_le_vsum _ _ _
  unfold Voter.power at this
  omega

theorem Sound.length {s : State} (h : Sound s) (id : String) :
    (s.positionsOf id).length ≤ s.max_locking_positions ∧ s.max_locking_positions ≤ U8_MAX :=
  ⟨(h.vinv.voterOK id).count, h.vinv.max8⟩

theorem index_small {s : State} (h : Sound s) {id : String} {i : Nat} {p : LockingPosition}
    (hi : (s.positionsOf id)[i]? = some p) : i ≤ U64_MAX := by
  have := getElem?_lt hi
  have := h.length id
  have : (255 : Nat) ≤ U64_MAX := by decide
  simp only [U8_MAX] at *
  omega

theorem knows_iff {s : State} {id : String} : s.knows id ↔ s.voters.get id = some (s.voterD id) := by
  unfold State.knows State.voterD
  cases s.voters.get id <;> simp

theorem voter_iff {s : State} {id : String} {v : Voter} :
    s.internal_get_voter_or_panic id = .ok v ↔ s.knows id ∧ v = s.voterD id := by
  rw [State.internal_get_voter_or_panic, expect_ok_iff, knows_iff]
  constructor
  · intro h; rw [voterD_of_get h]; exact ⟨h, rfl⟩
  · rintro ⟨h, rfl⟩; exact h

theorem knows_of_index {s : State} {id : String} {i : Nat} {p : LockingPosition}
    (hi : (s.positionsOf id)[i]? = some p) : s.knows id := by
  intro hn
  unfold State.positionsOf State.voterD at hi
  rw [hn] at hi
  simp at hi

theorem calc_iff (a d n : Nat) : calculate_voting_power a d = .ok n ↔
    d < 3600 ∧ a * 10 ^ 18 ≤ U128_MAX ∧ powerOf a d ≤ U128_MAX ∧ n = powerOf a d := by
  have hm : ∀ x, x ≤ U128_MAX ↔ x < 2 ^ 128 := by intro x; simp only [U128_MAX]; omega
  rw [C01_formula, hm, hm]; rfl

/-- `find?` and `findIdx?` of the locked position of a period. -/
theorem find_locked_iff (v : Voter) (d : Nat) :
    (v.find_locked_position d = none ∧ ∀ p ∈ v.locking_positions, isLockedFor d p = false) ∨
    ∃ i p, v.find_locked_position d = some i ∧ v.locking_positions[i]? = some p ∧ isLockedFor d p = true ∧
      v.locking_positions.find? (isLockedFor d) = some p := by
  have e : (fun p : LockingPosition => p.locking_period == d && p.is_locked) = isLockedFor d := by
    funext p
    unfold isLockedFor LockingPosition.is_locked
    rw [Bool.eq_iff_iff]
    simp only [Bool.and_eq_true, beq_iff_eq, decide_eq_true_eq, Option.isNone_iff_eq_none]
    exact And.comm
  unfold Voter.find_locked_position
  rw [e]
  cases h : v.locking_positions.findIdx? (isLockedFor d) with
  | none => exact .inl ⟨rfl, List.findIdx?_eq_none_iff.1 h⟩
  | some i =>
    obtain ⟨hi, hp, hlt⟩ := List.findIdx?_eq_some_iff_getElem.1 h
    refine .inr ⟨i, v.locking_positions[i], rfl, List.getElem?_eq_getElem hi, hp, ?_⟩
    rw [List.find?_eq_some_iff_getElem]
    exact ⟨hp, i, hi, rfl, fun j hj => by simpa using hlt j hj⟩

/-- Acceptance of a lock. -/
theorem deposit_iff {s : State} {v : Voter} {a d : Nat} {id : String}
    (hlen : v.locking_positions.length ≤ U8_MAX) (hav : v.available_voting_power ≤ s.total_voting_power) :
    (∃ r, s.deposit_locking_position a d id v = .ok r) ↔ Lockable s v.locking_positions a d := by
  have hmod : v.locking_positions.length % 256 = v.locking_positions.length :=
    Nat.mod_eq_of_lt (by simp only [U8_MAX] at hlen; omega)
  constructor
  · rintro ⟨⟨s', v'⟩, h⟩
    obtain ⟨vp, ps, hc, hd, ht, ha, hdep, -, -⟩ := deposit_ok h
    obtain ⟨h1, h2, h3, rfl⟩ := (calc_iff _ _ _).1 hc
    refine ⟨hd.1, hd.2, h1, h2, ht, ?_, ?_⟩
    · intro hall
      cases hdep with
      | create hf hl => rwa [hmod] at hl
      | increase i p hf hp hd' hl' ham hvp =>
        have := hall p (List.mem_of_getElem? hp)
        simp [isLockedFor, hd', hl'] at this
    · intro p hp
      rcases find_locked_iff v d with ⟨h0, hall⟩ | ⟨i, q, hi, hq, hql, hf⟩
      · have := List.find?_some hp
        rw [hall p (List.mem_of_find?_eq_some hp)] at this
        cases this
      · rw [hf] at hp
        cases hp
        cases hdep with
        | create hf hl => rw [hf] at hi; cases hi
        | increase i' p' hf' hp' hd' hl' ham hvp =>
          rw [hf'] at hi; cases hi
          rw [hp'] at hq; cases hq
          exact ⟨ham, hvp⟩
  · rintro ⟨h1, h2, h3, h4, h5, h6, h7⟩
    have hc : calculate_voting_power a d = .ok (powerOf a d) :=
      (calc_iff _ _ _).2 ⟨h3, h4, by omega, rfl⟩
    simp only [State.deposit_locking_position, bind_ok_iff, require_ok_iff, pure_ok_iff]
    rcases find_locked_iff v d with ⟨h0, hall⟩ | ⟨i, q, hi, hq, hql, hf⟩
    · rw [h0]
      have : ∃ r, s.internal_create_locking_position v a d = .ok r := by
        simp only [State.internal_create_locking_position, bind_ok_iff, require_ok_iff, addU128_ok_iff, pure_ok_iff]
        exact ⟨_, (), by rw [hmod]; exact h6 hall, (), h0, _, hc, _, ⟨by omega, rfl⟩, _, ⟨h5, rfl⟩, rfl⟩
      obtain ⟨r, hr⟩ := this
      exact ⟨_, (), ⟨h1, h2⟩, r, hr, rfl⟩
    · rw [hi]
      obtain ⟨h8, h9⟩ := h7 q hf
      have : ∃ r, s.increase_locking_position v i a d = .ok r := by
        simp only [State.increase_locking_position, bind_ok_iff, get_position_ok, addU128_ok_iff, pure_ok_iff]
        exact ⟨_, _, hc, q, hq, _, ⟨h8, rfl⟩, _, ⟨h9, rfl⟩, _,
          ⟨by simp only [Voter.replace_position]; omega, rfl⟩, _, ⟨h5, rfl⟩, rfl⟩
      obtain ⟨r, hr⟩ := this
      exact ⟨_, (), ⟨h1, h2⟩, r, hr, rfl⟩

theorem Lockable.range {s : State} {l : List LockingPosition} {a d : Nat} (h : Lockable s l a d) :
    a ≤ U128_MAX ∧ d ≤ U16_MAX := by
  have h1 := h.amount
  have h2 := h.days
  have : (3600 : Nat) ≤ U16_MAX := by decide
  refine ⟨?_, by omega⟩
  have : a * 1 ≤ a * 10 ^ 18 := Nat.mul_le_mul_left _ (by decide)
  omega

end Verif.MetaVote
