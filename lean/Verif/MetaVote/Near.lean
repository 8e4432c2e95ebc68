import Verif.MetaVote.Clear
import Verif.MetaVote.Exact
import Verif.MetaVote.Cons
import Verif.MetaVote.Edit
import Verif.MetaVote.Loose

/-!
# The power of a position and the formula

Powers are rounded down when a deposit is made.  Merging deposits and splitting positions adds these errors up: after `n`
deposits and splits the recorded power differs from `amount * 10^18 * days / 60` by less than `n + 1`.
-/

namespace Verif.MetaVote

open Verif

/-- Sixty times `y` differs from `x` by at most `e`. -/
def nearN (e x y : Nat) : Prop := x ≤ 60 * y + e ∧ 60 * y ≤ x + e

theorem nearN.mono {e e' x y : Nat} (h : nearN e x y) (he : e ≤ e') : nearN e' x y := by
  unfold nearN at *; omega

theorem nearN.add {e e' x y x' y' : Nat} (h : nearN e x y) (h' : nearN e' x' y') : nearN (e + e') (x + x') (y + y') := by
  unfold nearN at *; omega

theorem nearN.sub {e e' x y x' y' : Nat} (h : nearN e x y) (h' : nearN e' x' y') (hx : x' ≤ x) (hy : y' ≤ y) :
    nearN (e + e') (x - x') (y - y') := by
  unfold nearN at *; omega

theorem nearN_div (x : Nat) : nearN 59 x (x / 60) := by unfold nearN; omega

/-- Sixty times the recorded power differs from `amount * 10^18 * days` by at most `e`. -/
def near (e : Nat) (p : LockingPosition) : Prop := nearN e (p.amount * 10 ^ 18 * p.locking_period) p.voting_power

theorem near.mono {e e' : Nat} {p : LockingPosition} (h : near e p) (he : e ≤ e') : near e' p := nearN.mono h he

theorem near_calc {a d vp : Nat} (h : calculate_voting_power a d = .ok vp) : nearN 59 (a * 10 ^ 18 * d) vp := by
  have e : E18 = 10 ^ 18 := by decide
  simp only [calculate_voting_power, proportional, bind_ok_iff, mulU128_ok_iff, require_ok_iff, pure_ok_iff, e] at h
  obtain ⟨x, ⟨-, rfl⟩, -, -, -, -, -, -, rfl⟩ := h
  exact nearN_div _

theorem near_fresh {a d vp : Nat} (h : calculate_voting_power a d = .ok vp) (t : Option Nat) : near 59 ⟨a, d, vp, t⟩ :=
  near_calc h

/-- What is left of a position when `a` is split off. -/
theorem near_split {e a vp : Nat} {p : LockingPosition} (h : near e p) (ha : a ≤ p.amount) (hle : vp ≤ p.voting_power)
    (hvp : calculate_voting_power a p.locking_period = .ok vp) (t : Option Nat) :
    near (e + 59) ⟨p.amount - a, p.locking_period, p.voting_power - vp, t⟩ := by
  unfold near
  simp only [Nat.sub_mul]
  exact nearN.sub h (near_calc hvp) (Nat.mul_le_mul_right _ (Nat.mul_le_mul_right _ ha)) hle

def Nears (e : Nat) (l : List LockingPosition) : Prop := ∀ p ∈ l, near e p

theorem Nears.mono {e e' : Nat} {l : List LockingPosition} (h : Nears e l) (he : e ≤ e') : Nears e' l :=
  fun p hp => (h p hp).mono he

theorem Nears.set {e : Nat} {l : List LockingPosition} (h : Nears e l) {i : Nat} {p : LockingPosition} (hp : near e p) :
    Nears e (l.set i p) := by
  intro q hq
  rcases List.mem_or_eq_of_mem_set hq with hq | rfl
  · exact h q hq
  · exact hp

theorem Nears.append {e : Nat} {l : List LockingPosition} (h : Nears e l) {p : LockingPosition} (hp : near e p) :
    Nears e (l ++ [p]) := by
  intro q hq
  rcases List.mem_append.1 hq with hq | hq
  · exact h q hq
  · rw [List.mem_singleton] at hq; subst hq; exact hp

theorem Nears.swapRemove {e : Nat} {l : List LockingPosition} (h : Nears e l) {i : Nat} {p : LockingPosition}
    (hp : l[i]? = some p) : Nears e (swapRemove l i) := fun _ hq =>
  h _ ((swapRemove_perm l i (List.getElem?_eq_some_iff.1 hp).1).symm.subset (List.mem_cons_of_mem _ hq))

theorem Took.nears {e now : Nat} {v v' : Voter} (h : Took now v v') (hn : Nears e v.locking_positions) :
    Nears e v'.locking_positions := by
  obtain ⟨r, -, hp, -⟩ := h
  exact fun p hq => hn p (hp.symm.subset (List.mem_append_right _ hq))

theorem Deposited.nears {e m a d vp : Nat} {v : Voter} {ps : List LockingPosition} (h : Deposited v m a d vp ps)
    (hvp : calculate_voting_power a d = .ok vp) (hn : Nears e v.locking_positions) : Nears (e + 59) ps := by
  have h2 := near_fresh hvp none
  cases h with
  | increase i p hf hp hd hl ha hv =>
    refine (hn.mono (Nat.le_add_right _ _)).set ?_
    have h1 := hn p (List.mem_of_getElem? hp)
    subst hd
    unfold near
    simp only [Nat.add_mul]
    exact nearN.add h1 (near_calc hvp)
  | create hf hl => exact (hn.mono (Nat.le_add_right _ _)).append (h2.mono (Nat.le_add_left _ _))

theorem near_fresh' {e a d vp : Nat} (h : calculate_voting_power a d = .ok vp) (t : Option Nat) :
    near (59 * (e + 1)) ⟨a, d, vp, t⟩ := (near_fresh h t).mono (by omega)

/-- All positions of all voters; `f` counts the deposits and splits of each. -/
def NearS (f : String → Nat) (s : State) : Prop := ∀ id, Nears (59 * (f id + 1)) (s.voterD id).locking_positions

variable {f : String → Nat}

theorem NearS.mono {g : String → Nat} {s : State} (h : NearS f s) (hg : ∀ id, f id ≤ g id) : NearS g s :=
  fun id => (h id).mono (by have := hg id; omega)

theorem NearS.insert {s s' : State} (h : NearS f s) {id : String} {v : Voter}
    (hv : s'.voters = s.voters.insert id v) (hn : Nears (59 * (f id + 1)) v.locking_positions) : NearS f s' := by
  intro i
  rw [voterD_insert hv]
  split
  · rename_i e; subst e; exact hn
  · exact h i

theorem NearS.bump {s s' : State} (h : NearS f s) {id : String} {v : Voter}
    (hv : s'.voters = s.voters.insert id v) (hn : Nears (59 * (f id + 1) + 59) v.locking_positions) :
    NearS (bump f id 1) s' := by
  refine NearS.insert (h.mono fun i => ?_) hv (hn.mono ?_)
  · simp only [MetaVote.bump]; split <;> omega
  · simp only [MetaVote.bump, if_true]; omega

theorem NearS.remove {s s' : State} (h : NearS f s) {id : String} (hv : s'.voters = s.voters.remove id) :
    NearS f s' := by
  intro i
  rw [voterD_remove hv]
  split
  · intro p hp; simp at hp
  · exact h i

theorem NearS.congr {s s' : State} (h : NearS f s) (hv : s'.voters = s.voters) : NearS f s' := by
  intro i
  have := h i
  simpa only [State.voterD, hv] using this

theorem NearS.deposit {s s' : State} (h : NearS f s) {id : String} {v v' : Voter} {a d : Nat}
    (hn : Nears (59 * (f id + 1)) v.locking_positions) (hd : s.deposit_locking_position a d id v = .ok (s', v')) :
    NearS (MetaVote.bump f id 1) s' := by
  obtain ⟨vp, ps, hvp, -, -, -, hps, rfl, rfl⟩ := deposit_ok hd
  exact h.bump rfl (hps.nears hvp hn)

theorem unlock_position_near {s s' : State} {c : Ctx} {i : Nat} (h : NearS f s)
    (hx : s.unlock_position c i = .ok s') : NearS f s' := by
  simp only [State.unlock_position, bind_ok_iff, get_position_ok, require_ok_iff, subU_ok_iff, pure_ok_iff] at hx
  obtain ⟨v, hv, p, hp, -, hle, x, ⟨-, rfl⟩, rfl⟩ := hx
  obtain ⟨hv, rfl⟩ := get_voter_ok hv
  exact h.insert rfl ((h _).set (h _ p (List.mem_of_getElem? hp)))

theorem unlock_partial_near {s s' : State} {c : Ctx} {i a : Nat} (h : NearS f s)
    (hx : s.unlock_partial_position c i a = .ok s') : NearS (bump f c.predecessor 1) s' := by
  simp only [State.unlock_partial_position, bind_ok_iff, get_position_ok] at hx
  obtain ⟨v, hv, p, hp, hx⟩ := hx
  split at hx
  · exact (unlock_position_near h hx).mono fun i => by simp only [bump]; split <;> omega
  · simp only [bind_ok_iff, require_ok_iff, subU_ok_iff, pure_ok_iff, State.create_unlocking_position] at hx
    obtain ⟨-, hlt, r, ⟨-, rfl⟩, -, -, -, -, vp, hcalc, -, hvp, -, hav, v2, ⟨-, hlen, rfl⟩, y, ⟨-, rfl⟩,
      z, ⟨-, rfl⟩, -, -, w, ⟨-, rfl⟩, rfl⟩ := hx
    obtain ⟨hv, rfl⟩ := get_voter_ok hv
    refine h.bump rfl ?_
    refine Nears.set (((h _).mono (Nat.le_add_right _ _)).append ((near_fresh hcalc _).mono (Nat.le_add_left _ _))) ?_
    exact near_split (h _ p (List.mem_of_getElem? hp)) hlt.le hvp hcalc _

theorem extend_near {s s' : State} {c : Ctx} {i d : Nat} (h : NearS f s)
    (hx : s.locking_position_extend_days c i d = .ok s') : NearS f s' := by
  simp only [State.locking_position_extend_days, bind_ok_iff, get_position_ok, require_ok_iff,
    subU_ok_iff, addU128_ok_iff, pure_ok_iff] at hx
  obtain ⟨v, hv, p, hp, -, hl, -, -, vp, hvp, de, ⟨hle, rfl⟩, t, ⟨-, rfl⟩, av, ⟨-, rfl⟩, rfl⟩ := hx
  obtain ⟨hv, rfl⟩ := get_voter_ok hv
  exact h.insert rfl ((h _).set (near_fresh' hvp _))

theorem relock_position_near {s s' : State} {c : Ctx} {i d b : Nat} (h : NearS f s)
    (hx : s.relock_position c i d b = .ok s') : NearS (bump f c.predecessor 1) s' := by
  simp only [State.relock_position, bind_ok_iff, get_position_ok, require_ok_iff, expect_ok_iff,
    subU_ok_iff, addU128_ok_iff, pure_ok_iff] at hx
  obtain ⟨v, hv, p, hp, -, -, t, ht, -, -, a, ⟨-, rfl⟩, x, ⟨-, rfl⟩, r, hr, rfl⟩ := hx
  obtain ⟨hv, rfl⟩ := get_voter_ok hv
  exact h.deposit (s' := r.1) (v' := r.2) ((h _).swapRemove hp) hr

theorem relock_partial_near {s s' : State} {c : Ctx} {i a d b : Nat} (h : NearS f s)
    (hx : s.relock_partial_position c i a d b = .ok s') : NearS (bump f c.predecessor 1) s' := by
  simp only [State.relock_partial_position, bind_ok_iff, get_position_ok, require_ok_iff,
    expect_ok_iff, subU_ok_iff, addU128_ok_iff, pure_ok_iff] at hx
  obtain ⟨v, hv, p, hp, -, -, -, -, am, ⟨-, rfl⟩, -, -, t, ht, v2, hv2, x, ⟨-, rfl⟩, r, hr, rfl⟩ := hx
  obtain ⟨hv, rfl⟩ := get_voter_ok hv
  split at hv2
  · simp only [bind_ok_iff, require_ok_iff, subU_ok_iff, pure_ok_iff] at hv2
    obtain ⟨-, -, n, ⟨-, rfl⟩, -, -, -, -, vp, hvp, rfl⟩ := hv2
    refine h.deposit (s' := r.1) (v' := r.2) ?_ hr
    exact (h _).set (near_fresh' hvp _)
  · simp only [bind_ok_iff, subU_ok_iff, addU128_ok_iff, pure_ok_iff] at hv2
    obtain ⟨n, ⟨-, rfl⟩, y, ⟨-, rfl⟩, rfl⟩ := hv2
    exact h.deposit (s' := r.1) (v' := r.2) ((h _).swapRemove hp) hr

theorem relock_from_balance_near {s s' : State} {c : Ctx} {d b : Nat} (h : NearS f s)
    (hx : s.relock_from_balance c d b = .ok s') : NearS (bump f c.predecessor 1) s' := by
  simp only [State.relock_from_balance, bind_ok_iff, require_ok_iff, subU_ok_iff, pure_ok_iff] at hx
  obtain ⟨v, hv, -, -, -, -, x, ⟨-, rfl⟩, r, hr, rfl⟩ := hx
  obtain ⟨hv, rfl⟩ := get_voter_ok hv
  have hn : Nears (59 * (f c.predecessor + 1))
      { s.voterD c.predecessor with balance := (s.voterD c.predecessor).balance - b }.locking_positions :=
    h c.predecessor
  obtain ⟨s1, v1⟩ := r
  exact h.deposit hn hr

/-- Whose positions a call may deposit to or split. -/
def locker (J : Json) (c : Ctx) : Call → Option String
  | .ft_on_transfer sender _ m => beneficiary J sender m
  | .migration_create_lps v _ _ => some v
  | _ => some c.predecessor

/-- How many deposits and splits a call makes at most. -/
def Call.rounds : Call → Nat
  | .migration_create_lps _ l _ => l.length
  | .ft_on_transfer .. | .claim_and_lock .. | .unlock_partial_position .. | .relock_position ..
  | .relock_partial_position .. | .relock_from_balance .. => 1
  | _ => 0

/-- How many deposits to and splits of the positions of `id` a call makes at most. -/
def roundsOf (J : Json) (id : String) (c : Ctx) (k : Call) : Nat := if locker J c k = some id then k.rounds else 0

theorem migration_near {id : String} : ∀ {l : List (Nat × Nat)} {s : State} {f : String → Nat} {r : State × Voter},
    NearS f s → l.foldlM (State.migration_step id) (s, s.voterD id) = .ok r → NearS (bump f id l.length) r.1
  | [], s, f, r, h, hx => by
    simp only [List.foldlM_nil, pure_ok_iff] at hx; subst hx
    rw [List.length_nil, bump_zero]; exact h
  | lp :: l, s, f, r, h, hx => by
    simp only [List.foldlM_cons, bind_ok_iff] at hx
    obtain ⟨⟨s1, v1⟩, h1, hx⟩ := hx
    have hv : v1 = s1.voterD id := by
      obtain ⟨vp, ps, -, -, -, -, -, -, rfl⟩ := deposit_ok h1
      simp [State.voterD]
    subst hv
    have := migration_near (h.deposit (h id) h1) hx
    refine this.mono fun i => ?_
    simp only [bump, List.length_cons]; split <;> omega

theorem NearS.mirror {s s' : State} {e : String} (h : NearS f s)
    (hf : VFrame (pseudo_near_address e) s s') (hl : Mirrored (s'.voterD (pseudo_near_address e)).locking_positions) :
    NearS f s' := by
  intro i
  by_cases hi : i = pseudo_near_address e
  · subst hi
    exact fun p hp => near_fresh' (hl.ok p hp).2 p.unlocking_started_at
  · rw [hf.voterD_ne hi]; exact h i

theorem internal_withdraw_near {s s' : State} {x : Ctx} {id : String} {l : List Nat} {am : Option Nat}
    {t : Transfer} (h : NearS f s) (hx : s.internal_withdraw x id l am = .ok (s', t)) : NearS f s' := by
  obtain ⟨v, v2, -, rfl, hc, hl, hl', -, -, -, -, hs⟩ := internal_withdraw_ok hx
  have hn : Nears (59 * (f id + 1)) v2.locking_positions := by
    by_cases he : l = []
    · rw [hl he]; exact h id
    · exact (clear_took (hl' he)).nears (h id)
  split at hs
  · exact h.remove (by rw [hs])
  · exact h.insert (v := { v2 with balance := v2.balance - am.getD v2.balance }) (by rw [hs]) hn

theorem exec_near {J : Json} {s s' : State} {c : Ctx} {k : Call} {out : List Transfer} (h : NearS f s)
    (hx : exec J s c k = .ok (s', out)) : NearS (fun i => f i + roundsOf J i c k) s' := by
  have own : ∀ {k : Call} {s' : State}, locker J c k = some c.predecessor → k.rounds = 1 →
      NearS (bump f c.predecessor 1) s' → NearS (fun i => f i + roundsOf J i c k) s' := by
    intro k s' h1 h2 hn
    refine hn.mono fun i => ?_
    simp only [roundsOf, bump, h1, h2, Option.some.injEq, eq_comm (a := c.predecessor)]
    split <;> omega
  have votes : ∀ {id : String} {s' : State}, VFrame id s s' → (s'.voterD id).locking_positions = (s.voterD id).locking_positions →
      NearS f s' := by
    intro id s' hf hl i
    by_cases hi : i = id
    · subst hi; rw [hl]; exact h i
    · rw [hf.voterD_ne hi]; exact h i
  obtain ⟨-, -, -, hr⟩ := exec_ok.1 hx
  cases k <;> simp only [run, quiet_ok, sends_ok] at hr
  case migration_create_lps =>
    obtain ⟨-, r, hf, hs⟩ := migration_ok hr.1
    refine ((migration_near h hf).congr (by rw [hs])).mono fun i => ?_
    simp only [roundsOf, bump, locker, Call.rounds, Option.some.injEq, eq_comm (a := i)]
    split <;> omega
  case claim_and_lock =>
    obtain ⟨-, s1, v, h1, hv, v', h2⟩ := claim_and_lock_ok hr.1
    have hs : s1.voters = s.voters := by obtain ⟨-, -, rfl⟩ := remove_claimable_mpdao_ok h1; rfl
    have hv' : s1.voterD c.predecessor = v := voterD_of_get (by rw [hs]; exact hv)
    subst hv'
    exact own rfl rfl ((NearS.congr h hs).deposit (NearS.congr h hs _) h2)
  case unlock_partial_position => exact own rfl rfl (unlock_partial_near h hr.1)
  case relock_position => exact own rfl rfl (relock_position_near h hr.1)
  case relock_partial_position => exact own rfl rfl (relock_partial_near h hr.1)
  case relock_from_balance => exact own rfl rfl (relock_from_balance_near h hr.1)
  case ft_on_transfer =>
    rcases ft_on_transfer_ok hr.1 with ⟨info, -, -, hd⟩ | ⟨t, v', -, -, ht, -, hd⟩
    · refine (h.congr ?_).mono fun i => Nat.le_add_right _ _
      rcases distribute_ok hd with ⟨-, hd⟩ | ⟨-, -, hd⟩ <;> rw [hd.frame.state]
    · refine (h.deposit (h _) hd).mono fun i => ?_
      simp only [roundsOf, bump, locker, Call.rounds, deposit_beneficiary ht, Option.some.injEq, eq_comm (a := i)]
      split <;> omega
  all_goals refine NearS.mono ?_ (fun i => Nat.le_add_right (f i) _)
  case unlock_position => exact unlock_position_near h hr.1
  case locking_position_extend_days => exact extend_near h hr.1
  case operator_mirror_lps =>
    exact NearS.mirror h (mirror_vframe hr.1).2 (mirror_positions hr.1).2.1
  case clear_locking_position =>
    simp only [State.clear_locking_position, bind_ok_iff, require_ok_iff, pure_ok_iff] at hr
    obtain ⟨⟨-, -, v, hv, v2, hv2, rfl⟩, -⟩ := hr
    obtain ⟨hv, rfl⟩ := get_voter_ok hv
    exact h.insert rfl ((clear_took hv2).nears (h _))
  case withdraw =>
    obtain ⟨t, ht, -⟩ := hr
    exact internal_withdraw_near h ht
  case withdraw_all =>
    obtain ⟨t, ht, -⟩ := hr
    obtain ⟨v, -, ht⟩ := withdraw_all_ok ht
    exact internal_withdraw_near h ht
  case after_transfer_mpdao_callback =>
    rcases callback_mpdao_ok hr.1 with ⟨-, rfl⟩ | ⟨-, hw⟩
    · exact h
    · simp only [State.restore_transfer_to_mpdao, bind_ok_iff, addU128_ok_iff, pure_ok_iff] at hw
      obtain ⟨b, ⟨-, rfl⟩, rfl⟩ := hw
      exact h.insert rfl (h _)
  case vote =>
    refine votes (internal_vote_veffect hr.1).toVFrame ?_
    obtain ⟨-, -, -, -, -, rfl⟩ := internal_vote_ok hr.1; simp [State.voterD]
  case vote_delegated =>
    simp only [State.vote_delegated, bind_ok_iff] at hr
    obtain ⟨⟨p, hp, hr⟩, rfl⟩ := hr
    refine votes (internal_vote_veffect hr).toVFrame ?_
    obtain ⟨-, -, -, -, -, rfl⟩ := internal_vote_ok hr; simp [State.voterD]
  case unvote =>
    refine votes (internal_unvote_veffect hr.1).toVFrame ?_
    obtain ⟨-, -, -, -, -, rfl⟩ := internal_unvote_ok hr.1; simp [State.voterD]
  case unvote_delegated =>
    simp only [State.unvote_delegated, bind_ok_iff] at hr
    obtain ⟨⟨p, hp, hr⟩, rfl⟩ := hr
    refine votes (internal_unvote_veffect hr).toVFrame ?_
    obtain ⟨-, -, -, -, -, rfl⟩ := internal_unvote_ok hr; simp [State.voterD]
  case rebalance =>
    refine votes (rebalance_veffect hr.1).toVFrame ?_
    obtain ⟨hpres, -, -, ⟨rfl, hu⟩ | ⟨hn, -, -, vs, rfl, -⟩⟩ := rebalance_ok hr.1
    · obtain ⟨-, -, -, -, -, rfl⟩ := internal_unvote_ok hu; simp [State.voterD]
    · simp [State.voterD]
  case after_transfer_stnear_callback =>
    rcases callback_stnear_ok hr.1 with ⟨-, rfl⟩ | ⟨-, hw⟩
    · exact h
    · obtain ⟨-, -, rfl⟩ := add_claimable_stnear_ok hw
      exact h.congr rfl
  case claim_stnear =>
    obtain ⟨t, ht, -⟩ := hr
    obtain ⟨-, -, rfl⟩ := remove_claimable_stnear_ok (claim_stnear_ok ht).1
    exact h.congr rfl
  case delegated_claim_stnear =>
    obtain ⟨t, ht, -⟩ := hr
    obtain ⟨-, -, rfl⟩ := remove_claimable_stnear_ok (delegated_claim_ok ht).2.1
    exact h.congr rfl
  case new_ => simp [new] at hr
  case migrate => simp [migrate, expect, bind_ok_iff] at hr
  case operator_confirm_delegated_evm_address =>
    have := confirm_ok hr.1
    exact h.congr (by rw [this])
  all_goals
    simp only [State.set_stnear_contract, State.set_operator_id, State.set_owner_id,
      State.update_registration_cost, State.update_airdrop_user_data,
      State.operator_multi_set_airdrop_data, State.set_lock_in_vote_filters,
      State.update_min_unbond_period, State.update_max_unbond_period, State.set_prev_gov_contract,
      State.pre_delegate_evm_address, State.operator_remove_pre_delegate_evm_address,
      State.remove_delegated_evm_address, bind_ok_iff, pure_ok_iff] at hr
    obtain ⟨hr, rfl⟩ := hr
    repeat (obtain ⟨_, _, hr⟩ := hr)
    exact h.congr rfl

theorem Ran.near {J : Json} {s s' : State} {c : Ctx} {k : Call} {out : List Transfer} (hx : Ran J s c k s' out)
    (h : NearS f s) : NearS (fun i => f i + roundsOf J i c k) s' := by
  cases hx with
  | exact hx => exact exec_near h hx
  | vote id hk hm hf hb hl hid =>
    refine NearS.mono (fun i => ?_) (fun i => Nat.le_add_right (f i) _)
    by_cases hi : i = id
    · subst hi; rw [hl]; exact h i
    · rw [hf.voterD_ne hi]; exact h i
  | mirror hop hf hb hl hn => exact (h.mirror hf hl).mono (fun i => Nat.le_add_right (f i) _)

/-- Deposits to and splits of the positions of `id` in a history, at most. -/
def roundsIn (J : Json) (id : String) : List Entry → Nat
  | [] => 0
  | .call c k _ :: l => roundsOf J id c k + roundsIn J id l
  | .resolved .. :: l => roundsIn J id l

theorem LReach.near {J : Json} {me : AccountId} {w : World} (h : LReach J me w) :
    NearS (fun id => roundsIn J id w.log) w.st := by
  induction h with
  | init h =>
    cases h with
    | mk o op a b d l v m st r p ts s hr hts hn =>
      obtain ⟨-, -, rfl⟩ := new_ok hn
      intro id p hp
      simp [State.voterD] at hp
  | step _ hs ih =>
    cases hs with
    | call c k s' out hme hres hm hclock hu64 hran =>
      exact (hran.near ih).mono fun i => by simp only [roundsIn]; omega
    | resolve pre post t ok ts hpend hclock hu64 =>
      cases hx : exec J _ ⟨me, me, 0, ts, [ok]⟩ t.callbackCall with
      | error e => exact ih
      | ok r =>
        refine (exec_near ih hx).mono fun i => ?_
        have : roundsOf J i ⟨me, me, 0, ts, [ok]⟩ t.callbackCall = 0 := by
          unfold roundsOf Transfer.callbackCall
          split <;> split <;> rfl
        simp only [roundsIn, this]; omega
    | tick ts hclock hu64 => exact ih

end Verif.MetaVote
