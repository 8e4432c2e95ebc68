import Verif.MetaVote.Clear
import Verif.MetaVote.Cons
import Verif.MetaVote.VoteEffects

/-!
# What a call can do to the balance and the positions of a voter

`Edit` lists the elementary changes; `exec_edits` shows that every accepted call is, for every account,
a sequence of them.
-/

namespace Verif.MetaVote

open Verif

/-- `Deposited` only looks at the positions. -/
def Dep (l : List LockingPosition) (m a d vp : Nat) (ps : List LockingPosition) : Prop :=
  Deposited ⟨0, l, 0, UMap.empty⟩ m a d vp ps

theorem Deposited.dep {v : Voter} {m a d vp : Nat} {ps : List LockingPosition}
    (h : Deposited v m a d vp ps) : Dep v.locking_positions m a d vp ps := by
  cases h with
  | increase i p hf hp hd hl ha hv =>
    exact Deposited.increase (v := ⟨0, v.locking_positions, 0, UMap.empty⟩) i p hf hp hd hl ha hv
  | create hf hl => exact Deposited.create (v := ⟨0, v.locking_positions, 0, UMap.empty⟩) hf hl

/-- The period and the power of a deposit. -/
structure DepOK (s : State) (a d vp : Nat) : Prop where
  min : s.min_unbond_period ≤ d
  max : d ≤ s.max_unbond_period
  power : calculate_voting_power a d = .ok vp

/-- The call migrates a position of `a` for `d` days. -/
def Call.migrates (a d : Nat) : Call → Prop
  | .migration_create_lps _ l _ => ∃ lp ∈ l, lp.1 / 1000000000000000000 = a ∧ lp.2 = d
  | _ => False

/-- The mirroring entry point. -/
def Call.isMirror : Call → Bool
  | .operator_mirror_lps .. => true
  | _ => false

/-- One elementary change, during call `k`, of the balance and the positions of account `id` at time `now` (ms), with the
mpDAO paid out and given back by it. -/
inductive Edit (s : State) (c : Ctx) (k : Call) (id : String) :
    Nat → List LockingPosition → Nat → List LockingPosition → Nat → Nat → Prop
  | clear {b : Nat} {l : List LockingPosition} {i : Nat} {p : LockingPosition} (hp : l[i]? = some p)
      (hm : p.matured c.now) (hb : b + p.amount ≤ U128_MAX) :
      Edit s c k id b l (b + p.amount) (swapRemove l i) 0 0
  | pay {b : Nat} {l : List LockingPosition} {x : Nat} (h0 : 0 < x) (h : x ≤ b) :
      Edit s c k id b l (b - x) l x 0
  | back {b : Nat} {l : List LockingPosition} {x : Nat} (h : b + x ≤ U128_MAX) :
      Edit s c k id b l (b + x) l 0 x
  | deposit {b : Nat} {l ps : List LockingPosition} {a d vp : Nat} (hok : DepOK s a d vp)
      (hmin : s.min_deposit_amount ≤ a) (hd : Dep l s.max_locking_positions a d vp ps) :
      Edit s c k id b l b ps 0 0
  | migrate {b : Nat} {l ps : List LockingPosition} {a d vp : Nat} (hk : k.migrates a d) (hok : DepOK s a d vp)
      (hd : Dep l s.max_locking_positions a d vp ps) : Edit s c k id b l b ps 0 0
  | unlock {b : Nat} {l : List LockingPosition} {i : Nat} {p : LockingPosition}
      (hk : k = .unlock_position i ∨ k = .unlock_partial_position i p.amount) (hp : l[i]? = some p) :
      Edit s c k id b l b (l.set i { p with unlocking_started_at := some c.now }) 0 0
  | split {b : Nat} {l : List LockingPosition} {i a vp : Nat} {p : LockingPosition}
      (hk : k = .unlock_partial_position i a) (hp : l[i]? = some p)
      (ha : a < p.amount) (hmin : s.min_deposit_amount ≤ p.amount - a) (h1 : ONE_MPDAO ≤ a)
      (hvp : calculate_voting_power a p.locking_period = .ok vp) (hle : vp ≤ p.voting_power)
      (hlen : l.length % 256 < s.max_locking_positions) :
      Edit s c k id b l b ((l ++ [(⟨a, p.locking_period, vp, some c.now⟩ : LockingPosition)]).set i
        { p with voting_power := p.voting_power - vp, amount := p.amount - a }) 0 0
  | extend {b : Nat} {l : List LockingPosition} {i d vp : Nat} {p : LockingPosition}
      (hk : k = .locking_position_extend_days i d)
      (hid : id = c.predecessor) (hs : l = (s.voterD id).locking_positions) (hp : l[i]? = some p)
      (hl : p.unlocking_started_at = none) (hd : p.locking_period < d)
      (hvp : calculate_voting_power p.amount d = .ok vp) :
      Edit s c k id b l b (l.set i { p with locking_period := d, voting_power := vp }) 0 0
  | relock {b : Nat} {l ps : List LockingPosition} {i d x t vp : Nat} {p : LockingPosition}
      (hk : k = .relock_position i d x) (hid : id = c.predecessor)
      (hs : l = (s.voterD id).locking_positions) (hp : l[i]? = some p) (ht : p.unlocking_started_at = some t) (hx : x ≤ b)
      (hlong : c.now < t + p.locking_period * 86400000 → t + p.locking_period * 86400000 < c.now + d * 86400000)
      (hok : DepOK s (p.amount + x) d vp)
      (hd : Dep (swapRemove l i) s.max_locking_positions (p.amount + x) d vp ps) :
      Edit s c k id b l (b - x) ps 0 0
  | relockPart {b : Nat} {l ps : List LockingPosition} {i a d x t vp vp2 : Nat} {p : LockingPosition}
      (hk : k = .relock_partial_position i a d x)
      (hp : l[i]? = some p) (ht : p.unlocking_started_at = some t) (hx : x ≤ b) (ha : a < p.amount)
      (hmin : s.min_deposit_amount ≤ x + a) (hnow : c.now < t + p.locking_period * 86400000)
      (hlong : t + p.locking_period * 86400000 < c.now + d * 86400000)
      (hvp2 : calculate_voting_power (p.amount - a) p.locking_period = .ok vp2)
      (hok : DepOK s (x + a) d vp)
      (hd : Dep (l.set i { p with amount := p.amount - a, voting_power := vp2 })
        s.max_locking_positions (x + a) d vp ps) : Edit s c k id b l (b - x) ps 0 0
  | relockEnded {b : Nat} {l ps : List LockingPosition} {i a d x t vp : Nat} {p : LockingPosition}
      (hk : k = .relock_partial_position i a d x)
      (hp : l[i]? = some p) (ht : p.unlocking_started_at = some t) (hx : x ≤ b) (ha : a ≤ p.amount)
      (hmin : s.min_deposit_amount ≤ x + a) (hnow : t + p.locking_period * 86400000 ≤ c.now)
      (hfit : b + (p.amount - a) ≤ U128_MAX) (hok : DepOK s (x + a) d vp)
      (hd : Dep (swapRemove l i) s.max_locking_positions (x + a) d vp ps) :
      Edit s c k id b l (b + (p.amount - a) - x) ps 0 0
  | relockBalance {b : Nat} {l ps : List LockingPosition} {d x vp : Nat}
      (hk : k = .relock_from_balance d x) (hx : x ≤ b)
      (hmin : s.min_deposit_amount ≤ x) (hok : DepOK s x d vp)
      (hd : Dep l s.max_locking_positions x d vp ps) : Edit s c k id b l (b - x) ps 0 0
  | mirror {b : Nat} {l ps : List LockingPosition} (hk : k.isMirror = true) (hm : mirrored id)
      (hps : ∀ p ∈ ps, p.unlocking_started_at = none ∧
        calculate_voting_power p.amount p.locking_period = .ok p.voting_power)
      (hnd : (ps.map (·.locking_period)).Nodup)
      (hn : s.max_locking_positions ≤ U8_MAX → ps.length ≤ s.max_locking_positions) : Edit s c k id b l b ps 0 0

/-- A sequence of elementary changes. -/
inductive Edits (s : State) (c : Ctx) (k : Call) (id : String) :
    Nat → List LockingPosition → Nat → List LockingPosition → Nat → Nat → Prop
  | refl {b : Nat} {l : List LockingPosition} : Edits s c k id b l b l 0 0
  | step {b b1 b2 : Nat} {l l1 l2 : List LockingPosition} {x y x' y' : Nat}
      (h : Edits s c k id b l b1 l1 x y) (hs : Edit s c k id b1 l1 b2 l2 x' y') :
      Edits s c k id b l b2 l2 (x + x') (y + y')

theorem Edit.one {s : State} {c : Ctx} {k : Call} {id : String} {b b' : Nat} {l l' : List LockingPosition} {x y : Nat}
    (h : Edit s c k id b l b' l' x y) : Edits s c k id b l b' l' x y := by
  have := Edits.step .refl h
  rwa [Nat.zero_add, Nat.zero_add] at this

/-- The changes of account `id` between two states. -/
def EditsAt (s s' : State) (c : Ctx) (k : Call) (id : String) (x y : Nat) : Prop :=
  Edits s c k id (s.voterD id).balance (s.voterD id).locking_positions
    (s'.voterD id).balance (s'.voterD id).locking_positions x y

theorem EditsAt.same {s s' : State} {c : Ctx} {k : Call} {id : String} (h : s'.voters.get id = s.voters.get id) :
    EditsAt s s' c k id 0 0 := by
  have : s'.voterD id = s.voterD id := by unfold State.voterD; rw [h]
  unfold EditsAt; rw [this]; exact .refl

/-- One record is replaced, by an edit of it. -/
theorem edits_at {s s' : State} {c : Ctx} {k : Call} {id : String} {x y : Nat} {i : String}
    (hf : ∀ j, j ≠ id → s'.voters.get j = s.voters.get j)
    (he : EditsAt s s' c k id x y) :
    EditsAt s s' c k i (if id = i then x else 0) (if id = i then y else 0) := by
  by_cases h : id = i
  · subst h; simpa using he
  · rw [if_neg h, if_neg h]; exact .same (hf i (Ne.symm h))

theorem clear_edits {s : State} {c : Ctx} {k : Call} {id : String} {l : List Nat} {v v' : Voter}
    (h : v.clear_fully_unlocked_positions c.now l = .ok v') :
    Edits s c k id v.balance v.locking_positions v'.balance v'.locking_positions 0 0 := by
  refine foldlM_inv (fun u : Voter => Edits s c k id v.balance v.locking_positions u.balance
    u.locking_positions 0 0) ?_ _ _ _ .refl h
  intro u i u' hu hs
  obtain ⟨p, hp, ⟨hm, hb, rfl⟩ | ⟨-, rfl⟩⟩ := clear_one_ok hs
  · exact hu.step (.clear hp ((is_unlocked_iff _ _).1 hm) hb)
  · exact hu

theorem deposit_edit {s s' : State} {v v' : Voter} {a d : Nat} {id : String}
    (h : s.deposit_locking_position a d id v = .ok (s', v')) :
    ∃ vp ps, DepOK s a d vp ∧ Dep v.locking_positions s.max_locking_positions a d vp ps ∧
      (s'.voterD id).balance = v.balance ∧ (s'.voterD id).locking_positions = ps ∧
      v' = s'.voterD id ∧ (∀ j, j ≠ id → s'.voters.get j = s.voters.get j) ∧
      s' = { s with voters := s'.voters, total_voting_power := s'.total_voting_power } := by
  obtain ⟨vp, ps, h1, h2, -, -, h5, rfl, rfl⟩ := deposit_ok h
  refine ⟨vp, ps, ⟨h2.1, h2.2, h1⟩, h5.dep, ?_, ?_, ?_, ?_, rfl⟩
  · simp [State.voterD]
  · simp [State.voterD]
  · simp [State.voterD]
  · intro j hj; exact UMap.get_insert_ne _ _ hj

theorem migration_edits {s0 : State} {c : Ctx} {k : Call} {id : String} : ∀ {l : List (Nat × Nat)} {s : State}
    {r : State × Voter}, (∀ lp ∈ l, k.migrates (lp.1 / 1000000000000000000) lp.2) → s.min_unbond_period = s0.min_unbond_period →
    s.max_unbond_period = s0.max_unbond_period → s.max_locking_positions = s0.max_locking_positions →
    l.foldlM (State.migration_step id) (s, s.voterD id) = .ok r →
    Edits s0 c k id (s0.voterD id).balance (s0.voterD id).locking_positions (s.voterD id).balance
      (s.voterD id).locking_positions 0 0 →
    EditsAt s0 r.1 c k id 0 0 ∧ ∀ j, j ≠ id → r.1.voters.get j = s.voters.get j
  | [], s, r, _, _, _, _, hx, he => by
    rw [foldlM_ok_nil] at hx
    subst hx
    exact ⟨he, fun _ _ => rfl⟩
  | lp :: l, s, r, hk, h1, h2, h3, hx, he => by
    rw [foldlM_ok_cons] at hx
    obtain ⟨⟨s1, v1⟩, hx1, hx2⟩ := hx
    obtain ⟨vp, ps, hok, hd, hb, hl, rfl, hf, hs⟩ := deposit_edit hx1
    have e : Edit s0 c k id (s.voterD id).balance (s.voterD id).locking_positions (s1.voterD id).balance
        (s1.voterD id).locking_positions 0 0 := by
      rw [hb, hl]
      exact .migrate (hk lp (by simp)) ⟨by rw [← h1]; exact hok.min, by rw [← h2]; exact hok.max, hok.power⟩ (by rw [← h3]; exact hd)
    obtain ⟨i1, i2⟩ := migration_edits (s0 := s0) (c := c) (fun lp h => hk lp (List.mem_cons_of_mem _ h)) (by rw [hs]; exact h1) (by rw [hs]; exact h2)
      (by rw [hs]; exact h3) hx2 (he.step e)
    exact ⟨i1, fun j hj => (i2 j hj).trans (hf j hj)⟩

theorem unlock_edit {s s' : State} {c : Ctx} {k : Call} {i : Nat}
    (hk : ∀ p, (s.voterD c.predecessor).locking_positions[i]? = some p →
      k = .unlock_position i ∨ k = .unlock_partial_position i p.amount)
    (hx : s.unlock_position c i = .ok s') :
    EditsAt s s' c k c.predecessor 0 0 ∧ ∀ j, j ≠ c.predecessor → s'.voters.get j = s.voters.get j := by
  simp only [State.unlock_position, bind_ok_iff, get_position_ok, require_ok_iff, subU_ok_iff,
    pure_ok_iff] at hx
  obtain ⟨v, hv, p, hp, -, hle, x, ⟨-, rfl⟩, rfl⟩ := hx
  obtain ⟨hv, rfl⟩ := get_voter_ok hv
  refine ⟨?_, fun j hj => UMap.get_insert_ne _ _ hj⟩
  have := (Edit.unlock (s := s) (c := c) (id := c.predecessor)
    (b := (s.voterD c.predecessor).balance) (hk p hp) hp).one
  unfold EditsAt
  simpa [State.voterD, Voter.replace_position] using this

theorem votes_edit {s s' : State} {c : Ctx} {k : Call} {id : String}
    (h1 : (s'.voterD id).balance = (s.voterD id).balance)
    (h2 : (s'.voterD id).locking_positions = (s.voterD id).locking_positions) :
    EditsAt s s' c k id 0 0 := by
  unfold EditsAt; rw [h1, h2]; exact .refl

theorem mirror_remove_balance {n : Nat} : ∀ (fuel : Nat) (s : State) (v : Voter) (u : Nat)
    (r : State × Voter × Nat), State.mirror_remove_votes n fuel s v u = .ok r →
    r.2.1.balance = v.balance ∧ r.1.max_locking_positions = s.max_locking_positions
  | fuel, s, v, u, r, h => by
    unfold State.mirror_remove_votes at h
    split at h
    · cases fuel with
      | zero => simp at h
      | succ fuel =>
        simp only [bind_ok_iff, expect_ok_iff, subU_ok_iff] at h
        obtain ⟨app, happ, obj, hobj, ⟨s1, v1⟩, hr, u, ⟨-, rfl⟩, h⟩ := h
        rw [(mirror_remove_balance fuel s1 v1 _ r h).1, (mirror_remove_balance fuel s1 v1 _ r h).2]
        obtain ⟨-, -, -, rfl, rfl⟩ := remove_voting_ok hr
        exact ⟨rfl, rfl⟩
    · simp only [pure_ok_iff] at h; rw [← h]; exact ⟨rfl, rfl⟩

/-- What the positions of a mirrored account are. -/
structure Mirrored (ps : List LockingPosition) : Prop where
  ok : ∀ p ∈ ps, p.unlocking_started_at = none ∧
    calculate_voting_power p.amount p.locking_period = .ok p.voting_power
  nodup : (ps.map (·.locking_period)).Nodup

/-- What mirroring leaves of the mirrored account. -/
theorem mirror_positions {s s' : State} {c : Ctx} {e : String} {l : List (Nat × Nat)}
    (hx : s.operator_mirror_lps c e l = .ok s') :
    (s'.voterD (pseudo_near_address e)).balance = (s.voterD (pseudo_near_address e)).balance ∧
    Mirrored (s'.voterD (pseudo_near_address e)).locking_positions ∧
    (s.max_locking_positions ≤ U8_MAX →
      (s'.voterD (pseudo_near_address e)).locking_positions.length ≤ s.max_locking_positions) := by
  simp only [State.operator_mirror_lps, bind_ok_iff, addU128_ok_iff, subU_ok_iff, pure_ok_iff] at hx
  obtain ⟨-, -, u, -, prev, ⟨-, rfl⟩, vps, -, nvp, -, r, hloop, sv, hcr, av,
    ⟨hav, rfl⟩, tot, ⟨htot, rfl⟩, rfl⟩ := hx
  obtain ⟨hb, hmax⟩ := mirror_remove_balance _ _ _ _ _ hloop
  have hm : sv.2.balance = r.2.1.balance ∧ Mirrored sv.2.locking_positions ∧
      sv.1.max_locking_positions = s.max_locking_positions ∧
      (s.max_locking_positions ≤ U8_MAX → sv.2.locking_positions.length ≤ s.max_locking_positions) := by
    refine foldlM_inv (fun x : State × Voter => x.2.balance = r.2.1.balance ∧
      Mirrored x.2.locking_positions ∧ x.1.max_locking_positions = s.max_locking_positions ∧
      (s.max_locking_positions ≤ U8_MAX → x.2.locking_positions.length ≤ s.max_locking_positions)) ?_ _ _ _
      ⟨rfl, ⟨by simp, by simp⟩, hmax, by simp⟩ hcr
    rintro ⟨s1, v1⟩ lp ⟨s2, v2⟩ ⟨h1, h2, h3, h4⟩ hs
    obtain ⟨vp, hvp, hf, hlen, -, -, rfl, rfl⟩ := create_locking_ok hs
    refine ⟨h1, ⟨?_, ?_⟩, h3, fun h8 => ?_⟩
    rotate_left 2
    · have := h4 h8
      simp only [U8_MAX, List.length_append, List.length_singleton] at *
      rw [Nat.mod_eq_of_lt (by omega)] at hlen
      omega
    · intro p hp
      rcases List.mem_append.1 hp with hp | hp
      · exact h2.ok p hp
      · rw [List.mem_singleton] at hp; subst hp; exact ⟨rfl, hvp⟩
    · simp only [List.map_append, List.map_cons, List.map_nil]
      rw [List.nodup_append]
      refine ⟨h2.nodup, by simp, ?_⟩
      intro a ha b hb
      rw [List.mem_singleton] at hb
      subst hb
      rintro rfl
      obtain ⟨p, hp, hpd⟩ := List.mem_map.1 ha
      exact find_locked_none hf p hp hpd (h2.ok p hp).1
  rw [internal_get_voter_eq] at hb
  refine ⟨?_, ?_, ?_⟩
  · rw [← hb, ← hm.1]; simp [State.voterD]
  · simpa [State.voterD] using hm.2.1
  · simpa [State.voterD] using hm.2.2.2

theorem mirror_edit {s s' : State} {c : Ctx} {k : Call} {e : String} {l : List (Nat × Nat)}
    (hk : k.isMirror = true)
    (hx : s.operator_mirror_lps c e l = .ok s') :
    EditsAt s s' c k (pseudo_near_address e) 0 0 := by
  obtain ⟨hb, hm, hl⟩ := mirror_positions hx
  unfold EditsAt
  rw [hb]
  exact (Edit.mirror hk (mirrored_pseudo e) hm.ok hm.nodup hl).one

theorem partial_edit {s s' : State} {c : Ctx} {k : Call} {i a : Nat} (hk : k = .unlock_partial_position i a)
    (hx : s.unlock_partial_position c i a = .ok s') :
    EditsAt s s' c k c.predecessor 0 0 ∧ ∀ j, j ≠ c.predecessor → s'.voters.get j = s.voters.get j := by
  simp only [State.unlock_partial_position, bind_ok_iff, get_position_ok] at hx
  obtain ⟨v, hv, p, hp, hx⟩ := hx
  obtain ⟨hv, rfl⟩ := get_voter_ok hv
  split at hx
  · rename_i ha
    refine unlock_edit (fun q hq => .inr ?_) hx
    rw [hp] at hq; cases hq; rw [hk, ha]
  · simp only [bind_ok_iff, require_ok_iff, subU_ok_iff, pure_ok_iff, assert_at_least_1_mpdao,
      State.create_unlocking_position] at hx
    obtain ⟨-, hlt, r, ⟨-, rfl⟩, -, hmin, -, h1m, vp, hvp, -, hvple, -, hav, v2, ⟨-, hlen, rfl⟩, y,
      ⟨-, rfl⟩, z, ⟨-, rfl⟩, -, h1r, w', ⟨-, rfl⟩, rfl⟩ := hx
    refine ⟨?_, fun j hj => UMap.get_insert_ne _ _ hj⟩
    have := (Edit.split (s := s) (c := c) (id := c.predecessor)
      (b := (s.voterD c.predecessor).balance) hk hp hlt hmin h1m hvp hvple hlen).one
    unfold EditsAt
    simpa [State.voterD, Voter.replace_position] using this

theorem extend_edit {s s' : State} {c : Ctx} {k : Call} {i d : Nat}
    (hk : k = .locking_position_extend_days i d)
    (hx : s.locking_position_extend_days c i d = .ok s') :
    EditsAt s s' c k c.predecessor 0 0 ∧ ∀ j, j ≠ c.predecessor → s'.voters.get j = s.voters.get j := by
  simp only [State.locking_position_extend_days, bind_ok_iff, get_position_ok, require_ok_iff,
    subU_ok_iff, addU128_ok_iff, pure_ok_iff] at hx
  obtain ⟨v, hv, p, hp, -, hl, -, hd, vp, hvp, de, ⟨hle, rfl⟩, t, ⟨ht, rfl⟩, av, ⟨ha, rfl⟩, rfl⟩ := hx
  obtain ⟨hv, rfl⟩ := get_voter_ok hv
  refine ⟨?_, fun j hj => UMap.get_insert_ne _ _ hj⟩
  have := (Edit.extend (s := s) (c := c) (id := c.predecessor)
    (b := (s.voterD c.predecessor).balance) hk rfl rfl hp hl hd hvp).one
  unfold EditsAt
  simpa [State.voterD, Voter.replace_position] using this

theorem relock_edit {s s' : State} {c : Ctx} {k : Call} {i d x : Nat} (hk : k = .relock_position i d x)
    (hx : s.relock_position c i d x = .ok s') :
    EditsAt s s' c k c.predecessor 0 0 ∧ ∀ j, j ≠ c.predecessor → s'.voters.get j = s.voters.get j := by
  simp only [State.relock_position, bind_ok_iff, get_position_ok, require_ok_iff,
    subU_ok_iff, addU128_ok_iff, pure_ok_iff, expect_ok_iff, LockingPosition.locking_period_millis,
    millis_eq] at hx
  obtain ⟨v, hv, p, hp, -, hb, st, hst, -, hlong, am, ⟨-, rfl⟩, b, ⟨-, rfl⟩, ⟨s1, v1⟩, hd, rfl⟩ := hx
  obtain ⟨hv, rfl⟩ := get_voter_ok hv
  obtain ⟨vp, ps, hok, hdep, hbal, hl, -, hf, -⟩ := deposit_edit hd
  refine ⟨?_, hf⟩
  unfold EditsAt
  simp only
  rw [hbal, hl]
  exact (Edit.relock hk rfl rfl hp hst hb (by intro h; have := hlong h; omega) hok hdep).one

theorem relock_partial_edit {s s' : State} {c : Ctx} {k : Call} {i a d x : Nat}
    (hk : k = .relock_partial_position i a d x)
    (hx : s.relock_partial_position c i a d x = .ok s') :
    EditsAt s s' c k c.predecessor 0 0 ∧ ∀ j, j ≠ c.predecessor → s'.voters.get j = s.voters.get j := by
  simp only [State.relock_partial_position, bind_ok_iff, get_position_ok, require_ok_iff,
    subU_ok_iff, addU128_ok_iff, pure_ok_iff, expect_ok_iff, LockingPosition.locking_period_millis,
    millis_eq] at hx
  obtain ⟨v, hv, p, hp, -, hb, -, hap, am, ⟨-, rfl⟩, -, hmin, st, hst, v1, hv1, b, ⟨-, rfl⟩, ⟨s1, v2⟩, hd,
    rfl⟩ := hx
  obtain ⟨hv, rfl⟩ := get_voter_ok hv
  obtain ⟨vp, ps, hok, hdep, hbal, hl, -, hf, -⟩ := deposit_edit hd
  refine ⟨?_, hf⟩
  unfold EditsAt
  simp only
  rw [hbal, hl]
  simp only at hdep ⊢
  split at hv1
  · simp only [bind_ok_iff, require_ok_iff, subU_ok_iff, pure_ok_iff] at hv1
    obtain ⟨-, hlong, na, ⟨-, rfl⟩, -, -, -, hpos, vp2, hvp2, rfl⟩ := hv1
    exact (Edit.relockPart hk hp hst hb (by omega) hmin (by omega) (by omega) hvp2 hok hdep).one
  · simp only [bind_ok_iff, addU128_ok_iff, subU_ok_iff, pure_ok_iff] at hv1
    obtain ⟨re, ⟨-, rfl⟩, nb, ⟨hfit, rfl⟩, rfl⟩ := hv1
    exact (Edit.relockEnded hk hp hst hb hap hmin (by omega) hfit hok hdep).one

theorem relock_balance_edit {s s' : State} {c : Ctx} {k : Call} {d x : Nat}
    (hk : k = .relock_from_balance d x)
    (hx : s.relock_from_balance c d x = .ok s') :
    EditsAt s s' c k c.predecessor 0 0 ∧ ∀ j, j ≠ c.predecessor → s'.voters.get j = s.voters.get j := by
  simp only [State.relock_from_balance, bind_ok_iff, require_ok_iff, subU_ok_iff, pure_ok_iff] at hx
  obtain ⟨v, hv, -, hb, -, hm, b, ⟨-, rfl⟩, ⟨s1, v1⟩, hd, rfl⟩ := hx
  obtain ⟨hv, rfl⟩ := get_voter_ok hv
  obtain ⟨vp, ps, hok, hdep, hbal, hl, -, hf, -⟩ := deposit_edit hd
  refine ⟨?_, hf⟩
  unfold EditsAt
  simp only
  rw [hbal, hl]
  exact (Edit.relockBalance hk hb hm hok hdep).one

theorem clear_edit {s s' : State} {c : Ctx} {k : Call} {l : List Nat} (hx : s.clear_locking_position c l = .ok s') :
    EditsAt s s' c k c.predecessor 0 0 ∧ ∀ j, j ≠ c.predecessor → s'.voters.get j = s.voters.get j := by
  simp only [State.clear_locking_position, bind_ok_iff, require_ok_iff, pure_ok_iff] at hx
  obtain ⟨-, -, v, hv, v2, hc, rfl⟩ := hx
  obtain ⟨hv, rfl⟩ := get_voter_ok hv
  refine ⟨?_, fun j hj => UMap.get_insert_ne _ _ hj⟩
  have := clear_edits (s := s) (k := k) (id := c.predecessor) hc
  unfold EditsAt
  simpa [State.voterD] using this

theorem withdraw_edit {s s' : State} {c : Ctx} {k : Call} {id : String} {l : List Nat} {am : Option Nat} {t : Transfer}
    (hx : s.internal_withdraw c id l am = .ok (s', t)) :
    EditsAt s s' c k id t.amount 0 ∧ (∀ j, j ≠ id → s'.voters.get j = s.voters.get j) ∧
      t.isMpdao = true ∧ t.source = id := by
  obtain ⟨v, v2, -, rfl, hcl, hl0, hl1, hy, rfl, h1, h2, hs⟩ := internal_withdraw_ok hx
  refine ⟨?_, ?_, rfl, rfl⟩
  · have hc : Edits s c k id (s.voterD id).balance (s.voterD id).locking_positions v2.balance
        v2.locking_positions 0 0 := by
      by_cases hl : l = []
      · rw [hl0 hl]; exact .refl
      · exact clear_edits (hl1 hl)
    have := hc.step (.pay h1 h2)
    rw [Nat.zero_add, Nat.zero_add] at this
    unfold EditsAt
    simp only
    by_cases he : v2.balance - am.getD v2.balance = 0 ∧ v2.locking_positions = []
    · rw [if_pos he] at hs
      rw [he.1, he.2] at this
      rw [hs]
      simpa [State.voterD, Voter.new] using this
    · rw [if_neg he] at hs
      rw [hs]
      simpa [State.voterD] using this
  · intro j hj
    rw [hs]; split
    · exact UMap.get_remove_ne _ hj
    · exact UMap.get_insert_ne _ _ hj

/-- Every accepted call is, for every account, a sequence of elementary changes of its balance and
positions, whose payments are the transfers sent and whose refunds are the one of the callback. -/
theorem exec_edits {J : Json} {s s' : State} {c : Ctx} {k : Call} {out : List Transfer}
    (hx : exec J s c k = .ok (s', out)) (id : String) :
    EditsAt s s' c k id (amounts (mpOf id) out) (restoredMp id c k) := by
  obtain ⟨-, -, -, hr⟩ := exec_ok.1 hx
  have quiet : ∀ {k : Call} {i : String} {s' : State}, EditsAt s s' c k i 0 0 →
      (∀ j, j ≠ i → s'.voters.get j = s.voters.get j) → EditsAt s s' c k id 0 0 := by
    intro k i s' h hf
    have := edits_at (i := id) hf h
    simpa using this
  have frame : ∀ {k : Call} {i : String} {s' : State}, VFrame i s s' →
      (s'.voterD i).balance = (s.voterD i).balance →
      (s'.voterD i).locking_positions = (s.voterD i).locking_positions → EditsAt s s' c k id 0 0 :=
    fun h1 h2 h3 => quiet (votes_edit h2 h3) h1.others
  cases k <;> simp only [run, quiet_ok, sends_ok] at hr
  case new_ => simp [new] at hr
  case migrate => simp [migrate, expect, bind_ok_iff] at hr
  case claim_and_lock =>
    obtain ⟨hr, rfl⟩ := hr
    obtain ⟨hmin, s1, v, h1, hv, v', h2⟩ := claim_and_lock_ok hr
    obtain ⟨-, -, hs1⟩ := remove_claimable_mpdao_ok h1
    obtain ⟨vp, ps, hok, hdep, hbal, hl, -, hf, -⟩ := deposit_edit h2
    rw [hs1] at hf hok hdep
    refine quiet (i := c.predecessor) ?_ hf
    unfold EditsAt
    rw [hbal, hl, voterD_of_get hv]
    exact (Edit.deposit (s := s) ⟨hok.min, hok.max, hok.power⟩ hmin hdep).one
  case claim_stnear =>
    obtain ⟨t, ht, rfl⟩ := hr
    obtain ⟨h, rfl⟩ := claim_stnear_ok ht
    obtain ⟨-, -, hs⟩ := remove_claimable_stnear_ok h
    rw [amounts_one]
    simpa [mpOf, Transfer.isMpdao, restoredMp] using EditsAt.same (c := c) (id := id) (s := s) (s' := s') (by rw [hs])
  case delegated_claim_stnear =>
    obtain ⟨t, ht, rfl⟩ := hr
    obtain ⟨he, h, rfl⟩ := delegated_claim_ok ht
    obtain ⟨-, -, hs⟩ := remove_claimable_stnear_ok h
    rw [amounts_one]
    simpa [mpOf, Transfer.isMpdao, restoredMp] using EditsAt.same (c := c) (id := id) (s := s) (s' := s') (by rw [hs])
  case unlock_position => obtain ⟨hr, rfl⟩ := hr; have := unlock_edit (fun _ _ => .inl rfl) hr; exact quiet this.1 this.2
  case unlock_partial_position => obtain ⟨hr, rfl⟩ := hr; exact quiet (partial_edit rfl hr).1 (partial_edit rfl hr).2
  case locking_position_extend_days => obtain ⟨hr, rfl⟩ := hr; exact quiet (extend_edit rfl hr).1 (extend_edit rfl hr).2
  case relock_position => obtain ⟨hr, rfl⟩ := hr; exact quiet (relock_edit rfl hr).1 (relock_edit rfl hr).2
  case relock_partial_position =>
    obtain ⟨hr, rfl⟩ := hr; exact quiet (relock_partial_edit rfl hr).1 (relock_partial_edit rfl hr).2
  case relock_from_balance =>
    obtain ⟨hr, rfl⟩ := hr; exact quiet (relock_balance_edit rfl hr).1 (relock_balance_edit rfl hr).2
  case clear_locking_position => obtain ⟨hr, rfl⟩ := hr; exact quiet (clear_edit hr).1 (clear_edit (k := .withdraw_all) hr).2
  case vote =>
    obtain ⟨hr, rfl⟩ := hr
    refine frame (internal_vote_veffect hr).toVFrame ?_ ?_ <;>
      (obtain ⟨-, -, -, -, -, rfl⟩ := internal_vote_ok hr; simp [State.voterD])
  case vote_delegated =>
    simp only [State.vote_delegated, bind_ok_iff] at hr
    obtain ⟨⟨p, hp, hr⟩, rfl⟩ := hr
    refine frame (internal_vote_veffect hr).toVFrame ?_ ?_ <;>
      (obtain ⟨-, -, -, -, -, rfl⟩ := internal_vote_ok hr; simp [State.voterD])
  case unvote =>
    obtain ⟨hr, rfl⟩ := hr
    refine frame (internal_unvote_veffect hr).toVFrame ?_ ?_ <;>
      (obtain ⟨-, -, -, -, -, rfl⟩ := internal_unvote_ok hr; simp [State.voterD])
  case unvote_delegated =>
    simp only [State.unvote_delegated, bind_ok_iff] at hr
    obtain ⟨⟨p, hp, hr⟩, rfl⟩ := hr
    refine frame (internal_unvote_veffect hr).toVFrame ?_ ?_ <;>
      (obtain ⟨-, -, -, -, -, rfl⟩ := internal_unvote_ok hr; simp [State.voterD])
  case rebalance =>
    obtain ⟨hr, rfl⟩ := hr
    refine frame (rebalance_veffect hr).toVFrame ?_ ?_ <;>
      (obtain ⟨hpres, -, -, ⟨rfl, hu⟩ | ⟨hn, -, -, vs, rfl, -⟩⟩ := rebalance_ok hr
       · obtain ⟨-, -, -, -, -, rfl⟩ := internal_unvote_ok hu; simp [State.voterD]
       · simp [State.voterD])
  case migration_create_lps i l u =>
    obtain ⟨hr, rfl⟩ := hr
    obtain ⟨hp, r, hf, hs⟩ := migration_ok hr
    obtain ⟨h1, h2⟩ := migration_edits (c := c) (k := .migration_create_lps i l u) (fun lp h => ⟨lp, h, rfl, rfl⟩) rfl rfl rfl hf .refl
    have hv : s'.voters = r.1.voters := by rw [hs]
    refine quiet (i := _) (s' := s') ?_ (fun j hj => by rw [hv]; exact h2 j hj)
    have hd : ∀ i, s'.voterD i = r.1.voterD i := fun i => by unfold State.voterD; rw [hv]
    unfold EditsAt at h1 ⊢
    rw [hd]; exact h1
  case operator_mirror_lps =>
    obtain ⟨hr, rfl⟩ := hr
    exact quiet (mirror_edit rfl hr) (mirror_vframe hr).2.others
  case withdraw =>
    obtain ⟨t, ht, rfl⟩ := hr
    obtain ⟨h1, h2, h3, h4⟩ := withdraw_edit ht
    have := edits_at (i := id) h2 h1
    rw [amounts_one]
    simpa [mpOf, h3, h4, restoredMp] using this
  case withdraw_all =>
    obtain ⟨t, ht, rfl⟩ := hr
    obtain ⟨v, -, ht⟩ := withdraw_all_ok ht
    obtain ⟨h1, h2, h3, h4⟩ := withdraw_edit ht
    have := edits_at (i := id) h2 h1
    rw [amounts_one]
    simpa [mpOf, h3, h4, restoredMp] using this
  case after_transfer_mpdao_callback =>
    obtain ⟨hr, rfl⟩ := hr
    rename_i i a
    rcases callback_mpdao_ok hr with ⟨hp, rfl⟩ | ⟨hp, hw⟩
    · have := EditsAt.same (c := c) (k := .after_transfer_mpdao_callback i a) (id := id) (s := s') (s' := s') rfl
      simpa [restoredMp, hp, amounts_nil] using this
    · have hf := (restore_veffect hw).others
      simp only [State.restore_transfer_to_mpdao, bind_ok_iff, addU128_ok_iff, pure_ok_iff,
        internal_get_voter_eq] at hw
      obtain ⟨b, ⟨hb, rfl⟩, rfl⟩ := hw
      have he := (Edit.back (s := s) (c := c) (k := .after_transfer_mpdao_callback i a) (id := i)
        (l := (s.voterD i).locking_positions) hb).one
      have := edits_at (s := s) (c := c) (k := .after_transfer_mpdao_callback i a) (id := i) (i := id) hf (x := 0) (y := a)
        (by unfold EditsAt; simpa [State.voterD] using he)
      simpa [restoredMp, hp, amounts_nil] using this
  case after_transfer_stnear_callback =>
    obtain ⟨hr, rfl⟩ := hr
    rcases callback_stnear_ok hr with ⟨hp, rfl⟩ | ⟨hp, hw⟩
    · exact .same rfl
    · obtain ⟨-, -, hs⟩ := add_claimable_stnear_ok hw
      exact .same (by rw [hs])
  case ft_on_transfer =>
    obtain ⟨hr, rfl⟩ := hr
    rcases ft_on_transfer_ok hr with ⟨info, hm, -, hd⟩ | ⟨t, v', hm, hp, ht, hmin, hd⟩
    · rcases distribute_ok hd with ⟨hp, hd⟩ | ⟨hp, hp2, hd⟩
      · exact .same (by rw [hd.frame.state])
      · exact .same (by rw [hd.frame.state])
    · obtain ⟨vp, ps, hok, hdep, hbal, hl, -, hf, -⟩ := deposit_edit hd
      refine quiet (i := t.1) ?_ hf
      unfold EditsAt
      rw [hbal, hl]
      exact (Edit.deposit hok hmin hdep).one
  case operator_confirm_delegated_evm_address =>
    obtain ⟨hr, rfl⟩ := hr
    have := confirm_ok hr
    exact .same (by rw [this])
  all_goals
    simp only [State.set_stnear_contract, State.set_operator_id, State.set_owner_id,
      State.update_registration_cost, State.update_airdrop_user_data,
      State.operator_multi_set_airdrop_data, State.set_lock_in_vote_filters,
      State.update_min_unbond_period, State.update_max_unbond_period, State.set_prev_gov_contract,
      State.pre_delegate_evm_address, State.operator_remove_pre_delegate_evm_address,
      State.remove_delegated_evm_address, bind_ok_iff, pure_ok_iff] at hr
    obtain ⟨hr, rfl⟩ := hr
    repeat (obtain ⟨_, _, hr⟩ := hr)
    exact .same rfl

/-! ## Two invariants -/

theorem dep_started {l ps : List LockingPosition} {m a d vp T : Nat} (h : Dep l m a d vp ps)
    (hl : ∀ p ∈ l, ∀ t, p.unlocking_started_at = some t → t ≤ T) :
    ∀ p ∈ ps, ∀ t, p.unlocking_started_at = some t → t ≤ T := by
  cases h with
  | increase i p hf hp hd hlk ha hv =>
    intro q hq t ht
    rcases List.mem_or_eq_of_mem_set hq with hq | rfl
    · exact hl q hq t ht
    · cases ht
  | create hf hlen =>
    intro q hq t ht
    rcases List.mem_append.1 hq with hq | hq
    · exact hl q hq t ht
    · rw [List.mem_singleton] at hq; subst hq; cases ht

theorem swapRemove_mem {l : List LockingPosition} {i : Nat} {p q : LockingPosition} (hp : l[i]? = some p)
    (h : q ∈ swapRemove l i) : q ∈ l :=
  (swapRemove_perm l i (List.getElem?_eq_some_iff.1 hp).1).symm.subset (List.mem_cons_of_mem _ h)

/-- Balances fit a `u128` and no unlocking started in the future. -/
def FundOK (now b : Nat) (l : List LockingPosition) : Prop :=
  b ≤ U128_MAX ∧ ∀ p ∈ l, ∀ t, p.unlocking_started_at = some t → t ≤ now

theorem Edit.fundOK {s : State} {c : Ctx} {k : Call} {id : String} {b b' : Nat} {l l' : List LockingPosition}
    {x y : Nat} (h : Edit s c k id b l b' l' x y) (h0 : FundOK c.now b l) : FundOK c.now b' l' := by
  obtain ⟨hb, hl⟩ := h0
  cases h with
  | clear hp hm hfit => exact ⟨hfit, fun q hq => hl q (swapRemove_mem hp hq)⟩
  | pay h0 h => exact ⟨by omega, hl⟩
  | back h => exact ⟨h, hl⟩
  | deposit hok hmin hd => exact ⟨hb, dep_started hd hl⟩
  | migrate hk hok hd => exact ⟨hb, dep_started hd hl⟩
  | @unlock i p hk hp =>
    refine ⟨hb, fun q hq t ht => ?_⟩
    rcases List.mem_or_eq_of_mem_set hq with hq | rfl
    · exact hl q hq t ht
    · cases ht; exact le_rfl
  | @split i a vp p hk hp ha hmin h1 hvp hle hlen =>
    refine ⟨hb, fun q hq t ht => ?_⟩
    rcases List.mem_or_eq_of_mem_set hq with hq | rfl
    · rcases List.mem_append.1 hq with hq | hq
      · exact hl q hq t ht
      · rw [List.mem_singleton] at hq; subst hq; cases ht; exact le_rfl
    · exact hl p (List.mem_of_getElem? hp) t ht
  | @extend i d vp p hk hid hs hp hlk hd hvp =>
    refine ⟨hb, fun q hq t ht => ?_⟩
    rcases List.mem_or_eq_of_mem_set hq with hq | rfl
    · exact hl q hq t ht
    · exact hl p (List.mem_of_getElem? hp) t ht
  | relock hk hid hs hp ht hx hlong hok hd =>
    exact ⟨by omega, dep_started hd fun q hq => hl q (swapRemove_mem hp hq)⟩
  | relockPart hk hp ht hx ha hmin hnow hlong hvp2 hok hd =>
    refine ⟨by omega, dep_started hd fun q hq t ht => ?_⟩
    rcases List.mem_or_eq_of_mem_set hq with hq | rfl
    · exact hl q hq t ht
    · exact hl _ (List.mem_of_getElem? hp) t ht
  | relockEnded hk hp ht hx ha hmin hnow hfit hok hd =>
    exact ⟨by omega, dep_started hd fun q hq => hl q (swapRemove_mem hp hq)⟩
  | relockBalance hk hx hmin hok hd => exact ⟨by omega, dep_started hd hl⟩
  | mirror hk hm hps hnd =>
    refine ⟨hb, fun q hq t ht => ?_⟩
    rw [(hps q hq).1] at ht; cases ht

theorem Edits.fundOK {s : State} {c : Ctx} {k : Call} {id : String} {b b' : Nat} {l l' : List LockingPosition}
    {x y : Nat} (h : Edits s c k id b l b' l' x y) (h0 : FundOK c.now b l) : FundOK c.now b' l' := by
  induction h with
  | refl => exact h0
  | step h hs ih => exact hs.fundOK (ih h0)

theorem Edits.fits {s : State} {c : Ctx} {k : Call} {id : String} {b b' : Nat} {l l' : List LockingPosition}
    {x y : Nat} (h : Edits s c k id b l b' l' x y) (h0 : b ≤ U128_MAX) : b' ≤ U128_MAX := by
  induction h with
  | refl => exact h0
  | step h hs ih => cases hs <;> omega

theorem FundOK.mono {now now' b : Nat} {l : List LockingPosition} (h : FundOK now b l) (hn : now ≤ now') :
    FundOK now' b l := ⟨h.1, fun p hp t ht => le_trans (h.2 p hp t ht) hn⟩

end Verif.MetaVote
