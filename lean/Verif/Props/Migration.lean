import Verif.Props.Deposits

/-!
# Migrations: from the previous governance contract (C28, C29) and of the state layout (C45)
-/

namespace Verif.MetaVote

open Verif

/-! ## C29: migrated positions -/

/-- What the positions of the list (amount with 24 decimals, days) add for the period `d`. -/
def addedFor (d : Nat) (l : List (Nat × Nat)) : Nat :=
  (l.map (fun p => if p.2 = d then p.1 / 10 ^ 18 else 0)).sum

/-- Voting power of the positions of the list locked for `d` days. -/
def addedVpFor (d : Nat) (l : List (Nat × Nat)) : Nat :=
  (l.map (fun p => if p.2 = d then p.1 / 10 ^ 18 * 10 ^ 18 * p.2 / 60 else 0)).sum

/-- Voting power of all the positions of the list. -/
def addedVp (l : List (Nat × Nat)) : Nat := (l.map (fun p => p.1 / 10 ^ 18 * 10 ^ 18 * p.2 / 60)).sum

/-- Positions that are not locked, in order. -/
def unlockingPositions (l : List LockingPosition) : List LockingPosition :=
  l.filter (fun p => decide (p.unlocking_started_at ≠ none))

/-- The positions of the list `l` are added to the account `id`, and nothing else happens to the records. -/
structure MigratedFor (s s' : State) (id : String) (l : List (Nat × Nat)) : Prop where
  periods : ∀ p ∈ l, s.min_unbond_period ≤ p.2 ∧ p.2 ≤ s.max_unbond_period
  amounts : ∀ d, lockedAmount d (s'.voterD id).locking_positions =
    lockedAmount d (s.voterD id).locking_positions + addedFor d l
  powers : ∀ d, lockedVpFor d (s'.voterD id).locking_positions =
    lockedVpFor d (s.voterD id).locking_positions + addedVpFor d l
  sum : (s'.voterD id).inPositions = (s.voterD id).inPositions + (l.map (fun p => p.1 / 10 ^ 18)).sum
  unlocking : unlockingPositions (s'.voterD id).locking_positions =
    unlockingPositions (s.voterD id).locking_positions
  avail : (s'.voterD id).available_voting_power = (s.voterD id).available_voting_power + addedVp l
  total : s'.total_voting_power = s.total_voting_power + addedVp l
  balance : (s'.voterD id).balance = (s.voterD id).balance
  votes : (s'.voterD id).vote_positions = (s.voterD id).vote_positions
  others : ∀ i, i ≠ id → s'.voters.get i = s.voters.get i

theorem locked_rest {d d' : Nat} (h : d ≠ d') (g : LockingPosition → Nat) (l : List LockingPosition) :
    posSum (fun p => if isLockedFor d' p then g p else 0) l =
      posSum (fun p => if isLockedFor d' p then g p else 0) (restPositions d l) := by
  induction l with
  | nil => rfl
  | cons p l ih =>
    unfold restPositions at ih ⊢
    rw [List.filter_cons]
    by_cases hp : isLockedFor d p = true
    · have : isLockedFor d' p = false := by
        unfold isLockedFor at hp ⊢
        simp only [decide_eq_true_eq, decide_eq_false_iff_not] at hp ⊢
        exact fun hq => h (hp.2.symm.trans hq.2)
      simp only [hp, Bool.not_true, Bool.false_eq_true, if_false]
      rw [← ih]
      simp [MetaVote.posSum, this]
    · simp only [hp, Bool.not_false, if_true]
      simp only [MetaVote.posSum, List.map_cons, List.sum_cons] at ih ⊢
      rw [ih]

theorem unlocking_rest (d : Nat) (l : List LockingPosition) :
    unlockingPositions l = unlockingPositions (restPositions d l) := by
  unfold unlockingPositions restPositions
  rw [List.filter_filter]
  apply List.filter_congr
  intro p _
  unfold isLockedFor
  cases p.unlocking_started_at <;> simp

theorem sum_rest (d : Nat) (l : List LockingPosition) :
    posSum (·.amount) l = lockedAmount d l + posSum (·.amount) (restPositions d l) := by
  induction l with
  | nil => rfl
  | cons p l ih =>
    unfold restPositions lockedAmount at ih ⊢
    rw [List.filter_cons]
    by_cases hp : isLockedFor d p = true <;>
      simp only [hp, MetaVote.posSum, Bool.not_true, Bool.not_false, Bool.false_eq_true, if_false, if_true,
        List.map_cons, List.sum_cons] at ih ⊢ <;> omega

theorem migration_fold_migrated {id : String} : ∀ {l : List (Nat × Nat)} {s : State} {r : State × Voter},
    l.foldlM (State.migration_step id) (s, s.voterD id) = .ok r →
    MigratedFor s r.1 id l ∧
      r.1 = { s with voters := r.1.voters, total_voting_power := r.1.total_voting_power }
  | [], s, r, hx => by
    rw [foldlM_ok_nil] at hx
    subst hx
    exact ⟨⟨by simp, by simp [addedFor], by simp [addedVpFor], by simp, rfl, by simp [addedVp], by simp [addedVp],
      rfl, rfl, fun _ _ => rfl⟩, rfl⟩
  | lp :: l, s, r, hx => by
    rw [foldlM_ok_cons] at hx
    obtain ⟨⟨s1, v1⟩, h1, h2⟩ := hx
    have hv1 : v1 = s1.voterD id := by
      obtain ⟨vp, ps, -, -, -, -, -, -, rfl⟩ := deposit_ok h1
      simp [State.voterD]
    subst hv1
    obtain ⟨hl, hb, hs⟩ := deposit_locks rfl rfl rfl h1
    obtain ⟨hm, hr⟩ := migration_fold_migrated h2
    have e18 : (1000000000000000000 : Nat) = 10 ^ 18 := by norm_num
    simp only [e18] at hl
    refine ⟨⟨?_, ?_, ?_, ?_, ?_, ?_, ?_, ?_, ?_, ?_⟩, ?_⟩
    · intro p hp
      rcases List.mem_cons.1 hp with rfl | hp
      · exact ⟨hl.min, hl.max⟩
      · have := hm.periods p hp
        rw [hs] at this
        exact this
    · intro d
      rw [hm.amounts d]
      simp only [addedFor, List.map_cons, List.sum_cons]
      by_cases hd : lp.2 = d
      · subst hd
        rw [hl.amount, if_pos rfl]; omega
      · rw [if_neg hd, lockedAmount, lockedAmount, locked_rest hd, hl.rest, ← locked_rest hd]; omega
    · intro d
      rw [hm.powers d]
      simp only [addedVpFor, List.map_cons, List.sum_cons]
      by_cases hd : lp.2 = d
      · subst hd
        rw [hl.vp, if_pos rfl]; omega
      · rw [if_neg hd, lockedVpFor, lockedVpFor, locked_rest hd, hl.rest, ← locked_rest hd]; omega
    · rw [hm.sum]
      simp only [Voter.inPositions, List.map_cons, List.sum_cons]
      rw [sum_rest lp.2, hl.amount, hl.rest, sum_rest lp.2 (s.voterD id).locking_positions]
      omega
    · rw [hm.unlocking, unlocking_rest lp.2, hl.rest, ← unlocking_rest]
    · rw [hm.avail, hl.avail]
      simp only [addedVp, List.map_cons, List.sum_cons]; omega
    · rw [hm.total, hl.total]
      simp only [addedVp, List.map_cons, List.sum_cons]; omega
    · rw [hm.balance, hb]
    · rw [hm.votes, hl.votes]
    · intro i hi
      rw [hm.others i hi, hl.others i hi]
    · rw [hr, hs]

/-- **C29**: an accepted migration for `id` adds exactly the converted positions to `id`, period by period,
their voting power to `id` and to the total, changes no other voter, and (apart from the user data) nothing
else. -/
theorem C29_migration {J : Json} {s s' : State} {c : Ctx} {id : String} {l : List (Nat × Nat)} {d : Option String}
    {out : List Transfer} (hx : exec J s c (.migration_create_lps id l d) = .ok (s', out)) :
    out = [] ∧ c.predecessor = s.prev_governance_contract ∧ MigratedFor s s' id l ∧
    s' = { s with
      voters := s'.voters
      total_voting_power := s'.total_voting_power
      associated_user_data := s'.associated_user_data } := by
  obtain ⟨-, -, -, hr⟩ := exec_ok.1 hx
  simp only [run, quiet_ok] at hr
  obtain ⟨hr, rfl⟩ := hr
  obtain ⟨hp, r, hf, hs⟩ := migration_ok hr
  obtain ⟨hm, hfr⟩ := migration_fold_migrated hf
  refine ⟨rfl, hp, ?_, ?_⟩
  · have e1 : s'.voters = r.1.voters := by rw [hs]
    have e2 : s'.total_voting_power = r.1.total_voting_power := by rw [hs]
    have e3 : ∀ i, s'.voterD i = r.1.voterD i := fun i => by simp only [State.voterD, e1]
    exact ⟨hm.periods, by simpa only [e3] using hm.amounts, by simpa only [e3] using hm.powers,
      by simpa only [e3] using hm.sum, by simpa only [e3] using hm.unlocking,
      by simpa only [e3] using hm.avail, by rw [e2]; exact hm.total, by simpa only [e3] using hm.balance,
      by simpa only [e3] using hm.votes, by simpa only [e1] using hm.others⟩
  · rw [hs, hfr]

/-- A migration of three positions, two of them of the same period, for an account that has one. -/
example :
    let l := [(2500000000000000000000000, 60), (999999999999999999, 60), (7000000000000000000000000, 120)]
    let r := exec demoJ demo.st ⟨"me", "old-gov", 0, 20000, []⟩ (.migration_create_lps "bob" l none)
    r.isOk = true ∧ ((r.getOr (demo.st, [])).1.voterD "bob").inPositions =
      (demo.st.voterD "bob").inPositions + 2500000 + 7000000 := by decide +kernel

/-! ## C28: migrated user data -/

/-- **C28** (partial: the data is registered under the *calling contract*, not under the voter; so the claim
holds only when the voter is the calling contract): what becomes of the user data of a migration. -/
theorem C28_data_partial {J : Json} {s s' : State} {c : Ctx} {id : String} {l : List (Nat × Nat)}
    {d : Option String} {out : List Transfer} (hx : exec J s c (.migration_create_lps id l d) = .ok (s', out)) :
    (∀ x, d = some x → s.check_if_registered_for_airdrops c.predecessor = false →
      s'.get_airdrop_account c.predecessor = .ok x) ∧
    (∀ i, i ≠ c.predecessor ∨ d = none ∨ s.check_if_registered_for_airdrops c.predecessor = true →
      s'.get_airdrop_account i = s.get_airdrop_account i) := by
  obtain ⟨-, -, -, hr⟩ := exec_ok.1 hx
  simp only [run, quiet_ok] at hr
  obtain ⟨hr, rfl⟩ := hr
  obtain ⟨hp, r, hf, hs⟩ := migration_ok hr
  constructor
  · rintro x rfl hn
    have hn' : s.associated_user_data.get c.predecessor = none := by
      simpa [State.check_if_registered_for_airdrops] using hn
    rw [hs]
    simp [State.get_airdrop_account, hn', expect]
  · intro i hi
    rw [hs]
    simp only [State.get_airdrop_account]
    congr 1
    cases d with
    | none => rfl
    | some x =>
      simp only
      split
      · rename_i hn
        rcases hi with hi | hi | hi
        · exact UMap.get_insert_ne _ _ hi
        · simp at hi
        · simp [State.check_if_registered_for_airdrops, hn] at hi
      · rfl

/-- **C28 is false of the code**: the data that comes with bob's migration is registered for the previous
governance contract; bob stays unregistered, and the data of the next migrating user is dropped. -/
theorem C28_false :
    let r := exec demoJ demo.st ⟨"me", "old-gov", 0, 20000, []⟩ (.migration_create_lps "bob" [] (some "bob's data"))
    let s1 := (r.getOr (demo.st, [])).1
    let r2 := exec demoJ s1 ⟨"me", "old-gov", 0, 20000, []⟩ (.migration_create_lps "alice" [] (some "alice's data"))
    let s2 := (r2.getOr (s1, [])).1
    r.isOk = true ∧ r2.isOk = true ∧
    s1.check_if_registered_for_airdrops "bob" = false ∧ s1.get_airdrop_account "old-gov" = .ok "bob's data" ∧
    s2.check_if_registered_for_airdrops "alice" = false ∧ s2.get_airdrop_account "old-gov" = .ok "bob's data" := by
  decide +kernel

/-! ## C45: the migration of the state layout -/

/-- The old layout of a state: everything except the lock-in filter. -/
def State.old (s : State) : OldState :=
  ⟨s.owner_id, s.operator_id, s.voters, s.votes, s.min_unbond_period, s.max_unbond_period,
    s.min_deposit_amount, s.max_locking_positions, s.max_voting_positions, s.mpdao_token_contract_address,
    s.total_voting_power, s.claimable_mpdao, s.accumulated_mpdao_distributed_for_claims, s.total_unclaimed_mpdao,
    s.stnear_token_contract_address, s.claimable_stnear, s.accum_distributed_stnear_for_claims,
    s.total_unclaimed_stnear, s.registration_cost, s.associated_user_data, s.prev_governance_contract,
    s.evm_delegates, s.evm_pre_delegation, s.evm_delegation_signatures⟩

/-- **C45**: `migrate` is accepted exactly for the contract itself and a stored state that decodes; it keeps
every value of the old state and switches the lock-in filter off. -/
theorem C45_migrate (c : Ctx) (o : Option OldState) (s : State) :
    migrate c o = .ok s ↔
      c.predecessor = c.current ∧ o = some s.old ∧ s.get_lock_in_vote_filters = (0, none, 0) := by
  simp only [migrate, bind_ok_iff, require_ok_iff, expect_ok_iff, pure_ok_iff]
  constructor
  · rintro ⟨-, h1, x, rfl, rfl⟩
    exact ⟨h1, rfl, rfl⟩
  · rintro ⟨h1, rfl, h2⟩
    refine ⟨(), h1, _, rfl, ?_⟩
    simp only [State.get_lock_in_vote_filters, Prod.mk.injEq] at h2
    obtain ⟨h3, h4, h5⟩ := h2
    cases s
    simp only at h3 h4 h5
    subst h3 h4 h5
    rfl

/-- **C45**: with the lock-in filter off, the migrated state answers every view like the old one would:
a state without filter is recovered from its old layout. -/
theorem C45_roundtrip (c : Ctx) (s : State) (hc : c.predecessor = c.current)
    (hoff : s.get_lock_in_vote_filters = (0, none, 0)) : migrate c (some s.old) = .ok s :=
  (C45_migrate c _ s).2 ⟨hc, rfl, hoff⟩

example : migrate ⟨"me", "me", 0, 5, []⟩ (some demo.st.old) = .ok demo.st ∧ demo.st.voters.len = 3 :=
  ⟨C45_roundtrip _ _ rfl (by decide +kernel), by decide +kernel⟩

end Verif.MetaVote
