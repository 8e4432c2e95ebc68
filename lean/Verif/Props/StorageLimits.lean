import Verif.Props.StorageExit
import Verif.Props.StorageLists
import Verif.Props.StorageFunds
import Verif.Props.Views
import Verif.Props.Migration
import Verif.Disk.Refine

/-!
# C04, C05, C27, C28, C30, C31, C32, C34, C69 over storage
-/

namespace Verif.Storage

open Verif MetaVote

variable {J : Json} {me : AccountId} {A : String → String → Prop} {W : SWorld}

/-! ## Limits of positions, whatever the vote maps -/

/-- Worlds reachable over storage with calls that satisfy `G`. -/
inductive SReachG (J : Json) (me : AccountId) (G : State → Ctx → Call → Prop) : SWorld → Prop
  | init {w : SWorld} (h : SInit w) : SReachG J me G w
  | step {w w' : SWorld} (h : SReachG J me G w) (hs : SStep J me w w')
      (hg : ∀ c k out, w'.log = .call c k out :: w.log → G w.S.st c k) : SReachG J me G w'

theorem SReachG.reach {G : State → Ctx → Call → Prop} (h : SReachG J me G W) : SReach J me W := by
  induction h with
  | init h => exact .init h
  | step _ hs _ ih => exact .step ih hs

theorem SReachG.loose {G : State → Ctx → Call → Prop} (h : SReachG J me G W) : LReachG J me G W.core := by
  induction h with
  | init h =>
    cases h with
    | mk w0 h =>
      refine .init ?_
      cases h with
      | mk o op a b d l v m st r p ts s hr hts hn => exact .mk o op a b d l v m st r p ts s hr hts hn
  | step h hs hg ih => exact .step ih hs.loose hg

/-- **C30** (part) over storage. -/
theorem C30_storage_limits_partial (h : SReachG J me limitsKept W) {id : String} (hid : ¬ mirrored id) :
    ∀ p ∈ (W.S.st.voterD id).locking_positions,
      W.S.st.min_unbond_period ≤ p.locking_period ∧ p.locking_period ≤ W.S.st.max_unbond_period :=
  C30_limits_partial h.loose hid

/-- **C31** (part) over storage. -/
theorem C31_storage_partial (h : SReachG J me extendsApart W) (id : String) {i j : Nat} {p q : LockingPosition}
    (hp : (W.S.st.voterD id).locking_positions[i]? = some p) (hq : (W.S.st.voterD id).locking_positions[j]? = some q)
    (hpl : p.unlocking_started_at = none) (hql : q.unlocking_started_at = none)
    (hd : p.locking_period = q.locking_period) : i = j :=
  C31_one_per_period_partial h.loose id hp hq hpl hql hd

/-- **C32** (part) over storage. -/
theorem C32_storage_partial (h : SReachG J me relocksMinimum W) {id : String} (hid : ¬ mirrored id) {p : LockingPosition}
    (hp : p ∈ (W.S.st.voterD id).locking_positions) (hl : p.unlocking_started_at = none) :
    W.S.st.min_deposit_amount ≤ p.amount := C32_minimum_partial h.loose hid hp hl

/-! ## Power and votes -/

theorem used_agree {w : World} (ha : Agree A W w) (id : String) : W.S.get_used_voting_power id = w.st.get_used_voting_power id := by
  unfold SState.get_used_voting_power
  rw [vlen_eq ha.repr, ha.repr.mem.usedVotes (id := id) (voter := w.st.voterD id) rfl]
  unfold State.get_used_voting_power
  rw [internal_get_voter_eq]

/-- **C04** (partial, over storage): the equality holds for a voter who unlocks only locked positions, in the executions of
`C73_refines_partial`. -/
theorem C04_storage_partial (hj : Joins A) {id : String} (h : SReachU J me A id W) (now : Nat) :
    ∃ used, W.S.get_used_voting_power id = .ok used ∧
      W.S.st.get_available_voting_power id + used = lockedPower (W.S.st.get_all_locking_positions now id) := by
  obtain ⟨w, hw, ha⟩ := reachU_agree hj h
  obtain ⟨used, hu, he⟩ := C04_exact_partial hw now
  refine ⟨used, (used_agree ha id).trans hu, ?_⟩
  rw [lockedPower_view, get_available_eq] at he ⊢
  rw [ha.voter]
  exact he

/-- **C05** (partial, over storage): the total is the sum over the voters of available plus used power, in the executions of
`C73_refines_partial`. -/
theorem C05_storage_sum_partial (hj : Joins A) (h : SReachC J me A W) :
    ∃ used : String → Nat, (∀ id, W.S.get_used_voting_power id = .ok (used id)) ∧
      W.S.st.get_total_voting_power = sumVoters W.S.st (fun id => W.S.st.get_available_voting_power id + used id) := by
  obtain ⟨w, hw, ha⟩ := reach_agree hj h
  obtain ⟨used, hu, he⟩ := C05_total_power_partial hw
  refine ⟨used, fun id => (used_agree ha id).trans (hu id), ?_⟩
  have h1 : W.S.st.get_total_voting_power = w.st.get_total_voting_power := by rw [ha.repr.st]; rfl
  rw [h1, he]
  unfold sumVoters
  have h2 : W.S.st.voters.keys = w.st.voters.keys := by rw [ha.repr.st]; exact UMap.keys_mapV ..
  rw [h2]
  refine congrArg List.sum (List.map_congr_left fun id _ => ?_)
  rw [available_bare (S := W.S) (s := w.st) ha.repr.st]

/-- **C34** (partial, over storage): a voter without votes who unlocked only locked positions can unlock any locked one. -/
theorem C34_storage_partial (hj : Joins A) {c : Ctx} (h : SReachU J me A c.predecessor W) (i : Nat) (p : LockingPositionJSON)
    (hdep : c.deposit = 0) (hi : i ≤ U64_MAX) (hu : W.S.get_used_voting_power c.predecessor = .ok 0)
    (hp : W.S.st.get_locking_position c.now i c.predecessor = some p) (hl : p.is_locked = true) :
    ∃ r, sexec J W.S c (.unlock_position i) = .ok r := by
  obtain ⟨w, hw, ha⟩ := reachU_agree hj h
  obtain ⟨r, hr⟩ := C34_can_unlock_partial hw i p hdep hi ((used_agree ha _).symm.trans hu) (by
    rw [← hp]
    unfold State.get_locking_position
    rw [internal_get_voter_eq, internal_get_voter_eq, ha.voter]
    rfl) hl
  obtain ⟨R, hR, -⟩ := (sim_exec hj ha.repr J (x := c) (k := .unlock_position i) trivial).ok_right hr
  exact ⟨R, hR⟩

/-- The world in which eve-x has voted into the map of eve. -/
def twoVotes : SWorld := (sruns demoJ "me" sdemo0 (shared.take 6)).get (by decide +kernel)

theorem twoVotes_reach : SReach demoJ "me" twoVotes := sreach_of_sruns sdemo0_reach (Option.some_get _).symm

/-- **C05** is false of the contract with its storage: a vote of `eve-x` is also counted as power used by `eve`. -/
theorem C05_storage_false : ∃ W, SReach demoJ "me" W ∧ ∃ used : String → Nat,
    (∀ id ∈ W.S.st.voters.keys, W.S.get_used_voting_power id = .ok (used id)) ∧
    W.S.st.get_total_voting_power < sumVoters W.S.st (fun id => W.S.st.get_available_voting_power id + used id) :=
  ⟨twoVotes, twoVotes_reach, fun id => (twoVotes.S.get_used_voting_power id).getOr 0, by decide +kernel, by decide +kernel⟩

/-! ## Listings, user data, delegation -/

/-- **C27** (partial, over storage): `get_voters` pages through a list with the information of every voter once, in the
executions of `C73_refines_partial`. -/
theorem C27_storage_partial (hj : Joins A) (h : SReachC J me A W) (now : Nat) :
    ∃ L : List VoterJSON, PagesOf (W.S.get_voters now) L ∧ (L.map (·.voter_id)).Nodup ∧ L.length = W.S.st.get_voters_count ∧
      (∀ id, (W.S.st.voters.get id).isSome ↔ id ∈ L.map (·.voter_id)) ∧
      (∀ x ∈ L, W.S.get_voter_info now x.voter_id = .ok x) ∧
      ∀ ns, L.length ≤ ns.sum → readPages (W.S.get_voters now) 0 ns = .ok L := by
  obtain ⟨w, hw, ha⟩ := reach_agree hj h
  have hst : W.S.st.voters = w.st.voters.mapV (fun _ v => v.bare) := by rw [ha.repr.st]; rfl
  have he : ∀ a n, W.S.get_voters now a n = w.st.get_voters now a n := by
    intro a n
    unfold SState.get_voters State.get_voters page
    rw [hst, UMap.keys_mapV, UMap.len_mapV]
    refine Disk.mapM_eq fun i _ => ?_
    cases hk : w.st.voters.keys[a + i]? with
    | none => rfl
    | some k =>
      obtain ⟨v, hv⟩ := UMap.mem_keys_iff.1 (List.mem_of_getElem? hk)
      have hi := (ha.repr.lists k "" now).2.2.2
      rw [State.get_voter_info, hv] at hi
      change (expect ((w.st.voters.mapV _).get k) _ >>= _) = (expect (w.st.voters.get k) _ >>= _)
      rw [UMap.get_mapV, hv]
      exact hi
  obtain ⟨L, h1, h2, h3, h4, h5⟩ := C27_voters w.st now
  have he' : W.S.get_voters now = w.st.get_voters now := funext fun a => funext fun n => he a n
  refine ⟨L, by rw [he']; exact h1, h2, ?_, fun id => ?_, fun x hx => ?_, by rw [he']; exact h5⟩
  · rw [h3]; unfold State.get_voters_count; rw [hst, UMap.len_mapV]
  · rw [hst, UMap.get_mapV, Option.isSome_map]
    constructor
    · intro hs
      have : (w.st.get_voter_info now id).voter_id = id := by
        unfold State.get_voter_info; split <;> rfl
      exact List.mem_map.2 ⟨w.st.get_voter_info now id, (h4 _).2 ⟨by rw [this]; exact hs, by rw [this]⟩, this⟩
    · intro hm
      obtain ⟨x, hx, rfl⟩ := List.mem_map.1 hm
      exact ((h4 x).1 hx).1
  · rw [(ha.repr.lists x.voter_id "" now).2.2.2, ← ((h4 x).1 hx).2]

/-- **C28** (part) over storage. -/
theorem C28_storage_partial {S S' : SState} {c : Ctx} {id : String} {l : List (Nat × Nat)} {d : Option String}
    {out : List Transfer} (hx : sexec J S c (.migration_create_lps id l d) = .ok (S', out)) :
    (∀ x, d = some x → S.st.check_if_registered_for_airdrops c.predecessor = false →
      S'.st.get_airdrop_account c.predecessor = .ok x) ∧
    (∀ i, i ≠ c.predecessor ∨ d = none ∨ S.st.check_if_registered_for_airdrops c.predecessor = true →
      S'.st.get_airdrop_account i = S.st.get_airdrop_account i) :=
  C28_data_partial ((sexec_ran hx).exec rfl)

/-- **C69** (part) over storage. -/
theorem C69_storage_partial {W' : SWorld} (h : SReach J me W) (hs : SSteps J me W W') {e a sig : String}
    (hp : W.S.st.get_pre_delegate_evm_address e = some (a, sig))
    (hno : ∀ l, W'.log = l ++ W.log → ∀ x ∈ l, ∀ c k o, x = .call c k o → touchesRequest e k = false)
    {c : Ctx} {S' : SState} {out : List Transfer}
    (hx : sexec J W'.S c (.operator_confirm_delegated_evm_address e) = .ok (S', out)) : S'.st.get_delegate e = some a :=
  C69_seen_partial h.loose hs.loose hp hno ((sexec_ran hx).exec rfl)

/-! ## Executions that meet the hypotheses -/

/-- The guard holds of every call. -/
def sguards (J : Json) (me : AccountId) (G : State → Ctx → Call → Prop) [∀ s c k, Decidable (G s c k)] (w : SWorld) :
    List Action → Bool
  | [] => true
  | a :: l => match sact J me w a with
    | some w' => (match a with | .call p d ts k => decide (G w.S.st ⟨me, p, d, ts, []⟩ k) | _ => true) && sguards J me G w' l
    | none => true

theorem sreachG_of_sruns {G : State → Ctx → Call → Prop} [∀ s c k, Decidable (G s c k)] : ∀ {l : List Action} {w w' : SWorld},
    SReachG J me G w → sguards J me G w l = true → sruns J me w l = some w' → SReachG J me G w'
  | [], w, w', hw, _, h => by cases h; exact hw
  | a :: l, w, w', hw, hk, h => by
    simp only [sruns] at h
    simp only [sguards] at hk
    split at h
    · rename_i w1 hw1
      rw [hw1] at hk
      simp only [Bool.and_eq_true] at hk
      refine sreachG_of_sruns (.step hw (sstep_of_sact hw1) ?_) hk.2 h
      intro c k out hl
      obtain ⟨p, d, ts, rfl, rfl⟩ := sact_log hw1 hl
      exact of_decide_eq_true hk.1
    · simp at h

/-- Positions, votes into a shared map, an unlocking, a partial and a full re-lock. -/
def lively : List Action := shared.take 6 ++
  [ .call "bob" 0 (62 * DAY) (.unvote "x-app" "o"), .call "bob" 0 (62 * DAY) (.unlock_position 0),
    .call "bob" 0 (62 * DAY) (.relock_partial_position 0 20000000 90 0), .call "bob" 0 (62 * DAY) (.relock_position 0 100 0) ]

def livelyW : SWorld := (sruns demoJ "me" sdemo0 lively).get (by decide +kernel)

example : SReachG demoJ "me" limitsKept livelyW ∧ SReachG demoJ "me" extendsApart livelyW ∧
    SReachG demoJ "me" relocksMinimum livelyW ∧
    (livelyW.S.st.voterD "bob").locking_positions.map (fun p => (p.amount, p.locking_period)) =
      [(20000000, 90), (40000000, 100)] := by
  have h (G) [∀ s c k, Decidable (G s c k)] (hg : sguards demoJ "me" G sdemo0 lively = true) : SReachG demoJ "me" G livelyW :=
    sreachG_of_sruns (.init (.mk demo0 demo0_init)) hg (Option.some_get _).symm
  exact ⟨h _ (by decide +kernel), h _ (by decide +kernel), h _ (by decide +kernel), by decide +kernel⟩

/-- C04 and C05 (for C04 see also the example at the end of `Verif/Props/StorageExit.lean`). -/
example : Joins (fun _ c => '-' ∉ c.toList) ∧ SReachC demoJ "me" (fun _ c => '-' ∉ c.toList) tidyW ∧
    tidyW.S.get_used_voting_power "bob" = .ok 60000000000000000000000000 ∧
    tidyW.S.st.get_total_voting_power = 120000000000000000000000000 :=
  ⟨joins_names.1, tidyW_reach, by decide +kernel, by decide +kernel⟩

/-- C34: bob before their first vote. -/
example : ∃ W, SReachU demoJ "me" (fun _ c => '-' ∉ c.toList) "bob" W ∧ W.S.get_used_voting_power "bob" = .ok 0 ∧
    (W.S.st.get_locking_position 0 0 "bob").map (·.is_locked) = some true := by
  refine ⟨(sruns demoJ "me" sdemo0 (tidy.take 8)).get (by decide +kernel), sreachU_of_sruns (.init (.mk demo0 demo0_init))
    ?_ ?_ ?_ (by decide +kernel) (Option.some_get _).symm, by decide +kernel, by decide +kernel⟩
  · intro a ha
    simp only [tidy, List.take, List.mem_cons, List.not_mem_nil, or_false] at ha
    rcases ha with rfl | rfl | rfl | rfl | rfl | rfl | rfl | rfl <;> simp [Action.allowed, Allowed]
  · intro p d ts i ha
    simp only [tidy, List.take, List.mem_cons, List.not_mem_nil, or_false, Action.call.injEq, reduceCtorEq, and_false, false_or,
      or_false] at ha
    rw [ha.1]; decide
  · intro p d ts i n ha
    simp [tidy] at ha

/-- C27: two voters with votes; C28: a migration with user data. -/
example : ((tidyW.S.get_voters 0 0 5).getOr []).map (·.voter_id) = ["bob", "eve"] ∧
    Res.isOk (sexec demoJ tidyW.S ⟨"me", "old-gov", 0, 62 * DAY, []⟩ (.migration_create_lps "bob" [] (some "data"))) = true := by
  decide +kernel

/-- C69: another address is asked for between the request and its confirmation. -/
def askedW : SWorld := (sruns demoJ "me" tidyW [.call "erin" 1 (61 * DAY) (.pre_delegate_evm_address "0xaa" "sig")]).get
  (by decide +kernel)
def confirmW : SWorld := (sruns demoJ "me" askedW [.call "mallory" 1 (61 * DAY) (.pre_delegate_evm_address "0xbb" "no")]).get
  (by decide +kernel)

example : askedW.S.st.get_pre_delegate_evm_address "0xaa" = some ("erin", "sig") ∧
    (confirmW.log.take 1).all (fun x => match x with | .call _ k _ => !touchesRequest "0xaa" k | _ => true) = true ∧
    confirmW.log.length = askedW.log.length + 1 ∧
    Res.isOk (sexec demoJ confirmW.S ⟨"me", "operator", 1, 61 * DAY, []⟩
      (.operator_confirm_delegated_evm_address "0xaa")) = true := by
  decide +kernel

end Verif.Storage
