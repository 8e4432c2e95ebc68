import Verif.Storage.Views
import Verif.Storage.Length
import Verif.Props.StorageRefines
import Verif.Props.StorageFunds
import Verif.Props.Views
import Verif.Props.Mirror

/-!
# Lists of votes, locked-in votes, isolation and mirroring over storage
-/

namespace Verif.Storage

open Verif MetaVote

variable {J : Json} {me : AccountId} {A : String → String → Prop} {w W : SWorld}

/-! ## C12 -/

theorem mapM_length {α β : Type} {f : α → Res β} : ∀ {l : List α} {r : List β}, l.mapM f = .ok r → r.length = l.length
  | [], r, h => by cases h; rfl
  | a :: l, r, h => by
    simp only [List.mapM_cons, bind_ok_iff, pure_ok_iff] at h
    obtain ⟨_, -, t, ht, rfl⟩ := h
    simp [mapM_length ht]

/-- The apps a voter has votes in, as listed by `get_voter_info`. -/
def appsOf (v : VoterJSON) : List String := (v.vote_positions.map (·.votable_address)).dedup

/-- **C12** (partial, over storage): if the list of votes of a voter can be read, it has at most one app more than the
configured maximum. -/
theorem C12_storage_partial (h : SReach J me w) {id : String} {now : Nat} {v : VoterJSON}
    (hv : w.S.get_voter_info now id = .ok v) :
    (appsOf v).length ≤ w.S.st.get_contract_info.max_voting_positions + 1 := by
  have hs := sreach_short h id
  unfold SState.get_voter_info at hv
  split at hv
  · simp only [pure_ok_iff] at hv; subst hv; exact Nat.zero_le _
  · simp only [bind_ok_iff, pure_ok_iff] at hv
    obtain ⟨l, hl, rfl⟩ := hv
    have hlen : l.length = w.S.vlen id := by
      simp only [SState.overApps, bind_ok_iff] at hl
      obtain ⟨ks, hk, hl⟩ := hl
      have h1 := mapM_length hl
      have h2 := mapM_length hk
      rw [h1, h2, List.length_range]
    rename_i v0 _
    have hsub : ∀ a ∈ appsOf { v0.to_json now id with
        vote_positions := l.flatMap (fun a => a.2.map (fun o => (⟨a.1, o.1, o.2⟩ : VotePositionJSON))) }, a ∈ l.map Prod.fst := by
      intro a ha
      simp only [appsOf, List.mem_dedup, List.mem_map, List.mem_flatMap] at ha
      obtain ⟨p, ⟨q, hq, o, -, rfl⟩, rfl⟩ := ha
      exact List.mem_map.2 ⟨q, hq, rfl⟩
    have := (List.subperm_of_subset (List.nodup_dedup _) hsub).length_le
    rw [List.length_map, hlen] at this
    exact this.trans hs

/-! ## C70 -/

/-- **C70** over storage, for every execution: the votes listed for an app are each object once, with its total, and no object
with votes is missing. -/
theorem C70_storage_by_app (h : SReach J me w) (a : String) : ∃ l, w.S.get_votes_by_app a = .ok l ∧
    (l.map Prod.fst).Nodup ∧ (∀ o n, (o, n) ∈ l → w.S.get_total_votes a o = .ok n) ∧
    (∀ o n, w.S.get_total_votes a o = .ok n → 0 < n → (o, n) ∈ l) ∧
    ∃ l', w.S.get_votes_by_contract a = .ok l' ∧ l'.Pairwise (fun x y => x.current_votes ≤ y.current_votes) ∧
      l'.Perm (l.map (fun x => ⟨a, x.1, x.2⟩)) := by
  obtain ⟨tot, hb⟩ := sreach_backed h
  have hl : w.S.get_votes_by_app a = .ok (inner tot a).entries := by
    unfold SState.get_votes_by_app inner
    rw [hb.totals.vt, UMap.get_mapV, hb.totals.cv]
    unfold inner
    cases tot.get a with
    | none => rfl
    | some m => simp only [Option.map_some, Option.getD_some, Cells.entries_of]
  have ht : ∀ o, w.S.get_total_votes a o = .ok (((inner tot a).get o).getD 0) := by
    intro o
    unfold SState.get_total_votes
    rw [hb.totals.vt, UMap.get_mapV, hb.totals.cv]
    unfold inner
    cases ht : tot.get a with
    | none => simp [pure, Except.pure]
    | some m => simp [Cells.get_of, bind, Except.bind, pure, Except.pure]
  refine ⟨_, hl, UMap.nodup _, ?_, ?_, ?_⟩
  · intro o n hon
    rw [ht, UMap.get_eq_some_iff.2 hon]; rfl
  · intro o n hon hn
    rw [ht] at hon
    cases hg : (inner tot a).get o with
    | none => rw [hg] at hon; cases hon; simp at hn
    | some x => rw [hg] at hon; cases hon; exact UMap.get_eq_some_iff.1 hg
  · refine ⟨_, by unfold SState.get_votes_by_contract; rw [hl]; rfl, sort_by_votes_sorted _, sort_by_votes_perm _⟩

/-- **C70** is false over storage for the votes of a voter: after a vote of another voter whose map is stored in the same
place, the list cannot be read. -/
theorem C70_storage_false : ∃ w, SReach demoJ "me" w ∧ Res.isOk (w.S.get_votes_by_voter "eve-x") = false ∧
    Res.isOk (w.S.get_voter_info 0 "eve-x") = false :=
  ⟨sharedW, sharedW_reach, by decide +kernel, by decide +kernel⟩

/-- **C27** is false over storage for `get_voters`: one voter whose votes cannot be read makes the page fail for all. -/
theorem C27_storage_false : ∃ w, SReach demoJ "me" w ∧ w.S.st.voters.keys = ["eve", "eve-x", "bob"] ∧
    Res.isOk (w.S.get_voters 0 0 3) = false ∧ Res.isOk (w.S.get_voters 0 0 1) = true :=
  ⟨sharedW, sharedW_reach, by decide +kernel, by decide +kernel, by decide +kernel⟩

/-- **C70** (partial, over storage): the votes listed for a voter. -/
theorem C70_storage_by_voter_partial (hj : Joins A) (h : SReachC J me A W) (id : String) :
    ∃ l, W.S.get_votes_by_voter id = .ok l ∧ l.Pairwise (fun x y => x.current_votes ≤ y.current_votes) ∧
      (l.map (fun x => (x.votable_contract, x.id))).Nodup ∧
      (∀ x ∈ l, W.S.get_votes_for_object id x.votable_contract x.id = .ok x.current_votes) ∧
      (∀ a o n, W.S.get_votes_for_object id a o = .ok n → 0 < n → ⟨a, o, n⟩ ∈ l) := by
  obtain ⟨w, -, ha⟩ := reach_agree hj h
  obtain ⟨h1, h2, h3, h4⟩ := C70_by_voter w.st id
  refine ⟨_, (ha.repr.lists id "" 0).1, h1, h2, ?_, ?_⟩
  · intro x hx
    rw [(ha.repr.views id _ _).1, h3 x hx]
  · intro a o n hn hpos
    rw [(ha.repr.views id a o).1] at hn
    cases hn
    exact h4 a o hpos

/-! ## C13 -/

/-- **C13** (partial, over storage): a locked-in vote is not lowered, except by a rebalance of it or by mirroring. -/
theorem C13_storage_partial (hj : Joins A) (h : SReachC J me A W) {c : Ctx} {k : Call} {S' : SState}
    {out : List Transfer} (hk : Careful A W.S S' c k) (hx : sexec J W.S c k = .ok (S', out)) {app obj : String}
    (hl : lockedIn W.S.st c.now app obj) (id : String)
    (hk1 : ∀ n, 0 < n → k ≠ .rebalance n app obj) (hk2 : ∀ e l, k ≠ .operator_mirror_lps e l) :
    ∃ n n', W.S.get_votes_for_object id app obj = .ok n ∧ S'.get_votes_for_object id app obj = .ok n' ∧ n ≤ n' := by
  obtain ⟨w, hw, -, -, -, hs, hv, -, hc⟩ := C73_refines_partial hj h
  obtain ⟨s', hx', -, hvt⟩ := (hc c k hk.1).2 S' out hx
  obtain ⟨hv', -⟩ := hvt hk.2
  refine ⟨_, _, hv _ _ _, hv' _ _ _, C13_locked_in_partial hw hx' ?_ id hk1 hk2⟩
  rw [hs] at hl
  rw [lockedIn_iff] at hl ⊢
  exact hl

/-! ## C20 -/

/-- **C20** (partial, over storage): the votes of an account are changed only by its own calls, by those of its delegate, and
by mirroring. -/
theorem C20_storage_votes_partial (hj : Joins A) (h : SReachC J me A W) {c : Ctx} {k : Call} {S' : SState}
    {out : List Transfer} (hk : Careful A W.S S' c k) (hx : sexec J W.S c k = .ok (S', out)) {id : String} (hid : id ≠ c.predecessor)
    (hd : ∀ e, id = pseudo_near_address e → e ∉ W.S.st.get_delegating_evm_addresses c.predecessor)
    (hm : ∀ e l, id = pseudo_near_address e → k ≠ .operator_mirror_lps e l) (a o : String) :
    S'.get_votes_for_object id a o = W.S.get_votes_for_object id a o := by
  obtain ⟨w, hw, -, -, -, hs, hv, -, hc⟩ := C73_refines_partial hj h
  obtain ⟨s', hx', -, hvt⟩ := (hc c k hk.1).2 S' out hx
  obtain ⟨hv', -⟩ := hvt hk.2
  rw [hv, hv', get_votes_for_object_eq, get_votes_for_object_eq]
  have hrec : s'.voters.get id = w.st.voters.get id → (s'.voterD id).votesOf a o = (w.st.voterD id).votesOf a o := by
    intro he; unfold State.voterD; rw [he]
  have hvo : (s'.voterD id).vote_positions = (w.st.voterD id).vote_positions →
      (s'.voterD id).votesOf a o = (w.st.voterD id).votesOf a o := by
    intro he; unfold Voter.votesOf; rw [he]
  rw [hs] at hd
  rcases C20_isolation hx' hid with h | h
  · rw [hrec h.record]
  · cases h with
    | deposit se n m hc hs hcl hheld hv => rw [hvo hv]
    | reward se n m hc hr hm hst => rw [hrec hr]
    | migration l d hc hcl hheld hv => rw [hvo hv]
    | mirror e l hc hid hcl => exact absurd rfl (hm e l hid)
    | votes e k hid he hk hcl hb hp => exact absurd he (hd e hid)
    | claim e n hid he hr hm hst => rw [hrec hr]
    | restoreMpdao n hc hcl hv => rw [hvo (by rw [hv])]
    | restoreStnear n hc hr hm hst => rw [hrec hr]

/-! ## C37 -/

theorem used_repr {S : SState} {s : State} (h : Repr A S s) (hi : VInv s) (ht : s.total_voting_power ≤ U128_MAX)
    (id : String) : S.get_used_voting_power id = .ok (s.voterD id).used := by
  unfold SState.get_used_voting_power
  rw [vlen_eq h, h.mem.usedVotes (id := id) (voter := s.voterD id) rfl]
  refine sum_used_votes_of_le ?_
  have := hi.power_le_total id
  simp only [Voter.power] at this
  omega

theorem voterD_repr {S : SState} {s : State} (h : Repr A S s) (id : String) : S.st.voterD id = (s.voterD id).bare := by
  rw [h.st, ← internal_get_voter_eq, ← internal_get_voter_eq]; exact get_voter_bare _ _

/-- **C37** (partial, over storage): an accepted mirroring comes from the operator and installs exactly the given positions;
votes are kept or removed as a whole, and only if they do not fit. -/
theorem C37_storage_partial (hj : Joins A) (h : SReachC J me A W) {c : Ctx} {e : String} {l : List (Nat × Nat)}
    {S' : SState} {out : List Transfer} (hx : sexec J W.S c (.operator_mirror_lps e l) = .ok (S', out)) :
    c.predecessor = W.S.st.operator_id ∧ out = [] ∧
    (S'.st.voterD (pseudo_near_address e)).locking_positions = l.map mirrorPosition ∧
    ∃ (used used' : Nat) (f f' : String → String → Nat), W.S.get_used_voting_power (pseudo_near_address e) = .ok used ∧
      S'.get_used_voting_power (pseudo_near_address e) = .ok used' ∧
      (∀ a o, W.S.get_votes_for_object (pseudo_near_address e) a o = .ok (f a o)) ∧
      (∀ a o, S'.get_votes_for_object (pseudo_near_address e) a o = .ok (f' a o)) ∧
      S'.st.get_available_voting_power (pseudo_near_address e) + used' = mirrorPower l ∧
      S'.st.get_total_voting_power + (W.S.st.get_available_voting_power (pseudo_near_address e) + used)
        = W.S.st.get_total_voting_power + mirrorPower l ∧
      (used ≤ mirrorPower l → f' = f) ∧ (∀ a o, f' a o = f a o ∨ f' a o = 0) ∧
      (mirrorPower l < used → ∃ a o, f a o ≠ 0 ∧ f' a o = 0 ∧ mirrorPower l < used' + f a o) ∧
      (∀ a o, ∃ t t', W.S.get_total_votes a o = .ok t ∧ S'.get_total_votes a o = .ok t' ∧ t' + f a o = t + f' a o) := by
  obtain ⟨w, hw, ha⟩ := reach_agree hj h
  have hi := reach_vinv hw
  obtain ⟨⟨s', out'⟩, hx', -, hr, ho⟩ := (sim_exec hj ha.repr J (k := .operator_mirror_lps e l) trivial).ok_left hx
  simp only at hr ho
  replace hr := hr trivial
  subst ho
  obtain ⟨hop, rfl, hm⟩ := C37_mirrored hw hx'
  have hi' := exec_vinv hi hx'
  have ht := reach_total hw
  have ht' := exec_total ht hx'
  have hu := used_repr ha.repr hi ht (pseudo_near_address e)
  have hu' := used_repr hr hi' ht' (pseudo_near_address e)
  refine ⟨by rw [ha.repr.st]; exact hop, rfl, ?_, _, _, _, _, hu, hu',
    fun a o => (ha.repr.views _ a o).1, fun a o => (hr.views _ a o).1, ?_, ?_, ?_, ?_, ?_, ?_⟩
  · rw [voterD_repr hr]; exact hm.positions
  · rw [available_bare hr.st]; exact hm.power
  · rw [available_bare ha.repr.st]
    have := hm.total
    rw [hr.st, ha.repr.st]
    exact this
  · intro hle
    funext a o
    simp only [get_votes_for_object_eq, Voter.votesOf, (hm.kept hle).1]
  · intro a o
    simp only [get_votes_for_object_eq]
    exact hm.whole a o
  · intro hlt
    simp only [get_votes_for_object_eq]
    exact hm.needed hlt
  · intro a o
    refine ⟨_, _, (ha.repr.views "" a o).2, (hr.views "" a o).2, ?_⟩
    simp only [get_votes_for_object_eq, get_total_votes_eq]
    exact hm.totals a o

/-! ## Concrete cases -/

/-- Alice votes for an object that is then locked in; an account is mirrored and its delegate votes for it. -/
def careful : List Action :=
  [ .call "mpdao" 0 1000 (.ft_on_transfer "alice" 60000000 (ascii "60")),
    .call "alice" 0 2000 (.vote 25000000000000000000000000 "app" "grant #7 x"),
    .call "alice" 0 2000 (.vote 5000000000000000000000000 "app2" "y"),
    .call "operator" 0 3000 (.operator_mirror_lps "0xa" [(60, 60000000), (90, 10000000)]),
    .call "operator" 0 4000 (.set_lock_in_vote_filters 1000 7 (some "app")) ]

def carefulW : SWorld := (sruns demoJ "me" sdemo0 careful).get (by decide +kernel)

theorem carefulW_reach : SReachC demoJ "me" (fun _ c => '-' ∉ c.toList) carefulW := by
  refine sreachC_of_sruns (.init (.mk demo0 demo0_init)) ?_ (by decide +kernel) (Option.some_get _).symm
  intro a ha
  simp only [careful, List.mem_cons, List.not_mem_nil, or_false] at ha
  rcases ha with rfl | rfl | rfl | rfl | rfl <;> simp [Action.allowed, Allowed]

example : SReachC demoJ "me" (fun _ c => '-' ∉ c.toList) carefulW ∧
    lockedIn carefulW.S.st 0 "app" "grant #7 x" ∧
    Res.isOk (sexec demoJ carefulW.S ⟨"me", "alice", 0, 5000, []⟩ (.vote 5 "app" "grant #7 x")) = true ∧
    Res.isOk (sexec demoJ carefulW.S ⟨"me", "alice", 0, 5000, []⟩ (.unvote "app" "grant #7 x")) = false ∧
    Res.isOk (sexec demoJ carefulW.S ⟨"me", "operator", 0, 5000, []⟩ (.operator_mirror_lps "0xa" [(60, 1000000)])) = true ∧
    (carefulW.S.get_votes_by_voter "alice").getOr []
      = [⟨"app2", "y", 5000000000000000000000000⟩, ⟨"app", "grant #7 x", 25000000000000000000000000⟩] ∧
    (appsOf ((carefulW.S.get_voter_info 0 "alice").getOr ⟨"", 0, [], 0, []⟩)).length = 2 ∧
    (carefulW.S.get_votes_by_contract "app").getOr [] = [⟨"app", "grant #7 x", 25000000000000000000000000⟩] :=
  ⟨carefulW_reach, (lockedIn_iff _ _ _ _).2 (by decide +kernel), by decide +kernel, by decide +kernel, by decide +kernel, by decide +kernel,
    by decide +kernel, by decide +kernel⟩

end Verif.Storage
