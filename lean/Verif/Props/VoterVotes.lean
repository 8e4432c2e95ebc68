import Verif.Storage.OwnStep
import Verif.Props.StorageLists

/-!
# C102: the votes of a voter, whatever the others do

Votes are stored by the joined names of voter and app, and are left behind by accounts that disappear with votes of power
zero.  So one voter can disturb the votes of another (C02, C17, C20, C44, C73).  Here: a voter who never votes with power zero,
and whose name overlaps with that of no other account that votes, keeps exactly the votes they gave, in every execution over
storage, with no assumption on the other voters and apps.
-/

namespace Verif.Storage

open Verif MetaVote

/-! ## Specification -/

/-- One name is the other one followed by `-` and possibly more. -/
def Overlap (x y : String) : Prop := (x.toList ++ ['-'] <+: y.toList) ∨ (y.toList ++ ['-'] <+: x.toList)

instance (x y : String) : Decidable (Overlap x y) := by unfold Overlap; infer_instance

/-- No accepted call voted for another account with an overlapping name, or for `id` with power zero. -/
def Undisturbed (id : String) (log : List Entry) : Prop :=
  ∀ c k out u, .call c k out ∈ log → voterOf c k = some u → (u ≠ id → ¬ Overlap u id) ∧ (u = id → Powered k)

/-- What a voting call makes of the votes of its voter for an object. -/
def voted (a o : String) (k : Call) (n : Nat) : Nat :=
  match k with
  | .vote v a' o' | .vote_delegated _ v a' o' => if a = a' ∧ o = o' then n + v else n
  | .unvote a' o' | .unvote_delegated _ a' o' => if a = a' ∧ o = o' then 0 else n
  | .rebalance v a' o' => if a = a' ∧ o = o' then v else n
  | _ => n

/-- The votes of `id` for an object, from the accepted calls alone (newest first). -/
def tally (id a o : String) : List Entry → Nat
  | [] => 0
  | .resolved .. :: l => tally id a o l
  | .call c k _ :: l => if voterOf c k = some id then voted a o k (tally id a o l) else tally id a o l

/-- The operator never mirrored positions of this account. -/
def NotMirrored (id : String) (log : List Entry) : Prop :=
  ∀ c e l out, .call c (.operator_mirror_lps e l) out ∈ log → pseudo_near_address e ≠ id

/-- The app and the object of a voting call. -/
def target : Call → Option (String × String)
  | .vote _ a o | .vote_delegated _ _ a o | .unvote a o | .unvote_delegated _ a o | .rebalance _ a o => some (a, o)
  | _ => none

/-! ## Proofs -/

variable {J : Json} {me : AccountId} {W : SWorld} {id : String}

theorem away_of {u : String} (hne : u ≠ id) (h : ¬ Overlap u id) : Away id u :=
  fun _ _ e => h (C44_overlap_partial e hne)

theorem Undisturbed.apart {log : List Entry} (h : Undisturbed id log) {c : Ctx} {k : Call} {out : List Transfer}
    (hm : .call c k out ∈ log) : Apart id c k :=
  fun u hu => ⟨fun hne => away_of hne ((h c k out u hm hu).1 hne), (h c k out u hm hu).2⟩

theorem Undisturbed.tail {log : List Entry} {e : Entry} (h : Undisturbed id (e :: log)) : Undisturbed id log :=
  fun c k out u hm hu => h c k out u (List.mem_cons_of_mem _ hm) hu

theorem NotMirrored.tail {log : List Entry} {e : Entry} (h : NotMirrored id (e :: log)) : NotMirrored id log :=
  fun c e l out hm => h c e l out (List.mem_cons_of_mem _ hm)

theorem trimmed_le {m m' : VMap} (h : Trimmed m m') (a o : String) : vget m' a o ≤ vget m a o := by
  induction h with
  | refl m => exact Nat.le_refl _
  | del x y _ ih =>
    refine ih.trans ?_
    rw [vget_vdel]
    split <;> omega

theorem tally_skip {c : Ctx} {k : Call} {out : List Transfer} {l : List Entry} (h : voterOf c k ≠ some id) (a o : String) :
    tally id a o (.call c k out :: l) = tally id a o l := by
  rw [tally, if_neg h]

/-- The map after a call and the tally. -/
theorem effect_tally {vm vm' : VMap} {c : Ctx} {k : Call} {out : List Transfer} {l : List Entry} (hu : voterOf c k = some id)
    (he : Effect vm vm' k) {a o : String} (hle : vget vm a o ≤ tally id a o l) :
    vget vm' a o ≤ tally id a o (.call c k out :: l) ∧
    ((∀ e q, k ≠ .operator_mirror_lps e q) → vget vm a o = tally id a o l →
      vget vm' a o = tally id a o (.call c k out :: l)) := by
  rw [tally, if_pos hu]
  generalize tally id a o l = t at hle ⊢
  cases k <;> simp only [Effect] at he <;> simp only [voted]
  case operator_mirror_lps e q => exact ⟨(trimmed_le he a o).trans hle, fun h => absurd rfl (h e q)⟩
  case rebalance n a' o' =>
    subst he
    have : vget (if n = 0 then vdel vm a' o' else vset vm a' o' n) a o = if a = a' ∧ o = o' then n else vget vm a o := by
      split
      · rename_i h0; rw [vget_vdel, h0]
      · rw [vget_vset]
    rw [this]
    by_cases h : a = a' ∧ o = o'
    · simp [h]
    · simp [h, hle]
  case vote n a' o' =>
    subst he
    rw [vget_vset]
    by_cases h : a = a' ∧ o = o'
    · obtain ⟨rfl, rfl⟩ := h
      simp only [and_self, if_true]
      exact ⟨by omega, fun _ h => by omega⟩
    · simp [h, hle]
  case vote_delegated e n a' o' =>
    subst he
    rw [vget_vset]
    by_cases h : a = a' ∧ o = o'
    · obtain ⟨rfl, rfl⟩ := h
      simp only [and_self, if_true]
      exact ⟨by omega, fun _ h => by omega⟩
    · simp [h, hle]
  all_goals
    subst he
    rename_i a' o'
    rw [vget_vdel]
    by_cases h : a = a' ∧ o = o'
    · simp [h]
    · simp [h, hle]

/-- The stored votes in every execution. -/
theorem mine_reach (h : SReach J me W) (hu : Undisturbed id W.log) :
    ∃ vm, Mine id vm W.S ∧ (∀ a o, vget vm a o ≤ tally id a o W.log) ∧
      (NotMirrored id W.log → ∀ a o, vget vm a o = tally id a o W.log) := by
  induction h with
  | init h =>
    cases h with
    | mk w0 h =>
      refine ⟨UMap.empty, ⟨⟨?_, fun c => ?_⟩, rfl, ?_, vpos_empty, vclean_empty, fun _ => rfl⟩, fun _ _ => Nat.le_refl _,
        fun _ _ _ => rfl⟩
      · exact Cells.of_empty.symm
      · exact Cells.of_empty.symm
      · cases h with
        | mk o op a b d l v m st r p ts s hr hts hn =>
          obtain ⟨-, -, rfl⟩ := new_ok hn
          exact Nat.le_refl 0
  | @step w w' h hs ih =>
    have hreg := sreach_regions h
    cases hs with
    | call c k S' out hme hres hm hclock hu64 hexec =>
      obtain ⟨vm, h1, h2, h3⟩ := ih hu.tail
      obtain ⟨vm', g1, g2, g3⟩ := mine_step hreg h1 (hu.apart (List.mem_cons_self ..)) hexec
      refine ⟨vm', g1, fun a o => ?_, fun hn a o => ?_⟩
      · by_cases e : voterOf c k = some id
        · exact (effect_tally e (g2 e) (h2 a o)).1
        · rw [g3 e, tally_skip e]; exact h2 a o
      · by_cases e : voterOf c k = some id
        · refine (effect_tally e (g2 e) (h2 a o)).2 (fun x q hk => ?_) (h3 hn.tail a o)
          subst hk
          exact hn c x q out (List.mem_cons_self ..) (Option.some.inj e)
        · rw [g3 e, tally_skip e]; exact h3 hn.tail a o
    | resolve pre post t ok ts hpend hclock hu64 =>
      obtain ⟨vm, h1, h2, h3⟩ := ih hu.tail
      refine ⟨vm, ?_, fun a o => h2 a o, fun hn a o => h3 hn.tail a o⟩
      cases hx : sexec J _ ⟨me, me, 0, ts, [ok]⟩ t.callbackCall with
      | ok r => exact mine_other (out := r.2) h1 (callback_not_vote t) hx
      | error e => exact h1
    | tick ts hclock hu64 => exact ih hu

theorem own_view {vm : VMap} {S : SState} (h : Mine id vm S) (a o : String) :
    S.get_votes_for_object id a o = .ok (vget vm a o) := by
  unfold SState.get_votes_for_object
  have hg := Cells.get_of (vm.mapV (fun c m => (⟨join id c, m.len⟩ : Handle))) a
  rw [UMap.len_mapV, UMap.get_mapV] at hg
  rw [h.own.vp, h.len, hg, vget_eq]
  have hi := h.own.voteIn a o
  unfold inner at hi
  cases hv : vm.get a with
  | none => rfl
  | some m =>
    rw [hv] at hi
    simp only [Option.getD_some] at hi
    simp only [Option.map_some, bind, Except.bind, hi]
    rfl

/-- The record of `id` with its stored votes. -/
def withVotes (s : State) (id : String) (vm : VMap) : State :=
  { s with voters := s.voters.insert id { s.voterD id with vote_positions := vm } }

theorem withVotes_voter (s : State) (id : String) (vm : VMap) :
    (withVotes s id vm).internal_get_voter id = { s.voterD id with vote_positions := vm } := by
  rw [internal_get_voter_eq]
  simp [withVotes, State.voterD]

theorem own_list {vm : VMap} {S : SState} (h : Mine id vm S) :
    S.get_votes_by_voter id = .ok ((withVotes S.st id vm).get_votes_by_voter id) := by
  have hover : S.overApps id (fun h => (S.mem.vv h.region).entries h.len) =
      .ok (vm.entries.map (fun p => (p.1, p.2.entries))) := by
    unfold SState.overApps
    have hk := Cells.keyList_of (vm.mapV (fun c m => (⟨join id c, m.len⟩ : Handle)))
    rw [UMap.len_mapV, UMap.keys_mapV] at hk
    rw [h.own.vp, h.len, hk]
    refine mapM_fst _ (fun p => (p.1, p.2.entries)) vm.entries ?_
    intro p hp
    have hg := Cells.get_of (vm.mapV (fun c m => (⟨join id c, m.len⟩ : Handle))) p.1
    have hp' := UMap.get_eq_some_iff.2 hp
    rw [UMap.len_mapV, UMap.get_mapV, hp'] at hg
    rw [hg]
    have hi : inner vm p.1 = p.2 := by unfold inner; rw [hp']; rfl
    simp only [bind, Except.bind, Option.map_some, expect, h.own.vv, hi, Cells.entries_of]
    rfl
  unfold SState.get_votes_by_voter State.get_votes_by_voter
  rw [hover, withVotes_voter]
  simp only [bind, Except.bind, pure, Except.pure, List.flatMap_map]

/-! ## C102 -/

/-- **C102**: the votes shown for a voter are those the voter (or the delegate) gave, by the accepted calls alone. -/
theorem C102_votes (h : SReach J me W) (hu : Undisturbed id W.log) (hn : NotMirrored id W.log) (a o : String) :
    W.S.get_votes_for_object id a o = .ok (tally id a o W.log) := by
  obtain ⟨vm, h1, -, h3⟩ := mine_reach h hu
  rw [own_view h1, h3 hn]

/-- **C102**: for accounts whose positions are mirrored, which may lose votes by mirroring, they are at most that. -/
theorem C102_bound (h : SReach J me W) (hu : Undisturbed id W.log) (a o : String) :
    ∃ n, W.S.get_votes_for_object id a o = .ok n ∧ n ≤ tally id a o W.log := by
  obtain ⟨vm, h1, h2, -⟩ := mine_reach h hu
  exact ⟨_, own_view h1 a o, h2 a o⟩

/-- **C102**: the votes given and the available power never exceed the power of the locked positions. -/
theorem C102_power (h : SReach J me W) (hu : Undisturbed id W.log) (now : Nat) :
    (∀ a o n, W.S.get_votes_for_object id a o = .ok n →
      W.S.st.get_available_voting_power id + n ≤ lockedPower (W.S.st.get_all_locking_positions now id)) ∧
    (∀ used, W.S.get_used_voting_power id = .ok used →
      W.S.st.get_available_voting_power id + used ≤ lockedPower (W.S.st.get_all_locking_positions now id)) ∧
    (lockedPower (W.S.st.get_all_locking_positions now id) ≤ U128_MAX →
      ∃ used, W.S.get_used_voting_power id = .ok used) := by
  obtain ⟨vm, h1, -, -⟩ := mine_reach h hu
  have hp := h1.power
  rw [lockedPower_view, get_available_eq]
  refine ⟨fun a o n hn => ?_, fun used hused => ?_, fun hfit => ?_⟩
  · rw [own_view h1] at hn
    cases hn
    have := vget_le_vsum vm a o
    omega
  · unfold SState.get_used_voting_power at hused
    rw [h1.len] at hused
    rw [own_used_ok h1.own hused]
    exact hp
  · unfold SState.get_used_voting_power
    rw [h1.len, own_used h1.own]
    exact ⟨_, sum_used_votes_of_le (by simp only [Voter.used]; omega)⟩

/-- **C102**: the list of the votes of the voter, in increasing order, is complete and exact. -/
theorem C102_list (h : SReach J me W) (hu : Undisturbed id W.log) :
    ∃ l, W.S.get_votes_by_voter id = .ok l ∧ l.Pairwise (fun x y => x.current_votes ≤ y.current_votes) ∧
      (l.map (fun x => (x.votable_contract, x.id))).Nodup ∧
      (∀ x ∈ l, W.S.get_votes_for_object id x.votable_contract x.id = .ok x.current_votes) ∧
      (∀ a o n, W.S.get_votes_for_object id a o = .ok n → 0 < n → ⟨a, o, n⟩ ∈ l) := by
  obtain ⟨vm, h1, -, -⟩ := mine_reach h hu
  have hv : ∀ a o, (withVotes W.S.st id vm).get_votes_for_object id a o = vget vm a o := by
    intro a o
    rw [get_votes_for_object_eq, ← internal_get_voter_eq, withVotes_voter]
    rfl
  obtain ⟨g1, g2, g3, g4⟩ := C70_by_voter (withVotes W.S.st id vm) id
  refine ⟨_, own_list h1, g1, g2, ?_, ?_⟩
  · intro x hx
    rw [own_view h1, g3 x hx, hv]
  · intro a o n hn hpos
    rw [own_view h1] at hn
    cases hn
    have := g4 a o (by rw [hv]; exact hpos)
    rwa [hv] at this

/-- **C102**: no accepted call of anybody else changes the votes of the voter, as long as it is not a vote of an account with
an overlapping name. -/
theorem C102_others (h : SReach J me W) (hu : Undisturbed id W.log) {c : Ctx} {k : Call} {S' : SState}
    {out : List Transfer} (hx : sexec J W.S c k = .ok (S', out)) (hk : voterOf c k ≠ some id)
    (ho : ∀ u, voterOf c k = some u → ¬ Overlap u id) (a o : String) :
    S'.get_votes_for_object id a o = W.S.get_votes_for_object id a o ∧ S'.get_votes_by_voter id = W.S.get_votes_by_voter id := by
  obtain ⟨vm, h1, -, -⟩ := mine_reach h hu
  obtain ⟨vm', g1, -, g3⟩ := mine_step (sreach_regions h) h1
    (fun u hu => ⟨fun hne => away_of hne (ho u hu), fun e => absurd (e ▸ hu) hk⟩) hx
  have := g3 hk
  subst this
  refine ⟨by rw [own_view h1, own_view g1], ?_⟩
  rw [own_list h1, own_list g1]
  unfold State.get_votes_by_voter
  rw [withVotes_voter, withVotes_voter]

/-- **C102**: an accepted voting call for the voter moves power between what is available and the votes for one object, and
nothing else. -/
theorem C102_own (h : SReach J me W) (hu : Undisturbed id W.log) {c : Ctx} {k : Call} {S' : SState}
    {out : List Transfer} (hx : sexec J W.S c k = .ok (S', out)) (hk : voterOf c k = some id) (hp : Powered k)
    {a o : String} (ht : target k = some (a, o)) :
    (∃ n n', W.S.get_votes_for_object id a o = .ok n ∧ S'.get_votes_for_object id a o = .ok n' ∧
      S'.st.get_available_voting_power id + n' = W.S.st.get_available_voting_power id + n) ∧
    ∀ a' o', (a', o') ≠ (a, o) → S'.get_votes_for_object id a' o' = W.S.get_votes_for_object id a' o' := by
  obtain ⟨vm, h1, -, -⟩ := mine_reach h hu
  obtain ⟨vm', g1, g2, -⟩ := mine_step (sreach_regions h) h1
    (fun u hu => ⟨fun hne => absurd (Option.some.inj (hu.symm.trans hk)) hne, fun _ => hp⟩) hx
  have he := g2 hk
  have hav : ∀ {vm2 : VMap} {av : Nat} {ps}, After id vm2 av ps S' → vm2 = vm' →
      av + vget vm2 a o = (W.S.st.voterD id).available_voting_power + vget vm a o →
      S'.st.get_available_voting_power id + vget vm' a o = W.S.st.get_available_voting_power id + vget vm a o := by
    intro vm2 av ps ha e1 e2
    rw [get_available_eq, get_available_eq, ha.avail, ← e1]
    exact e2
  refine ⟨⟨_, _, own_view h1 a o, own_view g1 a o, ?_⟩, fun a' o' hne => ?_⟩
  · simp only [sexec, bind_ok_iff, require_ok_iff] at hx
    obtain ⟨-, -, -, -, -, -, hx⟩ := hx
    cases k <;> simp only [voterOf, Option.some.injEq, reduceCtorEq] at hk <;>
      simp only [target, Option.some.injEq, Prod.mk.injEq, reduceCtorEq] at ht <;> obtain ⟨rfl, rfl⟩ := ht <;>
      simp only [srun, SState.quiet, bind_ok_iff, pure_ok_iff, Prod.mk.injEq] at hx <;> subst hk
    case vote =>
      obtain ⟨S1, hx, rfl, -⟩ := hx
      obtain ⟨h2, h3⟩ := own_vote h1.own h1.len hx
      refine hav h3 (Eq.symm he) ?_
      rw [vget_vset, if_pos ⟨rfl, rfl⟩]; omega
    case rebalance n a o =>
      obtain ⟨S1, hx, rfl, -⟩ := hx
      obtain ⟨-, ⟨h0, ha⟩ | ⟨h0, hle, ha⟩⟩ := own_rebalance h1.own h1.len hx
      · simp only [Effect, if_pos h0] at he
        refine hav ha (Eq.symm he) ?_
        rw [vget_vdel, if_pos ⟨rfl, rfl⟩, Nat.add_zero]
      · simp only [Effect, if_neg h0] at he
        refine hav ha (Eq.symm he) ?_
        rw [vget_vset, if_pos ⟨rfl, rfl⟩]; omega
    case unvote =>
      obtain ⟨S1, hx, rfl, -⟩ := hx
      obtain ⟨-, h3⟩ := own_unvote h1.own h1.len hx
      refine hav h3 (Eq.symm he) ?_
      rw [vget_vdel, if_pos ⟨rfl, rfl⟩, Nat.add_zero]
    case vote_delegated =>
      obtain ⟨S1, ⟨p, hq, hx⟩, rfl, -⟩ := hx
      obtain ⟨-, rfl⟩ := verify_delegate_ok hq
      obtain ⟨h2, h3⟩ := own_vote h1.own h1.len hx
      refine hav h3 (Eq.symm he) ?_
      rw [vget_vset, if_pos ⟨rfl, rfl⟩]; omega
    case unvote_delegated =>
      obtain ⟨S1, ⟨p, hq, hx⟩, rfl, -⟩ := hx
      obtain ⟨-, rfl⟩ := verify_delegate_ok hq
      obtain ⟨-, h3⟩ := own_unvote h1.own h1.len hx
      refine hav h3 (Eq.symm he) ?_
      rw [vget_vdel, if_pos ⟨rfl, rfl⟩, Nat.add_zero]
  · rw [own_view g1, own_view h1]
    have hne' : ¬ (a' = a ∧ o' = o) := fun ⟨e1, e2⟩ => hne (by rw [e1, e2])
    cases k <;> simp only [target, Option.some.injEq, Prod.mk.injEq, reduceCtorEq] at ht <;> obtain ⟨rfl, rfl⟩ := ht <;>
      simp only [Effect] at he <;> subst he
    case rebalance n a o =>
      split
      · rw [vget_vdel, if_neg hne']
      · rw [vget_vset, if_neg hne']
    all_goals first | rw [vget_vdel, if_neg hne'] | rw [vget_vset, if_neg hne']

/-! ## Concrete cases -/

/-- `Undisturbed`, decided. -/
def undisturbedB (id : String) (log : List Entry) : Bool :=
  log.all (fun
    | .call c k _ => match voterOf c k with
      | none => true
      | some u => if u = id then (match k with
          | .vote n _ _ | .vote_delegated _ n _ _ => decide (0 < n)
          | _ => true)
        else decide (¬ Overlap u id)
    | .resolved .. => true)

theorem undisturbed_of {log : List Entry} (h : undisturbedB id log = true) : Undisturbed id log := by
  intro c k out u hm hu
  have := List.all_eq_true.1 h _ hm
  simp only [hu] at this
  by_cases e : u = id
  · rw [if_pos e] at this
    refine ⟨fun hne => absurd e hne, fun _ => ?_⟩
    cases k <;> simp only [Powered] <;> simpa using this
  · rw [if_neg e] at this
    exact ⟨fun _ => of_decide_eq_true this, fun he => absurd he e⟩

/-- `NotMirrored`, decided. -/
def notMirroredB (id : String) (log : List Entry) : Bool :=
  log.all (fun
    | .call _ (.operator_mirror_lps e _) _ => decide (pseudo_near_address e ≠ id)
    | _ => true)

theorem notMirrored_of {log : List Entry} (h : notMirroredB id log = true) : NotMirrored id log := by
  intro c e l out hm
  exact of_decide_eq_true (List.all_eq_true.1 h _ hm)

/-- In the world where eve has taken bob's votes out of the total (`C73_false`), bob's own votes are still as given, although
the total is not, and bob cannot remove them (`C17_storage_false`). -/
example : SReach demoJ "me" reuseW ∧ Undisturbed "bob" reuseW.log ∧ NotMirrored "bob" reuseW.log ∧
    tally "bob" "A" "o" reuseW.log = 60000000000000000000000000 ∧
    reuseW.S.get_total_votes "A" "o" = .ok 20000000000000000000000000 :=
  ⟨reuseW_reach, undisturbed_of (by decide +kernel), notMirrored_of (by decide +kernel), by decide +kernel,
    by decide +kernel⟩

/-- Neither eve, who voted with power zero there, nor the two voters with overlapping names are undisturbed. -/
example : undisturbedB "eve" reuseW.log = false ∧ undisturbedB "eve" sharedW.log = false ∧
    undisturbedB "eve-x" sharedW.log = false ∧ undisturbedB "bob" sharedW.log = true ∧
    tally "bob" "x-app" "o" sharedW.log = 60000000000000000000000000 :=
  ⟨by decide +kernel, by decide +kernel, by decide +kernel, by decide +kernel, by decide +kernel⟩

/-- Bob moves part of their votes there; an unlock of eve does not concern bob. -/
example : voterOf ⟨"me", "bob", 0, 0, []⟩ (.rebalance 50000000000000000000000000 "A" "o") = some "bob" ∧
    Res.isOk (sexec demoJ reuseW.S ⟨"me", "bob", 0, 0, []⟩ (.rebalance 50000000000000000000000000 "A" "o")) = true ∧
    voterOf ⟨"me", "eve", 0, 0, []⟩ (.unlock_position 0) ≠ some "bob" ∧
    Res.isOk (sexec demoJ sharedW.S ⟨"me", "eve", 0, 0, []⟩ (.unlock_position 0)) = true :=
  ⟨rfl, by decide +kernel, by decide, by decide +kernel⟩

end Verif.Storage
