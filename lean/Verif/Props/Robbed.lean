import Verif.Props.VoterVotes
import Verif.Props.StorageExit

/-!
# C74 over storage: funds of a voter who did nothing wrong can be held back by another

If somebody else has taken votes out of the total of an object (`C73_false`), a voter of that object cannot take all their votes
back, and so cannot unlock what these votes use, until somebody else votes for that object.
-/

namespace Verif.Storage

open Verif MetaVote

/-! ## Specification -/

/-- The call may add votes to the object. -/
def gives (a o : String) : Call → Prop
  | .vote _ a' o' | .vote_delegated _ _ a' o' | .rebalance _ a' o' => a' = a ∧ o' = o
  | _ => False

/-- Steps in which nobody but `id` gives votes to the object, and nobody with an overlapping name votes. -/
inductive NoHelp (J : Json) (me : AccountId) (id a o : String) (w : SWorld) : SWorld → Prop
  | refl : NoHelp J me id a o w w
  | step {w1 w2 : SWorld} (h : NoHelp J me id a o w w1) (hs : SStep J me w1 w2)
      (hg : ∀ c k out u, w2.log = .call c k out :: w1.log → voterOf c k = some u → u ≠ id → ¬ gives a o k ∧ ¬ Overlap u id) :
      NoHelp J me id a o w w2

/-! ## Totals -/

variable {S S' : SState} {tot vm : VMap} {id u : String} {a o : String} {n d : Nat} {c : Ctx}

theorem vget_less (tot : VMap) (a o : String) (n : Nat) (x y : String) :
    vget (if vget tot a o - n = 0 then vdel tot a o else vset tot a o (vget tot a o - n)) x y =
      if x = a ∧ y = o then vget tot a o - n else vget tot x y := by
  by_cases h : vget tot a o - n = 0
  · rw [if_pos h, vget_vdel, h]
  · rw [if_neg h, vget_vset]

theorem vote_totals (h : Totals tot S.mem) (hx : S.internal_vote u n a o = .ok S') :
    Totals (vset tot a o (vget tot a o + n)) S'.mem := by
  simp only [SState.internal_vote, SState.internal_create_voting_position, bind_ok_iff, pure_ok_iff, require_ok_iff,
    subU_ok_iff] at hx
  obtain ⟨v, hv, r, ⟨-, hle, -, -, _, -, _, -, x, ⟨-, rfl⟩, _, -, q, hq, m, hm, rfl⟩, rfl⟩ := hx
  obtain ⟨h1, h2⟩ := setVote_totals hq
  exact ((h.same h1 h2).increase hm).1

theorem unvote_totals (h : Totals tot S.mem) (hx : S.internal_unvote c u a o = .ok S') :
    ∃ k hd tot', S.mem.position u (S.vlen u) a = .ok hd ∧ S.mem.voteIn hd o = .ok (some k) ∧ Totals tot' S'.mem ∧
      vget tot' a o + k = vget tot a o ∧ ∀ x y, ¬ (x = a ∧ y = o) → vget tot' x y = vget tot x y := by
  simp only [SState.internal_unvote, bind_ok_iff, pure_ok_iff] at hx
  obtain ⟨-, -, v, hv, r, hr, rfl⟩ := hx
  obtain ⟨k, hd, tot', h1, h2, hle, rfl, ht, -, -, -⟩ := remove_backed h hr
  refine ⟨k, hd, _, h1, h2, ht, ?_, fun x y hne => ?_⟩
  · rw [vget_less, if_pos ⟨rfl, rfl⟩]; omega
  · rw [vget_less, if_neg hne]

theorem rebalance_totals (h : Totals tot S.mem) (hx : S.rebalance c n a o = .ok S') :
    ∃ k hd tot', S.mem.position c.predecessor (S.vlen c.predecessor) a = .ok hd ∧ S.mem.voteIn hd o = .ok (some k) ∧
      Totals tot' S'.mem ∧
      vget tot' a o + k = vget tot a o + n ∧ ∀ x y, ¬ (x = a ∧ y = o) → vget tot' x y = vget tot x y := by
  simp only [SState.rebalance, bind_ok_iff, expect_ok_iff] at hx
  obtain ⟨v, hv, hd, hhd, old, hold, k, rfl, _, _, hx⟩ := hx
  split at hx
  · rename_i h0
    obtain ⟨k', hd', tot', h1, h2, h3, h4, h5⟩ := unvote_totals h hx
    exact ⟨k', hd', tot', h1, h2, h3, by omega, h5⟩
  · simp only [bind_ok_iff, pure_ok_iff] at hx
    obtain ⟨r, hr, q, hq, rfl⟩ := hx
    obtain ⟨h1, h2⟩ := setVote_totals hq
    split at hr
    · simp only [bind_ok_iff, require_ok_iff, subU_ok_iff, addU128_ok_iff, pure_ok_iff] at hr
      obtain ⟨ad, ⟨hlt, rfl⟩, -, hav, av, ⟨-, rfl⟩, vo, ⟨-, rfl⟩, m, hm, rfl⟩ := hr
      obtain ⟨ht, -, -⟩ := h.increase hm
      refine ⟨k, hd, _, hhd, hold, ht.same h1 h2, ?_, fun x y hne => ?_⟩
      · rw [vget_vset, if_pos ⟨rfl, rfl⟩]; omega
      · rw [vget_vset, if_neg hne]
    · simp only [bind_ok_iff, subU_ok_iff, addU128_ok_iff, pure_ok_iff] at hr
      obtain ⟨ad, ⟨hlt, rfl⟩, av, ⟨-, rfl⟩, vo, ⟨-, rfl⟩, m, hm, rfl⟩ := hr
      obtain ⟨hle, ht, -, -⟩ := h.decrease hm
      refine ⟨k, hd, _, hhd, hold, ht.same h1 h2, ?_, fun x y hne => ?_⟩
      · rw [vget_less, if_pos ⟨rfl, rfl⟩]; omega
      · rw [vget_less, if_neg hne]

theorem mirror_loop_less : ∀ (fuel : Nat) {S : SState} {v : Voter} {l u : Nat} {tot : VMap}
    {r : SState × Voter × Nat × Nat}, Totals tot S.mem → SState.mirror_remove_votes id n fuel S v l u = .ok r →
    ∃ tot', Totals tot' r.1.mem ∧ ∀ x y, vget tot' x y ≤ vget tot x y
  | fuel, S, v, l, u, tot, r, h, hx => by
    unfold SState.mirror_remove_votes at hx
    split at hx
    · cases fuel with
      | zero => simp at hx
      | succ fuel =>
        simp only [bind_ok_iff, expect_ok_iff, subU_ok_iff] at hx
        obtain ⟨_, _, app, rfl, _, hh, hd, rfl, _, _, obj, rfl, _, hvo, k, rfl, q, hq, u', ⟨hle, rfl⟩, hx⟩ := hx
        obtain ⟨k', hd', tot', h1, h2, -, rfl, ht, -, -, -⟩ := remove_backed h hq
        obtain ⟨tot2, ht2, hs2⟩ := mirror_loop_less fuel ht hx
        refine ⟨tot2, ht2, fun x y => (hs2 x y).trans ?_⟩
        rw [vget_less]
        split
        · rename_i e; obtain ⟨rfl, rfl⟩ := e; omega
        · exact Nat.le_refl _
    · simp only [pure_ok_iff] at hx; rw [← hx]; exact ⟨tot, h, fun _ _ => Nat.le_refl _⟩

theorem mirror_less {e : String} {l : List (Nat × Nat)} (h : Totals tot S.mem)
    (hx : S.operator_mirror_lps c e l = .ok S') : ∃ tot', Totals tot' S'.mem ∧ ∀ x y, vget tot' x y ≤ vget tot x y := by
  simp only [SState.operator_mirror_lps, bind_ok_iff, pure_ok_iff] at hx
  obtain ⟨_, _, _, _, _, _, _, _, _, _, _, _, r, hr, _, _, _, _, _, _, rfl⟩ := hx
  exact mirror_loop_less _ h hr

/-- A vote that does not give to the object. -/
theorem totals_less {J : Json} {k : Call} {out : List Transfer} (h : Totals tot S.mem) (hu : voterOf c k = some u)
    (hg : ¬ gives a o k) (hx : sexec J S c k = .ok (S', out)) :
    ∃ tot', Totals tot' S'.mem ∧ vget tot' a o ≤ vget tot a o := by
  simp only [sexec, bind_ok_iff, require_ok_iff] at hx
  obtain ⟨-, -, -, -, -, -, hx⟩ := hx
  have unv : ∀ {u a' o'}, S.internal_unvote c u a' o' = .ok S' →
      ∃ tot', Totals tot' S'.mem ∧ vget tot' a o ≤ vget tot a o := by
    intro u a' o' hx
    obtain ⟨k, hd, tot', -, -, h3, h4, h5⟩ := unvote_totals h hx
    refine ⟨tot', h3, ?_⟩
    by_cases e : a = a' ∧ o = o'
    · obtain ⟨rfl, rfl⟩ := e; omega
    · rw [h5 _ _ e]
  have vot : ∀ {u n a' o'}, ¬ (a' = a ∧ o' = o) → S.internal_vote u n a' o' = .ok S' →
      ∃ tot', Totals tot' S'.mem ∧ vget tot' a o ≤ vget tot a o := by
    intro u n a' o' hne hx
    refine ⟨_, vote_totals h hx, ?_⟩
    rw [vget_vset, if_neg (fun e => hne ⟨e.1.symm, e.2.symm⟩)]
  cases k <;> simp only [voterOf, Option.some.injEq, reduceCtorEq] at hu <;> simp only [gives, not_false_eq_true] at hg <;>
    simp only [srun, SState.quiet, bind_ok_iff, pure_ok_iff, Prod.mk.injEq] at hx
  case vote => obtain ⟨S1, hx, rfl, -⟩ := hx; exact vot hg hx
  case rebalance =>
    obtain ⟨S1, hx, rfl, -⟩ := hx
    obtain ⟨k, hd, tot', -, -, h3, -, h5⟩ := rebalance_totals h hx
    exact ⟨tot', h3, Nat.le_of_eq (h5 _ _ (fun e => hg ⟨e.1.symm, e.2.symm⟩))⟩
  case unvote => obtain ⟨S1, hx, rfl, -⟩ := hx; exact unv hx
  case operator_mirror_lps =>
    obtain ⟨S1, hx, rfl, -⟩ := hx
    obtain ⟨tot', h1, h2⟩ := mirror_less h hx
    exact ⟨tot', h1, h2 _ _⟩
  case vote_delegated => obtain ⟨S1, ⟨p, -, hx⟩, rfl, -⟩ := hx; exact vot hg hx
  case unvote_delegated => obtain ⟨S1, ⟨p, -, hx⟩, rfl, -⟩ := hx; exact unv hx

/-! ## The invariant -/

/-- The votes of `id` for an object exceed the total of the object by `d`. -/
structure Robbed (id a o : String) (d : Nat) (tot vm : VMap) (S : SState) : Prop where
  own : Own id vm S.mem
  len : S.vlen id = vm.len
  power : (S.st.voterD id).available_voting_power + vsum vm ≤ (S.st.voterD id).lockedVp
  known : (S.st.voters.get id).isSome
  totals : Totals tot S.mem
  short : vget tot a o + d ≤ vget vm a o

theorem Robbed.read (h : Robbed id a o d tot vm S) {x y : String} {hd : Handle} {k : Nat}
    (h1 : S.mem.position id (S.vlen id) x = .ok hd) (h2 : S.mem.voteIn hd y = .ok (some k)) : k = vget vm x y := by
  rw [h.len, h.own.position, Except.ok.injEq] at h1
  subst h1
  rw [h.own.voteIn, Except.ok.injEq] at h2
  rw [vget_eq]
  show k = ((inner vm x).get y).getD 0
  rw [h2]; rfl

theorem Robbed.after {tot' vm' : VMap} {av : Nat} (h : Robbed id a o d tot vm S)
    (ha : After id vm' av (S.st.voterD id).locking_positions S')
    (hp : av + vsum vm' = (S.st.voterD id).available_voting_power + vsum vm) (ht : Totals tot' S'.mem)
    (hs : vget tot' a o + d ≤ vget vm' a o) : Robbed id a o d tot' vm' S' := by
  refine ⟨ha.own, ha.len, ?_, ha.known, ht, hs⟩
  have := h.power
  rw [ha.avail]
  simp only [Voter.lockedVp, ha.positions] at *
  omega

theorem Robbed.vote (h : Robbed id a o d tot vm S) {x y : String} (hx : S.internal_vote id n x y = .ok S') :
    ∃ tot' vm', Robbed id a o d tot' vm' S' := by
  obtain ⟨hle, ha⟩ := own_vote h.own h.len hx
  have := vsum_vset vm x y (vget vm x y + n)
  refine ⟨_, _, h.after ha (by omega) (vote_totals h.totals hx) ?_⟩
  have := h.short
  rw [vget_vset, vget_vset]
  split
  · rename_i e; obtain ⟨rfl, rfl⟩ := e; omega
  · exact h.short

theorem Robbed.unvote (h : Robbed id a o d tot vm S) (_hd : 0 < d) {x y : String}
    (hx : S.internal_unvote c id x y = .ok S') : ∃ tot' vm', Robbed id a o d tot' vm' S' := by
  obtain ⟨-, ha⟩ := own_unvote h.own h.len hx
  obtain ⟨k, hh, tot', h1, h2, h3, h4, h5⟩ := unvote_totals h.totals hx
  have hk := h.read h1 h2
  have := vsum_vdel vm x y
  have hs := h.short
  refine ⟨_, _, h.after ha (by omega) h3 ?_⟩
  by_cases e : a = x ∧ o = y
  · obtain ⟨rfl, rfl⟩ := e; omega
  · rw [h5 _ _ e, vget_vdel, if_neg e]; exact hs

theorem Robbed.rebalance (h : Robbed c.predecessor a o d tot vm S) (_hd : 0 < d) {x y : String}
    (hx : S.rebalance c n x y = .ok S') : ∃ tot' vm', Robbed c.predecessor a o d tot' vm' S' := by
  obtain ⟨k, hh, tot', h1, h2, h3, h4, h5⟩ := rebalance_totals h.totals hx
  have hk := h.read h1 h2
  have hs := h.short
  obtain ⟨-, ⟨h0, ha⟩ | ⟨h0, hle, ha⟩⟩ := own_rebalance h.own h.len hx
  · have := vsum_vdel vm x y
    refine ⟨_, _, h.after ha (by omega) h3 ?_⟩
    by_cases e : a = x ∧ o = y
    · obtain ⟨rfl, rfl⟩ := e; omega
    · rw [h5 _ _ e, vget_vdel, if_neg e]; exact hs
  · have := vsum_vset vm x y n
    refine ⟨_, _, h.after ha (by omega) h3 ?_⟩
    by_cases e : a = x ∧ o = y
    · obtain ⟨rfl, rfl⟩ := e
      rw [vget_vset, if_pos ⟨rfl, rfl⟩]; omega
    · rw [h5 _ _ e, vget_vset, if_neg e]; exact hs

theorem Robbed.other {J : Json} {k : Call} {out : List Transfer} (h : Robbed id a o d tot vm S) (hd : 0 < d)
    (hk : k.votes = false) (hx : sexec J S c k = .ok (S', out)) : Robbed id a o d tot vm S' := by
  obtain ⟨hm, hl⟩ := sexec_same_mem hk hx
  have hp := h.power
  have key : (S'.st.voterD id).available_voting_power + vsum vm ≤ (S'.st.voterD id).lockedVp →
      (S'.st.voters.get id).isSome → Robbed id a o d tot vm S' := fun h1 h2 =>
    ⟨by rw [hm]; exact h.own, by rw [hl id, if_pos h2]; exact h.len, h1, h2, by rw [hm]; exact h.totals, h.short⟩
  rcases exec_room hk ((sexec_ran hx).exec hk) with hr | ⟨hv, h0⟩
  · exact key (by have := hr.power id; omega) (hr.stays id h.known)
  · have hget : ∀ j, S'.st.voters.get j = if j = c.predecessor then none else S.st.voters.get j := by
      intro j
      rw [hv]
      by_cases e : j = c.predecessor
      · subst e; simp
      · rw [if_neg e, UMap.get_remove, if_neg (Ne.symm e)]
    by_cases e : id = c.predecessor
    · have h1 := vget_le_vsum vm a o
      have h2 := h.short
      rw [← e] at h0
      omega
    · have hd : S'.st.voterD id = S.st.voterD id := by unfold State.voterD; rw [hget id, if_neg e]
      exact key (by rw [hd]; exact hp) (by rw [hget id, if_neg e]; exact h.known)

theorem robbed_step {J : Json} {k : Call} {out : List Transfer} (hr : Regions S.mem) (hm : ¬ mirrored id)
    (h : Robbed id a o d tot vm S) (hd : 0 < d)
    (ha : ∀ u, voterOf c k = some u → u ≠ id → ¬ gives a o k ∧ ¬ Overlap u id)
    (hx : sexec J S c k = .ok (S', out)) : ∃ tot' vm', Robbed id a o d tot' vm' S' := by
  cases hu : voterOf c k with
  | none => exact ⟨tot, vm, h.other hd (voterOf_none.1 hu) hx⟩
  | some u =>
    by_cases e : u = id
    · subst e
      simp only [sexec, bind_ok_iff, require_ok_iff] at hx
      obtain ⟨-, -, -, -, -, -, hx⟩ := hx
      cases k <;> simp only [voterOf, Option.some.injEq, reduceCtorEq] at hu <;> subst hu <;>
        simp only [srun, SState.quiet, bind_ok_iff, pure_ok_iff, Prod.mk.injEq] at hx
      case vote => obtain ⟨S1, hx, rfl, -⟩ := hx; exact h.vote hx
      case rebalance => obtain ⟨S1, hx, rfl, -⟩ := hx; exact h.rebalance hd hx
      case unvote => obtain ⟨S1, hx, rfl, -⟩ := hx; exact h.unvote hd hx
      all_goals exact absurd (mirrored_pseudo _) hm
    · obtain ⟨h1, h2⟩ := sexec_moved hr hu hx
      have hg := others_get hu e hx
      obtain ⟨ha1, ha2⟩ := ha u hu e
      obtain ⟨tot', ht, hle⟩ := totals_less h.totals hu ha1 hx
      have hd : S'.st.voterD id = S.st.voterD id := by unfold State.voterD; rw [hg]
      have := h.short
      exact ⟨tot', vm, h.own.moved h1 e (away_of e ha2), (h2 id (Ne.symm e)).trans h.len, by rw [hd]; exact h.power,
        by rw [hg]; exact h.known, ht, by omega⟩

theorem robbed_steps {J : Json} {me : AccountId} {w w' : SWorld} (hw : SReach J me w) (hm : ¬ mirrored id)
    (h : Robbed id a o d tot vm w.S) (hd : 0 < d) (hs : NoHelp J me id a o w w') :
    SReach J me w' ∧ ∃ tot' vm', Robbed id a o d tot' vm' w'.S := by
  induction hs with
  | refl => exact ⟨hw, tot, vm, h⟩
  | @step w1 w2 _ hs hg ih =>
    obtain ⟨hr, tot1, vm1, h1⟩ := ih
    refine ⟨.step hr hs, ?_⟩
    have hreg := sreach_regions hr
    cases hs with
    | call c k S' out hme hres hm' hclock hu64 hexec =>
      exact robbed_step hreg hm h1 hd (fun u hu hne => hg c k out u rfl hu hne) hexec
    | resolve pre post t ok ts hpend hclock hu64 =>
      refine ⟨tot1, vm1, ?_⟩
      cases hx : sexec J _ ⟨me, me, 0, ts, [ok]⟩ t.callbackCall with
      | ok r => exact h1.other (out := r.2) hd (callback_not_vote t) hx
      | error e => exact h1
    | tick ts hclock hu64 => exact ⟨tot1, vm1, h1⟩

/-! ## C74 -/

/-- **C74**, why it is false over storage: if an undisturbed voter has more votes for an object than the object has in total,
then, whatever the voter and everybody else do, as long as nobody else votes for that object, votes of at least the difference
remain, the locked positions keep at least that much power, and the account remains. -/
theorem C74_storage_held {J : Json} {me : AccountId} {w w' : SWorld} {n t : Nat} (hw : SReach J me w)
    (hu : Undisturbed id w.log) (hm : ¬ mirrored id) (hn : w.S.get_votes_for_object id a o = .ok n)
    (ht : w.S.get_total_votes a o = .ok t) (hlt : t < n) (hs : NoHelp J me id a o w w') (now : Nat) :
    (∃ m, w'.S.get_votes_for_object id a o = .ok m ∧ n - t ≤ m) ∧
    n - t ≤ lockedPower (w'.S.st.get_all_locking_positions now id) ∧ (w'.S.st.voters.get id).isSome := by
  obtain ⟨vm, h1, -, -⟩ := mine_reach hw hu
  obtain ⟨tot, hb⟩ := sreach_backed hw
  rw [own_view h1] at hn
  cases hn
  have htot : w.S.get_total_votes a o = .ok (vget tot a o) := by
    unfold SState.get_total_votes
    rw [hb.totals.vt, UMap.get_mapV, hb.totals.cv]
    unfold inner vget
    cases ht : tot.get a with
    | none => rfl
    | some m => simp [Cells.get_of, bind, Except.bind, pure, Except.pure]
  rw [htot] at ht
  cases ht
  have hrob : Robbed id a o (vget vm a o - vget tot a o) tot vm w.S := by
    refine ⟨h1.own, h1.len, h1.power, ?_, hb.totals, by omega⟩
    cases hg : w.S.st.voters.get id with
    | some v => rfl
    | none =>
      have := h1.fresh hg
      subst this
      exact absurd hlt (Nat.not_lt.2 (Nat.zero_le _))
  obtain ⟨-, tot', vm', h'⟩ := robbed_steps hw hm hrob (by omega) hs
  have h2 := h'.short
  have h3 := h'.power
  have h4 := vget_le_vsum vm' a o
  refine ⟨⟨vget vm' a o, ?_, by omega⟩, ?_, h'.known⟩
  · unfold SState.get_votes_for_object
    have hg := Cells.get_of (vm'.mapV (fun c m => (⟨join id c, m.len⟩ : Handle))) a
    rw [UMap.len_mapV, UMap.get_mapV] at hg
    rw [h'.own.vp, h'.len, hg, vget_eq]
    have hi := h'.own.voteIn a o
    unfold inner at hi
    cases hv : vm'.get a with
    | none => rfl
    | some m =>
      rw [hv] at hi
      simp only [Option.getD_some] at hi
      simp only [Option.map_some, bind, Except.bind, hi]
      rfl
  · rw [lockedPower_view]
    omega

/-- The entry is not of a call of bob, other than the one vote. -/
def bobOnce : Entry → Bool
  | .call c (.vote n a o) _ => c.predecessor != "bob" || (n == 60000000000000000000000000 && a == "A" && o == "o")
  | .call c _ _ => c.predecessor != "bob"
  | _ => true

/-- **C74** is false of the contract with its storage, also for a voter who only deposited once and voted once: after eve's
calls, bob cannot unlock two thirds of bob's position, whatever bob and all others do, as long as nobody else votes for the
same object. -/
theorem C74_storage_false : ∃ w, SReach demoJ "me" w ∧
    w.log.filter (fun | .call c _ _ => c.predecessor == "bob" | _ => false) ≠ [] ∧
    (∀ c k out, .call c k out ∈ w.log → c.predecessor = "bob" → k = .vote 60000000000000000000000000 "A" "o") ∧
    ∀ w', NoHelp demoJ "me" "bob" "A" "o" w w' → ∀ now,
      40000000000000000000000000 ≤ lockedPower (w'.S.st.get_all_locking_positions now "bob") ∧
      (w'.S.st.voters.get "bob").isSome := by
  have hlog : ∀ e ∈ reuseW.log, bobOnce e = true := by decide +kernel
  refine ⟨reuseW, reuseW_reach, by decide +kernel, fun c k out hm hc => ?_, fun w' hs now => ?_⟩
  · have h := hlog _ hm
    cases k <;> simp_all [bobOnce]
  have h := C74_storage_held (n := 60000000000000000000000000) (t := 20000000000000000000000000) reuseW_reach
    (undisturbed_of (by decide +kernel)) (by decide) (by decide +kernel) (by decide +kernel) (by decide) hs now
  exact ⟨h.2.1, h.2.2⟩

/-- The world after bob has taken back a third of the votes. -/
def thirdW : SWorld := (sact demoJ "me" reuseW (.call "bob" 0 (61 * DAY) (.rebalance 40000000000000000000000000 "A" "o"))).get
  (by decide +kernel)

/-- Bob can still do something there: take back a third of the votes. -/
example : NoHelp demoJ "me" "bob" "A" "o" reuseW thirdW ∧
    thirdW.S.get_votes_for_object "bob" "A" "o" = .ok 40000000000000000000000000 := by
  have hb : thirdW.log.head?.map (fun | .call c k _ => voterOf c k == some "bob" | _ => false) = some true := by decide +kernel
  refine ⟨.step .refl (sstep_of_sact (Option.some_get _).symm) (fun c k out u hl hu hne => ?_), by decide +kernel⟩
  rw [hl] at hb
  simp [hu] at hb
  exact absurd hb hne

end Verif.Storage
