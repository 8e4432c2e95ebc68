import Verif.Storage.Contract
import Verif.MetaVote.Loose

/-!
# What executions over storage do to everything but the votes

Over storage, where vote maps may be stale or shared, a voting call still changes only the votes and the voting power of the
voter it acts on; every other call does what the model says.  So an execution over storage, without its vote maps, is an
execution with arbitrary votes (`LReach`), and what is proved of these holds of all executions over storage.
-/

namespace Verif.Storage

open Verif MetaVote

/-- What a voting call may change besides the vote maps. -/
structure Touched (s s' : State) (id : String) : Prop where
  state : s' = { s with voters := s'.voters }
  others : ∀ j, j ≠ id → s'.voters.get j = s.voters.get j
  record : s'.voterD id = { s.voterD id with available_voting_power := (s'.voterD id).available_voting_power }

theorem Touched.frame {s s' : State} {id : String} (h : Touched s s' id) : VFrame id s s' := by
  refine ⟨?_, h.others⟩
  have := h.state
  cases s'
  simp only [State.mk.injEq] at this ⊢
  simp [this]

theorem Touched.balance {s s' : State} {id : String} (h : Touched s s' id) :
    (s'.voterD id).balance = (s.voterD id).balance := by rw [h.record]

theorem Touched.positions {s s' : State} {id : String} (h : Touched s s' id) :
    (s'.voterD id).locking_positions = (s.voterD id).locking_positions := by rw [h.record]

theorem touched_insert (s : State) (id : String) (n : Nat) :
    Touched s { s with voters := s.voters.insert id { s.voterD id with available_voting_power := n } } id :=
  ⟨rfl, fun _ hj => UMap.get_insert_ne _ _ hj, by simp [State.voterD]⟩

theorem internal_vote_touched {S S' : SState} {id : String} {n : Nat} {a o : String}
    (h : S.internal_vote id n a o = .ok S') : Touched S.st S'.st id := by
  simp only [SState.internal_vote, SState.internal_create_voting_position, bind_ok_iff, pure_ok_iff] at h
  obtain ⟨v, hv, r, ⟨-, -, -, -, -, -, -, -, x, -, -, -, -, -, -, -, rfl⟩, rfl⟩ := h
  obtain ⟨-, rfl⟩ := get_voter_ok hv
  exact touched_insert _ _ _

theorem remove_voting_st {S : SState} {id : String} {v : Voter} {vlen : Nat} {a o : String}
    {r : SState × Voter × Nat} (h : S.internal_remove_voting_position id v vlen a o = .ok r) :
    r.1.st = S.st ∧ ∃ n, r.2.1 = { v with available_voting_power := n } := by
  simp only [SState.internal_remove_voting_position, bind_ok_iff, pure_ok_iff] at h
  obtain ⟨-, -, -, -, -, -, n, -, -, -, -, -, rfl⟩ := h
  exact ⟨rfl, n, rfl⟩

theorem internal_unvote_touched {S S' : SState} {c : Ctx} {id : String} {a o : String}
    (h : S.internal_unvote c id a o = .ok S') : Touched S.st S'.st id := by
  simp only [SState.internal_unvote, bind_ok_iff, pure_ok_iff] at h
  obtain ⟨-, -, v, hv, r, hr, rfl⟩ := h
  obtain ⟨-, rfl⟩ := get_voter_ok hv
  obtain ⟨h1, n, h2⟩ := remove_voting_st hr
  simp only [SState.save, h1, h2]
  exact touched_insert _ _ _

theorem rebalance_touched {S S' : SState} {c : Ctx} {n : Nat} {a o : String}
    (h : S.rebalance c n a o = .ok S') : Touched S.st S'.st c.predecessor := by
  simp only [SState.rebalance, bind_ok_iff] at h
  obtain ⟨v, hv, _, _, _, _, _, _, _, _, h⟩ := h
  obtain ⟨-, rfl⟩ := get_voter_ok hv
  split at h
  · exact internal_unvote_touched h
  · simp only [bind_ok_iff, pure_ok_iff] at h
    obtain ⟨r, -, q, -, rfl⟩ := h
    exact touched_insert _ _ _

theorem mirror_remove_st {id : String} {n : Nat} : ∀ {fuel : Nat} {S : SState} {v : Voter} {vlen u : Nat}
    {r : SState × Voter × Nat × Nat}, SState.mirror_remove_votes id n fuel S v vlen u = .ok r →
    r.1.st = S.st ∧ r.2.1.balance = v.balance
  | fuel, S, v, vlen, u, r, h => by
    unfold SState.mirror_remove_votes at h
    split at h
    · cases fuel with
      | zero => simp at h
      | succ fuel =>
        simp only [bind_ok_iff] at h
        obtain ⟨_, _, _, _, _, _, _, _, _, _, _, _, _, _, _, _, r1, hr, _, _, h⟩ := h
        obtain ⟨h1, m, h2⟩ := remove_voting_st hr
        obtain ⟨h3, h4⟩ := mirror_remove_st h
        exact ⟨h3.trans h1, by rw [h4, h2]⟩
    · simp only [pure_ok_iff] at h; rw [← h]; exact ⟨rfl, rfl⟩

/-- The positions created by mirroring. -/
theorem mirror_create {s : State} {v : Voter} {l : List (Nat × Nat)} {sv : State × Voter} (hv : v.locking_positions = [])
    (h : l.foldlM State.mirror_step (s, v) = .ok sv) :
    sv.2.balance = v.balance ∧ Mirrored sv.2.locking_positions ∧
      sv.1 = { s with total_voting_power := sv.1.total_voting_power } ∧
      (s.max_locking_positions ≤ U8_MAX → sv.2.locking_positions.length ≤ s.max_locking_positions) := by
  refine foldlM_inv (fun x : State × Voter => x.2.balance = v.balance ∧ Mirrored x.2.locking_positions ∧
    x.1 = { s with total_voting_power := x.1.total_voting_power } ∧
    (s.max_locking_positions ≤ U8_MAX → x.2.locking_positions.length ≤ s.max_locking_positions)) ?_ _ _ _
    ⟨rfl, ⟨by simp [hv], by simp [hv]⟩, rfl, by simp [hv]⟩ h
  rintro ⟨s1, v1⟩ lp ⟨s2, v2⟩ ⟨h1, h2, h3, h4⟩ hs
  obtain ⟨vp, hvp, hf, hlen, -, -, rfl, rfl⟩ := create_locking_ok hs
  have hmax : s1.max_locking_positions = s.max_locking_positions := by
    simp only at h3; rw [h3]
  refine ⟨h1, ⟨?_, ?_⟩, ?_, fun h8 => ?_⟩
  · intro p hp
    rcases List.mem_append.1 hp with hp | hp
    · exact h2.ok p hp
    · rw [List.mem_singleton] at hp; subst hp; exact ⟨rfl, hvp⟩
  · simp only [List.map_append, List.map_cons, List.map_nil]
    rw [List.nodup_append]
    refine ⟨h2.nodup, by simp, ?_⟩
    intro a ha b hb
    rw [List.mem_singleton] at hb
    subst hb
    rintro rfl
    obtain ⟨p, hp, hpd⟩ := List.mem_map.1 ha
    exact find_locked_none hf p hp hpd (h2.ok p hp).1
  · simp only at h3 ⊢
    rw [h3]
  · have := h4 h8
    simp only [U8_MAX, List.length_append, List.length_singleton] at *
    rw [hmax, Nat.mod_eq_of_lt (by omega)] at hlen
    omega

theorem mirror_ran {J : Json} {S S' : SState} {c : Ctx} {e : String} {l : List (Nat × Nat)}
    (h : S.operator_mirror_lps c e l = .ok S') : Ran J S.st c (.operator_mirror_lps e l) S'.st [] := by
  simp only [SState.operator_mirror_lps, bind_ok_iff, pure_ok_iff] at h
  obtain ⟨u, hop, _, _, _, _, _, _, _, _, _, _, r, hr, sv, hsv, n, _, t, _, rfl⟩ := h
  simp only [State.assert_operator, require_ok_iff] at hop
  obtain ⟨h1, h2⟩ := mirror_remove_st hr
  obtain ⟨h3, h4, h5, h6⟩ := mirror_create rfl hsv
  rw [h1] at h5 h6
  rw [internal_get_voter_eq] at h2
  simp only at h3
  refine .mirror hop ⟨?_, fun j hj => ?_⟩ ?_ ?_ ?_
  · simp only [SState.save]; rw [h5]
  · simp only [SState.save]; rw [h5]; exact UMap.get_insert_ne _ _ hj
  · simp [SState.save, State.voterD, h3, h2]
  · simpa [SState.save, State.voterD] using h4
  · simpa [SState.save, State.voterD] using h6

/-- The account on which a voting call acts. -/
def ActsOn (s : State) (c : Ctx) (id : String) : Prop :=
  id = c.predecessor ∨ ∃ e, id = pseudo_near_address e ∧ e ∈ (s.evm_delegates.get c.predecessor).getD []

/-- A voting call, except mirroring, changes the votes and the available power of the voter it acts on. -/
theorem sexec_touched {J : Json} {S S' : SState} {c : Ctx} {k : Call} {out : List Transfer} (hk : k.votes = true)
    (hm : k.isMirror = false) (h : sexec J S c k = .ok (S', out)) :
    out = [] ∧ ∃ id, ActsOn S.st c id ∧ Touched S.st S'.st id := by
  simp only [sexec, bind_ok_iff] at h
  obtain ⟨_, _, _, _, _, _, h⟩ := h
  cases k <;> (first | (simp [Call.votes] at hk; done) | (simp [Call.isMirror] at hm; done) | skip) <;>
    simp only [srun, SState.quiet, bind_ok_iff, pure_ok_iff, Prod.mk.injEq] at h
  case vote => obtain ⟨_, h, rfl, rfl⟩ := h; exact ⟨rfl, _, .inl rfl, internal_vote_touched h⟩
  case rebalance => obtain ⟨_, h, rfl, rfl⟩ := h; exact ⟨rfl, _, .inl rfl, rebalance_touched h⟩
  case unvote => obtain ⟨_, h, rfl, rfl⟩ := h; exact ⟨rfl, _, .inl rfl, internal_unvote_touched h⟩
  case vote_delegated =>
    obtain ⟨_, ⟨p, hp, h⟩, rfl, rfl⟩ := h
    simp only [State.verify_delegate, bind_ok_iff, require_ok_iff, pure_ok_iff] at hp
    obtain ⟨-, he, rfl⟩ := hp
    exact ⟨rfl, _, .inr ⟨_, rfl, he⟩, internal_vote_touched h⟩
  case unvote_delegated =>
    obtain ⟨_, ⟨p, hp, h⟩, rfl, rfl⟩ := h
    simp only [State.verify_delegate, bind_ok_iff, require_ok_iff, pure_ok_iff] at hp
    obtain ⟨-, he, rfl⟩ := hp
    exact ⟨rfl, _, .inr ⟨_, rfl, he⟩, internal_unvote_touched h⟩

/-- A call accepted over storage, without the vote maps. -/
theorem sexec_ran {J : Json} {S S' : SState} {c : Ctx} {k : Call} {out : List Transfer}
    (h : sexec J S c k = .ok (S', out)) : Ran J S.st c k S'.st out := by
  cases hk : k.votes with
  | true =>
    cases hm : k.isMirror with
    | false =>
      obtain ⟨rfl, id, hid, ht⟩ := sexec_touched hk hm h
      exact .vote id hk hm ht.frame ht.balance ht.positions hid
    | true =>
      simp only [sexec, bind_ok_iff] at h
      obtain ⟨_, _, _, _, _, _, h⟩ := h
      cases k <;> simp only [Call.isMirror, Bool.false_eq_true] at hm
      simp only [srun, SState.quiet, bind_ok_iff, pure_ok_iff, Prod.mk.injEq] at h
      obtain ⟨S1, hr, rfl, rfl⟩ := h
      exact mirror_ran hr
  | false =>
    have hr : srun J S c k = S.other J c k := by cases k <;> first | rfl | simp [Call.votes] at hk
    simp only [sexec, hr, bind_ok_iff, require_ok_iff, SState.other, pure_ok_iff, Prod.mk.injEq] at h
    obtain ⟨-, h1, -, h2, -, h3, r, hr, rfl, rfl⟩ := h
    exact .exact (exec_ok.2 ⟨h1, h2, h3, hr⟩)

/-- Calls that do not vote are accepted over storage exactly when the model accepts them without the vote maps, and then do
the same. -/
theorem sexec_other {J : Json} {S : SState} {c : Ctx} {k : Call} (hk : k.votes = false) (s' : State) (out : List Transfer) :
    exec J S.st c k = .ok (s', out) ↔ ∃ S', sexec J S c k = .ok (S', out) ∧ S'.st = s' ∧ S'.mem = S.mem := by
  have hr : srun J S c k = S.other J c k := by cases k <;> first | rfl | simp [Call.votes] at hk
  simp only [sexec, hr, exec_ok, bind_ok_iff, require_ok_iff, SState.other, pure_ok_iff, Prod.mk.injEq]
  constructor
  · rintro ⟨h1, h2, h3, h⟩
    exact ⟨_, ⟨(), h1, (), h2, (), h3, (s', out), h, rfl, rfl⟩, rfl, rfl⟩
  · rintro ⟨S', ⟨-, h1, -, h2, -, h3, r, h, rfl, rfl⟩, rfl, -⟩
    exact ⟨h1, h2, h3, h⟩

/-! ## Executions -/

/-- Everything but the vote maps. -/
def SWorld.core (w : SWorld) : World := ⟨w.S.st, w.pending, w.clock, w.log⟩

theorem callback_not_vote (t : Transfer) : t.callbackCall.votes = false := by
  unfold Transfer.callbackCall
  cases t.callback <;> rfl

theorem callback_core {J : Json} {S : SState} {c : Ctx} {k : Call} (hk : k.votes = false) :
    ((sexec J S c k).getOr (S, [])).1.st = ((exec J S.st c k).getOr (S.st, [])).1 ∧
    Res.isOk (sexec J S c k) = Res.isOk (exec J S.st c k) := by
  cases h : exec J S.st c k with
  | ok r =>
    obtain ⟨S', h1, h2, -⟩ := (sexec_other hk r.1 r.2).1 h
    rw [h1]; exact ⟨h2, rfl⟩
  | error e =>
    cases h' : sexec J S c k with
    | ok r =>
      have := (sexec_ran (S' := r.1) (out := r.2) h').exec hk
      rw [h] at this; simp at this
    | error e' => exact ⟨rfl, rfl⟩

theorem SStep.loose {J : Json} {me : AccountId} {w w' : SWorld} (h : SStep J me w w') : LStep J me w.core w'.core := by
  cases h with
  | call c k S' out hme hres hm hclock hu64 hexec =>
    exact .call w.core c k S'.st out hme hres hm hclock hu64 (sexec_ran hexec)
  | resolve pre post t ok ts hpend hclock hu64 =>
    have := LStep.resolve (J := J) (me := me) w.core pre post t ok ts hpend hclock hu64
    obtain ⟨h1, h2⟩ := callback_core (J := J) (S := w.S) (c := ⟨me, me, 0, ts, [ok]⟩) (callback_not_vote t)
    unfold SWorld.core at this ⊢
    simp only at this ⊢
    rw [h1, h2]
    exact this
  | tick ts hclock hu64 => exact .tick w.core ts hclock hu64

theorem SReach.loose {J : Json} {me : AccountId} {w : SWorld} (h : SReach J me w) : LReach J me w.core := by
  induction h with
  | init h =>
    cases h with
    | mk w0 h =>
      refine .init ?_
      cases h with
      | mk o op a b d l v m st r p ts s hr hts hn => exact .mk o op a b d l v m st r p ts s hr hts hn
  | step h hs ih => exact .step ih hs.loose

/-- Zero or more steps over storage. -/
inductive SSteps (J : Json) (me : AccountId) (w : SWorld) : SWorld → Prop
  | refl : SSteps J me w w
  | step {w1 w2 : SWorld} (h : SSteps J me w w1) (hs : SStep J me w1 w2) : SSteps J me w w2

theorem SSteps.loose {J : Json} {me : AccountId} {w w' : SWorld} (h : SSteps J me w w') : LSteps J me w.core w'.core := by
  induction h with
  | refl => exact .refl
  | step h hs ih => exact .step ih hs.loose

theorem SReach.steps {J : Json} {me : AccountId} {w w' : SWorld} (h : SReach J me w) (h' : SSteps J me w w') :
    SReach J me w' := by
  induction h' with
  | refl => exact h
  | step h hs ih => exact .step ih hs

end Verif.Storage
