import Verif.Storage.Refine

/-!
# The contract over storage does what the model does

As long as the storage holds the vote maps of the model, a call does the same in both.
-/

namespace Verif.Storage

open Verif MetaVote

/-- The storage state `S` and the state `s` of the model agree, with vote maps `vm`. -/
structure Rel (A : String → String → Prop) (vm : String → VMap) (S : SState) (s : State) : Prop where
  st : S.st = s.bare
  vlen : S.vlen = fun v => (s.voterD v).vote_positions.len
  mem : Stores A vm s.votes S.mem

/-- The storage state `S` represents the state `s` of the model. -/
def Repr (A : String → String → Prop) (S : SState) (s : State) : Prop :=
  Rel A (fun v => (s.voterD v).vote_positions) S s

variable {A : String → String → Prop} {vm : String → VMap} {S : SState} {s : State}

/-- What a change of the votes of one voter keeps. -/
def Changed (A : String → String → Prop) (vm : String → VMap) (s : State) (id : String)
    (a : SState × Voter × Nat) (b : State × Voter) : Prop :=
  Rel A (upd vm id b.2.vote_positions) a.1 b.1 ∧ a.2.1 = b.2.bare ∧ a.2.2 = b.2.vote_positions.len ∧
    b.1 = { s with votes := b.1.votes }

theorem sim_create (hj : Joins A) (h : Rel A vm S s) {id c : String} (ha : A id c) {voter : Voter}
    (hv : vm id = voter.vote_positions) (n : Nat) (o : String) :
    Sim (Changed A vm s id)
      (S.internal_create_voting_position id voter.bare voter.vote_positions.len n c o)
      (s.internal_create_voting_position voter n c o) := by
  unfold SState.internal_create_voting_position State.internal_create_voting_position
  rw [h.st]
  refine Sim.same (require (n ≤ voter.available_voting_power) _) fun _ _ => ?_
  refine Sim.same (require (voter.vote_positions.len ≤ s.max_voting_positions) _) fun _ _ => ?_
  rw [← hv, h.mem.position id c]
  show Sim _ (S.mem.voteIn _ o >>= _) _
  rw [h.mem.voteIn ha]
  show Sim _ (subU voter.available_voting_power n >>= _) (subU voter.available_voting_power n >>= _)
  refine Sim.same _ fun avp _ => ?_
  have e : voter.get_vote_position_for_address c = inner (vm id) c := by rw [hv]; rfl
  rw [e]
  refine Sim.same (addU128 _ n) fun votes _ => ?_
  obtain ⟨M', hM, hS⟩ := Stores.setVote hj h.mem ha o votes
  rw [hM]
  show Sim _ (M'.increaseTotal n c o >>= _) _
  refine Sim.bind (hS.increase n c o) ?_
  rintro M2 s2 ⟨h2, h3⟩
  refine Sim.pure ⟨⟨?_, ?_, ?_⟩, rfl, ?_, h3⟩
  · rw [h3]; rfl
  · rw [h3]; exact h.vlen
  · exact h2
  · rfl

theorem sim_remove (hj : Joins A) (h : Rel A vm S s) {id c : String} (ha : A id c) {voter : Voter}
    (hv : vm id = voter.vote_positions) (o : String) :
    Sim (Changed A vm s id)
      (S.internal_remove_voting_position id voter.bare voter.vote_positions.len c o)
      (s.internal_remove_voting_position voter c o) := by
  unfold SState.internal_remove_voting_position State.internal_remove_voting_position
  rw [← hv, h.mem.position id c]
  show Sim _ (S.mem.voteIn _ o >>= _) _
  rw [h.mem.voteIn ha]
  have e : voter.get_vote_position_for_address c = inner (vm id) c := by rw [hv]; rfl
  rw [e]
  show Sim _ (expect ((inner (vm id) c).get o) _ >>= _) (expect ((inner (vm id) c).get o) _ >>= _)
  refine Sim.same _ fun n _ => ?_
  refine Sim.same (addU128 voter.available_voting_power n) fun avp _ => ?_
  obtain ⟨M', hM, hS⟩ := Stores.delVote hj h.mem ha o
  rw [hM]
  show Sim _ (M'.decreaseTotal n c o >>= _) _
  refine Sim.bind (hS.decrease n c o) ?_
  rintro M2 s2 ⟨h2, h3⟩
  refine Sim.pure ⟨⟨?_, ?_, ?_⟩, rfl, ?_, h3⟩
  · rw [h3]; exact h.st
  · rw [h3]; exact h.vlen
  · exact h2
  · rfl

theorem voterD_put (s : State) (id : String) (v : Voter) (i : String) :
    ({ s with voters := s.voters.insert id v } : State).voterD i = if i = id then v else s.voterD i := by
  unfold State.voterD
  rw [UMap.get_insert]
  by_cases e : i = id
  · simp [e]
  · simp [e, Ne.symm e]

/-- Saving the voter whose votes were changed. -/
theorem Rel.save {id : String} {v : Voter} (h : Rel A (upd vm id v.vote_positions) S s)
    (ho : ∀ i, i ≠ id → vm i = (s.voterD i).vote_positions) :
    Repr A (S.save id v.bare v.vote_positions.len) { s with voters := s.voters.insert id v } := by
  refine ⟨?_, ?_, ?_⟩
  · unfold SState.save
    simp only [h.st]
    unfold State.bare
    simp only [UMap.mapV_insert]
  · funext i
    simp only [voterD_put, SState.save]
    by_cases e : i = id
    · subst e; simp
    · rw [upd_ne _ _ e, if_neg e, h.vlen]
  · have : (fun i => (({ s with voters := s.voters.insert id v } : State).voterD i).vote_positions) =
        upd vm id v.vote_positions := by
      funext i
      simp only [voterD_put]
      by_cases e : i = id
      · subst e; simp
      · rw [upd_ne _ _ e, if_neg e, ho i e]
    rw [this]
    exact h.mem

theorem sim_voter (h : Repr A S s) (id : String) {β γ : Type} {Q : β → γ → Prop} {f : Voter → Res β} {g : Voter → Res γ}
    (hf : ∀ v, s.voters.get id = some v → v = s.voterD id → Sim Q (f v.bare) (g v)) :
    Sim Q (S.st.internal_get_voter_or_panic id >>= f) (s.internal_get_voter_or_panic id >>= g) := by
  rw [h.st, get_or_panic_bare]
  cases hx : s.internal_get_voter_or_panic id with
  | error e => rfl
  | ok v =>
    obtain ⟨h1, h2⟩ := get_voter_ok hx
    exact hf v h1 h2

theorem vlen_eq (h : Repr A S s) (id : String) : S.vlen id = (s.voterD id).vote_positions.len := by rw [h.vlen]

theorem sim_vote (hj : Joins A) (h : Repr A S s) {id c : String} (ha : A id c) (n : Nat) (o : String) :
    Sim (Repr A) (S.internal_vote id n c o) (s.internal_vote id n c o) := by
  unfold SState.internal_vote State.internal_vote
  refine sim_voter h id fun v _ hv => ?_
  rw [vlen_eq h, ← hv]
  refine Sim.bind (sim_create hj h ha (by rw [hv]) n o) ?_
  rintro ⟨S1, v1, l1⟩ ⟨s1, v1'⟩ ⟨h1, h2, h3, h4⟩
  simp only at h1 h2 h3 h4
  refine Sim.pure ?_
  simp only [h2, h3]
  refine h1.save ?_
  intro i _
  rw [h4]; rfl

theorem sim_unvote (hj : Joins A) (h : Repr A S s) {id c : String} (ha : A id c) (x : Ctx) (o : String) :
    Sim (Repr A) (S.internal_unvote x id c o) (s.internal_unvote x id c o) := by
  unfold SState.internal_unvote State.internal_unvote
  rw [show S.st.is_vote_locked x.now c o = s.is_vote_locked x.now c o by rw [h.st]; rfl]
  refine Sim.same _ fun _ _ => ?_
  refine sim_voter h id fun v _ hv => ?_
  rw [vlen_eq h, ← hv]
  refine Sim.bind (sim_remove hj h ha (by rw [hv]) o) ?_
  rintro ⟨S1, v1, l1⟩ ⟨s1, v1'⟩ ⟨h1, h2, h3, h4⟩
  simp only at h1 h2 h3 h4
  refine Sim.pure ?_
  simp only [h2, h3]
  refine h1.save ?_
  intro i _
  rw [h4]; rfl

theorem sim_rebalance (hj : Joins A) (h : Repr A S s) (x : Ctx) {c : String} (ha : A x.predecessor c) (n : Nat) (o : String) :
    Sim (Repr A) (S.rebalance x n c o) (s.rebalance x n c o) := by
  unfold SState.rebalance State.rebalance
  refine sim_voter h x.predecessor fun v _ hv => ?_
  rw [vlen_eq h, h.mem.position x.predecessor c]
  show Sim _ (S.mem.voteIn _ o >>= _) _
  rw [h.mem.voteIn ha]
  have e : v.get_vote_position_for_address c = inner (s.voterD x.predecessor).vote_positions c := by rw [hv]; rfl
  rw [e]
  show Sim _ (expect ((inner (s.voterD x.predecessor).vote_positions c).get o) _ >>= _)
    (expect ((inner (s.voterD x.predecessor).vote_positions c).get o) _ >>= _)
  refine Sim.same _ fun votes _ => ?_
  refine Sim.same _ fun _ _ => ?_
  by_cases hn : n = 0
  · rw [if_pos hn, if_pos hn]
    exact sim_unvote hj h ha x o
  · rw [if_neg hn, if_neg hn]
    have hr : Sim (fun (a : Mem × Nat × Nat) (b : State × Nat × Nat) =>
        Stores A (fun v => (s.voterD v).vote_positions) b.1.votes a.1 ∧ b.1 = { s with votes := b.1.votes } ∧
          a.2 = b.2)
        (if votes < n then do
          let additional_votes ← subU n votes
          require (additional_votes ≤ v.bare.available_voting_power) "Not enough free voting power to unlock!"
          let avp ← subU v.bare.available_voting_power additional_votes
          let votes ← addU128 votes additional_votes
          let m ← S.mem.increaseTotal additional_votes c o
          pure (m, avp, votes)
        else do
          let remove_votes ← subU votes n
          let avp ← addU128 v.bare.available_voting_power remove_votes
          let votes ← subU votes remove_votes
          let m ← S.mem.decreaseTotal remove_votes c o
          pure (m, avp, votes) : Res (Mem × Nat × Nat))
        (if votes < n then do
          let additional_votes ← subU n votes
          require (additional_votes ≤ v.available_voting_power)
            "Not enough free voting power to unlock!"
          let avp ← subU v.available_voting_power additional_votes
          let votes ← addU128 votes additional_votes
          let s ← s.internal_increase_total_votes additional_votes c o
          pure (s, avp, votes)
        else do
          let remove_votes ← subU votes n
          let avp ← addU128 v.available_voting_power remove_votes
          let votes ← subU votes remove_votes
          let s ← s.state_internal_decrease_total_votes_for_address remove_votes c o
          pure (s, avp, votes) : Res (State × Nat × Nat)) := by
      by_cases hl : votes < n
      · rw [if_pos hl, if_pos hl]
        refine Sim.same _ fun k _ => ?_
        refine Sim.same (require (k ≤ v.available_voting_power) _) fun _ _ => ?_
        refine Sim.same (subU v.available_voting_power k) fun _ _ => ?_
        refine Sim.same _ fun _ _ => ?_
        refine Sim.bind (h.mem.increase k c o) ?_
        rintro M2 s2 ⟨h2, h3⟩
        exact Sim.pure ⟨h2, h3, rfl⟩
      · rw [if_neg hl, if_neg hl]
        refine Sim.same _ fun k _ => ?_
        refine Sim.same (addU128 v.available_voting_power k) fun _ _ => ?_
        refine Sim.same _ fun _ _ => ?_
        refine Sim.bind (h.mem.decrease k c o) ?_
        rintro M2 s2 ⟨h2, h3⟩
        exact Sim.pure ⟨h2, h3, rfl⟩
    refine Sim.bind hr ?_
    rintro ⟨M2, avp, k⟩ ⟨s2, avp', k'⟩ ⟨h2, h3, h4⟩
    simp only [Prod.mk.injEq] at h2 h3 h4
    obtain ⟨rfl, rfl⟩ := h4
    obtain ⟨M3, hM, hS⟩ := Stores.setVote hj h2 ha o k
    simp only [hM]
    refine Sim.pure ?_
    have hrel : Rel A (upd (fun v => (s.voterD v).vote_positions) x.predecessor
        (vset (s.voterD x.predecessor).vote_positions c o k)) { S with mem := M3 } s2 :=
      ⟨by rw [h3]; exact h.st, by rw [h3]; exact h.vlen, hS⟩
    have := Rel.save (v := { v with
      available_voting_power := avp
      vote_positions := vset (s.voterD x.predecessor).vote_positions c o k }) hrel (fun i _ => by rw [h3]; rfl)
    rw [hv] at this ⊢
    exact this

/-- The entries of a map and its keys. -/
theorem keys_head {K V : Type} [DecidableEq K] (m : UMap K V) : m.keys[0]? = m.entries.head?.map Prod.fst := by
  unfold UMap.keys; cases m.entries <;> rfl

theorem get_head {K V : Type} [DecidableEq K] {m : UMap K V} {k : K} {v : V} (h : m.entries.head? = some (k, v)) :
    m.get k = some v := by
  rw [UMap.get_eq_some_iff]
  exact List.mem_of_mem_head? h

theorem sim_trim (hj : Joins A) {id : String} {n : Nat} : ∀ (fuel : Nat) {vm : String → VMap} {S : SState} {s : State}
    {voter : Voter} (used : Nat), Rel A vm S s → vm id = voter.vote_positions →
    Sim (fun (a : SState × Voter × Nat × Nat) (b : State × Voter × Nat) =>
        Changed A vm s id (a.1, a.2.1, a.2.2.1) (b.1, b.2.1) ∧ a.2.2.2 = b.2.2)
      (SState.mirror_remove_votes id n fuel S voter.bare voter.vote_positions.len used)
      (State.mirror_remove_votes n fuel s voter used)
  | fuel, vm, S, s, voter, used, h, hv => by
    unfold SState.mirror_remove_votes State.mirror_remove_votes
    by_cases hu : n < used
    · rw [if_pos hu, if_pos hu]
      cases fuel with
      | zero => rfl
      | succ fuel =>
        simp only
        have hk := Cells.keyAt_of ((vm id).mapV (fun c m => (⟨join id c, m.len⟩ : Handle))) 0
        rw [UMap.len_mapV, UMap.keys_mapV, keys_head] at hk
        rw [← hv, h.mem.vp id, hk]
        show Sim _ (expect ((vm id).entries.head?.map Prod.fst) _ >>= _) (expect (vm id).entries.head? _ >>= _)
        cases he : (vm id).entries.head? with
        | none => rfl
        | some p =>
          obtain ⟨c, m⟩ := p
          have hg := get_head he
          have ha := h.mem.allowed id c m hg
          have hi : inner (vm id) c = m := by unfold inner; rw [hg]; rfl
          have hgc := Cells.get_of ((vm id).mapV (fun c m => (⟨join id c, m.len⟩ : Handle))) c
          rw [UMap.len_mapV, UMap.get_mapV, hg] at hgc
          show Sim _ ((Cells.of _).get _ c >>= _) (expect m.entries.head? _ >>= _)
          rw [hgc]
          show Sim _ ((S.mem.vv (join id c)).keyAt m.len 0 >>= _) _
          have hvv := h.mem.vv id c ha
          rw [hi] at hvv
          rw [hvv, Cells.keyAt_of, keys_head]
          show Sim _ (expect (m.entries.head?.map Prod.fst) _ >>= _) _
          cases hm : m.entries.head? with
          | none => rfl
          | some q =>
            obtain ⟨o, k⟩ := q
            have hq := get_head hm
            show Sim _ (S.mem.voteIn ⟨join id c, m.len⟩ o >>= _) _
            have hvi := h.mem.voteIn ha o
            rw [hi, hq] at hvi
            rw [hvi]
            show Sim _ (S.internal_remove_voting_position id voter.bare (vm id).len c o >>= _)
              (s.internal_remove_voting_position voter c o >>= _)
            rw [hv]
            refine Sim.bind (sim_remove hj h ha hv o) ?_
            rintro ⟨S1, v1, l1⟩ ⟨s1, v1'⟩ ⟨h1, h2, h3, h4⟩
            simp only at h1 h2 h3 h4 ⊢
            subst h2; subst h3
            refine Sim.same _ fun used' _ => ?_
            refine Sim.mono (sim_trim hj fuel used' h1 (upd_self _ _ _)) ?_
            rintro ⟨S2, v2, l2, u2⟩ ⟨s2, v2', u2'⟩ ⟨⟨g1, g2, g3, g4⟩, g5⟩
            refine ⟨⟨?_, g2, g3, ?_⟩, g5⟩
            · have : upd (upd vm id v1'.vote_positions) id v2'.vote_positions = upd vm id v2'.vote_positions := by
                funext i; unfold upd; split <;> rfl
              simp only [this] at g1
              exact g1
            · rw [h4] at g4; exact g4
    · rw [if_neg hu, if_neg hu]
      refine Sim.pure ⟨⟨?_, rfl, rfl, rfl⟩, rfl⟩
      have : upd vm id voter.vote_positions = vm := by
        funext i; unfold upd; split
        · rename_i e; rw [e, hv]
        · rfl
      simp only [this]
      exact h

theorem mapM_congr' {α β γ : Type} {f : α → Res γ} {g : β → Res γ} {l : List α} (t : α → β)
    (h : ∀ a ∈ l, f a = g (t a)) : l.mapM f = (l.map t).mapM g := by
  induction l with
  | nil => rfl
  | cons a l ih =>
    rw [List.map_cons, List.mapM_cons, List.mapM_cons, h a (by simp), ih (fun b hb => h b (by simp [hb]))]

theorem Stores.usedVotes {tot : VMap} {M : Mem} (h : Stores A vm tot M) {id : String} {voter : Voter}
    (hv : vm id = voter.vote_positions) : M.usedVotes id voter.vote_positions.len = voter.sum_used_votes := by
  unfold Mem.usedVotes Voter.sum_used_votes
  have hk := Cells.values_of ((vm id).mapV (fun c m => (⟨join id c, m.len⟩ : Handle)))
  rw [UMap.len_mapV, UMap.values_mapV] at hk
  rw [← hv, h.vp id, hk]
  simp only [bind, Except.bind]
  rw [← mapM_congr' (f := fun p : String × UMap String Nat => sumU128 p.2.values)]
  · rw [mapM_congr' (f := fun p : String × UMap String Nat => sumU128 p.2.values) (g := fun m => sumU128 m.values) Prod.snd
      (fun _ _ => rfl)]
    rfl
  · rintro ⟨c, m⟩ hp
    have hg := (UMap.get_eq_some_iff (m := vm id)).2 hp
    have hvv := h.vv id c (h.allowed id c m hg)
    have hi : inner (vm id) c = m := by unfold inner; rw [hg]; rfl
    simp only
    rw [hvv, hi, Cells.values_of]

theorem Stores.entryCount {tot : VMap} (h : Stores A vm tot S.mem) {id : String} {voter : Voter}
    (hv : vm id = voter.vote_positions) :
    S.entryCount id voter.vote_positions.len = .ok (voter.vote_positions.values.map (·.len)).sum := by
  unfold SState.entryCount
  have hk := Cells.values_of ((vm id).mapV (fun c m => (⟨join id c, m.len⟩ : Handle)))
  rw [UMap.len_mapV, UMap.values_mapV] at hk
  rw [← hv, h.vp id, hk]
  simp [UMap.values, bind, Except.bind, pure, Except.pure, Function.comp_def]

theorem sim_mirror_steps (s : State) (v : Voter) (l : List (Nat × Nat)) :
    Sim (fun a b => a = bare2 b ∧ b.1.votes = s.votes ∧ b.1.voters = s.voters ∧ b.2.vote_positions = v.vote_positions)
      (l.foldlM State.mirror_step (s.bare, v.bare)) (l.foldlM State.mirror_step (s, v)) := by
  have := foldlM_map bare2 State.mirror_step State.mirror_step (fun b a => create_bare b.1 b.2 a.2 a.1) l (s, v)
  rw [show (s.bare, v.bare) = bare2 (s, v) from rfl, this]
  cases hx : l.foldlM State.mirror_step (s, v) with
  | error e => rfl
  | ok r =>
    refine ⟨rfl, ?_⟩
    refine foldlM_inv (fun b : State × Voter => b.1.votes = s.votes ∧ b.1.voters = s.voters ∧
      b.2.vote_positions = v.vote_positions) ?_ l _ r ⟨rfl, rfl, rfl⟩ hx
    rintro ⟨sa, va⟩ lp ⟨sb, vb⟩ ha hs
    obtain ⟨vp, -, -, hlt, -, -, rfl, rfl⟩ := create_locking_ok hs
    exact ha

theorem sim_mirror (hj : Joins A) (h : Repr A S s) (x : Ctx) (e : String) (l : List (Nat × Nat)) :
    Sim (Repr A) (S.operator_mirror_lps x e l) (s.operator_mirror_lps x e l) := by
  unfold SState.operator_mirror_lps State.operator_mirror_lps
  rw [show S.st.assert_operator x = s.assert_operator x by rw [h.st]; rfl]
  refine Sim.same _ fun _ _ => ?_
  simp only [internal_get_voter_eq, vlen_eq h]
  rw [show S.st.voterD (pseudo_near_address e) = (s.voterD (pseudo_near_address e)).bare by
    rw [h.st, ← internal_get_voter_eq, ← internal_get_voter_eq]; exact get_voter_bare _ _]
  generalize hid : pseudo_near_address e = id
  rw [h.mem.usedVotes (id := id) (voter := s.voterD id) rfl]
  refine Sim.same _ fun used _ => ?_
  refine Sim.same (addU128 (s.voterD id).available_voting_power used) fun prev _ => ?_
  refine Sim.same _ fun vps _ => ?_
  refine Sim.same _ fun nvp _ => ?_
  rw [h.mem.entryCount (id := id) (voter := s.voterD id) rfl]
  show Sim _ (SState.mirror_remove_votes id nvp _ S _ _ used >>= _) _
  refine Sim.bind (sim_trim hj _ used h rfl) ?_
  rintro ⟨S1, v1, l1, u1⟩ ⟨s1, v1', u1'⟩ ⟨⟨h1, h2, h3, h4⟩, h5⟩
  simp only at h1 h2 h3 h4 h5 ⊢
  subst h2 h3 h5
  rw [h1.st]
  refine Sim.bind (sim_mirror_steps s1 { v1' with locking_positions := [], available_voting_power := 0 } l) ?_
  rintro ⟨sa, va⟩ ⟨s2, v2⟩ ⟨h6, h7, h8, h9⟩
  cases h6
  simp only at h7 h8 h9 ⊢
  refine Sim.same (subU v2.available_voting_power u1) fun avp _ => ?_
  refine Sim.same (subU s2.total_voting_power prev) fun total _ => ?_
  refine Sim.pure ?_
  have hrel : Rel A (upd (fun v => (s.voterD v).vote_positions) id v2.vote_positions)
      { S1 with st := ({ s2 with total_voting_power := total } : State).bare } { s2 with total_voting_power := total } := by
    refine ⟨rfl, ?_, ?_⟩
    · show S1.vlen = _
      rw [h1.vlen]
      funext i
      unfold State.voterD
      simp only [h8]
    · rw [h9]
      show Stores A _ s2.votes S1.mem
      rw [h7]
      exact h1.mem
  have hsave := Rel.save (v := { v2 with available_voting_power := avp }) hrel (fun i _ => by
    simp only [State.voterD, h8]
    rw [h4])
  rw [← h9]
  exact hsave

/-- A voter without power has no votes, if no recorded vote is zero. -/
theorem votes_empty {v : Voter} {n : Nat} (hok : VoterOK n v) (hp : vpos v.vote_positions) (hl : v.lockedVp = 0) :
    v.vote_positions = UMap.empty := by
  apply UMap.eq_empty_of_isEmpty
  rw [UMap.isEmpty_iff_get]
  intro c
  cases hc : v.vote_positions.get c with
  | none => rfl
  | some m =>
    exfalso
    have hu : v.used = 0 := by have := hok.power; unfold Voter.power at this; omega
    have h1 : m.sum (fun _ n => n) ≤ v.used :=
      UMap.le_sum_of_get (f := fun _ (x : UMap String Nat) => x.sum (fun _ n => n)) hc
    have h2 := hok.clean c m hc
    have : m.isEmpty = true := by
      rw [UMap.isEmpty_iff_get]
      intro o
      cases ho : m.get o with
      | none => rfl
      | some k =>
        have h3 : k ≤ m.sum (fun _ n => n) := UMap.le_sum_of_get (f := fun _ (n : Nat) => n) ho
        have := hp c m hc o k ho
        omega
    rw [this] at h2
    cases h2

/-- A call that does not vote keeps the votes of every account that is still there. -/
theorem exec_keeps {J : Json} {s s' : State} {c : Ctx} {k : Call} {out : List Transfer} (hk : k.votes = false)
    (hx : exec J s c k = .ok (s', out)) (id : String) :
    (s'.voterD id).vote_positions = (s.voterD id).vote_positions ∨
    (((∃ l n, k = .withdraw l n) ∨ k = .withdraw_all) ∧ id = c.predecessor ∧ (s.voterD id).lockedVp = 0 ∧
      s'.voters.get id = none) := by
  have hw : ∀ l am t, s.internal_withdraw c c.predecessor l am = .ok (s', t) →
      (s'.voterD c.predecessor).vote_positions = (s.voterD c.predecessor).vote_positions ∨
      s'.voters.get c.predecessor = none := by
    intro l am t h
    obtain ⟨v, v2, hv, rfl, hc, -, -, -, rfl, h1, h2, hs⟩ := internal_withdraw_ok h
    split at hs
    · right; rw [hs]; exact UMap.get_remove_self _ _
    · left; rw [hs]; simp only [State.voterD, UMap.get_insert_self, Option.getD_some]; exact hc.votes
  have hv := exec_votes hx id
  generalize hm : (s'.voterD id).vote_positions = m' at hv
  cases hv with
  | same k => exact .inl rfl
  | gone k hk' hid hl =>
    obtain ⟨-, -, -, hr⟩ := exec_ok.1 hx
    have : (s'.voterD id).vote_positions = (s.voterD id).vote_positions ∨ s'.voters.get id = none := by
      subst hid
      rcases hk' with ⟨l, n, rfl⟩ | rfl
      · simp only [run, sends_ok] at hr
        obtain ⟨t, ht, -⟩ := hr
        exact hw _ _ _ ht
      · simp only [run, sends_ok] at hr
        obtain ⟨t, ht, -⟩ := hr
        obtain ⟨v, -, ht⟩ := withdraw_all_ok ht
        exact hw _ _ _ ht
    rcases this with h | h
    · left; rw [← hm, h]
    · exact .inr ⟨hk', hid, hl, h⟩
  | vote k n a o hk' =>
    rcases hk' with ⟨rfl, -⟩ | ⟨e, rfl, -⟩ <;> simp [Call.votes] at hk
  | unvote k a o hk' =>
    rcases hk' with ⟨rfl | rfl, -⟩ | ⟨e, rfl, -⟩ <;> simp [Call.votes] at hk
  | rebalance n a o => simp [Call.votes] at hk
  | mirror e l m => simp [Call.votes] at hk

/-- An account that has votes does not disappear with its last withdrawal (`S` before the call, `S'` after). -/
def Keeps (S S' : SState) (x : Ctx) : Call → Prop
  | .withdraw _ _ | .withdraw_all => S.vlen x.predecessor ≠ 0 → (S'.st.voters.get x.predecessor).isSome = true
  | _ => True

theorem sim_other (h : Repr A S s) {J : Json} {x : Ctx}
    {k : Call} (hk : k.votes = false) (hx : ∀ r, run J s x k = .ok r → exec J s x k = .ok r) :
    Sim (fun a b => a.1.st = b.1.bare ∧ (Keeps S a.1 x k → Repr A a.1 b.1) ∧ a.2 = b.2) (S.other J x k) (run J s x k) := by
  unfold SState.other
  rw [h.st, run_bare J s x k hk]
  cases hr : run J s x k with
  | error e => rfl
  | ok r =>
    obtain ⟨s', out⟩ := r
    have he := hx _ hr
    refine ⟨rfl, fun hkeep => ?_, rfl⟩
    have hmaps : ∀ id, (s'.voterD id).vote_positions = (s.voterD id).vote_positions := by
      intro id
      rcases exec_keeps hk he id with h1 | ⟨hk', hid, -, hg⟩
      · exact h1
      · have hv : S.vlen x.predecessor = 0 := by
          by_contra hne
          have hq : (s'.bare.voters.get x.predecessor).isSome = true := by
            rcases hk' with ⟨l, n, rfl⟩ | rfl <;> exact hkeep hne
          rw [show s'.bare.voters = s'.voters.mapV (fun _ v => v.bare) from rfl, UMap.get_mapV, ← hid, hg] at hq
          cases hq
        rw [← hid, vlen_eq h id] at hv
        have he : (s.voterD id).vote_positions = UMap.empty := UMap.eq_empty_of_isEmpty (by
          simpa [UMap.isEmpty, UMap.len] using hv)
        rw [he]
        unfold State.voterD
        rw [hg]; rfl
    refine ⟨rfl, ?_, ?_⟩
    · funext id
      simp only [hmaps id, ← vlen_eq h id]
      show (if ((s'.voters.mapV _).get id).isSome then _ else _) = _
      rw [UMap.get_mapV]
      cases hg : s'.voters.get id with
      | some v => rfl
      | none =>
        rw [vlen_eq h id, ← hmaps id]
        unfold State.voterD
        rw [hg]; rfl
    · simp only [hmaps]
      rw [exec_totals he hk]
      exact h.mem

/-- The pairs of voter and app of a voting call are among those in `A`. -/
def Allowed (A : String → String → Prop) (x : Ctx) : Call → Prop
  | .vote _ a _ | .rebalance _ a _ | .unvote a _ => A x.predecessor a
  | .vote_delegated e _ a _ | .unvote_delegated e a _ => A (pseudo_near_address e) a
  | _ => True

/-- The calls for which storage makes no difference: the pairs of voter and app are among those in `A`, and an account that
has votes does not withdraw the last of its funds. -/
def Careful (A : String → String → Prop) (S S' : SState) (x : Ctx) (k : Call) : Prop := Allowed A x k ∧ Keeps S S' x k

theorem sim_quiet {P : SState → Prop} {a : Res SState} {b : Res State} (h : Sim (Repr A) a b) :
    Sim (fun a b => a.1.st = b.1.bare ∧ (P a.1 → Repr A a.1 b.1) ∧ a.2 = b.2) (SState.quiet a) (MetaVote.quiet b) :=
  Sim.bind h fun _ _ h => Sim.pure ⟨h.st, fun _ => h, rfl⟩

theorem sim_delegate (h : Repr A S s) (x : Ctx) (e : String) {f : String → Res SState} {g : String → Res State}
    (hf : Sim (Repr A) (f (pseudo_near_address e)) (g (pseudo_near_address e))) :
    Sim (Repr A) (S.st.verify_delegate x e >>= f) (s.verify_delegate x e >>= g) := by
  rw [show S.st.verify_delegate x e = s.verify_delegate x e by rw [h.st]; rfl]
  refine Sim.same _ fun p hp => ?_
  obtain ⟨-, rfl⟩ := verify_delegate_ok hp
  exact hf

/-- An allowed call does the same over storage; a careful one leaves the same state. -/
theorem sim_exec (hj : Joins A) (h : Repr A S s) (J : Json) {x : Ctx} {k : Call} (hk : Allowed A x k) :
    Sim (fun a b => a.1.st = b.1.bare ∧ (Keeps S a.1 x k → Repr A a.1 b.1) ∧ a.2 = b.2) (sexec J S x k) (exec J s x k) := by
  have hx : (k.payable = true ∨ x.deposit = 0) → (k.is_private = true → x.predecessor = x.current) → k.in_range = true →
      ∀ r, run J s x k = .ok r → exec J s x k = .ok r := by
    intro h1 h2 h3 r hr
    exact exec_ok.2 ⟨h1, h2, h3, hr⟩
  unfold sexec
  rw [show exec J s x k = (require (k.payable = true ∨ x.deposit = 0) "Method doesn't accept deposit" >>= fun _ =>
    require (k.is_private = true → x.predecessor = x.current) "Method is private" >>= fun _ =>
    require (k.in_range = true) "Failed to deserialize input from JSON." >>= fun _ => run J s x k) from rfl]
  refine Sim.same _ fun _ h1 => ?_
  refine Sim.same _ fun _ h2 => ?_
  refine Sim.same _ fun _ h3 => ?_
  rw [require_ok_iff] at h1 h2 h3
  have ho : k.votes = false → Sim (fun a b => a.1.st = b.1.bare ∧ (Keeps S a.1 x k → Repr A a.1 b.1) ∧ a.2 = b.2) (S.other J x k)
      (run J s x k) := fun hv => sim_other h hv (hx h1 h2 h3)
  have hq : ∀ {a : Res SState} {b : Res State}, Sim (Repr A) a b →
      Sim (fun a b => a.1.st = b.1.bare ∧ (Keeps S a.1 x k → Repr A a.1 b.1) ∧ a.2 = b.2) (SState.quiet a) (MetaVote.quiet b) :=
    fun h => sim_quiet (P := fun a => Keeps S a x k) h
  cases k
  case vote n a o => exact hq (sim_vote hj h hk n o)
  case rebalance n a o => exact hq (sim_rebalance hj h x hk n o)
  case unvote a o => exact hq (sim_unvote hj h hk x o)
  case operator_mirror_lps e l => exact hq (sim_mirror hj h x e l)
  case vote_delegated e n a o =>
    exact hq (sim_delegate h x e (f := fun p => S.internal_vote p n a o)
      (g := fun p => s.internal_vote p n a o) (sim_vote hj h hk n o))
  case unvote_delegated e a o =>
    exact hq (sim_delegate h x e (f := fun p => S.internal_unvote x p a o)
      (g := fun p => s.internal_unvote x p a o) (sim_unvote hj h hk x o))
  all_goals exact ho rfl

end Verif.Storage
