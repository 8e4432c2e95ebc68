import Verif.MetaVote.Inv

/-!
# Invariants: migration, mirroring, deposits, and the induction over executions
-/

namespace Verif.MetaVote

open Verif

/-! ## Migration -/

theorem migration_fold_vinv {id : String} {l : List (Nat × Nat)} {s : State} {r : State × Voter}
    (h : VInv s) (hx : l.foldlM (State.migration_step id) (s, s.voterD id) = .ok r) :
    VInv r.1 ∧ r.2 = r.1.voterD id := by
  refine foldlM_inv (fun sv : State × Voter => VInv sv.1 ∧ sv.2 = sv.1.voterD id) ?_ l _ r ⟨h, rfl⟩ hx
  rintro ⟨s1, v1⟩ lp ⟨s2, v2⟩ ⟨h1, hv1⟩ hd
  simp only at h1 hv1
  subst hv1
  refine ⟨h1.deposit hd rfl rfl rfl (h1.voterOK id).count, ?_⟩
  obtain ⟨vp, ps, -, -, -, -, -, -, rfl⟩ := deposit_ok hd
  simp [State.voterD]

theorem migration_vinv {s s' : State} {c : Ctx} {id : String} {l : List (Nat × Nat)} {d : Option String}
    (h : VInv s) (hx : s.migration_create_lps c id l d = .ok s') : VInv s' := by
  simp only [State.migration_create_lps, bind_ok_iff, require_ok_iff] at hx
  obtain ⟨-, -, r, hr, hx⟩ := hx
  have h1 := (migration_fold_vinv h hr).1
  cases d with
  | none => simp only [pure_ok_iff] at hx; exact hx ▸ h1
  | some d =>
    simp only at hx
    split at hx <;> simp only [pure_ok_iff] at hx <;> subst hx
    · exact h1.congr rfl rfl rfl rfl
    · exact h1

/-! ## Mirroring -/

/-- Relation between the start of the mirroring and a point of its first loop. -/
structure MirrorRel (s0 : State) (v0 : Voter) (s : State) (v : Voter) : Prop where
  state : s = { s0 with votes := s.votes }
  votes : ∀ c o, s.totalVotes c o + v0.votesOf c o = s0.totalVotes c o + v.votesOf c o
  clean : vclean s.votes
  cleanV : vclean v.vote_positions
  power : v.power = v0.power
  balance : v.balance = v0.balance
  lps : v.locking_positions = v0.locking_positions

theorem MirrorRel.remove {s0 s s' : State} {v0 v v' : Voter} {c o : String} (h : MirrorRel s0 v0 s v)
    (hx : s.internal_remove_voting_position v c o = .ok (s', v')) : MirrorRel s0 v0 s' v' := by
  obtain ⟨-, -, h1, rfl, rfl⟩ := remove_voting_ok hx
  have hu := vsum_vdel v.vote_positions c o
  have hp := h.power
  refine ⟨?_, ?_, decreased_clean h.clean _ _ _, vclean_vdel h.cleanV _ _, ?_, h.balance, h.lps⟩
  · rw [h.state]
  · intro c' o'
    have hv := h.votes c' o'
    show vget (if s.totalVotes c o - v.votesOf c o = 0 then vdel s.votes c o
        else vset s.votes c o (s.totalVotes c o - v.votesOf c o)) c' o'
      + v0.votesOf c' o' = s0.totalVotes c' o' + vget (vdel v.vote_positions c o) c' o'
    rw [decreased_vget, vget_vdel]
    split
    · rename_i he; obtain ⟨rfl, rfl⟩ := he; omega
    · exact hv
  · simp only [Voter.power, Voter.used, Voter.votesOf] at *; omega

theorem head_get {V : Type} {m : UMap String V} {p : String × V} (h : m.entries.head? = some p) :
    m.get p.1 = some p.2 := by
  rw [UMap.get_eq_some_iff]
  exact List.mem_of_mem_head? (by simp [h])

theorem mirror_loop_rel {s0 : State} {v0 : Voter} {n : Nat} : ∀ (fuel : Nat) (s : State) (v : Voter)
    (used : Nat) (r : State × Voter × Nat), MirrorRel s0 v0 s v → used = v.used →
    State.mirror_remove_votes n fuel s v used = .ok r →
    MirrorRel s0 v0 r.1 r.2.1 ∧ r.2.2 = r.2.1.used ∧ r.2.2 ≤ n
  | fuel, s, v, used, r, h, hu, hx => by
    unfold State.mirror_remove_votes at hx
    split at hx
    · cases fuel with
      | zero => simp at hx
      | succ fuel =>
        simp only [bind_ok_iff, expect_ok_iff, subU_ok_iff] at hx
        obtain ⟨app, happ, obj, hobj, ⟨s1, v1⟩, hr, u, ⟨-, rfl⟩, hx⟩ := hx
        refine mirror_loop_rel fuel s1 v1 _ r (h.remove hr) ?_ hx
        obtain ⟨-, -, -, rfl, -⟩ := remove_voting_ok hr
        have h1 := head_get happ
        have h2 := head_get hobj
        have h3 : vget v.vote_positions app.1 obj.1 = obj.2 := by simp [vget, h1, h2]
        have := vsum_vdel v.vote_positions app.1 obj.1
        simp only [Voter.used] at *
        omega
    · simp only [pure_ok_iff] at hx
      subst hx
      exact ⟨h, hu, by simp only; omega⟩

/-- Relation along the second loop of the mirroring. -/
structure MirrorCreated (s1 : State) (v1 : Voter) (s : State) (v : Voter) (n : Nat) : Prop where
  state : s = { s1 with total_voting_power := s1.total_voting_power + n }
  avail : v.available_voting_power = n
  locked : v.lockedVp = n
  votes : v.vote_positions = v1.vote_positions
  balance : v.balance = v1.balance
  count : v.locking_positions.length ≤ s1.max_locking_positions

theorem mirror_create_rel {s1 : State} {v1 : Voter} (h8 : s1.max_locking_positions ≤ U8_MAX)
    {l : List (Nat × Nat)} {r : State × Voter}
    (hx : l.foldlM State.mirror_step
      (s1, { v1 with locking_positions := [], available_voting_power := 0 }) = .ok r) :
    ∃ n, MirrorCreated s1 v1 r.1 r.2 n := by
  refine foldlM_inv (fun sv : State × Voter => ∃ n, MirrorCreated s1 v1 sv.1 sv.2 n) ?_ l _ r
    ⟨0, ⟨rfl, rfl, rfl, rfl, rfl, by simp⟩⟩ hx
  rintro ⟨s, v⟩ lp ⟨s', v'⟩ ⟨n, hn⟩ hs
  obtain ⟨vp, -, -, hlt, -, -, rfl, rfl⟩ := create_locking_ok hs
  obtain ⟨hst, ha, hl, hv, hb, hc⟩ := hn
  simp only at hst ha hl hv hb hc
  subst hst
  refine ⟨n + vp, ⟨?_, ?_, ?_, hv, hb, ?_⟩⟩
  · simp only [Nat.add_assoc]
  · simp only [ha]
  · simp only [Voter.lockedVp, posSum_append, posSum_single, if_true] at *
    omega
  · simp only [U8_MAX] at h8
    simp only [List.length_append, List.length_singleton] at *
    omega

theorem mirror_vinv {s s' : State} {c : Ctx} {e : String} {l : List (Nat × Nat)} (h : VInv s)
    (hx : s.operator_mirror_lps c e l = .ok s') : VInv s' := by
  simp only [State.operator_mirror_lps, bind_ok_iff, addU128_ok_iff, subU_ok_iff, pure_ok_iff,
    internal_get_voter_eq] at hx
  obtain ⟨-, -, u, hu, prev, ⟨-, rfl⟩, vps, -, nvp, -, ⟨s1, v1, u1⟩, hloop, ⟨s2, v2⟩, hcr, av,
    ⟨hav, rfl⟩, tot, ⟨htot, rfl⟩, rfl⟩ := hx
  have hu' := sum_used_votes_ok hu
  have hk := h.voterOK (pseudo_near_address e)
  have hrel : MirrorRel s (s.voterD (pseudo_near_address e)) s (s.voterD (pseudo_near_address e)) :=
    ⟨rfl, fun _ _ => rfl, h.clean, hk.clean, rfl, rfl, rfl⟩
  obtain ⟨hr, hru, -⟩ := mirror_loop_rel _ _ _ _ _ hrel hu' hloop
  simp only at hr hru hcr hav htot
  have h8 : s1.max_locking_positions ≤ U8_MAX := by rw [hr.state]; exact h.max8
  obtain ⟨n, hc⟩ := mirror_create_rel h8 hcr
  obtain ⟨hst, ha, hl, hv, hb, hcnt⟩ := hc
  simp only at hst ha hl hv hb hcnt
  have hs1 := hr.state
  have hvoters : s2.voters = s.voters := by rw [hst, hs1]
  have hmax : s2.max_locking_positions = s.max_locking_positions := by rw [hst, hs1]
  have hvotes : s2.votes = s1.votes := by rw [hst]
  have htotal : s2.total_voting_power = s.total_voting_power + n := by rw [hst, hs1]
  have hused : v2.used = u1 := by rw [hru]; simp only [Voter.used, hv]
  refine h.update (pseudo_near_address e) { v2 with available_voting_power :=
    v2.available_voting_power - u1 } (by simp only [hvoters]) ⟨?_, ?_, ?_⟩ ?_ ?_ ?_ hmax
  · simp only [Voter.power, Voter.used, Voter.lockedVp] at *; omega
  · simp only [hv]; exact hr.cleanV
  · have : s1.max_locking_positions = s.max_locking_positions := by rw [hs1]
    simp only; omega
  · simp only [Voter.power, Voter.used] at *; omega
  · intro c' o'
    have := hr.votes c' o'
    simp only [State.totalVotes, Voter.votesOf, hvotes, hv] at *
    exact this
  · simp only [hvotes]; exact hr.clean

/-! ## Deposits and claims -/

/-- Adding a claim touches only the claims. -/
theorem add_claimable_mpdao_ok {s s' : State} {id : String} {n : Nat}
    (h : s.add_claimable_mpdao id n = .ok s') : 0 < n ∧ s.total_unclaimed_mpdao + n ≤ U128_MAX ∧
      s' = { s with
        claimable_mpdao := s.claimable_mpdao.insert id ((s.claimable_mpdao.get id).getD 0 + n)
        total_unclaimed_mpdao := s.total_unclaimed_mpdao + n } := by
  simp only [State.add_claimable_mpdao, bind_ok_iff, require_ok_iff, pure_ok_iff] at h
  obtain ⟨-, hp, ⟨m, t⟩, hr, rfl⟩ := h
  obtain ⟨-, h2, rfl, rfl⟩ := add_claimable_ok hr
  exact ⟨hp, h2, rfl⟩

theorem add_claimable_stnear_ok {s s' : State} {id : String} {n : Nat}
    (h : s.add_claimable_stnear id n = .ok s') : 0 < n ∧ s.total_unclaimed_stnear + n ≤ U128_MAX ∧
      s' = { s with
        claimable_stnear := s.claimable_stnear.insert id ((s.claimable_stnear.get id).getD 0 + n)
        total_unclaimed_stnear := s.total_unclaimed_stnear + n } := by
  simp only [State.add_claimable_stnear, bind_ok_iff, require_ok_iff, pure_ok_iff] at h
  obtain ⟨-, hp, ⟨m, t⟩, hr, rfl⟩ := h
  obtain ⟨-, h2, rfl, rfl⟩ := add_claimable_ok hr
  exact ⟨hp, h2, rfl⟩

/-- The claims map after taking `n` from `id`. -/
def take (m : UMap String Nat) (id : String) (n : Nat) : UMap String Nat :=
  if (m.get id).getD 0 - n = 0 then m.remove id else m.insert id ((m.get id).getD 0 - n)

theorem take_sum {m : UMap String Nat} {id : String} {n : Nat} (h : n ≤ (m.get id).getD 0) :
    (take m id n).sum (fun _ x => x) + n = m.sum (fun _ x => x) := by
  unfold take
  split
  · have := claims_sum_remove m id; omega
  · have := claims_sum_insert m id ((m.get id).getD 0 - n); omega

theorem take_pos {m : UMap String Nat} (hm : ∀ id x, m.get id = some x → 0 < x) (id : String) (n : Nat) :
    ∀ i x, (take m id n).get i = some x → 0 < x := by
  intro i x hx
  unfold take at hx
  split at hx
  · rw [UMap.get_remove] at hx
    split at hx
    · simp at hx
    · exact hm i x hx
  · rw [UMap.get_insert] at hx
    split at hx
    · cases hx; omega
    · exact hm i x hx

theorem take_get (m : UMap String Nat) (id i : String) (n : Nat) :
    ((take m id n).get i).getD 0 = if i = id then (m.get id).getD 0 - n else (m.get i).getD 0 := by
  unfold take
  split
  · rename_i h0
    rw [UMap.get_remove]
    by_cases hi : id = i
    · subst hi; simp [h0]
    · simp [hi, Ne.symm hi]
  · rw [UMap.get_insert]
    by_cases hi : id = i
    · subst hi; simp
    · simp [hi, Ne.symm hi]

theorem remove_claimable_mpdao_ok {s s' : State} {id : String} {n : Nat}
    (h : s.remove_claimable_mpdao id n = .ok s') :
    n ≤ (s.claimable_mpdao.get id).getD 0 ∧ n ≤ s.total_unclaimed_mpdao ∧
      s' = { s with
        claimable_mpdao := take s.claimable_mpdao id n
        total_unclaimed_mpdao := s.total_unclaimed_mpdao - n } := by
  simp only [State.remove_claimable_mpdao, bind_ok_iff, pure_ok_iff] at h
  obtain ⟨⟨m, t⟩, hr, rfl⟩ := h
  obtain ⟨h1, h2, rfl, rfl⟩ := remove_claimable_ok hr
  exact ⟨h1, h2, rfl⟩

theorem remove_claimable_stnear_ok {s s' : State} {id : String} {n : Nat}
    (h : s.remove_claimable_stnear id n = .ok s') :
    n ≤ (s.claimable_stnear.get id).getD 0 ∧ n ≤ s.total_unclaimed_stnear ∧
      s' = { s with
        claimable_stnear := take s.claimable_stnear id n
        total_unclaimed_stnear := s.total_unclaimed_stnear - n } := by
  simp only [State.remove_claimable_stnear, bind_ok_iff, pure_ok_iff] at h
  obtain ⟨⟨m, t⟩, hr, rfl⟩ := h
  obtain ⟨h1, h2, rfl, rfl⟩ := remove_claimable_ok hr
  exact ⟨h1, h2, rfl⟩

/-- The part of the state a distribution does not touch. -/
structure DistFrame (s s' : State) : Prop where
  state : s' = { s with
    claimable_mpdao := s'.claimable_mpdao
    total_unclaimed_mpdao := s'.total_unclaimed_mpdao
    accumulated_mpdao_distributed_for_claims := s'.accumulated_mpdao_distributed_for_claims
    claimable_stnear := s'.claimable_stnear
    total_unclaimed_stnear := s'.total_unclaimed_stnear
    accum_distributed_stnear_for_claims := s'.accum_distributed_stnear_for_claims }

theorem CInv.add_mpdao {s s' : State} (h : CInv s) {id : String} {n : Nat}
    (hx : s.add_claimable_mpdao id n = .ok s') : CInv s' := by
  obtain ⟨hp, -, rfl⟩ := add_claimable_mpdao_ok hx
  refine ⟨?_, h.stnear, ?_, h.stnear_pos⟩
  · have := claims_sum_insert s.claimable_mpdao id ((s.claimable_mpdao.get id).getD 0 + n)
    have := h.mpdao
    simp only; omega
  · intro i x hx
    simp only [UMap.get_insert] at hx
    split at hx
    · cases hx; omega
    · exact h.mpdao_pos i x hx

theorem CInv.add_stnear {s s' : State} (h : CInv s) {id : String} {n : Nat}
    (hx : s.add_claimable_stnear id n = .ok s') : CInv s' := by
  obtain ⟨hp, -, rfl⟩ := add_claimable_stnear_ok hx
  refine ⟨h.mpdao, ?_, h.mpdao_pos, ?_⟩
  · have := claims_sum_insert s.claimable_stnear id ((s.claimable_stnear.get id).getD 0 + n)
    have := h.stnear
    simp only; omega
  · intro i x hx
    simp only [UMap.get_insert] at hx
    split at hx
    · cases hx; omega
    · exact h.stnear_pos i x hx

theorem CInv.remove_mpdao {s s' : State} (h : CInv s) {id : String} {n : Nat}
    (hx : s.remove_claimable_mpdao id n = .ok s') : CInv s' := by
  obtain ⟨h1, h2, rfl⟩ := remove_claimable_mpdao_ok hx
  refine ⟨?_, h.stnear, take_pos h.mpdao_pos id n, h.stnear_pos⟩
  have := take_sum h1
  have := h.mpdao
  simp only; omega

theorem CInv.remove_stnear {s s' : State} (h : CInv s) {id : String} {n : Nat}
    (hx : s.remove_claimable_stnear id n = .ok s') : CInv s' := by
  obtain ⟨h1, h2, rfl⟩ := remove_claimable_stnear_ok hx
  refine ⟨h.mpdao, ?_, h.mpdao_pos, take_pos h.stnear_pos id n⟩
  have := take_sum h1
  have := h.stnear
  simp only; omega

/-- Effect of a distribution: claims grow by exactly the amount, nothing else but claims changes. -/
structure Distributed (s s' : State) (dm dst : Nat) : Prop where
  frame : DistFrame s s'
  mpdao : s'.total_unclaimed_mpdao = s.total_unclaimed_mpdao + dm
  stnear : s'.total_unclaimed_stnear = s.total_unclaimed_stnear + dst
  cinv : CInv s → CInv s'

theorem dist_mpdao_fold {l : List (String × Nat)} {s : State} {r : State × Nat}
    (hx : l.foldlM State.distribute_mpdao_step (s, 0) = .ok r) :
    Distributed s r.1 r.2 0 ∧ r.1.accumulated_mpdao_distributed_for_claims
      = s.accumulated_mpdao_distributed_for_claims := by
  refine foldlM_inv (fun a : State × Nat => Distributed s a.1 a.2 0 ∧
    a.1.accumulated_mpdao_distributed_for_claims = s.accumulated_mpdao_distributed_for_claims)
    ?_ l _ r ⟨⟨⟨rfl⟩, rfl, rfl, id⟩, rfl⟩ hx
  rintro ⟨s1, t1⟩ it ⟨s2, t2⟩ ⟨⟨⟨hf⟩, hm, hst, hc⟩, hacc⟩ hs
  simp only [State.distribute_mpdao_step, bind_ok_iff, mulU128_ok_iff, addU128_ok_iff, pure_ok_iff,
    Prod.mk.injEq] at hs
  obtain ⟨a, ⟨-, rfl⟩, s3, ha, t, ⟨-, rfl⟩, rfl, rfl⟩ := hs
  have hc' := fun h => (hc h).add_mpdao ha
  obtain ⟨-, -, rfl⟩ := add_claimable_mpdao_ok ha
  simp only at hf hm hst hacc
  refine ⟨⟨⟨?_⟩, ?_, hst, hc'⟩, hacc⟩
  · rw [hf]
  · simp only; omega

theorem dist_stnear_fold {l : List (String × Nat)} {s : State} {r : State × Nat}
    (hx : l.foldlM State.distribute_stnear_step (s, 0) = .ok r) :
    Distributed s r.1 0 r.2 ∧ r.1.accum_distributed_stnear_for_claims
      = s.accum_distributed_stnear_for_claims := by
  refine foldlM_inv (fun a : State × Nat => Distributed s a.1 0 a.2 ∧
    a.1.accum_distributed_stnear_for_claims = s.accum_distributed_stnear_for_claims)
    ?_ l _ r ⟨⟨⟨rfl⟩, rfl, rfl, id⟩, rfl⟩ hx
  rintro ⟨s1, t1⟩ it ⟨s2, t2⟩ ⟨⟨⟨hf⟩, hm, hst, hc⟩, hacc⟩ hs
  simp only [State.distribute_stnear_step, bind_ok_iff, mulU128_ok_iff, addU128_ok_iff, pure_ok_iff,
    Prod.mk.injEq] at hs
  obtain ⟨a, ⟨-, rfl⟩, s3, ha, t, ⟨-, rfl⟩, rfl, rfl⟩ := hs
  have hc' := fun h => (hc h).add_stnear ha
  obtain ⟨-, -, rfl⟩ := add_claimable_stnear_ok ha
  simp only at hf hm hst hacc
  refine ⟨⟨⟨?_⟩, hm, ?_, hc'⟩, hacc⟩
  · rw [hf]
  · simp only; omega

theorem distribute_ok {s s' : State} {c : Ctx} {a : Nat} {l : List (String × Nat)}
    (hx : s.distribute_for_claims c a l = .ok s') :
    (c.predecessor = s.mpdao_token_contract_address ∧ Distributed s s' a 0) ∨
    (c.predecessor ≠ s.mpdao_token_contract_address ∧
      c.predecessor = s.stnear_token_contract_address ∧ Distributed s s' 0 a) := by
  simp only [State.distribute_for_claims, bind_ok_iff, require_ok_iff, pure_ok_iff] at hx
  obtain ⟨⟨s1, t1⟩, hr, -, hta, rfl⟩ := hx
  split at hr
  · rename_i hp
    simp only [bind_ok_iff, addU128_ok_iff, pure_ok_iff, Prod.mk.injEq] at hr
    obtain ⟨⟨s2, t2⟩, hf, acc, ⟨-, rfl⟩, rfl, rfl⟩ := hr
    simp only at hta
    subst hta
    obtain ⟨⟨⟨h1⟩, h2, h3, h4⟩, -⟩ := dist_mpdao_fold hf
    simp only at h1 h2 h3 h4
    refine .inl ⟨hp, ⟨⟨?_⟩, h2, h3, fun h => (h4 h).congr rfl rfl rfl rfl⟩⟩
    rw [h1]
  · rename_i hp
    split at hr
    · rename_i hp2
      simp only [bind_ok_iff, addU128_ok_iff, pure_ok_iff, Prod.mk.injEq] at hr
      obtain ⟨⟨s2, t2⟩, hf, acc, ⟨-, rfl⟩, rfl, rfl⟩ := hr
      simp only at hta
      subst hta
      obtain ⟨⟨⟨h1⟩, h2, h3, h4⟩, -⟩ := dist_stnear_fold hf
      simp only at h1 h2 h3 h4
      refine .inr ⟨hp, hp2, ⟨⟨?_⟩, h2, h3, fun h => (h4 h).congr rfl rfl rfl rfl⟩⟩
      rw [h1]
    · simp at hr

/-- An accepted `ft_on_transfer` is a distribution or a deposit. -/
theorem ft_on_transfer_ok {s s' : State} {J : Json} {c : Ctx} {sender : String} {a : Nat}
    {msg : List UInt8} (hx : s.ft_on_transfer J c sender a msg = .ok s') :
    (∃ info, has_prefix msg FOR_CLAIMS = .ok true ∧ J.parse_claims (msg.drop 11) = some info ∧
      s.distribute_for_claims c a info = .ok s') ∨
    (∃ t v', has_prefix msg FOR_CLAIMS = .ok false ∧
      c.predecessor = s.mpdao_token_contract_address ∧
      s.deposit_target J sender msg = .ok t ∧ s.min_deposit_amount ≤ a ∧
      s.deposit_locking_position a t.2 t.1 (s.voterD t.1) = .ok (s', v')) := by
  simp only [State.ft_on_transfer, bind_ok_iff] at hx
  obtain ⟨b, hb, hx⟩ := hx
  cases b with
  | true =>
    simp only [if_true, bind_ok_iff, expect_ok_iff] at hx
    obtain ⟨info, hi, hd⟩ := hx
    exact .inl ⟨info, hb, hi, hd⟩
  | false =>
    simp only [Bool.false_eq_true, if_false, bind_ok_iff, require_ok_iff, pure_ok_iff,
      State.assert_min_deposit_amount] at hx
    obtain ⟨-, hp, t, ht, -, hm, ⟨s1, v1⟩, hr, rfl⟩ := hx
    exact .inr ⟨t, v1, hb, hp, ht, hm, hr⟩

theorem Distributed.vinv {s s' : State} {a b : Nat} (hd : Distributed s s' a b) (h : VInv s) :
    VInv s' := by
  have hf := hd.frame.state
  exact h.congr (by rw [hf]) (by rw [hf]) (by rw [hf]) (by rw [hf])

theorem ft_on_transfer_vinv {s s' : State} {J : Json} {c : Ctx} {sender : String} {a : Nat}
    {msg : List UInt8} (h : VInv s) (hx : s.ft_on_transfer J c sender a msg = .ok s') : VInv s' := by
  rcases ft_on_transfer_ok hx with ⟨info, -, -, hd⟩ | ⟨t, v', -, -, -, -, hd⟩
  · rcases distribute_ok hd with ⟨-, hd⟩ | ⟨-, -, hd⟩ <;> exact hd.vinv h
  · exact h.deposit hd rfl rfl rfl (h.voterOK _).count

/-! ## All entry points -/

@[simp] theorem quiet_ok {r : Res State} {s' : State} {out : List Transfer} :
    quiet r = .ok (s', out) ↔ r = .ok s' ∧ out = [] := by
  simp only [quiet, bind_ok_iff, pure_ok_iff, Prod.mk.injEq]
  constructor
  · rintro ⟨a, h, rfl, rfl⟩; exact ⟨h, rfl⟩
  · rintro ⟨h, rfl⟩; exact ⟨_, h, rfl, rfl⟩

@[simp] theorem sends_ok {r : Res (State × Transfer)} {s' : State} {out : List Transfer} :
    sends r = .ok (s', out) ↔ ∃ t, r = .ok (s', t) ∧ out = [t] := by
  simp only [sends, bind_ok_iff, pure_ok_iff, Prod.mk.injEq]
  constructor
  · rintro ⟨⟨a, t⟩, h, rfl, rfl⟩; exact ⟨t, h, rfl⟩
  · rintro ⟨t, h, rfl⟩; exact ⟨_, h, rfl, rfl⟩

theorem exec_ok {J : Json} {s : State} {c : Ctx} {k : Call} {r : State × List Transfer} :
    exec J s c k = .ok r ↔ (k.payable = true ∨ c.deposit = 0) ∧
      (k.is_private = true → c.predecessor = c.current) ∧ k.in_range = true ∧ run J s c k = .ok r := by
  simp only [exec, bind_ok_iff, require_ok_iff]
  constructor
  · rintro ⟨_, h1, _, h2, _, h3, h4⟩; exact ⟨h1, h2, h3, h4⟩
  · rintro ⟨h1, h2, h3, h4⟩; exact ⟨(), h1, (), h2, (), h3, h4⟩

theorem withdraw_all_ok {s s' : State} {c : Ctx} {t : Transfer} (h : s.withdraw_all c = .ok (s', t)) :
    ∃ v, s.voters.get c.predecessor = some v ∧ s.internal_withdraw c c.predecessor
      (v.get_unlocked_position_indexes c.now) none = .ok (s', t) := by
  simp only [State.withdraw_all, bind_ok_iff] at h
  obtain ⟨v, hv, hx⟩ := h
  exact ⟨v, (get_voter_ok hv).1, hx⟩

theorem callback_mpdao_ok {s s' : State} {c : Ctx} {id : String} {a : Nat}
    (h : s.after_transfer_mpdao_callback c id a = .ok s') :
    (c.promise_results.head? = some true ∧ s' = s) ∨
    (c.promise_results.head? = some false ∧ s.restore_transfer_to_mpdao a id = .ok s') := by
  simp only [State.after_transfer_mpdao_callback, bind_ok_iff, expect_ok_iff] at h
  obtain ⟨b, hb, h⟩ := h
  cases b with
  | true => simp only [if_true, pure_ok_iff] at h; exact .inl ⟨hb, h.symm⟩
  | false => simp only [Bool.false_eq_true, if_false] at h; exact .inr ⟨hb, h⟩

theorem callback_stnear_ok {s s' : State} {c : Ctx} {id : String} {a : Nat}
    (h : s.after_transfer_stnear_callback c id a = .ok s') :
    (c.promise_results.head? = some true ∧ s' = s) ∨
    (c.promise_results.head? = some false ∧ s.add_claimable_stnear id a = .ok s') := by
  simp only [State.after_transfer_stnear_callback, bind_ok_iff, expect_ok_iff] at h
  obtain ⟨b, hb, h⟩ := h
  cases b with
  | true => simp only [if_true, pure_ok_iff] at h; exact .inl ⟨hb, h.symm⟩
  | false => simp only [Bool.false_eq_true, if_false] at h; exact .inr ⟨hb, h⟩

/-- Calls on delegations change only the three delegation maps. -/
theorem confirm_ok {s s' : State} {c : Ctx} {e : String}
    (h : s.operator_confirm_delegated_evm_address c e = .ok s') :
    s' = { s with
      evm_delegates := s'.evm_delegates
      evm_pre_delegation := s'.evm_pre_delegation
      evm_delegation_signatures := s'.evm_delegation_signatures } := by
  simp only [State.operator_confirm_delegated_evm_address, bind_ok_iff] at h
  obtain ⟨-, -, -, -, h⟩ := h
  split at h
  · simp only [pure_ok_iff] at h; subst h; rfl
  · split at h
    · split at h
      · simp only [pure_ok_iff] at h; subst h; rfl
      · simp only [State.drop_previous_delegate, bind_ok_iff, expect_ok_iff, pure_ok_iff] at h
        obtain ⟨s1, ⟨l, -, rfl⟩, rfl⟩ := h
        rfl
    · simp only [pure_ok_iff] at h; subst h; rfl

theorem verify_delegate_ok {s : State} {c : Ctx} {e p : String} (h : s.verify_delegate c e = .ok p) :
    e ∈ (s.evm_delegates.get c.predecessor).getD [] ∧ p = pseudo_near_address e := by
  simp only [State.verify_delegate, bind_ok_iff, require_ok_iff, pure_ok_iff] at h
  obtain ⟨-, h1, rfl⟩ := h
  exact ⟨h1, rfl⟩

theorem claim_stnear_ok {s s' : State} {c : Ctx} {a : Nat} {t : Transfer}
    (h : s.claim_stnear c a = .ok (s', t)) :
    s.remove_claimable_stnear c.predecessor a = .ok s' ∧
      t = ⟨s.stnear_token_contract_address, c.predecessor, a, .after_transfer_stnear c.predecessor a⟩ := by
  simp only [State.claim_stnear, bind_ok_iff, pure_ok_iff, Prod.mk.injEq] at h
  obtain ⟨s1, h1, rfl, rfl⟩ := h
  obtain ⟨-, -, h2⟩ := remove_claimable_stnear_ok h1
  exact ⟨h1, by rw [h2]; rfl⟩

theorem delegated_claim_ok {s s' : State} {c : Ctx} {e : String} {a : Nat} {t : Transfer}
    (h : s.delegated_claim_stnear c e a = .ok (s', t)) :
    e ∈ (s.evm_delegates.get c.predecessor).getD [] ∧
    s.remove_claimable_stnear (pseudo_near_address e) a = .ok s' ∧
      t = ⟨s.stnear_token_contract_address, c.predecessor, a,
        .after_transfer_stnear (pseudo_near_address e) a⟩ := by
  simp only [State.delegated_claim_stnear, bind_ok_iff, pure_ok_iff, Prod.mk.injEq] at h
  obtain ⟨p, hp, s1, h1, rfl, rfl⟩ := h
  obtain ⟨hp1, rfl⟩ := verify_delegate_ok hp
  obtain ⟨-, -, h2⟩ := remove_claimable_stnear_ok h1
  exact ⟨hp1, h1, by rw [h2]; rfl⟩

theorem remove_claimable_stnear_vinv {s s' : State} {id : String} {n : Nat} (h : VInv s)
    (hx : s.remove_claimable_stnear id n = .ok s') : VInv s' := by
  obtain ⟨-, -, rfl⟩ := remove_claimable_stnear_ok hx
  exact h.congr rfl rfl rfl rfl

/-- Every accepted call preserves the voting invariants. -/
theorem exec_vinv {J : Json} {s s' : State} {c : Ctx} {k : Call} {out : List Transfer} (h : VInv s)
    (hx : exec J s c k = .ok (s', out)) : VInv s' := by
  obtain ⟨-, -, -, hr⟩ := exec_ok.1 hx
  cases k <;> simp only [run, quiet_ok, sends_ok] at hr
  case new_ => simp [new] at hr
  case migrate => simp [migrate, expect, bind_ok_iff] at hr
  case claim_and_lock => exact claim_and_lock_vinv h hr.1
  case claim_stnear =>
    obtain ⟨t, ht, -⟩ := hr
    exact remove_claimable_stnear_vinv h (claim_stnear_ok ht).1
  case unlock_position => exact unlock_position_vinv h hr.1
  case unlock_partial_position => exact unlock_partial_vinv h hr.1
  case locking_position_extend_days => exact extend_vinv h hr.1
  case relock_position => exact relock_position_vinv h hr.1
  case relock_partial_position => exact relock_partial_vinv h hr.1
  case relock_from_balance => exact relock_from_balance_vinv h hr.1
  case clear_locking_position => exact clear_vinv h hr.1
  case vote => exact internal_vote_vinv h hr.1
  case rebalance => exact rebalance_vinv h hr.1
  case unvote => exact internal_unvote_vinv h hr.1
  case migration_create_lps => exact migration_vinv h hr.1
  case operator_mirror_lps => exact mirror_vinv h hr.1
  case withdraw => obtain ⟨t, ht, -⟩ := hr; exact internal_withdraw_vinv h ht
  case withdraw_all =>
    obtain ⟨t, ht, -⟩ := hr
    obtain ⟨v, -, hw⟩ := withdraw_all_ok ht
    exact internal_withdraw_vinv h hw
  case after_transfer_mpdao_callback =>
    rcases callback_mpdao_ok hr.1 with ⟨-, rfl⟩ | ⟨-, hw⟩
    · exact h
    · exact restore_vinv h hw
  case after_transfer_stnear_callback =>
    rcases callback_stnear_ok hr.1 with ⟨-, rfl⟩ | ⟨-, hw⟩
    · exact h
    · obtain ⟨-, -, rfl⟩ := add_claimable_stnear_ok hw
      exact h.congr rfl rfl rfl rfl
  case ft_on_transfer => exact ft_on_transfer_vinv h hr.1
  case operator_confirm_delegated_evm_address =>
    have := confirm_ok hr.1
    exact h.congr (by rw [this]) (by rw [this]) (by rw [this]) (by rw [this])
  case delegated_claim_stnear =>
    obtain ⟨t, ht, -⟩ := hr
    exact remove_claimable_stnear_vinv h (delegated_claim_ok ht).2.1
  case vote_delegated =>
    simp only [State.vote_delegated, bind_ok_iff] at hr
    obtain ⟨⟨p, -, hv⟩, -⟩ := hr
    exact internal_vote_vinv h hv
  case unvote_delegated =>
    simp only [State.unvote_delegated, bind_ok_iff] at hr
    obtain ⟨⟨p, -, hv⟩, -⟩ := hr
    exact internal_unvote_vinv h hv
  all_goals
    simp only [State.set_stnear_contract, State.set_operator_id, State.set_owner_id,
      State.update_registration_cost, State.update_airdrop_user_data,
      State.operator_multi_set_airdrop_data, State.set_lock_in_vote_filters,
      State.update_min_unbond_period, State.update_max_unbond_period, State.set_prev_gov_contract,
      State.pre_delegate_evm_address, State.operator_remove_pre_delegate_evm_address,
      State.remove_delegated_evm_address, bind_ok_iff, pure_ok_iff] at hr
    obtain ⟨hr, -⟩ := hr
    repeat (obtain ⟨_, _, hr⟩ := hr)
    exact h.congr rfl rfl rfl rfl

end Verif.MetaVote
