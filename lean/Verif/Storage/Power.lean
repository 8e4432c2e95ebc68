import Verif.Storage.Loose
import Verif.Storage.Refine

/-!
# Voting power over storage

Whatever the vote maps of the voters look like, the stored totals are a plain map, and every vote counted in a total was
taken from the available power of a voter.  So the available power of all voters and all votes counted in the totals
together never exceed the total voting power.
-/

namespace Verif.Storage

open Verif MetaVote

/-- Available voting power of all voters. -/
def availSum (s : State) : Nat := s.voters.sum (fun _ v => v.available_voting_power)

/-- The stored totals are this map. -/
structure Totals (tot : VMap) (M : Mem) : Prop where
  vt : M.vt = tot.mapV (fun _ m => m.len)
  cv : ∀ c, M.cv c = Cells.of (inner tot c)

theorem avail_le (s : State) (id : String) : (s.voterD id).available_voting_power ≤ availSum s := by
  have := sum_remove_voter s id Voter.available_voting_power rfl
  unfold availSum; omega

/-! ## Totals -/

theorem Totals.put {tot : VMap} {M : Mem} (h : Totals tot M) (c : String) (x : UMap String Nat) :
    Totals (tot.insert c x) { M with cv := upd M.cv c (Cells.of x), vt := M.vt.insert c x.len } := by
  refine ⟨?_, ?_⟩
  · simp only [h.vt]; rw [UMap.mapV_insert]
  · intro c'
    rw [inner_insert]
    by_cases e : c' = c
    · subst e; simp
    · simp [e, h.cv c']

theorem Totals.drop {tot : VMap} {M : Mem} (h : Totals tot M) (c : String) :
    Totals (tot.remove c) { M with cv := upd M.cv c (Cells.of UMap.empty), vt := M.vt.remove c } := by
  refine ⟨?_, ?_⟩
  · simp only [h.vt]; rw [UMap.mapV_remove]
  · intro c'
    rw [inner_remove]
    by_cases e : c' = c
    · subst e; simp
    · simp [e, h.cv c']

theorem Totals.increase {tot : VMap} {M M' : Mem} {n : Nat} {c o : String} (h : Totals tot M)
    (hx : M.increaseTotal n c o = .ok M') :
    Totals (vset tot c o (vget tot c o + n)) M' ∧ M'.vp = M.vp ∧ M'.vv = M.vv := by
  simp only [Mem.increaseTotal, h.vt, inner_len, h.cv c, Cells.get_of, bind_ok_iff, addU128_ok_iff, pure_ok_iff,
    Except.ok.injEq] at hx
  obtain ⟨old, rfl, v, ⟨-, rfl⟩, r, hr, rfl⟩ := hx
  rw [Cells.insert_of] at hr
  cases hr
  have := h.put c ((inner tot c).insert o (((inner tot c).get o).getD 0 + n))
  rw [h.vt] at this
  rw [vget_eq]
  exact ⟨this, rfl, rfl⟩

theorem Totals.decrease {tot : VMap} {M M' : Mem} {n : Nat} {c o : String} (h : Totals tot M)
    (hx : M.decreaseTotal n c o = .ok M') :
    n ≤ vget tot c o ∧
    Totals (if vget tot c o - n = 0 then vdel tot c o else vset tot c o (vget tot c o - n)) M' ∧
    M'.vp = M.vp ∧ M'.vv = M.vv := by
  simp only [Mem.decreaseTotal, h.vt, inner_len, h.cv c, Cells.get_of, Cells.insert_of, Cells.remove_of, bind_ok_iff,
    expect_ok_iff, require_ok_iff, subU_ok_iff, pure_ok_iff, Except.ok.injEq] at hx
  obtain ⟨old, rfl, v, hv, -, hle, l, ⟨-, rfl⟩, r, hr, rfl⟩ := hx
  have hg : vget tot c o = v := by
    rw [vget_eq]; show ((inner tot c).get o).getD 0 = v; rw [hv]; rfl
  rw [hg]
  refine ⟨hle, ?_, rfl, rfl⟩
  have key : ∀ x : UMap String Nat, Totals (if x.isEmpty = true then tot.remove c else tot.insert c x) { M with
      cv := upd M.cv c (Cells.of x)
      vt := if x.len = 0 then (tot.mapV (fun _ x => x.len)).remove c
        else (tot.mapV (fun _ x => x.len)).insert c x.len } := by
    intro x
    rw [← h.vt]
    by_cases he : x.isEmpty = true
    · rw [if_pos he, if_pos ((len_eq_zero x).2 he), UMap.eq_empty_of_isEmpty he]
      exact h.drop c
    · rw [if_neg he, if_neg (fun e => he ((len_eq_zero x).1 e))]
      exact h.put c x
  by_cases hl : v - n = 0
  · rw [if_pos hl] at hr ⊢
    cases hr
    exact key ((inner tot c).remove o)
  · rw [if_neg hl] at hr ⊢
    cases hr
    have hne : ((inner tot c).insert o (v - n)).isEmpty = false := by
      cases he : ((inner tot c).insert o (v - n)).isEmpty with
      | false => rfl
      | true =>
        have := UMap.eq_empty_of_isEmpty he
        have h2 := UMap.get_insert (inner tot c) o o (v - n)
        rw [this] at h2
        simp at h2
    have := key ((inner tot c).insert o (v - n))
    rw [hne] at this
    exact this

theorem decrease_sum (tot : VMap) (c o : String) (n : Nat) (h : n ≤ vget tot c o) :
    vsum (if vget tot c o - n = 0 then vdel tot c o else vset tot c o (vget tot c o - n)) + n = vsum tot := by
  split
  · have := vsum_vdel tot c o; omega
  · have := vsum_vset tot c o (vget tot c o - n); omega

theorem increase_sum (tot : VMap) (c o : String) (n : Nat) :
    vsum (vset tot c o (vget tot c o + n)) = vsum tot + n := by
  have := vsum_vset tot c o (vget tot c o + n); omega

theorem Totals.same {tot : VMap} {M M' : Mem} (h : Totals tot M) (h1 : M'.vt = M.vt) (h2 : M'.cv = M.cv) : Totals tot M' :=
  ⟨h1 ▸ h.vt, h2 ▸ h.cv⟩

theorem setVote_totals {M : Mem} {id : String} {l : Nat} {c : String} {h : Handle} {o : String} {n : Nat} {r : Mem × Nat}
    (hx : M.setVote id l c h o n = .ok r) : r.1.vt = M.vt ∧ r.1.cv = M.cv := by
  simp only [Mem.setVote, bind_ok_iff, pure_ok_iff] at hx
  obtain ⟨_, _, _, _, rfl⟩ := hx
  exact ⟨rfl, rfl⟩

theorem delVote_totals {M : Mem} {id : String} {l : Nat} {c : String} {h : Handle} {o : String} {r : Mem × Nat}
    (hx : M.delVote id l c h o = .ok r) : r.1.vt = M.vt ∧ r.1.cv = M.cv := by
  simp only [Mem.delVote, bind_ok_iff, pure_ok_iff] at hx
  obtain ⟨_, _, _, _, rfl⟩ := hx
  exact ⟨rfl, rfl⟩

/-! ## The invariant -/

/-- Available power and counted votes are backed by the total voting power. -/
structure Backed (S : SState) (tot : VMap) : Prop where
  totals : Totals tot S.mem
  power : availSum S.st + vsum tot ≤ S.st.total_voting_power

/-- One voter record and the counted votes change together. -/
theorem Backed.save {S : SState} {tot tot' : VMap} (h : Backed S tot) {m : Mem} (ht : Totals tot' m) (id : String) (v : Voter)
    (l : Nat)
    (hp : v.available_voting_power + vsum tot' = (S.st.voterD id).available_voting_power + vsum tot) :
    Backed (({ S with mem := m }).save id v l) tot' := by
  refine ⟨ht, ?_⟩
  have := sum_insert_voter S.st id v Voter.available_voting_power rfl
  have h2 := h.power
  simp only [availSum, SState.save] at *
  omega

theorem vote_backed {S S' : SState} {tot : VMap} {id : String} {n : Nat} {a o : String} (h : Backed S tot)
    (hx : S.internal_vote id n a o = .ok S') : Backed S' (vset tot a o (vget tot a o + n)) := by
  simp only [SState.internal_vote, SState.internal_create_voting_position, bind_ok_iff, pure_ok_iff, require_ok_iff,
    subU_ok_iff] at hx
  obtain ⟨v, hv, r, ⟨-, hle, -, -, _, -, _, -, x, ⟨-, rfl⟩, _, -, q, hq, m, hm, rfl⟩, rfl⟩ := hx
  obtain ⟨-, rfl⟩ := get_voter_ok hv
  obtain ⟨h1, h2⟩ := setVote_totals hq
  obtain ⟨ht, -, -⟩ := (h.totals.same h1 h2).increase hm
  refine h.save ht id _ _ ?_
  rw [increase_sum]
  simp only
  omega

theorem remove_backed {S : SState} {tot : VMap} {id : String} {v : Voter} {l : Nat} {a o : String}
    {r : SState × Voter × Nat} (h : Totals tot S.mem)
    (hx : S.internal_remove_voting_position id v l a o = .ok r) :
    ∃ n hd tot', S.mem.position id l a = .ok hd ∧ S.mem.voteIn hd o = .ok (some n) ∧ n ≤ vget tot a o ∧
      tot' = (if vget tot a o - n = 0 then vdel tot a o else vset tot a o (vget tot a o - n)) ∧
      Totals tot' r.1.mem ∧ vsum tot' + n = vsum tot ∧
      r.1 = { S with mem := r.1.mem } ∧
      r.2.1 = { v with available_voting_power := v.available_voting_power + n } := by
  simp only [SState.internal_remove_voting_position, bind_ok_iff, pure_ok_iff, expect_ok_iff, addU128_ok_iff] at hx
  obtain ⟨hd, hhd, old, hold, n, rfl, x, ⟨-, rfl⟩, q, hq, m, hm, rfl⟩ := hx
  obtain ⟨h1, h2⟩ := delVote_totals hq
  obtain ⟨hle, ht, -, -⟩ := (h.same h1 h2).decrease hm
  exact ⟨n, hd, _, hhd, hold, hle, rfl, ht, decrease_sum _ _ _ _ hle, rfl, rfl⟩

theorem unvote_backed {S S' : SState} {tot : VMap} {c : Ctx} {id : String} {a o : String} (h : Backed S tot)
    (hx : S.internal_unvote c id a o = .ok S') : ∃ tot', Backed S' tot' := by
  simp only [SState.internal_unvote, bind_ok_iff, pure_ok_iff] at hx
  obtain ⟨-, -, v, hv, r, hr, rfl⟩ := hx
  obtain ⟨-, rfl⟩ := get_voter_ok hv
  obtain ⟨n, hd, tot', -, -, -, -, ht, hsum, h1, h2⟩ := remove_backed h.totals hr
  refine ⟨tot', ?_⟩
  rw [h1]
  refine h.save ht id _ _ ?_
  rw [h2]
  simp only
  omega

theorem rebalance_backed {S S' : SState} {tot : VMap} {c : Ctx} {n : Nat} {a o : String} (h : Backed S tot)
    (hx : S.rebalance c n a o = .ok S') : ∃ tot', Backed S' tot' := by
  simp only [SState.rebalance, bind_ok_iff] at hx
  obtain ⟨v, hv, _, _, _, _, k, _, _, _, hx⟩ := hx
  obtain ⟨-, rfl⟩ := get_voter_ok hv
  split at hx
  · exact unvote_backed h hx
  · simp only [bind_ok_iff, pure_ok_iff] at hx
    obtain ⟨r, hr, q, hq, rfl⟩ := hx
    obtain ⟨h1, h2⟩ := setVote_totals hq
    split at hr
    · simp only [bind_ok_iff, require_ok_iff, subU_ok_iff, addU128_ok_iff, pure_ok_iff] at hr
      obtain ⟨ad, ⟨-, rfl⟩, -, hav, av, ⟨-, rfl⟩, vo, ⟨-, rfl⟩, m, hm, rfl⟩ := hr
      obtain ⟨ht, -, -⟩ := h.totals.increase hm
      refine ⟨_, h.save (ht.same h1 h2) c.predecessor _ _ ?_⟩
      rw [increase_sum]
      simp only
      omega
    · simp only [bind_ok_iff, subU_ok_iff, addU128_ok_iff, pure_ok_iff] at hr
      obtain ⟨ad, ⟨-, rfl⟩, av, ⟨-, rfl⟩, vo, ⟨-, rfl⟩, m, hm, rfl⟩ := hr
      obtain ⟨hle, ht, -, -⟩ := h.totals.decrease hm
      refine ⟨_, h.save (ht.same h1 h2) c.predecessor _ _ ?_⟩
      have := decrease_sum tot a o _ hle
      simp only
      omega

theorem mirror_loop_backed {id : String} {n : Nat} : ∀ (fuel : Nat) {S : SState} {v : Voter} {l u : Nat} {tot : VMap}
    {r : SState × Voter × Nat × Nat}, Totals tot S.mem → SState.mirror_remove_votes id n fuel S v l u = .ok r →
    ∃ tot', Totals tot' r.1.mem ∧ r.2.2.2 + vsum tot = u + vsum tot'
  | fuel, S, v, l, u, tot, r, h, hx => by
    unfold SState.mirror_remove_votes at hx
    split at hx
    · cases fuel with
      | zero => simp at hx
      | succ fuel =>
        simp only [bind_ok_iff, expect_ok_iff, subU_ok_iff] at hx
        obtain ⟨_, _, app, rfl, _, hh, hd, rfl, _, _, obj, rfl, _, hvo, k, rfl, q, hq, u', ⟨hle, rfl⟩, hx⟩ := hx
        obtain ⟨k', hd', tot', h1, h2, -, -, ht, hsum, -, -⟩ := remove_backed h hq
        have : k' = k := by
          unfold Mem.position at h1
          rw [hh] at h1
          cases h1
          simp only [Option.getD_some] at h2
          rw [hvo] at h2
          cases h2; rfl
        subst this
        obtain ⟨tot2, ht2, hs2⟩ := mirror_loop_backed fuel ht hx
        exact ⟨tot2, ht2, by omega⟩
    · simp only [pure_ok_iff] at hx; rw [← hx]; exact ⟨tot, h, rfl⟩

theorem mirror_step_power {s : State} {v : Voter} {l : List (Nat × Nat)} {sv : State × Voter}
    (h : l.foldlM State.mirror_step (s, v) = .ok sv) :
    sv.1.voters = s.voters ∧
      sv.2.available_voting_power + s.total_voting_power = v.available_voting_power + sv.1.total_voting_power := by
  refine foldlM_inv (fun x : State × Voter => x.1.voters = s.voters ∧
    x.2.available_voting_power + s.total_voting_power = v.available_voting_power + x.1.total_voting_power) ?_ _ _ _
    ⟨rfl, rfl⟩ h
  rintro ⟨s1, v1⟩ lp ⟨s2, v2⟩ ⟨h1, h2⟩ hs
  obtain ⟨vp, hvp, hf, hlen, -, -, rfl, rfl⟩ := create_locking_ok hs
  simp only at h1 h2 ⊢
  exact ⟨h1, by omega⟩

theorem mirror_backed {S S' : SState} {tot : VMap} {c : Ctx} {e : String} {l : List (Nat × Nat)} (h : Backed S tot)
    (hx : S.operator_mirror_lps c e l = .ok S') : ∃ tot', Backed S' tot' := by
  simp only [SState.operator_mirror_lps, bind_ok_iff, pure_ok_iff, addU128_ok_iff, subU_ok_iff] at hx
  obtain ⟨_, _, u, hu, _, ⟨-, rfl⟩, _, _, _, _, _, _, r, hr, sv, hsv, n, ⟨hn, rfl⟩, t, ⟨htt, rfl⟩, rfl⟩ := hx
  obtain ⟨hst, -⟩ := mirror_remove_st hr
  obtain ⟨tot', ht, hs⟩ := mirror_loop_backed _ h.totals hr
  obtain ⟨h1, h2⟩ := mirror_step_power hsv
  rw [hst] at h1 h2
  simp only at h2
  rw [internal_get_voter_eq] at htt ⊢
  refine ⟨tot', ht, ?_⟩
  have hs3 := sum_insert_voter S.st (pseudo_near_address e)
    { sv.2 with available_voting_power := sv.2.available_voting_power - r.2.2.2 } Voter.available_voting_power rfl
  have hp := h.power
  simp only [SState.save, availSum] at *
  rw [h1]
  omega

/-! ## Calls that do not vote -/

/-- The available power grows by no more than the total voting power, as long as the latter covers it. -/
def Slack (s s' : State) : Prop :=
  availSum s ≤ s.total_voting_power → availSum s' + s.total_voting_power ≤ availSum s + s'.total_voting_power

theorem Slack.refl (s : State) : Slack s s := fun _ => Nat.le_refl _

theorem Slack.trans {a b c : State} (h : Slack a b) (h' : Slack b c) : Slack a c := by
  intro ha
  have h1 := h ha
  have h2 := h' (by omega)
  omega

theorem Slack.congr {s s' : State} (h1 : s'.voters = s.voters) (h2 : s'.total_voting_power = s.total_voting_power) :
    Slack s s' := by
  intro _; unfold availSum; rw [h1, h2]

theorem Slack.update {s s' : State} (id : String) (v : Voter) (h1 : s'.voters = s.voters.insert id v)
    (h2 : (s.voterD id).available_voting_power ≤ s.total_voting_power →
      v.available_voting_power + s.total_voting_power ≤
        (s.voterD id).available_voting_power + s'.total_voting_power) : Slack s s' := by
  intro h
  have h3 := sum_insert_voter s id v Voter.available_voting_power rfl
  have h4 := avail_le s id
  have h5 := h2 (by omega)
  unfold availSum at *
  rw [h1]
  omega

theorem deposit_slack {s s' : State} {id : String} {v v' : Voter} {a d : Nat}
    (hd : s.deposit_locking_position a d id v = .ok (s', v'))
    (ha : v.available_voting_power = (s.voterD id).available_voting_power) : Slack s s' := by
  obtain ⟨vp, ps, -, -, -, -, -, rfl, rfl⟩ := deposit_ok hd
  refine Slack.update id _ rfl (fun _ => ?_)
  simp only
  omega

theorem unlock_slack {s s' : State} {c : Ctx} {i : Nat} (hx : s.unlock_position c i = .ok s') : Slack s s' := by
  simp only [State.unlock_position, bind_ok_iff, get_position_ok, require_ok_iff, subU_ok_iff, pure_ok_iff] at hx
  obtain ⟨v, hv, p, hp, -, hle, x, ⟨-, rfl⟩, rfl⟩ := hx
  obtain ⟨hv, rfl⟩ := get_voter_ok hv
  refine Slack.update c.predecessor _ rfl (fun _ => ?_)
  simp only [Voter.replace_position] at *
  omega

theorem unlock_partial_slack {s s' : State} {c : Ctx} {i a : Nat} (hx : s.unlock_partial_position c i a = .ok s') :
    Slack s s' := by
  simp only [State.unlock_partial_position, bind_ok_iff, get_position_ok] at hx
  obtain ⟨v, hv, p, hp, hx⟩ := hx
  split at hx
  · exact unlock_slack hx
  · simp only [bind_ok_iff, require_ok_iff, subU_ok_iff, pure_ok_iff, State.create_unlocking_position] at hx
    obtain ⟨-, hlt, r, ⟨-, rfl⟩, -, -, -, -, vp, -, -, hvp, -, hav, v2, ⟨-, hlen, rfl⟩, y, ⟨-, rfl⟩,
      z, ⟨-, rfl⟩, -, -, w, ⟨-, rfl⟩, rfl⟩ := hx
    obtain ⟨hv, rfl⟩ := get_voter_ok hv
    refine Slack.update c.predecessor _ rfl (fun _ => ?_)
    simp only [Voter.replace_position] at *
    omega

theorem extend_slack {s s' : State} {c : Ctx} {i d : Nat} (hx : s.locking_position_extend_days c i d = .ok s') :
    Slack s s' := by
  simp only [State.locking_position_extend_days, bind_ok_iff, get_position_ok, require_ok_iff,
    subU_ok_iff, addU128_ok_iff, pure_ok_iff] at hx
  obtain ⟨v, hv, p, hp, -, hl, -, -, vp, -, de, ⟨hle, rfl⟩, t, ⟨-, rfl⟩, av, ⟨-, rfl⟩, rfl⟩ := hx
  obtain ⟨hv, rfl⟩ := get_voter_ok hv
  refine Slack.update c.predecessor _ rfl (fun _ => ?_)
  simp only [Voter.replace_position] at *
  omega

theorem relock_slack {s s' : State} {c : Ctx} {i d b : Nat} (hx : s.relock_position c i d b = .ok s') : Slack s s' := by
  simp only [State.relock_position, bind_ok_iff, get_position_ok, require_ok_iff, expect_ok_iff,
    subU_ok_iff, addU128_ok_iff, pure_ok_iff] at hx
  obtain ⟨v, hv, p, hp, -, -, t, ht, -, -, a, ⟨-, rfl⟩, x, ⟨-, rfl⟩, r, hr, rfl⟩ := hx
  obtain ⟨hv, rfl⟩ := get_voter_ok hv
  exact deposit_slack (s' := r.1) (v' := r.2) hr rfl

theorem relock_partial_slack {s s' : State} {c : Ctx} {i a d b : Nat}
    (hx : s.relock_partial_position c i a d b = .ok s') : Slack s s' := by
  simp only [State.relock_partial_position, bind_ok_iff, get_position_ok, require_ok_iff,
    expect_ok_iff, subU_ok_iff, addU128_ok_iff, pure_ok_iff] at hx
  obtain ⟨v, hv, p, hp, -, -, -, -, am, ⟨-, rfl⟩, -, -, t, ht, v2, hv2, x, ⟨-, rfl⟩, r, hr, rfl⟩ := hx
  obtain ⟨hv, rfl⟩ := get_voter_ok hv
  split at hv2
  · simp only [bind_ok_iff, require_ok_iff, subU_ok_iff, pure_ok_iff] at hv2
    obtain ⟨-, -, n, ⟨-, rfl⟩, -, -, -, -, vp, -, rfl⟩ := hv2
    exact deposit_slack (s' := r.1) (v' := r.2) hr rfl
  · simp only [bind_ok_iff, subU_ok_iff, addU128_ok_iff, pure_ok_iff] at hv2
    obtain ⟨n, ⟨-, rfl⟩, y, ⟨-, rfl⟩, rfl⟩ := hv2
    exact deposit_slack (s' := r.1) (v' := r.2) hr rfl

theorem relock_balance_slack {s s' : State} {c : Ctx} {d b : Nat} (hx : s.relock_from_balance c d b = .ok s') :
    Slack s s' := by
  simp only [State.relock_from_balance, bind_ok_iff, require_ok_iff, subU_ok_iff, pure_ok_iff] at hx
  obtain ⟨v, hv, -, -, -, -, x, ⟨-, rfl⟩, r, hr, rfl⟩ := hx
  obtain ⟨hv, rfl⟩ := get_voter_ok hv
  exact deposit_slack (s' := r.1) (v' := r.2) hr rfl

theorem clear_slack {s s' : State} {c : Ctx} {l : List Nat} (hx : s.clear_locking_position c l = .ok s') : Slack s s' := by
  simp only [State.clear_locking_position, bind_ok_iff, require_ok_iff, pure_ok_iff] at hx
  obtain ⟨-, -, v, hv, v2, hv2, rfl⟩ := hx
  obtain ⟨hv, rfl⟩ := get_voter_ok hv
  exact Slack.update c.predecessor v2 rfl (fun _ => by rw [(clear_cleared hv2).avail])

theorem migration_slack {s s' : State} {c : Ctx} {id : String} {l : List (Nat × Nat)} {d : Option String}
    (hx : s.migration_create_lps c id l d = .ok s') : Slack s s' := by
  simp only [State.migration_create_lps, bind_ok_iff, require_ok_iff] at hx
  obtain ⟨-, -, r, hr, hx⟩ := hx
  have h1 : Slack s r.1 := by
    refine (foldlM_inv (fun sv : State × Voter => Slack s sv.1 ∧ sv.2 = sv.1.voterD id) ?_ l _ r
      ⟨Slack.refl s, rfl⟩ hr).1
    rintro ⟨s1, v1⟩ lp ⟨s2, v2⟩ ⟨h1, hv1⟩ hd
    simp only at h1 hv1
    subst hv1
    refine ⟨h1.trans (deposit_slack hd rfl), ?_⟩
    obtain ⟨vp, ps, -, -, -, -, -, -, rfl⟩ := deposit_ok hd
    simp [State.voterD]
  cases d with
  | none => simp only [pure_ok_iff] at hx; exact hx ▸ h1
  | some d =>
    simp only at hx
    split at hx <;> simp only [pure_ok_iff] at hx <;> subst hx
    · exact h1.trans (Slack.congr rfl rfl)
    · exact h1

theorem withdraw_slack {s s' : State} {x : Ctx} {id : String} {l : List Nat} {am : Option Nat}
    {t : Transfer} (hx : s.internal_withdraw x id l am = .ok (s', t)) : Slack s s' := by
  simp only [State.internal_withdraw, bind_ok_iff, require_ok_iff, subU_ok_iff, pure_ok_iff,
    Prod.mk.injEq] at hx
  obtain ⟨-, -, v, hv, v2, hv2, -, -, -, -, b, ⟨-, rfl⟩, rfl, -⟩ := hx
  obtain ⟨hv, rfl⟩ := get_voter_ok hv
  have hc : Cleared x.now (s.voterD id) v2 := by
    split at hv2
    · exact clear_cleared hv2
    · simp only [pure_ok_iff] at hv2; subst hv2; exact Cleared.refl _ _
  split
  · intro _
    have := sum_remove_voter s id Voter.available_voting_power rfl
    simp only [availSum]
    omega
  · exact Slack.update id _ rfl (fun _ => by simp only [hc.avail]; omega)

/-- Every accepted call that does not vote. -/
theorem exec_slack {J : Json} {s s' : State} {c : Ctx} {k : Call} {out : List Transfer} (hk : k.votes = false)
    (hx : exec J s c k = .ok (s', out)) : Slack s s' := by
  obtain ⟨-, -, -, hr⟩ := exec_ok.1 hx
  cases k <;> simp only [run, quiet_ok, sends_ok] at hr <;> try (simp [Call.votes] at hk; done)
  case new_ => simp [new] at hr
  case migrate => simp [migrate, expect, bind_ok_iff] at hr
  case claim_and_lock =>
    simp only [State.claim_and_lock, State.remove_claimable_mpdao, bind_ok_iff, pure_ok_iff] at hr
    obtain ⟨⟨-, -, s1, ⟨r, hr, rfl⟩, v, hv, r2, hr2, rfl⟩, -⟩ := hr
    obtain ⟨hv, rfl⟩ := get_voter_ok hv
    exact Slack.trans (Slack.congr (s := s)
      (s' := { s with claimable_mpdao := r.1, total_unclaimed_mpdao := r.2 }) rfl rfl)
      (deposit_slack (s' := r2.1) (v' := r2.2) hr2 rfl)
  case claim_stnear =>
    obtain ⟨t, ht, -⟩ := hr
    obtain ⟨-, -, rfl⟩ := remove_claimable_stnear_ok (claim_stnear_ok ht).1
    exact Slack.congr rfl rfl
  case unlock_position => exact unlock_slack hr.1
  case unlock_partial_position => exact unlock_partial_slack hr.1
  case locking_position_extend_days => exact extend_slack hr.1
  case relock_position => exact relock_slack hr.1
  case relock_partial_position => exact relock_partial_slack hr.1
  case relock_from_balance => exact relock_balance_slack hr.1
  case clear_locking_position => exact clear_slack hr.1
  case migration_create_lps => exact migration_slack hr.1
  case withdraw => obtain ⟨t, ht, -⟩ := hr; exact withdraw_slack ht
  case withdraw_all =>
    obtain ⟨t, ht, -⟩ := hr
    obtain ⟨v, -, hw⟩ := withdraw_all_ok ht
    exact withdraw_slack hw
  case after_transfer_mpdao_callback =>
    rcases callback_mpdao_ok hr.1 with ⟨-, rfl⟩ | ⟨-, hw⟩
    · exact Slack.refl _
    · simp only [State.restore_transfer_to_mpdao, bind_ok_iff, addU128_ok_iff, pure_ok_iff] at hw
      obtain ⟨b, ⟨-, rfl⟩, rfl⟩ := hw
      exact Slack.update _ _ rfl (fun _ => Nat.le_refl _)
  case after_transfer_stnear_callback =>
    rcases callback_stnear_ok hr.1 with ⟨-, rfl⟩ | ⟨-, hw⟩
    · exact Slack.refl _
    · obtain ⟨-, -, rfl⟩ := add_claimable_stnear_ok hw
      exact Slack.congr rfl rfl
  case ft_on_transfer =>
    rcases ft_on_transfer_ok hr.1 with ⟨info, -, -, hd⟩ | ⟨t, v', -, -, -, -, hd⟩
    · have hf : ∀ {a b}, Distributed s s' a b → Slack s s' := fun hd => by
        have hf := hd.frame.state
        exact Slack.congr (by rw [hf]) (by rw [hf])
      rcases distribute_ok hd with ⟨-, hd⟩ | ⟨-, -, hd⟩ <;> exact hf hd
    · exact deposit_slack hd rfl
  case operator_confirm_delegated_evm_address =>
    have := confirm_ok hr.1
    exact Slack.congr (by rw [this]) (by rw [this])
  case delegated_claim_stnear =>
    obtain ⟨t, ht, -⟩ := hr
    obtain ⟨-, -, rfl⟩ := remove_claimable_stnear_ok (delegated_claim_ok ht).2.1
    exact Slack.congr rfl rfl
  all_goals
    simp only [State.set_stnear_contract, State.set_operator_id, State.set_owner_id,
      State.update_registration_cost, State.update_airdrop_user_data,
      State.operator_multi_set_airdrop_data, State.set_lock_in_vote_filters,
      State.update_min_unbond_period, State.update_max_unbond_period, State.set_prev_gov_contract,
      State.pre_delegate_evm_address, State.operator_remove_pre_delegate_evm_address,
      State.remove_delegated_evm_address, bind_ok_iff, pure_ok_iff] at hr
    obtain ⟨hr, -⟩ := hr
    repeat (obtain ⟨_, _, hr⟩ := hr)
    exact Slack.congr rfl rfl

/-! ## All executions over storage -/

theorem Backed.avail {S : SState} {tot : VMap} (h : Backed S tot) (id : String) :
    (S.st.voterD id).available_voting_power ≤ S.st.total_voting_power := by
  have h1 := avail_le S.st id
  have h2 := h.power
  omega

theorem sexec_backed {J : Json} {S S' : SState} {c : Ctx} {k : Call} {out : List Transfer} {tot : VMap} (h : Backed S tot)
    (hx : sexec J S c k = .ok (S', out)) : ∃ tot', Backed S' tot' := by
  cases hk : k.votes with
  | false =>
    have hm : S'.mem = S.mem := by
      obtain ⟨S2, h2, -, h3⟩ := (sexec_other hk S'.st out).1 ((sexec_ran hx).exec hk)
      rw [hx] at h2; cases h2; exact h3
    have hs := exec_slack hk ((sexec_ran hx).exec hk)
    have hp := h.power
    have := hs (by omega)
    exact ⟨tot, h.totals.same (by rw [hm]) (by rw [hm]), by omega⟩
  | true =>
    simp only [sexec, bind_ok_iff, require_ok_iff] at hx
    obtain ⟨-, -, -, -, -, -, hx⟩ := hx
    cases k <;> (first | (simp [Call.votes] at hk; done) | skip) <;>
      simp only [srun, SState.quiet, bind_ok_iff, pure_ok_iff, Prod.mk.injEq] at hx
    case vote => obtain ⟨S1, hx, rfl, -⟩ := hx; exact ⟨_, vote_backed h hx⟩
    case rebalance => obtain ⟨S1, hx, rfl, -⟩ := hx; exact rebalance_backed h hx
    case unvote => obtain ⟨S1, hx, rfl, -⟩ := hx; exact unvote_backed h hx
    case operator_mirror_lps => obtain ⟨S1, hx, rfl, -⟩ := hx; exact mirror_backed h hx
    case vote_delegated => obtain ⟨S1, ⟨p, -, hx⟩, rfl, -⟩ := hx; exact ⟨_, vote_backed h hx⟩
    case unvote_delegated => obtain ⟨S1, ⟨p, -, hx⟩, rfl, -⟩ := hx; exact unvote_backed h hx

theorem sreach_backed {J : Json} {me : AccountId} {w : SWorld} (h : SReach J me w) : ∃ tot, Backed w.S tot := by
  induction h with
  | init h =>
    cases h with
    | mk w0 h =>
      refine ⟨UMap.empty, ⟨rfl, fun _ => Cells.of_empty.symm⟩, ?_⟩
      cases h with
      | mk o op a b d l v m st r p ts s hr hts hn =>
        obtain ⟨-, -, rfl⟩ := new_ok hn
        exact Nat.le_refl 0
  | step h hs ih =>
    obtain ⟨tot, ih⟩ := ih
    cases hs with
    | call c k S' out hme hres hm hclock hu64 hexec => exact sexec_backed ih hexec
    | resolve pre post t ok ts hpend hclock hu64 =>
      cases hx : sexec J _ ⟨me, me, 0, ts, [ok]⟩ t.callbackCall with
      | ok r => exact sexec_backed (out := r.2) ih hx
      | error e => exact ⟨tot, ih⟩
    | tick ts hclock hu64 => exact ⟨tot, ih⟩

end Verif.Storage
