import Verif.MetaVote.Mirror
import Verif.MetaVote.Trace

/-!
# Mirroring of external positions (C37)
-/

namespace Verif.MetaVote

open Verif

theorem Trimmed.vget {m m' : UMap String (UMap String Nat)} (h : Trimmed m m') (a o : String) :
    MetaVote.vget m' a o = MetaVote.vget m a o ∨ MetaVote.vget m' a o = 0 := by
  induction h with
  | refl m => exact .inl rfl
  | del b p _ ih =>
    rw [vget_vdel] at ih
    rcases ih with ih | ih
    · split at ih
      · exact .inr ih
      · exact .inl ih
    · exact .inr ih

/-- Account `id` has been given exactly the positions `l` (pairs of days and amount). -/
structure MirroredTo (s s' : State) (id : String) (l : List (Nat × Nat)) : Prop where
  /-- the positions are exactly the given ones, locked, with their power -/
  positions : (s'.voterD id).locking_positions = l.map mirrorPosition
  periods : (l.map Prod.fst).Nodup ∧ ∀ lp ∈ l, lp.1 < 3600
  /-- available and used power make up the power of the positions -/
  power : (s'.voterD id).available_voting_power + (s'.voterD id).used = mirrorPower l
  /-- votes that fit are not touched -/
  kept : (s.voterD id).used ≤ mirrorPower l →
    (s'.voterD id).vote_positions = (s.voterD id).vote_positions ∧ s'.votes = s.votes
  /-- a vote is kept or removed as a whole -/
  whole : ∀ a o, (s'.voterD id).votesOf a o = (s.voterD id).votesOf a o ∨ (s'.voterD id).votesOf a o = 0
  /-- not more votes are removed than needed: the last one removed would not fit -/
  needed : mirrorPower l < (s.voterD id).used → ∃ a o, (s.voterD id).votesOf a o ≠ 0 ∧
    (s'.voterD id).votesOf a o = 0 ∧ mirrorPower l < (s'.voterD id).used + (s.voterD id).votesOf a o
  /-- the totals per object follow the votes of the account -/
  totals : ∀ a o, s'.totalVotes a o + (s.voterD id).votesOf a o
    = s.totalVotes a o + (s'.voterD id).votesOf a o
  /-- the total power changes by the new minus the old power of the account -/
  total : s'.total_voting_power + ((s.voterD id).available_voting_power + (s.voterD id).used)
    = s.total_voting_power + mirrorPower l
  balance : (s'.voterD id).balance = (s.voterD id).balance
  /-- nothing else changes -/
  others : ∀ i, i ≠ id → s'.voters.get i = s.voters.get i
  rest : s' = { s with
    voters := s'.voters
    votes := s'.votes
    total_voting_power := s'.total_voting_power }

/-- **C37**: an accepted `operator_mirror_lps(e, l)` comes from the operator and installs exactly `l`. -/
theorem C37_mirrored {J : Json} {me : AccountId} {w : World} (h : Reach J me w) {c : Ctx} {e : String}
    {l : List (Nat × Nat)} {s' : State} {out : List Transfer}
    (hx : exec J w.st c (.operator_mirror_lps e l) = .ok (s', out)) :
    c.predecessor = w.st.operator_id ∧ out = [] ∧ MirroredTo w.st s' (pseudo_near_address e) l := by
  obtain ⟨-, -, -, hr⟩ := exec_ok.1 hx
  simp only [run, quiet_ok] at hr
  obtain ⟨hr, rfl⟩ := hr
  have hi := reach_vinv h
  obtain ⟨-, hfr⟩ := mirror_vframe hr
  generalize hid : pseudo_near_address e = id at *
  simp only [State.operator_mirror_lps, State.assert_operator, require_ok_iff, bind_ok_iff,
    addU128_ok_iff, subU_ok_iff, pure_ok_iff, internal_get_voter_eq, sumU128_ok_iff, hid] at hr
  obtain ⟨-, hop, u, hu, prev, ⟨-, rfl⟩, vps, hvps, nvp, ⟨-, rfl⟩, ⟨s1, v1, u1⟩, hloop, ⟨s2, v2⟩, hcr, av,
    ⟨hav, rfl⟩, tot, ⟨htot, rfl⟩, hs'⟩ := hr
  have hu' := sum_used_votes_ok hu
  have hk := hi.voterOK id
  have hrel : MirrorRel w.st (w.st.voterD id) w.st (w.st.voterD id) :=
    ⟨rfl, fun _ _ => rfl, hi.clean, hk.clean, rfl, rfl, rfl⟩
  obtain ⟨hr, hru, hle⟩ := mirror_loop_rel _ _ _ _ _ hrel hu' hloop
  have hneed := mirror_loop_needed _ _ _ _ _ hloop
  have htr := mirror_trimmed _ _ _ _ _ hloop
  obtain ⟨e1, e2⟩ := mirror_create_exact hcr
  have hmir := mirror_create_mirrored rfl hcr
  rw [mirror_powers hvps] at hle hneed
  simp only [List.nil_append, Nat.zero_add] at e1 e2 hr hru hle hneed htr hav htot hmir
  rw [e1] at htot
  rw [e2] at hav hmir
  simp only at hav htot hmir
  refine ⟨hop.symm, rfl, ?_⟩
  have hs1 := hr.state
  have hvt : s'.voterD id = { v1 with
        locking_positions := List.map mirrorPosition l
        available_voting_power := mirrorPower l - u1 } := by
    rw [← hs', State.voterD]
    simp only [UMap.get_insert_self, Option.getD_some, e2]
  have hvotes : s'.votes = s1.votes := by rw [← hs']; simp only [e1]
  have htotal : s'.total_voting_power = w.st.total_voting_power + mirrorPower l
      - ((w.st.voterD id).available_voting_power + u) := by
    have : s1.total_voting_power = w.st.total_voting_power := by rw [hs1]
    rw [← hs']; simp only [e1, this]
  refine ⟨?_, ?_, ?_, ?_, ?_, ?_, ?_, ?_, ?_, hfr.others, hfr.state⟩
  all_goals try rw [hvt]
  · have hm : Mirrored (l.map mirrorPosition) := hmir
    have hn := hm.nodup
    rw [List.map_map] at hn
    refine ⟨hn, fun lp hlp => ?_⟩
    have := (hm.ok _ (List.mem_map_of_mem hlp)).2
    exact ((C01_formula _ _ _).1 this).1
  · simp only [Voter.used] at *; omega
  · intro hfit
    rcases hneed with ⟨-, hn⟩ | ⟨hn, a, o, h1, h2, h3⟩
    · cases hn; exact ⟨rfl, hvotes⟩
    · omega
  · exact fun a o => htr.vget a o
  · intro hlt
    rcases hneed with ⟨hn, -⟩ | ⟨-, a, o, h1, h2, h3⟩
    · omega
    · exact ⟨a, o, h1, h2, by rw [hru] at h3; exact h3⟩
  · intro a o
    rw [State.totalVotes, hvotes]
    exact hr.votes a o
  · have : s1.total_voting_power = w.st.total_voting_power := by rw [hs1]
    rw [htotal]
    omega
  · exact hr.balance

/-- **C37** (part): the mirroring is accepted, so its removal loop terminates and never indexes an empty list,
for an account without votes of power zero, if the operator gives distinct periods below 3600 days, at most
the maximum number of positions, and amounts whose power fits.  Votes of power zero can make it fail
(`C37_false`). -/
theorem C37_accepted_partial {J : Json} {me : AccountId} {w : World} (h : Reach J me w) {c : Ctx} {e : String}
    {l : List (Nat × Nat)} (hop : c.predecessor = w.st.operator_id) (hdep : c.deposit = 0)
    (hper : (l.map Prod.fst).Nodup) (hday : ∀ lp ∈ l, lp.1 < 3600 ∧ lp.2 * 10 ^ 18 < 2 ^ 128)
    (hlen : l.length ≤ w.st.max_locking_positions)
    (hfit : w.st.total_voting_power + mirrorPower l < 2 ^ 128)
    (hpos : vpos (w.st.voterD (pseudo_near_address e)).vote_positions) :
    ∃ r, exec J w.st c (.operator_mirror_lps e l) = .ok r := by
  have hi := reach_vinv h
  have hm : U128_MAX + 1 = 2 ^ 128 := by decide
  have hcalc : ∀ lp ∈ l, calculate_voting_power lp.2 lp.1 = .ok (lp.2 * 10 ^ 18 * lp.1 / 60) := by
    intro lp hlp
    refine (C01_formula _ _ _).2 ⟨(hday lp hlp).1, (hday lp hlp).2, ?_, rfl⟩
    have : lp.2 * 10 ^ 18 * lp.1 / 60 ≤ mirrorPower l :=
      le_sum_mem (List.mem_map.2 ⟨lp, hlp, rfl⟩)
    omega
  suffices hs : ∃ s', w.st.operator_mirror_lps c e l = .ok s' by
    obtain ⟨s', hs'⟩ := hs
    refine ⟨(s', []), exec_ok.2 ⟨.inr hdep, by simp [Call.is_private], ?_, by
      simp only [run, quiet_ok]; exact ⟨hs', trivial⟩⟩⟩
    simp only [Call.in_range, List.all_eq_true, decide_eq_true_eq]
    intro lp hlp
    have h1 := hday lp hlp
    have : lp.2 ≤ lp.2 * 10 ^ 18 := Nat.le_mul_of_pos_right _ (by decide)
    simp only [U16_MAX]
    omega
  generalize hid : pseudo_near_address e = id at *
  have hk := hi.voterOK id
  have hpow := hi.power_le_total id
  have htot := reach_total h
  have hsu : (w.st.voterD id).sum_used_votes = .ok (w.st.voterD id).used :=
    sum_used_votes_of_le (by simp only [Voter.power] at hpow; omega)
  have hvps : l.mapM (fun i => calculate_voting_power i.2 i.1)
      = .ok (l.map (fun lp => lp.2 * 10 ^ 18 * lp.1 / 60)) := by
    rw [mapM_ok_iff]
    clear hper hlen hfit hday
    induction l with
    | nil => exact .nil
    | cons a l ih =>
      exact .cons (hcalc a (by simp)) (ih (fun lp hlp => hcalc lp (List.mem_cons_of_mem _ hlp)))
  obtain ⟨⟨s1, v1, u1⟩, hloop⟩ := mirror_loop_total (n := mirrorPower l)
    (((w.st.voterD id).vote_positions.values.map (·.len)).sum) w.st (w.st.voterD id) _ rfl
    (vcount_values _).ge hk.clean hpos
    (by
      intro c o
      rw [hi.votes]
      cases hg : w.st.voters.get id with
      | none => rw [State.voterD, hg]; exact Nat.zero_le _
      | some v =>
        rw [voterD_of_get hg]
        exact UMap.le_sum_of_get (f := fun _ (v : Voter) => v.votesOf c o) hg)
    (by omega)
  have hrel : MirrorRel w.st (w.st.voterD id) w.st (w.st.voterD id) :=
    ⟨rfl, fun _ _ => rfl, hi.clean, hk.clean, rfl, rfl, rfl⟩
  obtain ⟨hr, hru, hle⟩ := mirror_loop_rel _ _ _ _ _ hrel rfl hloop
  have hs1 := hr.state
  simp only at hs1 hle
  have ht1 : s1.total_voting_power = w.st.total_voting_power := by rw [hs1]
  have hm1 : s1.max_locking_positions = w.st.max_locking_positions := by rw [hs1]
  obtain ⟨r, hcr⟩ := mirror_create_total (l := l) (s := s1)
    (v := { v1 with locking_positions := [], available_voting_power := 0 })
    (by rw [hm1]; exact hi.max8) (by simp only [List.length_nil]; omega) hper (by simp)
    (fun lp hlp => ⟨_, hcalc lp hlp⟩) (by simp only; omega) (by omega)
  obtain ⟨e1, e2⟩ := mirror_create_exact hcr
  simp only [State.operator_mirror_lps, State.assert_operator, require_ok_iff, bind_ok_iff,
    addU128_ok_iff, subU_ok_iff, pure_ok_iff, internal_get_voter_eq, sumU128_ok_iff, hid]
  refine ⟨_, (), hop.symm, _, hsu, _, ⟨?_, rfl⟩, _, hvps, _, ⟨?_, rfl⟩, _, hloop, r, hcr, _, ⟨?_, rfl⟩, _,
    ⟨?_, rfl⟩, rfl⟩
  · simp only [Voter.power] at hpow; omega
  · show mirrorPower l ≤ _; omega
  · rw [e2]; simp only; omega
  · rw [e1]; simp only [Voter.power] at hpow ⊢; omega

/-- The operator mirrors positions of an external account whose delegate voted; then bob's votes come and go. -/
def mirrorZero : List Action :=
  [ .call "operator" 0 1000 (.operator_mirror_lps "0xa" [(60, 60000000), (90, 10000000)]),
    .call "alice" 1 2000 (.pre_delegate_evm_address "0xa" "sig"),
    .call "operator" 1 3000 (.operator_confirm_delegated_evm_address "0xa"),
    .call "alice" 0 4000 (.vote_delegated "0xa" 0 "app" "o"),
    .call "alice" 0 4000 (.vote_delegated "0xa" 75000000000000000000000000 "app2" "o2"),
    .call "mpdao" 0 5000 (.ft_on_transfer "bob" 60000000 (ascii "60")),
    .call "bob" 0 6000 (.vote 5 "app" "o"),
    .call "bob" 0 6000 (.unvote "app" "o") ]

def mirrorZeroW : World := (runs demoJ "me" demo0 mirrorZero).get (by decide +kernel)

/-- **C37** fails with a vote of power zero: the removal loop panics, and no mirroring to a lower power can
be accepted. -/
theorem C37_false : ∃ w : World, Reach demoJ "me" w ∧
    Res.isOk (exec demoJ w.st ⟨"me", w.st.operator_id, 0, 7000, []⟩
      (.operator_mirror_lps "0xa" [(60, 1000000)])) = false ∧
    Res.isOk (exec demoJ w.st ⟨"me", w.st.operator_id, 0, 7000, []⟩
      (.operator_mirror_lps "0xa" [(60, 100000000)])) = true :=
  ⟨mirrorZeroW, reach_of_runs demo0_init (Option.some_get _).symm, by decide +kernel, by decide +kernel⟩

/-- Same without the vote of power zero. -/
def mirrorW : World := (runs demoJ "me" demo0
  [ .call "operator" 0 1000 (.operator_mirror_lps "0xa" [(60, 60000000), (90, 10000000)]),
    .call "alice" 1 2000 (.pre_delegate_evm_address "0xa" "sig"),
    .call "operator" 1 3000 (.operator_confirm_delegated_evm_address "0xa"),
    .call "alice" 0 4000 (.vote_delegated "0xa" 15000000000000000000000000 "app" "o"),
    .call "alice" 0 4000 (.vote_delegated "0xa" 45000000000000000000000000 "app2" "o2") ]).get
  (by decide +kernel)

theorem mirrorW_reach : Reach demoJ "me" mirrorW := reach_of_runs demo0_init (Option.some_get _).symm

/-- The hypotheses can be met, with votes that have to be trimmed. -/
example : mirrorPower [(30, 100000000)] = 50000000000000000000000000 ∧
    (mirrorW.st.voterD (pseudo_near_address "0xa")).used = 60000000000000000000000000 ∧
    ∃ r, exec demoJ mirrorW.st ⟨"me", "operator", 0, 7000, []⟩ (.operator_mirror_lps "0xa" [(30, 100000000)])
      = .ok r := by
  refine ⟨by decide +kernel, by decide +kernel, C37_accepted_partial mirrorW_reach (by decide +kernel) rfl
    (by decide +kernel) (by decide +kernel) (by decide +kernel) (by decide +kernel) ?_⟩
  intro c x hx o n hn
  rw [UMap.get_eq_some_iff] at hx hn
  have : ∀ y ∈ (mirrorW.st.voterD (pseudo_near_address "0xa")).vote_positions.entries,
      ∀ z ∈ y.2.entries, z.2 ≠ 0 := by decide +kernel
  exact this _ hx _ hn

end Verif.MetaVote
