import Verif.Props.StorageRefines
import Verif.Props.Exit
import Verif.Props.Rounding
import Verif.Storage.Loose

/-!
# C74 and C75 over storage
-/

namespace Verif.Storage

open Verif MetaVote

/-- Worlds reachable over storage with careful calls, in which `id` unlocks only locked positions. -/
inductive SReachU (J : Json) (me : AccountId) (A : String → String → Prop) (id : String) : SWorld → Prop
  | init {w : SWorld} (h : SInit w) : SReachU J me A id w
  | step {w w' : SWorld} (h : SReachU J me A id w) (hs : SStep J me w w')
      (hg : ∀ c k out, w'.log = .call c k out :: w.log → Careful A w.S w'.S c k ∧ ownUnlocks id w.S.st c k) :
      SReachU J me A id w'

section
variable {J : Json} {me : AccountId} {A : String → String → Prop} {id : String} {W : SWorld} {w w' : World}

theorem Agree.voter (h : Agree A W w) (id : String) : W.S.st.voterD id = (w.st.voterD id).bare := by
  rw [h.repr.st, ← internal_get_voter_eq, ← internal_get_voter_eq]; exact get_voter_bare _ _

theorem Agree.unlocks (h : Agree A W w) {c : Ctx} {k : Call} (hk : ownUnlocks id W.S.st c k) : ownUnlocks id w.st c k := by
  intro e
  have := hk e
  unfold unlocksLocked at this ⊢
  rw [h.voter] at this
  exact this

/-- Such an execution is an execution of the model of the same kind. -/
theorem reachU_agree (hj : Joins A) (h : SReachU J me A id W) : ∃ w, ReachG J me (ownUnlocks id) w ∧ Agree A W w := by
  induction h with
  | init h =>
    obtain ⟨w, hw, ha⟩ := agree_init h
    exact ⟨w, .init hw, ha⟩
  | step h hs hg ih =>
    obtain ⟨w, hw, ha⟩ := ih
    obtain ⟨w', hs', ha'⟩ := agree_step hj ha hs fun c k out hl => (hg c k out hl).1
    refine ⟨w', .step hw hs' ?_, ha'⟩
    intro c k out hl
    rw [← ha.log, ← ha'.log] at hl
    exact ha.unlocks (hg c k out hl).2

/-- The preparations of a voter who leaves are the same over storage. -/
theorem leaving_agree (hj : Joins A) : ∀ {l : List Action} {W : SWorld} {w : World}, Agree A W w →
    (∀ a ∈ l, a.leaving A id) → runs J me w l = some w' → ∃ W', sruns J me W l = some W' ∧ Agree A W' w'
  | [], W, w, ha, _, h => by cases h; exact ⟨W, rfl, ha⟩
  | a :: l, W, w, ha, hl, h => by
    simp only [runs] at h
    split at h
    · rename_i w1 hw1
      obtain ⟨W1, hW1, ha1⟩ : ∃ W1, sact J me W a = some W1 ∧ Agree A W1 w1 := by
        have hla := hl a (by simp)
        cases a with
        | call p d ts k =>
          simp only [act] at hw1
          split at hw1
          · rename_i hc
            split at hw1
            · rename_i r hr
              cases hw1
              have hk : Allowed A ⟨me, p, d, ts, []⟩ k ∧ ∀ S', Keeps W.S S' ⟨me, p, d, ts, []⟩ k := by
                cases k <;> first
                  | exact hla.elim
                  | exact ⟨trivial, fun _ => trivial⟩
                  | (obtain ⟨rfl, hx⟩ := hla; exact ⟨hx, fun _ => trivial⟩)
              obtain ⟨R, hR, -, h1, h2⟩ := (sim_exec hj ha.repr J hk.1).ok_right hr
              refine ⟨⟨R.1, W.pending ++ R.2, ts, .call ⟨me, p, d, ts, []⟩ k R.2 :: W.log⟩, ?_, ?_⟩
              · simp only [sact, ha.clock, hc, not_false_eq_true, and_self, if_true, hR]
              · exact ⟨h1 (hk.2 _), by rw [ha.pending, h2], rfl, by rw [ha.log, h2]⟩
            · simp at hw1
          · simp at hw1
        | resolve i ok ts => exact hla.elim
        | tick ts =>
          simp only [act] at hw1
          split at hw1
          · rename_i hc
            cases hw1
            exact ⟨{ W with clock := ts }, by simp only [sact, ha.clock, hc, and_self, if_true],
              ha.repr, ha.pending, rfl, ha.log⟩
          · simp at hw1
      obtain ⟨W', hW', ha'⟩ := leaving_agree hj ha1 (fun b hb => hl b (by simp [hb])) h
      exact ⟨W', by simp only [sruns, hW1]; exact hW', ha'⟩
    · simp at h

theorem sruns_append : ∀ {l l' : List Action} {w w1 w2 : SWorld}, sruns J me w l = some w1 → sruns J me w1 l' = some w2 →
    sruns J me w (l ++ l') = some w2
  | [], _, w, w1, w2, h, h' => by cases h; exact h'
  | a :: l, l', w, w1, w2, h, h' => by
    simp only [sruns, List.cons_append] at h ⊢
    split at h
    · exact sruns_append h h'
    · simp at h

/-- **C74** (partial, over storage): a voter who has never unlocked a position that was already unlocking can always recover
everything alone, as long as nobody withdraws the last funds of an account that still has votes and the pairs of voter and app
that are used have distinct ids. -/
theorem C74_storage_partial (hj : Joins A) (h : SReachU J me A id W) (hm : ¬ mirrored id)
    (h0 : 0 < (W.S.st.voterD id).held) (hfit : (W.S.st.voterD id).held ≤ U128_MAX)
    (htime : max W.clock (W.S.st.get_lock_in_vote_filters.1 * 1000000) + 3600 * 86400000000000 ≤ U64_MAX) :
    ∃ l W', (∀ a ∈ l, Action.own id a) ∧ sruns J me W l = some W' ∧ W'.S.st.voters.get id = none ∧
      W'.pending = W.pending ++ [⟨W.S.st.mpdao_token_contract_address, id, (W.S.st.voterD id).held,
        .after_transfer_mpdao id (W.S.st.voterD id).held⟩] := by
  obtain ⟨w, hw, ha⟩ := reachU_agree hj h
  have hh : (W.S.st.voterD id).held = (w.st.voterD id).held := by rw [ha.voter]; rfl
  have hmp : W.S.st.mpdao_token_contract_address = w.st.mpdao_token_contract_address := by rw [ha.repr.st]; rfl
  have hli : W.S.st.get_lock_in_vote_filters.1 = w.st.get_lock_in_vote_filters.1 := by rw [ha.repr.st]; rfl
  rw [hh] at h0 hfit
  rw [hli, ha.clock] at htime
  obtain ⟨w2, T, ⟨l, hl, hrun⟩, hr, hc, hT, hp, hh2, hmat⟩ := way_out (A := A) hw hm (by
    intro app obj hv
    cases hg : (w.st.voterD id).vote_positions.get app with
    | none => exact absurd (show vget _ _ _ = 0 by rw [vget_eq, hg]; rfl) hv
    | some m => exact ha.repr.mem.allowed id app m hg) htime
  obtain ⟨W2, hW2, ha2⟩ := leaving_agree hj ha hl hrun
  rw [← hh2] at h0 hfit
  obtain ⟨s', hx, hg⟩ := last_withdrawal (J := J) (me := me) (lreach_fundOK hr.loose id).1 h0 hfit hmat
  obtain ⟨R, hR, hs, -, ho⟩ := (sim_exec hj ha2.repr J (x := ⟨me, id, 1, T, []⟩) (k := .withdraw_all) trivial).ok_right hx
  simp only at ho hs
  refine ⟨l ++ [.call id 1 T .withdraw_all], ⟨R.1, W2.pending ++ R.2, T, .call ⟨me, id, 1, T, []⟩ .withdraw_all R.2 :: W2.log⟩,
    ?_, sruns_append hW2 ?_, ?_, ?_⟩
  · intro a hal
    rcases List.mem_append.1 hal with hal | hal
    · exact Action.leaving_own (hl a hal)
    · simp only [List.mem_singleton] at hal
      subst hal
      rfl
  · simp only [sruns, sact, ha2.clock, hm, hc, hT, not_false_eq_true, and_self, if_true, hR]
  · simp only [hs]
    rw [show s'.bare.voters = s'.voters.mapV (fun _ v => v.bare) from rfl, UMap.get_mapV, hg]
    rfl
  · simp only [ho, ha2.pending, hp, hh, hh2, hmp, ha.pending, (steps_of_runs hrun).mpdao]

/-- **C75** over storage. -/
theorem C75_storage (h : SReach J me W) (id : String) (now : Nat) :
    ∀ p ∈ W.S.st.get_all_locking_positions now id,
      p.amount * 10 ^ 18 * p.locking_period / 60 ≤ p.voting_power + roundsIn J id W.log + 1 ∧
      p.voting_power ≤ p.amount * 10 ^ 18 * p.locking_period / 60 + roundsIn J id W.log + 1 :=
  C75_units h.loose id now

end

theorem sreachU_of_sruns {J : Json} {me : AccountId} {A : String → String → Prop} {id : String} :
    ∀ {l : List Action} {w w' : SWorld}, SReachU J me A id w → (∀ a ∈ l, Action.allowed A me a) →
    (∀ p d ts i, .call p d ts (.unlock_position i) ∈ l → p ≠ id) →
    (∀ p d ts i n, .call p d ts (.unlock_partial_position i n) ∈ l → p ≠ id) → skeeps J me w l = true →
    sruns J me w l = some w' → SReachU J me A id w'
  | [], w, w', hw, _, _, _, _, h => by cases h; exact hw
  | a :: l, w, w', hw, hc, hu, hu', hk, h => by
    simp only [sruns] at h
    simp only [skeeps] at hk
    split at h
    · rename_i w1 hw1
      rw [hw1] at hk
      simp only [Bool.and_eq_true] at hk
      refine sreachU_of_sruns (.step hw (sstep_of_sact hw1) ?_) (fun b hb => hc b (by simp [hb]))
        (fun p d ts i hb => hu p d ts i (by simp [hb])) (fun p d ts i n hb => hu' p d ts i n (by simp [hb])) hk.2 h
      intro c k out hl
      obtain ⟨p, d, ts, rfl, rfl⟩ := sact_log hw1 hl
      refine ⟨⟨hc (.call p d ts k) (by simp), Action.keeps_iff hk.1⟩, fun e => ?_⟩
      cases k <;> first
        | trivial
        | exact absurd e (hu p d ts _ List.mem_cons_self)
        | exact absurd e (hu' p d ts _ _ List.mem_cons_self)
    · simp at h

/-- The hypotheses are met by Bob, who has votes, in `tidyW`. -/
example : Joins (fun _ c => '-' ∉ c.toList) ∧ SReachU demoJ "me" (fun _ c => '-' ∉ c.toList) "bob" tidyW ∧
    0 < (tidyW.S.st.voterD "bob").held ∧ (tidyW.S.st.voterD "bob").held ≤ U128_MAX ∧
    tidyW.S.get_votes_for_object "bob" "A" "o" = .ok 60000000000000000000000000 ∧
    max tidyW.clock (tidyW.S.st.get_lock_in_vote_filters.1 * 1000000) + 3600 * 86400000000000 ≤ U64_MAX := by
  refine ⟨joins_names.1, sreachU_of_sruns (.init (.mk demo0 demo0_init)) ?_ ?_ ?_ (by decide +kernel)
    (Option.some_get _).symm, by decide +kernel, by decide +kernel, by decide +kernel, by decide +kernel⟩
  · intro a ha
    simp only [tidy, List.mem_cons, List.not_mem_nil, or_false] at ha
    rcases ha with rfl | rfl | rfl | rfl | rfl | rfl | rfl | rfl | rfl | rfl | rfl | rfl | rfl <;>
      simp [Action.allowed, Allowed]
  · intro p d ts i ha
    simp only [tidy, List.mem_cons, List.not_mem_nil, or_false, Action.call.injEq, reduceCtorEq, and_false, false_or,
      or_false] at ha
    rw [ha.1]; decide
  · intro p d ts i n ha
    simp [tidy] at ha

end Verif.Storage
