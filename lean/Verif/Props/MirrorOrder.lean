import Verif.MetaVote.AcceptIff

/-!
# C37: which votes a mirroring takes back
-/

namespace Verif.MetaVote

open Verif

/-- What is left of the votes when they are taken back from the front as long as `used` exceeds `n`. -/
def leftVotes (n : Nat) : List (String × String × Nat) → Nat → List (String × String × Nat)
  | [], _ => []
  | x :: l, used => if n < used then leftVotes n l (used - x.2.2) else x :: l

theorem loop_left {n : Nat} : ∀ (fuel : Nat) (s : State) (v : Voter) (used : Nat) (r : State × Voter × Nat),
    State.mirror_remove_votes n fuel s v used = .ok r →
    takenVotes r.2.1.vote_positions = leftVotes n (takenVotes v.vote_positions) used
  | fuel, s, v, used, r, hx => by
    unfold State.mirror_remove_votes at hx
    split at hx
    · rename_i hlt
      cases fuel with
      | zero => simp at hx
      | succ fuel =>
        simp only [bind_ok_iff, expect_ok_iff, subU_ok_iff] at hx
        obtain ⟨app, happ, obj, hobj, ⟨s1, v1⟩, hr, u, ⟨hle, rfl⟩, hx⟩ := hx
        obtain ⟨-, -, -, rfl, rfl⟩ := remove_voting_ok hr
        rw [loop_left fuel _ _ _ r hx, takenVotes_vdel happ hobj, leftVotes, if_pos hlt]
    · rename_i hlt
      simp only [pure_ok_iff] at hx
      subst hx
      cases takenVotes v.vote_positions with
      | nil => rfl
      | cons x l => rw [leftVotes, if_neg hlt]

/-- **C37**: an accepted mirroring takes the votes of the account back in a fixed order, and stops as soon as the rest
fits the new power. -/
theorem C37_taken {J : Json} {s s' : State} {c : Ctx} {e : String} {l : List (Nat × Nat)} {out : List Transfer}
    (hx : exec J s c (.operator_mirror_lps e l) = .ok (s', out)) :
    takenVotes (s'.voterD (e ++ ".evmp.near")).vote_positions = leftVotes (mirrorPower l)
      (takenVotes (s.voterD (e ++ ".evmp.near")).vote_positions) (s.voterD (e ++ ".evmp.near")).used := by
  obtain ⟨-, -, -, hr⟩ := exec_ok.1 hx
  simp only [run, quiet_ok] at hr
  obtain ⟨hr, rfl⟩ := hr
  have hid : pseudo_near_address e = e ++ ".evmp.near" := rfl
  generalize e ++ ".evmp.near" = id at hid ⊢
  simp only [State.operator_mirror_lps, State.assert_operator, require_ok_iff, bind_ok_iff,
    addU128_ok_iff, subU_ok_iff, pure_ok_iff, internal_get_voter_eq, sumU128_ok_iff, hid] at hr
  obtain ⟨-, hop, u, hu, prev, ⟨-, rfl⟩, vps, hvps, nvp, ⟨-, rfl⟩, ⟨s1, v1, u1⟩, hloop, ⟨s2, v2⟩, hcr, av,
    ⟨hav, rfl⟩, tot, ⟨htot, rfl⟩, rfl⟩ := hr
  have hu' := sum_used_votes_ok hu
  subst hu'
  obtain ⟨-, e2⟩ := mirror_create_exact hcr
  rw [mirror_powers hvps] at hloop
  rw [← loop_left _ _ _ _ _ hloop]
  simp only at e2
  simp only [State.voterD, UMap.get_insert_self, Option.getD_some, e2]

/-- Two votes of power 15 and 45, new power 50: the first one goes. -/
example : ∃ s' out, exec demoJ mirrorW.st ⟨"me", "operator", 0, 7000, []⟩ (.operator_mirror_lps "0xa" [(30, 100000000)])
      = .ok (s', out) ∧
    takenVotes (mirrorW.st.voterD ("0xa" ++ ".evmp.near")).vote_positions =
      [("app", "o", 15000000000000000000000000), ("app2", "o2", 45000000000000000000000000)] ∧
    takenVotes (s'.voterD ("0xa" ++ ".evmp.near")).vote_positions = [("app2", "o2", 45000000000000000000000000)] := by
  have hb : takenVotes (mirrorW.st.voterD ("0xa" ++ ".evmp.near")).vote_positions =
      [("app", "o", 15000000000000000000000000), ("app2", "o2", 45000000000000000000000000)] := by decide +kernel
  have hu : (mirrorW.st.voterD ("0xa" ++ ".evmp.near")).used = 60000000000000000000000000 := by decide +kernel
  obtain ⟨⟨s', out⟩, h⟩ : ∃ r, exec demoJ mirrorW.st ⟨"me", "operator", 0, 7000, []⟩
      (.operator_mirror_lps "0xa" [(30, 100000000)]) = .ok r := by
    cases hx : exec demoJ mirrorW.st ⟨"me", "operator", 0, 7000, []⟩ (.operator_mirror_lps "0xa" [(30, 100000000)]) with
    | ok r => exact ⟨r, rfl⟩
    | error p =>
      have : Res.isOk (exec demoJ mirrorW.st ⟨"me", "operator", 0, 7000, []⟩
        (.operator_mirror_lps "0xa" [(30, 100000000)])) = true := by decide +kernel
      rw [hx] at this
      cases this
  refine ⟨s', out, h, hb, ?_⟩
  rw [C37_taken h, hb, hu]
  decide

end Verif.MetaVote
