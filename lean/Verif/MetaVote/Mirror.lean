import Verif.MetaVote.VoteEffects
import Verif.MetaVote.Guard
import Verif.MetaVote.Edit
import Verif.Props.Power
import Verif.Spec.Positions

/-!
# Mirroring of external positions: exact result and acceptance
-/

namespace Verif.MetaVote

open Verif

/-- Number of entries of a two-level map. -/
def vcount (m : UMap String (UMap String Nat)) : Nat := m.sum (fun _ x => x.len)

theorem vcount_values (m : UMap String (UMap String Nat)) : (m.values.map (·.len)).sum = vcount m := by
  unfold vcount UMap.sum UMap.values
  rw [List.map_map]
  rfl

theorem vcount_vdel {m : UMap String (UMap String Nat)} {c o : String} {x : UMap String Nat} {n : Nat}
    (hx : m.get c = some x) (hn : x.get o = some n) : vcount (vdel m c o) + 1 = vcount m := by
  have h2 := UMap.sum_remove x (fun _ _ => 1) o
  rw [UMap.at_of_some hn, ← UMap.len_eq_sum, ← UMap.len_eq_sum] at h2
  unfold vdel vcount
  rw [hx, Option.getD_some]
  split
  · rename_i h
    have h1 := UMap.sum_remove m (fun _ x => x.len) c
    rw [UMap.at_of_some hx] at h1
    have h3 : (x.remove o).len = 0 := by rw [UMap.eq_empty_of_isEmpty h]; rfl
    omega
  · have h1 := UMap.sum_insert m (fun _ x => x.len) c (x.remove o)
    rw [UMap.at_of_some hx] at h1
    omega

theorem vpos_vdel {m : UMap String (UMap String Nat)} (h : vpos m) (c o : String) : vpos (vdel m c o) := by
  intro c' x hx o' n hn
  unfold vdel at hx
  split at hx
  · rw [UMap.get_remove] at hx
    split at hx
    · simp at hx
    · exact h c' x hx o' n hn
  · rw [UMap.get_insert] at hx
    split at hx
    · cases hx
      rw [UMap.get_remove] at hn
      split at hn
      · simp at hn
      · cases hg : m.get c with
        | none => rw [hg] at hn; simp [UMap.get, UMap.empty, findL] at hn
        | some y => rw [hg, Option.getD_some] at hn; exact h c y hg o' n hn
    · exact h c' x hx o' n hn

/-- Removing a non-zero vote covered by the totals succeeds. -/
theorem remove_possible {s : State} {v : Voter} {c o : String} (hv : v.votesOf c o ≠ 0)
    (hsum : v.votesOf c o ≤ s.totalVotes c o)
    (hfit : v.available_voting_power + v.votesOf c o ≤ U128_MAX) :
    ∃ r, s.internal_remove_voting_position v c o = .ok r := by
  have e1 : (v.get_vote_position_for_address c).get o = some (v.votesOf c o) := by
    have := vget_eq v.vote_positions c o
    simp only [Voter.votesOf, Voter.get_vote_position_for_address] at *
    cases hh : ((v.vote_positions.get c).getD UMap.empty).get o with
    | none => rw [hh] at this; exact absurd this hv
    | some n => rw [hh] at this; simp [this]
  have e2 : (s.internal_get_total_votes_for_address c).get o = some (s.totalVotes c o) := by
    have := vget_eq s.votes c o
    simp only [State.totalVotes, State.internal_get_total_votes_for_address] at *
    cases hh : ((s.votes.get c).getD UMap.empty).get o with
    | none => rw [hh] at this; simp at this; omega
    | some n => rw [hh] at this; simp [this]
  have hdec : ∃ s1, s.state_internal_decrease_total_votes_for_address (v.votesOf c o) c o = .ok s1 := by
    simp only [State.state_internal_decrease_total_votes_for_address, bind_ok_iff, require_ok_iff,
      expect_ok_iff, subU_ok_iff, e2]
    by_cases hem : (if s.totalVotes c o - v.votesOf c o = 0 then
          (s.internal_get_total_votes_for_address c).remove o else
          (s.internal_get_total_votes_for_address c).insert o
            (s.totalVotes c o - v.votesOf c o)).isEmpty = true
    · exact ⟨_, _, rfl, (), hsum, _, ⟨hsum, rfl⟩, by rw [if_pos hem]; rfl⟩
    · exact ⟨_, _, rfl, (), hsum, _, ⟨hsum, rfl⟩, by rw [if_neg hem]; rfl⟩
  obtain ⟨s1, hs1⟩ := hdec
  simp only [State.internal_remove_voting_position, bind_ok_iff, pure_ok_iff, expect_ok_iff,
    addU128_ok_iff]
  exact ⟨_, _, e1, _, ⟨hfit, rfl⟩, s1, hs1, rfl⟩

/-- The removal loop never runs out of votes. -/
theorem mirror_loop_total {n : Nat} : ∀ (fuel : Nat) (s : State) (v : Voter) (used : Nat),
    used = v.used → vcount v.vote_positions ≤ fuel → vclean v.vote_positions → vpos v.vote_positions →
    (∀ c o, v.votesOf c o ≤ s.totalVotes c o) → v.power ≤ U128_MAX →
    ∃ r, State.mirror_remove_votes n fuel s v used = .ok r
  | fuel, s, v, used, hu, hf, hc, hp, ht, hfit => by
    unfold State.mirror_remove_votes
    split
    · rename_i hlt
      have hne : 0 < vsum v.vote_positions := by simp only [Voter.used] at hu; omega
      cases happ : v.vote_positions.entries.head? with
      | none =>
        rw [List.head?_eq_none_iff] at happ
        rw [vsum, UMap.sum, happ] at hne
        simp at hne
      | some app =>
        have ha := head_get happ
        have hem := hc _ _ ha
        cases hobj : app.2.entries.head? with
        | none =>
          rw [List.head?_eq_none_iff] at hobj
          rw [UMap.isEmpty, hobj] at hem
          simp at hem
        | some obj =>
          have ho := head_get hobj
          have h3 : v.votesOf app.1 obj.1 = obj.2 := by simp [Voter.votesOf, vget, ha, ho]
          have hn := hp _ _ ha _ _ ho
          have hcnt := vcount_vdel ha ho
          have hle := vget_le_vsum v.vote_positions app.1 obj.1
          have hvo : vget v.vote_positions app.1 obj.1 = obj.2 := h3
          have hvd := vsum_vdel v.vote_positions app.1 obj.1
          obtain ⟨⟨s1, v1⟩, hr⟩ := remove_possible (s := s) (v := v) (c := app.1) (o := obj.1)
            (by rw [h3]; exact hn) (ht _ _) (by
              simp only [Voter.power, Voter.used] at hfit; omega)
          cases fuel with
          | zero => omega
          | succ fuel =>
            obtain ⟨-, -, h1, rfl, rfl⟩ := remove_voting_ok hr
            have hsub : obj.2 ≤ used := by simp only [Voter.used] at hu; omega
            obtain ⟨r, hrr⟩ := mirror_loop_total (n := n) fuel { s with
                votes := (if s.totalVotes app.1 obj.1 - v.votesOf app.1 obj.1 = 0 then
                  vdel s.votes app.1 obj.1
                  else vset s.votes app.1 obj.1 (s.totalVotes app.1 obj.1 - v.votesOf app.1 obj.1)) }
              { v with
                available_voting_power := v.available_voting_power + v.votesOf app.1 obj.1
                vote_positions := vdel v.vote_positions app.1 obj.1 } (used - obj.2)
              (by simp only [Voter.used] at hu ⊢; omega) (by simp only; omega) (vclean_vdel hc _ _)
              (vpos_vdel hp _ _)
              (by
                intro c o
                show vget (vdel v.vote_positions app.1 obj.1) c o ≤
                  vget (if s.totalVotes app.1 obj.1 - v.votesOf app.1 obj.1 = 0 then
                    vdel s.votes app.1 obj.1
                    else vset s.votes app.1 obj.1 (s.totalVotes app.1 obj.1 - v.votesOf app.1 obj.1)) c o
                rw [decreased_vget, vget_vdel]
                split
                · omega
                · exact ht c o)
              (by simp only [Voter.power, Voter.used, Voter.votesOf] at hfit ⊢; omega)
            refine ⟨r, ?_⟩
            simp only [bind_ok_iff, expect_ok_iff, subU_ok_iff]
            exact ⟨app, rfl, obj, hobj, _, hr, _, ⟨hsub, rfl⟩, hrr⟩
    · exact ⟨_, rfl⟩

/-- Votes are only removed as long as they do not fit: with the last removed vote, the used power
exceeds the new power. -/
theorem mirror_loop_needed {n : Nat} : ∀ (fuel : Nat) (s : State) (v : Voter) (used : Nat)
    (r : State × Voter × Nat), State.mirror_remove_votes n fuel s v used = .ok r →
    (used ≤ n ∧ r = (s, v, used)) ∨
    (n < used ∧ ∃ c o, v.votesOf c o ≠ 0 ∧ r.2.1.votesOf c o = 0 ∧ n < r.2.2 + v.votesOf c o)
  | fuel, s, v, used, r, hx => by
    unfold State.mirror_remove_votes at hx
    split at hx
    · rename_i hlt
      cases fuel with
      | zero => simp at hx
      | succ fuel =>
        simp only [bind_ok_iff, expect_ok_iff, subU_ok_iff] at hx
        obtain ⟨app, happ, obj, hobj, ⟨s1, v1⟩, hr, u, ⟨hle, rfl⟩, hx⟩ := hx
        obtain ⟨-, -, -, rfl, rfl⟩ := remove_voting_ok hr
        have h3 : v.votesOf app.1 obj.1 = obj.2 := by
          simp [Voter.votesOf, vget, head_get happ, head_get hobj]
        rcases mirror_loop_needed fuel _ _ _ r hx with ⟨hn, rfl⟩ | ⟨-, c, o, h1, h2, h4⟩
        · refine .inr ⟨hlt, app.1, obj.1, by omega, ?_, by simp only; omega⟩
          show vget (vdel v.vote_positions app.1 obj.1) app.1 obj.1 = 0
          rw [vget_vdel]; simp
        · right
          have hv : ∀ c o, vget (vdel v.vote_positions app.1 obj.1) c o ≠ 0 →
              vget (vdel v.vote_positions app.1 obj.1) c o = v.votesOf c o := by
            intro c o h
            rw [vget_vdel] at h ⊢
            split at h
            · simp at h
            · rename_i hne; rw [if_neg hne]; rfl
          have e := hv c o h1
          exact ⟨hlt, c, o, by rw [← e]; exact h1, h2, by rw [← e]; exact h4⟩
    · simp only [pure_ok_iff] at hx
      exact .inl ⟨by omega, hx.symm⟩

theorem mirrorPower_cons (lp : Nat × Nat) (l : List (Nat × Nat)) :
    mirrorPower (lp :: l) = lp.2 * 10 ^ 18 * lp.1 / 60 + mirrorPower l := by
  simp [mirrorPower]

theorem mirror_powers {l : List (Nat × Nat)} {vps : List Nat}
    (h : l.mapM (fun i => calculate_voting_power i.2 i.1) = .ok vps) : vps.sum = mirrorPower l := by
  rw [mapM_ok_iff] at h
  induction h with
  | nil => rfl
  | cons h _ ih =>
    obtain ⟨-, -, -, rfl⟩ := (C01_formula _ _ _).1 h
    rw [mirrorPower_cons, List.sum_cons, ih]

/-- The creation loop, exactly. -/
theorem mirror_create_exact : ∀ {l : List (Nat × Nat)} {s : State} {v : Voter} {r : State × Voter},
    l.foldlM State.mirror_step (s, v) = .ok r →
    r.1 = { s with total_voting_power := s.total_voting_power + mirrorPower l } ∧
    r.2 = { v with
      locking_positions := v.locking_positions ++ l.map mirrorPosition
      available_voting_power := v.available_voting_power + mirrorPower l }
  | [], s, v, r, h => by
    rw [foldlM_ok_nil] at h
    subst h
    simp [mirrorPower]
  | lp :: l, s, v, r, h => by
    rw [foldlM_ok_cons] at h
    obtain ⟨⟨s1, v1⟩, h1, h2⟩ := h
    obtain ⟨vp, hvp, -, -, -, -, rfl, rfl⟩ := create_locking_ok h1
    obtain ⟨-, -, -, rfl⟩ := (C01_formula _ _ _).1 hvp
    obtain ⟨e1, e2⟩ := mirror_create_exact h2
    rw [e1, e2, mirrorPower_cons]
    simp only [List.map_cons, List.append_assoc, List.singleton_append, mirrorPosition, Nat.add_assoc,
      and_self]

theorem mirror_create_mirrored {l : List (Nat × Nat)} {s : State} {v : Voter} {r : State × Voter}
    (hv : v.locking_positions = []) (h : l.foldlM State.mirror_step (s, v) = .ok r) :
    Mirrored r.2.locking_positions := by
  refine foldlM_inv (fun x : State × Voter => Mirrored x.2.locking_positions) ?_ _ _ _
    (by simp only [hv]; exact ⟨by simp, by simp⟩) h
  rintro ⟨s1, v1⟩ lp ⟨s2, v2⟩ h2 hs
  obtain ⟨vp, hvp, hf, -, -, -, rfl, rfl⟩ := create_locking_ok hs
  refine ⟨?_, ?_⟩
  · intro p hp
    rcases List.mem_append.1 hp with hp | hp
    · exact h2.ok p hp
    · rw [List.mem_singleton] at hp; subst hp; exact ⟨rfl, hvp⟩
  · simp only [List.map_append, List.map_cons, List.map_nil]
    rw [List.nodup_append]
    refine ⟨h2.nodup, by simp, ?_⟩
    intro a ha b hb
    rw [List.mem_singleton] at hb
    subst hb
    rintro rfl
    obtain ⟨p, hp, hpd⟩ := List.mem_map.1 ha
    exact find_locked_none hf p hp hpd (h2.ok p hp).1

theorem find_locked_none_of {v : Voter} {d : Nat} (h : ∀ p ∈ v.locking_positions, p.locking_period ≠ d) :
    v.find_locked_position d = none := by
  unfold Voter.find_locked_position
  rw [List.findIdx?_eq_none_iff]
  intro p hp
  simp [h p hp]

/-- The creation loop accepts distinct periods that fit. -/
theorem mirror_create_total : ∀ {l : List (Nat × Nat)} {s : State} {v : Voter},
    s.max_locking_positions ≤ U8_MAX →
    v.locking_positions.length + l.length ≤ s.max_locking_positions →
    (l.map Prod.fst).Nodup → (∀ p ∈ v.locking_positions, p.locking_period ∉ l.map Prod.fst) →
    (∀ lp ∈ l, ∃ vp, calculate_voting_power lp.2 lp.1 = .ok vp) →
    v.available_voting_power + mirrorPower l ≤ U128_MAX →
    s.total_voting_power + mirrorPower l ≤ U128_MAX →
    ∃ r, l.foldlM State.mirror_step (s, v) = .ok r
  | [], s, v, _, _, _, _, _, _, _ => ⟨_, rfl⟩
  | lp :: l, s, v, h8, hlen, hnd, hdisj, hvp, ha, ht => by
    obtain ⟨vp, hv⟩ := hvp lp (by simp)
    obtain ⟨-, -, -, hvpe⟩ := (C01_formula _ _ _).1 hv
    rw [mirrorPower_cons, ← hvpe] at ha ht
    simp only [List.length_cons] at hlen
    simp only [List.map_cons, List.nodup_cons] at hnd
    have hf : v.find_locked_position lp.1 = none := by
      refine find_locked_none_of ?_
      intro p hp hpl
      exact absurd (by simp [hpl]) (hdisj p hp)
    have h1 : s.internal_create_locking_position v lp.2 lp.1 = .ok
        ({ s with total_voting_power := s.total_voting_power + vp },
         { v with
           locking_positions := v.locking_positions ++ [⟨lp.2, lp.1, vp, none⟩]
           available_voting_power := v.available_voting_power + vp }) := by
      simp only [State.internal_create_locking_position, bind_ok_iff, require_ok_iff, addU128_ok_iff,
        pure_ok_iff]
      simp only [U8_MAX] at h8
      exact ⟨(), by omega, (), hf, vp, hv, _, ⟨by omega, rfl⟩, _, ⟨by omega, rfl⟩, rfl⟩
    obtain ⟨r, hr⟩ := mirror_create_total (l := l)
      (s := { s with total_voting_power := s.total_voting_power + vp })
      (v := { v with
           locking_positions := v.locking_positions ++ [⟨lp.2, lp.1, vp, none⟩]
           available_voting_power := v.available_voting_power + vp })
      h8 (by simp only [List.length_append, List.length_singleton]; omega) hnd.2
      (by
        intro p hp
        rcases List.mem_append.1 hp with hp | hp
        · intro hm; exact hdisj p hp (by simp only [List.map_cons, List.mem_cons]; exact .inr hm)
        · rw [List.mem_singleton] at hp; subst hp; exact hnd.1)
      (fun q hq => hvp q (List.mem_cons_of_mem _ hq)) (by simp only; omega) (by simp only; omega)
    exact ⟨r, foldlM_ok_cons.2 ⟨_, h1, hr⟩⟩

end Verif.MetaVote
