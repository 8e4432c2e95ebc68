import Verif.Serde.Views
import Verif.MetaVote.Page

/-!
# The answers of meta-vote fit their types
-/

namespace Verif.MetaVote

open Verif Storage Serde

/-- The two counters shown, which are `u64` in storage. -/
def State.Counted (s : State) : Prop := s.voters.len ≤ U64_MAX ∧ s.evm_delegates.len ≤ U64_MAX

theorem vget_of_entries {m : UMap String (UMap String Nat)} {a : String × UMap String Nat} {o : String × Nat}
    (ha : a ∈ m.entries) (ho : o ∈ a.2.entries) : vget m a.1 o.1 = o.2 := by
  have h1 : m.get a.1 = some a.2 := UMap.get_eq_some_iff.2 ha
  have h2 : a.2.get o.1 = some o.2 := UMap.get_eq_some_iff.2 ho
  simp [vget, h1, h2]

theorem sort_mem {l : List VotableObjectJSON} {x : VotableObjectJSON} (h : x ∈ State.sort_by_votes l) : x ∈ l :=
  (List.mem_insertionSort _).1 h

section
variable {J : Json} {me : AccountId} {w : World} (h : Reach J me w)
include h

theorem votesOf_fit (id a o : String) : (w.st.voterD id).votesOf a o ≤ U128_MAX := by
  have := (reach_sound h).votes_le id a o
  have := (reach_sound h).total
  omega

theorem totalVotes_fit (a o : String) : w.st.totalVotes a o ≤ U128_MAX := by
  have := (reach_sound h).total_votes a o ""
  have := (reach_sound h).total
  omega

theorem available_fit (id : String) : (w.st.voterD id).available_voting_power ≤ U128_MAX :=
  ((reach_sound h).available id).trans (reach_sound h).total

theorem voter_json_ok (now : Nat) (id : String) : voterTy.ok ((w.st.voterD id).to_json now id) := by
  refine ⟨trivial, (reach_sound h).balance id, fun p hp => ?_, available_fit h id, fun p hp => ?_⟩
  · have := shown_ok h now id
    unfold State.get_all_locking_positions at this
    rw [internal_get_voter_eq] at this
    exact this p hp
  · obtain ⟨a, ha, hp⟩ := List.mem_flatMap.1 hp
    obtain ⟨o, ho, rfl⟩ := List.mem_map.1 hp
    refine ⟨trivial, trivial, ?_⟩
    have := votesOf_fit h id a.1 o.1
    rw [Voter.votesOf, vget_of_entries ha ho] at this
    exact this

theorem voter_info_ok (now : Nat) (id : String) : voterTy.ok (w.st.get_voter_info now id) := by
  unfold State.get_voter_info
  cases hv : w.st.voters.get id with
  | some v =>
    have := voter_json_ok h now id
    rw [State.voterD, hv] at this
    exact this
  | none => exact ⟨trivial, Nat.zero_le _, fun p hp => (by cases hp), Nat.zero_le _, fun p hp => (by cases hp)⟩

theorem claims_fit : (∀ e ∈ w.st.claimable_mpdao.entries, e.2 ≤ U128_MAX) ∧
    (∀ e ∈ w.st.claimable_stnear.entries, e.2 ≤ U128_MAX) ∧ w.st.total_unclaimed_mpdao ≤ U128_MAX ∧
    w.st.total_unclaimed_stnear ≤ U128_MAX := by
  have hs := reach_sound h
  refine ⟨fun e he => ?_, fun e he => ?_, hs.fits.1, hs.fits.2⟩
  · have h1 : w.st.claimable_mpdao.get e.1 = some e.2 := UMap.get_eq_some_iff.2 he
    have h2 := UMap.le_sum_of_get (f := fun _ x => x) h1
    rw [← hs.cinv.mpdao] at h2
    exact h2.trans hs.fits.1
  · have h1 : w.st.claimable_stnear.get e.1 = some e.2 := UMap.get_eq_some_iff.2 he
    have h2 := UMap.le_sum_of_get (f := fun _ x => x) h1
    rw [← hs.cinv.stnear] at h2
    exact h2.trans hs.fits.2

omit h in
theorem page_ok {V R : Type} {m : UMap String V} {f : String → V → R} {a n : Nat} {l : List R} (hp : page m f a n = .ok l) :
    ∀ x ∈ l, ∃ e ∈ m.entries, x = f e.1 e.2 := by
  rw [page_eq] at hp
  cases hp
  intro x hx
  obtain ⟨e, he, rfl⟩ := List.mem_map.1 hx
  exact ⟨e, List.mem_of_mem_drop (List.mem_of_mem_take he), rfl⟩

omit h in
theorem sum_fit {l : List Nat} {n : Nat} (hs : sumU128 l = .ok n) : n ≤ U128_MAX := by
  obtain ⟨h1, rfl⟩ := sumU128_ok_iff.1 hs
  exact h1

omit h in
theorem balance_fit {s : State} {now n : Nat} {id : String} (hr : s.get_balance now id = .ok n) : n ≤ U128_MAX := by
  simp only [State.get_balance, bind_ok_iff, addU128_ok_iff] at hr
  obtain ⟨_, -, h1, rfl⟩ := hr
  exact h1

omit h in
theorem used_fit {s : State} {n : Nat} {id : String} (hr : s.get_used_voting_power id = .ok n) : n ≤ U128_MAX := by
  simp only [State.get_used_voting_power, Voter.sum_used_votes, bind_ok_iff] at hr
  obtain ⟨_, -, h1⟩ := hr
  exact sum_fit h1

omit h in
theorem getD_fit {m : UMap String Nat} (hm : ∀ e ∈ m.entries, e.2 ≤ U128_MAX) (id : String) : (m.get id).getD 0 ≤ U128_MAX := by
  cases hg : m.get id with
  | none => exact Nat.zero_le _
  | some n => exact hm _ (UMap.get_eq_some_iff.1 hg)

theorem position_ok (now i : Nat) (id : String) : ∀ p, w.st.get_locking_position now i id = some p → positionTy.ok p := by
  intro p hp
  refine shown_ok h now id p ?_
  unfold State.get_locking_position at hp
  unfold State.get_all_locking_positions positions_json
  split at hp
  · rename_i q hq
    cases hp
    refine List.mem_map.2 ⟨(q, i), ?_, rfl⟩
    rw [List.mem_zipIdx_iff_getElem?]
    exact hq
  · cases hp

theorem votes_by_app_fit (a : String) : ∀ e ∈ w.st.get_votes_by_app a, e.2 ≤ U128_MAX := by
  intro e he
  unfold State.get_votes_by_app at he
  cases hg : w.st.votes.get a with
  | none => rw [hg] at he; cases he
  | some m =>
    rw [hg] at he
    have := totalVotes_fit h a e.1
    rw [State.totalVotes, vget_of_entries (a := (a, m)) (o := e) (UMap.get_eq_some_iff.1 hg) he] at this
    exact this

/-- The answer of every view fits its type. -/
theorem view_ok (hc : w.st.Counted) {now : Nat} {v : View} {r : v.Out} (hr : w.st.view now v = .ok r) : v.ty.ok r := by
  have hcf := reach_configOK h
  have hgi := reach_given h
  obtain ⟨hm, hn, hm', hn'⟩ := claims_fit h
  cases v with
  | get_owner_id | get_operator_id | get_airdrop_account | check_if_registered_for_airdrops | check_if_user_is_registerd =>
    exact trivial
  | get_pre_delegate_evm_address => exact fun _ _ => ⟨trivial, trivial⟩
  | get_delegate => exact fun _ _ => trivial
  | get_delegation_signature => exact ⟨trivial, trivial⟩
  | get_airdrop_accounts => exact fun _ _ => ⟨trivial, trivial⟩
  | get_delegating_evm_addresses => exact fun _ _ => trivial
  | get_delegates => exact fun _ _ => ⟨trivial, fun _ _ => trivial⟩
  | get_contract_info =>
    cases hr
    exact ⟨trivial, trivial, hc.1, hcf.1, hcf.2.1, hcf.2.2.1, hcf.2.2.2.1, hcf.2.2.2.2.1, trivial, trivial, hcf.2.2.2.2.2.1, trivial, hgi.1, hm',
      hgi.2, hn', hc.2⟩
  | get_voters_count => cases hr; exact hc.1
  | get_total_voting_power => cases hr; exact (reach_sound h).total
  | get_voter_info id => cases hr; exact voter_info_ok h now id
  | get_voters a n =>
    intro x hx
    obtain ⟨e, he, rfl⟩ := page_ok hr x hx
    have := voter_json_ok h now e.1
    rw [State.voterD, UMap.get_eq_some_iff.2 he] at this
    exact this
  | get_balance id =>
    exact balance_fit hr
  | get_claimable_mpdao id | get_claimable_meta id => cases hr; exact getD_fit hm id
  | get_claimable_stnear id => cases hr; exact getD_fit hn id
  | get_stnear_claims a n =>
    intro x hx
    obtain ⟨e, he, rfl⟩ := page_ok hr x hx
    exact ⟨trivial, hn e he⟩
  | get_claims a n =>
    intro x hx
    obtain ⟨e, he, rfl⟩ := page_ok hr x hx
    exact ⟨trivial, hm e he⟩
  | get_locked_balance id | get_unlocking_balance id => exact sum_fit hr
  | get_available_voting_power id => cases hr; exact available_fit h id
  | get_used_voting_power id =>
    exact used_fit hr
  | get_locking_period => cases hr; exact ⟨hcf.1, hcf.2.1⟩
  | get_all_locking_positions id => cases hr; exact shown_ok h now id
  | get_locking_position i id => cases hr; exact position_ok h now i id
  | get_total_votes a o =>
    cases hr
    have := totalVotes_fit h a o
    rwa [← get_total_votes_eq] at this
  | get_votes_by_app a => cases hr; exact fun e he => ⟨trivial, votes_by_app_fit h a e he⟩
  | get_votes_by_contract a =>
    cases hr
    intro x hx
    obtain ⟨o, ho, rfl⟩ := List.mem_map.1 (sort_mem hx)
    exact ⟨trivial, trivial, votes_by_app_fit h a o ho⟩
  | get_votes_by_voter id =>
    cases hr
    intro x hx
    obtain ⟨a, ha, hx⟩ := List.mem_flatMap.1 (sort_mem hx)
    rw [internal_get_voter_eq] at ha
    obtain ⟨o, ho, rfl⟩ := List.mem_map.1 hx
    refine ⟨trivial, trivial, ?_⟩
    have := votesOf_fit h id a.1 o.1
    rw [Voter.votesOf, vget_of_entries ha ho] at this
    exact this
  | get_votes_for_object id a o =>
    cases hr
    have := votesOf_fit h id a o
    rwa [← get_votes_for_object_eq] at this
  | get_total_unclaimed_mpdao | get_total_unclaimed_meta => cases hr; exact hm'
  | get_accumulated_mpdao_distributed_for_claims | get_accumulated_distributed_for_claims => cases hr; exact hgi.1
  | get_registration_cost => cases hr; exact hcf.2.2.2.2.2.1
  | get_lock_in_vote_filters => cases hr; exact ⟨hcf.2.2.2.2.2.2.1, fun _ _ => trivial, hcf.2.2.2.2.2.2.2⟩

end

end Verif.MetaVote
