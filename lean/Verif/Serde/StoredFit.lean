import Verif.Serde.ViewsFit
import Verif.Serde.BytesApi

/-!
# The answers of meta-vote over the storage of the vote maps

The views as they read the vote maps from storage, for any contents of that storage.  Whatever is stored as bytes fits its type,
so every answer does.
-/

namespace Verif.Storage

open Verif MetaVote

/-- The view methods over the storage of the vote maps; the views that do not read these are those of `State.view`
(`view.rs:34-337`, `lib.rs:768-774`). -/
def SState.view (S : SState) (now : Nat) : (v : View) → Res v.Out
  | .get_voter_info voter_id => S.get_voter_info now voter_id
  | .get_voters from_index limit => S.get_voters now from_index limit
  | .get_used_voting_power voter_id => S.get_used_voting_power voter_id
  | .get_total_votes contract_address votable_object_id => S.get_total_votes contract_address votable_object_id
  | .get_votes_by_app app_or_contract_address => S.get_votes_by_app app_or_contract_address
  | .get_votes_by_contract contract_address => S.get_votes_by_contract contract_address
  | .get_votes_by_voter voter_id => S.get_votes_by_voter voter_id
  | .get_votes_for_object voter_id contract_address votable_object_id =>
    S.get_votes_for_object voter_id contract_address votable_object_id
  | v => S.st.view now v

end Verif.Storage

namespace Verif.MetaVote.Bytes

open Verif Storage Disk Borsh Serde

variable {H : Hash} {N : Names} {f : Nat} {D : Disk} {S : SState}

theorem get_vals {V : Type} {C : Cells String V} {len : Nat} {k : String} {v : V} (h : C.get len k = .ok (some v)) :
    ∃ i, C.vals i = some v := by
  unfold Cells.get at h
  cases hi : C.index k with
  | none => rw [hi] at h; cases h
  | some i =>
    rw [hi] at h
    simp only [Storage.vecGet] at h
    by_cases hl : i < len
    · rw [if_pos hl] at h
      cases hv : C.vals i with
      | none => rw [hv] at h; cases h
      | some x =>
        rw [hv] at h
        cases h
        exact ⟨i, hv⟩
    · rw [if_neg hl] at h; cases h

theorem entries_vals {V : Type} {C : Cells String V} {len : Nat} {l : List (String × V)} (h : C.entries len = .ok l) :
    ∀ e ∈ l, ∃ i, C.vals i = some e.2 := by
  intro e he
  obtain ⟨i, -, hi⟩ := mapM_mem h e he
  cases hk : C.keys i with
  | none => rw [hk] at hi; cases hi
  | some k =>
    cases hv : C.vals i with
    | none => rw [hk, hv] at hi; cases hi
    | some v => rw [hk, hv] at hi; cases hi; exact ⟨i, hv⟩

theorem byKeys_vals {C : Cells String Nat} {len : Nat} {l : List (String × Nat)} (h : C.byKeys len = .ok l) :
    ∀ e ∈ l, ∃ i, C.vals i = some e.2 := by
  intro e he
  unfold Cells.byKeys at h
  obtain ⟨keys, -, h⟩ := bind_ok_iff.1 h
  obtain ⟨k, -, hk⟩ := mapM_mem h e he
  obtain ⟨o, ho, hk⟩ := bind_ok_iff.1 hk
  obtain ⟨v, hv, hk⟩ := bind_ok_iff.1 hk
  cases hk
  cases o with
  | none => cases hv
  | some x => cases hv; exact get_vals ho

section
variable (h : Stored H N f S D)
include h

theorem Stored.vote_fit {x : String} (hx : N.U (.voterVotes x)) {i n : Nat} (hn : (S.mem.vv x).vals i = some n) : n ≤ U128_MAX :=
  Nat.le_of_lt_succ ((h.rep.tabs (.voterVotes x) hx).vok i n hn)

theorem Stored.total_fit {a : String} (ha : N.app a) {i n : Nat} (hn : (S.mem.cv a).vals i = some n) : n ≤ U128_MAX :=
  Nat.le_of_lt_succ ((h.rep.tabs (.contractVotes a) ha).vok i n hn)

theorem Stored.handle_ok {v : String} (hv : N.voter v) {len : Nat} {a : String} {x : Handle}
    (hx : (S.mem.vp v).get len a = .ok (some x)) : N.U (.voterVotes x.region) := by
  obtain ⟨i, hi⟩ := get_vals hx
  exact ((h.rep.tabs (.votePosition v) hv).vok i x hi).1

theorem Stored.overApps_fit {v : String} (hv : N.voter v) {g : Handle → Res (List (String × Nat))}
    (hg : ∀ x l, g x = .ok l → ∀ e ∈ l, ∃ i, (S.mem.vv x.region).vals i = some e.2) {l : List (String × List (String × Nat))}
    (hl : S.overApps v g = .ok l) : ∀ a ∈ l, ∀ o ∈ a.2, o.2 ≤ U128_MAX := by
  intro a ha o ho
  unfold SState.overApps at hl
  obtain ⟨keys, -, hl⟩ := bind_ok_iff.1 hl
  obtain ⟨k, -, hk⟩ := mapM_mem hl a ha
  obtain ⟨x, hx, hk⟩ := bind_ok_iff.1 hk
  obtain ⟨y, hy, hk⟩ := bind_ok_iff.1 hk
  obtain ⟨m, hm, hk⟩ := bind_ok_iff.1 hk
  cases hk
  cases x with
  | none => cases hy
  | some x =>
    cases hy
    obtain ⟨i, hi⟩ := hg _ _ hm o ho
    exact h.vote_fit (h.handle_ok hv hx) hi

/-- The record and the positions of a voter. -/
theorem Stored.voter_fit {id : String} {v : Voter} (hv : S.st.voters.get id = some v) :
    N.voter id ∧ v.balance ≤ U128_MAX ∧ v.available_voting_power ≤ U128_MAX ∧ v.locking_positions.length < 2 ^ 64 ∧
      ∀ p ∈ v.locking_positions, p.amount ≤ U128_MAX ∧ p.locking_period ≤ U16_MAX ∧ p.voting_power ≤ U128_MAX ∧
        ∀ t, p.unlocking_started_at = some t → t ≤ U64_MAX := by
  have h1 := h.rep.tabs .voters trivial
  have hid := (h1.2.2 id v hv).1
  have hr : voterRec.ok (recOf H id v (S.vlen id)) := by
    refine (h1.1.2.1 (id, recOf H id v (S.vlen id)) (UMap.get_eq_some_iff.1 ?_)).2
    rw [UMap.mapE_get]
    exact congrArg _ hv
  have h2 := h.rep.tabs (.lockingPosition id) hid
  have hl : (tabOf S.st S.vlen S.mem (lpOf S.st)).lp id = v.locking_positions := by
    show ((S.st.voters.get id).getD Voter.new).locking_positions = _
    rw [hv]; rfl
  have h3 := h2.1.ok
  have h4 := h2.2
  rw [hl] at h3 h4
  refine ⟨hid, Nat.le_of_lt_succ hr.1, Nat.le_of_lt_succ hr.2.2.1, h4.lt, fun p hp => ?_⟩
  have h5 := h3 p hp
  refine ⟨Nat.le_of_lt_succ h5.1, Nat.le_of_lt_succ h5.2.1, Nat.le_of_lt_succ h5.2.2.1, fun t ht => ?_⟩
  have h6 : (option Borsh.u64).ok p.unlocking_started_at := h5.2.2.2
  rw [ht] at h6
  exact Nat.le_of_lt_succ h6

theorem Stored.shown_fit {id : String} {v : Voter} (hv : S.st.voters.get id = some v) (now : Nat) :
    ∀ p ∈ MetaVote.positions_json now v.locking_positions, positionTy.ok p := by
  intro p hp
  unfold MetaVote.positions_json at hp
  obtain ⟨⟨q, i⟩, hq, rfl⟩ := List.mem_map.1 hp
  have hmem : q ∈ v.locking_positions := List.fst_mem_of_mem_zipIdx hq
  have hi : i < v.locking_positions.length := by
    have := List.snd_lt_of_mem_zipIdx hq; simpa using this
  obtain ⟨-, -, -, h1, h2⟩ := h.voter_fit hv
  obtain ⟨a, b, c, d⟩ := h2 q hmem
  rw [positionTy_ok]
  refine ⟨fun j hj => ?_, a, b, c, d⟩
  simp only [LockingPosition.to_json, Option.some.injEq] at hj
  subst hj
  exact Nat.le_of_lt_succ (Nat.lt_trans hi h1)

theorem Stored.all_shown_fit (now : Nat) (id : String) : ∀ p ∈ S.st.get_all_locking_positions now id, positionTy.ok p := by
  unfold State.get_all_locking_positions
  rw [internal_get_voter_eq]
  unfold State.voterD
  cases hv : S.st.voters.get id with
  | none => intro p hp; cases hp
  | some v => exact h.shown_fit hv now

theorem Stored.one_shown_fit (now i : Nat) (id : String) : ∀ p, S.st.get_locking_position now i id = some p → positionTy.ok p := by
  intro p hp
  refine h.all_shown_fit now id p ?_
  unfold State.get_locking_position at hp
  unfold State.get_all_locking_positions MetaVote.positions_json
  split at hp
  · rename_i q hq
    cases hp
    refine List.mem_map.2 ⟨(q, i), ?_, rfl⟩
    rw [List.mem_zipIdx_iff_getElem?]
    exact hq
  · cases hp

theorem Stored.info_fit {now : Nat} {id : String} {r : VoterJSON} (hr : S.get_voter_info now id = .ok r) : voterTy.ok r := by
  unfold SState.get_voter_info at hr
  cases hv : S.st.voters.get id with
  | none =>
    rw [hv] at hr
    cases hr
    exact ⟨trivial, Nat.zero_le _, fun p hp => (by cases hp), Nat.zero_le _, fun p hp => (by cases hp)⟩
  | some v =>
    rw [hv] at hr
    obtain ⟨l, hl, hr⟩ := bind_ok_iff.1 hr
    cases hr
    obtain ⟨hid, hb, ha, -, -⟩ := h.voter_fit hv
    refine ⟨trivial, hb, h.shown_fit hv now, ha, fun p hp => ?_⟩
    obtain ⟨a, haa, hp⟩ := List.mem_flatMap.1 hp
    obtain ⟨o, ho, rfl⟩ := List.mem_map.1 hp
    exact ⟨trivial, trivial, h.overApps_fit hid (fun x l hx => byKeys_vals hx) hl a haa o ho⟩

theorem Stored.claims_fit : (∀ e ∈ S.st.claimable_mpdao.entries, e.2 ≤ U128_MAX) ∧
    (∀ e ∈ S.st.claimable_stnear.entries, e.2 ≤ U128_MAX) := by
  have h1 := h.rep.tabs .claimable trivial
  have h2 := h.rep.tabs .claimableStNear trivial
  exact ⟨fun e he => Nat.le_of_lt_succ (h1.1.2.1 e he).2, fun e he => Nat.le_of_lt_succ (h2.1.2.1 e he).2⟩

theorem Stored.by_app_fit {a : String} (ha : N.app a) {l : List (String × Nat)} (hl : S.get_votes_by_app a = .ok l) :
    ∀ e ∈ l, e.2 ≤ U128_MAX := by
  intro e he
  unfold SState.get_votes_by_app at hl
  cases hv : S.mem.vt.get a with
  | none => rw [hv] at hl; cases hl; cases he
  | some n =>
    rw [hv] at hl
    obtain ⟨i, hi⟩ := entries_vals hl e he
    exact h.total_fit ha hi

end

/-- The strings of a question that reach hashed prefixes are among the names that occur, the others can be encoded. -/
def asked (N : Names) : View → Prop
  | .get_voter_info v | .get_used_voting_power v | .get_votes_by_voter v => N.voter v
  | .get_votes_for_object v a o => N.voter v ∧ N.app a ∧ StrFits o
  | .get_total_votes a o => N.app a ∧ StrFits o
  | .get_votes_by_app a | .get_votes_by_contract a => N.app a
  | .get_balance v | .get_claimable_mpdao v | .get_claimable_meta v | .get_claimable_stnear v | .get_locked_balance v
  | .get_unlocking_balance v | .get_available_voting_power v | .get_all_locking_positions v | .get_locking_position _ v
  | .check_if_registered_for_airdrops v | .check_if_user_is_registerd v | .get_airdrop_account v
  | .get_pre_delegate_evm_address v | .get_delegate v | .get_delegation_signature v => StrFits v
  | _ => True

/-- The answer of every view fits its type, whatever the history. -/
theorem Stored.view_ok (h : Stored H N f S D) {now : Nat} {v : View} (ha : asked N v) {r : v.Out}
    (hr : S.view now v = .ok r) : v.ty.ok r := by
  have hf := h.rep.fit
  obtain ⟨hm, hn⟩ := h.claims_fit
  have l1 : S.st.voters.len ≤ U64_MAX := Nat.le_of_lt_succ (h.rep.tabs .voters trivial).2.1.lt
  have l2 : S.st.evm_delegates.len ≤ U64_MAX := Nat.le_of_lt_succ (h.rep.tabs .evmDelegates trivial).2.1.lt
  cases v with
  | get_owner_id | get_operator_id | get_airdrop_account | check_if_registered_for_airdrops | check_if_user_is_registerd =>
    exact trivial
  | get_pre_delegate_evm_address => exact fun _ _ => ⟨trivial, trivial⟩
  | get_delegate => exact fun _ _ => trivial
  | get_delegation_signature => exact ⟨trivial, trivial⟩
  | get_airdrop_accounts => exact fun _ _ => ⟨trivial, trivial⟩
  | get_delegating_evm_addresses => exact fun _ _ => trivial
  | get_delegates => exact fun _ _ => ⟨trivial, fun _ _ => trivial⟩
  | get_contract_info =>
    cases hr
    exact ⟨trivial, trivial, l1, Nat.le_of_lt_succ hf.min_unbond_period, Nat.le_of_lt_succ hf.max_unbond_period,
      Nat.le_of_lt_succ hf.min_deposit_amount, Nat.le_of_lt_succ hf.max_locking_positions, Nat.le_of_lt_succ hf.max_voting_positions,
      trivial, trivial, Nat.le_of_lt_succ hf.registration_cost, trivial, Nat.le_of_lt_succ hf.accumulated_mpdao,
      Nat.le_of_lt_succ hf.unclaimed_mpdao, Nat.le_of_lt_succ hf.accumulated_stnear, Nat.le_of_lt_succ hf.unclaimed_stnear, l2⟩
  | get_voters_count => cases hr; exact l1
  | get_total_voting_power => cases hr; exact Nat.le_of_lt_succ hf.total
  | get_voter_info id => exact h.info_fit hr
  | get_voters a n =>
    intro x hx
    obtain ⟨i, -, hi⟩ := mapM_mem hr x hx
    obtain ⟨k, -, hi⟩ := bind_ok_iff.1 hi
    obtain ⟨_, -, hi⟩ := bind_ok_iff.1 hi
    exact h.info_fit hi
  | get_balance id => exact balance_fit hr
  | get_claimable_mpdao id | get_claimable_meta id => cases hr; exact getD_fit hm id
  | get_claimable_stnear id => cases hr; exact getD_fit hn id
  | get_stnear_claims a n =>
    intro x hx
    obtain ⟨e, he, rfl⟩ := page_ok hr x hx
    exact ⟨trivial, hn e he⟩
  | get_claims a n =>
    intro x hx
    obtain ⟨e, he, rfl⟩ := page_ok hr x hx
    exact ⟨trivial, hm e he⟩
  | get_locked_balance id | get_unlocking_balance id => exact sum_fit hr
  | get_available_voting_power id =>
    cases hr
    unfold State.get_available_voting_power
    rw [internal_get_voter_eq]
    unfold State.voterD
    cases hv : S.st.voters.get id with
    | none => exact Nat.zero_le _
    | some v => exact (h.voter_fit hv).2.2.1
  | get_used_voting_power id =>
    change S.mem.usedVotes id (S.vlen id) = .ok r at hr
    unfold Mem.usedVotes at hr
    obtain ⟨_, -, hr⟩ := bind_ok_iff.1 hr
    obtain ⟨_, -, hr⟩ := bind_ok_iff.1 hr
    exact sum_fit hr
  | get_locking_period => cases hr; exact ⟨Nat.le_of_lt_succ hf.min_unbond_period, Nat.le_of_lt_succ hf.max_unbond_period⟩
  | get_all_locking_positions id => cases hr; exact h.all_shown_fit now id
  | get_locking_position i id => cases hr; exact h.one_shown_fit now i id
  | get_total_votes a o =>
    change S.get_total_votes a o = .ok r at hr
    unfold SState.get_total_votes at hr
    cases hv : S.mem.vt.get a with
    | none => rw [hv] at hr; cases hr; exact Nat.zero_le _
    | some n =>
      rw [hv] at hr
      obtain ⟨x, hx, hr⟩ := bind_ok_iff.1 hr
      cases hr
      cases x with
      | none => exact Nat.zero_le _
      | some x => obtain ⟨i, hi⟩ := get_vals hx; exact h.total_fit ha.1 hi
  | get_votes_by_app a => exact fun e he => ⟨trivial, h.by_app_fit ha hr e he⟩
  | get_votes_by_contract a =>
    intro x hx
    obtain ⟨l, hl, hr⟩ := bind_ok_iff.1 hr
    cases hr
    obtain ⟨o, ho, rfl⟩ := List.mem_map.1 (sort_mem hx)
    exact ⟨trivial, trivial, h.by_app_fit ha hl o ho⟩
  | get_votes_by_voter id =>
    intro x hx
    obtain ⟨l, hl, hr⟩ := bind_ok_iff.1 hr
    cases hr
    obtain ⟨a, haa, hx⟩ := List.mem_flatMap.1 (sort_mem hx)
    obtain ⟨o, ho, rfl⟩ := List.mem_map.1 hx
    exact ⟨trivial, trivial, h.overApps_fit ha (fun x l hx => entries_vals hx) hl a haa o ho⟩
  | get_votes_for_object id a o =>
    change S.get_votes_for_object id a o = .ok r at hr
    unfold SState.get_votes_for_object at hr
    obtain ⟨x, hx, hr⟩ := bind_ok_iff.1 hr
    cases x with
    | none => cases hr; exact Nat.zero_le _
    | some x =>
      obtain ⟨n, hn, hr⟩ := bind_ok_iff.1 hr
      cases hr
      cases n with
      | none => exact Nat.zero_le _
      | some n => obtain ⟨i, hi⟩ := get_vals hn; exact h.vote_fit (h.handle_ok ha.1 hx) hi
  | get_total_unclaimed_mpdao | get_total_unclaimed_meta => cases hr; exact Nat.le_of_lt_succ hf.unclaimed_mpdao
  | get_accumulated_mpdao_distributed_for_claims | get_accumulated_distributed_for_claims =>
    cases hr; exact Nat.le_of_lt_succ hf.accumulated_mpdao
  | get_registration_cost => cases hr; exact Nat.le_of_lt_succ hf.registration_cost
  | get_lock_in_vote_filters =>
    cases hr; exact ⟨Nat.le_of_lt_succ hf.lock_end, fun _ _ => trivial, Nat.le_of_lt_succ hf.lock_id⟩

end Verif.MetaVote.Bytes
