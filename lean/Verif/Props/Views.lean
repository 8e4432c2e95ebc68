import Verif.MetaVote.Page
import Verif.MetaVote.Trace
import Verif.Props.Votes

/-!
# Listings (C27, C70)
-/

namespace Verif.MetaVote

open Verif

/-! ## Specification of a paged listing -/

/-- `view` pages through the list `L`: every request returns the corresponding slice. -/
def PagesOf {α : Type} (view : Nat → Nat → Res (List α)) (L : List α) : Prop :=
  ∀ a n, view a n = .ok ((L.drop a).take n)

/-- Reading consecutive pages of the sizes `ns`, from `a` on. -/
def readPages {α : Type} (view : Nat → Nat → Res (List α)) : Nat → List Nat → Res (List α)
  | _, [] => .ok []
  | a, n :: ns => do
    let p ← view a n
    let r ← readPages view (a + n) ns
    pure (p ++ r)

theorem readPages_eq {α : Type} {view : Nat → Nat → Res (List α)} {L : List α} (h : PagesOf view L) :
    ∀ (ns : List Nat) (a : Nat), readPages view a ns = .ok ((L.drop a).take ns.sum)
  | [], a => by simp [readPages]
  | n :: ns, a => by
    simp only [readPages, bind_ok_iff, pure_ok_iff]
    refine ⟨_, h a n, _, readPages_eq h ns (a + n), ?_⟩
    rw [List.sum_cons, List.take_add, List.drop_drop]

/-- A listing of accounts with a value: one entry for each account that has one. -/
structure Lists {β : Type} (view : Nat → Nat → Res (List (String × β))) (value : String → Option β)
    (L : List (String × β)) : Prop where
  pages : PagesOf view L
  /-- each account once -/
  once : (L.map Prod.fst).Nodup
  /-- exactly the accounts with a value, with that value -/
  all : ∀ id x, (id, x) ∈ L ↔ value id = some x
  /-- consecutive pages of any sizes that reach the end give the whole list -/
  whole : ∀ ns, L.length ≤ ns.sum → readPages view 0 ns = .ok L

theorem lists_page {β : Type} (m : UMap String β) :
    Lists (page m (fun k v => (k, v))) (fun id => m.get id) m.entries := by
  have hp : PagesOf (page m (fun k v => (k, v))) m.entries := by
    intro a n
    rw [page_eq]
    simp
  refine ⟨hp, m.nodup, fun id x => UMap.get_eq_some_iff.symm, fun ns h => ?_⟩
  rw [readPages_eq hp, List.drop_zero, List.take_of_length_le h]

/-! ## C27 -/

/-- **C27**: `get_claims`, `get_stnear_claims` and `get_airdrop_accounts` page through a list that has every
account with an entry exactly once, with its value. -/
theorem C27_listings (s : State) :
    (∃ L, Lists s.get_claims (fun id => s.claimable_mpdao.get id) L) ∧
    (∃ L, Lists s.get_stnear_claims (fun id => s.claimable_stnear.get id) L) ∧
    (∃ L, Lists s.get_airdrop_accounts (fun id => (s.get_airdrop_account id).toOption) L) := by
  refine ⟨⟨_, lists_page _⟩, ⟨_, lists_page _⟩, s.associated_user_data.entries, ?_⟩
  · obtain ⟨h1, h2, h3, h4⟩ := lists_page s.associated_user_data
    refine ⟨h1, h2, fun id x => ?_, h4⟩
    rw [h3]
    unfold State.get_airdrop_account expect
    cases s.associated_user_data.get id <;> simp [Except.toOption]

/-- An account with a claim is listed with exactly `get_claimable_…`, and accounts
that are not listed have none. -/
theorem C27_claims (s : State) :
    ∃ L M, PagesOf s.get_claims L ∧ PagesOf s.get_stnear_claims M ∧
      (L.map Prod.fst).Nodup ∧ (M.map Prod.fst).Nodup ∧
      (∀ id, s.get_claimable_mpdao id = ((L.filter (fun x => x.1 = id)).map Prod.snd).sum) ∧
      (∀ id, s.get_claimable_stnear id = ((M.filter (fun x => x.1 = id)).map Prod.snd).sum) := by
  have key : ∀ (m : UMap String Nat) (id : String),
      (m.get id).getD 0 = ((m.entries.filter (fun x => x.1 = id)).map Prod.snd).sum := by
    intro m id
    have hn := m.nodup
    unfold UMap.get
    generalize m.entries = l at hn
    induction l with
    | nil => rfl
    | cons x t ih =>
      obtain ⟨k, v⟩ := x
      simp only [List.map_cons, List.nodup_cons] at hn
      by_cases hk : k = id
      · subst hk
        have : t.filter (fun x => x.1 = k) = [] := by
          rw [List.filter_eq_nil_iff]
          intro y hy hyk
          exact hn.1 (List.mem_map.2 ⟨y, hy, by simpa using hyk⟩)
        simp [findL, this]
      · simp only [findL, hk, if_false, List.filter_cons, decide_false, Bool.false_eq_true]
        exact ih hn.2
  exact ⟨s.claimable_mpdao.entries, s.claimable_stnear.entries, (lists_page _).pages, (lists_page _).pages,
    (lists_page _).once, (lists_page _).once, key _, key _⟩

/-- **C27**: `get_voters` pages through a list with the information of every voter exactly once;
`get_voters_count` is its length. -/
theorem C27_voters (s : State) (now : Nat) :
    ∃ L, PagesOf (s.get_voters now) L ∧ (L.map (·.voter_id)).Nodup ∧ L.length = s.get_voters_count ∧
      (∀ x, x ∈ L ↔ (s.voters.get x.voter_id).isSome ∧ x = s.get_voter_info now x.voter_id) ∧
      ∀ ns, L.length ≤ ns.sum → readPages (s.get_voters now) 0 ns = .ok L := by
  have hp : PagesOf (s.get_voters now) (s.voters.entries.map (fun e => e.2.to_json now e.1)) := by
    intro a n
    unfold State.get_voters
    rw [page_eq, ← List.map_drop, ← List.map_take]
  refine ⟨_, hp, ?_, by simp [State.get_voters_count, UMap.len], ?_, ?_⟩
  · have : (s.voters.entries.map (fun e => e.2.to_json now e.1)).map (·.voter_id) = s.voters.entries.map Prod.fst := by
      rw [List.map_map]; rfl
    rw [this]
    exact s.voters.nodup
  · intro x
    rw [List.mem_map]
    constructor
    · rintro ⟨e, he, rfl⟩
      have hg : s.voters.get e.1 = some e.2 := UMap.get_eq_some_iff.2 he
      have hid : (e.2.to_json now e.1).voter_id = e.1 := rfl
      rw [hid, State.get_voter_info, hg]
      exact ⟨rfl, rfl⟩
    · rintro ⟨h1, h2⟩
      obtain ⟨v, hv⟩ := Option.isSome_iff_exists.1 h1
      refine ⟨(x.voter_id, v), UMap.get_eq_some_iff.1 hv, ?_⟩
      rw [State.get_voter_info, hv] at h2
      exact h2.symm
  · intro ns h
    rw [readPages_eq hp, List.drop_zero, List.take_of_length_le h]

/-- **C27** for `get_delegates`: it returns the slice, provided the offset is inside the list and
`from + limit` fits a `u32`; otherwise it panics.  (`len` counts modulo 2^32.) -/
theorem C27_delegates_partial (s : State) (a n : Nat) (hlen : s.evm_delegates.len < 2 ^ 32)
    (r : List (String × List String)) :
    s.get_delegates a n = .ok r ↔
      a < s.get_contract_info.evm_delegates_count ∧ a + n < 2 ^ 32 ∧
      r = (s.evm_delegates.entries.drop a).take n := by
  have hm : s.evm_delegates.len % 4294967296 = s.evm_delegates.len := Nat.mod_eq_of_lt hlen
  have hpg := page_eq s.evm_delegates (fun k v => (k, v)) a n
  unfold page at hpg
  simp only [State.get_delegates, bind_ok_iff, require_ok_iff, hm, addU32_ok_iff]
  constructor
  · rintro ⟨-, h1, x, ⟨h2, rfl⟩, h3⟩
    rw [hpg] at h3
    refine ⟨h1, by simp only [U32_MAX] at h2; omega, ?_⟩
    have := Except.ok.inj h3
    rw [← this]; simp
  · rintro ⟨h1, h2, rfl⟩
    refine ⟨(), h1, a + n, ⟨by simp only [U32_MAX]; omega, rfl⟩, ?_⟩
    rw [hpg]; simp

/-- **C27 is false of the code for `get_delegates`**: the page behind the last entry is not empty but a
panic — in particular the first page when there are no delegates —, and so is `limit = u32::MAX` from 1 on. -/
theorem C27_false :
    (demo0.st.get_delegates 0 10).isOk = false ∧ (demo.st.get_delegates 1 10).isOk = false ∧
    (demo.st.get_delegates 0 10).isOk = true ∧
    ∀ s : State, ∀ n, s.get_delegates (n + 1) U32_MAX ≠ .ok (((s.evm_delegates.entries.drop (n + 1)).take U32_MAX)) := by
  refine ⟨by decide +kernel, by decide +kernel, by decide +kernel, ?_⟩
  intro s n h
  simp only [State.get_delegates, bind_ok_iff, require_ok_iff, addU32_ok_iff] at h
  obtain ⟨-, h1, x, ⟨h2, rfl⟩, h3⟩ := h
  simp only [U32_MAX] at h2
  omega

example : demo.st.get_claims 1 5 = .ok [("bob", 7000000)] ∧
    readPages demo.st.get_claims 0 [1, 0, 3] = .ok [("alice", 5000000), ("bob", 7000000)] := by decide +kernel

example : (readPages (demo.st.get_voters 0) 0 [2, 2]).map (fun l => l.map (·.voter_id)) =
    .ok ["alice", "bob", "0xee.evmp.near"] := by decide +kernel

/-! ## C70: lists of votes -/

theorem sort_by_votes_perm (l : List VotableObjectJSON) : (State.sort_by_votes l).Perm l :=
  List.perm_insertionSort _ l

theorem sort_by_votes_sorted (l : List VotableObjectJSON) :
    (State.sort_by_votes l).Pairwise (fun x y => x.current_votes ≤ y.current_votes) := by
  have : Std.Total (fun x y : VotableObjectJSON => x.current_votes ≤ y.current_votes) :=
    ⟨fun a b => Nat.le_total _ _⟩
  have : IsTrans VotableObjectJSON (fun x y => x.current_votes ≤ y.current_votes) :=
    ⟨fun a b c => Nat.le_trans⟩
  exact List.pairwise_insertionSort _ l

theorem get_votes_by_app_mem (s : State) (a o : String) (n : Nat) :
    (o, n) ∈ s.get_votes_by_app a ↔ ∃ m, s.votes.get a = some m ∧ m.get o = some n := by
  unfold State.get_votes_by_app
  cases s.votes.get a with
  | none => simp [UMap.empty]
  | some m => simp [UMap.get_eq_some_iff]

/-- **C70**: `get_votes_by_contract` is sorted by votes and has the entries of `get_votes_by_app` of the app;
these are each object once, with `get_total_votes`; and no object with votes is missing. -/
theorem C70_by_app (s : State) (a : String) :
    (s.get_votes_by_contract a).Pairwise (fun x y => x.current_votes ≤ y.current_votes) ∧
    (s.get_votes_by_contract a).Perm ((s.get_votes_by_app a).map (fun x => ⟨a, x.1, x.2⟩)) ∧
    ((s.get_votes_by_app a).map Prod.fst).Nodup ∧
    (∀ o n, (o, n) ∈ s.get_votes_by_app a → n = s.get_total_votes a o) ∧
    (∀ o, 0 < s.get_total_votes a o → (o, s.get_total_votes a o) ∈ s.get_votes_by_app a) := by
  refine ⟨sort_by_votes_sorted _, sort_by_votes_perm _, UMap.nodup _, ?_, ?_⟩
  · intro o n h
    obtain ⟨m, h1, h2⟩ := (get_votes_by_app_mem s a o n).1 h
    simp [State.get_total_votes, h1, h2]
  · intro o h
    rw [get_votes_by_app_mem]
    unfold State.get_total_votes at h ⊢
    cases hm : s.votes.get a with
    | none => simp [hm] at h
    | some m =>
      cases ho : m.get o with
      | none => simp [hm, ho] at h
      | some n => exact ⟨m, rfl, by simp [ho]⟩

/-- **C70**: `get_votes_by_voter` is sorted by votes, has every (app, object) of the voter once, with
`get_votes_for_object`, and no object with votes is missing. -/
theorem C70_by_voter (s : State) (id : String) :
    (s.get_votes_by_voter id).Pairwise (fun x y => x.current_votes ≤ y.current_votes) ∧
    ((s.get_votes_by_voter id).map (fun x => (x.votable_contract, x.id))).Nodup ∧
    (∀ x ∈ s.get_votes_by_voter id, x.current_votes = s.get_votes_for_object id x.votable_contract x.id) ∧
    (∀ a o, 0 < s.get_votes_for_object id a o →
      ⟨a, o, s.get_votes_for_object id a o⟩ ∈ s.get_votes_by_voter id) := by
  have hmem : ∀ x, x ∈ s.get_votes_by_voter id ↔
      ∃ m, (s.internal_get_voter id).vote_positions.get x.votable_contract = some m ∧ m.get x.id = some x.current_votes := by
    intro x
    unfold State.get_votes_by_voter
    rw [(sort_by_votes_perm _).mem_iff, List.mem_flatMap]
    constructor
    · rintro ⟨e, he, hx⟩
      obtain ⟨y, hy, rfl⟩ := List.mem_map.1 hx
      exact ⟨e.2, UMap.get_eq_some_iff.2 he, UMap.get_eq_some_iff.2 hy⟩
    · rintro ⟨m, h1, h2⟩
      exact ⟨(x.votable_contract, m), UMap.get_eq_some_iff.1 h1, List.mem_map.2
        ⟨(x.id, x.current_votes), UMap.get_eq_some_iff.1 h2, rfl⟩⟩
  refine ⟨sort_by_votes_sorted _, ?_, ?_, ?_⟩
  · unfold State.get_votes_by_voter
    rw [((sort_by_votes_perm _).map _).nodup_iff, List.map_flatMap, List.nodup_flatMap]
    constructor
    · intro e he
      rw [List.map_map]
      have : (fun x : VotableObjectJSON => (x.votable_contract, x.id)) ∘
          (fun o : String × Nat => (⟨e.1, o.1, o.2⟩ : VotableObjectJSON)) = (fun k => (e.1, k)) ∘ Prod.fst := rfl
      rw [this, ← List.map_map]
      exact e.2.nodup.map (fun x y h => by simpa using h)
    · have := (s.internal_get_voter id).vote_positions.nodup
      rw [List.Nodup, List.pairwise_map] at this
      refine this.imp ?_
      intro e e' hne x hx hx'
      simp only [List.mem_map] at hx hx'
      obtain ⟨y, ⟨z, -, rfl⟩, rfl⟩ := hx
      obtain ⟨y', ⟨z', -, rfl⟩, h⟩ := hx'
      simp only [Prod.mk.injEq] at h
      exact hne h.1.symm
  · intro x hx
    obtain ⟨m, h1, h2⟩ := (hmem x).1 hx
    simp [State.get_votes_for_object, h1, h2]
  · intro a o h
    rw [hmem]
    unfold State.get_votes_for_object at h ⊢
    cases hm : (s.internal_get_voter id).vote_positions.get a with
    | none => simp [hm] at h
    | some m =>
      cases ho : m.get o with
      | none => simp [hm, ho] at h
      | some n => exact ⟨m, rfl, by simp [ho]⟩

example : demo.st.get_votes_by_contract "app" =
    [⟨"app", "obj2", 8000000000000000000000000⟩, ⟨"app", "obj #1 x", 35000000000000000000000000⟩] ∧
    (demo.st.get_votes_by_voter "alice").map (·.id) = ["obj2", "obj #1 x"] := by decide +kernel

/-- Amounts of the positions shown, of those with the flag. -/
def shown (f : LockingPositionJSON → Bool) (x : VoterJSON) : Nat := ((x.locking_positions.filter f).map (·.amount)).sum

theorem shown_json {v : Voter} {now : Nat} {id : String} {f : LockingPositionJSON → Bool} {g : LockingPosition → Bool}
    (h : ∀ p i, f (p.to_json now i) = g p) :
    shown f (v.to_json now id) = ((v.locking_positions.filter g).map (·.amount)).sum := by
  show (((positions_json now v.locking_positions).filter f).map (·.amount)).sum = _
  unfold positions_json
  generalize v.locking_positions = l
  have key : ∀ n, (((l.zipIdx n).map fun x => x.1.to_json now (some x.2)).filter f).map (·.amount) = (l.filter g).map (·.amount) := by
    induction l with
    | nil => intro n; rfl
    | cons p l ih =>
      intro n
      rw [List.zipIdx_cons, List.map_cons, List.filter_cons, List.filter_cons, h]
      split
      · rw [List.map_cons, List.map_cons, ih]; rfl
      · exact ih _
  rw [key 0]

/-- **C27**: what is shown of an account agrees with the views of it, whether it is registered or not. -/
theorem C27_info (s : State) (now : Nat) (id : String) : ∃ x, s.get_voter_info now id = x ∧ x.voter_id = id ∧
    x.voting_power = s.get_available_voting_power id ∧ x.locking_positions = s.get_all_locking_positions now id ∧
    (∀ i, x.locking_positions[i]? = s.get_locking_position now i id) ∧
    (∀ v, v ∈ x.vote_positions ↔ ⟨v.votable_address, v.votable_object_id, v.voting_power⟩ ∈ s.get_votes_by_voter id) ∧
    (∀ b, s.get_balance now id = .ok b → b = x.balance_in_contract + shown (·.is_unlocked) x) ∧
    (∀ b, s.get_locked_balance id = .ok b → b = shown (·.is_locked) x) ∧
    (∀ b, s.get_unlocking_balance now id = .ok b → b = shown (·.is_unlocking) x) := by
  have e : s.get_voter_info now id = (s.internal_get_voter id).to_json now id := by
    unfold State.get_voter_info State.internal_get_voter
    cases s.voters.get id <;> rfl
  refine ⟨_, rfl, ?_⟩
  rw [e]
  refine ⟨rfl, rfl, rfl, fun i => ?_, fun v => ?_, fun b h => ?_, fun b h => ?_, fun b h => ?_⟩
  · show (positions_json now (s.internal_get_voter id).locking_positions)[i]? = _
    unfold positions_json State.get_locking_position
    simp only [List.getElem?_map, List.getElem?_zipIdx]
    cases (s.internal_get_voter id).locking_positions[i]? <;> simp
  · unfold State.get_votes_by_voter
    rw [(sort_by_votes_perm _).mem_iff]
    simp only [Voter.to_json, List.mem_flatMap, List.mem_map]
    constructor
    · rintro ⟨a, ha, o, ho, rfl⟩; exact ⟨a, ha, o, ho, rfl⟩
    · rintro ⟨a, ha, o, ho, h⟩
      refine ⟨a, ha, o, ho, ?_⟩
      injection h with h1 h2 h3
      cases v; subst h1 h2 h3; rfl
  · unfold State.get_balance at h
    simp only [Voter.sum_unlocked, bind_ok_iff, sumU128_ok_iff, addU128_ok_iff] at h
    obtain ⟨u, ⟨-, rfl⟩, -, rfl⟩ := h
    rw [shown_json (g := (·.is_unlocked now)) fun _ _ => rfl]
    rfl
  · unfold State.get_locked_balance at h
    simp only [Voter.sum_locked, sumU128_ok_iff] at h
    obtain ⟨-, rfl⟩ := h
    rw [shown_json (g := (·.is_locked)) fun _ _ => rfl]
  · unfold State.get_unlocking_balance at h
    simp only [Voter.sum_unlocking, sumU128_ok_iff] at h
    obtain ⟨-, rfl⟩ := h
    rw [shown_json (g := (·.is_unlocking now)) fun _ _ => rfl]

example : (demo.st.get_voter_info 11000 "alice").balance_in_contract = 0 ∧
    shown (·.is_locked) (demo.st.get_voter_info 11000 "alice") = 60000000 ∧
    shown (·.is_unlocking) (demo.st.get_voter_info 11000 "alice") = 10000000 ∧
    (demo.st.get_voter_info 11000 "nobody").voting_power = 0 := by decide +kernel

end Verif.MetaVote
