import Verif.Storage.Simulate

/-!
# Views of the votes over storage
-/

namespace Verif.Storage

open Verif MetaVote

/-- `keys_as_vector().iter()` collected -/
def Cells.keyList {K V : Type} (m : Cells K V) (len : Nat) : Res (List K) :=
  (List.range len).mapM (fun i => match m.keys i with
    | some k => pure k
    | none => inconsistent)

/-- The inner loop of `Voter::to_json`, over the keys of one map (`voter.rs:137-144`). -/
def Cells.byKeys {V : Type} (m : Cells String V) (len : Nat) : Res (List (String × V)) := do
  let keys ← m.keyList len
  keys.mapM (fun o => do
    let v ← m.get len o
    let v ← expect v "called `Option::unwrap()` on a `None` value"
    pure (o, v))

namespace SState

/-- The loop over the apps of a voter, `get` for every key (`voter.rs:135-136`, `view.rs:258-259`); `f` reads one map. -/
def overApps (S : SState) (voter_id : String) (f : Handle → Res (List (String × Nat))) :
    Res (List (String × List (String × Nat))) := do
  let keys ← (S.mem.vp voter_id).keyList (S.vlen voter_id)
  keys.mapM (fun a => do
    let h ← (S.mem.vp voter_id).get (S.vlen voter_id) a
    let h ← expect h "called `Option::unwrap()` on a `None` value"
    let l ← f h
    pure (a, l))

/-- `view.rs:255-270` -/
def get_votes_by_voter (S : SState) (voter_id : String) : Res (List VotableObjectJSON) := do
  let l ← S.overApps voter_id (fun h => (S.mem.vv h.region).entries h.len)
  pure (State.sort_by_votes (l.flatMap (fun a => a.2.map (fun o => ⟨a.1, o.1, o.2⟩))))

/-- `view.rs:220-231`.  `UnorderedMap::new(StorageKey::Votes)` has length 0, so nothing is read. -/
def get_votes_by_app (S : SState) (app_or_contract_address : String) : Res (List (String × Nat)) :=
  match S.mem.vt.get app_or_contract_address with
  | none => pure []
  | some len => (S.mem.cv app_or_contract_address).entries len

/-- `view.rs:234-253` -/
def get_votes_by_contract (S : SState) (contract_address : String) : Res (List VotableObjectJSON) := do
  let l ← S.get_votes_by_app contract_address
  pure (State.sort_by_votes (l.map (fun o => ⟨contract_address, o.1, o.2⟩)))

/-- `view.rs:71-85`, `voter.rs:127-154` -/
def get_voter_info (S : SState) (now : Nat) (voter_id : String) : Res VoterJSON :=
  match S.st.voters.get voter_id with
  | none => pure ⟨voter_id, 0, [], 0, []⟩
  | some v => do
    let l ← S.overApps voter_id (fun h => (S.mem.vv h.region).byKeys h.len)
    pure { v.to_json now voter_id with vote_positions := l.flatMap (fun a => a.2.map (fun o => ⟨a.1, o.1, o.2⟩)) }

/-- `view.rs:87-100` -/
def get_voters (S : SState) (now from_index limit : Nat) : Res (List VoterJSON) :=
  (List.range (min (from_index + limit) S.st.voters.len - from_index)).mapM (fun i => do
    let k ← expect S.st.voters.keys[from_index + i]? "called `Option::unwrap()` on a `None` value"
    let _ ← expect (S.st.voters.get k) "called `Option::unwrap()` on a `None` value"
    S.get_voter_info now k)

end SState

/-! ## Maps that are stored properly -/

theorem Cells.keyList_of {K V : Type} [DecidableEq K] (u : UMap K V) : (Cells.of u).keyList u.len = .ok u.keys := by
  unfold Cells.keyList UMap.keys UMap.len
  refine Cells.mapM_range u.entries _ Prod.fst ?_
  intro i hi
  simp [Cells.of, List.getElem?_eq_getElem hi, pure, Except.pure]

theorem mapM_fst {K V β : Type} (f : K → Res β) (g : K × V → β) : ∀ l : List (K × V), (∀ p ∈ l, f p.1 = .ok (g p)) →
    (l.map Prod.fst).mapM f = .ok (l.map g)
  | [], _ => rfl
  | a :: l, h => by
    rw [List.map_cons, List.mapM_cons, h a (by simp), mapM_fst f g l (fun b hb => h b (by simp [hb]))]
    rfl

theorem Cells.byKeys_of {V : Type} (u : UMap String V) : (Cells.of u).byKeys u.len = .ok u.entries := by
  unfold Cells.byKeys
  rw [Cells.keyList_of]
  refine (mapM_fst _ id u.entries ?_).trans (by rw [List.map_id])
  intro p hp
  rw [Cells.get_of, UMap.get_eq_some_iff.2 hp]
  rfl

variable {A : String → String → Prop} {S : SState} {s : State}

theorem overApps_eq (h : Repr A S s) (id : String) (f : Handle → Res (List (String × Nat)))
    (hf : ∀ c m, (s.voterD id).vote_positions.get c = some m → f ⟨join id c, m.len⟩ = .ok m.entries) :
    S.overApps id f = .ok ((s.voterD id).vote_positions.entries.map (fun p => (p.1, p.2.entries))) := by
  unfold SState.overApps
  have hk := Cells.keyList_of ((s.voterD id).vote_positions.mapV (fun c m => (⟨join id c, m.len⟩ : Handle)))
  rw [UMap.len_mapV, UMap.keys_mapV] at hk
  rw [h.mem.vp id, vlen_eq h, hk]
  refine mapM_fst _ (fun p => (p.1, p.2.entries)) (s.voterD id).vote_positions.entries ?_
  intro p hp
  have hg := Cells.get_of ((s.voterD id).vote_positions.mapV (fun c m => (⟨join id c, m.len⟩ : Handle))) p.1
  have hp' := UMap.get_eq_some_iff.2 hp
  rw [UMap.len_mapV, UMap.get_mapV, hp'] at hg
  rw [hg]
  simp only [bind, Except.bind, Option.map_some, expect, hf p.1 p.2 hp']
  rfl

theorem region_of (h : Repr A S s) {id c : String} {m : UMap String Nat}
    (hg : (s.voterD id).vote_positions.get c = some m) : S.mem.vv (join id c) = Cells.of m := by
  have := h.mem.vv id c (h.mem.allowed id c m hg)
  rwa [show inner (s.voterD id).vote_positions c = m by unfold inner; rw [hg]; rfl] at this

/-- The lists of votes over storage. -/
theorem Repr.lists (h : Repr A S s) (id a : String) (now : Nat) :
    S.get_votes_by_voter id = .ok (s.get_votes_by_voter id) ∧
    S.get_votes_by_app a = .ok (s.get_votes_by_app a) ∧
    S.get_votes_by_contract a = .ok (s.get_votes_by_contract a) ∧
    S.get_voter_info now id = .ok (s.get_voter_info now id) := by
  have happ : S.get_votes_by_app a = .ok (s.get_votes_by_app a) := by
    unfold SState.get_votes_by_app State.get_votes_by_app
    rw [h.mem.vt, UMap.get_mapV, h.mem.cv]
    unfold inner
    cases s.votes.get a with
    | none => rfl
    | some m => simp only [Option.map_some, Option.getD_some, Cells.entries_of]
  refine ⟨?_, happ, ?_, ?_⟩
  · unfold SState.get_votes_by_voter State.get_votes_by_voter
    rw [overApps_eq h id _ (fun c m hg => by simp only [region_of h hg, Cells.entries_of]), internal_get_voter_eq]
    simp only [bind, Except.bind, pure, Except.pure, List.flatMap_map]
  · unfold SState.get_votes_by_contract State.get_votes_by_contract
    rw [happ]
    rfl
  · unfold SState.get_voter_info State.get_voter_info
    rw [h.st]
    simp only [State.bare, UMap.get_mapV]
    cases hv : s.voters.get id with
    | none => rfl
    | some v =>
      have hd : s.voterD id = v := by simp [State.voterD, hv]
      simp only [Option.map_some]
      rw [overApps_eq h id _ (fun c m hg => by simp only [region_of h hg, Cells.byKeys_of]), hd]
      simp only [bind, Except.bind, pure, Except.pure, List.flatMap_map, Voter.to_json, Voter.bare]

end Verif.Storage
