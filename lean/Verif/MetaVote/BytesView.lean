import Verif.MetaVote.BytesStep
import Verif.Storage.Views

/-!
# Views of meta-vote on the bytes of its storage

A view reads and decodes the record under `STATE` and reads the collections through their handles.
-/

namespace Verif.MetaVote.Bytes

open Verif Storage Disk Borsh

/-! ## The program -/

/-- `self` of a view: the record under `STATE`. -/
def view {α : Type} (D : Disk) (g : StateRec → Res α) : Res α := load D >>= g

/-- `view.rs:34-36` -/
def get_owner_id (r : StateRec) : String := r.owner_id
/-- `view.rs:37-39` -/
def get_operator_id (r : StateRec) : String := r.operator_id

/-- `view.rs:41-61` -/
def get_contract_info (r : StateRec) : State.ContractInfoJson where
  owner_id := r.owner_id
  operator_id := r.operator_id
  voter_count := r.voters.keys.len
  min_unbond_period := r.min_unbond_period
  max_unbond_period := r.max_unbond_period
  min_deposit_amount := r.min_deposit_amount
  max_locking_positions := r.max_locking_positions
  max_voting_positions := r.max_voting_positions
  mpdao_token_contract_address := r.mpdao_token_contract_address
  stnear_token_contract_address := r.stnear_token_contract_address
  registration_cost := r.registration_cost
  prev_governance_contract := r.prev_governance_contract
  accumulated_mpdao_distributed_for_claims := r.accumulated_mpdao_distributed_for_claims
  total_unclaimed_mpdao := r.total_unclaimed_mpdao
  accum_distributed_stnear_for_claims := r.accum_distributed_stnear_for_claims
  total_unclaimed_stnear := r.total_unclaimed_stnear
  evm_delegates_count := r.evm_delegates.keys.len

/-- `view.rs:63-65` -/
def get_voters_count (r : StateRec) : Nat := r.voters.keys.len

/-- `view.rs:67-69` -/
def get_total_voting_power (r : StateRec) : Nat := r.total_voting_power

/-- `lib.rs:768-774` -/
def get_lock_in_vote_filters (r : StateRec) : Nat × Option String × Nat :=
  (r.lock_votes_in_end_timestamp_ms, r.lock_votes_in_address, r.lock_votes_in_numeric_id)

/-- `locking_positions.iter()` collected (`voter.rs:40-69`); the sums are taken afterwards. -/
def positions (D : Disk) (v : VoterRec) : Res (List LockingPosition) :=
  (List.range v.locking_positions.len).mapM (fun i => VecH.item lockingPosition D v.locking_positions i)

/-- `voter.rs:41-49` -/
def sum_locked (D : Disk) (v : VoterRec) : Res Nat := do
  let l ← positions D v
  sumU128 ((l.filter (·.is_locked)).map (·.amount))

/-- `voter.rs:51-59` -/
def sum_unlocking (D : Disk) (v : VoterRec) (now : Nat) : Res Nat := do
  let l ← positions D v
  sumU128 ((l.filter (·.is_unlocking now)).map (·.amount))

/-- `voter.rs:61-69` -/
def sum_unlocked (D : Disk) (v : VoterRec) (now : Nat) : Res Nat := do
  let l ← positions D v
  sumU128 ((l.filter (·.is_unlocked now)).map (·.amount))

/-- `view.rs:102-106` -/
def get_balance (H : Hash) (D : Disk) (r : StateRec) (now : Nat) (voter_id : String) : Res Nat := do
  let v ← internal_get_voter H D r voter_id
  let u ← sum_unlocked D v now
  addU128 v.balance u

/-- `view.rs:155-158` -/
def get_locked_balance (H : Hash) (D : Disk) (r : StateRec) (voter_id : String) : Res Nat := do
  let v ← internal_get_voter H D r voter_id
  sum_locked D v

/-- `view.rs:160-163` -/
def get_unlocking_balance (H : Hash) (D : Disk) (r : StateRec) (now : Nat) (voter_id : String) : Res Nat := do
  let v ← internal_get_voter H D r voter_id
  sum_unlocking D v now

/-- `view.rs:165-168` -/
def get_available_voting_power (H : Hash) (D : Disk) (r : StateRec) (voter_id : String) : Res Nat := do
  let v ← internal_get_voter H D r voter_id
  pure v.available_voting_power

/-- `view.rs:170-173` -/
def get_used_voting_power (H : Hash) (D : Disk) (r : StateRec) (voter_id : String) : Res Nat := do
  let v ← internal_get_voter H D r voter_id
  sum_used_votes D v

/-- The loop over the indexes of the positions (`view.rs:183-189`, `voter.rs:129-132`). -/
def positions_json (D : Disk) (v : VoterRec) (now : Nat) : Res (List LockingPositionJSON) :=
  (List.range v.locking_positions.len).mapM (fun i => do
    let p ← VecH.get lockingPosition D v.locking_positions i
    let p ← expect p "Locking position not found!"
    pure (p.to_json now (some i)))

/-- `view.rs:180-191` -/
def get_all_locking_positions (H : Hash) (D : Disk) (r : StateRec) (now : Nat) (voter_id : String) :
    Res (List LockingPositionJSON) := do
  let v ← internal_get_voter H D r voter_id
  positions_json D v now

/-- `view.rs:193-203` -/
def get_locking_position (H : Hash) (D : Disk) (r : StateRec) (now index : Nat) (voter_id : String) :
    Res (Option LockingPositionJSON) := do
  let v ← internal_get_voter H D r voter_id
  match ← VecH.get lockingPosition D v.locking_positions index with
  | some p => pure (some (p.to_json now (some index)))
  | none => pure none

/-- `view.rs:108-113`, `119-124` -/
def get_claimable (D : Disk) (h : MapH) (voter_id : String) : Res Nat := do
  let n ← MapH.get string u128 D h voter_id
  pure (n.getD 0)

/-- The paging loops (`view.rs:87-100`, `127-143`, `lib.rs:189-201`), as `MetaVote.page`. -/
def page {V R : Type} (vc : Codec V) (D : Disk) (h : MapH) (g : String → V → Res R) (from_index limit : Nat) : Res (List R) :=
  (List.range (min (from_index + limit) h.keys.len - from_index)).mapM (fun i => do
    let k ← MapH.keyAt string D h (from_index + i)
    let k ← expect k "called `Option::unwrap()` on a `None` value"
    let v ← MapH.get string vc D h k
    let v ← expect v "called `Option::unwrap()` on a `None` value"
    g k v)

/-- `view.rs:127-143` -/
def internal_get_claims (D : Disk) (h : MapH) (from_index limit : Nat) : Res (List (String × Nat)) :=
  page u128 D h (fun k v => pure (k, v)) from_index limit

/-- `lib.rs:189-201` -/
def get_airdrop_accounts (D : Disk) (r : StateRec) (from_index limit : Nat) : Res (List (String × String)) :=
  page string D r.associated_user_data (fun k v => pure (k, v)) from_index limit

/-- `lib.rs:157-159` -/
def check_if_registered_for_airdrops (D : Disk) (r : StateRec) (account_id : String) : Res Bool := do
  let d ← MapH.get string string D r.associated_user_data account_id
  pure d.isSome

/-- `lib.rs:177-179` -/
def get_airdrop_account (D : Disk) (r : StateRec) (account_id : String) : Res String := do
  let d ← MapH.get string string D r.associated_user_data account_id
  expect d "called `Option::unwrap()` on a `None` value"

/-- `keys_as_vector().iter()` collected -/
def keyList (D : Disk) (h : MapH) : Res (List String) :=
  (List.range h.keys.len).mapM (fun i => VecH.item string D h.keys i)

/-- The loop over the apps of a voter (`voter.rs:135-136`, `view.rs:258-259`); `g` reads one map. -/
def overApps (D : Disk) (v : VoterRec) (g : MapH → Res (List (String × Nat))) : Res (List (String × List (String × Nat))) := do
  let keys ← keyList D v.vote_positions
  keys.mapM (fun a => do
    let h ← MapH.get string mapH D v.vote_positions a
    let h ← expect h "called `Option::unwrap()` on a `None` value"
    let l ← g h
    pure (a, l))

/-- The loop over the keys of one map (`voter.rs:137-144`). -/
def byKeys (D : Disk) (h : MapH) : Res (List (String × Nat)) := do
  let keys ← keyList D h
  keys.mapM (fun o => do
    let v ← MapH.get string u128 D h o
    let v ← expect v "called `Option::unwrap()` on a `None` value"
    pure (o, v))

/-- `voter.rs:127-154` -/
def to_json (D : Disk) (v : VoterRec) (now : Nat) (voter_id : String) : Res VoterJSON := do
  let lps ← positions_json D v now
  let l ← overApps D v (byKeys D)
  pure ⟨voter_id, v.balance, lps, v.available_voting_power, l.flatMap (fun a => a.2.map (fun o => ⟨a.1, o.1, o.2⟩))⟩

/-- `view.rs:72-84` -/
def get_voter_info (D : Disk) (r : StateRec) (now : Nat) (voter_id : String) : Res VoterJSON := do
  match ← MapH.get string voterRec D r.voters voter_id with
  | some v => to_json D v now voter_id
  | none => pure ⟨voter_id, 0, [], 0, []⟩

/-- `view.rs:87-100` -/
def get_voters (D : Disk) (r : StateRec) (now from_index limit : Nat) : Res (List VoterJSON) :=
  page voterRec D r.voters (fun k v => to_json D v now k) from_index limit

/-- `view.rs:206-216` -/
def get_total_votes (D : Disk) (r : StateRec) (contract_address votable_object_id : String) : Res Nat := do
  match ← MapH.get string mapH D r.votes contract_address with
  | some h => do
    let n ← MapH.get string u128 D h votable_object_id
    pure (n.getD 0)
  | none => pure 0

/-- `view.rs:220-231`; the handle of `UnorderedMap::new(StorageKey::Votes)` is that of `votes` with length 0. -/
def get_votes_by_app (H : Hash) (D : Disk) (r : StateRec) (app_or_contract_address : String) : Res (List (String × Nat)) := do
  let h ← MapH.get string mapH D r.votes app_or_contract_address
  MapH.entryList string u128 D (h.getD (.at (pre H .votes) 0))

/-- `view.rs:234-253` -/
def get_votes_by_contract (H : Hash) (D : Disk) (r : StateRec) (contract_address : String) : Res (List VotableObjectJSON) := do
  let l ← get_votes_by_app H D r contract_address
  pure (State.sort_by_votes (l.map (fun o => ⟨contract_address, o.1, o.2⟩)))

/-- `view.rs:255-270` -/
def get_votes_by_voter (H : Hash) (D : Disk) (r : StateRec) (voter_id : String) : Res (List VotableObjectJSON) := do
  let v ← internal_get_voter H D r voter_id
  let l ← overApps D v (MapH.entryList string u128 D)
  pure (State.sort_by_votes (l.flatMap (fun a => a.2.map (fun o => ⟨a.1, o.1, o.2⟩))))

/-- `view.rs:272-284` -/
def get_votes_for_object (H : Hash) (D : Disk) (r : StateRec) (voter_id contract_address votable_object_id : String) : Res Nat := do
  let v ← internal_get_voter H D r voter_id
  match ← MapH.get string mapH D v.vote_positions contract_address with
  | some h => do
    let n ← MapH.get string u128 D h votable_object_id
    pure (n.getD 0)
  | none => pure 0

/-- `evm_delegate.rs:25-28` -/
def get_pre_delegate_evm_address (D : Disk) (r : StateRec) (evm_address : String) : Res (Option (String × String)) :=
  LookupH.get string delegation D r.evm_pre_delegation evm_address

/-- `evm_delegate.rs:170-174` -/
def get_delegating_evm_addresses (D : Disk) (r : StateRec) (account_id : String) : Res (List String) := do
  let l ← MapH.get string addresses D r.evm_delegates account_id
  pure (l.getD [])

/-- `evm_delegate.rs:178-196`: `len as u32` truncates, `from_index + limit` is a checked `u32` sum. -/
def get_delegates (D : Disk) (r : StateRec) (from_index limit : Nat) : Res (List (String × List String)) := do
  let keys_len := r.evm_delegates.keys.len % 4294967296
  require (from_index < keys_len) "from_index >= keys_len"
  let sum ← addU32 from_index limit
  (List.range (min sum keys_len - from_index)).mapM (fun i => do
    let k ← MapH.keyAt string D r.evm_delegates (from_index + i)
    let k ← expect k "called `Option::unwrap()` on a `None` value"
    let v ← MapH.get string addresses D r.evm_delegates k
    let v ← expect v "called `Option::unwrap()` on a `None` value"
    pure (k, v))

/-- `evm_delegate.rs:199-205` -/
def get_delegate (D : Disk) (r : StateRec) (evm_address : String) : Res (Option String) := do
  match ← LookupH.get string delegation D r.evm_delegation_signatures evm_address with
  | some d => pure (some d.1)
  | none => pure none

/-- `evm_delegate.rs:210-212` -/
def get_delegation_signature (D : Disk) (r : StateRec) (evm_address : String) : Res (String × String) := do
  let d ← LookupH.get string delegation D r.evm_delegation_signatures evm_address
  expect d "called `Option::unwrap()` on a `None` value"

/-! ## Reading -/

theorem mapM_mem {α β : Type} {g : α → Res β} : ∀ {l : List α} {r : List β}, l.mapM g = .ok r → ∀ y ∈ r, ∃ x ∈ l, g x = .ok y
  | [], r, h => by cases h; intro y hy; cases hy
  | x :: t, r, h => by
    rw [List.mapM_cons] at h
    simp only [bind_ok_iff, pure_ok_iff] at h
    obtain ⟨a, h1, b, h2, rfl⟩ := h
    intro y hy
    rcases List.mem_cons.1 hy with rfl | hy
    · exact ⟨x, List.mem_cons_self, h1⟩
    · obtain ⟨x', hx, e⟩ := mapM_mem h2 y hy
      exact ⟨x', List.mem_cons_of_mem _ hx, e⟩

theorem mapM_same {α β : Type} {g k : α → Res β} : ∀ {l : List α}, (∀ x ∈ l, g x = k x) → l.mapM g = l.mapM k
  | [], _ => rfl
  | x :: t, h => by
    rw [List.mapM_cons, List.mapM_cons, h x List.mem_cons_self, mapM_same fun y hy => h y (List.mem_cons_of_mem _ hy)]

theorem mapM_get {α β : Type} {g : Nat → Res β} {k : α → Nat → β} {l : List α}
    (h : ∀ i (hi : i < l.length), g i = .ok (k l[i] i)) :
    (List.range l.length).mapM g = .ok (l.zipIdx.map fun x => k x.1 x.2) := by
  have h1 : ∀ n, n ≤ l.length → (List.range n).mapM g = .ok ((l.zipIdx.map fun x => k x.1 x.2).take n) := by
    intro n
    induction n with
    | zero => intro _; rfl
    | succ n ih =>
      intro hn
      have e : n < (l.zipIdx.map fun x => k x.1 x.2).length := by simp; omega
      rw [List.range_succ, List.mapM_append, ih (by omega), List.take_succ_eq_append_getElem e]
      simp only [List.mapM_cons, List.mapM_nil, h n hn]
      simp only [List.getElem_map, List.getElem_zipIdx, Nat.zero_add]
      rfl
  have := h1 _ (Nat.le_refl _)
  rwa [List.take_of_length_le (by simp)] at this

section
variable {V W R : Type} {vc : Codec W} {D : Disk} {p : Bytes}

theorem isMap_key {h : MapH} {m : UMap String W} (hm : IsMap string vc D p h m) {k : String} {v : W} (hk : m.get k = some v) :
    StrFits k := str_ok.1 ((hm.2.1 _ (UMap.get_eq_some_iff.1 hk)).1)

theorem item_keyAt {h : MapH} {m : UMap String W} (hm : IsMap string vc D p h m) {i : Nat} (hi : i < m.len) :
    ∃ k v, m.keys[i]? = some k ∧ m.get k = some v ∧ StrFits k := by
  have hi' : i < m.entries.length := hi
  have hmem : m.entries[i] ∈ m.entries := List.getElem_mem hi'
  refine ⟨m.entries[i].1, m.entries[i].2, ?_, UMap.get_eq_some_iff.2 hmem, str_ok.1 (hm.2.1 _ hmem).1⟩
  simp [UMap.keys, List.getElem?_eq_getElem hi']

/-- One step of a paging loop. -/
theorem isMap_item {m : UMap String V} {t : String → V → W} (hm : IsMap string vc D p (.at p m.len) (m.mapE t)) (hl : m.len < 2 ^ 64)
    {g : String → W → Res R} {g' : String → V → Res R} (hg : ∀ k v, m.get k = some v → g k (t k v) = g' k v) {i : Nat} (hi : i < m.len) :
    (do
      let k ← MapH.keyAt string D (.at p m.len) i
      let k ← expect k "called `Option::unwrap()` on a `None` value"
      let v ← MapH.get string vc D (.at p m.len) k
      let v ← expect v "called `Option::unwrap()` on a `None` value"
      g k v) = (do
      let k ← expect m.keys[i]? "called `Option::unwrap()` on a `None` value"
      let v ← expect (m.get k) "called `Option::unwrap()` on a `None` value"
      g' k v) := by
  have hke : (m.mapE t).keys = m.keys := by simp [UMap.keys, UMap.mapE, List.map_map, Function.comp_def]
  obtain ⟨k, w, h1, h2, h3⟩ := item_keyAt hm (by rw [UMap.mapE_len]; exact hi)
  rw [hm.keyAt (by omega), h1]
  rw [hke] at h1
  rw [h1]
  show (MapH.get string vc D (.at p m.len) k >>= _) = (expect (m.get k) _ >>= _)
  rw [hm.get (str_ok.2 h3)]
  rw [UMap.mapE_get] at h2 ⊢
  cases hv : m.get k with
  | none => rw [hv] at h2; cases h2
  | some v => exact hg k v hv

/-- A page of a map. -/
theorem isMap_page {m : UMap String V} {t : String → V → W} (hm : IsMap string vc D p (.at p m.len) (m.mapE t))
    (hl : m.len < 2 ^ 64) {g : String → W → Res R} {g' : String → V → Res R}
    (hg : ∀ k v, m.get k = some v → g k (t k v) = g' k v) (from_index limit : Nat) :
    page vc D (.at p m.len) g from_index limit =
      (List.range (min (from_index + limit) m.len - from_index)).mapM (fun i => do
        let k ← expect m.keys[from_index + i]? "called `Option::unwrap()` on a `None` value"
        let v ← expect (m.get k) "called `Option::unwrap()` on a `None` value"
        g' k v) := by
  unfold page
  refine mapM_same fun i hi => ?_
  have hi : i < min (from_index + limit) m.len - from_index := List.mem_range.1 hi
  exact isMap_item hm hl hg (by omega)

theorem mapE_id (m : UMap String V) : (m.mapE fun _ v => v) = m := UMap.ext' (by simp [UMap.mapE])

theorem isMap_kv {m : UMap String W} (hm : IsMap string vc D p (.at p m.len) m) :
    IsMap string vc D p (.at p m.len) (m.mapE fun _ v => v) := by rw [mapE_id]; exact hm

end

variable {H : Hash} {N : Names} {f : Nat} {vl : String → Nat} {m : Mem} {s : State} {D : Disk} {S : SState} {J : Json}
  {id : String} {v : Voter} {n : Nat}

theorem tlike_keys {V : Type} {T : Typ String V} (hT : T.kc = string) {p : Bytes} {C : Cells String V} (h : TLike T D p C) {len : Nat}
    (hl : len ≤ 2 ^ 64) : keyList D (.at p len) = C.keyList len := by
  unfold keyList Cells.keyList
  refine mapM_same fun i hi => ?_
  have hi : i < len := List.mem_range.1 hi
  unfold VecH.item
  rw [show D ((MapH.at p len).keys.key i) = D (Disk.kkey p i) by rw [at_kkey], h.keys i (by omega)]
  beta_reduce
  cases hk : C.keys i with
  | none => rfl
  | some k =>
    have := T.read_k (h.kok i k hk)
    rw [hT] at this
    simp only [Option.map_some, hT, this]
    rfl

theorem keyList_mem {V : Type} {C : Cells String V} {len : Nat} {l : List String} (h : C.keyList len = .ok l) :
    ∀ k ∈ l, ∃ i, C.keys i = some k := by
  intro k hk
  obtain ⟨i, -, hi⟩ := mapM_mem h k hk
  refine ⟨i, ?_⟩
  cases e : C.keys i with
  | none => rw [e] at hi; cases hi
  | some k' => rw [e] at hi; cases hi; rfl

/-- The record of a voter, or of a new one, with positions that can be read. -/
theorem Stored.voter (h : Stored H N f S D) (hid : StrFits id) :
    internal_get_voter H D (rootOf H S.st S.mem) id = .ok (recOf H id (S.st.internal_get_voter id) (S.vlen id)) ∧
      (∀ i, i < 2 ^ 64 → VecH.get lockingPosition D (recOf H id (S.st.internal_get_voter id) (S.vlen id)).locking_positions i =
        .ok (S.st.internal_get_voter id).locking_positions[i]?) ∧
      positions D (recOf H id (S.st.internal_get_voter id) (S.vlen id)) = .ok (S.st.internal_get_voter id).locking_positions ∧
      (S.st.internal_get_voter id).locking_positions.length < 2 ^ 64 := by
  have e : MapH.get string voterRec D (rootOf H S.st S.mem).voters id = _ := h.rep.tabs.getVoter hid
  unfold internal_get_voter State.internal_get_voter
  rw [e]
  show (Except.ok (((S.st.voters.get id).map _).getD _) : Res VoterRec) = _ ∧ _
  cases hv : S.st.voters.get id with
  | none =>
    refine ⟨?_, fun i _ => ?_, rfl, by decide⟩
    · show Except.ok (newVoter H id) = Except.ok (recOf H id Voter.new (S.vlen id))
      rw [h.fresh id hv]; rfl
    · show VecH.get lockingPosition D ⟨0, _⟩ i = .ok ([] : List LockingPosition)[i]?
      unfold VecH.get Disk.vecGet
      rw [if_pos (Nat.zero_le i)]
      rfl
  | some v =>
    have h1 := (h.rep.voter hv).vec
    refine ⟨rfl, fun i hi => h1.1.get hi, ?_, h1.2.lt⟩
    have := mapM_get (g := fun i => VecH.item lockingPosition D (recOf H id v (S.vlen id)).locking_positions i)
      (k := fun p _ => p) (l := v.locking_positions) fun i hi => h1.1.item (Nat.lt_trans hi h1.2.lt) hi
    refine Eq.trans this ?_
    simp

theorem Stored.json (h : Stored H N f S D) (hid : StrFits id) (now : Nat) :
    positions_json D (recOf H id (S.st.internal_get_voter id) (S.vlen id)) now =
      .ok (MetaVote.positions_json now (S.st.internal_get_voter id).locking_positions) := by
  obtain ⟨-, h2, -, h4⟩ := h.voter hid
  refine mapM_get (k := fun (p : LockingPosition) i => p.to_json now (some i)) fun i hi => ?_
  rw [h2 i (by omega), List.getElem?_eq_getElem hi]
  rfl

theorem Stored.mid (hN : N.OK H) (h : Stored H N f S D) (hid : N.voter id) :
    Mid H N f S.vlen S.mem id S.st (S.st.internal_get_voter id) (S.vlen id) D :=
  (h.rep.get_voter hN hid (h.fresh id) h.rep.room0).2

theorem Mid.overApps_eq (h : Mid H N f S.vlen S.mem id S.st v (S.vlen id) D) {g : MapH → Res (List (String × Nat))}
    {g' : Handle → Res (List (String × Nat))} (hg : ∀ a, HOK N f a → g (hnd H a) = g' a) :
    overApps D (recOf H id v (S.vlen id)) g = S.overApps id g' := by
  unfold overApps SState.overApps
  rw [show keyList D (recOf H id v (S.vlen id)).vote_positions = _ from tlike_keys rfl h.vp h.room.lt.le]
  cases hk : (S.mem.vp id).keyList (S.vlen id) with
  | error e => rfl
  | ok l =>
    refine mapM_same fun a ha => ?_
    obtain ⟨i, hi⟩ := keyList_mem hk a ha
    rw [h.getHandle (h.vp.kok i a hi)]
    cases hx : (S.mem.vp id).get (S.vlen id) a with
    | error e => rfl
    | ok o =>
      cases o with
      | none => rfl
      | some x =>
        show (g (hnd H x) >>= _) = (g' x >>= _)
        rw [hg x (h.handleOK hx)]

theorem amounts_id {l : Res (List (String × Nat))} : l.map (List.map fun e : String × Nat => (e.1, e.2)) = l := by
  cases l with
  | error e => rfl
  | ok l => simp [Except.map]

theorem Mid.entries_eq (h : Mid H N f vl m id s v n D) {a : Handle} (ha : HOK N f a) :
    MapH.entryList string u128 D (hnd H a) = (m.vv a.region).entries a.len :=
  ((h.tabs.vv ha.1).entries (len := a.len) ha.2.lt.le).trans amounts_id

theorem Mid.byKeys_eq (h : Mid H N f vl m id s v n D) {a : Handle} (ha : HOK N f a) :
    byKeys D (hnd H a) = (m.vv a.region).byKeys a.len := by
  unfold byKeys Cells.byKeys
  have h0 := h.tabs.vv ha.1
  rw [show keyList D (hnd H a) = _ from tlike_keys rfl h0 ha.2.lt.le]
  change ((m.vv a.region).keyList a.len >>= _) = _
  cases hk : (m.vv a.region).keyList a.len with
  | error e => rfl
  | ok l =>
    refine mapM_same fun o ho => ?_
    obtain ⟨i, hi⟩ := keyList_mem hk o ho
    rw [h.voteIn_eq ha (h0.kok i o hi)]
    rfl

theorem Stored.to_json_eq (h : Stored H N f S D) (hv : S.st.voters.get id = some v) (hid : StrFits id) (now : Nat) :
    to_json D (recOf H id v (S.vlen id)) now id = S.get_voter_info now id := by
  have e : S.st.internal_get_voter id = v := by simp [State.internal_get_voter, hv]
  have hm := h.rep.voter hv
  unfold to_json SState.get_voter_info
  have h1 := h.json hid now
  rw [e] at h1
  rw [h1, hm.overApps_eq (g' := fun h => (S.mem.vv h.region).byKeys h.len) fun a ha => hm.byKeys_eq ha, hv]
  rfl

end Verif.MetaVote.Bytes
