import Verif.MetaVote.BytesWorld
import Verif.MetaVote.BytesView
import Verif.MetaVote.BytesTrace
import Verif.Props.StorageRefines

/-!
# C92: meta-vote on the bytes of its storage

The contract reads and writes bytes: the record under `STATE` and the elements of its collections, under keys that are made of
prefixes, 32-byte hashes of ids, and encoded keys.  As long as the hashes of the ids that occur do not collide and no collection
has grown to `2 ^ 32` entries, it does what the model over the vote maps does: same panics, same transfers, same state, same
answers to views, and nothing else in storage is touched.
-/

namespace Verif.MetaVote.Bytes

open Verif Storage Disk Borsh

variable {H : Hash} {N : Names} {f f' : Nat} {D : Disk} {S : SState} {J : Json} {me : AccountId} {id : String}
  {G : Disk → Disk → Ctx → Call → Prop}

/-- **C92.** A call on the bytes panics with the message with which it panics in the model, or both succeed with the same
transfers and the bytes that result hold the state that results.  Keys that are not of the contract are left alone. -/
theorem C92_call (hN : N.OK H) {c : Ctx} {k : Call} (hw : weight J k + f ≤ f') (h : Stored H N f' S D)
    (hc : StrFits c.predecessor) (ht : c.timestamp ≤ U64_MAX) (hk : CallOK N J k) :
    (∃ e, sexec J S c k = .error e ∧ exec H J D c k = .error e) ∨
      ∃ S' D' out, sexec J S c k = .ok (S', out) ∧ exec H J D c k = .ok (D', out) ∧ Stored H N f S' D' ∧
        ∀ x, N.Foreign H x → D' x = D x := by
  have h0 := h.exec hN hw hc ht hk
  generalize sexec J S c k = x at h0
  generalize exec H J D c k = y at h0
  cases x with
  | error e =>
    cases y with
    | error e' => exact .inl ⟨e, rfl, by rw [show e = e' from h0]⟩
    | ok b => exact h0.elim
  | ok a =>
    cases y with
    | error e' => exact h0.elim
    | ok b =>
      obtain ⟨S', out⟩ := a
      obtain ⟨D', out'⟩ := b
      obtain ⟨h1, h2⟩ := h0
      simp only at h1 h2
      subst h1
      exact .inr ⟨S', D', out', rfl, rfl, h2, fun x hx => (h2.rep.tabs.rest x hx).trans (h.rep.tabs.rest x hx).symm⟩

/-- **C92.** On storage in which nothing of the contract is, `new` writes the bytes of the state it makes, or panics. -/
theorem C92_install (hb : Blank H N D) {c : Ctx} {o op : AccountId} {a b d l v : Nat} {mp st : AccountId} {r : Nat} {p : String}
    (ho : StrFits o) (hop : StrFits op) (hmp : StrFits mp) (hst : StrFits st) (hp : StrFits p) (hd : c.deposit = 0)
    (hr : (Call.new_ o op a b d l v mp st r p).in_range = true) :
    (∃ e, MetaVote.new false o op a b d l v mp st r p = .error e ∧ exec H J D c (.new_ o op a b d l v mp st r p) = .error e) ∨
      ∃ s D', MetaVote.new false o op a b d l v mp st r p = .ok s ∧ exec H J D c (.new_ o op a b d l v mp st r p) = .ok (D', []) ∧
        Stored H N (2 ^ 32 - 1) ⟨s, fun _ => 0, Mem.empty⟩ D' ∧ ∀ x, N.Foreign H x → D' x = D x := by
  have h0 := hb.new (J := J) (c := c) (f := 2 ^ 32 - 1) (by omega) ho hop hmp hst hp (a := a) (b := b) (d := d) (l := l) (v := v) (r := r)
  have e1 : require (c.deposit = 0) "Method doesn't accept deposit" = .ok () := by rw [hd]; rfl
  have e2 : require ((Call.new_ o op a b d l v mp st r p).in_range = true) "Failed to deserialize input from JSON." = .ok () := by
    rw [hr]; rfl
  rw [e1, e2] at h0
  change Rel _ (MetaVote.new false o op a b d l v mp st r p) _ at h0
  generalize MetaVote.new false o op a b d l v mp st r p = x at h0
  generalize exec H J D c (.new_ o op a b d l v mp st r p) = y at h0
  cases x with
  | error e =>
    cases y with
    | error e' => exact .inl ⟨e, rfl, by rw [show e = e' from h0]⟩
    | ok b => exact h0.elim
  | ok s =>
    cases y with
    | error e' => exact h0.elim
    | ok b =>
      obtain ⟨D', out⟩ := b
      obtain ⟨h1, h2⟩ := h0
      simp only at h1 h2
      subst h1
      exact .inr ⟨s, D', rfl, rfl, h2, fun x hx => (h2.rep.tabs.rest x hx).trans (hb.2.2 x hx).symm⟩

/-- The storage of the version before the migration: its record, and the same collections. -/
structure StoredOld (H : Hash) (N : Names) (f : Nat) (S : SState) (D : Disk) : Prop where
  state : D STATE = some (oldRec.enc (rootOf H S.st S.mem).old)
  rep : Rep H N f S.vlen S.mem S.st D
  fresh : Fresh S.st S.vlen
  off : S.st.get_lock_in_vote_filters = (0, none, 0)

theorem StoredOld.migrated (h : StoredOld H N f S D) :
    migrateRec (oldRec.enc (rootOf H S.st S.mem).old) = .ok (stateRec.enc (rootOf H S.st S.mem)) := by
  unfold migrateRec
  rw [C88_old.2 ⟨h.rep.root_fits.1, rfl⟩]
  have h0 := h.off
  simp only [State.get_lock_in_vote_filters, Prod.mk.injEq] at h0
  obtain ⟨h1, h2, h3⟩ := h0
  simp only [expect, StateRec.old, rootOf, h1, h2, h3]
  rfl

/-- **C92.** On the storage of the version before, `migrate` writes the record of the state with the lock-in filter off, and
changes nothing else: every collection is as before.  Before it, every other call panics. -/
theorem C92_upgrade (h : StoredOld H N f S D) {c : Ctx} (hd : c.deposit = 0) (hc : c.predecessor = c.current) :
    (∃ D', exec H J D c .migrate = .ok (D', []) ∧ Stored H N f S D' ∧ ∀ x, x ≠ STATE → D' x = D x) ∧
    ∀ c k D' out, exec H J D c k = .ok (D', out) → k = .migrate := by
  constructor
  · refine ⟨upd D STATE (some (stateRec.enc (rootOf H S.st S.mem))), ?_, ⟨?_, ⟨h.rep.tabs.state _, h.rep.fit⟩, h.fresh⟩, ?_⟩
    · unfold Bytes.exec Bytes.migrate
      simp only [hd, hc, require, Call.in_range, or_true, implies_true, if_true, h.state, expect]
      show (migrateRec _ >>= _) >>= _ = _
      rw [h.migrated]
      rfl
    · exact upd_self ..
    · exact fun x hx => upd_ne _ _ hx
  · intro c k D' out hx
    have hl : load D = .error (.assert "Cannot deserialize the contract state.") := by
      unfold load
      rw [h.state]
      simp only [(C88_once h.rep.root_fits h.rep.root_fits.1).2]
      rfl
    have hs : D STATE ≠ none := by rw [h.state]; simp
    unfold Bytes.exec at hx
    simp only [bind_ok_iff, require_ok_iff] at hx
    obtain ⟨-, -, -, -, -, -, hx⟩ := hx
    cases k with
    | migrate => rfl
    | new_ o op a b d l v mp st r p =>
      simp only [Bytes.new, bind_ok_iff, require_ok_iff] at hx
      obtain ⟨-, ⟨-, h0, -⟩, -⟩ := hx
      exact absurd h0 hs
    | _ => rw [hl] at hx; cases hx

/-- **C92.** Once there is a state `new` panics; before, every other method does. -/
theorem C92_once (c : Ctx) :
    ((D STATE).isSome → ∀ o op a b d l v mp st r p, ∃ e, exec H J D c (.new_ o op a b d l v mp st r p) = .error e) ∧
    (D STATE = none → ∀ k D' out, exec H J D c k = .ok (D', out) → ∃ o op a b d l v mp st r p, k = .new_ o op a b d l v mp st r p) := by
  refine ⟨fun h o op a b d l v mp st r p => ?_, fun h k D' out hx => ?_⟩
  · cases hx : exec H J D c (.new_ o op a b d l v mp st r p) with
    | error e => exact ⟨e, rfl⟩
    | ok x =>
      unfold Bytes.exec Bytes.new at hx
      simp only [bind_ok_iff, require_ok_iff] at hx
      obtain ⟨-, -, -, -, -, -, -, ⟨-, h0, -⟩, -⟩ := hx
      rw [h0] at h; cases h
  · unfold Bytes.exec at hx
    simp only [bind_ok_iff, require_ok_iff] at hx
    obtain ⟨-, -, -, -, -, -, hx⟩ := hx
    cases k with
    | new_ o op a b d l v mp st r p => exact ⟨o, op, a, b, d, l, v, mp, st, r, p, rfl⟩
    | migrate => simp [Bytes.migrate, h, expect, bind_ok_iff] at hx
    | _ => simp [Bytes.load, h, bind_ok_iff] at hx

/-- **C92.** Everything that can happen to the bytes is an execution of the model, with the same transfers in flight, clock and
log, and the bytes hold its state.  What was in storage under other keys is still there. -/
theorem C92_reach (hN : N.OK H) (hme : StrFits me) {W : Nat} {w : BWorld} (h : BReach H N J me G W w) (hW : W < 2 ^ 32) :
    ∃ S, SReach J me ⟨S, w.pending, w.clock, w.log⟩ ∧ Stored H N (2 ^ 32 - 1 - W) S w.D ∧
      ∀ x, N.Foreign H x → w.D x = N.rest x := by
  obtain ⟨S, h1, h2, -⟩ := h.inv hN hme hW
  exact ⟨S, h1, h2, h2.rep.tabs.rest⟩

/-! ## Views -/

/-- **C92.** Views of the record. -/
theorem C92_views_state (h : Stored H N f S D) :
    view D (fun r => pure (get_owner_id r)) = .ok S.st.get_owner_id ∧
    view D (fun r => pure (get_operator_id r)) = .ok S.st.get_operator_id ∧
    view D (fun r => pure (get_contract_info r)) = .ok S.st.get_contract_info ∧
    view D (fun r => pure (get_voters_count r)) = .ok S.st.get_voters_count ∧
    view D (fun r => pure (get_total_voting_power r)) = .ok S.st.get_total_voting_power ∧
    view D (fun r => pure (get_lock_in_vote_filters r)) = .ok S.st.get_lock_in_vote_filters := by
  unfold view
  rw [h.load]
  exact ⟨rfl, rfl, rfl, rfl, rfl, rfl⟩

/-- **C92.** Views of the funds and positions of an account. -/
theorem C92_views_voter (h : Stored H N f S D) (hid : StrFits id) (now : Nat) :
    view D (fun r => get_balance H D r now id) = S.st.get_balance now id ∧
    view D (fun r => get_locked_balance H D r id) = S.st.get_locked_balance id ∧
    view D (fun r => get_unlocking_balance H D r now id) = S.st.get_unlocking_balance now id ∧
    view D (fun r => get_available_voting_power H D r id) = .ok (S.st.get_available_voting_power id) ∧
    view D (fun r => get_all_locking_positions H D r now id) = .ok (S.st.get_all_locking_positions now id) ∧
    (∀ index, index ≤ U64_MAX →
      view D (fun r => get_locking_position H D r now index id) = .ok (S.st.get_locking_position now index id)) ∧
    view D (fun r => get_claimable D r.claimable_mpdao id) = .ok (S.st.get_claimable_mpdao id) ∧
    view D (fun r => get_claimable D r.claimable_stnear id) = .ok (S.st.get_claimable_stnear id) ∧
    view D (fun r => check_if_registered_for_airdrops D r id) = .ok (S.st.check_if_registered_for_airdrops id) ∧
    view D (fun r => get_airdrop_account D r id) = S.st.get_airdrop_account id := by
  unfold view
  rw [h.load]
  obtain ⟨h1, h2, h3, h4⟩ := h.voter hid
  refine ⟨?_, ?_, ?_, ?_, ?_, fun index hi => ?_, ?_, ?_, ?_, ?_⟩
  · show get_balance H D (rootOf H S.st S.mem) now id = _
    unfold get_balance sum_unlocked
    rw [h1]
    change ((positions D (recOf H id (S.st.internal_get_voter id) (S.vlen id)) >>= _) >>= _) = _
    rw [h3]
    rfl
  · show get_locked_balance H D (rootOf H S.st S.mem) id = _
    unfold get_locked_balance sum_locked
    rw [h1]
    change (positions D (recOf H id (S.st.internal_get_voter id) (S.vlen id)) >>= _) = _
    rw [h3]
    rfl
  · show get_unlocking_balance H D (rootOf H S.st S.mem) now id = _
    unfold get_unlocking_balance sum_unlocking
    rw [h1]
    change (positions D (recOf H id (S.st.internal_get_voter id) (S.vlen id)) >>= _) = _
    rw [h3]
    rfl
  · show get_available_voting_power H D (rootOf H S.st S.mem) id = _
    unfold get_available_voting_power
    rw [h1]
    rfl
  · show get_all_locking_positions H D (rootOf H S.st S.mem) now id = _
    unfold get_all_locking_positions
    rw [h1]
    exact h.json hid now
  · show get_locking_position H D (rootOf H S.st S.mem) now index id = _
    unfold get_locking_position State.get_locking_position
    rw [h1]
    change (VecH.get lockingPosition D (recOf H id (S.st.internal_get_voter id) (S.vlen id)).locking_positions index >>= _) = _
    rw [h2 index (by unfold U64_MAX at hi; omega)]
    cases (S.st.internal_get_voter id).locking_positions[index]? <;> rfl
  · show get_claimable D (rootOf H S.st S.mem).claimable_mpdao id = _
    unfold get_claimable
    rw [show MapH.get string u128 D (rootOf H S.st S.mem).claimable_mpdao id = _ from h.rep.tabs.getMpdao hid]
    rfl
  · show get_claimable D (rootOf H S.st S.mem).claimable_stnear id = _
    unfold get_claimable
    rw [show MapH.get string u128 D (rootOf H S.st S.mem).claimable_stnear id = _ from h.rep.tabs.getStnear hid]
    rfl
  · show check_if_registered_for_airdrops D (rootOf H S.st S.mem) id = _
    unfold check_if_registered_for_airdrops
    rw [show MapH.get string string D (rootOf H S.st S.mem).associated_user_data id = _ from h.rep.tabs.getData hid]
    rfl
  · show get_airdrop_account D (rootOf H S.st S.mem) id = _
    unfold get_airdrop_account
    rw [show MapH.get string string D (rootOf H S.st S.mem).associated_user_data id = _ from h.rep.tabs.getData hid]
    rfl

/-- Views of the votes of a voter. -/
theorem Stored.views_voter (hN : N.OK H) (h : Stored H N f S D) (hid : N.voter id) (now : Nat) :
    view D (fun r => get_used_voting_power H D r id) = S.get_used_voting_power id ∧
    view D (fun r => get_votes_by_voter H D r id) = S.get_votes_by_voter id ∧
    view D (fun r => get_voter_info D r now id) = S.get_voter_info now id := by
  have hm := h.mid hN hid
  obtain ⟨h1, -, -, -⟩ := h.voter (hN.voter _ hid)
  unfold view
  rw [h.load]
  refine ⟨?_, ?_, ?_⟩
  · show get_used_voting_power H D (rootOf H S.st S.mem) id = _
    unfold get_used_voting_power
    rw [h1]
    exact hm.sum_used
  · show get_votes_by_voter H D (rootOf H S.st S.mem) id = _
    unfold get_votes_by_voter SState.get_votes_by_voter
    rw [h1]
    change (overApps D (recOf H id (S.st.internal_get_voter id) (S.vlen id)) _ >>= _) = _
    rw [hm.overApps_eq fun a ha => hm.entries_eq ha]
  · show get_voter_info D (rootOf H S.st S.mem) now id = _
    unfold get_voter_info
    rw [show MapH.get string voterRec D (rootOf H S.st S.mem).voters id = _ from h.rep.tabs.getVoter (hN.voter _ hid)]
    change (match (S.st.voters.get id).map (fun v => recOf H id v (S.vlen id)) with
      | some v => to_json D v now id | none => pure ⟨id, 0, [], 0, []⟩ : Res VoterJSON) = _
    cases hv : S.st.voters.get id with
    | none =>
      unfold SState.get_voter_info
      rw [hv]
      rfl
    | some v =>
      exact h.to_json_eq hv (hN.voter _ hid) now

/-- Views of the votes for an app. -/
theorem Stored.views_app (hN : N.OK H) (h : Stored H N f S D) {app : String} (happ : N.app app) {obj : String} (ho : StrFits obj) :
    view D (fun r => get_total_votes D r app obj) = S.get_total_votes app obj ∧
    view D (fun r => get_votes_by_app H D r app) = S.get_votes_by_app app ∧
    view D (fun r => get_votes_by_contract H D r app) = S.get_votes_by_contract app := by
  have happ' := hN.app _ happ
  have hb : get_votes_by_app H D (rootOf H S.st S.mem) app = S.get_votes_by_app app := by
    unfold get_votes_by_app SState.get_votes_by_app
    rw [show MapH.get string mapH D (rootOf H S.st S.mem).votes app = _ from h.rep.tabs.getVotes happ']
    change MapH.entryList string u128 D (((S.mem.vt.get app).map _).getD _) = _
    cases hv : S.mem.vt.get app with
    | none => rfl
    | some n => exact ((h.rep.tabs.cv happ).entries (len := n) (h.rep.tabs.votesFits hv).lt.le).trans amounts_id
  unfold view
  rw [h.load]
  refine ⟨?_, hb, ?_⟩
  · show get_total_votes D (rootOf H S.st S.mem) app obj = _
    unfold get_total_votes SState.get_total_votes
    rw [show MapH.get string mapH D (rootOf H S.st S.mem).votes app = _ from h.rep.tabs.getVotes happ']
    change (match (S.mem.vt.get app).map (fun n => MapH.at (pre H (.contractVotes app)) n) with
      | some h => (do
        let n ← MapH.get string u128 D h obj
        pure (n.getD 0))
      | none => pure 0 : Res Nat) = _
    cases hv : S.mem.vt.get app with
    | none => rfl
    | some n =>
      have := (h.rep.tabs.cv happ).get n (k := obj) ho
      change (MapH.get string u128 D (.at (pre H (.contractVotes app)) n) obj >>= _) = _
      rw [show MapH.get string u128 D (.at (pre H (.contractVotes app)) n) obj = _ from this]
      change (((S.mem.cv app).get n obj).map (Option.map fun x => x) >>= _) = ((S.mem.cv app).get n obj >>= fun o => pure (o.getD 0))
      cases (S.mem.cv app).get n obj with
      | error e => rfl
      | ok o => cases o <;> rfl
  · show get_votes_by_contract H D (rootOf H S.st S.mem) app = _
    unfold get_votes_by_contract SState.get_votes_by_contract
    rw [hb]

/-- **C92.** Views of the votes. -/
theorem C92_views_votes (hN : N.OK H) (h : Stored H N f S D) (hid : N.voter id) {app : String} (happ : N.app app) {obj : String}
    (ho : StrFits obj) (now : Nat) :
    view D (fun r => get_votes_for_object H D r id app obj) = S.get_votes_for_object id app obj ∧
    view D (fun r => get_used_voting_power H D r id) = S.get_used_voting_power id ∧
    view D (fun r => get_votes_by_voter H D r id) = S.get_votes_by_voter id ∧
    view D (fun r => get_voter_info D r now id) = S.get_voter_info now id ∧
    view D (fun r => get_total_votes D r app obj) = S.get_total_votes app obj ∧
    view D (fun r => get_votes_by_app H D r app) = S.get_votes_by_app app ∧
    view D (fun r => get_votes_by_contract H D r app) = S.get_votes_by_contract app := by
  obtain ⟨v1, v2, v3⟩ := h.views_voter hN hid now
  refine ⟨?_, v1, v2, v3, h.views_app hN happ ho⟩
  have hm := h.mid hN hid
  have happ' := hN.app _ happ
  obtain ⟨h1, -, -, -⟩ := h.voter (hN.voter _ hid)
  unfold view
  rw [h.load]
  show get_votes_for_object H D (rootOf H S.st S.mem) id app obj = _
  unfold get_votes_for_object SState.get_votes_for_object
  rw [h1]
  change (MapH.get string mapH D (recOf H id (S.st.internal_get_voter id) (S.vlen id)).vote_positions app >>= _) = _
  rw [hm.getHandle ⟨happ, happ'⟩]
  cases hx : (S.mem.vp id).get (S.vlen id) app with
  | error e => rfl
  | ok o =>
    cases o with
    | none => rfl
    | some x =>
      change (MapH.get string u128 D (hnd H x) obj >>= _) = (S.mem.voteIn x obj >>= _)
      rw [hm.voteIn_eq (hm.handleOK hx) ho]

/-- **C92.** Listings, page by page. -/
theorem C92_views_lists (h : Stored H N f S D) (now from_index limit : Nat) :
    view D (fun r => get_voters D r now from_index limit) = S.get_voters now from_index limit ∧
    view D (fun r => internal_get_claims D r.claimable_mpdao from_index limit) = S.st.get_claims from_index limit ∧
    view D (fun r => internal_get_claims D r.claimable_stnear from_index limit) = S.st.get_stnear_claims from_index limit ∧
    view D (fun r => get_airdrop_accounts D r from_index limit) = S.st.get_airdrop_accounts from_index limit ∧
    view D (fun r => get_delegates D r from_index limit) = S.st.get_delegates from_index limit := by
  unfold view
  rw [h.load]
  have h0 := h.rep.tabs
  refine ⟨?_, ?_, ?_, ?_, ?_⟩
  · have h1 := h0 .voters trivial
    refine isMap_page h1.1 h1.2.1.lt (fun k v hk => ?_) from_index limit
    exact h.to_json_eq hk (isMap_key h1.1 (v := recOf H k v (S.vlen k)) (by rw [UMap.mapE_get]; exact congrArg _ hk)) now
  · have h1 := h0 .claimable trivial
    exact isMap_page (isMap_kv h1.1) h1.2.lt (fun k v _ => rfl) from_index limit
  · have h1 := h0 .claimableStNear trivial
    exact isMap_page (isMap_kv h1.1) h1.2.lt (fun k v _ => rfl) from_index limit
  · have h1 := h0 .airdropData trivial
    exact isMap_page (isMap_kv h1.1) h1.2.lt (fun k v _ => rfl) from_index limit
  · have h1 := h0 .evmDelegates trivial
    have hl : S.st.evm_delegates.len < 2 ^ 64 := h1.2.1.lt
    show get_delegates D (rootOf H S.st S.mem) from_index limit = _
    unfold get_delegates State.get_delegates
    show (require (from_index < S.st.evm_delegates.len % 4294967296) _ >>= _) =
      (require (from_index < S.st.evm_delegates.len % 4294967296) _ >>= _)
    cases require (from_index < S.st.evm_delegates.len % 4294967296) "from_index >= keys_len" with
    | error e => rfl
    | ok _ =>
      show (addU32 from_index limit >>= _) = (addU32 from_index limit >>= _)
      cases addU32 from_index limit with
      | error e => rfl
      | ok sum =>
        refine mapM_same fun i hi => ?_
        have hi : i < min sum (S.st.evm_delegates.len % 4294967296) - from_index := List.mem_range.1 hi
        have := Nat.mod_le S.st.evm_delegates.len 4294967296
        exact isMap_item (isMap_kv h1.1) hl (fun k v _ => rfl) (show from_index + i < S.st.evm_delegates.len by omega)

/-- **C92.** Views of delegations. -/
theorem C92_views_delegates (h : Stored H N f S D) (hid : StrFits id) :
    view D (fun r => get_pre_delegate_evm_address D r id) = .ok (S.st.get_pre_delegate_evm_address id) ∧
    view D (fun r => get_delegating_evm_addresses D r id) = .ok (S.st.get_delegating_evm_addresses id) ∧
    view D (fun r => get_delegate D r id) = .ok (S.st.get_delegate id) ∧
    view D (fun r => get_delegation_signature D r id) = S.st.get_delegation_signature id := by
  unfold view
  rw [h.load]
  have h0 := h.rep.tabs
  refine ⟨h0.getPres hid, ?_, ?_, ?_⟩
  · show get_delegating_evm_addresses D (rootOf H S.st S.mem) id = _
    unfold get_delegating_evm_addresses
    rw [show MapH.get string addresses D (rootOf H S.st S.mem).evm_delegates id = _ from h0.getDele hid]
    rfl
  · show get_delegate D (rootOf H S.st S.mem) id = _
    unfold get_delegate State.get_delegate
    rw [show LookupH.get string delegation D (rootOf H S.st S.mem).evm_delegation_signatures id = _ from h0.getSigs hid]
    change (match S.st.evm_delegation_signatures.get id with | some d => _ | none => _) = _
    cases S.st.evm_delegation_signatures.get id <;> rfl
  · show get_delegation_signature D (rootOf H S.st S.mem) id = _
    unfold get_delegation_signature
    rw [show LookupH.get string delegation D (rootOf H S.st S.mem).evm_delegation_signatures id = _ from h0.getSigs hid]
    rfl

/-! ## The model in which the vote maps are values -/

/-- The record of a voter. -/
def voterAt (D : Disk) (id : String) : Option VoterRec :=
  (view D fun r => MapH.get string voterRec D r.voters id).getOr none

/-- An account that votes for some app does not disappear with its last withdrawal. -/
def keeps (D D' : Disk) (c : Ctx) : Call → Bool
  | .withdraw _ _ | .withdraw_all => match voterAt D c.predecessor with
    | some v => v.vote_positions.keys.len == 0 || (voterAt D' c.predecessor).isSome
    | none => true
  | _ => true

theorem Stored.voterAt_eq (h : Stored H N f S D) (hid : StrFits id) :
    voterAt D id = (S.st.voters.get id).map fun v => recOf H id v (S.vlen id) := by
  unfold voterAt view
  rw [h.load]
  show (MapH.get string voterRec D (rootOf H S.st S.mem).voters id).getOr none = _
  rw [show MapH.get string voterRec D (rootOf H S.st S.mem).voters id = _ from h.rep.tabs.getVoter hid]
  rfl

/-- The pairs of voter and app that occur. -/
def pairs (N : Names) (v a : String) : Prop := N.voter v ∧ N.app a

theorem Stored.registered (h : Stored H N f S D) {v : Voter} (hv : S.st.internal_get_voter_or_panic id = .ok v) : N.voter id :=
  (h.rep.voterFits (ok_of_or_panic hv)).2.2.2

theorem Stored.allowed (h : Stored H N f S D) {c : Ctx} {k : Call} (hk : CallOK N J k) {S' : SState} {out : List Transfer}
    (hx : sexec J S c k = .ok (S', out)) : Allowed (pairs N) c k := by
  unfold sexec at hx
  simp only [bind_ok_iff, require_ok_iff] at hx
  obtain ⟨-, -, -, -, -, -, hx⟩ := hx
  have hq : ∀ {x : Res SState}, SState.quiet x = .ok (S', out) → ∃ S1, x = .ok S1 := by
    intro x hx
    unfold SState.quiet at hx
    simp only [bind_ok_iff] at hx
    obtain ⟨S1, h1, -⟩ := hx
    exact ⟨S1, h1⟩
  have hun : ∀ {v a o : String} {S1 : SState}, S.internal_unvote c v a o = .ok S1 → N.voter v := by
    intro v a o S1 h1
    unfold SState.internal_unvote at h1
    simp only [bind_ok_iff] at h1
    obtain ⟨-, -, w, h2, -⟩ := h1
    exact h.registered h2
  have hvo : ∀ {v a o : String} {n : Nat} {S1 : SState}, S.internal_vote v n a o = .ok S1 → N.voter v := by
    intro v a o n S1 h1
    unfold SState.internal_vote at h1
    simp only [bind_ok_iff] at h1
    obtain ⟨w, h2, -⟩ := h1
    exact h.registered h2
  cases k with
  | vote n a o =>
    obtain ⟨S1, h1⟩ := hq hx
    exact ⟨hvo h1, hk.1⟩
  | rebalance n a o =>
    obtain ⟨S1, h1⟩ := hq hx
    unfold SState.rebalance at h1
    simp only [bind_ok_iff] at h1
    obtain ⟨w, h2, -⟩ := h1
    exact ⟨h.registered h2, hk.1⟩
  | unvote a o =>
    obtain ⟨S1, h1⟩ := hq hx
    exact ⟨hun h1, hk.1⟩
  | vote_delegated e n a o =>
    obtain ⟨S1, h1⟩ := hq hx
    simp only [bind_ok_iff] at h1
    obtain ⟨p, hp, h1⟩ := h1
    rw [verified hp] at h1
    exact ⟨hvo h1, hk.2.1⟩
  | unvote_delegated e a o =>
    obtain ⟨S1, h1⟩ := hq hx
    simp only [bind_ok_iff] at h1
    obtain ⟨p, hp, h1⟩ := h1
    rw [verified hp] at h1
    exact ⟨hun h1, hk.2.1⟩
  | _ => trivial

theorem Stored.keeps {f' : Nat} {D' : Disk} {S' : SState} (h : Stored H N f S D) (h' : Stored H N f' S' D') {c : Ctx} {k : Call}
    (hg : keeps D D' c k = true) (hc : StrFits c.predecessor) : Keeps S S' c k := by
  have key : (match voterAt D c.predecessor with
      | some v => v.vote_positions.keys.len == 0 || (voterAt D' c.predecessor).isSome
      | none => true) = true → S.vlen c.predecessor ≠ 0 → (S'.st.voters.get c.predecessor).isSome = true := by
    intro h1 h2
    rw [h.voterAt_eq hc, h'.voterAt_eq hc] at h1
    cases hv : S.st.voters.get c.predecessor with
    | none => exact absurd (h.fresh _ hv) h2
    | some v =>
      rw [hv] at h1
      have h1 : ((S.vlen c.predecessor == 0) ||
        ((S'.st.voters.get c.predecessor).map fun v => recOf H c.predecessor v (S'.vlen c.predecessor)).isSome) = true := h1
      rw [Bool.or_eq_true, beq_iff_eq, Option.isSome_map] at h1
      exact h1.resolve_left h2
  cases k with
  | withdraw l a => exact key hg
  | withdraw_all => exact key hg
  | _ => trivial

theorem SameButVotes.voter {s : State} (h : SameButVotes S s) (id : String) :
    S.st.internal_get_voter id = (s.internal_get_voter id).bare := by
  rw [show S.st = s.bare from h]
  exact get_voter_bare s id

/-- **C92**: as long as nobody withdraws the last funds of an account that still has votes (of power zero), and no two pairs of
voter and app in use have the same joined name, everything that can happen to the bytes is an execution of the model in which
the vote maps are plain maps, with the same transfers in flight, clock and log, and the bytes answer what that model answers.
Without these two conditions it is false, as C73 is. -/
theorem C92_maps (hN : N.OK H) (hme : StrFits me) (hj : Joins (pairs N)) {W : Nat} {w : BWorld}
    (h : BReach H N J me (fun D D' c k => keeps D D' c k = true) W w) (hW : W < 2 ^ 32) :
    ∃ m : World, Reach J me m ∧ w.pending = m.pending ∧ w.clock = m.clock ∧ w.log = m.log ∧
      view w.D (fun r => pure (get_total_voting_power r)) = .ok m.st.get_total_voting_power ∧
      view w.D (fun r => pure (get_voters_count r)) = .ok m.st.get_voters_count ∧
      (∀ id, StrFits id → ∀ now,
        view w.D (fun r => get_balance H w.D r now id) = m.st.get_balance now id ∧
        view w.D (fun r => get_locked_balance H w.D r id) = m.st.get_locked_balance id ∧
        view w.D (fun r => get_unlocking_balance H w.D r now id) = m.st.get_unlocking_balance now id ∧
        view w.D (fun r => get_available_voting_power H w.D r id) = .ok (m.st.get_available_voting_power id) ∧
        view w.D (fun r => get_all_locking_positions H w.D r now id) = .ok (m.st.get_all_locking_positions now id) ∧
        view w.D (fun r => get_claimable w.D r.claimable_mpdao id) = .ok (m.st.get_claimable_mpdao id) ∧
        view w.D (fun r => get_claimable w.D r.claimable_stnear id) = .ok (m.st.get_claimable_stnear id) ∧
        view w.D (fun r => get_delegate w.D r id) = .ok (m.st.get_delegate id)) ∧
      ∀ id app obj, N.voter id → N.app app → StrFits obj →
        view w.D (fun r => get_votes_for_object H w.D r id app obj) = .ok (m.st.get_votes_for_object id app obj) ∧
        view w.D (fun r => get_total_votes w.D r app obj) = .ok (m.st.get_total_votes app obj) := by
  obtain ⟨S, h1, h2, -⟩ := h.follow hN hme (P := SReachC J me (pairs N)) (fun _ h => .init h)
    (fun w w' h hs hg => .step h hs fun c k out e => by
      obtain ⟨f, D, D', h1, h2, h3, h4, h5, h6⟩ := hg c k out e
      exact ⟨h1.allowed h5 h6, h1.keeps h2 h3 h4⟩) hW
  obtain ⟨m, h3, h4, h5, h6, h7, h8, h9, -⟩ := C73_refines_partial hj h1
  have hst : S.st = m.st.bare := h7
  obtain ⟨-, -, -, s4, s5, -⟩ := C92_views_state h2
  refine ⟨m, h3, h4, h5, h6, ?_, ?_, fun id hid now => ?_, fun id app obj hid happ ho => ?_⟩
  · rw [s5, hst]; rfl
  · rw [s4, hst]
    exact congrArg Except.ok (UMap.len_mapV _ _)
  · obtain ⟨v1, v2, v3, v4, v5, -, v7, v8, -⟩ := C92_views_voter h2 hid now
    obtain ⟨-, -, d3, -⟩ := C92_views_delegates h2 hid
    have hv := SameButVotes.voter h7 id
    refine ⟨v1.trans ?_, v2.trans ?_, v3.trans ?_, v4.trans ?_, v5.trans ?_, v7.trans ?_, v8.trans ?_, d3.trans ?_⟩
    · unfold State.get_balance; rw [hv]; rfl
    · unfold State.get_locked_balance; rw [hv]; rfl
    · unfold State.get_unlocking_balance; rw [hv]; rfl
    · rw [available_bare h7]
    · unfold State.get_all_locking_positions; rw [hv]; rfl
    · rw [hst]; rfl
    · rw [hst]; rfl
    · rw [hst]; rfl
  · obtain ⟨v1, -, -, -, v5, -, -⟩ := C92_views_votes hN h2 hid happ ho 0
    exact ⟨v1.trans (h8 id app obj), v5.trans (h9 app obj)⟩

/-! ## Cases -/

/-- Storage with a key that is not of the contract. -/
def other : Disk := fun x => if x = [255] then some [1] else none

/-- Names for `tidy`. -/
def few : Names := ⟨fun v => v ∈ ["bob", "eve"], fun a => a ∈ ["A", "B"], other⟩

/-- The ids that are hashed. -/
def ids : List String := ["bob", "eve", "A", "B", "bob-A", "bob-B", "eve-A", "eve-B"]

theorem few_ids {c : Coll} (h : few.U c) : ∀ i, c.id = some i → i ∈ ids := by
  intro i e
  cases c with
  | lockingPosition | votePosition =>
    simp only [Coll.id, Option.some.injEq] at e
    subst e
    simp only [Names.U, few, List.mem_cons, List.not_mem_nil, or_false] at h
    rcases h with rfl | rfl <;> decide +kernel
  | contractVotes =>
    simp only [Coll.id, Option.some.injEq] at e
    subst e
    simp only [Names.U, few, List.mem_cons, List.not_mem_nil, or_false] at h
    rcases h with rfl | rfl <;> decide +kernel
  | voterVotes =>
    simp only [Coll.id, Option.some.injEq] at e
    subst e
    simp only [Names.U, few, List.mem_cons, List.not_mem_nil, or_false] at h
    obtain ⟨v, a, hv, ha, rfl⟩ := h
    rcases hv with rfl | rfl <;> rcases ha with rfl | rfl <;> decide +kernel
  | _ => cases e

theorem ids_apart : ∀ i ∈ ids, ∀ j ∈ ids, Disk.firstByte.fn i = Disk.firstByte.fn j → i = j := by decide +kernel

theorem few_ok : few.OK Disk.firstByte := by
  refine ⟨fun c d hc hd e => ?_, fun i hi => ?_, fun i hi => ?_⟩
  · have h1 := few_ids hc
    have h2 := few_ids hd
    generalize c.id = x at h1 e
    generalize d.id = y at h2 e
    cases x <;> cases y <;> simp only [Option.map_none, Option.map_some, Option.some.injEq, reduceCtorEq] at e
    · rfl
    · rw [ids_apart _ (h1 _ rfl) _ (h2 _ rfl) e]
  · simp only [few, List.mem_cons, List.not_mem_nil, or_false] at hi
    rcases hi with rfl | rfl <;> (unfold StrFits; decide +kernel)
  · simp only [few, List.mem_cons, List.not_mem_nil, or_false] at hi
    rcases hi with rfl | rfl <;> (unfold StrFits; decide +kernel)

theorem few_joins : Joins (pairs few) := by
  have h : ∀ v ∈ ["bob", "eve"], ∀ c ∈ ["A", "B"], ∀ v' ∈ ["bob", "eve"], ∀ c' ∈ ["A", "B"], join v c = join v' c' → v = v' ∧ c = c' := by
    decide +kernel
  exact fun v c v' c' h1 h2 => h v h1.1 c h1.2 v' h2.1 c' h2.2

theorem foreign : few.Foreign Disk.firstByte [255] := by
  refine ⟨by decide, fun c _ e _ h => ?_⟩
  have h := congrArg List.head? h
  cases c <;> simp [pre, prefixOf, Coll.tag] at h

theorem other_blank : Blank Disk.firstByte few other :=
  ⟨by decide, fun c hc e he => if_neg fun h => foreign.2 c hc e he h.symm, fun _ _ => rfl⟩

def installed : Disk := ((exec Disk.firstByte demoJ other ⟨"me", "deployer", 0, 0, []⟩
  (.new_ "owner" "operator" 1 300 1000000 3 2 "mpdao" "stnear" 0 "old-gov")).getOr (other, [])).1

def tidyB : BWorld := (bruns Disk.firstByte demoJ "me" ⟨installed, [], 0, []⟩ tidy).get (by decide +kernel)

theorem ok_of_getOr {x : Res (Disk × List Transfer)} {d : Disk × List Transfer} (h : Res.isOk x = true)
    (he : (x.getOr d).2.isEmpty = true) : x = .ok ((x.getOr d).1, []) := by
  cases x with
  | error => cases h
  | ok r => obtain ⟨D, l⟩ := r; cases l with
    | nil => rfl
    | cons => cases he

theorem few_msg {v : String} (h : few.voter v) : MsgOK few demoJ v (ascii "60") := by
  refine ⟨h, fun p hp => ?_, fun l hl => ?_⟩
  · rw [show demoJ.parse_pair (ascii "60") = none by decide +kernel] at hp; cases hp
  · rw [show demoJ.parse_claims ((ascii "60").drop 11) = none by decide +kernel] at hl; cases hl

theorem tidy_ok : ∀ a ∈ tidy, ActOK few demoJ a := by
  intro a ha
  simp only [tidy, List.mem_cons, List.not_mem_nil, or_false] at ha
  rcases ha with rfl | rfl | rfl | rfl | rfl | rfl | rfl | rfl | rfl | rfl | rfl | rfl | rfl <;>
    first
    | trivial
    | refine ⟨by unfold StrFits; decide +kernel, few_msg ?_⟩; simp [few]
    | refine ⟨by unfold StrFits; decide +kernel, ?_, by unfold StrFits; decide +kernel⟩; simp [few]
    | exact ⟨by unfold StrFits; decide +kernel, trivial⟩

theorem tidyB_reach : BReach Disk.firstByte few demoJ "me" (fun D D' c k => keeps D D' c k = true)
    (0 + (tidy.map (actWeight demoJ)).sum) tidyB := by
  refine reach_bruns (.init other installed ⟨"me", "deployer", 0, 0, []⟩ "owner" "operator" 1 300 1000000 3 2 "mpdao" "stnear" 0 "old-gov"
    other_blank (by decide) ?_ ?_ ?_ ?_ ?_ ?_) tidy_ok (by decide +kernel) (Option.some_get _).symm
  all_goals first | (unfold StrFits; decide +kernel) | skip
  exact ok_of_getOr (by decide +kernel) (by decide +kernel)

example : few.OK Disk.firstByte ∧ StrFits "me" ∧ Joins (pairs few) ∧
    BReach Disk.firstByte few demoJ "me" (fun D D' c k => keeps D D' c k = true) 39 tidyB ∧
    view tidyB.D (fun r => get_total_votes tidyB.D r "A" "o") = .ok 65000000000000000000000000 ∧
    view tidyB.D (fun r => get_votes_for_object Disk.firstByte tidyB.D r "eve" "A" "o") = .ok 5000000000000000000000000 ∧
    view tidyB.D (fun r => get_available_voting_power Disk.firstByte tidyB.D r "eve") = .ok 15000000000000000000000000 ∧
    view tidyB.D (fun r => get_locked_balance Disk.firstByte tidyB.D r "bob") = .ok 60000000 ∧
    few.Foreign Disk.firstByte [255] ∧ tidyB.D [255] = some [1] :=
  ⟨few_ok, by unfold StrFits; decide +kernel, few_joins, tidyB_reach, by decide +kernel, by decide +kernel, by decide +kernel,
    by decide +kernel, foreign, by decide +kernel⟩

/-- What `C92_call` and the views ask for. -/
example : ∃ S, Stored Disk.firstByte few (2 ^ 32 - 1 - 39) S tidyB.D ∧ few.OK Disk.firstByte ∧ few.voter "eve" ∧ few.app "A" ∧
    Res.isOk (exec Disk.firstByte demoJ tidyB.D ⟨"me", "eve", 0, 61 * DAY, []⟩ (.unvote "A" "o")) = true ∧
    CallOK few demoJ (.unvote "A" "o") := by
  obtain ⟨S, -, h, -⟩ := C92_reach few_ok (by unfold StrFits; decide +kernel) tidyB_reach (by decide)
  exact ⟨S, h, few_ok, by simp [few], by simp [few], by decide +kernel, by simp [few], by unfold StrFits; decide +kernel⟩

/-- What `C92_install` and `C92_once` ask for. -/
example : Blank Disk.firstByte few other ∧ other STATE = none ∧ (tidyB.D STATE).isSome = true ∧
    Res.isOk (MetaVote.new false "owner" "operator" 1 300 1000000 3 2 "mpdao" "stnear" 0 "old-gov") = true :=
  ⟨other_blank, by decide +kernel, by decide +kernel, by decide +kernel⟩

/-- The same storage before the migration. -/
def tidyOld : Disk := upd tidyB.D STATE (((load tidyB.D).toOption.map StateRec.old).map oldRec.enc)

/-- What `C92_upgrade` asks for. -/
example : ∃ S, StoredOld Disk.firstByte few (2 ^ 32 - 1 - 39) S tidyOld ∧
    Res.isOk (exec Disk.firstByte demoJ tidyOld ⟨"me", "me", 0, 61 * DAY, []⟩ .migrate) = true ∧
    Res.isOk (exec Disk.firstByte demoJ tidyOld ⟨"me", "eve", 0, 61 * DAY, []⟩ (.unvote "A" "o")) = false := by
  obtain ⟨S, -, h, -⟩ := C92_reach few_ok (by unfold StrFits; decide +kernel) tidyB_reach (by decide)
  have hl := h.load
  have hd : tidyOld = upd tidyB.D STATE (some (oldRec.enc (rootOf Disk.firstByte S.st S.mem).old)) := by
    unfold tidyOld; rw [hl]; rfl
  have ho : (load tidyB.D).toOption.map (fun r => (r.lock_votes_in_end_timestamp_ms, r.lock_votes_in_address,
      r.lock_votes_in_numeric_id)) = some (0, none, 0) := by decide +kernel
  rw [hl] at ho
  refine ⟨S, ⟨?_, ⟨?_, h.rep.fit⟩, h.fresh, ?_⟩, by decide +kernel, by decide +kernel⟩
  · rw [hd]; exact upd_self ..
  · rw [hd]; exact h.rep.tabs.state _
  · exact Option.some.inj ho

end Verif.MetaVote.Bytes
