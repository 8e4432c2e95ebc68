import Verif.Serde.StoredFit
import Verif.Props.MetaVoteBytes
import Verif.Props.WireTokens
import Verif.Props.StorageLimits
import Verif.Props.ApiViews
import Verif.Props.Interface

/-!
# C99: a client that speaks JSON to meta-vote, whose state is bytes

The contract as it is called on chain: names and JSON in, bytes in storage, JSON out.
-/

namespace Verif.Serde

theorem validAccount_fits {a : String} (h : validAccount a = true) : Borsh.StrFits a := by
  unfold validAccount at h
  rw [Bool.and_eq_true, decide_eq_true_eq] at h
  exact Nat.lt_of_le_of_lt h.1.2 (by decide)

end Verif.Serde

namespace Verif.MetaVote.Bytes

open Verif Storage Disk Borsh Serde

variable {H : Hash} {N : Names} {f : Nat} {D : Disk} {S : SState} {me : AccountId} {G : Disk → Disk → Ctx → Call → Prop}
  {A : String → String → Prop} {s : State}

theorem voters_eq (h : Repr A S s) (now a n : Nat) : S.get_voters now a n = s.get_voters now a n := by
  have hst : S.st.voters = s.voters.mapV (fun _ v => v.bare) := by rw [h.st]; rfl
  unfold SState.get_voters State.get_voters MetaVote.page
  rw [hst, UMap.keys_mapV, UMap.len_mapV]
  refine Disk.mapM_eq fun i _ => ?_
  cases hk : s.voters.keys[a + i]? with
  | none => rfl
  | some k =>
    obtain ⟨v, hv⟩ := UMap.mem_keys_iff.1 (List.mem_of_getElem? hk)
    have hi := (h.lists k "" now).2.2.2
    rw [State.get_voter_info, hv] at hi
    change (expect ((s.voters.mapV _).get k) _ >>= _) = (expect (s.voters.get k) _ >>= _)
    rw [UMap.get_mapV, hv]
    exact hi

theorem used_eq (h : Repr A S s) (id : String) : S.get_used_voting_power id = s.get_used_voting_power id := by
  unfold SState.get_used_voting_power
  rw [vlen_eq h, h.mem.usedVotes (id := id) (voter := s.voterD id) rfl]
  unfold State.get_used_voting_power
  rw [internal_get_voter_eq]

/-- A view on the bytes is the view of the model over the storage of the vote maps. -/
theorem answer_stored (hN : N.OK H) (h : Stored H N f S D) (now : Nat) {v : View} (hv : v.valid) (ha : asked N v) :
    answer H D now v = S.view now v := by
  have hf : ∀ {α : Type} (g : StateRec → α), view D (fun r => pure (g r)) = .ok (g (rootOf H S.st S.mem)) := fun g => by
    unfold view; rw [h.load]; rfl
  obtain ⟨s1, s2, s3, s4, s5, s6⟩ := C92_views_state h
  cases v with
  | get_owner_id => exact s1
  | get_operator_id => exact s2
  | get_contract_info => exact s3
  | get_voters_count => exact s4
  | get_total_voting_power => exact s5
  | get_voter_info i => exact (h.views_voter hN ha now).2.2
  | get_voters a n => exact (C92_views_lists h now a n).1
  | get_balance i => exact (C92_views_voter h ha now).1
  | get_claimable_mpdao i => exact (C92_views_voter h ha now).2.2.2.2.2.2.1
  | get_claimable_meta i => exact (C92_views_voter h ha now).2.2.2.2.2.2.1
  | get_claimable_stnear i => exact (C92_views_voter h ha now).2.2.2.2.2.2.2.1
  | get_stnear_claims a n => exact (C92_views_lists h now a n).2.2.1
  | get_claims a n => exact (C92_views_lists h now a n).2.1
  | get_locked_balance i => exact (C92_views_voter h ha now).2.1
  | get_unlocking_balance i => exact (C92_views_voter h ha now).2.2.1
  | get_available_voting_power i => exact (C92_views_voter h ha now).2.2.2.1
  | get_used_voting_power i => exact (h.views_voter hN ha now).1
  | get_locking_period => exact hf fun r => (r.min_unbond_period, r.max_unbond_period)
  | get_all_locking_positions i => exact (C92_views_voter h ha now).2.2.2.2.1
  | get_locking_position n i => exact (C92_views_voter h ha now).2.2.2.2.2.1 n hv
  | get_total_votes a o => exact (h.views_app hN ha.1 ha.2).1
  | get_votes_by_app a => exact (h.views_app hN ha (obj := "") (by unfold StrFits; decide)).2.1
  | get_votes_by_contract a => exact (h.views_app hN ha (obj := "") (by unfold StrFits; decide)).2.2
  | get_votes_by_voter i => exact (h.views_voter hN ha now).2.1
  | get_votes_for_object i a o => exact (C92_views_votes hN h ha.1 ha.2.1 ha.2.2 now).1
  | get_total_unclaimed_mpdao => exact hf fun r => r.total_unclaimed_mpdao
  | get_total_unclaimed_meta => exact hf fun r => r.total_unclaimed_mpdao
  | get_accumulated_mpdao_distributed_for_claims => exact hf fun r => r.accumulated_mpdao_distributed_for_claims
  | get_accumulated_distributed_for_claims => exact hf fun r => r.accumulated_mpdao_distributed_for_claims
  | get_registration_cost => exact hf fun r => r.registration_cost
  | check_if_registered_for_airdrops i => exact (C92_views_voter h ha now).2.2.2.2.2.2.2.2.1
  | check_if_user_is_registerd i => exact (C92_views_voter h ha now).2.2.2.2.2.2.2.2.1
  | get_airdrop_account i => exact (C92_views_voter h ha now).2.2.2.2.2.2.2.2.2
  | get_airdrop_accounts a n => exact (C92_views_lists h now a n).2.2.2.1
  | get_lock_in_vote_filters => exact s6
  | get_pre_delegate_evm_address e => exact (C92_views_delegates h ha).1
  | get_delegating_evm_addresses i => exact (C92_views_delegates h (validAccount_fits hv)).2.1
  | get_delegates a n => exact (C92_views_lists h now a n).2.2.2.2
  | get_delegate e => exact (C92_views_delegates h ha).2.2.1
  | get_delegation_signature e => exact (C92_views_delegates h ha).2.2.2

/-- A view over the storage of the vote maps is the view of the model in which the vote maps are values. -/
theorem view_repr (hr : Repr A S s) (now : Nat) (v : View) : S.view now v = s.view now v := by
  have hst : S.st = s.bare := hr.st
  have hvo : ∀ id, S.st.internal_get_voter id = (s.internal_get_voter id).bare := fun id => by rw [hst]; exact get_voter_bare s id
  cases v with
  | get_contract_info =>
    show Except.ok S.st.get_contract_info = Except.ok s.get_contract_info
    rw [hst]
    unfold State.get_contract_info
    rw [show s.bare.voters.len = s.voters.len from UMap.len_mapV _ _]
    rfl
  | get_voters_count =>
    show Except.ok S.st.get_voters_count = Except.ok s.get_voters_count
    rw [hst]; exact congrArg Except.ok (UMap.len_mapV _ _)
  | get_voter_info i => exact (hr.lists i "" now).2.2.2
  | get_voters a n => exact voters_eq hr now a n
  | get_balance i =>
    show S.st.get_balance now i = s.get_balance now i
    unfold State.get_balance; rw [hvo]; rfl
  | get_locked_balance i =>
    show S.st.get_locked_balance i = s.get_locked_balance i
    unfold State.get_locked_balance; rw [hvo]; rfl
  | get_unlocking_balance i =>
    show S.st.get_unlocking_balance now i = s.get_unlocking_balance now i
    unfold State.get_unlocking_balance; rw [hvo]; rfl
  | get_available_voting_power i =>
    show Except.ok (S.st.get_available_voting_power i) = Except.ok (s.get_available_voting_power i)
    rw [available_bare hr.st]
  | get_used_voting_power i => exact used_eq hr i
  | get_all_locking_positions i =>
    show Except.ok (S.st.get_all_locking_positions now i) = Except.ok (s.get_all_locking_positions now i)
    unfold State.get_all_locking_positions; rw [hvo]; rfl
  | get_locking_position n i =>
    show Except.ok (S.st.get_locking_position now n i) = Except.ok (s.get_locking_position now n i)
    unfold State.get_locking_position; rw [hvo]; rfl
  | get_total_votes a o => exact (hr.views "" a o).2
  | get_votes_by_app a => exact (hr.lists "" a now).2.1
  | get_votes_by_contract a => exact (hr.lists "" a now).2.2.1
  | get_votes_by_voter i => exact (hr.lists i "" now).1
  | get_votes_for_object i a o => exact (hr.views i a o).1
  | get_owner_id | get_operator_id | get_total_voting_power | get_locking_period | get_total_unclaimed_mpdao
  | get_total_unclaimed_meta | get_accumulated_mpdao_distributed_for_claims | get_accumulated_distributed_for_claims
  | get_registration_cost | get_lock_in_vote_filters =>
    unfold SState.view
    simp only
    rw [hst]; rfl
  | get_claimable_mpdao | get_claimable_meta | get_claimable_stnear | check_if_registered_for_airdrops
  | check_if_user_is_registerd | get_airdrop_account | get_pre_delegate_evm_address | get_delegating_evm_addresses
  | get_delegate | get_delegation_signature =>
    unfold SState.view
    simp only
    rw [hst]; rfl
  | get_stnear_claims | get_claims | get_airdrop_accounts | get_delegates =>
    unfold SState.view
    simp only
    rw [hst]; rfl

/-! ## Histories -/

theorem callJson_eq {c : Ctx} {name : String} {b : Bytes} {k : Call} (hr : Call.read name b = some k) :
    callJson H D c name b = exec H serde D c k := by
  unfold callJson
  rw [hr]
  rfl

/-- **C99.** Whatever names and inputs are sent, what happens to the bytes is what calls of the methods do to them; callbacks are
read as they were written. -/
theorem C99_reach (hN : N.OK H) (hme : validAccount me = true) {W : Nat} {w : BWorld} (h : JReach H N me G W w) (hW : W < 2 ^ 32) :
    BReach H N serde me G W w := by
  induction h with
  | init D D' c b k hb hu64 hr hlen hexec =>
    rw [callJson_eq hr] at hexec
    obtain ⟨-, hv, hn⟩ := Call.read_ok hr
    cases k with
    | new_ o op x y d l v mp st r p =>
      exact .init D D' c o op x y d l v mp st r p hb hu64 (validAccount_fits hv.1) (validAccount_fits hv.2.1)
        (validAccount_fits hv.2.2.1) (validAccount_fits hv.2.2.2) (read_prev hlen hr) hexec
    | _ => exact absurd hn (by simp [Call.write])
  | @call W w h c name b k D' out hr hv hme hres hm hclock hu64 hlen hk hexec hg ih =>
    rw [callJson_eq hr] at hexec
    exact .call (ih (by omega)) c k D' out hme hres hm hclock hu64 (validAccount_fits hv) (read_fits hr hlen hk) hexec hg
  | @resolve W w h pre post t ok ts hpend hclock hu64 ih =>
    have h0 := ih (by omega)
    obtain ⟨S, h1, -⟩ := C92_reach hN (validAccount_fits hme) h0 (by omega)
    have ht : t ∈ w.pending := by rw [hpend]; simp
    have hc := (lpending_faithful h1.loose t ht).callback
    have e := callJson_eq (H := H) (D := w.D) (c := ⟨me, me, 0, ts, [ok]⟩) hc
    rw [e]
    exact .resolve h0 pre post t ok ts hpend hclock hu64
  | tick h ts hclock hu64 ih => exact .tick (ih hW) ts hclock hu64

/-- **C99.** A JSON call panics with the message with which the call it is read as panics in the model over the vote maps, or
both succeed with the same transfers and the bytes that result hold the state that results.  An input that is not read is
refused. -/
theorem C99_call (hN : N.OK H) {f' : Nat} {c : Ctx} {name : String} {b : Bytes} (h : Stored H N f' S D)
    (hc : validAccount c.predecessor = true) (ht : c.timestamp ≤ U64_MAX) (hlen : b.length < 2 ^ 31) :
    (Call.read name b = none → callJson H D c name b = .error (.assert "Failed to deserialize input from JSON.")) ∧
    ∀ k, Call.read name b = some k → Named N k → weight serde k + f ≤ f' →
      (∃ e, sexec serde S c k = .error e ∧ callJson H D c name b = .error e) ∨
      ∃ S' D' out, sexec serde S c k = .ok (S', out) ∧ callJson H D c name b = .ok (D', out) ∧ Stored H N f S' D' ∧
        ∀ x, N.Foreign H x → D' x = D x := by
  constructor
  · intro e
    unfold callJson
    rw [e]
    rfl
  · intro k hr hk hw
    rw [callJson_eq hr]
    exact C92_call hN hw h (validAccount_fits hc) ht (read_fits hr hlen hk)

/-- **C99.** Whatever names and inputs are sent, and whatever views are asked with: everything that happens is a history of the
model over the storage of the vote maps, with the same transfers in flight, clock and log; every view, asked and answered in
JSON on the bytes, gives the client exactly the value of that view of the model, or is refused with the message with which it is
refused there; a question that is not read is refused. -/
theorem C99_client (hN : N.OK H) (hme : validAccount me = true) {W : Nat} {w : BWorld} (h : JReach H N me G W w) (hW : W < 2 ^ 32) :
    ∃ S, SReach serde me ⟨S, w.pending, w.clock, w.log⟩ ∧ ∀ now name b,
      (View.read name b = none → viewAll H w.D now name b = .error (.assert "Failed to deserialize input from JSON.")) ∧
      ∀ v, View.read name b = some v → asked N v →
        (∃ e, S.view now v = .error e ∧ viewAll H w.D now name b = .error e) ∨
        ∃ r out, S.view now v = .ok r ∧ viewAll H w.D now name b = .ok out ∧
          JsonText.IsJson out (v.answer r) ∧ v.ty.decode out = some r := by
  obtain ⟨S, h1, h2, -⟩ := C92_reach hN (validAccount_fits hme) (C99_reach hN hme h hW) hW
  refine ⟨S, h1, fun now name b => ⟨fun e => ?_, fun v hv hq => ?_⟩⟩
  · unfold viewAll
    rw [e]
    rfl
  have e : viewAll H w.D now name b = (S.view now v >>= fun r => pure (v.ty.encode r)) := by
    unfold viewAll
    rw [hv]
    change (answer H w.D now v >>= _) = (S.view now v >>= _)
    rw [answer_stored hN h2 now (View.read_ok hv).1 hq]
  rw [e]
  cases hr : S.view now v with
  | error e => exact .inl ⟨e, rfl, rfl⟩
  | ok r => exact .inr ⟨r, _, rfl, rfl, View.parse_answer (h2.view_ok hq hr), v.ty.decode_encode (h2.view_ok hq hr) v.depth⟩

/-- **C99** (partial): as long as nobody withdraws the last funds of an account that still has votes, everything that can be sent
to the contract is an execution of the model in which the vote maps are plain maps, with the same transfers in flight, clock and
log; every view, asked and answered in JSON on the bytes, gives the client exactly the value of that view of the model, or is
refused with the message with which it is refused there.  Missing: accounts that leave with votes of power zero, as in C92. -/
theorem C99_client_partial (hN : N.OK H) (hme : validAccount me = true) (hj : Joins (pairs N)) {W : Nat} {w : BWorld}
    (h : JReach H N me (fun D D' c k => keeps D D' c k = true) W w) (hW : W < 2 ^ 32) :
    ∃ m : World, Reach serde me m ∧ w.pending = m.pending ∧ w.clock = m.clock ∧ w.log = m.log ∧
      ∀ now name b v, View.read name b = some v → asked N v →
        (∃ e, m.st.view now v = .error e ∧ viewAll H w.D now name b = .error e) ∨
        ∃ r out, m.st.view now v = .ok r ∧ viewAll H w.D now name b = .ok out ∧
          JsonText.IsJson out (v.answer r) ∧ v.ty.decode out = some r := by
  obtain ⟨S, h1, h2, -⟩ := (C99_reach hN hme h hW).follow hN (validAccount_fits hme) (P := SReachC serde me (pairs N)) (fun _ h => .init h)
    (fun w w' h hs hg => .step h hs fun c k out e => by
      obtain ⟨f, D, D', h1, h2, h3, h4, h5, h6⟩ := hg c k out e
      exact ⟨h1.allowed h5 h6, h1.keeps h2 h3 h4⟩) hW
  obtain ⟨m, h3, ha⟩ := reach_agree hj h1
  have hcount : m.st.Counted := by
    have hst : S.st = m.st.bare := ha.repr.st
    have l1 : S.st.voters.len < 2 ^ 64 := (h2.rep.tabs .voters trivial).2.1.lt
    have l2 : S.st.evm_delegates.len < 2 ^ 64 := (h2.rep.tabs .evmDelegates trivial).2.1.lt
    rw [hst] at l1 l2
    have e1 : m.st.bare.voters.len = m.st.voters.len := UMap.len_mapV _ _
    rw [e1] at l1
    exact ⟨Nat.le_of_lt_succ l1, Nat.le_of_lt_succ l2⟩
  refine ⟨m, h3, ha.pending, ha.clock, ha.log, fun now name b v hv hq => ?_⟩
  have e : viewAll H w.D now name b = (m.st.view now v >>= fun r => pure (v.ty.encode r)) := by
    unfold viewAll
    rw [hv]
    change (answer H w.D now v >>= _) = (m.st.view now v >>= _)
    rw [answer_stored hN h2 now (View.read_ok hv).1 hq, view_repr ha.repr]
  rw [e]
  cases hr : m.st.view now v with
  | error e => exact .inl ⟨e, rfl, rfl⟩
  | ok r => exact .inr ⟨r, _, rfl, rfl, View.parse_answer (view_ok h3 hcount hr),
      v.ty.decode_encode (view_ok h3 hcount hr) v.depth⟩

/-! ## A case -/

/-- Names in the input of an action occur, and the input is not too long. -/
def JActOK (N : Names) : JAct → Prop
  | .call _ _ _ name b => b.length < 2 ^ 31 ∧ ∀ k, Call.read name b = some k → Named N k
  | _ => True

/-- One action on bytes, with what it may add; calls that do not `keep` are not made. -/
def jact (H : Hash) (x : Nat × BWorld) : JAct → Option (Nat × BWorld)
  | .call p d ts name b =>
    if validAccount p = true ∧ ¬ mirrored p ∧ x.2.clock ≤ ts ∧ ts ≤ U64_MAX then
      match Call.read name b, callJson H x.2.D ⟨"me", p, d, ts, []⟩ name b with
      | some k, .ok r => if keeps x.2.D r.1 ⟨"me", p, d, ts, []⟩ k = true then
          some (x.1 + weight serde k, ⟨r.1, x.2.pending ++ r.2, ts, .call ⟨"me", p, d, ts, []⟩ k r.2 :: x.2.log⟩)
        else none
      | _, _ => none
    else none
  | .resolve i ok ts =>
    match x.2.pending[i]? with
    | some t =>
      if x.2.clock ≤ ts ∧ ts ≤ U64_MAX then
        some (x.1 + 3,
          ⟨((callJson H x.2.D ⟨"me", "me", 0, ts, [ok]⟩ t.callbackCall.write.1 t.callbackCall.write.2).getOr (x.2.D, [])).1,
            x.2.pending.take i ++ x.2.pending.drop (i + 1), ts, .resolved t ok
              (Res.isOk (callJson H x.2.D ⟨"me", "me", 0, ts, [ok]⟩ t.callbackCall.write.1 t.callbackCall.write.2)) :: x.2.log⟩)
      else none
    | none => none

def jruns (H : Hash) (x : Nat × BWorld) : List JAct → Option (Nat × BWorld)
  | [] => some x
  | a :: l => (jact H x a).bind fun y => jruns H y l

theorem reach_jact {x y : Nat × BWorld} {a : JAct} (h : JReach H N "me" (fun D D' c k => keeps D D' c k = true) x.1 x.2)
    (ha : JActOK N a) (hx : jact H x a = some y) : JReach H N "me" (fun D D' c k => keeps D D' c k = true) y.1 y.2 := by
  cases a with
  | call p d ts name b =>
    simp only [jact] at hx
    split at hx
    · rename_i hc
      split at hx
      · rename_i k r hk hr
        split at hx
        · rename_i hg
          cases hx
          exact .call h ⟨"me", p, d, ts, []⟩ name b k r.1 r.2 hk hc.1 rfl rfl hc.2.1 hc.2.2.1 hc.2.2.2 ha.1 (ha.2 k hk) hr hg
        · cases hx
      · cases hx
    · cases hx
  | resolve i ok ts =>
    simp only [jact] at hx
    split at hx
    · rename_i t ht
      split at hx
      · rename_i hc
        cases hx
        refine .resolve h _ _ t ok ts ?_ hc.1 hc.2
        obtain ⟨hi, hg⟩ := List.getElem?_eq_some_iff.1 ht
        rw [← hg, List.getElem_cons_drop, List.take_append_drop]
      · cases hx
    · cases hx

theorem reach_jruns : ∀ {l : List JAct} {x y : Nat × BWorld}, JReach H N "me" (fun D D' c k => keeps D D' c k = true) x.1 x.2 →
    (∀ a ∈ l, JActOK N a) → jruns H x l = some y → JReach H N "me" (fun D D' c k => keeps D D' c k = true) y.1 y.2
  | [], x, y, h, _, hx => by cases hx; exact h
  | a :: l, x, y, h, ha, hx => by
    simp only [jruns, Option.bind_eq_some_iff] at hx
    obtain ⟨z, h1, h2⟩ := hx
    exact reach_jruns (reach_jact h (ha a List.mem_cons_self) h1) (fun b hb => ha b (List.mem_cons_of_mem _ hb)) h2

def installedJ : Disk := ((callJson Disk.firstByte other ⟨"me", "deployer", 0, 0, []⟩ "new" newInput).getOr (other, [])).1

/-- Bob locks and votes; eve locks, unlocks and withdraws; the payment fails and is given back. -/
def talk : List JAct :=
  [.call "mpdao" 0 1000 "ft_on_transfer" (ascii "{\"sender_id\":\"bob\",\"amount\":\"60000000\",\"msg\":\"60\"}"),
   .call "mpdao" 0 1000 "ft_on_transfer" (ascii "{\"msg\":\"60\",\"amount\":\"50000000\",\"sender_id\":\"eve\"}"),
   .call "bob" 0 2000 "vote" (ascii "{\"voting_power\":\"60000000000000000000000000\",\"contract_address\":\"A\",\"votable_object_id\":\"o\"}"),
   .call "eve" 0 5000 "unlock_position" (ascii "{\"index\":0}"),
   .call "eve" 1 (61 * DAY) "withdraw_all" (ascii "{}"), .resolve 0 false (61 * DAY)]

/-- What two clients are told in the end. -/
theorem talk_run : (jruns Disk.firstByte (0, ⟨installedJ, [], 0, []⟩) talk).map (fun x => (decide (x.1 < 2 ^ 32),
      viewAll Disk.firstByte x.2.D (62 * DAY / 1000000) "get_balance" (ascii "{\"voter_id\":\"eve\"}"),
      viewAll Disk.firstByte x.2.D 0 "get_votes_by_voter" (ascii "{ \"voter_id\" : \"bob\" }"))) =
    some (true, .ok (ascii "\"50000000\""),
      .ok (ascii "[{\"votable_contract\":\"A\",\"id\":\"o\",\"current_votes\":\"60000000000000000000000000\"}]")) := by
  decide +kernel

theorem few_said {v : String} (h : few.voter v) : few.voter v ∧ ∀ p, serde.parse_pair (ascii "60") = some p → few.voter p.1 := by
  refine ⟨h, fun p hp => ?_⟩
  rw [show serde.parse_pair (ascii "60") = none by decide +kernel] at hp; cases hp

theorem talk_ok : ∀ a ∈ talk, JActOK few a := by
  intro a ha
  simp only [talk, List.mem_cons, List.not_mem_nil, or_false] at ha
  rcases ha with rfl | rfl | rfl | rfl | rfl | rfl
  · refine ⟨by decide +kernel, fun k hk => ?_⟩
    rw [show Call.read _ _ = some (.ft_on_transfer "bob" 60000000 (ascii "60")) by decide +kernel] at hk
    cases hk
    exact few_said (by simp [few])
  · refine ⟨by decide +kernel, fun k hk => ?_⟩
    rw [show Call.read _ _ = some (.ft_on_transfer "eve" 50000000 (ascii "60")) by decide +kernel] at hk
    cases hk
    exact few_said (by simp [few])
  · refine ⟨by decide +kernel, fun k hk => ?_⟩
    rw [show Call.read _ _ = some (.vote 60000000000000000000000000 "A" "o") by decide +kernel] at hk
    cases hk
    exact show few.app "A" by simp [few]
  · refine ⟨by decide +kernel, fun k hk => ?_⟩
    rw [show Call.read _ _ = some (.unlock_position 0) by decide +kernel] at hk
    cases hk
    trivial
  · refine ⟨by decide +kernel, fun k hk => ?_⟩
    rw [show Call.read _ _ = some .withdraw_all by decide +kernel] at hk
    cases hk
    trivial
  · trivial

theorem new_read : Call.read "new" newInput = some (.new_ "owner" "operator" 1 300 1000000 3 2 "mpdao" "stnear" 0 "old-gov") := by
  decide +kernel

theorem new_short : newInput.length < 2 ^ 31 := by decide +kernel

theorem installedJ_run : callJson Disk.firstByte other ⟨"me", "deployer", 0, 0, []⟩ "new" newInput = .ok (installedJ, []) :=
  ok_of_getOr (by decide +kernel) (by decide +kernel)

theorem installedJ_reach : JReach Disk.firstByte few "me" (fun D D' c k => keeps D D' c k = true) 0 ⟨installedJ, [], 0, []⟩ :=
  .init other installedJ ⟨"me", "deployer", 0, 0, []⟩ newInput _ other_blank (by decide) new_read new_short installedJ_run

/-- The hypotheses of the theorems are met, and what two clients are told. -/
example : few.OK Disk.firstByte ∧ validAccount "me" = true ∧ Joins (pairs few) ∧ asked few (.get_votes_by_voter "bob") ∧
    ∃ W w, JReach Disk.firstByte few "me" (fun D D' c k => keeps D D' c k = true) W w ∧ W < 2 ^ 32 ∧
      viewAll Disk.firstByte w.D (62 * DAY / 1000000) "get_balance" (ascii "{\"voter_id\":\"eve\"}") = .ok (ascii "\"50000000\"") ∧
      viewAll Disk.firstByte w.D 0 "get_votes_by_voter" (ascii "{ \"voter_id\" : \"bob\" }") =
        .ok (ascii "[{\"votable_contract\":\"A\",\"id\":\"o\",\"current_votes\":\"60000000000000000000000000\"}]") := by
  obtain ⟨x, hx, e⟩ := Option.map_eq_some_iff.1 talk_run
  rw [Prod.mk.injEq, Prod.mk.injEq, decide_eq_true_eq] at e
  exact ⟨few_ok, by decide +kernel, few_joins, by simp [asked, few], x.1, x.2, reach_jruns installedJ_reach talk_ok hx, e.1, e.2.1, e.2.2⟩

/-- There is a history with bytes for which the model over the storage of the vote maps says what is answered. -/
example : ∃ W w S, JReach Disk.firstByte few "me" (fun D D' c k => keeps D D' c k = true) W w ∧
    SReach serde "me" ⟨S, w.pending, w.clock, w.log⟩ ∧ S.view (62 * DAY / 1000000) (.get_balance "eve") = .ok (50000000 : Nat) := by
  obtain ⟨x, hx, e⟩ := Option.map_eq_some_iff.1 talk_run
  rw [Prod.mk.injEq, Prod.mk.injEq, decide_eq_true_eq] at e
  have hj := reach_jruns installedJ_reach talk_ok hx
  obtain ⟨S, h1, h2⟩ := C99_client few_ok (by decide +kernel) hj e.1
  have hread : View.read "get_balance" (ascii "{\"voter_id\":\"eve\"}") = some (.get_balance "eve") := by
    have hw : (View.get_balance "eve").write = ("get_balance", ascii "{\"voter_id\":\"eve\"}") := by decide +kernel
    have := View.read_write (v := .get_balance "eve") trivial
    rwa [hw] at this
  refine ⟨x.1, x.2, S, hj, h1, ?_⟩
  rcases (h2 (62 * DAY / 1000000) "get_balance" (ascii "{\"voter_id\":\"eve\"}")).2 _ hread (by simp [asked, StrFits]; decide) with
    ⟨m, -, hm⟩ | ⟨r, out, hr, ho, -, hd⟩
  · rw [e.2.1] at hm; cases hm
  · rw [e.2.1] at ho
    cases ho
    have hd' : Serde.u128.decode (ascii "\"50000000\"") = some 50000000 := by decide +kernel
    cases hd'.symm.trans hd
    exact hr

end Verif.MetaVote.Bytes
