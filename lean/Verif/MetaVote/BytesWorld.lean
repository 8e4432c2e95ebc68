import Verif.MetaVote.BytesStep

/-!
# Executions of meta-vote on the bytes of its storage
-/

namespace Verif.MetaVote.Bytes

open Verif Storage Disk Borsh

/-- Storage, transfers in flight, clock and log, as in `Storage.SWorld`. -/
structure BWorld where
  D : Disk
  pending : List Transfer
  clock : Nat
  log : List Entry

/-- Nothing of the contract is in storage. -/
def Blank (H : Hash) (N : Names) (D : Disk) : Prop :=
  D STATE = none ∧ (∀ c, N.U c → ∀ e : Elem, e.of c.kind → D (pre H c ++ e.bytes) = none) ∧ ∀ x, N.Foreign H x → D x = N.rest x

/-- What can happen on chain after an installation on storage in which nothing of the contract is, with names that occur
(`CallOK`); `W` bounds the number of entries that were added to a collection.  `resolve` and `tick` are as in `SStep`.  `G`
restricts the calls, by the bytes before and after. -/
inductive BReach (H : Hash) (N : Names) (J : Json) (me : AccountId) (G : Disk → Disk → Ctx → Call → Prop) : Nat → BWorld → Prop
  | init (D D' : Disk) (c : Ctx) (o op : AccountId) (a b d l v : Nat) (mp st : AccountId) (r : Nat) (p : String)
      (hb : Blank H N D) (hu64 : c.timestamp ≤ U64_MAX) (ho : StrFits o) (hop : StrFits op) (hmp : StrFits mp) (hst : StrFits st)
      (hp : StrFits p) (hexec : exec H J D c (.new_ o op a b d l v mp st r p) = .ok (D', [])) :
      BReach H N J me G 0 ⟨D', [], c.timestamp, []⟩
  | call {W : Nat} {w : BWorld} (h : BReach H N J me G W w) (c : Ctx) (k : Call) (D' : Disk) (out : List Transfer)
      (hme : c.current = me) (hres : c.promise_results = []) (hm : ¬ mirrored c.predecessor)
      (hclock : w.clock ≤ c.timestamp) (hu64 : c.timestamp ≤ U64_MAX) (hc : StrFits c.predecessor) (hk : CallOK N J k)
      (hexec : exec H J w.D c k = .ok (D', out)) (hg : G w.D D' c k) :
      BReach H N J me G (W + weight J k) ⟨D', w.pending ++ out, c.timestamp, .call c k out :: w.log⟩
  | resolve {W : Nat} {w : BWorld} (h : BReach H N J me G W w) (pre post : List Transfer) (t : Transfer) (ok : Bool) (ts : Nat)
      (hpend : w.pending = pre ++ t :: post) (hclock : w.clock ≤ ts) (hu64 : ts ≤ U64_MAX) :
      BReach H N J me G (W + 3) ⟨((exec H J w.D ⟨me, me, 0, ts, [ok]⟩ t.callbackCall).getOr (w.D, [])).1,
        pre ++ post, ts,
        .resolved t ok (Res.isOk (exec H J w.D ⟨me, me, 0, ts, [ok]⟩ t.callbackCall)) :: w.log⟩
  | tick {W : Nat} {w : BWorld} (h : BReach H N J me G W w) (ts : Nat) (hclock : w.clock ≤ ts) (hu64 : ts ≤ U64_MAX) :
      BReach H N J me G W { w with clock := ts }

variable {H : Hash} {N : Names} {f f' : Nat} {vl : String → Nat} {m : Mem} {s : State} {D : Disk} {S S' : SState} {J : Json}
  {me : AccountId} {G : Disk → Disk → Ctx → Call → Prop}

/-! ## Transfers -/

theorem squiet_out {x : Res SState} {out : List Transfer} (h : SState.quiet x = .ok (S', out)) : out = [] := by
  unfold SState.quiet at h
  simp only [bind_ok_iff, pure_ok_iff, Prod.mk.injEq] at h
  obtain ⟨_, -, -, rfl⟩ := h
  rfl

theorem other_out {c : Ctx} {k : Call} {out : List Transfer} (h : S.other J c k = .ok (S', out)) :
    ∃ s', MetaVote.run J S.st c k = .ok (s', out) := by
  unfold SState.other at h
  simp only [bind_ok_iff, pure_ok_iff, Prod.mk.injEq] at h
  obtain ⟨r, h1, -, rfl⟩ := h
  exact ⟨r.1, h1⟩

theorem quiet_out {x : Res State} {r : State × List Transfer} (h : MetaVote.quiet x = .ok r) : r.2 = [] := by
  unfold MetaVote.quiet at h
  simp only [bind_ok_iff, pure_ok_iff] at h
  obtain ⟨_, -, rfl⟩ := h
  rfl

theorem sends_out {x : Res (State × Transfer)} {r : State × List Transfer} (h : MetaVote.sends x = .ok r) :
    ∃ s' t, x = .ok (s', t) ∧ r.2 = [t] := by
  unfold MetaVote.sends at h
  simp only [bind_ok_iff, pure_ok_iff] at h
  obtain ⟨a, h1, rfl⟩ := h
  exact ⟨a.1, a.2, h1, rfl⟩

theorem withdraw_target {c : Ctx} {id : String} {l : List Nat} {o : Option Nat} {s' : State} {t : Transfer}
    (h : s.internal_withdraw c id l o = .ok (s', t)) : (∃ v, s.voters.get id = some v) ∧ ∃ a, t.callback = .after_transfer_mpdao id a := by
  unfold State.internal_withdraw at h
  simp only [bind_ok_iff, require_ok_iff, pure_ok_iff] at h
  obtain ⟨-, -, v, h1, v2, -, -, -, -, -, b, -, h2⟩ := h
  refine ⟨⟨v, ok_of_or_panic h1⟩, ?_⟩
  cases h2
  exact ⟨_, rfl⟩

/-- The callbacks of the transfers of a call have names that occur. -/
theorem Stored.outOK (h : Stored H N f S D) {c : Ctx} (hc : StrFits c.predecessor) {k : Call} (hk : CallOK N J k)
    {out : List Transfer} (hx : sexec J S c k = .ok (S', out)) : ∀ t ∈ out, CallOK N J t.callbackCall := by
  unfold sexec at hx
  simp only [bind_ok_iff, require_ok_iff] at hx
  obtain ⟨-, -, -, -, -, -, hx⟩ := hx
  intro t ht
  have no : out = [] → CallOK N J t.callbackCall := fun e => by rw [e] at ht; cases ht
  have hq : ∀ x : Res State, MetaVote.run J S.st c k = MetaVote.quiet x → S.other J c k = .ok (S', out) →
      CallOK N J t.callbackCall := by
    intro x e hx
    obtain ⟨s', h1⟩ := other_out hx
    rw [e] at h1
    exact no (quiet_out h1)
  have hw : ∀ x : Res (State × Transfer), MetaVote.run J S.st c k = MetaVote.sends x → S.other J c k = .ok (S', out) →
      ∃ s', x = .ok (s', t) := by
    intro x e hx
    obtain ⟨s', h1⟩ := other_out hx
    rw [e] at h1
    obtain ⟨s2, t2, h2, h3⟩ := sends_out h1
    simp only at h3
    rw [h3, List.mem_singleton] at ht
    subst ht
    exact ⟨s2, h2⟩
  have hwd : ∀ {l : List Nat} {o : Option Nat} {s' : State}, S.st.internal_withdraw c c.predecessor l o = .ok (s', t) →
      CallOK N J t.callbackCall := by
    intro l o s' h0
    obtain ⟨⟨v, hv⟩, a, ha⟩ := withdraw_target h0
    unfold Transfer.callbackCall
    rw [ha]
    exact (h.rep.voterFits hv).2.2.2
  cases k with
  | vote | rebalance | unvote | operator_mirror_lps | vote_delegated | unvote_delegated => exact no (squiet_out hx)
  | withdraw l a =>
    obtain ⟨s', h0⟩ := hw _ rfl hx
    exact hwd h0
  | withdraw_all =>
    obtain ⟨s', h0⟩ := hw _ rfl hx
    unfold State.withdraw_all at h0
    simp only [bind_ok_iff] at h0
    obtain ⟨v, -, h0⟩ := h0
    exact hwd h0
  | claim_stnear a =>
    obtain ⟨s', h0⟩ := hw _ rfl hx
    unfold State.claim_stnear at h0
    simp only [bind_ok_iff, pure_ok_iff, Prod.mk.injEq] at h0
    obtain ⟨s2, -, -, rfl⟩ := h0
    exact hc
  | delegated_claim_stnear e a =>
    obtain ⟨s', h0⟩ := hw _ rfl hx
    unfold State.delegated_claim_stnear at h0
    simp only [bind_ok_iff, pure_ok_iff, Prod.mk.injEq] at h0
    obtain ⟨p, hp, s2, -, -, rfl⟩ := h0
    rw [verified hp]
    exact hk
  | _ => exact hq _ rfl hx

/-! ## Installation -/

theorem lt8 {a : Nat} (h : a ≤ U8_MAX) : a < 2 ^ 8 := by unfold U8_MAX at h; omega

theorem blank_at (hb : Blank H N D) (hf : f < 2 ^ 32) (hs : s.voters = UMap.empty) (hc : s.claimable_mpdao = UMap.empty)
    (hst : s.claimable_stnear = UMap.empty) (hd : s.associated_user_data = UMap.empty) (he : s.evm_delegates = UMap.empty)
    (hp : s.evm_pre_delegation = UMap.empty) (hg : s.evm_delegation_signatures = UMap.empty) :
    At H N f (tabOf s (fun _ => 0) Mem.empty (lpOf s)) D := by
  have r0 : Room f 0 := by unfold Room; omega
  refine ⟨fun c hU => ?_, hb.2.2⟩
  have h0 := hb.2.1 c hU
  cases c with
  | lockingPosition id =>
    show IsVec lockingPosition D _ (lpOf s id) ∧ Room f (lpOf s id).length
    have e : lpOf s id = [] := by simp [lpOf, hs, UMap.get_empty, Voter.new]
    rw [e]
    exact ⟨IsVec.empty h0, r0⟩
  | votePosition id => exact TLike.empty h0
  | voters =>
    show IsMap string voterRec D _ (.at _ s.voters.len) (s.voters.mapE _) ∧ Room f s.voters.len ∧
      ∀ id v, s.voters.get id = some v → _
    rw [hs]
    exact ⟨IsMap.empty h0, r0, fun id v h => by cases h⟩
  | votes => exact ⟨IsMap.empty h0, r0, fun id v h => by cases h⟩
  | contractVotes a => exact TLike.empty (T := amounts) h0
  | voterVotes x => exact TLike.empty (T := amounts) h0
  | claimable =>
    show IsMap string u128 D _ (.at _ s.claimable_mpdao.len) s.claimable_mpdao ∧ Room f s.claimable_mpdao.len
    rw [hc]; exact ⟨IsMap.empty h0, r0⟩
  | claimableStNear =>
    show IsMap string u128 D _ (.at _ s.claimable_stnear.len) s.claimable_stnear ∧ Room f s.claimable_stnear.len
    rw [hst]; exact ⟨IsMap.empty h0, r0⟩
  | airdropData =>
    show IsMap string string D _ (.at _ s.associated_user_data.len) s.associated_user_data ∧ Room f s.associated_user_data.len
    rw [hd]; exact ⟨IsMap.empty h0, r0⟩
  | evmDelegates =>
    show IsMap string addresses D _ (.at _ s.evm_delegates.len) s.evm_delegates ∧ Room f s.evm_delegates.len ∧
      ∀ k l, s.evm_delegates.get k = some l → _
    rw [he]; exact ⟨IsMap.empty h0, r0, fun k l h => by cases h⟩
  | evmDelegationSignatures =>
    show IsLook string delegation D _ s.evm_delegation_signatures
    rw [hg]; exact IsLook.empty h0
  | evmPreDelegation =>
    show IsLook string delegation D _ s.evm_pre_delegation
    rw [hp]; exact IsLook.empty h0

/-- `new` on storage in which nothing of the contract is. -/
theorem Blank.new (hb : Blank H N D) (hf : f < 2 ^ 32) {c : Ctx} {o op : AccountId} {a b d l v : Nat} {mp st : AccountId} {r : Nat}
    {p : String} (ho : StrFits o) (hop : StrFits op) (hmp : StrFits mp) (hst : StrFits st) (hp : StrFits p) :
    Rel (fun s (b : Disk × List Transfer) => b.2 = [] ∧ Stored H N f ⟨s, fun _ => 0, Mem.empty⟩ b.1)
      (do
        require (c.deposit = 0) "Method doesn't accept deposit"
        require ((Call.new_ o op a b d l v mp st r p).in_range = true) "Failed to deserialize input from JSON."
        MetaVote.new false o op a b d l v mp st r p)
      (exec H J D c (.new_ o op a b d l v mp st r p)) := by
  unfold Bytes.exec
  have e0 : require ((Call.new_ o op a b d l v mp st r p).payable = true ∨ c.deposit = 0) "Method doesn't accept deposit" =
      require (c.deposit = 0) "Method doesn't accept deposit" := by simp [Call.payable]
  rw [e0]
  refine Rel.step _ fun _ _ => ?_
  refine Rel.ok (c := ()) (by simp [Call.is_private, require]) ?_
  refine Rel.step _ fun _ hr => ?_
  have hr : (Call.new_ o op a b d l v mp st r p).in_range = true := by simpa using hr
  have hr := of_decide_eq_true hr
  show Rel _ (MetaVote.new false o op a b d l v mp st r p) (Bytes.new H D o op a b d l v mp st r p >>= fun D => pure (D, []))
  have e1 : require (D STATE = none) "The contract is already initialized" = .ok () := by
    rw [hb.1]; rfl
  unfold MetaVote.new Bytes.new
  rw [e1]
  show Rel _ (require (a < b) "Review the min and max locking period" >>= _)
    ((require (a < b) "Review the min and max locking period" >>= _) >>= _)
  rw [bind_assoc]
  refine Rel.step _ fun _ _ => ?_
  refine ⟨rfl, upd_self D STATE (some (stateRec.enc (newRec H o op a b d l v mp st r p))), ⟨At.state ?_ _, ?_⟩, fun _ _ => rfl⟩
  · exact blank_at hb hf rfl rfl rfl rfl rfl rfl rfl
  · exact ⟨ho, hop, lt16 hr.1, lt16 hr.2.1, lt128 hr.2.2.1, lt8 hr.2.2.2.1, lt8 hr.2.2.2.2.1, hmp, Nat.two_pow_pos 128,
      Nat.two_pow_pos 128, Nat.two_pow_pos 128, hst, Nat.two_pow_pos 128, Nat.two_pow_pos 128, lt128 hr.2.2.2.2.2, hp,
      Nat.two_pow_pos 64, (fun _ h => by cases h), Nat.two_pow_pos 16⟩

/-! ## Reachable worlds -/

theorem isOk_rel {α β : Type} {R : α → β → Prop} {x : Res α} {y : Res β} (h : Rel R x y) : Res.isOk x = Res.isOk y := by
  cases x <;> cases y <;> first | rfl | exact h.elim

theorem weight_callback (t : Transfer) : weight J t.callbackCall = 3 := by
  unfold Transfer.callbackCall
  cases t.callback <;> rfl

/-- What holds of the worlds of the model along the way. -/
theorem BReach.follow {P : SWorld → Prop} (hN : N.OK H) (hme : StrFits me) (hi : ∀ w, SInit w → P w)
    (hs : ∀ w w', P w → SStep J me w w' → (∀ c k out, w'.log = .call c k out :: w.log →
      ∃ f D D', Stored H N f w.S D ∧ Stored H N 0 w'.S D' ∧ G D D' c k ∧ StrFits c.predecessor ∧ CallOK N J k ∧ sexec J w.S c k = .ok (w'.S, out)) → P w')
    {W : Nat} {w : BWorld} (h : BReach H N J me G W w) :
    W < 2 ^ 32 → ∃ S, P ⟨S, w.pending, w.clock, w.log⟩ ∧ Stored H N (2 ^ 32 - 1 - W) S w.D ∧
      ∀ t ∈ w.pending, CallOK N J t.callbackCall := by
  induction h with
  | init D D' c o op a b d l v mp st r p hb hu64 ho hop hmp hst hp hexec =>
    intro hW
    have h0 := hb.new (J := J) (c := c) (f := 2 ^ 32 - 1 - 0) (by omega) ho hop hmp hst hp (a := a) (b := b) (d := d) (l := l) (v := v) (r := r)
    rw [hexec] at h0
    generalize hx : (do
        require (c.deposit = 0) "Method doesn't accept deposit"
        require ((Call.new_ o op a b d l v mp st r p).in_range = true) "Failed to deserialize input from JSON."
        MetaVote.new false o op a b d l v mp st r p : Res State) = x at h0
    cases x with
    | error e => exact h0.elim
    | ok s =>
      simp only [bind_ok_iff, require_ok_iff] at hx
      obtain ⟨-, -, -, hr, hnew⟩ := hx
      exact ⟨_, hi _ (.mk ⟨s, [], c.timestamp, []⟩ (.mk o op a b d l v mp st r p c.timestamp s hr hu64 hnew)), h0.2,
        fun t ht => by cases ht⟩
  | @call W w h c k D' out hme' hres hm hclock hu64 hc hk hexec hg ih =>
    intro hW
    obtain ⟨S, h1, h2, h3⟩ := ih (by omega)
    have h0 := h2.exec (J := J) (f := 2 ^ 32 - 1 - (W + weight J k)) hN (k := k) (by omega) hc hu64 hk
    rw [hexec] at h0
    generalize hx : sexec J S c k = x at h0
    cases x with
    | error e => exact h0.elim
    | ok r =>
      obtain ⟨S', out'⟩ := r
      obtain ⟨h4, h5⟩ := h0
      simp only at h4 h5
      subst h4
      refine ⟨S', hs _ _ h1 (.call ⟨S, w.pending, w.clock, w.log⟩ c k S' out hme' hres hm hclock hu64 hx) ?_, h5, fun t ht => ?_⟩
      · intro c' k' out' e
        simp only [List.cons.injEq, Entry.call.injEq, and_true] at e
        obtain ⟨rfl, rfl, rfl⟩ := e
        exact ⟨_, _, _, h2, h5.mono (Nat.zero_le _), hg, hc, hk, hx⟩
      rcases List.mem_append.1 ht with ht | ht
      · exact h3 t ht
      · exact h2.outOK hc hk hx t ht
  | @resolve W w h pre post t ok ts hpend hclock hu64 ih =>
    intro hW
    obtain ⟨S, h1, h2, h3⟩ := ih (by omega)
    have hk := h3 t (by rw [hpend]; simp)
    have h0 := h2.exec (J := J) (c := ⟨me, me, 0, ts, [ok]⟩) (f := 2 ^ 32 - 1 - (W + 3)) hN (k := t.callbackCall)
      (by rw [weight_callback]; omega) hme hu64 hk
    refine ⟨((sexec J S ⟨me, me, 0, ts, [ok]⟩ t.callbackCall).getOr (S, [])).1, ?_, ?_, fun t' ht => h3 t' ?_⟩
    · simp only
      rw [← isOk_rel h0]
      refine hs _ _ h1 (.resolve ⟨S, w.pending, w.clock, w.log⟩ pre post t ok ts hpend hclock hu64) ?_
      intro c k out e
      simp at e
    · generalize sexec J S ⟨me, me, 0, ts, [ok]⟩ t.callbackCall = x at h0
      generalize exec H J w.D ⟨me, me, 0, ts, [ok]⟩ t.callbackCall = y at h0
      cases x <;> cases y
      · exact h2.mono (by omega)
      · exact h0.elim
      · exact h0.elim
      · exact h0.2
    · simp only at ht
      rw [hpend]
      rcases List.mem_append.1 ht with ht | ht
      · exact List.mem_append_left _ ht
      · exact List.mem_append_right _ (List.mem_cons_of_mem _ ht)
  | @tick W w h ts hclock hu64 ih =>
    intro hW
    obtain ⟨S, h1, h2, h3⟩ := ih hW
    refine ⟨S, hs _ _ h1 (.tick ⟨S, w.pending, w.clock, w.log⟩ ts hclock hu64) ?_, h2, h3⟩
    intro c k out e
    simp at e

theorem BReach.inv (hN : N.OK H) (hme : StrFits me) {W : Nat} {w : BWorld} (h : BReach H N J me G W w) (hW : W < 2 ^ 32) :
    ∃ S, SReach J me ⟨S, w.pending, w.clock, w.log⟩ ∧ Stored H N (2 ^ 32 - 1 - W) S w.D ∧
      ∀ t ∈ w.pending, CallOK N J t.callbackCall :=
  h.follow hN hme (fun _ h => .init h) (fun _ _ h hs _ => .step h hs) hW

end Verif.MetaVote.Bytes
