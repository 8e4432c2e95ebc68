import Verif.Mpip.BytesStep
import Verif.Mpip.Trace

/-!
# Executions of mpip on the bytes of its storage
-/

namespace Verif.Mpip.Bytes

open Verif Storage Disk Borsh

/-- Storage, questions in flight, clock and log, as in `Mpip.World`. -/
structure BWorld where
  D : Disk
  pending : List Pending
  clock : Nat
  log : List Entry

/-- Nothing of the contract is in storage. -/
def Blank (H : Hash) (N : Names) (D : Disk) : Prop :=
  D STATE = none ∧ (∀ c, N.U c → ∀ e : Elem, e.of .map → D (pre H c ++ e.bytes) = none) ∧ ∀ x, N.Foreign H x → D x = N.rest x

/-- What can happen on chain after an installation on storage in which nothing of the contract is, with names that occur
(`CallOK`); `W` bounds the number of entries that were added to a collection.  `reply` and `tick` are as in `Mpip.Step`. -/
inductive BReach (H : Hash) (N : Names) (J : Json) (me : AccountId) : Nat → BWorld → Prop
  | init (D D' : Disk) (c : Ctx) (a o t v : AccountId) (p m st q : Nat) (hb : Blank H N D) (hu64 : c.timestamp ≤ U64_MAX)
      (ha : StrFits a) (ho : StrFits o) (ht : StrFits t) (hv : StrFits v)
      (hexec : exec H J D c (.new_ a o t v p m st q) = .ok (D', [])) : BReach H N J me 0 ⟨D', [], c.timestamp, []⟩
  | call {W : Nat} {w : BWorld} (h : BReach H N J me W w) (c : Ctx) (k : Call) (D' : Disk) (out : List Promise)
      (hme : c.current = me) (hres : c.results = []) (hclock : w.clock ≤ c.timestamp) (hu64 : c.timestamp ≤ U64_MAX)
      (hk : CallOK N c k) (hexec : exec H J w.D c k = .ok (D', out)) :
      BReach H N J me (W + 4) ⟨D', w.pending ++ asked c.signer out, c.timestamp, .call c k out :: w.log⟩
  | reply {W : Nat} {w : BWorld} (h : BReach H N J me W w) (pre post : List Pending) (p : Pending) (r : Reply) (ts : Nat)
      (hpend : w.pending = pre ++ p :: post) (hclock : w.clock ≤ ts) (hu64 : ts ≤ U64_MAX) :
      BReach H N J me (W + 4) ⟨((exec H J w.D (replyCtx me p ts r) p.callback).getOr (w.D, [])).1, pre ++ post, ts,
        .replied p ts r (Res.isOk (exec H J w.D (replyCtx me p ts r) p.callback)) :: w.log⟩
  | tick {W : Nat} {w : BWorld} (h : BReach H N J me W w) (ts : Nat) (hclock : w.clock ≤ ts) (hu64 : ts ≤ U64_MAX) :
      BReach H N J me W { w with clock := ts }

variable {H : Hash} {N : Names} {f : Nat} {s s' : State} {D D' : Disk} {J : Json} {c : Ctx} {me : AccountId}

/-! ## Installation -/

theorem blank_at (hb : Blank H N D) (hf : f < 2 ^ 32) (hp : s.proposals = UMap.empty) (hv : s.votes = UMap.empty)
    (hw : s.voters = UMap.empty) (hq : s.proposers = UMap.empty) : At H N f (tabOf s) D := by
  have r0 : Room f 0 := by unfold Room; omega
  refine ⟨fun c hU => ?_, hb.2.2⟩
  have h0 := hb.2.1 c hU
  cases c with
  | mpips =>
    show IsMap u32 proposal D _ (.at _ s.proposals.len) s.proposals ∧ Room f s.proposals.len
    rw [hp]; exact ⟨IsMap.empty h0, r0⟩
  | mpipVotes =>
    show IsMap u32 tallyRec D _ (.at _ s.votes.len) (s.votes.mapE _) ∧ Room f s.votes.len ∧ ∀ i pv, s.votes.get i = some pv → _
    rw [hv]; exact ⟨IsMap.empty h0, r0, fun i pv h => by cases h⟩
  | voters =>
    show IsMap string mpipVoterRec D _ (.at _ s.voters.len) (s.voters.mapE _) ∧ Room f s.voters.len ∧
      ∀ i pv, s.voters.get i = some pv → _
    rw [hw]; exact ⟨IsMap.empty h0, r0, fun i pv h => by cases h⟩
  | proposers =>
    show IsMap string (list u32) D _ (.at _ s.proposers.len) s.proposers ∧ Room f s.proposers.len ∧
      ∀ i pv, s.proposers.get i = some pv → _
    rw [hq]; exact ⟨IsMap.empty h0, r0, fun i pv h => by cases h⟩
  | hasVoted x =>
    intro i hi
    have e : (tabOf s).hv i = UMap.empty := by
      show (s.internal_get_proposal_vote i).has_voted = _
      unfold State.internal_get_proposal_vote; rw [hv]; rfl
    rw [e]; exact ⟨IsMap.empty h0, r0⟩
  | votes a =>
    have e : (tabOf s).vv a = UMap.empty := by
      show (s.internal_get_voter a).votes = _
      unfold State.internal_get_voter; rw [hw]; rfl
    show IsMap u32 vote D _ (.at _ ((tabOf s).vv a).len) ((tabOf s).vv a) ∧ Room f ((tabOf s).vv a).len
    rw [e]; exact ⟨IsMap.empty h0, r0⟩

/-- `new` on storage in which nothing of the contract is. -/
theorem Blank.new (hb : Blank H N D) (hf : f < 2 ^ 32) {a o t v : AccountId} {p m st q : Nat} (ha : StrFits a) (ho : StrFits o)
    (ht : StrFits t) (hv : StrFits v) :
    Rel (fun s (b : Disk × List Promise) => b.2 = [] ∧ Stored H N f s b.1)
      (do
        require (c.deposit = 0) "Method doesn't accept deposit"
        require ((Call.new_ a o t v p m st q).in_range = true) "Failed to deserialize input from JSON."
        Mpip.new false a o t v p m st q)
      (exec H J D c (.new_ a o t v p m st q)) := by
  unfold Bytes.exec
  have e0 : require ((Call.new_ a o t v p m st q).payable = true ∨ c.deposit = 0) "Method doesn't accept deposit" =
      require (c.deposit = 0) "Method doesn't accept deposit" := by simp [Call.payable]
  rw [e0]
  refine Rel.step _ fun _ _ => ?_
  refine Rel.ok (c := ()) (by simp [Call.is_private, require]) ?_
  refine Rel.step _ fun _ hr => ?_
  have hr : (Call.new_ a o t v p m st q).in_range = true := by simpa using hr
  have hr := of_decide_eq_true hr
  show Rel _ (Mpip.new false a o t v p m st q) (Bytes.new H D a o t v p m st q >>= fun D => pure (D, []))
  have e1 : require (D STATE = none) "The contract is already initialized" = .ok () := by
    rw [hb.1]; rfl
  unfold Mpip.new Bytes.new
  rw [e1]
  show Rel _ (require (q ≤ ONE_HUNDRED) "Incorrect quorum basis points." >>= _)
    ((require (q ≤ ONE_HUNDRED) "Incorrect quorum basis points." >>= _) >>= _)
  rw [bind_assoc]
  refine Rel.step _ fun _ _ => ?_
  refine ⟨rfl, upd_self D STATE (some (mpipRec.enc (newRec H a o t v p m st q))), At.state ?_ _, ?_⟩
  · exact blank_at hb hf rfl rfl rfl rfl
  · exact ⟨ha, ho, ht, hv, lt64 hr.1, Nat.two_pow_pos 128, Nat.two_pow_pos 128, lt128 hr.2.1, Nat.two_pow_pos 128, lt128 hr.2.2.1,
      lt16 hr.2.2.2⟩

/-! ## Questions -/

theorem quiet_out {x : Res State} {r : State × List Promise} (h : Mpip.quiet x = .ok r) : r.2 = [] := by
  unfold Mpip.quiet at h
  simp only [bind_ok_iff, pure_ok_iff] at h
  obtain ⟨_, -, rfl⟩ := h
  rfl

theorem sends_out {x : Res State} {p : Promise} {r : State × List Promise} (h : Mpip.sends p x = .ok r) : r.2 = [p] := by
  unfold Mpip.sends at h
  simp only [bind_ok_iff, pure_ok_iff] at h
  obtain ⟨_, -, rfl⟩ := h
  rfl

/-- The names of a question in flight occur. -/
def PendOK (N : Names) (me : AccountId) (p : Pending) : Prop := ∀ ts r, CallOK N (replyCtx me p ts r) p.callback

/-- The callbacks of the questions of a call have names that occur. -/
theorem out_ok {k : Call} (hk : CallOK N c k) {out : List Promise} (hx : Mpip.exec J s c k = .ok (s', out)) :
    ∀ p ∈ asked c.signer out, PendOK N me p := by
  unfold Mpip.exec at hx
  simp only [bind_ok_iff, require_ok_iff] at hx
  obtain ⟨-, -, -, -, -, -, hx⟩ := hx
  intro p hp ts r
  have no : ∀ {x : Res State}, Mpip.quiet x = .ok (s', out) → CallOK N (replyCtx me p ts r) p.callback := fun e => by
    rw [show out = [] from quiet_out e] at hp; cases hp
  have one : ∀ {x : Res State} {q : Promise}, Mpip.sends q x = .ok (s', out) → out = [q] := fun e => sends_out e
  cases k with
  | pay_to_account n a => rw [one hx] at hp; cases hp
  | start_voting_period i => rw [one hx] at hp; cases List.mem_singleton.1 hp; trivial
  | create_proposal t => rw [one hx] at hp; cases List.mem_singleton.1 hp; exact hk
  | vote_proposal i v m => rw [one hx] at hp; cases List.mem_singleton.1 hp; exact hk
  | _ => exact no hx

/-! ## Reachable worlds -/

theorem isOk_rel {α β : Type} {R : α → β → Prop} {x : Res α} {y : Res β} (h : Rel R x y) : Res.isOk x = Res.isOk y := by
  cases x <;> cases y <;> first | rfl | exact h.elim

theorem BReach.inv (hN : N.OK H) {W : Nat} {w : BWorld} (h : BReach H N J me W w) :
    W < 2 ^ 32 → ∃ s, Reach J me ⟨s, w.pending, w.clock, w.log⟩ ∧ Stored H N (2 ^ 32 - 1 - W) s w.D ∧
      ∀ p ∈ w.pending, PendOK N me p := by
  induction h with
  | init D D' c a o t v p m st q hb hu64 ha ho ht hv hexec =>
    intro hW
    have h0 := hb.new (J := J) (c := c) (f := 2 ^ 32 - 1 - 0) (by omega) ha ho ht hv (p := p) (m := m) (st := st) (q := q)
    rw [hexec] at h0
    generalize hx : (do
        require (c.deposit = 0) "Method doesn't accept deposit"
        require ((Call.new_ a o t v p m st q).in_range = true) "Failed to deserialize input from JSON."
        Mpip.new false a o t v p m st q : Res State) = x at h0
    cases x with
    | error e => exact h0.elim
    | ok s =>
      simp only [bind_ok_iff, require_ok_iff] at hx
      obtain ⟨-, -, -, hr, hnew⟩ := hx
      exact ⟨s, .init (.mk a o t v p m st q c.timestamp s hr hu64 hnew), h0.2, fun t ht => by cases ht⟩
  | @call W w h c k D' out hme hres hclock hu64 hk hexec ih =>
    intro hW
    obtain ⟨s, h1, h2, h3⟩ := ih (by omega)
    have h0 := (h2.mono (f' := 2 ^ 32 - 1 - (W + 4) + 4) (by omega)).exec (J := J) hN hu64 hk
    rw [hexec] at h0
    generalize hx : Mpip.exec J s c k = x at h0
    cases x with
    | error e => exact h0.elim
    | ok r =>
      obtain ⟨s', out'⟩ := r
      obtain ⟨h4, h5⟩ := h0
      simp only at h4 h5
      subst h4
      refine ⟨s', h1.step (.call ⟨s, w.pending, w.clock, w.log⟩ c k s' out hme hres hclock hu64 hx), h5, fun p hp => ?_⟩
      rcases List.mem_append.1 hp with hp | hp
      · exact h3 p hp
      · exact out_ok hk hx p hp
  | @reply W w h pre post p r ts hpend hclock hu64 ih =>
    intro hW
    obtain ⟨s, h1, h2, h3⟩ := ih (by omega)
    have hk := h3 p (by rw [hpend]; simp) ts r
    have h0 := (h2.mono (f' := 2 ^ 32 - 1 - (W + 4) + 4) (by omega)).exec (J := J) hN (c := replyCtx me p ts r) hu64 hk
    refine ⟨((Mpip.exec J s (replyCtx me p ts r) p.callback).getOr (s, [])).1, ?_, ?_, fun p' hp => h3 p' ?_⟩
    · simp only
      rw [← isOk_rel h0]
      exact h1.step (.reply ⟨s, w.pending, w.clock, w.log⟩ pre post p r ts hpend hclock hu64)
    · generalize Mpip.exec J s (replyCtx me p ts r) p.callback = x at h0
      generalize exec H J w.D (replyCtx me p ts r) p.callback = y at h0
      cases x <;> cases y
      · exact h2.mono (by omega)
      · exact h0.elim
      · exact h0.elim
      · exact h0.2
    · simp only at hp
      rw [hpend]
      rcases List.mem_append.1 hp with hp | hp
      · exact List.mem_append_left _ hp
      · exact List.mem_append_right _ (List.mem_cons_of_mem _ hp)
  | @tick W w h ts hclock hu64 ih =>
    intro hW
    obtain ⟨s, h1, h2, h3⟩ := ih hW
    exact ⟨s, h1.step (.tick ⟨s, w.pending, w.clock, w.log⟩ ts hclock hu64), h2, h3⟩

/-! ## Running -/

/-- Execute one action; `none` if the call is rejected or the action impossible. -/
def bact (H : Hash) (J : Json) (me : AccountId) (w : BWorld) : Action → Option BWorld
  | .call p sg d ts k =>
    if w.clock ≤ ts ∧ ts ≤ U64_MAX then
      match exec H J w.D ⟨me, p, sg, d, ts, []⟩ k with
      | .ok r => some ⟨r.1, w.pending ++ asked sg r.2, ts, .call ⟨me, p, sg, d, ts, []⟩ k r.2 :: w.log⟩
      | .error _ => none
    else none
  | .reply i r ts =>
    match w.pending[i]? with
    | some p =>
      if w.clock ≤ ts ∧ ts ≤ U64_MAX then
        some ⟨((exec H J w.D (replyCtx me p ts r) p.callback).getOr (w.D, [])).1, w.pending.take i ++ w.pending.drop (i + 1), ts,
          .replied p ts r (Res.isOk (exec H J w.D (replyCtx me p ts r) p.callback)) :: w.log⟩
      else none
    | none => none
  | .tick ts => if w.clock ≤ ts ∧ ts ≤ U64_MAX then some { w with clock := ts } else none

/-- Execute a list of actions. -/
def bruns (H : Hash) (J : Json) (me : AccountId) (w : BWorld) : List Action → Option BWorld
  | [] => some w
  | a :: l => match bact H J me w a with
    | some w' => bruns H J me w' l
    | none => none

/-- The names of an action occur. -/
def ActOK (N : Names) (me : AccountId) : Action → Prop
  | .call p sg d ts k => CallOK N ⟨me, p, sg, d, ts, []⟩ k
  | _ => True

theorem reach_bact {W : Nat} {w w' : BWorld} (h : BReach H N J me W w) {a : Action} (ha : ActOK N me a)
    (hx : bact H J me w a = some w') : ∃ W', W' ≤ W + 4 ∧ BReach H N J me W' w' := by
  cases a with
  | call p sg d ts k =>
    simp only [bact] at hx
    split at hx
    · rename_i hc
      split at hx
      · rename_i r hr
        cases hx
        exact ⟨_, Nat.le_refl _, .call h ⟨me, p, sg, d, ts, []⟩ k r.1 r.2 rfl rfl hc.1 hc.2 ha hr⟩
      · cases hx
    · cases hx
  | reply i r ts =>
    simp only [bact] at hx
    split at hx
    · rename_i t ht
      split at hx
      · rename_i hc
        cases hx
        obtain ⟨hi, e⟩ := List.getElem?_eq_some_iff.1 ht
        refine ⟨_, Nat.le_refl _, .reply h (w.pending.take i) (w.pending.drop (i + 1)) t r ts ?_ hc.1 hc.2⟩
        rw [← e, List.getElem_cons_drop, List.take_append_drop]
      · cases hx
    · cases hx
  | tick ts =>
    simp only [bact] at hx
    split at hx
    · rename_i hc; cases hx; exact ⟨W, by omega, .tick h ts hc.1 hc.2⟩
    · cases hx

theorem reach_bruns : ∀ {l : List Action} {W : Nat} {w w' : BWorld}, BReach H N J me W w → (∀ a ∈ l, ActOK N me a) →
    bruns H J me w l = some w' → ∃ W', W' ≤ W + 4 * l.length ∧ BReach H N J me W' w'
  | [], W, w, w', h, _, hx => by cases hx; exact ⟨W, by simp, h⟩
  | a :: l, W, w, w', h, ha, hx => by
    simp only [bruns] at hx
    split at hx
    · rename_i w1 h1
      obtain ⟨W1, h2, h3⟩ := reach_bact h (ha a List.mem_cons_self) h1
      obtain ⟨W2, h4, h5⟩ := reach_bruns h3 (fun b hb => ha b (List.mem_cons_of_mem _ hb)) hx
      refine ⟨W2, ?_, h5⟩
      rw [List.length_cons]; omega
    · cases hx

end Verif.Mpip.Bytes
