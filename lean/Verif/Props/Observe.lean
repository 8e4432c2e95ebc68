import Verif.Props.Book
import Verif.Props.Accepted

/-!
# C83: the books decide the future
-/

namespace Verif.MetaVote

open Verif

/-- The settings, one by one. -/
theorem config_fields {s s' : State} (h : s.config = s'.config) :
    s.owner_id = s'.owner_id ∧ s.operator_id = s'.operator_id ∧ s.min_unbond_period = s'.min_unbond_period ∧
    s.max_unbond_period = s'.max_unbond_period ∧ s.min_deposit_amount = s'.min_deposit_amount ∧
    s.max_locking_positions = s'.max_locking_positions ∧ s.max_voting_positions = s'.max_voting_positions ∧
    s.mpdao_token_contract_address = s'.mpdao_token_contract_address ∧
    s.stnear_token_contract_address = s'.stnear_token_contract_address ∧ s.registration_cost = s'.registration_cost ∧
    s.prev_governance_contract = s'.prev_governance_contract ∧
    s.lock_votes_in_end_timestamp_ms = s'.lock_votes_in_end_timestamp_ms ∧
    s.lock_votes_in_address = s'.lock_votes_in_address ∧ s.lock_votes_in_numeric_id = s'.lock_votes_in_numeric_id := by
  unfold State.config at h
  simpa only [Config.mk.injEq] using h

theorem same_lockable {s s' : State} (hc : s.config = s'.config) (hp : s.total_voting_power = s'.total_voting_power)
    {l : List LockingPosition} {a d : Nat} (h : Lockable s l a d) : Lockable s' l a d := by
  obtain ⟨-, -, c3, c4, -, c6, -⟩ := config_fields hc
  exact ⟨c3 ▸ h.min, c4 ▸ h.max, h.days, h.amount, hp ▸ h.total, c6 ▸ h.room, h.grow⟩

theorem same_lockableAll {s s' : State} (hc : s.config = s'.config) (hp : s.total_voting_power = s'.total_voting_power)
    {l : List LockingPosition} {r : List (Nat × Nat)} (h : LockableAll s l r) : LockableAll s' l r := by
  obtain ⟨-, -, c3, c4, -, c6, -⟩ := config_fields hc
  exact lockableAll_congr c3 c4 c6 hp h

theorem hasTotal_book (s : State) (a o : String) : s.hasTotal a o ↔ s.book.votes a o ≠ none := by
  show _ ↔ (s.votes.get a).bind (·.get o) ≠ none
  unfold State.hasTotal
  cases s.votes.get a with
  | none => simp
  | some m => simp

theorem same_canTake {s s' : State} (h : s.book = s'.book) {n : Nat} : ∀ {l : List (String × String × Nat)} {u : Nat},
    CanTake s n l u → CanTake s' n l u
  | [], _, _ => trivial
  | (a, o, k) :: l, u, hx => fun hn => ⟨fun hk => by
      rw [hasTotal_book, ← h, ← hasTotal_book]; exact (hx hn).1 hk, same_canTake h (hx hn).2⟩

theorem same_may {J : Json} {s s' : State} {c : Ctx} {k : Call} (h : s.book = s'.book) (hx : MayCall J s c k) :
    MayCall J s' c k := by
  have hv : s.voters.get = s'.voters.get := congrArg Book.voter h
  have hp : s.total_voting_power = s'.total_voting_power := congrArg Book.power h
  have hm : s.get_claimable_mpdao = s'.get_claimable_mpdao := congrArg Book.mpdao h
  have hs : s.get_claimable_stnear = s'.get_claimable_stnear := congrArg Book.stnear h
  have hl : s.evm_delegates.get = s'.evm_delegates.get := congrArg Book.delegated h
  have hc : s.config = s'.config := congrArg Book.config h
  have h1 : s.total_unclaimed_mpdao = s'.total_unclaimed_mpdao := congrArg Book.mpdaoOwed h
  have h2 : s.accumulated_mpdao_distributed_for_claims = s'.accumulated_mpdao_distributed_for_claims :=
    congrArg Book.mpdaoGiven h
  have h3 : s.total_unclaimed_stnear = s'.total_unclaimed_stnear := congrArg Book.stnearOwed h
  have h4 : s.accum_distributed_stnear_for_claims = s'.accum_distributed_stnear_for_claims :=
    congrArg Book.stnearGiven h
  have hw : s.voterD = s'.voterD := by funext id; unfold State.voterD; rw [hv]
  have hpos : s.positionsOf = s'.positionsOf := by funext id; unfold State.positionsOf; rw [hw]
  have hk : s.knows = s'.knows := by funext id; unfold State.knows; rw [hv]
  have hvo : s.hasVote = s'.hasVote := by funext id a o; unfold State.hasVote; rw [hw]
  have hd : s.get_delegating_evm_addresses = s'.get_delegating_evm_addresses := by
    funext id; unfold State.get_delegating_evm_addresses; rw [hl]
  have ht : s.hasTotal = s'.hasTotal := by funext a o; rw [eq_iff_iff, hasTotal_book, hasTotal_book, h]
  have hlock : ∀ l a d, Lockable s l a d ↔ Lockable s' l a d := fun l a d =>
    ⟨same_lockable hc hp, same_lockable hc.symm hp.symm⟩
  have hall : ∀ l r, LockableAll s l r ↔ LockableAll s' l r := fun l a =>
    ⟨same_lockableAll hc hp, same_lockableAll hc.symm hp.symm⟩
  have htake : ∀ n l u, CanTake s n l u ↔ CanTake s' n l u := fun n l u => ⟨same_canTake h, same_canTake h.symm⟩
  obtain ⟨c1, c2, c3, c4, c5, c6, c7, c8, c9, c10, c11, c12, c13, c14⟩ := config_fields hc
  have hkeep : s.keepsVote = s'.keepsVote := by funext n a o; unfold State.keepsVote; rw [c12, c13, c14]
  have hmv : MayVote s = MayVote s' := by funext id n; unfold MayVote; rw [hw, hk, c7]
  have hmu : MayUnvote s = MayUnvote s' := by funext n id a o; unfold MayUnvote; rw [hvo, hkeep, hw, ht]
  have hmm : ∀ id l, MayMirror s id l → MayMirror s' id l := fun id l x =>
    ⟨x.periods, x.days, x.amounts, c6 ▸ x.room, hp ▸ x.total, hw ▸ (htake _ _ _).1 x.votes⟩
  have hnames : names J s = names J s' := by funext a b e d; unfold names; rw [c1]
  have hdist : MayDistribute J s = MayDistribute J s' := by
    funext a b e; unfold MayDistribute; rw [h1, h2, h3, h4, c8, c9]
  cases k
  case operator_mirror_lps e l => exact ⟨hx.1, c2 ▸ hx.2.1, hmm _ _ hx.2.2⟩
  all_goals
    simp only [MayCall, hm, hs, hw, hpos, hk, hvo, hd, hlock, hall, hkeep, hmv, hmu, hnames, hdist, hp, h3, c1, c2, c5,
      c6, c8, c10, c11] at hx ⊢
    try exact hx

/-- **C83**: two contracts with the same books accept the same calls, start the same transfers and have the same books
afterwards, whatever their histories. -/
theorem C83_call {J : Json} {me : AccountId} {w w' : World} (h : Reach J me w) (h' : Reach J me w')
    (hb : w.st.book = w'.st.book) {c : Ctx} {k : Call} {s : State} {out : List Transfer}
    (hx : exec J w.st c k = .ok (s, out)) :
    ∃ s', exec J w'.st c k = .ok (s', out) ∧ s.book = s'.book := by
  obtain ⟨⟨s', out'⟩, hx'⟩ := (C76_accepted h').2 (same_may hb ((C76_accepted h).1 ⟨_, hx⟩))
  obtain ⟨e1, e2⟩ := C82_call hx
  obtain ⟨e3, e4⟩ := C82_call hx'
  rw [hb] at e1 e2
  rw [← e2] at e4
  subst e4
  exact ⟨s', hx', e1.trans e3.symm⟩

/-- Same books, same transfers in flight, same clock. -/
structure SameBooks (w w' : World) : Prop where
  book : w.st.book = w'.st.book
  pending : w.pending = w'.pending
  clock : w.clock = w'.clock

/-- **C83**: whatever one of the two contracts can do next, the other can do too, and they stay alike. -/
theorem C83_step {J : Json} {me : AccountId} {w w' x : World} (h : Reach J me w) (h' : Reach J me w')
    (hb : SameBooks w w') (hs : Step J me w x) : ∃ x', Step J me w' x' ∧ SameBooks x x' ∧
      (x.log = w.log → x'.log = w'.log) ∧ (∀ e, x.log = e :: w.log → x'.log = e :: w'.log) := by
  cases hs with
  | call c k s' out hme hres hm hclock hu64 hexec =>
    obtain ⟨t, ht, he⟩ := C83_call h h' hb.book hexec
    refine ⟨_, .call w' c k t out hme hres hm (hb.clock ▸ hclock) hu64 ht, ⟨he, by simp only [hb.pending], rfl⟩, ?_, ?_⟩
    · intro hl; simp at hl
    · intro e hl; simp only [List.cons.injEq, and_true] at hl; subst hl; rfl
  | tick ts hclock hu64 =>
    refine ⟨_, .tick w' ts (hb.clock ▸ hclock) hu64, ⟨hb.book, hb.pending, rfl⟩, fun _ => rfl, ?_⟩
    intro e hl
    have := congrArg List.length hl
    simp at this
  | resolve pre post t ok ts hpend hclock hu64 =>
    have hst := Step.resolve (J := J) (me := me) w' pre post t ok ts (hb.pending ▸ hpend) (hb.clock ▸ hclock) hu64
    have key : ((exec J w.st ⟨me, me, 0, ts, [ok]⟩ t.callbackCall).getOr (w.st, [])).1.book =
        ((exec J w'.st ⟨me, me, 0, ts, [ok]⟩ t.callbackCall).getOr (w'.st, [])).1.book ∧
        Res.isOk (exec J w.st ⟨me, me, 0, ts, [ok]⟩ t.callbackCall) =
          Res.isOk (exec J w'.st ⟨me, me, 0, ts, [ok]⟩ t.callbackCall) := by
      cases hx : exec J w.st ⟨me, me, 0, ts, [ok]⟩ t.callbackCall with
      | ok r =>
        obtain ⟨y, hy, he⟩ := C83_call h h' hb.book (s := r.1) (out := r.2) hx
        rw [hy]
        exact ⟨he, rfl⟩
      | error p =>
        cases hy : exec J w'.st ⟨me, me, 0, ts, [ok]⟩ t.callbackCall with
        | error q => exact ⟨hb.book, rfl⟩
        | ok r =>
          obtain ⟨y, hy', -⟩ := C83_call h' h hb.book.symm (s := r.1) (out := r.2) hy
          rw [hx] at hy'
          cases hy'
    refine ⟨_, hst, ⟨key.1, rfl, rfl⟩, ?_, ?_⟩
    · intro hl; simp at hl
    · intro e hl
      simp only [List.cons.injEq, and_true] at hl
      subst hl
      rw [key.2]

/-- **C83**: the same, for any number of steps. -/
theorem C83_steps {J : Json} {me : AccountId} {w w' x : World} (h : Reach J me w) (h' : Reach J me w')
    (hb : SameBooks w w') (hs : Steps J me w x) : ∃ x', Steps J me w' x' ∧ SameBooks x x' ∧
      ∃ l, x.log = l ++ w.log ∧ x'.log = l ++ w'.log := by
  induction hs with
  | refl => exact ⟨w', .refl, hb, [], rfl, rfl⟩
  | step h1 hs ih =>
    rename_i w1 w2
    obtain ⟨x1, hx1, hb1, l, hl1, hl2⟩ := ih
    obtain ⟨x2, hx2, hb2, e1, e2⟩ := C83_step (h.steps h1) (h'.steps hx1) hb1 hs
    refine ⟨x2, .step hx1 hx2, hb2, ?_⟩
    cases hs with
    | call c k s' out hme hres hm hclock hu64 hexec =>
      exact ⟨_ :: l, by rw [hl1]; rfl, by rw [e2 _ rfl, hl2]; rfl⟩
    | tick ts hclock hu64 => exact ⟨l, hl1, by rw [e1 rfl, hl2]⟩
    | resolve pre post t ok ts hpend hclock hu64 =>
      exact ⟨_ :: l, by rw [hl1]; rfl, by rw [e2 _ rfl, hl2]; rfl⟩

/-! ## Two histories with the same books -/

/-- Deposits of alice and bob, in this order or in the other. -/
def orderAB : World := (runs demoJ "me" demo0
  [.call "mpdao" 0 1000 (.ft_on_transfer "alice" 60000000 (ascii "60")),
   .call "mpdao" 0 1000 (.ft_on_transfer "bob" 30000000 (ascii "30"))]).get (by decide +kernel)

/-- The other order. -/
def orderBA : World := (runs demoJ "me" demo0
  [.call "mpdao" 0 1000 (.ft_on_transfer "bob" 30000000 (ascii "30")),
   .call "mpdao" 0 1000 (.ft_on_transfer "alice" 60000000 (ascii "60"))]).get (by decide +kernel)

theorem order_same : Reach demoJ "me" orderAB ∧ Reach demoJ "me" orderBA ∧ SameBooks orderAB orderBA := by
  have h1 : Reach demoJ "me" orderAB := reach_of_runs demo0_init (Option.some_get _).symm
  have h2 : Reach demoJ "me" orderBA := reach_of_runs demo0_init (Option.some_get _).symm
  refine ⟨h1, h2, ?_, by decide +kernel, by decide +kernel⟩
  have e1 : orderAB.st.voters.entries = [("alice", ⟨0, [⟨60000000, 60, powerOf 60000000 60, none⟩],
    powerOf 60000000 60, UMap.empty⟩), ("bob", ⟨0, [⟨30000000, 30, powerOf 30000000 30, none⟩],
    powerOf 30000000 30, UMap.empty⟩)] := by decide +kernel
  have e2 : orderBA.st.voters.entries = [("bob", ⟨0, [⟨30000000, 30, powerOf 30000000 30, none⟩],
    powerOf 30000000 30, UMap.empty⟩), ("alice", ⟨0, [⟨60000000, 60, powerOf 60000000 60, none⟩],
    powerOf 60000000 60, UMap.empty⟩)] := by decide +kernel
  have e3 : orderAB.st.votes = UMap.empty ∧ orderBA.st.votes = UMap.empty ∧
    orderAB.st.claimable_mpdao = UMap.empty ∧ orderBA.st.claimable_mpdao = UMap.empty ∧
    orderAB.st.claimable_stnear = UMap.empty ∧ orderBA.st.claimable_stnear = UMap.empty ∧
    orderAB.st.associated_user_data = UMap.empty ∧ orderBA.st.associated_user_data = UMap.empty ∧
    orderAB.st.evm_delegates = UMap.empty ∧ orderBA.st.evm_delegates = UMap.empty ∧
    orderAB.st.evm_pre_delegation = UMap.empty ∧ orderBA.st.evm_pre_delegation = UMap.empty ∧
    orderAB.st.evm_delegation_signatures = UMap.empty ∧ orderBA.st.evm_delegation_signatures = UMap.empty := by
    decide +kernel
  obtain ⟨a1, a2, a3, a4, a5, a6, a7, a8, a9, a10, a11, a12, a13, a14⟩ := e3
  have ev : orderAB.st.voters.get = orderBA.st.voters.get := by
    funext i
    unfold UMap.get
    rw [e1, e2]
    simp only [findL]
    by_cases ha : "alice" = i
    · subst ha; rfl
    · by_cases hb : "bob" = i
      · subst hb; rfl
      · simp only [ha, hb, if_false]
  refine Book.ext ev (by decide +kernel) (by decide +kernel) ?_ ?_ (by decide +kernel) (by decide +kernel) ?_
    (by decide +kernel) (by decide +kernel) ?_ ?_ ?_ ?_ (by decide +kernel) (by decide +kernel)
  · show (fun a o => (orderAB.st.votes.get a).bind (·.get o)) = fun a o => (orderBA.st.votes.get a).bind (·.get o)
    rw [a1, a2]
  · show (fun i => (orderAB.st.claimable_mpdao.get i).getD 0) = fun i => (orderBA.st.claimable_mpdao.get i).getD 0
    rw [a3, a4]
  · show (fun i => (orderAB.st.claimable_stnear.get i).getD 0) = fun i => (orderBA.st.claimable_stnear.get i).getD 0
    rw [a5, a6]
  · show orderAB.st.associated_user_data.get = orderBA.st.associated_user_data.get
    rw [a7, a8]
  · show orderAB.st.evm_pre_delegation.get = orderBA.st.evm_pre_delegation.get
    rw [a11, a12]
  · show orderAB.st.evm_delegation_signatures.get = orderBA.st.evm_delegation_signatures.get
    rw [a13, a14]
  · show orderAB.st.evm_delegates.get = orderBA.st.evm_delegates.get
    rw [a9, a10]

/-- The lists of voters differ, the books do not: what comes next is the same. -/
example : orderAB.st.get_voters 0 0 9 ≠ orderBA.st.get_voters 0 0 9 ∧ SameBooks orderAB orderBA ∧
    ∀ x, Steps demoJ "me" orderAB x → ∃ x', Steps demoJ "me" orderBA x' ∧ SameBooks x x' :=
  ⟨by decide +kernel, order_same.2.2, fun x hx => by
    obtain ⟨x', h1, h2, -⟩ := C83_steps order_same.1 order_same.2.1 order_same.2.2 hx
    exact ⟨x', h1, h2⟩⟩

end Verif.MetaVote
