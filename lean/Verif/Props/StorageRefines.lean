import Verif.Storage.Simulate
import Verif.Storage.Trace
import Verif.MetaVote.Mirror
import Verif.Props.Storage
import Verif.Props.StorageVotes
import Verif.Props.Votes
import Verif.Props.Power

/-!
# C73: when the stored vote maps behave like maps

C73 is false of the code (`C73_false`).  It holds in executions in which nobody withdraws the last funds of an account that
still has votes (which is possible only with votes of power zero, see `C73_powered`) and the pairs of voter and app have
distinct ids.  Then the contract over storage goes through the same states, accepts the same calls and answers the views as
the model in which the vote maps are values, so everything proved in `Verif/Props` about that model holds over storage.
-/

namespace Verif.Storage

open Verif MetaVote

/-- Worlds reachable over storage with careful calls. -/
inductive SReachC (J : Json) (me : AccountId) (A : String → String → Prop) : SWorld → Prop
  | init {w : SWorld} (h : SInit w) : SReachC J me A w
  | step {w w' : SWorld} (h : SReachC J me A w) (hs : SStep J me w w')
      (hg : ∀ c k out, w'.log = .call c k out :: w.log → Careful A w.S w'.S c k) : SReachC J me A w'

theorem vpos_empty : vpos UMap.empty := by intro c x h; simp at h

theorem vpos_vset {m : VMap} (h : vpos m) (c o : String) {n : Nat} (hn : n ≠ 0) : vpos (vset m c o n) := by
  intro c' x hx o' k hk
  unfold vset at hx
  rw [UMap.get_insert] at hx
  split at hx
  · simp only [Option.some.injEq] at hx
    subst hx
    rw [UMap.get_insert] at hk
    split at hk
    · simp only [Option.some.injEq] at hk; omega
    · rename_i hc _
      cases hg : m.get c with
      | none => rw [hg] at hk; simp at hk
      | some y => rw [hg] at hk; exact h c y hg o' k hk
  · exact h c' x hx o' k hk

theorem Trimmed.vpos {m m' : VMap} (h : Trimmed m m') (hp : vpos m) : vpos m' := by
  induction h with
  | refl m => exact hp
  | del a o _ ih => exact ih (vpos_vdel hp a o)

/-- The world `w` of the model agrees with the world `W` over storage. -/
structure Agree (A : String → String → Prop) (W : SWorld) (w : World) : Prop where
  repr : Repr A W.S w.st
  pending : W.pending = w.pending
  clock : W.clock = w.clock
  log : W.log = w.log

theorem agree_init {A : String → String → Prop} {W : SWorld} (h : SInit W) : ∃ w, Init w ∧ Agree A W w := by
  cases h with
  | mk w hw =>
    refine ⟨w, hw, ?_⟩
    cases hw with
    | mk o op a b d l v m st r p ts s hr hts hn =>
      obtain ⟨-, -, rfl⟩ := new_ok hn
      exact ⟨⟨rfl, rfl, ⟨fun _ => rfl, fun _ _ _ => rfl, by intro v c m h; simp [State.voterD] at h, rfl, fun _ => rfl⟩⟩,
        rfl, rfl, rfl⟩

theorem allowed_callback {A : String → String → Prop} (c : Ctx) (t : Transfer) : Allowed A c t.callbackCall := by
  unfold Transfer.callbackCall; split <;> trivial

theorem keeps_callback (S S' : SState) (c : Ctx) (t : Transfer) : Keeps S S' c t.callbackCall := by
  unfold Transfer.callbackCall; split <;> trivial

theorem Sim.ok_left {α β : Type} {P : α → β → Prop} {x : Res α} {y : Res β} (h : Sim P x y) {a : α} (hx : x = .ok a) :
    ∃ b, y = .ok b ∧ P a b := by
  subst hx
  cases y
  · exact h.elim
  · exact ⟨_, rfl, h⟩

theorem Sim.ok_right {α β : Type} {P : α → β → Prop} {x : Res α} {y : Res β} (h : Sim P x y) {b : β} (hy : y = .ok b) :
    ∃ a, x = .ok a ∧ P a b := by
  subst hy
  cases x
  · exact h.elim
  · exact ⟨_, rfl, h⟩

variable {J : Json} {me : AccountId} {A : String → String → Prop} {W : SWorld}

/-- A step over storage with a careful call is a step of the model. -/
theorem agree_step (hj : Joins A) {W' : SWorld} {w : World} (ha : Agree A W w) (hs : SStep J me W W')
    (hg : ∀ c k out, W'.log = .call c k out :: W.log → Careful A W.S W'.S c k) : ∃ w', Step J me w w' ∧ Agree A W' w' := by
  cases hs with
  | call c k S' out hme hres hm hclock hu64 hexec =>
    have hk := hg _ _ _ rfl
    obtain ⟨⟨s', out'⟩, hx, -, hr, ho⟩ := (sim_exec hj ha.repr J hk.1).ok_left hexec
    simp only at hr ho
    subst ho
    refine ⟨⟨s', w.pending ++ out, c.timestamp, .call c k out :: w.log⟩,
      .call w c k s' out hme hres hm (by rw [← ha.clock]; exact hclock) hu64 hx, ?_⟩
    exact ⟨hr hk.2, by rw [← ha.pending], rfl, by rw [← ha.log]⟩
  | resolve pre post t ok ts hpend hclock hu64 =>
    have hsim := sim_exec hj ha.repr J (allowed_callback (A := A) ⟨me, me, 0, ts, [ok]⟩ t)
    refine ⟨_, .resolve w pre post t ok ts (by rw [← ha.pending]; exact hpend)
      (by rw [← ha.clock]; exact hclock) hu64, ?_⟩
    have hr := ha.repr
    have hl := ha.log
    cases hx : exec J w.st ⟨me, me, 0, ts, [ok]⟩ t.callbackCall with
    | error e =>
      cases hy : sexec J _ ⟨me, me, 0, ts, [ok]⟩ t.callbackCall with
      | ok r => rw [hx, hy] at hsim; exact hsim.elim
      | error e' => exact ⟨hr, rfl, rfl, by rw [hl]; rfl⟩
    | ok r =>
      obtain ⟨R, hy, -, h1, -⟩ := hsim.ok_right hx
      rw [hy]
      exact ⟨h1 (keeps_callback _ _ _ _), rfl, rfl, by rw [hl]; rfl⟩
  | tick ts hclock hu64 =>
    exact ⟨{ w with clock := ts }, .tick w ts (by rw [← ha.clock]; exact hclock) hu64,
      ha.repr, ha.pending, rfl, ha.log⟩

/-- Every execution over storage with careful calls is an execution of the model. -/
theorem reach_agree (hj : Joins A) (h : SReachC J me A W) : ∃ w, Reach J me w ∧ Agree A W w := by
  induction h with
  | init h =>
    obtain ⟨w, hw, ha⟩ := agree_init h
    exact ⟨w, .init hw, ha⟩
  | step h hs hg ih =>
    obtain ⟨w, hw, ha⟩ := ih
    obtain ⟨w', hs', ha'⟩ := agree_step hj ha hs hg
    exact ⟨w', .step hw hs', ha'⟩

/-- The views of votes over storage. -/
theorem Repr.views {S : SState} {s : State} (h : Repr A S s) (v c o : String) :
    S.get_votes_for_object v c o = .ok (s.get_votes_for_object v c o) ∧
    S.get_total_votes c o = .ok (s.get_total_votes c o) := by
  constructor
  · unfold SState.get_votes_for_object State.get_votes_for_object
    have hk := Cells.get_of ((s.voterD v).vote_positions.mapV (fun c m => (⟨join v c, m.len⟩ : Handle))) c
    rw [UMap.len_mapV, UMap.get_mapV] at hk
    rw [h.mem.vp v, vlen_eq h, hk, internal_get_voter_eq]
    cases hg : (s.voterD v).vote_positions.get c with
    | none => rfl
    | some m =>
      have ha := h.mem.allowed v c m hg
      have hi : inner (s.voterD v).vote_positions c = m := by unfold inner; rw [hg]; rfl
      have hv := h.mem.voteIn ha o
      rw [hi] at hv
      simp only [bind, Except.bind, Option.map_some, hv]
      rfl
  · unfold SState.get_total_votes State.get_total_votes
    rw [h.mem.vt, UMap.get_mapV]
    cases hg : s.votes.get c with
    | none => rfl
    | some m =>
      have hi : inner s.votes c = m := by unfold inner; rw [hg]; rfl
      simp only [Option.map_some, h.mem.cv c, hi, Cells.get_of]
      rfl

/-- The parts of the contract state that are not votes. -/
def SameButVotes (S : SState) (s : State) : Prop :=
  S.st = { s with votes := UMap.empty, voters := s.voters.mapV (fun _ v => { v with vote_positions := UMap.empty }) }

/-- **C73** (partial): as long as nobody withdraws the last funds of an account that still has votes, and the pairs of voter
and app that are used have distinct ids (`A`), the contract over storage is in a state of the model in which the vote maps
are plain maps: the views of the votes agree, everything else is equal, and a further call of this kind is accepted over storage exactly if the model accepts it, with the
same transfers and again the same views.  Missing: accounts that leave with votes of power zero, and ids that coincide; for
those C73 is false. -/
theorem C73_refines_partial (hj : Joins A) (h : SReachC J me A W) : ∃ w, Reach J me w ∧
    W.pending = w.pending ∧ W.clock = w.clock ∧ W.log = w.log ∧ SameButVotes W.S w.st ∧
    (∀ v c o, W.S.get_votes_for_object v c o = .ok (w.st.get_votes_for_object v c o)) ∧
    (∀ c o, W.S.get_total_votes c o = .ok (w.st.get_total_votes c o)) ∧
    ∀ x k, Allowed A x k →
      (∀ e, sexec J W.S x k = .error e ↔ exec J w.st x k = .error e) ∧
      (∀ S' out, sexec J W.S x k = .ok (S', out) → ∃ s', exec J w.st x k = .ok (s', out) ∧ SameButVotes S' s' ∧
        (Keeps W.S S' x k → (∀ v c o, S'.get_votes_for_object v c o = .ok (s'.get_votes_for_object v c o)) ∧
          ∀ c o, S'.get_total_votes c o = .ok (s'.get_total_votes c o))) := by
  obtain ⟨w, hw, ha⟩ := reach_agree hj h
  refine ⟨w, hw, ha.pending, ha.clock, ha.log, ha.repr.st, fun v c o => (ha.repr.views v c o).1,
    fun c o => (ha.repr.views "" c o).2, ?_⟩
  intro x k hk
  have hsim := sim_exec hj ha.repr J hk
  constructor
  · intro e
    cases hx : sexec J W.S x k <;> cases hy : exec J w.st x k <;> rw [hx, hy] at hsim
    · cases hsim; simp
    · exact hsim.elim
    · exact hsim.elim
    · simp
  · intro S' out hx
    obtain ⟨⟨s', out'⟩, hy, hs, hr, ho⟩ := hsim.ok_left hx
    simp only at hs hr ho
    subst ho
    exact ⟨s', hy, hs, fun hk => ⟨fun v c o => ((hr hk).views v c o).1, fun c o => ((hr hk).views "" c o).2⟩⟩

/-- The names that `C44_names_partial` allows. -/
theorem joins_names : Joins (fun _ c => '-' ∉ c.toList) ∧ Joins (fun v _ => '-' ∉ v.toList) :=
  ⟨fun _ _ _ _ h h' e => C44_names_partial (.inl ⟨h, h'⟩) e, fun _ _ _ _ h h' e => C44_names_partial (.inr ⟨h, h'⟩) e⟩

/-- **C02** (partial, over storage): the total of an object is the sum of the votes of the voters. -/
theorem C02_storage_partial (hj : Joins A) (h : SReachC J me A W) (app obj : String) :
    ∃ f : String → Nat, (∀ id, W.S.get_votes_for_object id app obj = .ok (f id)) ∧
      W.S.get_total_votes app obj = .ok (W.S.st.voters.keys.map f).sum := by
  obtain ⟨w, hw, -, -, -, hs, hv, ht, -⟩ := C73_refines_partial hj h
  refine ⟨fun id => w.st.get_votes_for_object id app obj, fun id => hv id app obj, ?_⟩
  rw [ht, C02_total_votes_partial hw, hs]
  simp only [UMap.keys_mapV]
  rfl

/-- **C03** (partial, over storage): available plus used power is at most the power of the locked positions. -/
theorem C03_storage_partial (hj : Joins A) (h : SReachC J me A W) (id : String) (now : Nat) :
    ∃ used, W.S.get_used_voting_power id = .ok used ∧
      W.S.st.get_available_voting_power id + used ≤ lockedPower (W.S.st.get_all_locking_positions now id) := by
  obtain ⟨w, hw, ha⟩ := reach_agree hj h
  obtain ⟨used, hu, hle⟩ := C03_power_le_locked_partial hw id now
  refine ⟨used, ?_, ?_⟩
  · unfold SState.get_used_voting_power
    rw [vlen_eq ha.repr, ha.repr.mem.usedVotes (id := id) (voter := w.st.voterD id) rfl]
    exact hu
  · have hv : W.S.st.voterD id = (w.st.voterD id).bare := by
      rw [ha.repr.st, ← internal_get_voter_eq, ← internal_get_voter_eq]; exact get_voter_bare _ _
    rw [lockedPower_view, get_available_eq] at hle ⊢
    rw [hv]
    exact hle

/-- **C17** (partial, over storage): a vote that is there and not locked in can be withdrawn. -/
theorem C17_storage_partial (hj : Joins A) (h : SReachC J me A W) (c : Ctx) {app obj : String} {n : Nat}
    (ha : A c.predecessor app) (hdep : c.deposit = 0) (hv : W.S.get_votes_for_object c.predecessor app obj = .ok n)
    (hn : n ≠ 0) (hl : ¬ lockedIn W.S.st c.now app obj) : ∃ r, sexec J W.S c (.unvote app obj) = .ok r := by
  obtain ⟨w, hw, -, -, -, hs, hvw, -, hx⟩ := C73_refines_partial hj h
  have hlw : ¬ lockedIn w.st c.now app obj := by
    rw [hs] at hl
    rw [lockedIn_iff] at hl ⊢
    exact hl
  have hvn := hvw c.predecessor app obj
  rw [hv] at hvn
  cases hvn
  obtain ⟨r, hr⟩ := C17_unvote_possible_partial hw c hdep hn hlw
  cases hy : sexec J W.S c (.unvote app obj) with
  | ok r => exact ⟨r, rfl⟩
  | error e =>
    have := ((hx c (.unvote app obj) ha).1 e).1 hy
    rw [hr] at this
    cases this

/-- Only the votes of `id` for `(app, obj)`, and the total for `(app, obj)`, changed. -/
structure SOnly (S S' : SState) (id app obj : String) : Prop where
  votes : ∀ v a o, ¬ (v = id ∧ a = app ∧ o = obj) → S'.get_votes_for_object v a o = S.get_votes_for_object v a o
  totals : ∀ a o, ¬ (a = app ∧ o = obj) → S'.get_total_votes a o = S.get_total_votes a o
  available : ∀ v, v ≠ id → S'.st.get_available_voting_power v = S.st.get_available_voting_power v

theorem available_bare {S : SState} {s : State} (h : SameButVotes S s) (v : String) :
    S.st.get_available_voting_power v = s.get_available_voting_power v := by
  rw [show S.st = s.bare from h, get_available_eq, get_available_eq, ← internal_get_voter_eq, ← internal_get_voter_eq,
    get_voter_bare]
  rfl

theorem only_storage {S S' : SState} {s s' : State} {id app obj : String}
    (hv : ∀ v c o, S.get_votes_for_object v c o = .ok (s.get_votes_for_object v c o))
    (ht : ∀ c o, S.get_total_votes c o = .ok (s.get_total_votes c o)) (hs : SameButVotes S s)
    (hv' : ∀ v c o, S'.get_votes_for_object v c o = .ok (s'.get_votes_for_object v c o))
    (ht' : ∀ c o, S'.get_total_votes c o = .ok (s'.get_total_votes c o)) (hs' : SameButVotes S' s')
    (h : OnlyVote s s' id app obj) : SOnly S S' id app obj := by
  have hd : ∀ v, v ≠ id → s'.voterD v = s.voterD v := fun v e => by unfold State.voterD; rw [h.others v e]
  refine ⟨?_, ?_, ?_⟩
  · intro v a o hne
    rw [hv, hv']
    by_cases e : v = id
    · subst e; rw [h.votes a o (fun hh => hne ⟨rfl, hh⟩)]
    · rw [get_votes_for_object_eq, get_votes_for_object_eq, hd v e]
  · intro a o hne
    rw [ht, ht', h.totals a o hne]
  · intro v e
    rw [available_bare hs, available_bare hs', get_available_eq, get_available_eq, hd v e]

/-- **C14** (partial, over storage): the effect of an accepted vote. -/
theorem C14_storage_partial (hj : Joins A) (h : SReachC J me A W) {c : Ctx} {p : Nat} {app obj : String}
    (ha : A c.predecessor app) {S' : SState} {out : List Transfer}
    (hx : sexec J W.S c (.vote p app obj) = .ok (S', out)) : ∃ n t, out = [] ∧
    W.S.get_votes_for_object c.predecessor app obj = .ok n ∧ S'.get_votes_for_object c.predecessor app obj = .ok (n + p) ∧
    W.S.get_total_votes app obj = .ok t ∧ S'.get_total_votes app obj = .ok (t + p) ∧
    S'.st.get_available_voting_power c.predecessor + p = W.S.st.get_available_voting_power c.predecessor ∧
    SOnly W.S S' c.predecessor app obj := by
  obtain ⟨w, -, -, -, -, hs, hv, ht, hc⟩ := C73_refines_partial hj h
  obtain ⟨s', hx', hs', hvt⟩ := (hc c (.vote p app obj) ha).2 S' out hx
  obtain ⟨hv', ht'⟩ := hvt trivial
  obtain ⟨rfl, h1, h2, h3, h4⟩ := C14_vote_effect_partial hx'
  refine ⟨_, _, rfl, hv _ _ _, ?_, ht _ _, ?_, ?_, only_storage hv ht hs hv' ht' hs' h4⟩
  · rw [hv', h2]
  · rw [ht', h3]
  · rw [available_bare hs, available_bare hs', h1]

/-- **C15** (partial, over storage): the effect of an accepted unvote. -/
theorem C15_storage_partial (hj : Joins A) (h : SReachC J me A W) {c : Ctx} {app obj : String}
    (ha : A c.predecessor app) {S' : SState} {out : List Transfer}
    (hx : sexec J W.S c (.unvote app obj) = .ok (S', out)) : ∃ n t, out = [] ∧
    W.S.get_votes_for_object c.predecessor app obj = .ok n ∧ S'.get_votes_for_object c.predecessor app obj = .ok 0 ∧
    W.S.get_total_votes app obj = .ok (t + n) ∧ S'.get_total_votes app obj = .ok t ∧
    S'.st.get_available_voting_power c.predecessor = W.S.st.get_available_voting_power c.predecessor + n ∧
    SOnly W.S S' c.predecessor app obj := by
  obtain ⟨w, -, -, -, -, hs, hv, ht, hc⟩ := C73_refines_partial hj h
  obtain ⟨s', hx', hs', hvt⟩ := (hc c (.unvote app obj) ha).2 S' out hx
  obtain ⟨hv', ht'⟩ := hvt trivial
  obtain ⟨rfl, h1, h2, h3, h4⟩ := C15_unvote_effect_partial hx'
  refine ⟨_, _, rfl, hv _ _ _, ?_, ?_, ht' _ _, ?_, only_storage hv ht hs hv' ht' hs' h4⟩
  · rw [hv', h2]
  · rw [ht, h3]
  · rw [available_bare hs, available_bare hs', h1]

/-- **C16** (partial, over storage): the effect of an accepted rebalance. -/
theorem C16_storage_partial (hj : Joins A) (h : SReachC J me A W) {c : Ctx} {p : Nat} {app obj : String}
    (ha : A c.predecessor app) {S' : SState} {out : List Transfer}
    (hx : sexec J W.S c (.rebalance p app obj) = .ok (S', out)) : ∃ n t t', out = [] ∧
    W.S.get_votes_for_object c.predecessor app obj = .ok n ∧ S'.get_votes_for_object c.predecessor app obj = .ok p ∧
    W.S.get_total_votes app obj = .ok t ∧ S'.get_total_votes app obj = .ok t' ∧ t' + n = t + p ∧
    S'.st.get_available_voting_power c.predecessor + p = W.S.st.get_available_voting_power c.predecessor + n ∧
    SOnly W.S S' c.predecessor app obj := by
  obtain ⟨w, -, -, -, -, hs, hv, ht, hc⟩ := C73_refines_partial hj h
  obtain ⟨s', hx', hs', hvt⟩ := (hc c (.rebalance p app obj) ha).2 S' out hx
  obtain ⟨hv', ht'⟩ := hvt trivial
  obtain ⟨rfl, h1, h2, h3, -, h4⟩ := C16_rebalance_effect_partial hx'
  refine ⟨_, _, _, rfl, hv _ _ _, ?_, ht _ _, ht' _ _, h3, ?_, only_storage hv ht hs hv' ht' hs' h4⟩
  · rw [hv', h1]
  · rw [available_bare hs, available_bare hs', h2]

/-! ## If every vote has power -/

/-- The power of a vote is positive. -/
def Powered : Call → Prop
  | .vote n _ _ | .vote_delegated _ n _ _ => 0 < n
  | _ => True

/-- Worlds reachable over storage with votes that have power, for pairs of voter and app in `A`. -/
inductive SReachP (J : Json) (me : AccountId) (A : String → String → Prop) : SWorld → Prop
  | init {w : SWorld} (h : SInit w) : SReachP J me A w
  | step {w w' : SWorld} (h : SReachP J me A w) (hs : SStep J me w w')
      (hg : ∀ c k out, w'.log = .call c k out :: w.log → Allowed A c k ∧ Powered k) : SReachP J me A w'

theorem exec_vpos {s s' : State} {c : Ctx} {k : Call} {out : List Transfer}
    (hp : ∀ id, vpos (s.voterD id).vote_positions) (hk : Powered k) (hx : exec J s c k = .ok (s', out)) (id : String) :
    vpos (s'.voterD id).vote_positions := by
  have hv := exec_votes hx id
  generalize (s'.voterD id).vote_positions = m' at hv ⊢
  cases hv with
  | same k => exact hp id
  | vote k n a o hk' =>
    refine vpos_vset (hp id) a o ?_
    rcases hk' with ⟨rfl, -⟩ | ⟨e, rfl, -⟩
    · exact Nat.pos_iff_ne_zero.1 (Nat.lt_of_lt_of_le hk (Nat.le_add_left _ _))
    · exact Nat.pos_iff_ne_zero.1 (Nat.lt_of_lt_of_le hk (Nat.le_add_left _ _))
  | unvote k a o => exact vpos_vdel (hp id) a o
  | rebalance n a o hid hn => exact vpos_vset (hp id) a o hn
  | mirror e l m hid ht => exact Trimmed.vpos ht (hp id)
  | gone => exact vpos_empty

theorem powered_callback (t : Transfer) : Powered t.callbackCall := by
  unfold Transfer.callbackCall; split <;> trivial

theorem step_vpos {w w' : World} (hs : Step J me w w') (hp : ∀ id, vpos (w.st.voterD id).vote_positions)
    (hg : ∀ c k out, w'.log = .call c k out :: w.log → Powered k) (id : String) : vpos (w'.st.voterD id).vote_positions := by
  cases hs with
  | call c k S' out hme hres hm hclock hu64 hexec => exact exec_vpos hp (hg _ _ _ rfl) hexec id
  | resolve pre post t ok ts hpend hclock hu64 =>
    cases hx : exec J w.st ⟨me, me, 0, ts, [ok]⟩ t.callbackCall with
    | error e => exact hp id
    | ok r => exact exec_vpos hp (powered_callback t) hx id
  | tick ts hclock hu64 => exact hp id

/-- An account whose votes have power has none left when it withdraws its last funds. -/
theorem keeps_of_vpos (hj : Joins A) {S S' : SState} {s : State} (h : Repr A S s) (hi : VInv s)
    (hp : ∀ id, vpos (s.voterD id).vote_positions) {c : Ctx} {k : Call} {out : List Transfer} (hk : Allowed A c k)
    (hx : sexec J S c k = .ok (S', out)) : Keeps S S' c k := by
  obtain ⟨⟨s', out'⟩, hx', hb, -⟩ := (sim_exec hj h J hk).ok_left hx
  simp only at hb
  have hz : k.votes = false → S.vlen c.predecessor ≠ 0 → (S'.st.voters.get c.predecessor).isSome = true := by
    intro hv hne
    rw [hb, show s'.bare.voters = s'.voters.mapV (fun _ v => v.bare) from rfl, UMap.get_mapV]
    cases hg : s'.voters.get c.predecessor with
    | some v => rfl
    | none =>
      exfalso
      apply hne
      have he : (s.voterD c.predecessor).vote_positions = UMap.empty := by
        rcases exec_keeps hv hx' c.predecessor with h1 | ⟨-, -, h1, -⟩
        · rw [← h1]; unfold State.voterD; rw [hg]; rfl
        · exact votes_empty (hi.voterOK c.predecessor) (hp _) h1
      rw [vlen_eq h, he]; rfl
  cases k <;> first | trivial | exact hz rfl

/-- If every vote has power, nobody withdraws the last funds of an account that still has votes. -/
theorem C73_powered (hj : Joins A) (h : SReachP J me A W) : SReachC J me A W := by
  suffices SReachC J me A W ∧ ∃ w, Reach J me w ∧ Agree A W w ∧ ∀ id, vpos (w.st.voterD id).vote_positions from this.1
  induction h with
  | init h =>
    obtain ⟨w, hw, ha⟩ := agree_init (A := A) h
    refine ⟨.init h, w, .init hw, ha, ?_⟩
    cases hw with
    | mk o op a b d l v m st r p ts s hr hts hn =>
      obtain ⟨-, -, rfl⟩ := new_ok hn
      exact fun id => vpos_empty
  | @step W W' h hs hg ih =>
    obtain ⟨hc, w, hw, ha, hp⟩ := ih
    have hcare : ∀ c k out, W'.log = .call c k out :: W.log → Careful A W.S W'.S c k := by
      intro c k out hl
      refine ⟨(hg c k out hl).1, ?_⟩
      cases hs with
      | call c' k' S' out' hme hres hm hclock hu64 hexec =>
        simp only [List.cons.injEq, Entry.call.injEq] at hl
        obtain ⟨⟨rfl, rfl, -⟩, -⟩ := hl
        exact keeps_of_vpos hj ha.repr (reach_vinv hw) hp (hg _ _ _ rfl).1 hexec
      | resolve => simp at hl
      | tick => exact absurd (congrArg List.length hl) (by simp)
    obtain ⟨w', hs', ha'⟩ := agree_step hj ha hs hcare
    refine ⟨.step hc hs hcare, w', .step hw hs', ha', fun id => step_vpos hs' hp ?_ id⟩
    intro c k out hl
    rw [← ha'.log, ← ha.log] at hl
    exact (hg c k out hl).2

/-! ## A careful execution -/

/-- The voting calls of an action are among those in `A`. -/
def Action.allowed (A : String → String → Prop) (me : AccountId) : Action → Prop
  | .call p d ts k => Allowed A ⟨me, p, d, ts, []⟩ k
  | _ => True

/-- `Keeps` for an action, to be evaluated. -/
def Action.keeps (w w' : SWorld) : Action → Bool
  | .call p _ _ (.withdraw _ _) | .call p _ _ .withdraw_all => w.S.vlen p == 0 || (w'.S.st.voters.get p).isSome
  | _ => true

/-- `Keeps` for every action of a run, to be evaluated. -/
def skeeps (J : Json) (me : AccountId) (w : SWorld) : List Action → Bool
  | [] => true
  | a :: l => match sact J me w a with
    | some w' => Action.keeps w w' a && skeeps J me w' l
    | none => true

theorem Action.keeps_iff {me : AccountId} {w w' : SWorld} {p : AccountId} {d ts : Nat} {k : Call}
    (h : Action.keeps w w' (.call p d ts k) = true) : Keeps w.S w'.S ⟨me, p, d, ts, []⟩ k := by
  cases k <;> first
    | trivial
    | (simp only [Action.keeps, Bool.or_eq_true, beq_iff_eq] at h
       exact fun hne => h.resolve_left hne)

theorem sact_log {J : Json} {me : AccountId} {w w' : SWorld} {a : Action} (h : sact J me w a = some w') {c : Ctx} {k : Call}
    {out : List Transfer} (hl : w'.log = .call c k out :: w.log) :
    ∃ p d ts, a = .call p d ts k ∧ c = ⟨me, p, d, ts, []⟩ := by
  cases a with
  | call p d ts k' =>
    simp only [sact] at h
    split at h
    · split at h
      · cases h
        simp only [List.cons.injEq, Entry.call.injEq] at hl
        obtain ⟨⟨rfl, rfl, -⟩, -⟩ := hl
        exact ⟨p, d, ts, rfl, rfl⟩
      · simp at h
    · simp at h
  | resolve i ok ts =>
    simp only [sact] at h
    split at h
    · split at h
      · cases h; simp at hl
      · simp at h
    · simp at h
  | tick ts =>
    simp only [sact] at h
    split at h
    · cases h
      have := congrArg List.length hl
      simp at this
    · simp at h

theorem sreachC_of_sruns {J : Json} {me : AccountId} {A : String → String → Prop} : ∀ {l : List Action} {w w' : SWorld},
    SReachC J me A w → (∀ a ∈ l, Action.allowed A me a) → skeeps J me w l = true → sruns J me w l = some w' →
    SReachC J me A w'
  | [], w, w', hw, _, _, h => by cases h; exact hw
  | a :: l, w, w', hw, hc, hk, h => by
    simp only [sruns] at h
    simp only [skeeps] at hk
    split at h
    · rename_i w1 hw1
      rw [hw1] at hk
      simp only [Bool.and_eq_true] at hk
      refine sreachC_of_sruns (.step hw (sstep_of_sact hw1) ?_) (fun b hb => hc b (by simp [hb])) hk.2 h
      intro c k out hl
      obtain ⟨p, d, ts, rfl, rfl⟩ := sact_log hw1 hl
      exact ⟨hc (.call p d ts k) (by simp), Action.keeps_iff hk.1⟩
    · simp at h

/-- Eve votes, removes the vote, withdraws everything, comes back and votes again; Bob votes for the same object, and with power
zero for another one. -/
def tidy : List Action :=
  [ .call "mpdao" 0 0 (.ft_on_transfer "eve" 60000000 (ascii "60")),
    .call "eve" 0 0 (.vote 50000000000000000000000000 "A" "o"),
    .call "eve" 0 0 (.rebalance 30000000000000000000000000 "A" "o"),
    .call "eve" 0 0 (.unvote "A" "o"),
    .call "eve" 0 0 (.unlock_position 0),
    .call "eve" 1 (61 * DAY) .withdraw_all,
    .resolve 0 true (61 * DAY),
    .call "mpdao" 0 (61 * DAY) (.ft_on_transfer "bob" 60000000 (ascii "60")),
    .call "bob" 0 (61 * DAY) (.vote 60000000000000000000000000 "A" "o"),
    .call "bob" 0 (61 * DAY) (.vote 0 "B" "z"),
    .call "mpdao" 0 (61 * DAY) (.ft_on_transfer "eve" 60000000 (ascii "60")),
    .call "eve" 0 (61 * DAY) (.vote 40000000000000000000000000 "B" "o"),
    .call "eve" 0 (61 * DAY) (.vote 5000000000000000000000000 "A" "o") ]

def tidyW : SWorld := (sruns demoJ "me" sdemo0 tidy).get (by decide +kernel)

theorem tidyW_reach : SReachC demoJ "me" (fun _ c => '-' ∉ c.toList) tidyW := by
  refine sreachC_of_sruns (.init (.mk demo0 demo0_init)) ?_ (by decide +kernel) (Option.some_get _).symm
  intro a ha
  simp only [tidy, List.mem_cons, List.not_mem_nil, or_false] at ha
  rcases ha with rfl | rfl | rfl | rfl | rfl | rfl | rfl | rfl | rfl | rfl | rfl | rfl | rfl <;>
    simp [Action.allowed, Allowed]

example : Joins (fun _ c => '-' ∉ c.toList) ∧ SReachC demoJ "me" (fun _ c => '-' ∉ c.toList) tidyW ∧
    tidyW.S.get_total_votes "A" "o" = .ok 65000000000000000000000000 ∧
    tidyW.S.get_votes_for_object "eve" "A" "o" = .ok 5000000000000000000000000 ∧
    tidyW.S.get_votes_for_object "bob" "A" "o" = .ok 60000000000000000000000000 ∧
    ('-' ∉ "A".toList) ∧ tidyW.S.st.lock_votes_in_address = none :=
  ⟨joins_names.1, tidyW_reach, by decide +kernel, by decide +kernel, by decide +kernel, by decide, by decide +kernel⟩

example : Res.isOk (sexec demoJ tidyW.S ⟨"me", "eve", 0, 61 * DAY, []⟩ (.vote 7 "A" "o")) = true ∧
    Res.isOk (sexec demoJ tidyW.S ⟨"me", "eve", 0, 61 * DAY, []⟩ (.unvote "A" "o")) = true ∧
    Res.isOk (sexec demoJ tidyW.S ⟨"me", "bob", 0, 61 * DAY, []⟩ (.rebalance 7 "A" "o")) = true :=
  ⟨by decide +kernel, by decide +kernel, by decide +kernel⟩

theorem sreachP_of_sruns {J : Json} {me : AccountId} {A : String → String → Prop} : ∀ {l : List Action} {w w' : SWorld},
    SReachP J me A w → (∀ p d ts k, .call p d ts k ∈ l → Allowed A ⟨me, p, d, ts, []⟩ k ∧ Powered k) →
    sruns J me w l = some w' → SReachP J me A w'
  | [], w, w', hw, _, h => by cases h; exact hw
  | a :: l, w, w', hw, hc, h => by
    simp only [sruns] at h
    split at h
    · rename_i w1 hw1
      refine sreachP_of_sruns (.step hw (sstep_of_sact hw1) ?_) (fun p d ts k hb => hc p d ts k (by simp [hb])) h
      intro c k out hl
      obtain ⟨p, d, ts, rfl, rfl⟩ := sact_log hw1 hl
      exact hc p d ts k (by simp)
    · simp at h

/-- Eve votes and removes the vote, withdraws everything and comes back. -/
def powered : List Action :=
  [ .call "mpdao" 0 0 (.ft_on_transfer "eve" 60000000 (ascii "60")),
    .call "eve" 0 0 (.vote 50000000000000000000000000 "A" "o"),
    .call "eve" 0 0 (.unvote "A" "o"),
    .call "eve" 0 0 (.unlock_position 0),
    .call "eve" 1 (61 * DAY) .withdraw_all,
    .call "mpdao" 0 (61 * DAY) (.ft_on_transfer "eve" 60000000 (ascii "60")),
    .call "eve" 0 (61 * DAY) (.vote 40000000000000000000000000 "B" "o") ]

def poweredW : SWorld := (sruns demoJ "me" sdemo0 powered).get (by decide +kernel)

example : SReachP demoJ "me" (fun _ c => '-' ∉ c.toList) poweredW ∧
    poweredW.S.get_total_votes "B" "o" = .ok 40000000000000000000000000 := by
  refine ⟨sreachP_of_sruns (.init (.mk demo0 demo0_init)) ?_ (Option.some_get _).symm, by decide +kernel⟩
  intro p d ts k ha
  simp only [powered, List.mem_cons, List.not_mem_nil, or_false, Action.call.injEq] at ha
  rcases ha with h | h | h | h | h | h | h <;> obtain ⟨-, -, -, rfl⟩ := h <;> simp [Allowed, Powered]

end Verif.Storage
