import Verif.Serde.MpipViews
import Verif.Mpip.PropInv
import Verif.Mpip.VoteInv
import Verif.Props.MpipReplay

/-!
# The answers of mpip fit their types
-/

namespace Verif.Mpip

open Verif Storage Serde

variable {J : Json} {s s' : State} {c : Ctx} {k : Call} {out : List Promise} {me : AccountId}

def Proposal.Fit (p : Proposal) : Prop :=
  p.mpip_id ≤ U32_MAX ∧ (∀ t, p.vote_start_timestamp = some t → t ≤ U64_MAX) ∧
    (∀ t, p.vote_end_timestamp = some t → t ≤ U64_MAX) ∧ ∀ q, p.v_power_quorum_to_reach = some q → q ≤ U128_MAX

def Vote.Fit (x : Vote) : Prop := x.mpip_id ≤ U32_MAX ∧ x.voting_power ≤ U128_MAX

/-- All numbers in the state fit. -/
structure Fit (s : State) : Prop where
  threshold : s.min_voting_power_amount ≤ U128_MAX
  storage : s.mpip_storage_near ≤ U128_MAX
  floor : s.quorum_floor ≤ 10000
  proposals : ∀ i p, s.proposals.get i = some p → p.Fit
  tally : ∀ i t, s.tally i t ≤ U128_MAX
  slot : ∀ i v x, s.slot i v = some x → x.Fit
  record : ∀ i v x, s.record i v = some x → x.Fit
  proposers : ∀ a, ∀ n ∈ (s.proposers.get a).getD [], n ≤ U32_MAX

theorem exec_limits (h : exec J s c k = .ok (s', out)) (h1 : s.min_voting_power_amount ≤ U128_MAX)
    (h2 : s.mpip_storage_near ≤ U128_MAX) : s'.min_voting_power_amount ≤ U128_MAX ∧ s'.mpip_storage_near ≤ U128_MAX := by
  obtain ⟨-, -, hr, -⟩ := exec_ok.1 h
  have hs := (C80_settings h).1
  have e1 : s'.min_voting_power_amount = (settingsAfter s.settings k).minPower := congrArg Settings.minPower hs
  have e2 : s'.mpip_storage_near = (settingsAfter s.settings k).storage := congrArg Settings.storage hs
  rw [e1, e2]
  cases k with
  | update_min_voting_power_amount n => exact ⟨of_decide_eq_true hr, h2⟩
  | update_mpip_storage_near n => exact ⟨h1, of_decide_eq_true hr⟩
  | _ => exact ⟨h1, h2⟩

theorem exec_fit (hf : Fit s) (h : exec J s c k = .ok (s', out)) : Fit s' := by
  obtain ⟨h1, h2⟩ := exec_limits h hf.threshold hf.storage
  obtain ⟨-, -, hr, -⟩ := exec_ok.1 h
  have put : ∀ {i : Nat} {p : Proposal}, p.Fit → ∀ j q, (s.proposals.insert i p).get j = some q → q.Fit := by
    intro i p hp j q hq
    rw [UMap.get_insert] at hq
    split at hq
    · cases hq; exact hp
    · exact hf.proposals j q hq
  cases exec_change h with
  | config e1 e2 e3 e4 e5 =>
    refine ⟨h1, h2, e5 hf.floor, e1 ▸ hf.proposals, fun i t => ?_, fun i v x hx => ?_, fun i v x hx => ?_, e4 ▸ hf.proposers⟩
    · have := hf.tally i t
      unfold State.tally State.internal_get_proposal_vote at this ⊢
      rwa [e2]
    · refine hf.slot i v x ?_
      unfold State.slot State.internal_get_proposal_vote at hx ⊢
      rwa [e2] at hx
    · refine hf.record i v x ?_
      unfold State.record at hx ⊢
      rwa [e3] at hx
  | started hb ht hp he hq =>
    refine ⟨h1, h2, hf.floor, put ?_, hf.tally, hf.slot, hf.record, hf.proposers⟩
    refine ⟨(hf.proposals _ _ hp).1, fun t e => ?_, fun t e => ?_, fun q e => ?_⟩
    · cases e; omega
    · cases e; exact he
    · cases e
      exact (Nat.div_le_self _ _).trans ((Nat.div_le_self _ _).trans hq)
  | created hb hl hmax hth =>
    have hm : s.proposals.len % 4294967296 ≤ U32_MAX := by
      have := Nat.mod_lt s.proposals.len (show 0 < 4294967296 by decide)
      unfold U32_MAX; omega
    refine ⟨h1, h2, hf.floor, put ⟨hm, ?_, ?_, ?_⟩, hf.tally, hf.slot, hf.record, fun a n hn => ?_⟩
    · intro _ e; cases e
    · intro _ e; cases e
    · intro _ e; cases e
    · simp only [UMap.get_insert] at hn
      split at hn
      · rw [Option.getD_some, List.mem_append, List.mem_singleton] at hn
        rcases hn with hn | rfl
        · exact hf.proposers _ n hn
        · exact hm
      · exact hf.proposers a n hn
  | canceled hp he hs =>
    exact ⟨h1, h2, hf.floor, put (by have := hf.proposals _ _ hp; exact this), hf.tally, hf.slot, hf.record, hf.proposers⟩
  | edited hp he hs =>
    exact ⟨h1, h2, hf.floor, put (by have := hf.proposals _ _ hp; exact this), hf.tally, hf.slot, hf.record, hf.proposers⟩
  | executed hp ho he hq hfit hr hs =>
    exact ⟨h1, h2, hf.floor, put (by have := hf.proposals _ _ hp; exact this), hf.tally, hf.slot, hf.record, hf.proposers⟩
  | @voted i v t m b l hb hl hmax hpos hfit =>
    have hv : Vote.Fit ⟨i, t, lockedSum l, m⟩ := ⟨of_decide_eq_true hr, hmax⟩
    refine ⟨h1, h2, hf.floor, hf.proposals, fun j u => ?_, fun j u x hx => ?_, fun j u x hx => ?_, hf.proposers⟩
    · rw [counted_tally]
      split
      · rename_i hc; obtain ⟨rfl, rfl⟩ := hc; exact hfit
      · exact hf.tally j u
    · rw [counted_slot] at hx
      split at hx
      · cases hx; exact hv
      · exact hf.slot j u x hx
    · rw [counted_record] at hx
      split at hx
      · cases hx; exact hv
      · exact hf.record j u x hx
  | unvoted hp ho hvd hx hle =>
    refine ⟨h1, h2, hf.floor, hf.proposals, fun j u => ?_, fun j u x hx => ?_, fun j u x hx => ?_, hf.proposers⟩
    · rw [uncounted_tally]
      exact (Nat.sub_le _ _).trans (hf.tally j u)
    · rw [uncounted_slot] at hx
      split at hx
      · cases hx
      · exact hf.slot j u x hx
    · rw [uncounted_record] at hx
      split at hx
      · cases hx
      · exact hf.record j u x hx

theorem reach_fit {w : World} (h : Reach J me w) : Fit w.st := by
  induction h with
  | init h =>
    cases h with
    | mk a o t v p m st q ts s hr hts hn =>
      obtain ⟨hq, rfl⟩ := new_ok hn
      simp only [Call.in_range, decide_eq_true_eq] at hr
      refine ⟨hr.2.1, hr.2.2.1, hq, ?_, ?_, ?_, ?_, ?_⟩
      · intro i p hp; cases hp
      · intro i t; cases t <;> exact Nat.zero_le _
      · intro i v x hx; cases hx
      · intro i v x hx; cases hx
      · intro a n hn; cases hn
  | step h hs ih =>
    rcases hs.cases_change with h | ⟨c, k, out, -, -, -, -, h, -⟩ | ⟨p, ts, r, out, -, -, -, h, -⟩
    · rw [h]; exact ih
    · exact exec_fit ih h
    · exact exec_fit ih h

theorem Vote.Fit.ok {x : Vote} (h : x.Fit) (v : String) : voteTy.ok (v, x) := ⟨h.1, trivial, trivial, h.2, trivial⟩

theorem Proposal.Fit.ok {p : Proposal} (h : p.Fit) : proposalTy.ok p :=
  ⟨h.1, trivial, trivial, trivial, trivial, trivial, trivial, h.2.1, h.2.2.1, trivial, trivial, trivial, h.2.2.2⟩

theorem forall₂_right {α β : Type} {R : α → β → Prop} {l : List α} {m : List β} (h : List.Forall₂ R l m) :
    ∀ y ∈ m, ∃ x, R x y := by
  induction h with
  | nil => intro y hy; cases hy
  | cons h1 _ ih =>
    intro y hy
    rcases List.mem_cons.1 hy with rfl | hy
    · exact ⟨_, h1⟩
    · exact ih y hy

theorem proposals_get {a n : Nat} {o : Option (List Proposal)} (h : s.get_proposals a n = .ok o) :
    ∀ l, o = some l → ∀ p ∈ l, ∃ i, s.proposals.get i = some p := by
  intro l hl p hp
  unfold State.get_proposals at h
  split at h
  · cases h; cases hl
  · simp only [bind_ok_iff, pure_ok_iff] at h
    obtain ⟨l', h1, rfl⟩ := h
    cases hl
    obtain ⟨i, hi⟩ := forall₂_right (MetaVote.mapM_ok_iff.1 h1) p hp
    simp only [bind_ok_iff, expect_ok_iff] at hi
    obtain ⟨k, -, hk⟩ := hi
    exact ⟨k, hk⟩

theorem last_fit {o : Option Nat} (h : s.get_last_proposal_id = .ok o) : ∀ n, o = some n → n ≤ U32_MAX := by
  intro n hn
  unfold State.get_last_proposal_id at h
  split at h
  · simp only [bind_ok_iff, subU_ok_iff, pure_ok_iff] at h
    obtain ⟨m, ⟨-, rfl⟩, rfl⟩ := h
    cases hn
    have := Nat.mod_lt s.proposals.len (show 0 < 4294967296 by decide)
    unfold U32_MAX; omega
  · cases h; cases hn

theorem my_vote_fit (hf : Fit s) {v : AccountId} {i : Nat} {o : Option Vote} (h : s.get_my_vote v i = .ok o) :
    ∀ x, o = some x → x.Fit := by
  intro x hx
  unfold State.get_my_vote State.internal_get_voter_vote at h
  split at h
  · simp only [bind_ok_iff, expect_ok_iff, pure_ok_iff] at h
    obtain ⟨y, ⟨r, hr, hy⟩, rfl⟩ := h
    cases hx
    refine hf.record i v x ?_
    rw [State.record, hr]
    exact hy
  · cases h; cases hx

/-- The answer of every view fits its type. -/
theorem view_ok {w : World} (h : Reach J me w) (hc : w.st.voters.len ≤ U64_MAX) {c : Ctx} {v : View} {r : v.Out}
    (hr : w.st.view c v = .ok r) : v.ty.ok r := by
  have hf := reach_fit h
  cases v with
  | get_my_proposals a | get_user_proposals_ids a => cases hr; exact hf.proposers a
  | check_proposal_threshold | get_quorum_reached | get_proposal_vote_succeeded | get_proposal_is_active_or_draft | has_voted |
    get_proposal_state => exact trivial
  | get_mpip_storage_near => cases hr; exact hf.storage
  | get_proposal_votes i =>
    cases hr
    refine ⟨hf.tally i .for_, hf.tally i .against, hf.tally i .abstain, fun e he => ?_⟩
    exact (hf.slot i e.1 e.2 (UMap.get_eq_some_iff.2 he)).ok e.1
  | get_proposal i => exact (hf.proposals i _ (get_proposal_ok.1 hr)).ok
  | get_proposals a n =>
    intro l hl p hp
    obtain ⟨i, hi⟩ := proposals_get hr l hl p hp
    exact (hf.proposals i p hi).ok
  | get_last_proposal_id => exact last_fit hr
  | get_quorum_floor => cases hr; exact hf.floor.trans (by decide)
  | get_proposal_threshold => cases hr; exact hf.threshold
  | get_total_voters => cases hr; exact hc
  | get_my_vote v i =>
    obtain ⟨o, ho, hr⟩ := (bind_ok_iff (m := w.st.get_my_vote v i)).1 hr
    cases hr
    intro x hx
    obtain ⟨y, hy, rfl⟩ := Option.map_eq_some_iff.1 hx
    exact (my_vote_fit hf ho y hy).ok v
  | get_voter v =>
    cases hr
    intro x hx
    obtain ⟨y, hy, rfl⟩ := List.mem_map.1 hx
    obtain ⟨e, he, rfl⟩ := List.mem_map.1 hy
    refine (hf.record e.1 v e.2 ?_).ok v
    rw [← voter_votes]
    exact UMap.get_eq_some_iff.2 he

end Verif.Mpip
