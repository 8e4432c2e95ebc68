import Verif.Spec.MpipAccept
import Verif.Props.MpipVotes
import Verif.Props.MpipProposals

/-!
# C77: a call to mpip is accepted exactly under its stated conditions
-/

namespace Verif.Mpip

open Verif

section
variable {J : Json} {me : AccountId} {c : Ctx}

theorem exec_iff {s : State} {k : Call} : (∃ r, exec J s c k = .ok r) ↔
    (k.payable = true ∨ c.deposit = 0) ∧ (k.is_private = true → c.predecessor = c.current) ∧
      k.in_range = true ∧ ∃ r, run J s c k = .ok r := by
  constructor
  · rintro ⟨⟨s', out⟩, h⟩
    obtain ⟨h1, h2, h3, h4⟩ := exec_ok.1 h
    exact ⟨h1, h2, h3, _, h4⟩
  · rintro ⟨h1, h2, h3, ⟨s', out⟩, h4⟩; exact ⟨_, exec_ok.2 ⟨h1, h2, h3, h4⟩⟩

theorem quiet_iff {r : Res State} : (∃ x, quiet r = .ok x) ↔ ∃ s, r = .ok s := by
  constructor
  · rintro ⟨⟨s, o⟩, h⟩; exact ⟨s, (quiet_ok.1 h).1⟩
  · rintro ⟨s, h⟩; exact ⟨(s, []), quiet_ok.2 ⟨h, rfl⟩⟩

theorem sends_iff {p : Promise} {r : Res State} : (∃ x, sends p r = .ok x) ↔ ∃ s, r = .ok s := by
  constructor
  · rintro ⟨⟨s, o⟩, h⟩; exact ⟨s, (sends_ok.1 h).1⟩
  · rintro ⟨s, h⟩; exact ⟨(s, [p]), sends_ok.2 ⟨h, rfl⟩⟩

theorem proposal_small {w : World} (h : Reach J me w) {i : Nat} {p : Proposal} (hp : w.st.get_proposal i = .ok p) :
    i ≤ U32_MAX := by
  have hd := reach_dense h
  have := (hd.get i).1 ⟨p, get_proposal_ok.1 hp⟩
  have := hd.2
  simp only [CAP, U32_MAX] at *
  omega

theorem on_voting_defined {s : State} {now i : Nat} {p : Proposal} (hp : s.proposals.get i = some p)
    (hw : ∀ t, p.vote_start_timestamp = some t → ∃ e, p.vote_end_timestamp = some e) :
    ∃ b, s.internal_proposal_is_on_voting now i = .ok b := by
  simp only [State.internal_proposal_is_on_voting, bind_ok_iff, get_proposal_ok]
  cases ht : p.vote_start_timestamp with
  | none => exact ⟨false, p, hp, by simp [ht]⟩
  | some t =>
    obtain ⟨e, he⟩ := hw t ht
    by_cases hle : t ≤ now
    · refine ⟨decide (now ≤ e) && !p.draft && !p.canceled && !p.executed, p, hp, ?_⟩
      simp only [ht, if_pos hle, bind_ok_iff, expect_ok_iff, pure_ok_iff]
      exact ⟨e, he, rfl⟩
    · exact ⟨false, p, hp, by simp [ht, hle]⟩

/-- When `process_voting_status` is accepted. -/
theorem process_iff {s : State} {i now : Nat} (hpok : ∀ p, s.proposals.get i = some p → POK now i p) :
    (∃ s', s.process_voting_status c i = .ok s') ↔ s.runs c ∧ ∃ p, s.get_proposal i = .ok p ∧
    (OnVoting p c.now → p.vote_end_timestamp = some c.now →
      (s.get_proposal_votes i).tally .for_ + (s.get_proposal_votes i).tally .abstain ≤ U128_MAX) := by
  unfold State.process_voting_status State.assert_only_operator
  simp only [bind_ok_iff, require_ok_iff]
  constructor
  · rintro ⟨s', -, h1, b, hb, h2⟩
    refine ⟨by unfold State.runs; tauto, ?_⟩
    obtain ⟨p, hp⟩ : ∃ p, s.proposals.get i = some p := by
      simp only [State.internal_proposal_is_on_voting, bind_ok_iff, get_proposal_ok] at hb
      obtain ⟨p, hp, -⟩ := hb
      exact ⟨p, hp⟩
    refine ⟨p, get_proposal_ok.2 hp, fun ho he => ?_⟩
    have hb' := on_voting_true.2 ⟨p, hp, ho⟩
    rw [hb] at hb'
    cases hb'
    simp only [Bool.true_eq_false, if_false, bind_ok_iff, get_proposal_ok, expect_ok_iff] at h2
    obtain ⟨p', hp', e, he', h2⟩ := h2
    rw [hp] at hp'
    cases hp'
    rw [he] at he'
    cases he'
    simp only [Nat.le_refl, if_true, bind_ok_iff, State.internal_is_quorum_reached, addU128_ok_iff] at h2
    obtain ⟨q, ⟨_, _, _, _, _, ⟨h3, -⟩, -⟩, -⟩ := h2
    exact h3
  · rintro ⟨h1, p, hp, h2⟩
    replace hp := get_proposal_ok.1 hp
    have hk := hpok p hp
    obtain ⟨b, hb⟩ := on_voting_defined (now := c.now) hp (fun t ht => by
      obtain ⟨-, e, he, -⟩ := hk.window t ht; exact ⟨e, he⟩)
    refine Exists.elim ?_ (fun s' h => ⟨s', (), by unfold State.runs at h1; tauto, b, hb, h⟩)
    cases b with
    | false => exact ⟨s, by simp⟩
    | true =>
      obtain ⟨p', hp', ho⟩ := on_voting_true.1 hb
      rw [hp] at hp'
      cases hp'
      obtain ⟨t, e, ht, he, -, hle, -⟩ := id ho
      simp only [Bool.true_eq_false, if_false, bind_ok_iff, get_proposal_ok, expect_ok_iff]
      refine Exists.elim ?_ (fun s' h => ⟨s', p, hp, e, he, h⟩)
      by_cases h : e ≤ c.now
      · have hee : e = c.now := by omega
        subst hee
        obtain ⟨q, hq⟩ : ∃ q, p.v_power_quorum_to_reach = some q := by
          cases hq : p.v_power_quorum_to_reach with
          | none => rw [hk.quorum.1 hq] at ht; cases ht
          | some q => exact ⟨q, rfl⟩
        have h3 := h2 ho he
        simp only [if_pos h, bind_ok_iff, State.internal_is_quorum_reached, addU128_ok_iff, pure_ok_iff, get_proposal_ok,
          expect_ok_iff]
        refine Exists.elim ?_ (fun s' h => ⟨s', _, ⟨p, hp, q, hq, _, ⟨h3, rfl⟩, rfl⟩, h⟩)
        split <;> exact ⟨_, rfl⟩
      · exact ⟨s, by simp [h]⟩

/-- **C77.**  On every reachable state of mpip, a call is accepted exactly when `MayCall` holds. -/
theorem C77_accepted {w : World} (h : Reach J me w) {k : Call} :
    (∃ r, exec J w.st c k = .ok r) ↔ MayCall J w.st c k := by
  have hsm := @proposal_small J me w h
  have hpok := reach_pok h
  have h50 := fun i p => @C50_accepted J me w h c i p
  have h50' := fun i s' out => C50_remove h c i s' out
  generalize w.st = s at *
  cases k with
  | remove_vote_proposal i =>
    constructor
    · rintro ⟨⟨s', out⟩, hx⟩
      obtain ⟨h1, x, h2, -⟩ := h50' i s' out hx
      obtain ⟨hd, -, -, -⟩ := exec_ok.1 hx
      refine ⟨by simpa [Call.payable] using hd, h1, ?_⟩
      rw [get_my_vote_view] at h2
      rw [has_voted_view, Except.ok.inj h2]; rfl
    · rintro ⟨h1, ⟨p, hp, ho⟩, h3⟩
      obtain ⟨s', hs'⟩ := h50 i p h1 (hsm hp) hp ho h3
      exact ⟨_, hs'⟩
  | process_voting_status i =>
    rw [exec_iff]
    simp only [run, quiet_iff, MayCall, Call.payable, Call.is_private, Call.in_range, decide_eq_true_eq,
      Bool.false_eq_true, false_or, false_imp_iff, true_and, process_iff (hpok i)]
    constructor
    · rintro ⟨h1, -, h2⟩; exact ⟨h1, h2⟩
    · rintro ⟨h1, h2, p, hp, h3⟩; exact ⟨h1, hsm hp, h2, p, hp, h3⟩
  | new_ =>
    simp only [exec_iff, run, quiet_iff, new, MayCall, bind_ok_iff, require_ok_iff, iff_false]
    rintro ⟨-, -, -, _, _, h, -⟩; cases h
  | update_open_for_new_mpips b | update_operator_role b | update_admin_role b | update_meta_vote_contract_address b =>
    rw [exec_iff]
    simp only [run, quiet_iff, MayCall, Call.payable, Call.is_private, Call.in_range, State.update_open_for_new_mpips,
      State.update_operator_role, State.update_admin_role, State.update_meta_vote_contract_address,
      State.assert_only_admin, bind_ok_iff, require_ok_iff, pure_ok_iff, Bool.false_eq_true, false_or, false_imp_iff,
      true_and]
    constructor
    · rintro ⟨h1, _, -, h2, -⟩; exact ⟨h1, h2.symm⟩
    · rintro ⟨h1, h2⟩; exact ⟨h1, _, (), h2.symm, rfl⟩
  | pay_to_account n a =>
    rw [exec_iff]
    simp only [run, sends_iff, MayCall, Call.payable, Call.is_private, Call.in_range, State.pay_to_account,
      State.assert_only_admin, bind_ok_iff, require_ok_iff, pure_ok_iff, Bool.false_eq_true, false_or, false_imp_iff,
      true_and, decide_eq_true_eq]
    constructor
    · rintro ⟨h1, h3, _, -, h2, -⟩; exact ⟨h1, h2.symm, h3⟩
    · rintro ⟨h1, h2, h3⟩; exact ⟨h1, h3, _, (), h2.symm, rfl⟩
  | update_voting_period n | update_min_meta_amount n | update_min_voting_power_amount n | update_mpip_storage_near n =>
    rw [exec_iff]
    simp only [run, quiet_iff, MayCall, Call.payable, Call.is_private, Call.in_range, State.update_voting_period,
      State.update_min_meta_amount, State.update_min_voting_power_amount, State.update_mpip_storage_near,
      State.assert_only_operator, bind_ok_iff, require_ok_iff, pure_ok_iff, Bool.false_eq_true, false_or, false_imp_iff,
      true_and, decide_eq_true_eq, State.runs]
    constructor
    · rintro ⟨h1, h3, _, -, h2, -⟩; exact ⟨h1, h2.imp Eq.symm Eq.symm, h3⟩
    · rintro ⟨h1, h2, h3⟩; exact ⟨h1, h3, _, (), h2.imp Eq.symm Eq.symm, rfl⟩
  | update_quorum_floor n =>
    rw [exec_iff]
    simp only [run, quiet_iff, MayCall, Call.payable, Call.is_private, Call.in_range, State.update_quorum_floor,
      State.assert_only_operator, bind_ok_iff, require_ok_iff, pure_ok_iff, Bool.false_eq_true, false_or, false_imp_iff,
      true_and, decide_eq_true_eq, State.runs]
    constructor
    · rintro ⟨h1, -, _, -, h2, -, h3, -⟩; exact ⟨h1, h2.imp Eq.symm Eq.symm, h3⟩
    · rintro ⟨h1, h2, h3⟩
      exact ⟨h1, Nat.le_trans h3 (by decide), _, (), h2.imp Eq.symm Eq.symm, (), h3, rfl⟩
  | start_voting_period i =>
    rw [exec_iff]
    simp only [run, sends_iff, MayCall, Call.payable, Call.is_private, Call.in_range, State.start_voting_period,
      bind_ok_iff, pure_ok_iff, Bool.false_eq_true, false_or, false_imp_iff, operator_or_creator_ok, active_or_draft_ok,
      true_and, decide_eq_true_eq]
    constructor
    · rintro ⟨h1, -, _, -, ⟨p, hp, h2⟩, -, ⟨p', hp', h3⟩, -⟩
      rw [hp] at hp'; cases hp'
      exact ⟨h1, p, get_proposal_ok.2 hp, h2.imp Eq.symm Eq.symm, h3⟩
    · rintro ⟨h1, p, hp, h2, h3⟩
      have hp' := get_proposal_ok.1 hp
      exact ⟨h1, hsm hp, _, (), ⟨p, hp', h2.imp Eq.symm Eq.symm⟩, (), ⟨p, hp', h3⟩, rfl⟩
  | cancel_proposal i =>
    rw [exec_iff]
    simp only [run, quiet_iff, MayCall, Call.payable, Call.is_private, Call.in_range, State.cancel_proposal,
      bind_ok_iff, pure_ok_iff, Bool.false_eq_true, false_or, false_imp_iff, operator_or_creator_ok, active_or_draft_ok,
      true_and, decide_eq_true_eq, get_proposal_ok]
    constructor
    · rintro ⟨h1, -, _, -, ⟨p, hp, h2⟩, -, ⟨p', hp', h3⟩, -⟩
      rw [hp] at hp'; cases hp'
      exact ⟨h1, p, get_proposal_ok.2 hp, h2.imp Eq.symm Eq.symm, h3⟩
    · rintro ⟨h1, p, hp, h2, h3⟩
      have hp' := get_proposal_ok.1 hp
      exact ⟨h1, hsm hp, _, (), ⟨p, hp', h2.imp Eq.symm Eq.symm⟩, (), ⟨p, hp', h3⟩, p, hp', rfl⟩
  | update_proposal i t =>
    rw [exec_iff]
    simp only [run, quiet_iff, MayCall, Call.payable, Call.is_private, Call.in_range, State.update_proposal,
      bind_ok_iff, pure_ok_iff, Bool.false_eq_true, false_or, false_imp_iff, creator_ok, active_or_draft_ok,
      true_and, decide_eq_true_eq, get_proposal_ok]
    constructor
    · rintro ⟨h1, -, _, -, ⟨p, hp, h2⟩, -, ⟨p', hp', h3⟩, -⟩
      rw [hp] at hp'; cases hp'
      exact ⟨h1, p, get_proposal_ok.2 hp, h2.symm, h3⟩
    · rintro ⟨h1, p, hp, h2, h3⟩
      have hp' := get_proposal_ok.1 hp
      exact ⟨h1, hsm hp, _, (), ⟨p, hp', h2.symm⟩, (), ⟨p, hp', h3⟩, p, hp', rfl⟩
  | create_proposal t =>
    rw [exec_iff]
    simp only [run, sends_iff, MayCall, Call.payable, Call.is_private, Call.in_range, State.create_proposal,
      State.assert_open_for_new_mpips, State.assert_proposal_storage_is_covered,
      bind_ok_iff, pure_ok_iff, require_ok_iff, Bool.false_eq_true, true_or, false_imp_iff, true_and]
    constructor
    · rintro ⟨_, -, h1, -, h2, -⟩; exact ⟨h1, h2⟩
    · rintro ⟨h1, h2⟩; exact ⟨_, (), h1, (), h2, rfl⟩
  | vote_proposal i t m =>
    rw [exec_iff]
    simp only [run, sends_iff, MayCall, Call.payable, Call.is_private, Call.in_range, State.vote_proposal,
      State.assert_has_not_voted, State.has_voted, assert_on_voting_ok, decide_eq_true_eq,
      bind_ok_iff, pure_ok_iff, require_ok_iff, Bool.false_eq_true, false_or, false_imp_iff, true_and]
    constructor
    · rintro ⟨h1, -, _, -, ⟨p, hp, h2⟩, -, h3, -⟩; exact ⟨h1, ⟨p, get_proposal_ok.2 hp, h2⟩, h3⟩
    · rintro ⟨h1, ⟨p, hp, h2⟩, h3⟩
      exact ⟨h1, hsm hp, _, (), ⟨p, get_proposal_ok.1 hp, h2⟩, (), h3, rfl⟩
  | start_voting_period_callback i =>
    rw [exec_iff]
    simp only [run, quiet_iff, MayCall, Call.payable, Call.is_private, Call.in_range, State.start_voting_period_callback,
      total_power_ok, decide_eq_true_eq, addU64_ok_iff, State.internal_get_quorum, mulU128_ok_iff, get_proposal_ok,
      bind_ok_iff, pure_ok_iff, Bool.false_eq_true, false_or, forall_const, Json.read_total, Option.filter_eq_some_iff]
    constructor
    · rintro ⟨h1, h2, -, _, n, ⟨b, h3, h4, h5⟩, p, hp, e, ⟨h6, -⟩, q, ⟨x, ⟨h7, -⟩, -⟩, -⟩
      exact ⟨h1, h2, ⟨b, n, h3, h4, h7, h5⟩, ⟨p, get_proposal_ok.2 hp⟩, h6⟩
    · rintro ⟨h1, h2, ⟨b, n, h3, h4, h7, h5⟩, ⟨p, hp⟩, h6⟩
      exact ⟨h1, h2, hsm hp, _, n, ⟨b, h3, h4, h5⟩, p, get_proposal_ok.1 hp, _, ⟨h6, rfl⟩, _, ⟨_, ⟨h7, rfl⟩, rfl⟩, rfl⟩
  | create_proposal_callback t =>
    rw [exec_iff]
    simp only [run, quiet_iff, MayCall, Call.payable, Call.is_private, Call.in_range, State.create_proposal_callback,
      user_power_ok, State.assert_proposal_threshold, State.internal_check_proposal_threshold, decide_eq_true_eq,
      bind_ok_iff, pure_ok_iff, require_ok_iff, Bool.false_eq_true, false_or, forall_const, true_and]
    constructor
    · rintro ⟨h1, h2, _, n, ⟨b, l, h3, h4, rfl, h5⟩, -, h6, -⟩
      exact ⟨h1, h2, b, l, h3, h4, h6, h5⟩
    · rintro ⟨h1, h2, b, l, h3, h4, h6, h5⟩
      exact ⟨h1, h2, _, _, ⟨b, l, h3, h4, rfl, h5⟩, (), h6, rfl⟩
  | vote_proposal_callback i v t m =>
    rw [exec_iff]
    simp only [run, quiet_iff, MayCall, Call.payable, Call.is_private, Call.in_range, State.vote_proposal_callback,
      user_power_ok, add_tally_ok, decide_eq_true_eq,
      bind_ok_iff, pure_ok_iff, require_ok_iff, Bool.false_eq_true, false_or, forall_const, tally_view]
    constructor
    · rintro ⟨h1, h2, h0, _, n, ⟨b, l, h3, h4, rfl, h5⟩, -, h6, _, ⟨h7, -⟩, -⟩
      exact ⟨h1, h2, h0, b, l, h3, h4, h6, by rw [tally_with_has_voted] at h7; exact h7⟩
    · rintro ⟨h1, h2, h0, b, l, h3, h4, h6, h7⟩
      exact ⟨h1, h2, h0, _, _, ⟨b, l, h3, h4, rfl, by omega⟩, (), h6, _, ⟨by rw [tally_with_has_voted]; exact h7, rfl⟩, rfl⟩

end

/-! ## Examples -/

/-- Whether a call of `who` at `n` milliseconds, with the given deposit and answers, goes through in `demo`. -/
def takes (who : AccountId) (deposit n : Nat) (l : List Reply) (k : Call) : Bool :=
  (exec demoJ demo.st ⟨"me", who, who, deposit, n * MS, l⟩ k).isOk

/-- Calls that are accepted in a reachable state with two proposals and two votes. -/
example : Reach demoJ "me" demo ∧ takes "admin" 0 20 [] (.update_admin_role "bob") = true ∧
    takes "operator" 0 20 [] (.update_quorum_floor 10000) = true ∧ takes "alice" 0 20 [] (.start_voting_period 1) = true ∧
    takes "alice" 0 20 [] (.cancel_proposal 1) = true ∧ takes "carol" 7 20 [] (.create_proposal ⟨"", "", "", "", ""⟩) = true ∧
    takes "carol" 0 20 [] (.vote_proposal 0 .abstain "") = true ∧ takes "bob" 0 20 [] (.remove_vote_proposal 0) = true ∧
    takes "operator" 0 20 [] (.process_voting_status 0) = true ∧
    takes "me" 0 20 [tells 8 0] (.create_proposal_callback ⟨"", "", "", "", ""⟩) = true :=
  ⟨demo_reach, by decide +kernel, by decide +kernel, by decide +kernel, by decide +kernel, by decide +kernel,
    by decide +kernel, by decide +kernel, by decide +kernel, by decide +kernel⟩

/-- Calls that miss one condition each, and are rejected. -/
example : takes "operator" 0 20 [] (.update_admin_role "bob") = false ∧
    takes "operator" 0 20 [] (.update_quorum_floor 10001) = false ∧ takes "bob" 0 20 [] (.start_voting_period 1) = false ∧
    takes "alice" 0 20 [] (.cancel_proposal 0) = false ∧ takes "carol" 6 20 [] (.create_proposal ⟨"", "", "", "", ""⟩) = false ∧
    takes "carol" 0 20 [] (.vote_proposal 1 .abstain "") = false ∧ takes "bob" 0 20 [] (.vote_proposal 0 .for_ "") = false ∧
    takes "carol" 0 20 [] (.remove_vote_proposal 0) = false ∧ takes "alice" 0 20 [] (.process_voting_status 0) = false ∧
    takes "me" 0 20 [tells 1 0] (.create_proposal_callback ⟨"", "", "", "", ""⟩) = false ∧
    takes "bob" 0 20 [tells 8 0] (.create_proposal_callback ⟨"", "", "", "", ""⟩) = false :=
  ⟨by decide +kernel, by decide +kernel, by decide +kernel, by decide +kernel, by decide +kernel,
    by decide +kernel, by decide +kernel, by decide +kernel, by decide +kernel, by decide +kernel, by decide +kernel⟩

end Verif.Mpip
