import Verif.Props.MpipReplay
import Verif.Props.Book
import Verif.Spec.Near
import Verif.Mpip.Deposits
import Verif.MetaVote.Deposits

/-!
# C86: the NEAR that calls take, and where it goes
-/

namespace Verif.Mpip

open Verif

variable {J : Json} {s s' : State} {c : Ctx} {k : Call} {out : List Promise} {me : AccountId}

theorem nearTo_pay (x y : AccountId) (n : Nat) : nearTo x [.pay y n] = if y = x then n else 0 := by
  by_cases h : y = x <;> simp [nearTo, Promise.payee, Promise.near, h]

theorem nearTo_ask (x y : AccountId) (q : Query) (k : Call) : nearTo x [.ask y q k] = if y = x then 1 else 0 := by
  by_cases h : y = x <;> simp [nearTo, Promise.payee, Promise.near, h]

/-- C86: mpip takes NEAR with `create_proposal` only, and then at least the price. -/
theorem C86_mpip_taken (h : exec J s c k = .ok (s', out)) :
    c.deposit = 0 ∨ ∃ t, k = .create_proposal t ∧ s.get_mpip_storage_near ≤ c.deposit := by
  obtain ⟨hd, -, -, hr⟩ := exec_ok.1 h
  cases k
  case create_proposal t =>
    right
    simp only [run, sends_ok, State.create_proposal, bind_ok_iff, State.assert_open_for_new_mpips,
      State.assert_proposal_storage_is_covered, require_ok_iff] at hr
    obtain ⟨⟨-, -, -, hd, -⟩, -⟩ := hr
    exact ⟨t, rfl, hd⟩
  all_goals exact .inl (by simpa [Call.payable] using hd)

/-- C86: an accepted call sends NEAR only if it is the order of the admin, and then the amount to the receiver of the
order; or with a question, and then one yocto to the meta-vote contract. -/
theorem C86_mpip_sends (h : exec J s c k = .ok (s', out)) (x : AccountId) :
    nearTo x out = (match k with
      | .pay_to_account n y => if y = x then n else 0
      | _ => if k.asks ∧ s.meta_vote_contract_address = x then 1 else 0) ∧
    (∀ n y, k = .pay_to_account n y → c.signer = s.admin_id) := by
  have ho := (C80_settings h).2.1
  have hv : s.settings.metaVote = s.meta_vote_contract_address := rfl
  constructor
  · subst ho
    cases k <;> simp only [promisesOf, Call.asks, hv, nearTo_pay, nearTo_ask, true_and, Bool.false_eq_true, false_and,
      if_false] <;> rfl
  · rintro n y rfl
    obtain ⟨-, -, -, hr⟩ := exec_ok.1 h
    simp only [run, sends_ok, State.pay_to_account, State.assert_only_admin, bind_ok_iff, require_ok_iff] at hr
    obtain ⟨⟨-, hr, -⟩, -⟩ := hr
    exact hr.symm

/-- C86: the NEAR of mpip.  In every execution: what came in are the deposits of `create_proposal`; what was sent to an
account are the orders of the admin for it and, if it has been the meta-vote contract, at most one yocto for each
question.  Callbacks send nothing. -/
theorem C86_mpip_ledger {w : World} (h : Reach J me w) :
    received w.log = proposalDeposits w.log ∧
    (∀ x, ordered x w.log ≤ sentTo x w.log ∧ sentTo x w.log ≤ ordered x w.log + questions w.log) ∧
    ∀ p ∈ w.pending, ∀ r, exec J w.st c p.callback = .ok r → r.2 = [] := by
  refine ⟨?_, fun x => ?_, ?_⟩
  · induction h with
    | init h => cases h; rfl
    | step _ hs ih =>
      cases hs with
      | call c k s' out _ _ _ _ hx =>
        have hd := C86_mpip_taken hx
        simp only [received]
        cases k <;> simp only [proposalDeposits] <;> simp at hd <;> omega
      | reply => exact ih
      | tick => exact ih
  · induction h with
    | init h => cases h; exact ⟨le_rfl, le_rfl⟩
    | @step w1 w2 _ hs ih =>
      cases hs with
      | call c k s' out _ _ _ _ hx =>
        have hd := (C86_mpip_sends hx x).1
        simp only [sentTo, questions]
        have hq : (if w1.st.meta_vote_contract_address = x then 1 else 0) ≤ 1 := by split <;> omega
        cases k <;> simp only [ordered, Call.asks, true_and, Bool.false_eq_true, false_and, if_false, if_true] at hd ⊢ <;>
          omega
      | reply => exact ih
      | tick => exact ih
  · rintro p hp ⟨s', out⟩ hx
    have ho := (C80_settings hx).2.1
    obtain ⟨w0, c, k, s1, o1, g1, g2, g3, g4, g5, g6⟩ := (pending_origin h p hp).ex
    cases g5 <;> exact ho

/-- C86: an account that has never been the meta-vote contract gets from mpip what the admin orders, and nothing else,
whatever it has deposited. -/
theorem C86_mpip_orders {w0 w : World} {x : AccountId} (hi : Init w0) (hs : Steps J me w0 w)
    (hv0 : w0.st.meta_vote_contract_address ≠ x)
    (hv : ∀ c out, Entry.call c (.update_meta_vote_contract_address x) out ∉ w.log) :
    sentTo x w.log = ordered x w.log := by
  suffices H : sentTo x w.log = ordered x w.log ∧ w.st.meta_vote_contract_address ≠ x from H.1
  induction hs with
  | refl => cases hi; exact ⟨rfl, hv0⟩
  | @step w1 w2 hs0 hs ih =>
    cases hs with
    | call c k s' out _ _ _ _ hx =>
      obtain ⟨ih, ih'⟩ := ih fun c out hm => hv c out (.tail _ hm)
      have hd := (C86_mpip_sends hx x).1
      have hset := congrArg Settings.metaVote (C80_settings hx).1
      have hne : ∀ y, k = .update_meta_vote_contract_address y → y ≠ x := by
        rintro y rfl rfl; exact hv c out (.head _)
      constructor
      · simp only [sentTo]
        cases k <;> simp only [ordered, ih', and_false, if_false] at hd ⊢ <;> omega
      · change s'.settings.metaVote ≠ x
        rw [hset]
        cases k <;> simp only [settingsAfter] <;> first | exact ih' | exact hne _ rfl
    | reply pre post p r ts _ _ _ =>
      obtain ⟨ih, ih'⟩ := ih fun c out hm => hv c out (.tail _ hm)
      refine ⟨ih, ?_⟩
      cases hx : exec J w1.st (replyCtx me p ts r) p.callback with
      | error e => exact ih'
      | ok q =>
        change q.1.settings.metaVote ≠ x
        rw [congrArg Settings.metaVote (C80_settings (s' := q.1) (out := q.2) hx).1]
        obtain ⟨w0, c, k, s1, o1, g1, g2, g3, g4, g5, g6⟩ :=
          (pending_origin ((Reach.init hi).steps hs0) p (by rw [‹w1.pending = _›]; simp)).ex
        cases g5 <;> exact ih'
    | tick => exact ih hv

/-- Mallory pays for two proposals, one of them too much, and has no power. -/
def spamActs : List Action :=
  [.call "mallory" "mallory" 7 (1 * MS) (.create_proposal ⟨"t", "s", "b", "d", "e"⟩),
   .call "mallory" "mallory" 1000 (1 * MS) (.create_proposal ⟨"t", "s", "b", "d", "e"⟩),
   .reply 0 (tells 0 1) (2 * MS), .reply 0 .failed (2 * MS)]

/-- The world after `spamActs`. -/
def spam : World := (runs demoJ "me" demo0 spamActs).get (by decide +kernel)

/-- C86 is false: a creator whose proposal is not created, because their power is too low or because the answer failed,
does not get the deposit back, and neither what exceeds the price.  Only the admin can give it back: in every future in
which mallory does not become the meta-vote contract, mallory is sent exactly what the admin orders. -/
theorem C86_false : Reach demoJ "me" spam ∧ received spam.log = 1007 ∧ spam.pending = [] ∧
    spam.st.get_last_proposal_id = .ok none ∧ sentTo "mallory" spam.log = 0 ∧
    ∀ w', Steps demoJ "me" spam w' →
      (∀ c out, Entry.call c (.update_meta_vote_contract_address "mallory") out ∉ w'.log) →
      sentTo "mallory" w'.log = ordered "mallory" w'.log := by
  have hr : runs demoJ "me" demo0 spamActs = some spam := (Option.some_get _).symm
  refine ⟨reach_of_runs demo0_init hr, by decide +kernel, by decide +kernel, by decide +kernel, by decide +kernel, ?_⟩
  intro w' hs hv
  exact C86_mpip_orders demo0_init ((steps_of_runs hr).trans hs) (by decide) hv

/-- The admin pays, after deposits and questions. -/
def paidOut : World := (runs demoJ "me" demo [.call "admin" "admin" 0 (11 * MS) (.pay_to_account 5 "bob"),
  .call "x" "admin" 0 (11 * MS) (.pay_to_account 6 "bob")]).get (by decide +kernel)

example : Reach demoJ "me" paidOut ∧ received paidOut.log = 16 ∧ ordered "bob" paidOut.log = 11 ∧
    sentTo "bob" paidOut.log = 11 ∧ sentTo "vote" paidOut.log = 5 ∧ questions paidOut.log = 5 :=
  ⟨demo_reach.steps (steps_of_runs (Option.some_get _).symm), by decide +kernel, by decide +kernel, by decide +kernel,
    by decide +kernel, by decide +kernel⟩

example : ∃ s' out, exec demoJ demo0.st ⟨"me", "a", "a", 7, 1, []⟩ (.create_proposal ⟨"t", "s", "b", "d", "e"⟩) = .ok (s', out) ∧
    nearTo "vote" out = 1 := ⟨_, _, rfl, by decide +kernel⟩

end Verif.Mpip

namespace Verif.MetaVote

open Verif

variable {J : Json} {s s' : State} {c : Ctx} {k : Call} {out : List Transfer} {me : AccountId}

theorem internal_withdraw_yocto {id : String} {l : List Nat} {o : Option Nat} {r : State × Transfer}
    (h : s.internal_withdraw c id l o = .ok r) : c.deposit = 1 := by
  simp only [State.internal_withdraw, bind_ok_iff, assert_one_yocto, require_ok_iff] at h
  obtain ⟨-, hd, -⟩ := h
  exact hd

/-- C86: every accepted call of meta-vote carries exactly its price, except `delegated_claim_stnear`. -/
theorem C86_price_partial (h : exec J s c k = .ok (s', out)) (hk : ∀ e a, k ≠ .delegated_claim_stnear e a) :
    c.deposit = k.price s.get_registration_cost := by
  obtain ⟨hd, -, -, hr⟩ := exec_ok.1 h
  cases k
  case delegated_claim_stnear e a => exact absurd rfl (hk e a)
  case withdraw l a =>
    simp only [run, sends_ok, State.withdraw] at hr
    obtain ⟨t, hr, -⟩ := hr
    exact internal_withdraw_yocto hr
  case withdraw_all =>
    simp only [run, sends_ok, State.withdraw_all, bind_ok_iff] at hr
    obtain ⟨t, ⟨v, -, hr⟩, -⟩ := hr
    exact internal_withdraw_yocto hr
  case update_airdrop_user_data d =>
    simp only [run, quiet_ok, State.update_airdrop_user_data, bind_ok_iff, require_ok_iff] at hr
    obtain ⟨⟨-, hd, -⟩, -⟩ := hr
    exact hd
  all_goals first
    | simpa [Call.payable, Call.price] using hd
    | simp only [run, quiet_ok, State.set_stnear_contract, State.set_operator_id, State.set_owner_id,
        State.update_min_unbond_period, State.update_max_unbond_period, State.set_prev_gov_contract,
        State.pre_delegate_evm_address, State.operator_remove_pre_delegate_evm_address,
        State.operator_confirm_delegated_evm_address, State.remove_delegated_evm_address,
        bind_ok_iff, assert_one_yocto, require_ok_iff] at hr
      obtain ⟨⟨-, hd, -⟩, -⟩ := hr
      exact hd

/-- C86: an accepted call of meta-vote sends NEAR only with a payment of tokens, one yocto to the token. -/
theorem C86_sends (h : exec J s c k = .ok (s', out)) :
    (out.map Transfer.near).sum = (if k.pays then 1 else 0) ∧
    ∀ t ∈ out, t.token = (if k.paysStnear then s.stnear_token_contract_address else s.mpdao_token_contract_address) := by
  rw [(C82_call h).2]
  cases k <;> simp [Book.sends, Transfer.near, Call.pays, Call.paysStnear] <;> rfl

/-- C86: the NEAR of meta-vote.  In every execution it has sent one yocto for each payment of tokens, and nothing else;
it has received at least one yocto for each payment of mpDAO, so only payments of stNEAR cost it anything. -/
theorem C86_ledger {w : World} (h : Reach J me w) :
    sent w.log = count Call.pays w.log ∧ sent w.log ≤ received w.log + count Call.paysStnear w.log := by
  induction h with
  | init h => cases h; exact ⟨rfl, le_rfl⟩
  | step _ hs ih =>
    cases hs with
    | call c k s' out _ _ _ _ _ hx =>
      have h1 := (C86_sends hx).1
      have h2 := C86_price_partial hx
      simp only [sent, received, count]
      cases k <;> simp [Call.pays, Call.paysStnear, Call.price] at h1 h2 ⊢ <;> omega
    | resolve => exact ih
    | tick => exact ih

/-- Claims for `0xee` only. -/
def claimJ : Json := ⟨fun _ => some [("0xee.evmp.near", 5)], fun _ => none⟩

/-- Carol, who acts for `0xee`, claims its stNEAR and attaches one NEAR. -/
def claimActs : List Action :=
  [ .call "stnear" 0 5000 (.ft_on_transfer "dist" 500000000000000000000 (FOR_CLAIMS ++ [49])),
    .call "carol" 1 9000 (.pre_delegate_evm_address "0xee" "sig"),
    .call "operator" 1 9500 (.operator_confirm_delegated_evm_address "0xee"),
    .call "carol" (10 ^ 24) 10000 (.delegated_claim_stnear "0xee" 500000000000000000000) ]

/-- The world after `claimActs`. -/
def claimed : World := (runs claimJ "me" demo0 claimActs).get (by decide +kernel)

theorem claimed_reach : Reach claimJ "me" claimed := reach_of_runs demo0_init (Option.some_get _).symm

/-- C86 is false of meta-vote: `delegated_claim_stnear` takes any deposit.  Of the NEAR that carol attaches, one yocto
goes to the token; with the ledger above, carol never gets anything back. -/
theorem C86_price_false : Reach claimJ "me" claimed ∧ received claimed.log = 10 ^ 24 + 2 ∧ sent claimed.log = 1 ∧
    ∀ w', Steps claimJ "me" claimed w' → sent w'.log = count Call.pays w'.log :=
  ⟨claimed_reach, by decide +kernel, by decide +kernel, fun _ h => (C86_ledger (claimed_reach.steps h)).1⟩

example : ∃ s' out, exec demoJ demo.st ⟨"me", "alice", 1, 11 * DAY, []⟩ .withdraw_all = .ok (s', out) ∧
    (out.map Transfer.near).sum = 1 ∧ Call.withdraw_all.price demo.st.get_registration_cost = 1 := by
  obtain ⟨⟨s', out⟩, h⟩ : ∃ r, exec demoJ demo.st ⟨"me", "alice", 1, 11 * DAY, []⟩ .withdraw_all = .ok r :=
    Res.isOk_iff.1 (by decide +kernel)
  exact ⟨s', out, h, (C86_sends h).1, rfl⟩

end Verif.MetaVote
