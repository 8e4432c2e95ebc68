import Verif.MetaVote.Book
import Verif.MetaVote.Config

/-!
# C82: the books after every call and after every history
-/

namespace Verif.MetaVote

open Verif

/-- The books after a call, from the tables and the configuration. -/
theorem book_after {J : Json} {s s' : State} {c : Ctx} {k : Call} {out : List Transfer}
    (hx : exec J s c k = .ok (s', out)) (h : { s'.book with config := s.config } = { s.book.change J c k with config := s.config }) :
    s'.book = s.book.after J c k := by
  have hc : s'.book.config = configAfter s.book.config k := exec_config hx
  have := congrArg (fun b : Book => { b with config := configAfter s.book.config k }) h
  simp only at this
  unfold Book.after
  rw [← this, ← hc]

theorem book_change {J : Json} {s s' : State} {c : Ctx} {k : Call} {out : List Transfer}
    (hx : exec J s c k = .ok (s', out)) :
    { s'.book with config := s.config } = { s.book.change J c k with config := s.config } ∧ out = s.book.sends c k := by
  have key : ∀ {b b' : Book}, b = b' → { b with config := s.config } = { b' with config := s.config } := by
    rintro b b' rfl; rfl
  obtain ⟨-, -, -, hr⟩ := exec_ok.1 hx
  cases k <;> simp only [run, quiet_ok, sends_ok] at hr
  case new_ => simp [new] at hr
  case migrate => simp [migrate, expect, bind_ok_iff] at hr
  case claim_and_lock =>
    obtain ⟨hr, rfl⟩ := hr
    exact ⟨key (book_claim_and_lock hr), rfl⟩
  case claim_stnear =>
    obtain ⟨t, ht, rfl⟩ := hr
    obtain ⟨h, rfl⟩ := claim_stnear_ok ht
    exact ⟨key (book_claim h), rfl⟩
  case delegated_claim_stnear =>
    obtain ⟨t, ht, rfl⟩ := hr
    obtain ⟨he, h, rfl⟩ := delegated_claim_ok ht
    exact ⟨key (book_claim h), rfl⟩
  case unlock_position =>
    obtain ⟨hr, rfl⟩ := hr
    obtain ⟨p, hp, e⟩ := book_unlock hr
    refine ⟨key ?_, rfl⟩
    simp only [Book.change, hp, e]
  case unlock_partial_position =>
    obtain ⟨hr, rfl⟩ := hr
    obtain ⟨p, hp, e⟩ := book_unlock_partial hr
    refine ⟨key ?_, rfl⟩
    simp only [Book.change, hp, e]
  case locking_position_extend_days =>
    obtain ⟨hr, rfl⟩ := hr
    obtain ⟨p, hp, e⟩ := book_extend hr
    refine ⟨key ?_, rfl⟩
    simp only [Book.change, hp, e]
  case relock_position =>
    obtain ⟨hr, rfl⟩ := hr
    obtain ⟨p, hp, e⟩ := book_relock hr
    refine ⟨key ?_, rfl⟩
    simp only [Book.change, hp, e]
  case relock_partial_position =>
    obtain ⟨hr, rfl⟩ := hr
    obtain ⟨p, hp, e⟩ := book_relock_partial hr
    refine ⟨key ?_, rfl⟩
    simp only [Book.change, hp, e]
  case relock_from_balance => exact ⟨key (book_relock_balance hr.1), hr.2⟩
  case clear_locking_position =>
    obtain ⟨hr, rfl⟩ := hr
    simp only [State.clear_locking_position, bind_ok_iff, require_ok_iff, pure_ok_iff] at hr
    obtain ⟨-, -, v, hv, v', h, rfl⟩ := hr
    obtain ⟨-, rfl⟩ := get_voter_ok hv
    refine ⟨key ?_, rfl⟩
    rw [clear_book h]
    exact book_put s _ _
  case vote => exact ⟨key (book_vote hr.1), hr.2⟩
  case unvote => exact ⟨key (book_unvote hr.1), hr.2⟩
  case rebalance => exact ⟨key (book_rebalance hr.1), hr.2⟩
  case vote_delegated =>
    simp only [State.vote_delegated, bind_ok_iff] at hr
    obtain ⟨⟨p, hp, hv⟩, rfl⟩ := hr
    obtain ⟨-, rfl⟩ := verify_delegate_ok hp
    exact ⟨key (book_vote hv), rfl⟩
  case unvote_delegated =>
    simp only [State.unvote_delegated, bind_ok_iff] at hr
    obtain ⟨⟨p, hp, hv⟩, rfl⟩ := hr
    obtain ⟨-, rfl⟩ := verify_delegate_ok hp
    exact ⟨key (book_unvote hv), rfl⟩
  case migration_create_lps => exact ⟨key (book_migration hr.1), hr.2⟩
  case operator_mirror_lps => exact ⟨key (book_mirror hr.1), hr.2⟩
  case withdraw =>
    obtain ⟨t, ht, rfl⟩ := hr
    obtain ⟨h1, rfl⟩ := book_withdraw ht
    exact ⟨key h1, rfl⟩
  case withdraw_all =>
    obtain ⟨t, ht, rfl⟩ := hr
    obtain ⟨h1, rfl⟩ := book_withdraw_all ht
    exact ⟨key h1, rfl⟩
  case after_transfer_mpdao_callback =>
    obtain ⟨hr, rfl⟩ := hr
    refine ⟨key ?_, rfl⟩
    simp only [Book.change]
    rcases callback_mpdao_ok hr with ⟨hp, rfl⟩ | ⟨hp, hw⟩
    · rw [if_neg (by rw [hp]; decide)]
    · rw [if_pos hp]; exact book_restore_mpdao hw
  case after_transfer_stnear_callback =>
    obtain ⟨hr, rfl⟩ := hr
    refine ⟨key ?_, rfl⟩
    simp only [Book.change]
    rcases callback_stnear_ok hr with ⟨hp, rfl⟩ | ⟨hp, hw⟩
    · rw [if_neg (by rw [hp]; decide)]
    · rw [if_pos hp]; exact book_restore_stnear hw
  case ft_on_transfer => exact ⟨key (book_receive hr.1), hr.2⟩
  case operator_confirm_delegated_evm_address => exact ⟨key (book_confirm hr.1), hr.2⟩
  case remove_delegated_evm_address => exact ⟨key (book_remove_delegate hr.1), hr.2⟩
  all_goals
    simp only [State.set_stnear_contract, State.set_operator_id, State.set_owner_id,
      State.update_registration_cost, State.update_airdrop_user_data,
      State.operator_multi_set_airdrop_data, State.set_lock_in_vote_filters,
      State.update_min_unbond_period, State.update_max_unbond_period, State.set_prev_gov_contract,
      State.pre_delegate_evm_address, State.operator_remove_pre_delegate_evm_address, bind_ok_iff, pure_ok_iff] at hr
    obtain ⟨hr, rfl⟩ := hr
    repeat (obtain ⟨_, _, hr⟩ := hr)
    refine ⟨?_, rfl⟩
    first
      | rfl
      | exact Book.ext rfl rfl rfl rfl rfl rfl rfl rfl rfl rfl (get_insert_upd _ _ _) rfl rfl rfl rfl rfl
      | exact Book.ext rfl rfl rfl rfl rfl rfl rfl rfl rfl rfl (book_data_fold _ _) rfl rfl rfl rfl rfl
      | exact Book.ext rfl rfl rfl rfl rfl rfl rfl rfl rfl rfl rfl (get_insert_upd _ _ _) rfl rfl rfl rfl
      | exact Book.ext rfl rfl rfl rfl rfl rfl rfl rfl rfl rfl rfl (get_remove_upd _ _) rfl rfl rfl rfl

/-- **C82**: what an accepted call does, to every table, and the transfers it starts. -/
theorem C82_call {J : Json} {s s' : State} {c : Ctx} {k : Call} {out : List Transfer}
    (hx : exec J s c k = .ok (s', out)) : s'.book = s.book.after J c k ∧ out = s.book.sends c k := by
  obtain ⟨h1, h2⟩ := book_change hx
  exact ⟨book_after hx h1, h2⟩

/-- Alice withdraws her matured mpDAO in the demo world after ten more days. -/
example : ∃ s' out, exec demoJ demo.st ⟨"me", "alice", 1, 11 * DAY, []⟩ .withdraw_all = .ok (s', out) ∧
    (s'.book.acct "alice").locking_positions.length = 1 ∧ out.length = 1 ∧
    (demo.st.book.acct "alice").locking_positions.length = 2 := by
  obtain ⟨⟨s', out⟩, h⟩ : ∃ r, exec demoJ demo.st ⟨"me", "alice", 1, 11 * DAY, []⟩ .withdraw_all = .ok r := by
    cases hx : exec demoJ demo.st ⟨"me", "alice", 1, 11 * DAY, []⟩ .withdraw_all with
    | ok r => exact ⟨r, rfl⟩
    | error p =>
      have : Res.isOk (exec demoJ demo.st ⟨"me", "alice", 1, 11 * DAY, []⟩ .withdraw_all) = true := by decide +kernel
      rw [hx] at this
      cases this
  refine ⟨s', out, h, ?_, ?_, by decide +kernel⟩
  · rw [(C82_call h).1]; decide +kernel
  · rw [(C82_call h).2]; decide +kernel

theorem init_book {w : World} (h : Init w) : w.st.book = Book.fresh w.st.config ∧ w.log = [] := by
  cases h with
  | mk o op a b d l v m st r p ts s hr hts h =>
    simp only [new, bind_ok_iff, require_ok_iff, pure_ok_iff] at h
    obtain ⟨-, -, -, -, rfl⟩ := h
    exact ⟨rfl, rfl⟩

theorem after_callback_true (J : Json) (b : Book) (me : AccountId) (ts : Nat) (t : Transfer) :
    b.after J ⟨me, me, 0, ts, [true]⟩ t.callbackCall = b := by
  unfold Transfer.callbackCall
  cases t.callback <;> rfl

theorem after_callback_false (J : Json) (b : Book) (me : AccountId) (ts : Nat) (t : Transfer) :
    b.after J ⟨me, me, 0, ts, [false]⟩ t.callbackCall = match t.callback with
      | .after_transfer_mpdao id a => b.put id { b.acct id with balance := (b.acct id).balance + a }
      | .after_transfer_stnear id a => { b with
          stnear := upd b.stnear id (b.stnear id + a), stnearOwed := b.stnearOwed + a } := by
  unfold Transfer.callbackCall
  cases t.callback <;> rfl

/-- **C82**: every table is what replaying the accepted calls and the resolved transfers on the books of a fresh
contract gives. -/
theorem C82_history {J : Json} {me : AccountId} {w : World} (h : Reach J me w) :
    ∃ w0, Init w0 ∧ w.st.book = Book.replay J (Book.fresh w0.st.config) w.log := by
  induction h with
  | init h => exact ⟨_, h, by rw [(init_book h).2, (init_book h).1]; rfl⟩
  | step _ hs ih =>
    obtain ⟨w0, h0, ih⟩ := ih
    refine ⟨w0, h0, ?_⟩
    cases hs with
    | call c k s' out hme hres hm hclock hu64 hexec =>
      simp only [Book.replay]
      rw [← ih]
      exact (C82_call hexec).1
    | tick ts hclock hu64 => exact ih
    | resolve pre post t ok ts hpend hclock hu64 =>
      simp only [Book.replay]
      rw [← ih]
      cases hx : exec J _ ⟨me, me, 0, ts, [ok]⟩ t.callbackCall with
      | error p => simp [Res.isOk, Res.getOr]
      | ok r =>
        obtain ⟨s', out⟩ := r
        simp only [Res.isOk, Res.getOr, and_true]
        rw [(C82_call hx).1]
        cases ok with
        | true => rw [after_callback_true, if_neg (by decide)]
        | false => rw [after_callback_false, if_pos rfl]; cases t.callback <;> rfl

/-- A history of thirteen calls. -/
example : demo.log.length = 13 ∧ (Book.replay demoJ (Book.fresh demo0.st.config) demo.log).power =
    demo.st.get_total_voting_power ∧ 0 < demo.st.get_total_voting_power := by decide +kernel

/-- **C82**: the views that do not list accounts, apps or objects depend on the books only. -/
theorem C82_views {s s' : State} (h : s.book = s'.book) :
    s.get_contract_info = s'.get_contract_info ∧ s.get_total_voting_power = s'.get_total_voting_power ∧
    (∀ now id, s.get_voter_info now id = s'.get_voter_info now id) ∧
    (∀ now id, s.get_balance now id = s'.get_balance now id) ∧
    (∀ id, s.get_locked_balance id = s'.get_locked_balance id) ∧
    (∀ now id, s.get_unlocking_balance now id = s'.get_unlocking_balance now id) ∧
    (∀ id, s.get_available_voting_power id = s'.get_available_voting_power id) ∧
    (∀ id, s.get_used_voting_power id = s'.get_used_voting_power id) ∧
    (∀ now id, s.get_all_locking_positions now id = s'.get_all_locking_positions now id) ∧
    (∀ now i id, s.get_locking_position now i id = s'.get_locking_position now i id) ∧
    (∀ id, s.get_votes_by_voter id = s'.get_votes_by_voter id) ∧
    (∀ id a o, s.get_votes_for_object id a o = s'.get_votes_for_object id a o) ∧
    (∀ a o, s.get_total_votes a o = s'.get_total_votes a o) ∧
    (∀ id, s.get_claimable_mpdao id = s'.get_claimable_mpdao id) ∧
    (∀ id, s.get_claimable_stnear id = s'.get_claimable_stnear id) ∧
    (∀ id, s.check_if_registered_for_airdrops id = s'.check_if_registered_for_airdrops id) ∧
    (∀ id, s.get_airdrop_account id = s'.get_airdrop_account id) ∧
    s.get_lock_in_vote_filters = s'.get_lock_in_vote_filters ∧
    (∀ e, s.get_pre_delegate_evm_address e = s'.get_pre_delegate_evm_address e) ∧
    (∀ id, s.get_delegating_evm_addresses id = s'.get_delegating_evm_addresses id) ∧
    (∀ e, s.get_delegate e = s'.get_delegate e) ∧
    (∀ e, s.get_delegation_signature e = s'.get_delegation_signature e) := by
  have hv : s.voters.get = s'.voters.get := congrArg Book.voter h
  have hn : s.voters.len = s'.voters.len := congrArg Book.voters h
  have hp : s.total_voting_power = s'.total_voting_power := congrArg Book.power h
  have hm : s.get_claimable_mpdao = s'.get_claimable_mpdao := congrArg Book.mpdao h
  have hs : s.get_claimable_stnear = s'.get_claimable_stnear := congrArg Book.stnear h
  have hd : s.associated_user_data.get = s'.associated_user_data.get := congrArg Book.data h
  have ha : s.evm_pre_delegation.get = s'.evm_pre_delegation.get := congrArg Book.asked h
  have hg : s.evm_delegation_signatures.get = s'.evm_delegation_signatures.get := congrArg Book.granted h
  have hl : s.evm_delegates.get = s'.evm_delegates.get := congrArg Book.delegated h
  have hc : s.config = s'.config := congrArg Book.config h
  have hvote : ∀ a o, s.get_total_votes a o = s'.get_total_votes a o := by
    have e : ∀ (x : State) a o, x.get_total_votes a o = (x.book.votes a o).getD 0 := by
      intro x a o
      show _ = ((x.votes.get a).bind (·.get o)).getD 0
      unfold State.get_total_votes
      cases x.votes.get a <;> rfl
    intro a o
    rw [e, e, h]
  have hw : ∀ id, s.internal_get_voter id = s'.internal_get_voter id := by
    intro id; unfold State.internal_get_voter; rw [hv]
  refine ⟨?_, hp, ?_, ?_, ?_, ?_, ?_, ?_, ?_, ?_, ?_, ?_, hvote, fun id => congrFun hm id, fun id => congrFun hs id,
    ?_, ?_, ?_, ?_, ?_, ?_, ?_⟩
  · have h1 : s.total_unclaimed_mpdao = s'.total_unclaimed_mpdao := congrArg Book.mpdaoOwed h
    have h2 : s.accumulated_mpdao_distributed_for_claims = s'.accumulated_mpdao_distributed_for_claims :=
      congrArg Book.mpdaoGiven h
    have h3 : s.total_unclaimed_stnear = s'.total_unclaimed_stnear := congrArg Book.stnearOwed h
    have h4 : s.accum_distributed_stnear_for_claims = s'.accum_distributed_stnear_for_claims :=
      congrArg Book.stnearGiven h
    have h5 : s.evm_delegates.len = s'.evm_delegates.len := congrArg Book.delegates h
    unfold State.config at hc
    simp only [Config.mk.injEq] at hc
    obtain ⟨c1, c2, c3, c4, c5, c6, c7, c8, c9, c10, c11, -⟩ := hc
    unfold State.get_contract_info
    rw [c1, c2, c3, c4, c5, c6, c7, c8, c9, c10, c11, hn, h1, h2, h3, h4, h5]
  · intro now id; unfold State.get_voter_info; rw [hv]
  · intro now id; unfold State.get_balance; rw [hw]
  · intro id; unfold State.get_locked_balance; rw [hw]
  · intro now id; unfold State.get_unlocking_balance; rw [hw]
  · intro id; unfold State.get_available_voting_power; rw [hw]
  · intro id; unfold State.get_used_voting_power; rw [hw]
  · intro now id; unfold State.get_all_locking_positions; rw [hw]
  · intro now i id; unfold State.get_locking_position; rw [hw]
  · intro id; unfold State.get_votes_by_voter; rw [hw]
  · intro id a o; unfold State.get_votes_for_object; rw [hw]
  · intro id; unfold State.check_if_registered_for_airdrops; rw [hd]
  · intro id; unfold State.get_airdrop_account; rw [hd]
  · unfold State.config at hc
    simp only [Config.mk.injEq] at hc
    obtain ⟨-, -, -, -, -, -, -, -, -, -, -, c1, c2, c3⟩ := hc
    unfold State.get_lock_in_vote_filters
    rw [c1, c2, c3]
  · intro e; unfold State.get_pre_delegate_evm_address; rw [ha]
  · intro id; unfold State.get_delegating_evm_addresses; rw [hl]
  · intro e; unfold State.get_delegate; rw [hg]
  · intro e; unfold State.get_delegation_signature; rw [hg]

/-- Two states with the same books that list their voters in different orders. -/
example : ∃ s s' : State, s.book = s'.book ∧ s.get_voters 0 0 9 ≠ s'.get_voters 0 0 9 := by
  refine ⟨{ demo0.st with voters := (UMap.empty.insert "a" ⟨1, [], 0, UMap.empty⟩).insert "b" ⟨2, [], 0, UMap.empty⟩ },
    { demo0.st with voters := (UMap.empty.insert "b" ⟨2, [], 0, UMap.empty⟩).insert "a" ⟨1, [], 0, UMap.empty⟩ },
    Book.ext ?_ rfl rfl rfl rfl rfl rfl rfl rfl rfl rfl rfl rfl rfl rfl rfl, by decide +kernel⟩
  funext i
  simp only [State.book, get_insert_upd, upd]
  by_cases ha : i = "a"
  · subst ha; rfl
  · by_cases hb : i = "b"
    · subst hb; rfl
    · simp only [ha, hb, if_false]

end Verif.MetaVote
