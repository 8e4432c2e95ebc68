import Verif.MetaVote.Frame

/-!
# Case analysis of an accepted call, and invariants of all reachable worlds
-/

namespace Verif.MetaVote

open Verif

/-- Nothing about voters, votes, claims, limits or the mpDAO token changed. -/
structure SameMoney (s s' : State) : Prop where
  voters : s'.voters = s.voters
  votes : s'.votes = s.votes
  total : s'.total_voting_power = s.total_voting_power
  mpdao : s'.claimable_mpdao = s.claimable_mpdao
  unclaimed : s'.total_unclaimed_mpdao = s.total_unclaimed_mpdao
  stnear : s'.claimable_stnear = s.claimable_stnear
  unclaimed_st : s'.total_unclaimed_stnear = s.total_unclaimed_stnear
  token : s'.mpdao_token_contract_address = s.mpdao_token_contract_address
  maxl : s'.max_locking_positions = s.max_locking_positions
  maxv : s'.max_voting_positions = s.max_voting_positions
  min : s'.min_deposit_amount = s.min_deposit_amount

/-- Calls that are not deposits, distributions, migrations or callbacks. -/
def Call.plain : Call → Bool
  | .ft_on_transfer .. | .migration_create_lps .. | .after_transfer_mpdao_callback ..
  | .after_transfer_stnear_callback .. => false
  | _ => true

/-- What an accepted call did, by kind of effect. -/
inductive Eff (J : Json) (s : State) (c : Ctx) : Call → State → List Transfer → Prop
  /-- a call of a voter on its own record, or of a delegate on a pseudo account -/
  | voter (k : Call) (s' : State) (id : String) (h : VEffect id s s' 0 0)
      (hid : id = c.predecessor ∨ ∃ e, id = pseudo_near_address e ∧
        e ∈ (s.evm_delegates.get c.predecessor).getD []) (hk : k.plain = true) : Eff J s c k s' []
  | claim_and_lock (a d : Nat) (s1 s' : State) (v v' : Voter)
      (h1 : s.remove_claimable_mpdao c.predecessor a = .ok s1)
      (hv : s.voters.get c.predecessor = some v)
      (h2 : s1.deposit_locking_position a d c.predecessor v = .ok (s', v')) :
      Eff J s c (.claim_and_lock a d) s' []
  | config (k : Call) (s' : State) (h : SameMoney s s') (hk : k.plain = true) : Eff J s c k s' []
  | claim_stnear (k : Call) (a : Nat) (id : String) (s' : State)
      (h : s.remove_claimable_stnear id a = .ok s')
      (hid : id = c.predecessor ∨ ∃ e, id = pseudo_near_address e ∧
        e ∈ (s.evm_delegates.get c.predecessor).getD []) (hk : k.plain = true) :
      Eff J s c k s' [⟨s.stnear_token_contract_address, c.predecessor, a, .after_transfer_stnear id a⟩]
  | withdraw (k : Call) (a : Nat) (s' : State) (h : VEffect c.predecessor s s' 0 a) (hpos : 0 < a)
      (hfit : a ≤ (s.voterD c.predecessor).held) (hk : k.plain = true) :
      Eff J s c k s' [⟨s.mpdao_token_contract_address, c.predecessor, a,
        .after_transfer_mpdao c.predecessor a⟩]
  | restore_mpdao (id : String) (a : Nat) (s' : State) (hp : c.promise_results.head? = some false)
      (h : VEffect id s s' a 0) : Eff J s c (.after_transfer_mpdao_callback id a) s' []
  | done_mpdao (id : String) (a : Nat) (hp : c.promise_results.head? = some true) :
      Eff J s c (.after_transfer_mpdao_callback id a) s []
  | restore_stnear (id : String) (a : Nat) (s' : State) (hp : c.promise_results.head? = some false)
      (h : s.add_claimable_stnear id a = .ok s') :
      Eff J s c (.after_transfer_stnear_callback id a) s' []
  | done_stnear (id : String) (a : Nat) (hp : c.promise_results.head? = some true) :
      Eff J s c (.after_transfer_stnear_callback id a) s []
  | distribute_mpdao (se : String) (a : Nat) (m : List UInt8) (s' : State)
      (hm : has_prefix m FOR_CLAIMS = .ok true) (hp : c.predecessor = s.mpdao_token_contract_address)
      (h : Distributed s s' a 0) : Eff J s c (.ft_on_transfer se a m) s' []
  | distribute_stnear (se : String) (a : Nat) (m : List UInt8) (s' : State)
      (hm : has_prefix m FOR_CLAIMS = .ok true) (hp : c.predecessor ≠ s.mpdao_token_contract_address)
      (hp2 : c.predecessor = s.stnear_token_contract_address)
      (h : Distributed s s' 0 a) : Eff J s c (.ft_on_transfer se a m) s' []
  | deposit (se : String) (a : Nat) (m : List UInt8) (t : String × Nat) (s' : State) (v' : Voter)
      (hm : has_prefix m FOR_CLAIMS = .ok false) (hp : c.predecessor = s.mpdao_token_contract_address)
      (ht : s.deposit_target J se m = .ok t) (hmin : s.min_deposit_amount ≤ a)
      (h : s.deposit_locking_position a t.2 t.1 (s.voterD t.1) = .ok (s', v')) :
      Eff J s c (.ft_on_transfer se a m) s' []
  | migration (id : String) (l : List (Nat × Nat)) (d : Option String) (s' s1 : State)
      (hp : c.predecessor = s.prev_governance_contract)
      (h : VEffect id s s1 (migratedAmount l) 0)
      (hs : s' = { s1 with associated_user_data := s'.associated_user_data }) :
      Eff J s c (.migration_create_lps id l d) s' []
  | mirror (e : String) (l : List (Nat × Nat)) (s' : State) (hop : s.operator_id = c.predecessor)
      (h : VFrame (pseudo_near_address e) s s') : Eff J s c (.operator_mirror_lps e l) s' []

theorem exec_eff {J : Json} {s s' : State} {c : Ctx} {k : Call} {out : List Transfer}
    (hx : exec J s c k = .ok (s', out)) : Eff J s c k s' out := by
  obtain ⟨-, -, -, hr⟩ := exec_ok.1 hx
  cases k <;> simp only [run, quiet_ok, sends_ok] at hr
  case new_ => simp [new] at hr
  case migrate => simp [migrate, expect, bind_ok_iff] at hr
  case claim_and_lock =>
    obtain ⟨hr, rfl⟩ := hr
    obtain ⟨-, s1, v, h1, hv, v', h2⟩ := claim_and_lock_ok hr
    exact .claim_and_lock _ _ s1 _ v v' h1 hv h2
  case claim_stnear =>
    obtain ⟨t, ht, rfl⟩ := hr
    obtain ⟨h, rfl⟩ := claim_stnear_ok ht
    exact .claim_stnear _ _ _ _ h (.inl rfl) rfl
  case unlock_position => obtain ⟨hr, rfl⟩ := hr; exact .voter _ _ _ (unlock_position_veffect hr) (.inl rfl) rfl
  case unlock_partial_position =>
    obtain ⟨hr, rfl⟩ := hr; exact .voter _ _ _ (unlock_partial_veffect hr) (.inl rfl) rfl
  case locking_position_extend_days =>
    obtain ⟨hr, rfl⟩ := hr; exact .voter _ _ _ (extend_veffect hr) (.inl rfl) rfl
  case relock_position => obtain ⟨hr, rfl⟩ := hr; exact .voter _ _ _ (relock_position_veffect hr) (.inl rfl) rfl
  case relock_partial_position =>
    obtain ⟨hr, rfl⟩ := hr; exact .voter _ _ _ (relock_partial_veffect hr) (.inl rfl) rfl
  case relock_from_balance =>
    obtain ⟨hr, rfl⟩ := hr; exact .voter _ _ _ (relock_from_balance_veffect hr) (.inl rfl) rfl
  case clear_locking_position => obtain ⟨hr, rfl⟩ := hr; exact .voter _ _ _ (clear_veffect hr) (.inl rfl) rfl
  case vote => obtain ⟨hr, rfl⟩ := hr; exact .voter _ _ _ (internal_vote_veffect hr) (.inl rfl) rfl
  case rebalance => obtain ⟨hr, rfl⟩ := hr; exact .voter _ _ _ (rebalance_veffect hr) (.inl rfl) rfl
  case unvote => obtain ⟨hr, rfl⟩ := hr; exact .voter _ _ _ (internal_unvote_veffect hr) (.inl rfl) rfl
  case migration_create_lps =>
    obtain ⟨hr, rfl⟩ := hr
    obtain ⟨hp, r, hf, hs⟩ := migration_ok hr
    exact .migration _ _ _ _ r.1 hp (migration_fold_veffect hf) (by rw [hs])
  case operator_mirror_lps =>
    obtain ⟨hr, rfl⟩ := hr
    obtain ⟨hp, h⟩ := mirror_vframe hr
    exact .mirror _ _ _ hp h
  case withdraw =>
    obtain ⟨t, ht, rfl⟩ := hr
    have he := internal_withdraw_veffect ht
    obtain ⟨v, v2, hv, rfl, hc, -, -, -, rfl, h1, h2, -⟩ := internal_withdraw_ok ht
    refine .withdraw _ _ _ he h1 ?_ rfl
    have := hc.held; simp only [Voter.held] at *; omega
  case withdraw_all =>
    obtain ⟨t, ht, rfl⟩ := hr
    obtain ⟨v, -, ht⟩ := withdraw_all_ok ht
    have he := internal_withdraw_veffect ht
    obtain ⟨v, v2, hv, rfl, hc, -, -, -, rfl, h1, h2, -⟩ := internal_withdraw_ok ht
    refine .withdraw _ _ _ he h1 ?_ rfl
    have := hc.held; simp only [Voter.held] at *; omega
  case after_transfer_mpdao_callback =>
    obtain ⟨hr, rfl⟩ := hr
    rcases callback_mpdao_ok hr with ⟨hp, rfl⟩ | ⟨hp, hw⟩
    · exact .done_mpdao _ _ hp
    · exact .restore_mpdao _ _ _ hp (restore_veffect hw)
  case after_transfer_stnear_callback =>
    obtain ⟨hr, rfl⟩ := hr
    rcases callback_stnear_ok hr with ⟨hp, rfl⟩ | ⟨hp, hw⟩
    · exact .done_stnear _ _ hp
    · exact .restore_stnear _ _ _ hp hw
  case ft_on_transfer =>
    obtain ⟨hr, rfl⟩ := hr
    rcases ft_on_transfer_ok hr with ⟨info, hm, -, hd⟩ | ⟨t, v', hm, hp, ht, hmin, hd⟩
    · rcases distribute_ok hd with ⟨hp, hd⟩ | ⟨hp, hp2, hd⟩
      · exact .distribute_mpdao _ _ _ _ hm hp hd
      · exact .distribute_stnear _ _ _ _ hm hp hp2 hd
    · exact .deposit _ _ _ t _ v' hm hp ht hmin hd
  case operator_confirm_delegated_evm_address =>
    obtain ⟨hr, rfl⟩ := hr
    have := confirm_ok hr
    refine .config _ _ ?_ rfl
    constructor <;> rw [this]
  case delegated_claim_stnear =>
    obtain ⟨t, ht, rfl⟩ := hr
    obtain ⟨he, h, rfl⟩ := delegated_claim_ok ht
    exact .claim_stnear _ _ _ _ h (.inr ⟨_, rfl, he⟩) rfl
  case vote_delegated =>
    simp only [State.vote_delegated, bind_ok_iff] at hr
    obtain ⟨⟨p, hp, hv⟩, rfl⟩ := hr
    obtain ⟨he, rfl⟩ := verify_delegate_ok hp
    exact .voter _ _ _ (internal_vote_veffect hv) (.inr ⟨_, rfl, he⟩) rfl
  case unvote_delegated =>
    simp only [State.unvote_delegated, bind_ok_iff] at hr
    obtain ⟨⟨p, hp, hv⟩, rfl⟩ := hr
    obtain ⟨he, rfl⟩ := verify_delegate_ok hp
    exact .voter _ _ _ (internal_unvote_veffect hv) (.inr ⟨_, rfl, he⟩) rfl
  all_goals
    simp only [State.set_stnear_contract, State.set_operator_id, State.set_owner_id,
      State.update_registration_cost, State.update_airdrop_user_data,
      State.operator_multi_set_airdrop_data, State.set_lock_in_vote_filters,
      State.update_min_unbond_period, State.update_max_unbond_period, State.set_prev_gov_contract,
      State.pre_delegate_evm_address, State.operator_remove_pre_delegate_evm_address,
      State.remove_delegated_evm_address, bind_ok_iff, pure_ok_iff] at hr
    obtain ⟨hr, rfl⟩ := hr
    repeat (obtain ⟨_, _, hr⟩ := hr)
    exact .config _ _ ⟨rfl, rfl, rfl, rfl, rfl, rfl, rfl, rfl, rfl, rfl, rfl⟩ rfl

/-- Every accepted call preserves the claim invariants. -/
theorem exec_cinv {J : Json} {s s' : State} {c : Ctx} {k : Call} {out : List Transfer} (h : CInv s)
    (hx : exec J s c k = .ok (s', out)) : CInv s' := by
  have framed : ∀ {id : String} {s s' : State}, CInv s → VFrame id s s' → CInv s' := by
    intro id s s' h hf
    exact h.congr (by rw [hf.state]) (by rw [hf.state]) (by rw [hf.state]) (by rw [hf.state])
  cases exec_eff hx with
  | voter k s' id he hid => exact framed h he.toVFrame
  | claim_and_lock a d s1 s' v v' h1 hv h2 =>
    have hc := h.remove_mpdao h1
    obtain ⟨vp, ps, -, -, -, -, -, -, rfl⟩ := deposit_ok h2
    exact hc.congr rfl rfl rfl rfl
  | config k s' hm => exact h.congr hm.mpdao hm.unclaimed hm.stnear hm.unclaimed_st
  | claim_stnear k a id s' hr hid => exact h.remove_stnear hr
  | withdraw k a s' he hpos => exact framed h he.toVFrame
  | restore_mpdao id a s' hp he => exact framed h he.toVFrame
  | done_mpdao => exact h
  | restore_stnear id a s' hp ha => exact h.add_stnear ha
  | done_stnear => exact h
  | distribute_mpdao se a m s' hm hp hd => exact hd.cinv h
  | distribute_stnear se a m s' hm hp hp2 hd => exact hd.cinv h
  | deposit se a m t s' v' hm hp ht hmin hd =>
    obtain ⟨vp, ps, -, -, -, -, -, -, rfl⟩ := deposit_ok hd
    exact h.congr rfl rfl rfl rfl
  | migration id l d s' s1 hp he hs =>
    exact (framed h he.toVFrame).congr (by rw [hs]) (by rw [hs]) (by rw [hs]) (by rw [hs])
  | mirror e l s' hop hf => exact framed h hf

/-! ## Induction over executions -/

theorem new_ok {b : Bool} {o op : AccountId} {a b' d l v : Nat} {m st : AccountId} {r : Nat} {p : String}
    {s : State} (h : new b o op a b' d l v m st r p = .ok s) :
    b = false ∧ a < b' ∧ s = ⟨o, op, UMap.empty, UMap.empty, a, b', d, l, v, m, 0, UMap.empty, 0, 0, st,
      UMap.empty, 0, 0, r, UMap.empty, p, UMap.empty, UMap.empty, UMap.empty, 0, none, 0⟩ := by
  simp only [new, bind_ok_iff, require_ok_iff, pure_ok_iff] at h
  obtain ⟨-, h1, -, h2, rfl⟩ := h
  exact ⟨h1, h2, rfl⟩

/-- A predicate of the contract state that holds after `new` and is preserved by accepted calls holds in
every reachable world. -/
theorem Reach.state_inv {J : Json} {me : AccountId} (P : State → Prop)
    (hinit : ∀ w, Init w → P w.st)
    (hstep : ∀ s c k s' out, P s → exec J s c k = .ok (s', out) → P s')
    {w : World} (h : Reach J me w) : P w.st := by
  induction h with
  | init h => exact hinit _ h
  | step h hs ih =>
    cases hs with
    | call c k s' out hme hres hm hclock hu64 hexec => exact hstep _ _ _ _ _ ih hexec
    | resolve pre post t ok ts hpend hclock hu64 =>
      simp only
      cases hr : exec J _ ⟨me, me, 0, ts, [ok]⟩ t.callbackCall with
      | error e => simpa [Res.getOr] using ih
      | ok r => simpa [Res.getOr] using hstep _ _ _ r.1 r.2 ih hr
    | tick ts hclock hu64 => exact ih

theorem init_vinv {w : World} (h : Init w) : VInv w.st := by
  cases h with
  | mk o op a b d l v m st r p ts s hr hts hn =>
    obtain ⟨-, -, rfl⟩ := new_ok hn
    simp only [Call.in_range, decide_eq_true_eq] at hr
    refine ⟨?_, rfl, ?_, vclean_empty, ?_⟩
    · intro id v hv; simp at hv
    · intro c o; rfl
    · exact hr.2.2.2.1

theorem init_cinv {w : World} (h : Init w) : CInv w.st := by
  cases h with
  | mk o op a b d l v m st r p ts s hr hts hn =>
    obtain ⟨-, -, rfl⟩ := new_ok hn
    exact ⟨rfl, rfl, by intro id n h; simp at h, by intro id n h; simp at h⟩

theorem reach_vinv {J : Json} {me : AccountId} {w : World} (h : Reach J me w) : VInv w.st :=
  h.state_inv VInv (fun _ => init_vinv) (fun _ _ _ _ _ hi hx => exec_vinv hi hx)

theorem reach_cinv {J : Json} {me : AccountId} {w : World} (h : Reach J me w) : CInv w.st :=
  h.state_inv CInv (fun _ => init_cinv) (fun _ _ _ _ _ hi hx => exec_cinv hi hx)

end Verif.MetaVote
