import Verif.MetaVote.Dist

/-!
# Conservation of mpDAO and stNEAR
-/

namespace Verif.MetaVote

open Verif

/-! ## One account, one call -/

/-- Amount a callback gives back to `id`. -/
def restoredMp (id : String) (c : Ctx) : Call → Nat
  | .after_transfer_mpdao_callback v a => if v = id ∧ c.promise_results.head? = some false then a else 0
  | _ => 0

def restoredSt (id : String) (c : Ctx) : Call → Nat
  | .after_transfer_stnear_callback v a => if v = id ∧ c.promise_results.head? = some false then a else 0
  | _ => 0

theorem plain_zero {k : Call} (h : k.plain = true) (J : Json) (mp : AccountId) (id : String) (c : Ctx) :
    creditOf J mp id c k = 0 ∧ restoredMp id c k = 0 ∧ receivedBy J mp c k = 0 ∧ migratedBy k = 0 ∧
    creditStOf J mp id c k = 0 ∧ restoredSt id c k = 0 ∧ receivedStBy mp c k = 0 := by
  cases k <;> simp [Call.plain] at h <;>
    simp [creditOf, restoredMp, receivedBy, migratedBy, creditStOf, restoredSt, receivedStBy]

theorem VFrame.voterD_ne {id i : String} {s s' : State} (h : VFrame id s s') (hi : i ≠ id) :
    s'.voterD i = s.voterD i := by
  rw [State.voterD, h.others i hi, State.voterD]

theorem VEffect.held_at {id i : String} {s s' : State} {a b : Nat} (h : VEffect id s s' a b) :
    (s'.voterD i).held + (if id = i then b else 0) = (s.voterD i).held + (if id = i then a else 0) := by
  by_cases hi : id = i
  · subst hi; simpa using h.held
  · rw [h.toVFrame.voterD_ne (Ne.symm hi)]; simp [hi]

theorem amounts_nil (f : Transfer → Bool) : amounts f [] = 0 := rfl

theorem amounts_one (f : Transfer → Bool) (t : Transfer) :
    amounts f [t] = if f t then t.amount else 0 := by simp [amounts]

theorem amounts_append (f : Transfer → Bool) (l l' : List Transfer) :
    amounts f (l ++ l') = amounts f l + amounts f l' := by simp [amounts]

theorem amounts_cons (f : Transfer → Bool) (t : Transfer) (l : List Transfer) :
    amounts f (t :: l) = (if f t then t.amount else 0) + amounts f l := by simp [amounts]

theorem mirrored_pseudo (e : String) : mirrored (pseudo_near_address e) := by
  unfold mirrored pseudo_near_address
  rw [String.toList_append]
  exact List.suffix_append _ _

/-- What is in the two claim tables after a distribution. -/
theorem distribute_exact {s s' : State} {c : Ctx} {a : Nat} {l : List (String × Nat)}
    (hx : s.distribute_for_claims c a l = .ok s') :
    (∀ p ∈ l, 0 < p.2) ∧
    ((c.predecessor = s.mpdao_token_contract_address ∧ a = itemsTotal l * E6 ∧
      (∀ id, claimOf s'.claimable_mpdao id = claimOf s.claimable_mpdao id + itemsFor id l * E6) ∧
      s' = { s with
        claimable_mpdao := s'.claimable_mpdao
        total_unclaimed_mpdao := s.total_unclaimed_mpdao + a
        accumulated_mpdao_distributed_for_claims := s.accumulated_mpdao_distributed_for_claims + a }) ∨
    (c.predecessor ≠ s.mpdao_token_contract_address ∧ c.predecessor = s.stnear_token_contract_address ∧
      a = itemsTotal l * E20 ∧
      (∀ id, claimOf s'.claimable_stnear id = claimOf s.claimable_stnear id + itemsFor id l * E20) ∧
      s' = { s with
        claimable_stnear := s'.claimable_stnear
        total_unclaimed_stnear := s.total_unclaimed_stnear + a
        accum_distributed_stnear_for_claims := s.accum_distributed_stnear_for_claims + a })) := by
  simp only [State.distribute_for_claims, bind_ok_iff, require_ok_iff, pure_ok_iff] at hx
  obtain ⟨⟨s1, t1⟩, hr, -, hta, rfl⟩ := hx
  split at hr
  · rename_i hp
    simp only [bind_ok_iff, addU128_ok_iff, pure_ok_iff, Prod.mk.injEq] at hr
    obtain ⟨⟨s2, t2⟩, hf, acc, ⟨-, rfl⟩, rfl, rfl⟩ := hr
    simp only at hta
    subst hta
    obtain ⟨h1, h2, h3, h4, -⟩ := dist_mpdao_ok hf
    simp only [Nat.zero_add] at h2 h3 h4
    rw [← h2] at h3
    refine ⟨h1, .inl ⟨hp, h2, h4, ?_⟩⟩
    rw [h3]
  · rename_i hp
    split at hr
    · rename_i hp2
      simp only [bind_ok_iff, addU128_ok_iff, pure_ok_iff, Prod.mk.injEq] at hr
      obtain ⟨⟨s2, t2⟩, hf, acc, ⟨-, rfl⟩, rfl, rfl⟩ := hr
      simp only at hta
      subst hta
      obtain ⟨h1, h2, h3, h4, -⟩ := dist_stnear_ok hf
      simp only [Nat.zero_add] at h2 h3 h4
      rw [← h2] at h3
      refine ⟨h1, .inr ⟨hp, hp2, h2, h4, ?_⟩⟩
      rw [h3]
    · simp at hr

theorem ft_call_ok {J : Json} {s s' : State} {c : Ctx} {se : String} {a : Nat} {m : List UInt8}
    {out : List Transfer} (hx : exec J s c (.ft_on_transfer se a m) = .ok (s', out)) :
    c.deposit = 0 ∧ a ≤ U128_MAX ∧ out = [] ∧ s.ft_on_transfer J c se a m = .ok s' := by
  obtain ⟨h1, -, h3, hr⟩ := exec_ok.1 hx
  simp only [run, quiet_ok] at hr
  refine ⟨by simpa [Call.payable] using h1, by simpa [Call.in_range] using h3, hr.2, hr.1⟩

theorem take_claimOf (m : UMap String Nat) (id i : String) (n : Nat) :
    claimOf (take m id n) i = if i = id then claimOf m id - n else claimOf m i := take_get m id i n

/-- Per-account ledger of one accepted call, mpDAO. -/
theorem exec_owedMp {J : Json} {s s' : State} {c : Ctx} {k : Call} {out : List Transfer}
    (hx : exec J s c k = .ok (s', out)) (id : String) (hm : ¬ mirrored id) :
    owedMp s' id + amounts (mpOf id) out
      = owedMp s id + creditOf J s.mpdao_token_contract_address id c k + restoredMp id c k := by
  unfold owedMp
  have hx0 := hx
  cases exec_eff hx with
  | voter k s' i h hid hk =>
    obtain ⟨z1, z2, -⟩ := plain_zero hk J s.mpdao_token_contract_address id c
    have h1 := h.held_at (i := id)
    rw [z1, z2, amounts_nil, show s'.claimable_mpdao = s.claimable_mpdao by rw [h.state]]
    simp only [ite_self] at h1; omega
  | claim_and_lock a d s1 s' v v' h1 hv h2 =>
    obtain ⟨z1, z2, -⟩ := plain_zero (k := .claim_and_lock a d) rfl J s.mpdao_token_contract_address id c
    obtain ⟨e1, e2, e3⟩ := remove_claimable_mpdao_ok h1
    have hvs : s1.voterD c.predecessor = v := voterD_of_get (by rw [e3]; exact hv)
    have he := deposit_veffect (o := 0) h2 (by rw [hvs]; rfl) a rfl (Nat.zero_le _)
    have h3 := he.held_at (i := id)
    have h4 : s'.claimable_mpdao = s1.claimable_mpdao := by rw [he.state]
    have h5 : s1.voterD id = s.voterD id := by rw [e3]; rfl
    have h6 : claimOf s1.claimable_mpdao id = if id = c.predecessor then claimOf s.claimable_mpdao c.predecessor - a else claimOf s.claimable_mpdao id := by
      rw [e3]; exact take_claimOf _ _ _ _
    rw [z1, z2, amounts_nil, h4, h6]
    rw [h5] at h3
    by_cases hi : id = c.predecessor
    · subst hi
      simp only [if_pos, Nat.sub_zero] at h3 ⊢
      unfold claimOf
      simp only [if_true] at *
      omega
    · rw [if_neg hi]
      rw [if_neg (Ne.symm hi), if_neg (Ne.symm hi)] at h3
      omega
  | config k s' h hk =>
    obtain ⟨z1, z2, -⟩ := plain_zero hk J s.mpdao_token_contract_address id c
    rw [z1, z2, amounts_nil, h.mpdao, State.voterD, h.voters]; rfl
  | claim_stnear k a i s' h hid hk =>
    obtain ⟨z1, z2, -⟩ := plain_zero hk J s.mpdao_token_contract_address id c
    obtain ⟨e1, e2, e3⟩ := remove_claimable_stnear_ok h
    rw [z1, z2, amounts_one, e3]
    simp [mpOf, Transfer.isMpdao, State.voterD]
  | withdraw k a s' h hpos hfit hk =>
    obtain ⟨z1, z2, -⟩ := plain_zero hk J s.mpdao_token_contract_address id c
    have h1 := h.held_at (i := id)
    rw [z1, z2, amounts_one, show s'.claimable_mpdao = s.claimable_mpdao by rw [h.state]]
    simp only [mpOf, Transfer.isMpdao, Transfer.source, Bool.true_and]
    by_cases hi : c.predecessor = id
    · simp only [hi, decide_true, if_true, ite_self] at h1 ⊢; omega
    · simp only [hi, decide_false, if_false, Bool.false_eq_true] at h1 ⊢; omega
  | restore_mpdao i a s' hp h =>
    have h1 := h.held_at (i := id)
    rw [amounts_nil, show s'.claimable_mpdao = s.claimable_mpdao by rw [h.state]]
    simp only [creditOf, restoredMp, hp, and_true]
    simp only [ite_self] at h1; omega
  | done_mpdao i a hp =>
    simp [creditOf, restoredMp, hp, amounts_nil]
  | restore_stnear i a s' hp h =>
    obtain ⟨e1, e2, e3⟩ := add_claimable_stnear_ok h
    rw [amounts_nil, e3]
    simp [creditOf, restoredMp, State.voterD]
  | done_stnear i a hp => simp [creditOf, restoredMp, amounts_nil]
  | distribute_mpdao se a m s' hm hp h =>
    obtain ⟨-, -, -, hr⟩ := ft_call_ok hx0
    rcases ft_on_transfer_ok hr with ⟨info, -, hi, hd⟩ | ⟨t, v', hm', -⟩
    · obtain ⟨-, ⟨-, ha, hc, hs⟩ | ⟨hne, -⟩⟩ := distribute_exact hd
      · rw [amounts_nil, hc, show s'.voterD id = s.voterD id by rw [hs]; rfl]
        simp only [creditOf, restoredMp, hp, if_true, claimItems, hi, Option.getD_some,
          if_pos (show forClaims m from has_prefix_true hm)]
        omega
      · exact absurd hp hne
    · rw [hm] at hm'; simp at hm'
  | distribute_stnear se a m s' hm hp hp2 h =>
    obtain ⟨-, -, -, hr⟩ := ft_call_ok hx0
    rcases ft_on_transfer_ok hr with ⟨info, -, hi, hd⟩ | ⟨t, v', hm', -⟩
    · obtain ⟨-, ⟨he, -⟩ | ⟨-, -, ha, hc, hs⟩⟩ := distribute_exact hd
      · exact absurd he hp
      · rw [amounts_nil, show s'.voterD id = s.voterD id by rw [hs]; rfl,
          show s'.claimable_mpdao = s.claimable_mpdao by rw [hs]]
        simp [creditOf, restoredMp, hp]
    · rw [hm] at hm'; simp at hm'
  | deposit se a m t s' v' hm hp ht hmin h =>
    have he := deposit_veffect (o := 0) h rfl a rfl (Nat.zero_le _)
    have h1 := he.held_at (i := id)
    rw [amounts_nil, show s'.claimable_mpdao = s.claimable_mpdao by rw [he.state]]
    simp only [creditOf, restoredMp, hp, if_true, if_neg (show ¬ forClaims m from has_prefix_false hm),
      deposit_beneficiary ht, Option.some.injEq]
    simp only [ite_self, Nat.sub_zero] at h1; omega
  | migration i l d s' s1 hp h hs =>
    have h1 := h.held_at (i := id)
    rw [amounts_nil, show s'.claimable_mpdao = s.claimable_mpdao by rw [hs, h.state],
      show s'.voterD id = s1.voterD id by rw [hs]; rfl]
    simp only [creditOf, restoredMp]
    simp only [ite_self] at h1; omega
  | mirror e l s' hop h =>
    have hne : id ≠ pseudo_near_address e := fun he => hm (he ▸ mirrored_pseudo e)
    rw [amounts_nil, h.voterD_ne hne, show s'.claimable_mpdao = s.claimable_mpdao by rw [h.state]]
    simp [creditOf, restoredMp]

/-- Per-account ledger of one accepted call, stNEAR. -/
theorem exec_owedSt {J : Json} {s s' : State} {c : Ctx} {k : Call} {out : List Transfer}
    (hx : exec J s c k = .ok (s', out)) (id : String) :
    owedSt s' id + amounts (stOf id) out
      = owedSt s id + creditStOf J s.mpdao_token_contract_address id c k + restoredSt id c k := by
  unfold owedSt
  have hx0 := hx
  cases exec_eff hx with
  | voter k s' i h hid hk =>
    obtain ⟨-, -, -, -, z1, z2, -⟩ := plain_zero hk J s.mpdao_token_contract_address id c
    rw [z1, z2, amounts_nil, show s'.claimable_stnear = s.claimable_stnear by rw [h.state]]
  | claim_and_lock a d s1 s' v v' h1 hv h2 =>
    obtain ⟨-, -, -, -, z1, z2, -⟩ := plain_zero (k := .claim_and_lock a d) rfl J s.mpdao_token_contract_address id c
    obtain ⟨e1, e2, e3⟩ := remove_claimable_mpdao_ok h1
    obtain ⟨vp, ps, -, -, -, -, -, rfl, hs⟩ := deposit_ok h2
    rw [z1, z2, amounts_nil, hs, e3]
  | config k s' h hk =>
    obtain ⟨-, -, -, -, z1, z2, -⟩ := plain_zero hk J s.mpdao_token_contract_address id c
    rw [z1, z2, amounts_nil, h.stnear]
  | claim_stnear k a i s' h hid hk =>
    obtain ⟨-, -, -, -, z1, z2, -⟩ := plain_zero hk J s.mpdao_token_contract_address id c
    obtain ⟨e1, e2, e3⟩ := remove_claimable_stnear_ok h
    have h6 : claimOf s'.claimable_stnear id = if id = i then claimOf s.claimable_stnear i - a else claimOf s.claimable_stnear id := by
      rw [e3]; exact take_claimOf _ _ _ _
    rw [z1, z2, amounts_one, h6]
    simp only [stOf, Transfer.isMpdao, Transfer.source, Bool.not_false, Bool.true_and]
    by_cases hi : id = i
    · subst hi; simp only [decide_true, if_true]; unfold claimOf; omega
    · have hi' : ¬ i = id := fun h => hi h.symm
      simp only [hi, hi', decide_false, if_false, Bool.false_eq_true]
  | withdraw k a s' h hpos hfit hk =>
    obtain ⟨-, -, -, -, z1, z2, -⟩ := plain_zero hk J s.mpdao_token_contract_address id c
    rw [z1, z2, amounts_one, show s'.claimable_stnear = s.claimable_stnear by rw [h.state]]
    simp [stOf, Transfer.isMpdao]
  | restore_mpdao i a s' hp h =>
    rw [amounts_nil, show s'.claimable_stnear = s.claimable_stnear by rw [h.state]]
    simp [creditStOf, restoredSt]
  | done_mpdao i a hp => simp [creditStOf, restoredSt, amounts_nil]
  | restore_stnear i a s' hp h =>
    obtain ⟨e1, e2, e3⟩ := add_claimable_stnear_ok h
    rw [amounts_nil, show s'.claimable_stnear = s.claimable_stnear.insert i ((s.claimable_stnear.get i).getD 0 + a) by rw [e3],
      claimOf_insert]
    simp only [creditStOf, restoredSt, hp, and_true]
    by_cases hi : i = id
    · subst hi; simp only [if_true]; unfold claimOf; omega
    · simp only [if_neg hi]
  | done_stnear i a hp => simp [creditStOf, restoredSt, amounts_nil, hp]
  | distribute_mpdao se a m s' hm hp h =>
    obtain ⟨-, -, -, hr⟩ := ft_call_ok hx0
    rcases ft_on_transfer_ok hr with ⟨info, -, hi, hd⟩ | ⟨t, v', hm', -⟩
    · obtain ⟨-, ⟨-, ha, hc, hs⟩ | ⟨hne, -⟩⟩ := distribute_exact hd
      · rw [amounts_nil, show s'.claimable_stnear = s.claimable_stnear by rw [hs]]
        simp [creditStOf, restoredSt, hp]
      · exact absurd hp hne
    · rw [hm] at hm'; simp at hm'
  | distribute_stnear se a m s' hm hp hp2 h =>
    obtain ⟨-, -, -, hr⟩ := ft_call_ok hx0
    rcases ft_on_transfer_ok hr with ⟨info, -, hi, hd⟩ | ⟨t, v', hm', -⟩
    · obtain ⟨-, ⟨he, -⟩ | ⟨-, -, ha, hc, hs⟩⟩ := distribute_exact hd
      · exact absurd he hp
      · rw [amounts_nil, hc]
        simp only [creditStOf, restoredSt, claimItems, hi, Option.getD_some,
          if_pos (show c.predecessor ≠ s.mpdao_token_contract_address ∧ forClaims m from
            ⟨hp, has_prefix_true hm⟩)]
    · rw [hm] at hm'; simp at hm'
  | deposit se a m t s' v' hm hp ht hmin h =>
    have he := deposit_veffect (o := 0) h rfl a rfl (Nat.zero_le _)
    rw [amounts_nil, show s'.claimable_stnear = s.claimable_stnear by rw [he.state]]
    simp [creditStOf, restoredSt, hp]
  | migration i l d s' s1 hp h hs =>
    rw [amounts_nil, show s'.claimable_stnear = s.claimable_stnear by rw [hs, h.state]]
    simp [creditStOf, restoredSt]
  | mirror e l s' hop h =>
    rw [amounts_nil, show s'.claimable_stnear = s.claimable_stnear by rw [h.state]]
    simp [creditStOf, restoredSt]

end Verif.MetaVote
