import Verif.MetaVote.Cons

/-!
# Conservation of mpDAO and stNEAR: contract totals, and all executions
-/

namespace Verif.MetaVote

open Verif

/-! ## The whole contract, one call -/

/-- Amount a callback gives back to an account that is not mirrored. -/
def restoredAllMp (c : Ctx) : Call → Nat
  | .after_transfer_mpdao_callback v a =>
    if ¬ mirrored v ∧ c.promise_results.head? = some false then a else 0
  | _ => 0

def restoredAllSt (c : Ctx) : Call → Nat
  | .after_transfer_stnear_callback _ a => if c.promise_results.head? = some false then a else 0
  | _ => 0

theorem plain_zero' {k : Call} (h : k.plain = true) (c : Ctx) :
    restoredAllMp c k = 0 ∧ restoredAllSt c k = 0 := by
  cases k <;> simp [Call.plain] at h <;> simp [restoredAllMp, restoredAllSt]

/-- Held by a voter, 0 if it is mirrored. -/
def heldN (s : State) (id : String) : Nat := if mirrored id then 0 else (s.voterD id).held

theorem heldSum_frame {id : String} {s s' : State} (h : VFrame id s s') :
    heldSum s' + heldN s id = heldSum s + heldN s' id := by
  have e : ∀ s : State, s.voters.at' (fun id v => if mirrored id then 0 else v.held) id = heldN s id := by
    intro s
    unfold heldN State.voterD
    cases hv : s.voters.get id with
    | none => rw [UMap.at_of_none hv]; simp [Voter.held, Voter.inPositions, posSum]
    | some v => rw [UMap.at_of_some hv]; simp
  have h1 := UMap.sum_remove s.voters (fun id v => if mirrored id then 0 else v.held) id
  have h2 := UMap.sum_remove s'.voters (fun id v => if mirrored id then 0 else v.held) id
  have h3 : (s'.voters.remove id).sum (fun id v => if mirrored id then 0 else v.held)
      = (s.voters.remove id).sum (fun id v => if mirrored id then 0 else v.held) := by
    apply UMap.sum_eq_of_get_eq
    intro k
    rw [UMap.get_remove, UMap.get_remove]
    split
    · rfl
    · rename_i hk; exact h.others k (Ne.symm hk)
  rw [e] at h1 h2
  unfold heldSum
  omega

theorem heldSum_effect {id : String} {s s' : State} {a b : Nat} (h : VEffect id s s' a b) :
    heldSum s' + (if mirrored id then 0 else b) = heldSum s + (if mirrored id then 0 else a) := by
  have h1 := heldSum_frame h.toVFrame
  have h2 := h.held
  unfold heldN at h1
  split at h1 <;> simp_all ; omega

theorem exec_heldSum {J : Json} {s s' : State} {c : Ctx} {k : Call} {out : List Transfer}
    (hx : exec J s c k = .ok (s', out)) (hm : k.plain = true → ¬ mirrored c.predecessor) :
    heldSum s' + s'.total_unclaimed_mpdao + amounts (·.isMpdao) out
      = heldSum s + s.total_unclaimed_mpdao + receivedBy J s.mpdao_token_contract_address c k
        + migratedBy k + restoredAllMp c k := by
  have hx0 := hx
  cases exec_eff hx with
  | voter k s' i h hid hk =>
    obtain ⟨-, -, z1, z2, -⟩ := plain_zero hk J s.mpdao_token_contract_address i c
    obtain ⟨z3, -⟩ := plain_zero' hk c
    have h1 := heldSum_effect h
    rw [z1, z2, z3, amounts_nil, show s'.total_unclaimed_mpdao = s.total_unclaimed_mpdao by rw [h.state]]
    simp only [ite_self] at h1; omega
  | claim_and_lock a d s1 s' v v' h1 hv h2 =>
    obtain ⟨-, -, z1, z2, -⟩ := plain_zero (k := .claim_and_lock a d) rfl J s.mpdao_token_contract_address "" c
    obtain ⟨z3, -⟩ := plain_zero' (k := .claim_and_lock a d) rfl c
    obtain ⟨e1, e2, e3⟩ := remove_claimable_mpdao_ok h1
    have hvs : s1.voterD c.predecessor = v := voterD_of_get (by rw [e3]; exact hv)
    have he := deposit_veffect (o := 0) h2 (by rw [hvs]; rfl) a rfl (Nat.zero_le _)
    have h3 := heldSum_effect he
    have h4 : s'.total_unclaimed_mpdao = s1.total_unclaimed_mpdao := by rw [he.state]
    have h5 : heldSum s1 = heldSum s := by rw [e3]; rfl
    have h6 : s1.total_unclaimed_mpdao = s.total_unclaimed_mpdao - a := by rw [e3]
    rw [if_neg (hm rfl), if_neg (hm rfl)] at h3
    rw [z1, z2, z3, amounts_nil, h4, h6]
    omega
  | config k s' h hk =>
    obtain ⟨-, -, z1, z2, -⟩ := plain_zero hk J s.mpdao_token_contract_address "" c
    obtain ⟨z3, -⟩ := plain_zero' hk c
    rw [z1, z2, z3, amounts_nil, h.unclaimed, heldSum, h.voters]; rfl
  | claim_stnear k a i s' h hid hk =>
    obtain ⟨-, -, z1, z2, -⟩ := plain_zero hk J s.mpdao_token_contract_address i c
    obtain ⟨z3, -⟩ := plain_zero' hk c
    obtain ⟨e1, e2, e3⟩ := remove_claimable_stnear_ok h
    rw [z1, z2, z3, amounts_one, e3]
    simp [Transfer.isMpdao, heldSum]
  | withdraw k a s' h hpos hfit hk =>
    obtain ⟨-, -, z1, z2, -⟩ := plain_zero hk J s.mpdao_token_contract_address "" c
    obtain ⟨z3, -⟩ := plain_zero' hk c
    have h1 := heldSum_effect h
    rw [if_neg (hm hk), if_neg (hm hk)] at h1
    rw [z1, z2, z3, amounts_one, show s'.total_unclaimed_mpdao = s.total_unclaimed_mpdao by rw [h.state]]
    simp only [Transfer.isMpdao, if_true]
    omega
  | restore_mpdao i a s' hp h =>
    have h1 := heldSum_effect h
    rw [amounts_nil, show s'.total_unclaimed_mpdao = s.total_unclaimed_mpdao by rw [h.state]]
    simp only [receivedBy, migratedBy, restoredAllMp, hp, and_true]
    by_cases hi : mirrored i
    · simp only [hi, if_true, not_true, if_false] at h1 ⊢; omega
    · simp only [hi, if_false, not_false_eq_true, if_true] at h1 ⊢; omega
  | done_mpdao i a hp => simp [receivedBy, migratedBy, restoredAllMp, hp, amounts_nil]
  | restore_stnear i a s' hp h =>
    obtain ⟨e1, e2, e3⟩ := add_claimable_stnear_ok h
    rw [amounts_nil, e3]
    simp [receivedBy, migratedBy, restoredAllMp, heldSum]
  | done_stnear i a hp => simp [receivedBy, migratedBy, restoredAllMp, amounts_nil]
  | distribute_mpdao se a m s' hpre hp h =>
    obtain ⟨-, -, -, hr⟩ := ft_call_ok hx0
    rcases ft_on_transfer_ok hr with ⟨info, -, hi, hd⟩ | ⟨t, v', hm', -⟩
    · obtain ⟨-, ⟨-, ha, hc, hs⟩ | ⟨hne, -⟩⟩ := distribute_exact hd
      · rw [amounts_nil, show heldSum s' = heldSum s by rw [hs]; rfl,
          show s'.total_unclaimed_mpdao = s.total_unclaimed_mpdao + a by rw [hs]]
        simp only [receivedBy, migratedBy, restoredAllMp, hp, if_true,
          if_pos (show forClaims m from has_prefix_true hpre)]
        omega
      · exact absurd hp hne
    · rw [hpre] at hm'; simp at hm'
  | distribute_stnear se a m s' hpre hp hp2 h =>
    obtain ⟨-, -, -, hr⟩ := ft_call_ok hx0
    rcases ft_on_transfer_ok hr with ⟨info, -, hi, hd⟩ | ⟨t, v', hm', -⟩
    · obtain ⟨-, ⟨he, -⟩ | ⟨-, -, ha, hc, hs⟩⟩ := distribute_exact hd
      · exact absurd he hp
      · rw [amounts_nil, show heldSum s' = heldSum s by rw [hs]; rfl,
          show s'.total_unclaimed_mpdao = s.total_unclaimed_mpdao by rw [hs]]
        simp [receivedBy, migratedBy, restoredAllMp, hp]
    · rw [hpre] at hm'; simp at hm'
  | deposit se a m t s' v' hpre hp ht hmin h =>
    have he := deposit_veffect (o := 0) h rfl a rfl (Nat.zero_le _)
    have h1 := heldSum_effect he
    rw [amounts_nil, show s'.total_unclaimed_mpdao = s.total_unclaimed_mpdao by rw [he.state]]
    simp only [receivedBy, migratedBy, restoredAllMp, hp, if_true,
      if_neg (show ¬ forClaims m from has_prefix_false hpre), deposit_beneficiary ht]
    simp only [ite_self, Nat.sub_zero] at h1; omega
  | migration i l d s' s1 hp h hs =>
    have h1 := heldSum_effect h
    rw [amounts_nil, show s'.total_unclaimed_mpdao = s.total_unclaimed_mpdao by rw [hs, h.state],
      show heldSum s' = heldSum s1 by rw [hs]; rfl]
    simp only [receivedBy, migratedBy, restoredAllMp]
    simp only [ite_self] at h1; omega
  | mirror e l s' hop h =>
    have h1 := heldSum_frame h
    rw [amounts_nil, show s'.total_unclaimed_mpdao = s.total_unclaimed_mpdao by rw [h.state]]
    simp only [heldN, mirrored_pseudo, if_true] at h1
    simp only [receivedBy, migratedBy, restoredAllMp]
    omega

theorem exec_unclaimedSt {J : Json} {s s' : State} {c : Ctx} {k : Call} {out : List Transfer}
    (hx : exec J s c k = .ok (s', out)) :
    s'.total_unclaimed_stnear + amounts (fun t => !t.isMpdao) out
      = s.total_unclaimed_stnear + receivedStBy s.mpdao_token_contract_address c k
        + restoredAllSt c k := by
  have hx0 := hx
  cases exec_eff hx with
  | voter k s' i h hid hk =>
    obtain ⟨-, -, -, -, -, -, z1⟩ := plain_zero hk J s.mpdao_token_contract_address i c
    obtain ⟨-, z3⟩ := plain_zero' hk c
    rw [z1, z3, amounts_nil, show s'.total_unclaimed_stnear = s.total_unclaimed_stnear by rw [h.state]]
  | claim_and_lock a d s1 s' v v' h1 hv h2 =>
    obtain ⟨-, -, -, -, -, -, z1⟩ := plain_zero (k := .claim_and_lock a d) rfl J s.mpdao_token_contract_address "" c
    obtain ⟨-, z3⟩ := plain_zero' (k := .claim_and_lock a d) rfl c
    obtain ⟨e1, e2, e3⟩ := remove_claimable_mpdao_ok h1
    obtain ⟨vp, ps, -, -, -, -, -, rfl, hs⟩ := deposit_ok h2
    rw [z1, z3, amounts_nil, hs, e3]
  | config k s' h hk =>
    obtain ⟨-, -, -, -, -, -, z1⟩ := plain_zero hk J s.mpdao_token_contract_address "" c
    obtain ⟨-, z3⟩ := plain_zero' hk c
    rw [z1, z3, amounts_nil, h.unclaimed_st]
  | claim_stnear k a i s' h hid hk =>
    obtain ⟨-, -, -, -, -, -, z1⟩ := plain_zero hk J s.mpdao_token_contract_address i c
    obtain ⟨-, z3⟩ := plain_zero' hk c
    obtain ⟨e1, e2, e3⟩ := remove_claimable_stnear_ok h
    rw [z1, z3, amounts_one, show s'.total_unclaimed_stnear = s.total_unclaimed_stnear - a by rw [e3]]
    simp only [Transfer.isMpdao, Bool.not_false, if_true]
    omega
  | withdraw k a s' h hpos hfit hk =>
    obtain ⟨-, -, -, -, -, -, z1⟩ := plain_zero hk J s.mpdao_token_contract_address "" c
    obtain ⟨-, z3⟩ := plain_zero' hk c
    rw [z1, z3, amounts_one, show s'.total_unclaimed_stnear = s.total_unclaimed_stnear by rw [h.state]]
    simp [Transfer.isMpdao]
  | restore_mpdao i a s' hp h =>
    rw [amounts_nil, show s'.total_unclaimed_stnear = s.total_unclaimed_stnear by rw [h.state]]
    simp [receivedStBy, restoredAllSt]
  | done_mpdao i a hp => simp [receivedStBy, restoredAllSt, amounts_nil]
  | restore_stnear i a s' hp h =>
    obtain ⟨e1, e2, e3⟩ := add_claimable_stnear_ok h
    rw [amounts_nil, e3]
    simp [receivedStBy, restoredAllSt, hp]
  | done_stnear i a hp => simp [receivedStBy, restoredAllSt, amounts_nil, hp]
  | distribute_mpdao se a m s' hm hp h =>
    rw [amounts_nil, h.stnear]
    simp [receivedStBy, restoredAllSt, hp]
  | distribute_stnear se a m s' hm hp hp2 h =>
    rw [amounts_nil, h.stnear]
    simp only [receivedStBy, restoredAllSt,
          if_pos (show c.predecessor ≠ s.mpdao_token_contract_address ∧ forClaims m from
            ⟨hp, has_prefix_true hm⟩)]
  | deposit se a m t s' v' hm hp ht hmin h =>
    have he := deposit_veffect (o := 0) h rfl a rfl (Nat.zero_le _)
    rw [amounts_nil, show s'.total_unclaimed_stnear = s.total_unclaimed_stnear by rw [he.state]]
    simp [receivedStBy, restoredAllSt, hp]
  | migration i l d s' s1 hp h hs =>
    rw [amounts_nil, show s'.total_unclaimed_stnear = s.total_unclaimed_stnear by rw [hs, h.state]]
    simp [receivedStBy, restoredAllSt]
  | mirror e l s' hop h =>
    rw [amounts_nil, show s'.total_unclaimed_stnear = s.total_unclaimed_stnear by rw [h.state]]
    simp [receivedStBy, restoredAllSt]

/-! ## Executions -/

/-- A transfer started by the contract: mpDAO goes to the account that is debited, with the amount its
callback gives back. -/
structure TransferOK (mp : AccountId) (t : Transfer) : Prop where
  mpdao : t.isMpdao = true → t.token = mp ∧ t.callback = .after_transfer_mpdao t.receiver t.amount ∧
    ¬ mirrored t.receiver
  stnear : t.isMpdao = false → ∃ src, t.callback = .after_transfer_stnear src t.amount

theorem exec_out_ok {J : Json} {s s' : State} {c : Ctx} {k : Call} {out : List Transfer}
    (hx : exec J s c k = .ok (s', out)) (hm : k.plain = true → ¬ mirrored c.predecessor) :
    ∀ t ∈ out, TransferOK s.mpdao_token_contract_address t := by
  intro t ht
  cases exec_eff hx with
  | claim_stnear k a i s' h hid hk =>
    simp only [List.mem_singleton] at ht
    subst ht
    exact ⟨fun h => by simp [Transfer.isMpdao] at h, fun _ => ⟨i, rfl⟩⟩
  | withdraw k a s' h hpos hfit hk =>
    simp only [List.mem_singleton] at ht
    subst ht
    exact ⟨fun _ => ⟨rfl, rfl, hm hk⟩, fun h => by simp [Transfer.isMpdao] at h⟩
  | _ => simp at ht

theorem exec_call_not_callback {J : Json} {s : State} {c : Ctx} {k : Call} {r : State × List Transfer}
    (hx : exec J s c k = .ok r) (hres : c.promise_results = []) (id : String) :
    restoredMp id c k = 0 ∧ restoredSt id c k = 0 ∧ restoredAllMp c k = 0 ∧ restoredAllSt c k = 0 := by
  cases k <;> simp [restoredMp, restoredSt, restoredAllMp, restoredAllSt, hres]

theorem logCalls_call (g : Ctx → Call → Nat) (c : Ctx) (k : Call) (o : List Transfer) (l : List Entry) :
    logCalls g (.call c k o :: l) = g c k + logCalls g l := by simp [logCalls]
theorem logCalls_resolved (g : Ctx → Call → Nat) (t : Transfer) (a b : Bool) (l : List Entry) :
    logCalls g (.resolved t a b :: l) = logCalls g l := by simp [logCalls]
theorem logPaid_call (f : Transfer → Bool) (c : Ctx) (k : Call) (o : List Transfer) (l : List Entry) :
    logPaid f (.call c k o :: l) = logPaid f l := by simp [logPaid]
theorem logPaid_resolved (f : Transfer → Bool) (t : Transfer) (a b : Bool) (l : List Entry) :
    logPaid f (.resolved t a b :: l) = (if a = true ∧ f t = true then t.amount else 0) + logPaid f l := by
  cases a <;> simp [logPaid]
theorem logStranded_call (f : Transfer → Bool) (c : Ctx) (k : Call) (o : List Transfer) (l : List Entry) :
    logStranded f (.call c k o :: l) = logStranded f l := by simp [logStranded]
theorem logStranded_resolved (f : Transfer → Bool) (t : Transfer) (a b : Bool) (l : List Entry) :
    logStranded f (.resolved t a b :: l)
      = (if a = false ∧ b = false ∧ f t = true then t.amount else 0) + logStranded f l := by
  cases a <;> cases b <;> simp [logStranded]

theorem getOr_err {α : Type} {r : Res α} {d : α} (h : r.isOk = false) : r.getOr d = d := by
  cases r <;> simp_all [Res.isOk, Res.getOr]

end Verif.MetaVote
