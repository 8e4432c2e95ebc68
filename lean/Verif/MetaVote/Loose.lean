import Verif.MetaVote.Cons2
import Verif.MetaVote.Config
import Verif.MetaVote.Edit
import Verif.MetaVote.Trace

/-!
# Executions in which the votes may do anything

Funds, positions, claims, delegations and configuration do not depend on the vote maps.  `Ran` describes an accepted call in
which the voting calls may leave any votes and any voting power behind; what is proved for executions of such calls holds for
the model in which the vote maps are plain maps (`Reach`) and for the contract over storage (`Verif/Storage`), where they
may be stale or shared.
-/

namespace Verif.MetaVote

open Verif

/-- The calls that use the vote maps. -/
def Call.votes : Call → Bool
  | .vote .. | .rebalance .. | .unvote .. | .operator_mirror_lps .. | .vote_delegated .. | .unvote_delegated .. => true
  | _ => false

/-- Call `k` was accepted in `s`, leaving `s'` and starting the transfers; a voting call may do anything to the votes and to
the voting power of the voter it acts on. -/
inductive Ran (J : Json) (s : State) (c : Ctx) : Call → State → List Transfer → Prop
  | exact {k : Call} {s' : State} {out : List Transfer} (h : exec J s c k = .ok (s', out)) : Ran J s c k s' out
  | vote {k : Call} {s' : State} (id : String) (hk : k.votes = true) (hm : k.isMirror = false) (hf : VFrame id s s')
      (hb : (s'.voterD id).balance = (s.voterD id).balance)
      (hl : (s'.voterD id).locking_positions = (s.voterD id).locking_positions)
      (hid : id = c.predecessor ∨ ∃ e, id = pseudo_near_address e ∧ e ∈ (s.evm_delegates.get c.predecessor).getD []) :
      Ran J s c k s' []
  | mirror {e : String} {l : List (Nat × Nat)} {s' : State} (hop : s.operator_id = c.predecessor)
      (hf : VFrame (pseudo_near_address e) s s')
      (hb : (s'.voterD (pseudo_near_address e)).balance = (s.voterD (pseudo_near_address e)).balance)
      (hl : Mirrored (s'.voterD (pseudo_near_address e)).locking_positions)
      (hn : s.max_locking_positions ≤ U8_MAX →
        (s'.voterD (pseudo_near_address e)).locking_positions.length ≤ s.max_locking_positions) :
      Ran J s c (.operator_mirror_lps e l) s' []

section
variable {J : Json} {s s' : State} {c : Ctx} {k : Call} {out : List Transfer}

theorem Call.votes_plain (h : k.votes = true) : k.plain = true := by
  cases k <;> simp [Call.votes] at h <;> rfl

/-- What an accepted call did to the funds. -/
theorem Ran.eff (h : Ran J s c k s' out) : Eff J s c k s' out := by
  cases h with
  | exact h => exact exec_eff h
  | vote id hk hm hf hb hl hid =>
    refine .voter _ _ id ⟨hf, ?_⟩ hid (Call.votes_plain hk)
    simp [Voter.held, Voter.inPositions, hb, hl]
  | mirror hop hf hb hl hn => exact .mirror _ _ _ hop hf

/-- Calls that do not vote do what the model says. -/
theorem Ran.exec (h : Ran J s c k s' out) (hk : k.votes = false) : MetaVote.exec J s c k = .ok (s', out) := by
  cases h with
  | exact h => exact h
  | vote id hk' => rw [hk'] at hk; simp at hk
  | mirror => simp [Call.votes] at hk

theorem Ran.frame (h : Ran J s c k s' out) (hk : k.votes = true) : ∃ id, VFrame id s s' := by
  cases h with
  | exact h =>
    cases exec_eff h with
    | voter k s' i h' hid hk => exact ⟨i, h'.toVFrame⟩
    | mirror e l s' hop h' => exact ⟨_, h'⟩
    | config k s' hm hk' =>
      obtain ⟨-, -, -, hr⟩ := exec_ok.1 h
      cases k <;> simp only [Call.votes, Bool.false_eq_true] at hk <;>
        simp only [run, quiet_ok, State.vote_delegated, State.unvote_delegated, bind_ok_iff] at hr
      case vote => exact ⟨_, (internal_vote_veffect hr.1).toVFrame⟩
      case rebalance => exact ⟨_, (rebalance_veffect hr.1).toVFrame⟩
      case unvote => exact ⟨_, (internal_unvote_veffect hr.1).toVFrame⟩
      case operator_mirror_lps => exact ⟨_, (mirror_vframe hr.1).2⟩
      case vote_delegated => obtain ⟨⟨p, -, hr⟩, -⟩ := hr; exact ⟨_, (internal_vote_veffect hr).toVFrame⟩
      case unvote_delegated => obtain ⟨⟨p, -, hr⟩, -⟩ := hr; exact ⟨_, (internal_unvote_veffect hr).toVFrame⟩
    | withdraw k a s' h' hpos hfit hk' =>
      exact ⟨_, h'.toVFrame⟩
    | claim_stnear k a id s' h' hid hk' =>
      obtain ⟨-, -, -, hr⟩ := exec_ok.1 h
      cases k <;> simp only [Call.votes, Bool.false_eq_true] at hk <;> simp [run, quiet_ok] at hr
    | _ => simp [Call.votes] at hk
  | vote id hk hm hf hb hl hid => exact ⟨id, hf⟩
  | mirror hop hf hb hl hn => exact ⟨_, hf⟩

theorem Ran.max (h : Ran J s c k s' out) : s'.max_voting_positions = s.max_voting_positions ∧
      s'.max_locking_positions = s.max_locking_positions ∧ s'.min_deposit_amount = s.min_deposit_amount ∧
      s'.mpdao_token_contract_address = s.mpdao_token_contract_address := by
  cases h with
  | exact h => exact exec_max h
  | vote id hk hm hf => rw [hf.state]; exact ⟨rfl, rfl, rfl, rfl⟩
  | mirror hop hf => rw [hf.state]; exact ⟨rfl, rfl, rfl, rfl⟩

theorem Ran.config (h : Ran J s c k s' out) : s'.config = configAfter s.config k := by
  cases h with
  | exact h => exact exec_config h
  | vote id hk hm hf =>
    rw [hf.config]
    cases k <;> simp only [Call.votes, Bool.false_eq_true] at hk <;> rfl
  | mirror hop hf => rw [hf.config]; rfl

/-- Every accepted call is a sequence of elementary changes of the balance and positions of each account. -/
theorem Ran.edits (h : Ran J s c k s' out) (id : String) :
    EditsAt s s' c k id (amounts (mpOf id) out) (restoredMp id c k) := by
  cases h with
  | exact h => exact exec_edits h id
  | vote i hk hm hf hb hl hid =>
    rw [(plain_zero (Call.votes_plain hk) J "" id c).2.1]
    have := edits_at (c := c) (k := k) (i := id) hf.others (votes_edit hb hl)
    simpa [amounts_nil] using this
  | @mirror e l s' hop hf hb hl hn =>
    have he : EditsAt s s' c (.operator_mirror_lps e l) (pseudo_near_address e) 0 0 := by
      unfold EditsAt
      rw [hb]
      exact (Edit.mirror rfl (mirrored_pseudo e) hl.ok hl.nodup hn).one
    have := edits_at (i := id) hf.others he
    simpa [amounts_nil, restoredMp] using this

theorem Ran.cinv (h : Ran J s c k s' out) (hi : CInv s) : CInv s' := by
  cases hk : k.votes with
  | false => exact exec_cinv hi (h.exec hk)
  | true =>
    obtain ⟨id, hf⟩ := h.frame hk
    exact hi.congr (by rw [hf.state]) (by rw [hf.state]) (by rw [hf.state]) (by rw [hf.state])

theorem Ran.owedMp (h : Ran J s c k s' out) (id : String) (hm : ¬ mirrored id) :
    owedMp s' id + amounts (mpOf id) out
      = MetaVote.owedMp s id + creditOf J s.mpdao_token_contract_address id c k + restoredMp id c k := by
  cases h with
  | exact h => exact exec_owedMp h id hm
  | vote i hk hm' hf hb hl hid =>
    obtain ⟨z1, z2, -⟩ := plain_zero (Call.votes_plain hk) J s.mpdao_token_contract_address id c
    have h1 : (s'.voterD id).held = (s.voterD id).held := by
      by_cases e : id = i
      · subst e; simp [Voter.held, Voter.inPositions, hb, hl]
      · rw [hf.voterD_ne e]
    unfold MetaVote.owedMp
    rw [z1, z2, amounts_nil, h1, show s'.claimable_mpdao = s.claimable_mpdao by rw [hf.state]]
  | @mirror e l s' hop hf hb hl hn =>
    have hne : id ≠ pseudo_near_address e := fun he => hm (he ▸ mirrored_pseudo e)
    unfold MetaVote.owedMp
    rw [amounts_nil, hf.voterD_ne hne, show s'.claimable_mpdao = s.claimable_mpdao by rw [hf.state]]
    simp [creditOf, restoredMp]

theorem Ran.owedSt (h : Ran J s c k s' out) (id : String) :
    owedSt s' id + amounts (stOf id) out
      = MetaVote.owedSt s id + creditStOf J s.mpdao_token_contract_address id c k + restoredSt id c k := by
  cases h with
  | exact h => exact exec_owedSt h id
  | vote i hk hm' hf hb hl hid =>
    obtain ⟨-, -, -, -, z1, z2, -⟩ := plain_zero (Call.votes_plain hk) J s.mpdao_token_contract_address id c
    unfold MetaVote.owedSt
    rw [z1, z2, amounts_nil, show s'.claimable_stnear = s.claimable_stnear by rw [hf.state]]
  | @mirror e l s' hop hf hb hl hn =>
    unfold MetaVote.owedSt
    rw [amounts_nil, show s'.claimable_stnear = s.claimable_stnear by rw [hf.state]]
    simp [creditStOf, restoredSt]

theorem Ran.heldSum (h : Ran J s c k s' out) (hm : k.plain = true → ¬ mirrored c.predecessor) :
    heldSum s' + s'.total_unclaimed_mpdao + amounts (·.isMpdao) out
      = MetaVote.heldSum s + s.total_unclaimed_mpdao + receivedBy J s.mpdao_token_contract_address c k
        + migratedBy k + restoredAllMp c k := by
  cases h with
  | exact h => exact exec_heldSum h hm
  | vote i hk hm' hf hb hl hid =>
    obtain ⟨-, -, z1, z2, -⟩ := plain_zero (Call.votes_plain hk) J s.mpdao_token_contract_address i c
    obtain ⟨z3, -⟩ := plain_zero' (Call.votes_plain hk) c
    have h1 := heldSum_effect (id := i) (a := 0) (b := 0) ⟨hf, by simp [Voter.held, Voter.inPositions, hb, hl]⟩
    rw [z1, z2, z3, amounts_nil, show s'.total_unclaimed_mpdao = s.total_unclaimed_mpdao by rw [hf.state]]
    simp only [ite_self] at h1; omega
  | @mirror e l s' hop hf hb hl hn =>
    have h1 := heldSum_frame hf
    rw [amounts_nil, show s'.total_unclaimed_mpdao = s.total_unclaimed_mpdao by rw [hf.state]]
    simp only [heldN, mirrored_pseudo, if_true] at h1
    simp only [receivedBy, migratedBy, restoredAllMp]
    omega

theorem Ran.unclaimedSt (h : Ran J s c k s' out) :
    s'.total_unclaimed_stnear + amounts (fun t => !t.isMpdao) out
      = s.total_unclaimed_stnear + receivedStBy s.mpdao_token_contract_address c k
        + restoredAllSt c k := by
  cases h with
  | exact h => exact exec_unclaimedSt h
  | vote i hk hm' hf hb hl hid =>
    obtain ⟨-, -, -, -, -, -, z1⟩ := plain_zero (Call.votes_plain hk) J s.mpdao_token_contract_address i c
    obtain ⟨-, z3⟩ := plain_zero' (Call.votes_plain hk) c
    rw [z1, z3, amounts_nil, show s'.total_unclaimed_stnear = s.total_unclaimed_stnear by rw [hf.state]]
  | @mirror e l s' hop hf hb hl hn =>
    rw [amounts_nil, show s'.total_unclaimed_stnear = s.total_unclaimed_stnear by rw [hf.state]]
    simp [receivedStBy, restoredAllSt]

theorem Ran.out_ok (h : Ran J s c k s' out) (hm : k.plain = true → ¬ mirrored c.predecessor) :
    ∀ t ∈ out, TransferOK s.mpdao_token_contract_address t := by
  cases h with
  | exact h => exact exec_out_ok h hm
  | vote => simp
  | mirror => simp

theorem call_not_callback (k : Call) {c : Ctx} (hres : c.promise_results = []) (id : String) :
    restoredMp id c k = 0 ∧ restoredSt id c k = 0 ∧ restoredAllMp c k = 0 ∧ restoredAllSt c k = 0 := by
  cases k <;> simp [restoredMp, restoredSt, restoredAllMp, restoredAllSt, hres]

end

/-! ## Executions -/

/-- One step of the chain (`Step`), with loose calls. -/
inductive LStep (J : Json) (me : AccountId) : World → World → Prop
  | call (w : World) (c : Ctx) (k : Call) (s' : State) (out : List Transfer)
      (hme : c.current = me) (hres : c.promise_results = []) (hm : ¬ mirrored c.predecessor)
      (hclock : w.clock ≤ c.timestamp) (hu64 : c.timestamp ≤ U64_MAX)
      (hran : Ran J w.st c k s' out) :
      LStep J me w ⟨s', w.pending ++ out, c.timestamp, .call c k out :: w.log⟩
  | resolve (w : World) (pre post : List Transfer) (t : Transfer) (ok : Bool) (ts : Nat)
      (hpend : w.pending = pre ++ t :: post) (hclock : w.clock ≤ ts) (hu64 : ts ≤ U64_MAX) :
      LStep J me w ⟨((exec J w.st ⟨me, me, 0, ts, [ok]⟩ t.callbackCall).getOr (w.st, [])).1,
        pre ++ post, ts,
        .resolved t ok (Res.isOk (exec J w.st ⟨me, me, 0, ts, [ok]⟩ t.callbackCall)) :: w.log⟩
  | tick (w : World) (ts : Nat) (hclock : w.clock ≤ ts) (hu64 : ts ≤ U64_MAX) :
      LStep J me w { w with clock := ts }

/-- Worlds reachable with loose calls. -/
inductive LReach (J : Json) (me : AccountId) : World → Prop
  | init {w : World} (h : Init w) : LReach J me w
  | step {w w' : World} (h : LReach J me w) (hs : LStep J me w w') : LReach J me w'

/-- Zero or more loose steps. -/
inductive LSteps (J : Json) (me : AccountId) (w : World) : World → Prop
  | refl : LSteps J me w w
  | step {w1 w2 : World} (h : LSteps J me w w1) (hs : LStep J me w1 w2) : LSteps J me w w2

section
variable {J : Json} {me : AccountId} {w w' : World}

theorem Step.loose (h : Step J me w w') : LStep J me w w' := by
  cases h with
  | call c k s' out hme hres hm hclock hu64 hexec => exact .call _ c k s' out hme hres hm hclock hu64 (.exact hexec)
  | resolve pre post t ok ts hpend hclock hu64 => exact .resolve _ pre post t ok ts hpend hclock hu64
  | tick ts hclock hu64 => exact .tick _ ts hclock hu64

theorem Steps.loose (h : Steps J me w w') : LSteps J me w w' := by
  induction h with
  | refl => exact .refl
  | step h hs ih => exact .step ih hs.loose

theorem LReach.steps (h : LReach J me w) (h' : LSteps J me w w') : LReach J me w' := by
  induction h' with
  | refl => exact h
  | step h hs ih => exact .step ih hs

theorem Reach.loose (h : Reach J me w) : LReach J me w := by
  induction h with
  | init h => exact .init h
  | step h hs ih => exact .step ih hs.loose

/-- A predicate of the contract state that holds after `new` and is preserved by accepted calls. -/
theorem LReach.state_inv (P : State → Prop) (hinit : ∀ w, Init w → P w.st)
    (hstep : ∀ s c k s' out, P s → Ran J s c k s' out → P s') (h : LReach J me w) : P w.st := by
  induction h with
  | init h => exact hinit _ h
  | step h hs ih =>
    cases hs with
    | call c k s' out hme hres hm hclock hu64 hran => exact hstep _ _ _ _ _ ih hran
    | resolve pre post t ok ts hpend hclock hu64 =>
      simp only
      cases hr : exec J _ ⟨me, me, 0, ts, [ok]⟩ t.callbackCall with
      | error e => simpa [Res.getOr] using ih
      | ok r => simpa [Res.getOr] using hstep _ _ _ r.1 r.2 ih (.exact hr)
    | tick ts hclock hu64 => exact ih

theorem lreach_cinv (h : LReach J me w) : CInv w.st :=
  h.state_inv CInv (fun _ => init_cinv) (fun _ _ _ _ _ hi hx => hx.cinv hi)

end

end Verif.MetaVote
