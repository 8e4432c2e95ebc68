import Verif.Props.Arrives

/-!
# C109: every call changes what meta-vote answers for an account by exactly what it brings and pays
-/

namespace Verif.Solvency

open Verif

variable {J : MetaVote.Json} {me A B u : String} {j : World}

/-- Payments of stNEAR from the claim of `u`. -/
def claimBy (B u : String) (t : MetaVote.Transfer) : Bool := decide (t.token = B ∧ t.source = u)

theorem not_restored {J : MetaVote.Json} {v v' : MetaVote.World} {c : MetaVote.Ctx} {k : MetaVote.Call} {out : List MetaVote.Transfer}
    (h : MetaVote.LStep J me v v') (hlog : v'.log = .call c k out :: v.log) (id : String) :
    MetaVote.restoredMp id c k = 0 ∧ MetaVote.restoredSt id c k = 0 := by
  cases h with
  | call c1 k1 s1 out1 hme hres =>
    simp only [List.cons.injEq, MetaVote.Entry.call.injEq, and_true] at hlog
    obtain ⟨rfl, rfl, rfl⟩ := hlog
    unfold MetaVote.restoredMp MetaVote.restoredSt
    cases k1 <;> simp [hres]
  | resolve => simp at hlog
  | tick => exact absurd (congrArg List.length hlog) (by simp)

/-- **C109**: an accepted call changes the mpDAO and the stNEAR that meta-vote holds for an account by exactly what the call brings for it
and what it sends to it. -/
theorem C109_call (h : Reach J me A B j) {v' : MetaVote.World} {c : MetaVote.Ctx} {k : MetaVote.Call} {out : List MetaVote.Transfer}
    (hs : MetaVote.LStep J me j.mv v') (hlog : v'.log = .call c k out :: j.mv.log)
    (hu : ¬ MetaVote.mirrored u) :
    (v'.st.voterD u).held + v'.st.get_claimable_mpdao u + MetaVote.amounts (toward A u) out
      = (j.mv.st.voterD u).held + j.mv.st.get_claimable_mpdao u + MetaVote.creditOf J A u c k ∧
    v'.st.get_claimable_stnear u + MetaVote.amounts (claimBy B u) out
      = j.mv.st.get_claimable_stnear u + MetaVote.creditStOf J A u c k := by
  have hi := h.inv
  obtain ⟨hx, hp⟩ := mv_call hs hlog
  obtain ⟨z1, z2⟩ := not_restored hs hlog u
  have h1 := hx.owedMp u hu
  have h2 := hx.owedSt u
  rw [hi.mpdao, z1] at h1
  rw [hi.mpdao, z2] at h2
  have ht := exec_tokens hx
  rw [hi.mpdao, hi.stnear] at ht
  have hl := (MetaVote.lreach_ledger (hi.mv.step hs)).pending
  have e1 : MetaVote.amounts (toward A u) out = MetaVote.amounts (MetaVote.mpOf u) out := by
    refine amounts_congr fun t hm => ?_
    have hin := ht t hm
    have hl := hl t (by rw [hp]; exact List.mem_append_right _ hm)
    unfold InTheir at hin
    unfold toward MetaVote.mpOf
    cases hk : t.isMpdao with
    | true =>
      obtain ⟨-, hcb, -⟩ := hl.mpdao hk
      rw [if_pos hk] at hin
      simp [hin, MetaVote.Transfer.source, hcb]
    | false =>
      rw [if_neg (by simp [hk])] at hin
      simp [hin, hi.ne.symm]
  have e2 : MetaVote.amounts (claimBy B u) out = MetaVote.amounts (MetaVote.stOf u) out := by
    refine amounts_congr fun t hm => ?_
    have hin := ht t hm
    unfold InTheir at hin
    unfold claimBy MetaVote.stOf
    cases hk : t.isMpdao with
    | true =>
      rw [if_pos hk] at hin
      simp [hin, hi.ne]
    | false =>
      rw [if_neg (by simp [hk])] at hin
      simp [hin]
  rw [e1, e2]
  unfold MetaVote.owedMp at h1
  unfold MetaVote.owedSt at h2
  have h3 : ∀ s : MetaVote.State, MetaVote.claimOf s.claimable_mpdao u = s.get_claimable_mpdao u := fun _ => rfl
  have h4 : ∀ s : MetaVote.State, MetaVote.claimOf s.claimable_stnear u = s.get_claimable_stnear u := fun _ => rfl
  rw [h3, h3] at h1
  rw [h4, h4] at h2
  exact ⟨by omega, by omega⟩

/-- In the execution of C66 bob claims 100 more stNEAR: the claim falls by that, and what bob has in mpDAO is what it was. -/
example : ∃ v' : MetaVote.World, MetaVote.LStep MetaVote.demoJ "me" demo.mv v' ∧
    v'.st.get_claimable_stnear "bob" + 100000000000000000000 = demo.mv.st.get_claimable_stnear "bob" ∧
    (v'.st.voterD "bob").held + v'.st.get_claimable_mpdao "bob" = (demo.mv.st.voterD "bob").held + demo.mv.st.get_claimable_mpdao "bob" := by
  have h : ((MetaVote.exec MetaVote.demoJ demo.mv.st ⟨"me", "bob", 0, 43 * MetaVote.DAY, []⟩
      (.claim_stnear 100000000000000000000)).toOption.map fun x => x.2) =
      some [⟨"stnear", "bob", 100000000000000000000, .after_transfer_stnear "bob" 100000000000000000000⟩] := by decide +kernel
  cases hx : MetaVote.exec MetaVote.demoJ demo.mv.st ⟨"me", "bob", 0, 43 * MetaVote.DAY, []⟩ (.claim_stnear 100000000000000000000) with
  | error e => rw [hx] at h; cases h
  | ok r =>
    obtain ⟨s', out⟩ := r
    rw [hx] at h
    simp only [Except.toOption, Option.map_some, Option.some.injEq] at h
    have hs := MetaVote.LStep.call (me := "me") demo.mv _ _ s' out rfl rfl (by decide +kernel) (by decide +kernel) (by decide +kernel) (.exact hx)
    obtain ⟨h1, h2⟩ := C109_call (u := "bob") demo_reach hs rfl (by decide +kernel)
    have e1 : MetaVote.amounts (toward "mpdao" "bob") out = 0 := by rw [h]; decide +kernel
    have e2 : MetaVote.amounts (claimBy "stnear" "bob") out = 100000000000000000000 := by rw [h]; decide +kernel
    rw [e1] at h1
    rw [e2] at h2
    exact ⟨_, hs, h2, h1⟩

/-- A step that logs a call is a step of meta-vote. -/
theorem Step.lstep {j' : World} (h : Step J me A B j j') {e : MetaVote.Entry} (hlog : j'.mv.log = e :: j.mv.log) :
    MetaVote.LStep J me j.mv j'.mv := by
  cases h with
  | call v' c k out h => exact h
  | tick v' h => exact h
  | accept pre post q v' c out hq hr h => exact h
  | callback pre post t ok b v' hq h => exact h
  | _ => exact absurd (congrArg List.length hlog) (by simp)

end Verif.Solvency

namespace Verif.Solvency.Bytes

open Verif Storage Disk Borsh Serde
open Verif.MetaVote (serde)

variable {X : Net} {j j' : World} {u : String}

/-- **C109** on bytes: for every call that meta-vote accepts, of any method by anybody, and every account: what meta-vote answers to have
for the account in balance, locked, unlocking and claimable mpDAO together changes by exactly what the call brings for the account less
what is sent to it, and the same for the claimable stNEAR. -/
theorem C109_told (hX : X.OK) (h : Reach X j) (hs : Step X j j') {c : MetaVote.Ctx} {k : MetaVote.Call} {out : List MetaVote.Transfer}
    (hlog : j'.mv.log = .call c k out :: j.mv.log) (hV : j'.V < 2 ^ 32) (hK : j'.K < 2 ^ 32)
    (hu : ¬ MetaVote.mirrored u) (hv : StrFits u) (now now' : Nat) :
    ∃ b l w m s b' l' w' m' s' : Nat,
      VoteSays X j now (.get_balance u) b ∧ VoteSays X j' now' (.get_balance u) b' ∧
      VoteSays X j now (.get_locked_balance u) l ∧ VoteSays X j' now' (.get_locked_balance u) l' ∧
      VoteSays X j now (.get_unlocking_balance u) w ∧ VoteSays X j' now' (.get_unlocking_balance u) w' ∧
      VoteSays X j now (.get_claimable_mpdao u) m ∧ VoteSays X j' now' (.get_claimable_mpdao u) m' ∧
      VoteSays X j now (.get_claimable_stnear u) s ∧ VoteSays X j' now' (.get_claimable_stnear u) s' ∧
      b' + l' + w' + m' + MetaVote.amounts (toward X.A u) out = b + l + w + m + MetaVote.creditOf serde X.A u c k ∧
      s' + MetaVote.amounts (claimBy X.B u) out = s + MetaVote.creditStOf serde X.A u c k := by
  obtain ⟨g1, g2⟩ := hs.le
  obtain ⟨hj, S, tk, m, hsim⟩ := h.sim hX (Nat.lt_of_le_of_lt g1 hV) (Nat.lt_of_le_of_lt g2 hK)
  obtain ⟨-, S', tk', hf⟩ := hsim.follow hX hj hs hV hK
  have hjoint := hsim.joint.step hf.joint
  have hl := Solvency.Step.lstep (e := .call c k out) hf.joint hlog
  obtain ⟨h1, h2⟩ := C109_call (u := u) hsim.joint hl hlog hu
  have fits : ∀ {w : Solvency.World}, Solvency.Reach serde X.me X.A X.B w → MetaVote.heldSum w.mv.st ≤ U128_MAX := fun {w} hw => by
    have h3 := hw.inv.fits (.inl rfl : X.A = X.A ∨ X.A = X.B)
    have h4 := C66_covered hw
    omega
  obtain ⟨b, l, w, a1, a2, a3, a4⟩ := held_told (j := j) hX hsim.stored now hu hv (fits hsim.joint)
  obtain ⟨b', l', w', b1, b2, b3, b4⟩ := held_told (j := j') hX hf.stored now' hu hv (fits hjoint)
  refine ⟨b, l, w, _, _, b', l', w', _, _, a1, b1, a2, b2, a3, b3,
    vote_says hX hsim.stored now (v := .get_claimable_mpdao u) hv rfl, vote_says hX hf.stored now' (v := .get_claimable_mpdao u) hv rfl,
    vote_says hX hsim.stored now (v := .get_claimable_stnear u) hv rfl, vote_says hX hf.stored now' (v := .get_claimable_stnear u) hv rfl,
    ?_, h2⟩
  rw [a4, b4]
  exact h1

/-- **C109** on bytes: a deposit of mpDAO is credited in full to its beneficiary, and to nobody else. -/
theorem C109_deposit (hX : X.OK) (h : Reach X j) (hs : Step X j j') {c : MetaVote.Ctx} {q : Note} {out : List MetaVote.Transfer} {i : String}
    (hlog : j'.mv.log = .call c (.ft_on_transfer q.sender q.amount q.msg) out :: j.mv.log) (hc : c.predecessor = X.A)
    (hm : ¬ MetaVote.forClaims q.msg) (hi : MetaVote.beneficiary serde q.sender q.msg = some i) (hV : j'.V < 2 ^ 32) (hK : j'.K < 2 ^ 32)
    (hu : ¬ MetaVote.mirrored u) (hv : StrFits u) (now now' : Nat) :
    ∃ b l w m b' l' w' m' : Nat,
      VoteSays X j now (.get_balance u) b ∧ VoteSays X j' now' (.get_balance u) b' ∧
      VoteSays X j now (.get_locked_balance u) l ∧ VoteSays X j' now' (.get_locked_balance u) l' ∧
      VoteSays X j now (.get_unlocking_balance u) w ∧ VoteSays X j' now' (.get_unlocking_balance u) w' ∧
      VoteSays X j now (.get_claimable_mpdao u) m ∧ VoteSays X j' now' (.get_claimable_mpdao u) m' ∧
      b' + l' + w' + m' = b + l + w + m + if u = i then q.amount else 0 := by
  obtain ⟨b, l, w, m, s, b', l', w', m', s', h1, h2, h3, h4, h5, h6, h7, h8, -, -, h9, -⟩ := C109_told hX h hs hlog hV hK hu hv now now'
  refine ⟨b, l, w, m, b', l', w', m', h1, h2, h3, h4, h5, h6, h7, h8, ?_⟩
  have e : out = [] := by
    obtain ⟨g1, g2⟩ := hs.le
    obtain ⟨hj, S, tk, m, hsim⟩ := h.sim hX (Nat.lt_of_le_of_lt g1 hV) (Nat.lt_of_le_of_lt g2 hK)
    obtain ⟨-, S', tk', hf⟩ := hsim.follow hX hj hs hV hK
    obtain ⟨hx, -⟩ := mv_call (Solvency.Step.lstep (e := .call c (.ft_on_transfer q.sender q.amount q.msg) out) hf.joint hlog) hlog
    obtain ⟨-, -, -, hr⟩ := MetaVote.exec_ok.1 (hx.exec rfl)
    simp only [MetaVote.run, MetaVote.quiet_ok] at hr
    exact hr.2
  subst e
  simp only [MetaVote.creditOf] at h9
  rw [if_pos hc, if_neg hm, hi, MetaVote.amounts_nil] at h9
  simp only [Option.some.injEq] at h9
  by_cases g : u = i
  · rw [if_pos g.symm] at h9; rw [if_pos g]; omega
  · rw [if_neg (Ne.symm g)] at h9; rw [if_neg g]; omega

/-- In the case of C105, when eve withdraws 50 mpDAO what meta-vote answers for eve falls by that, and nothing for others. -/
example : ∃ i j, Reach caseNet i ∧ Step caseNet i j ∧
    (∃ x x' : Nat, x' + 50000000 = x ∧ ∃ b l w m b' l' w' m' : Nat,
      VoteSays caseNet i 0 (.get_balance "eve") b ∧ VoteSays caseNet j 0 (.get_balance "eve") b' ∧
      VoteSays caseNet i 0 (.get_locked_balance "eve") l ∧ VoteSays caseNet j 0 (.get_locked_balance "eve") l' ∧
      VoteSays caseNet i 0 (.get_unlocking_balance "eve") w ∧ VoteSays caseNet j 0 (.get_unlocking_balance "eve") w' ∧
      VoteSays caseNet i 0 (.get_claimable_mpdao "eve") m ∧ VoteSays caseNet j 0 (.get_claimable_mpdao "eve") m' ∧
      b + l + w + m = x ∧ b' + l' + w' + m' = x') ∧
    ∃ s : Nat, VoteSays caseNet i 0 (.get_claimable_stnear "bob") s ∧ VoteSays caseNet j 0 (.get_claimable_stnear "bob") s := by
  obtain ⟨-, -, i, j, -, h, hs, hlog, -, hV, hK, -⟩ := case_last
  have hV' := Nat.lt_of_lt_of_le hV (by decide : 2 ^ 31 ≤ 2 ^ 32)
  refine ⟨i, j, h, hs, ?_, ?_⟩
  · obtain ⟨b, l, w, m, s, b', l', w', m', s', h1, h2, h3, h4, h5, h6, h7, h8, -, -, h9, -⟩ :=
      C109_told (u := "eve") case_ok h hs hlog hV' hK (by decide +kernel) (validAccount_fits (by decide +kernel)) 0 0
    have e : MetaVote.amounts (toward caseNet.A "eve") [eveOut] = 50000000 := by decide +kernel
    rw [e] at h9
    simp only [MetaVote.creditOf, Nat.add_zero] at h9
    exact ⟨_, _, h9, b, l, w, m, b', l', w', m', h1, h2, h3, h4, h5, h6, h7, h8, rfl, rfl⟩
  · obtain ⟨b, l, w, m, s, b', l', w', m', s', -, -, -, -, -, -, -, -, h1, h2, -, h9⟩ :=
      C109_told (u := "bob") case_ok h hs hlog hV' hK (by decide +kernel) (validAccount_fits (by decide +kernel)) 0 0
    have e : MetaVote.amounts (claimBy caseNet.B "bob") [eveOut] = 0 := by decide +kernel
    rw [e] at h9
    simp only [MetaVote.creditStOf, Nat.add_zero] at h9
    subst h9
    exact ⟨_, h1, h2⟩

/-- There, when meta-vote accepts the deposit of eve it answers to have 50 mpDAO more for eve. -/
example : ∃ i j, Reach caseNet i ∧ Step caseNet i j ∧ ∃ b l w m b' l' w' m' : Nat,
      VoteSays caseNet i 0 (.get_balance "eve") b ∧ VoteSays caseNet j 0 (.get_balance "eve") b' ∧
      VoteSays caseNet i 0 (.get_locked_balance "eve") l ∧ VoteSays caseNet j 0 (.get_locked_balance "eve") l' ∧
      VoteSays caseNet i 0 (.get_unlocking_balance "eve") w ∧ VoteSays caseNet j 0 (.get_unlocking_balance "eve") w' ∧
      VoteSays caseNet i 0 (.get_claimable_mpdao "eve") m ∧ VoteSays caseNet j 0 (.get_claimable_mpdao "eve") m' ∧
      b' + l' + w' + m' = b + l + w + m + 50000000 := by
  obtain ⟨i, j, -, -, ⟨h, hs, hlog, hV, hK⟩, -⟩ := case_last
  have hV' := Nat.lt_of_lt_of_le hV (by decide : 2 ^ 31 ≤ 2 ^ 32)
  have hb : MetaVote.beneficiary serde eveNote.sender eveNote.msg = some "eve" := by decide +kernel
  exact ⟨i, j, h, hs, C109_deposit (u := "eve") case_ok h hs hlog rfl (by decide +kernel) hb hV' hK (by decide +kernel)
    (validAccount_fits (by decide +kernel)) 0 0⟩

end Verif.Solvency.Bytes
