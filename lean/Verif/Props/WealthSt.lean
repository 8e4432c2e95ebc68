import Verif.Props.Wealth

/-!
# What one account has in stNEAR, in its own hands, to claim and on the way: C107

As C106, for the other token.  The stNEAR that accounts send to meta-vote is distributed as they say, so sending it is giving it away,
unless meta-vote refuses it.
-/

namespace Verif.MetaVote

/-- A payment of stNEAR goes to the account it is debited from, or is debited from an account mirrored from another chain. -/
theorem claim_receiver {J : Json} {me : AccountId} {w : World} (h : LReach J me w) :
    ∀ t ∈ w.pending, t.isMpdao = false → t.source = t.receiver ∨ mirrored t.source := by
  induction h with
  | init h => cases h; simp
  | step h hs ih =>
    cases hs with
    | call c k s' out hme hres hm hclock hu64 hran =>
      intro t ht hk
      rcases List.mem_append.1 ht with ht | hto
      · exact ih t ht hk
      · cases hran with
        | exact hx =>
          cases exec_eff hx with
          | claim_stnear k a i s' h hid hk =>
            simp only [List.mem_singleton] at hto
            subst hto
            rcases hid with rfl | ⟨e, rfl, -⟩
            · exact .inl rfl
            · exact .inr (mirrored_pseudo e)
          | withdraw k a s' h hpos hfit hk' =>
            simp only [List.mem_singleton] at hto
            subst hto
            cases hk
          | _ => cases hto
        | vote => cases hto
        | mirror => cases hto
    | resolve pre post t ok ts hpend =>
      intro x hx
      apply ih
      rw [hpend]
      simp only [List.mem_append, List.mem_cons] at *
      tauto
    | tick => exact ih

end Verif.MetaVote

namespace Verif.Solvency

open Verif

variable {J : MetaVote.Json} {me A B u : String} {j j' : World}

/-- Payments to `u` of what `u` claimed in stNEAR. -/
def claim (B u : String) (t : MetaVote.Transfer) : Bool := decide (t.token = B ∧ t.receiver = u ∧ t.source = u)

/-- Such payments with a given outcome whose callback has not run. -/
def ranSt (B u : String) (b : Bool) (l : List (MetaVote.Transfer × Bool)) : Nat :=
  (l.map fun x => if claim B u x.1 = true ∧ x.2 = b then x.1.amount else 0).sum

/-- All the stNEAR of `u`. -/
def wealthSt (me B u : String) (j : World) : Nat :=
  (j.tok B).ft_balance_of u + j.mv.st.get_claimable_stnear u
    + MetaVote.amounts (claim B u) j.sent + ranSt B u false j.done + back me B u j.results

/-- The calls of the token by which an account gives tokens away. -/
def givingSt : Token.Call → Prop
  | .ft_transfer .. | .ft_transfer_call .. | .ft_burn _ | .storage_unregister _ => True
  | _ => False

/-- As `Spends`. -/
inductive SpendsSt (me B u : String) (j j' : World) : Prop
  /-- the account transfers or burns tokens, or closes its account -/
  | own (c : Token.Ctx) (k : Token.Call) (out : List Token.Promise) (hc : c.predecessor = u)
      (h : Token.exec (j.tok B) c k = .ok (j'.tok B, out)) (hk : givingSt k)
      (hlt : (j'.tok B).ft_balance_of u < (j.tok B).ft_balance_of u)
      (hrest : j'.sent = j.sent ∧ j'.done = j.done ∧ j'.notes = j.notes ++ notesOf B out ∧ j'.results = j.results)
  /-- the account received a transfer-call and the token takes back what it did not use -/
  | received (pre post : List (Note × Option Nat)) (q : Note) (r : Option Nat) (hq : j.results = pre ++ (q, r) :: post)
      (hq' : j'.results = pre ++ post) (ht : q.token = B) (hr : q.receiver = u)
      (hb : (j'.tok B).ft_balance_of u + min q.amount (r.getD q.amount) ≥ (j.tok B).ft_balance_of u)
      (hlt : (j'.tok B).ft_balance_of u < (j.tok B).ft_balance_of u)
  /-- meta-vote refused a transfer-call of the account, which is no longer registered with the token -/
  | closed (pre post : List (Note × Option Nat)) (q : Note) (hq : j.results = pre ++ (q, none) :: post)
      (hq' : j'.results = pre ++ post) (ht : q.token = B) (hs : q.sender = u) (hr : q.receiver = me)
      (h : (j.tok B).accounts.get u = none)

theorem ranSt_append (b : Bool) (l l' : List (MetaVote.Transfer × Bool)) : ranSt B u b (l ++ l') = ranSt B u b l + ranSt B u b l' := by
  simp [ranSt]
theorem ranSt_cons (b : Bool) (x : MetaVote.Transfer × Bool) (l : List (MetaVote.Transfer × Bool)) :
    ranSt B u b (x :: l) = (if claim B u x.1 = true ∧ x.2 = b then x.1.amount else 0) + ranSt B u b l := by simp [ranSt]
theorem ranSt_nil (b : Bool) : ranSt B u b [] = 0 := rfl

theorem ranSt_both (l : List (MetaVote.Transfer × Bool)) :
    MetaVote.amounts (claim B u) (l.map (·.1)) = ranSt B u true l + ranSt B u false l := by
  induction l with
  | nil => rfl
  | cons x l ih =>
    rw [List.map_cons, MetaVote.amounts_cons, ih, ranSt_cons, ranSt_cons]
    obtain ⟨t, b⟩ := x
    cases b <;> cases claim B u t <;> simp <;> omega

/-- The claims of `u` are paid to `u`. -/
theorem claim_eq (hi : Inv J me A B j) (hu : ¬ MetaVote.mirrored u) {t : MetaVote.Transfer} (ht : t ∈ j.mv.pending) :
    claim B u t = MetaVote.stOf u t := by
  have hin := hi.toks t ht
  have hl := MetaVote.claim_receiver hi.mv t ht
  unfold claim MetaVote.stOf
  cases hk : t.isMpdao with
  | true =>
    unfold InTheir at hin
    rw [if_pos hk] at hin
    simp [hin, hi.ne]
  | false =>
    unfold InTheir at hin
    rw [if_neg (by simp [hk])] at hin
    by_cases e : t.source = u
    · have : t.receiver = u := by
        rcases hl hk with h | h
        · exact h.symm.trans e
        · exact absurd (e ▸ h) hu
      simp [hin, e, this]
    · simp [e]

/-- What `u` may claim of meta-vote or is paid, with what was paid, is what was distributed to them. -/
theorem ledgerSt (h : Reach J me A B j) (hu : ¬ MetaVote.mirrored u) :
    j.mv.st.get_claimable_stnear u + MetaVote.amounts (claim B u) j.sent + ranSt B u false j.done
      + ranSt B u true j.done + MetaVote.logPaid (MetaVote.stOf u) j.mv.log
    = MetaVote.logCalls (MetaVote.creditStOf J A u) j.mv.log := by
  have hi := h.inv
  have h1 := (MetaVote.lreach_ledger hi.mv).st u
  have h2 : MetaVote.amounts (MetaVote.stOf u) j.mv.pending
      = MetaVote.amounts (claim B u) j.sent + (ranSt B u true j.done + ranSt B u false j.done) := by
    rw [← ranSt_both, ← MetaVote.amounts_append, ← amounts_perm _ hi.pend]
    exact amounts_congr fun t ht => (claim_eq hi hu ht).symm
  have h3 : MetaVote.logStranded (MetaVote.stOf u) j.mv.log = 0 := by
    have h4 := h.stranded.2
    have key : ∀ l : List MetaVote.Entry, MetaVote.logStranded (MetaVote.stOf u) l ≤ MetaVote.logStranded (fun t => !t.isMpdao) l := by
      intro l
      induction l with
      | nil => exact Nat.le_refl _
      | cons e l ih =>
        cases e with
        | call => simpa only [MetaVote.logStranded_call] using ih
        | resolved t a b =>
          simp only [MetaVote.logStranded_resolved, MetaVote.stOf, Bool.and_eq_true, decide_eq_true_eq]
          split <;> split <;> first | omega | (rename_i x y; exact absurd ⟨x.1, x.2.1, x.2.2.1⟩ y)
    have := key j.mv.log
    omega
  rw [hi.mpdao] at h1
  have h5 : MetaVote.claimOf j.mv.st.claimable_stnear u = j.mv.st.get_claimable_stnear u := rfl
  unfold MetaVote.owedSt at h1
  omega

theorem givesSt_of_less {s s' : Token.State} {c : Token.Ctx} {k : Token.Call} {out : List Token.Promise} (hu : c.predecessor = u)
    (hself : c.predecessor ≠ c.current) (h : Token.exec s c k = .ok (s', out)) (hlt : s'.ft_balance_of u < s.ft_balance_of u) :
    givingSt k := by
  have hc := Token.exec_change h
  unfold Token.State.ft_balance_of at hlt
  cases hc with
  | same => exact absurd hlt (Nat.lt_irrefl _)
  | owner => exact absurd hlt (Nat.lt_irrefl _)
  | added => exact absurd hlt (Nat.lt_irrefl _)
  | removed => exact absurd hlt (Nat.lt_irrefl _)
  | @minted n b hm hb h1 h2 => subst hu; simp [hb] at hlt
  | burned => exact trivial
  | closed => exact trivial
  | @moved _ r n b b' hk hne hpos hb h1 h2 hr h3 => rcases hk with rfl | ⟨m, rfl⟩ <;> exact trivial
  | refunded hpr => exact absurd hpr hself
  | self hpr => exact absurd hpr hself
  | forfeited hpr => exact absurd hpr hself
  | @registered a o hn' hd =>
    by_cases e : u = a.getD c.predecessor
    · rw [e, hn'] at hlt; simp at hlt
    · simp [UMap.get_insert, Ne.symm e] at hlt

/-- **C107**: a step of the three contracts does not lower what an account has in stNEAR, unless the account spends it. -/
theorem C107_step (h : Reach J me A B j) (hs : Step J me A B j j') (hu : ¬ MetaVote.mirrored u) (hme : u ≠ me) :
    wealthSt me B u j ≤ wealthSt me B u j' ∨ SpendsSt me B u j j' := by
  have hi := h.inv
  have l1 := ledgerSt h hu
  have l2 := ledgerSt (h.step hs) hu
  unfold wealthSt
  cases hs with
  | call v' c k out h hlog hA hB hk hm =>
    left
    simp only [hlog, MetaVote.logCalls_call, MetaVote.logPaid_call] at l2 ⊢
    omega
  | tick v' h hlog =>
    left
    simp only [hlog] at l2 ⊢
    omega
  | token tk htk c k s' out hc hme' hself h =>
    simp only at l2 ⊢
    by_cases e : B = tk
    · subst e
      simp only [setAt_self]
      by_cases hp : c.predecessor = u
      · by_cases hlt : s'.ft_balance_of u < (j.tok B).ft_balance_of u
        · right
          exact .own c k out hp (by simpa only [setAt_self] using h) (givesSt_of_less hp (by rw [hc]; exact hself) h hlt)
            (by simpa only [setAt_self] using hlt) ⟨rfl, rfl, rfl, rfl⟩
        · left
          omega
      · left
        have := others_balance (u := u) hp (by rw [hc]; exact hself) h
        omega
    · left
      simp only [setAt_ne _ _ e]
      omega
  | accept pre post q v' c out hq hr h hlog hc =>
    left
    simp only [hlog, MetaVote.logCalls_call, MetaVote.logPaid_call, back_append, back_cons, back_nil, reduceCtorEq, and_false,
      if_false] at l2 ⊢
    omega
  | reject pre post q hq hr =>
    left
    simp only [back_append] at l2 ⊢
    omega
  | other pre post q r hq hr =>
    left
    simp only [back_append] at l2 ⊢
    omega
  | settle pre post q r hq =>
    have hqm : (q, r) ∈ j.results := by rw [hq]; simp
    obtain ⟨hsend, htk⟩ := hi.results _ hqm
    simp only at l2 ⊢ hsend htk
    by_cases e : B = q.token
    · obtain ⟨p, hp, hperm⟩ := hi.tok q.token htk
      have hmem : q.pending ∈ p := by
        refine hperm.symm.subset ?_
        unfold outstanding
        refine List.mem_map.2 ⟨q, List.mem_filter.2 ⟨List.mem_append_right _ (List.mem_map.2 ⟨_, hqm, rfl⟩), by simp⟩, rfl⟩
      by_cases hru : q.receiver = u
      · obtain ⟨s', h1, h2, -, -, -, -⟩ := Token.C72_settle hp q.pending hmem r
        simp only [Note.pending] at h1 h2
        have hb : setAt j.tok q.token ((Token.exec (j.tok q.token) ⟨q.token, q.token, 0, r⟩
            (.ft_resolve_transfer q.sender q.receiver q.amount)).getOr (j.tok q.token, [])).1 B = s' := by
          rw [e, setAt_self, h1]; rfl
        rw [hru, ← e] at h2
        by_cases hlt : s'.ft_balance_of u < (j.tok B).ft_balance_of u
        · right
          exact .received pre post q r hq rfl e.symm hru (by simp only [hb]; omega) (by simp only [hb]; exact hlt)
        · left
          rw [hb, hq, back_append, back_append, back_cons, if_neg (fun x => hme (hru.symm.trans x.2.1))]
          omega
      · obtain ⟨s', h1, h2, -, -, h3, h5⟩ := Token.C72_settle hp q.pending hmem r
        simp only [Note.pending] at h1 h2 h3
        have hb : setAt j.tok q.token ((Token.exec (j.tok q.token) ⟨q.token, q.token, 0, r⟩
            (.ft_resolve_transfer q.sender q.receiver q.amount)).getOr (j.tok q.token, [])).1 B = s' := by
          rw [e, setAt_self, h1]; rfl
        rw [hb, hq, back_append, back_append, back_cons]
        simp only
        by_cases hsu : q.sender = u
        · by_cases hg : (j.tok B).accounts.get u = none
          · by_cases hc : q.receiver = me ∧ r = none
            · obtain ⟨hr, rfl⟩ := hc
              exact .inr (.closed pre post q hq rfl e.symm hsu hr hg)
            · left
              rw [if_neg (fun x => hc ⟨x.2.1, x.2.2.2⟩)]
              have : (j.tok B).ft_balance_of u = 0 := by unfold Token.State.ft_balance_of; rw [hg]; rfl
              omega
          · left
            have hsm : ((j.tok q.token).accounts.get q.sender).isSome = true := by
              rw [← e, hsu]; exact Option.isSome_iff_ne_none.2 hg
            rw [if_pos (show ((Token.World.mk (j.tok q.token) p).st.accounts.get q.pending.sender).isSome = true from hsm)] at h5
            have h6 := h5.1
            simp only [Note.pending] at h6
            rw [← e, hsu] at h6
            rw [h6]
            split
            · rename_i hx
              obtain ⟨-, hr, -, rfl⟩ := hx
              have := hi.covers (.inr rfl : B = A ∨ B = B)
              rw [hq, refunds_append, refunds_cons, if_pos ⟨e.symm, hr⟩] at this
              simp only [Option.getD_none, hr, Nat.min_self] at this ⊢
              omega
            · omega
        · left
          rw [if_neg (fun x => hsu x.2.2.1), e, h3 u (Ne.symm hsu) (Ne.symm hru)]
          omega
    · left
      rw [setAt_ne _ _ e, hq, back_append, back_append, back_cons, if_neg (fun x => e x.1.symm)]
      omega
  | pay pre post t hq =>
    left
    have htm : t ∈ j.mv.pending := hi.pend.symm.subset (List.mem_append_left _ (by rw [hq]; simp))
    simp only [ranSt_append, ranSt_cons, ranSt_nil] at l2 ⊢
    rw [hq, MetaVote.amounts_append, MetaVote.amounts_append, MetaVote.amounts_cons]
    by_cases e : B = t.token
    · rw [e, setAt_self]
      simp only [claim]
      cases hx : Token.exec (j.tok t.token) ⟨t.token, me, 1, none⟩ (.ft_transfer t.receiver t.amount) with
      | error x =>
        simp only [Res.getOr, Res.isOk, and_true]
        omega
      | ok y =>
        simp only [Token.exec, bind_ok_iff, require_ok_iff, pure_ok_iff] at hx
        obtain ⟨-, -, -, -, s1, h1, rfl⟩ := hx
        obtain ⟨b1, b2, b3, b4⟩ := transfer_balance h1
        simp only at b1 b2 b3 b4
        simp only [Res.getOr, Res.isOk, Bool.true_eq_false, and_false, if_false, decide_eq_true_eq, true_and]
        by_cases hr : t.receiver = u
        · have : (if t.receiver = u ∧ t.source = u then t.amount else 0) ≤ t.amount := by split <;> omega
          rw [hr] at b2 this ⊢
          rw [b2]; omega
        · rw [if_neg (fun x => hr x.1), b4 u hme (Ne.symm hr)]; omega
    · have hz : claim B u t = false := by simp [claim, Ne.symm e]
      rw [setAt_ne _ _ e, hz]
      simp only [Bool.false_eq_true, false_and, if_false]
      omega
  | lost pre post t hq =>
    left
    simp only [ranSt_append, ranSt_cons, ranSt_nil, and_true] at l2 ⊢
    rw [hq, MetaVote.amounts_append, MetaVote.amounts_append, MetaVote.amounts_cons]
    omega
  | callback pre post t ok b v' hq h hlog =>
    left
    obtain ⟨pr, po, ts, h1, h2, h3, h4⟩ := mv_resolve h hlog
    have htm : t ∈ j.mv.pending := by rw [h1]; simp
    have hto := claim_eq (u := u) hi hu htm
    simp only [hlog, MetaVote.logCalls_resolved, MetaVote.logPaid_resolved] at l2
    rw [hq] at l1 ⊢
    simp only [ranSt_append, ranSt_cons] at l1 l2 ⊢
    rw [hto] at l1 ⊢
    cases ok <;> simp only [Bool.true_eq_false, Bool.false_eq_true, and_false, false_and, if_false, true_and, and_true] at l1 l2 ⊢ <;> omega

/-- Steps in which `u` spends nothing. -/
inductive SavesSt (J : MetaVote.Json) (me A B u : String) : World → World → Prop
  | refl (j : World) : SavesSt J me A B u j j
  | step {j j' j'' : World} (h : SavesSt J me A B u j j') (hs : Step J me A B j' j'') (hn : ¬ SpendsSt me B u j' j'') : SavesSt J me A B u j j''

theorem SavesSt.reach (h : SavesSt J me A B u j j') (hr : Reach J me A B j) : Reach J me A B j' := by
  induction h with
  | refl => exact hr
  | step _ hs _ ih => exact ih.step hs

/-- **C107**: whatever the others do, and whatever is called on meta-vote, an account that spends no stNEAR loses none. -/
theorem C107_kept (hr : Reach J me A B j) (h : SavesSt J me A B u j j') (hu : ¬ MetaVote.mirrored u) (hme : u ≠ me) :
    wealthSt me B u j ≤ wealthSt me B u j' := by
  induction h with
  | refl => exact Nat.le_refl _
  | step h hs hn ih => exact Nat.le_trans ih ((C107_step (h.reach hr) hs hu hme).resolve_right hn)

/-- A step that leaves the token and the transfer-calls alone is no spending. -/
theorem not_spendsSt (h1 : j'.tok B = j.tok B) (h2 : j'.results = j.results) : ¬ SpendsSt me B u j j' := by
  intro h
  cases h with
  | own c k out hc h hk hlt => rw [h1] at hlt; exact Nat.lt_irrefl _ hlt
  | received pre post q r hq hq' ht hr hb hlt => rw [h1] at hlt; exact Nat.lt_irrefl _ hlt
  | closed pre post q hq hq' => rw [h2, hq] at hq'; simpa using congrArg List.length hq'

/-- In the execution of `C66`, carol distributed 1200 stNEAR, bob has 700 of them, 300 on the way; bob is not registered at the token,
so this payment fails, and bob still has 700. -/
example : wealthSt "me" "stnear" "carol" demo0 = 5000000000000000000000000000 ∧
    wealthSt "me" "stnear" "carol" demo = 4999998800000000000000000000 ∧ wealthSt "me" "stnear" "bob" demo0 = 0 ∧
    demo.mv.st.get_claimable_stnear "bob" = 400000000000000000000 ∧ MetaVote.amounts (claim "stnear" "bob") demo.sent = 300000000000000000000 ∧
    ((act MetaVote.demoJ "me" "mpdao" "stnear" demo .pay).map fun j' =>
      (wealthSt "me" "stnear" "bob" j', ranSt "stnear" "bob" false j'.done)) = some (700000000000000000000, 300000000000000000000) := by
  decide +kernel

theorem callback_quiet {ts : Nat} (h : act J me A B j (.callback ts) = some j') : j'.tok = j.tok ∧ j'.results = j.results := by
  simp only [act] at h
  split at h
  · cases h
  · split at h
    · cases h; exact ⟨rfl, rfl⟩
    · cases h

/-- The next step of that execution is one in which bob spends nothing. -/
example : ∃ j', SavesSt MetaVote.demoJ "me" "mpdao" "stnear" "bob" demo j' ∧ j'.done.length < demo.done.length ∧
    wealthSt "me" "stnear" "bob" demo = 700000000000000000000 ∧ ¬ MetaVote.mirrored "bob" := by
  have h : ∃ j', act MetaVote.demoJ "me" "mpdao" "stnear" demo (.callback (43 * MetaVote.DAY)) = some j' ∧
      j'.done.length < demo.done.length := by
    have h0 : ((act MetaVote.demoJ "me" "mpdao" "stnear" demo (.callback (43 * MetaVote.DAY))).map
        fun j' => decide (j'.done.length < demo.done.length)) = some true := by decide +kernel
    rw [Option.map_eq_some_iff] at h0
    obtain ⟨j', h1, h2⟩ := h0
    exact ⟨j', h1, of_decide_eq_true h2⟩
  obtain ⟨j', h1, h2⟩ := h
  refine ⟨j', .step (.refl _) (step_of_act h1) ?_, h2, by decide +kernel, by decide +kernel⟩
  obtain ⟨h3, h4⟩ := callback_quiet h1
  exact not_spendsSt (congrFun h3 _) h4

end Verif.Solvency
