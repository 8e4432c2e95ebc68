import Verif.Props.Solvency

/-!
# What one account has in mpDAO, in its own hands, in meta-vote and on the way: C106

For an account that is not mirrored from another chain: its balance of the token, what meta-vote holds for it and it may claim, the
payments to it, its deposits on the way and those to be returned.  No step of the three contracts lowers this sum but the account's
own use of the token and the settlement of transfer-calls in which the account is the receiver or has closed its token account.
-/

namespace Verif.Solvency

open Verif

variable {J : MetaVote.Json} {me A B u : String} {j j' : World}

/-- Payments of mpDAO to `u`. -/
def toward (A u : String) (t : MetaVote.Transfer) : Bool := decide (t.token = A ∧ t.receiver = u)

/-- Payments to `u` with a given outcome whose callback has not run. -/
def ran (A u : String) (b : Bool) (l : List (MetaVote.Transfer × Bool)) : Nat :=
  (l.map fun x => if toward A u x.1 = true ∧ x.2 = b then x.1.amount else 0).sum

/-- A transfer-call of mpDAO by `u` that deposits for themself. -/
def Note.own (J : MetaVote.Json) (me A u : String) (q : Note) : Prop :=
  q.token = A ∧ q.receiver = me ∧ q.sender = u ∧ ¬ MetaVote.forClaims q.msg ∧ MetaVote.beneficiary J q.sender q.msg = some u

instance (q : Note) : Decidable (q.own J me A u) := by unfold Note.own; infer_instance

/-- Deposits of `u` that meta-vote has not seen. -/
def coming (J : MetaVote.Json) (me A u : String) (l : List Note) : Nat :=
  (l.map fun q => if q.own J me A u then q.amount else 0).sum

/-- Transfer-calls of `u` that meta-vote refused and that are not settled. -/
def back (me A u : String) (l : List (Note × Option Nat)) : Nat :=
  (l.map fun x => if x.1.token = A ∧ x.1.receiver = me ∧ x.1.sender = u ∧ x.2 = none then x.1.amount else 0).sum

/-- All the mpDAO of `u`. -/
def wealth (J : MetaVote.Json) (me A u : String) (j : World) : Nat :=
  (j.tok A).ft_balance_of u + (j.mv.st.voterD u).held + j.mv.st.get_claimable_mpdao u
    + MetaVote.amounts (toward A u) j.sent + ran A u false j.done + coming J me A u j.notes + back me A u j.results

/-- The calls of the token by which an account gives tokens away: transfers other than deposits for themself, burning and closing. -/
def giving (J : MetaVote.Json) (me A u : String) : Token.Call → Prop
  | .ft_transfer .. | .ft_burn _ | .storage_unregister _ => True
  | .ft_transfer_call r n m => ¬ (Note.mk A u r n m).own J me A u
  | _ => False

/-- The account itself gives tokens away, or a transfer-call is settled that it received, or that it made before it closed its token
account. -/
inductive Spends (J : MetaVote.Json) (me A u : String) (j j' : World) : Prop
  /-- the account transfers or burns tokens, or closes its account -/
  | own (c : Token.Ctx) (k : Token.Call) (out : List Token.Promise) (hc : c.predecessor = u)
      (h : Token.exec (j.tok A) c k = .ok (j'.tok A, out)) (hk : giving J me A u k)
      (hlt : (j'.tok A).ft_balance_of u < (j.tok A).ft_balance_of u)
      (hrest : j'.sent = j.sent ∧ j'.done = j.done ∧ j'.notes = j.notes ++ notesOf A out ∧ j'.results = j.results)
  /-- the account received a transfer-call and the token takes back what it did not use -/
  | received (pre post : List (Note × Option Nat)) (q : Note) (r : Option Nat) (hq : j.results = pre ++ (q, r) :: post)
      (hq' : j'.results = pre ++ post) (ht : q.token = A) (hr : q.receiver = u)
      (hb : (j'.tok A).ft_balance_of u + min q.amount (r.getD q.amount) ≥ (j.tok A).ft_balance_of u)
      (hlt : (j'.tok A).ft_balance_of u < (j.tok A).ft_balance_of u)
  /-- meta-vote refused a transfer-call of the account, which is no longer registered with the token -/
  | closed (pre post : List (Note × Option Nat)) (q : Note) (hq : j.results = pre ++ (q, none) :: post)
      (hq' : j'.results = pre ++ post) (ht : q.token = A) (hs : q.sender = u) (hr : q.receiver = me)
      (h : (j.tok A).accounts.get u = none)

theorem ran_append (b : Bool) (l l' : List (MetaVote.Transfer × Bool)) : ran A u b (l ++ l') = ran A u b l + ran A u b l' := by
  simp [ran]
theorem ran_cons (b : Bool) (x : MetaVote.Transfer × Bool) (l : List (MetaVote.Transfer × Bool)) :
    ran A u b (x :: l) = (if toward A u x.1 = true ∧ x.2 = b then x.1.amount else 0) + ran A u b l := by simp [ran]
theorem ran_nil (b : Bool) : ran A u b [] = 0 := rfl
theorem coming_append (l l' : List Note) : coming J me A u (l ++ l') = coming J me A u l + coming J me A u l' := by simp [coming]
theorem coming_cons (q : Note) (l : List Note) :
    coming J me A u (q :: l) = (if q.own J me A u then q.amount else 0) + coming J me A u l := by simp [coming]
theorem coming_nil : coming J me A u [] = 0 := rfl
theorem back_append (l l' : List (Note × Option Nat)) : back me A u (l ++ l') = back me A u l + back me A u l' := by simp [back]
theorem back_cons (x : Note × Option Nat) (l : List (Note × Option Nat)) :
    back me A u (x :: l) = (if x.1.token = A ∧ x.1.receiver = me ∧ x.1.sender = u ∧ x.2 = none then x.1.amount else 0)
      + back me A u l := by simp [back]
theorem back_nil : back me A u [] = 0 := rfl

theorem ran_both (l : List (MetaVote.Transfer × Bool)) :
    MetaVote.amounts (toward A u) (l.map (·.1)) = ran A u true l + ran A u false l := by
  induction l with
  | nil => rfl
  | cons x l ih =>
    rw [List.map_cons, MetaVote.amounts_cons, ih, ran_cons, ran_cons]
    obtain ⟨t, b⟩ := x
    cases b <;> cases toward A u t <;> simp <;> omega

/-- The payments to `u` are those debited from `u`. -/
theorem toward_eq (hi : Inv J me A B j) {t : MetaVote.Transfer} (ht : t ∈ j.mv.pending) : toward A u t = MetaVote.mpOf u t := by
  have hin := hi.toks t ht
  have hl := (MetaVote.lreach_ledger hi.mv).pending t ht
  unfold toward MetaVote.mpOf
  cases hk : t.isMpdao with
  | true =>
    obtain ⟨-, hcb, -⟩ := hl.mpdao hk
    unfold InTheir at hin
    rw [if_pos hk] at hin
    simp [hin, MetaVote.Transfer.source, hcb]
  | false =>
    unfold InTheir at hin
    rw [if_neg (by simp [hk])] at hin
    simp [hin, hi.ne.symm]

/-- What meta-vote holds for `u` or pays to them, with what it has paid, is what it was given for them. -/
theorem ledger (h : Reach J me A B j) (hu : ¬ MetaVote.mirrored u) :
    (j.mv.st.voterD u).held + j.mv.st.get_claimable_mpdao u + MetaVote.amounts (toward A u) j.sent + ran A u false j.done
      + ran A u true j.done + MetaVote.logPaid (MetaVote.mpOf u) j.mv.log
    = MetaVote.logCalls (MetaVote.creditOf J A u) j.mv.log := by
  have hi := h.inv
  have h1 := (MetaVote.lreach_ledger hi.mv).mp u hu
  have h2 : MetaVote.amounts (MetaVote.mpOf u) j.mv.pending
      = MetaVote.amounts (toward A u) j.sent + (ran A u true j.done + ran A u false j.done) := by
    rw [← ran_both, ← MetaVote.amounts_append, ← amounts_perm _ hi.pend]
    exact amounts_congr fun t ht => (toward_eq hi ht).symm
  have h3 : MetaVote.logStranded (MetaVote.mpOf u) j.mv.log = 0 := by
    have h4 := h.stranded.1
    have key : ∀ l : List MetaVote.Entry, MetaVote.logStranded (MetaVote.mpOf u) l ≤ MetaVote.logStranded (fun t => t.isMpdao) l := by
      intro l
      induction l with
      | nil => exact Nat.le_refl _
      | cons e l ih =>
        cases e with
        | call => simpa only [MetaVote.logStranded_call] using ih
        | resolved t a b =>
          simp only [MetaVote.logStranded_resolved, MetaVote.mpOf, Bool.and_eq_true, decide_eq_true_eq]
          split <;> split <;> first | omega | (rename_i x y; exact absurd ⟨x.1, x.2.1, x.2.2.1⟩ y)
    have := key j.mv.log
    omega
  rw [hi.mpdao] at h1
  have h5 : MetaVote.claimOf j.mv.st.claimable_mpdao u = j.mv.st.get_claimable_mpdao u := rfl
  unfold MetaVote.owedMp at h1
  omega

/-- A call of somebody else to the token does not lower the balance of `u`. -/
theorem others_balance {s s' : Token.State} {c : Token.Ctx} {k : Token.Call} {out : List Token.Promise}
    (hu : c.predecessor ≠ u) (hself : c.predecessor ≠ c.current) (h : Token.exec s c k = .ok (s', out)) :
    s.ft_balance_of u ≤ s'.ft_balance_of u := by
  have hc := Token.exec_change h
  unfold Token.State.ft_balance_of
  cases hc with
  | @moved _ r n b b' hk hne hpos hb h1 h2 hr h3 =>
    by_cases e : u = r
    · subst e; simp [hr]
    · simp [UMap.get_insert, Ne.symm e, hu]
  | refunded hpr => exact absurd hpr hself
  | self hpr => exact absurd hpr hself
  | forfeited hpr => exact absurd hpr hself
  | @registered a o hn hd =>
    by_cases e : u = a.getD c.predecessor
    · rw [e]; simp [hn]
    · simp [UMap.get_insert, Ne.symm e]
  | _ => simp [UMap.get_insert, UMap.get_remove, hu]

/-- An account's own call that lowers its balance is one by which it gives tokens away. -/
theorem gives_of_less {s s' : Token.State} {c : Token.Ctx} {k : Token.Call} {out : List Token.Promise} (hu : c.predecessor = u)
    (hself : c.predecessor ≠ c.current) (h : Token.exec s c k = .ok (s', out)) (hlt : s'.ft_balance_of u < s.ft_balance_of u)
    (hn : ¬ ∃ n m, k = .ft_transfer_call me n m ∧ (Note.mk A u me n m).own J me A u) : giving J me A u k := by
  have hc := Token.exec_change h
  unfold Token.State.ft_balance_of at hlt
  cases hc with
  | same => exact absurd hlt (Nat.lt_irrefl _)
  | owner => exact absurd hlt (Nat.lt_irrefl _)
  | added => exact absurd hlt (Nat.lt_irrefl _)
  | removed => exact absurd hlt (Nat.lt_irrefl _)
  | @minted n b hm hb h1 h2 => subst hu; simp [hb] at hlt
  | burned => exact trivial
  | closed => exact trivial
  | @moved _ r n b b' hk hne hpos hb h1 h2 hr h3 =>
    rcases hk with rfl | ⟨m, rfl⟩
    · exact trivial
    · intro ho
      have : r = me := ho.2.1
      subst this
      exact hn ⟨n, m, rfl, ho⟩
  | refunded hpr => exact absurd hpr hself
  | self hpr => exact absurd hpr hself
  | forfeited hpr => exact absurd hpr hself
  | @registered a o hn' hd =>
    by_cases e : u = a.getD c.predecessor
    · rw [e, hn'] at hlt; simp at hlt
    · simp [UMap.get_insert, Ne.symm e] at hlt

/-- **C106**: a step of the three contracts does not lower what an account has in mpDAO, unless the account spends it. -/
theorem C106_step (h : Reach J me A B j) (hs : Step J me A B j j') (hu : ¬ MetaVote.mirrored u) (hme : u ≠ me) :
    wealth J me A u j ≤ wealth J me A u j' ∨ Spends J me A u j j' := by
  have hi := h.inv
  have l1 := ledger h hu
  have l2 := ledger (h.step hs) hu
  unfold wealth
  cases hs with
  | call v' c k out h hlog hA hB hk hm =>
    left
    simp only [hlog, MetaVote.logCalls_call, MetaVote.logPaid_call] at l2 ⊢
    omega
  | tick v' h hlog =>
    left
    simp only [hlog] at l2 ⊢
    omega
  | token tk htk c k s' out hc hme' hself h =>
    simp only at l2 ⊢
    rw [coming_append, exec_notes tk h]
    by_cases e : A = tk
    · subst e
      simp only [setAt_self]
      by_cases hp : c.predecessor = u
      · by_cases hk : ∃ n m, k = .ft_transfer_call me n m ∧ (Note.mk A u me n m).own J me A u
        · left
          obtain ⟨n, m, rfl, ho⟩ := hk
          have ht : (j.tok A).ft_transfer c me n = .ok s' := by
            simp only [Token.exec, bind_ok_iff, require_ok_iff, pure_ok_iff] at h
            obtain ⟨-, -, -, -, _, h, e⟩ := h
            cases e
            exact h
          obtain ⟨b1, -, -, -⟩ := transfer_balance ht
          rw [hp] at b1
          simp only [noteOf, hp, coming_cons, coming_nil, if_pos ho]
          omega
        · by_cases hlt : s'.ft_balance_of u < (j.tok A).ft_balance_of u
          · right
            refine .own c k out hp (by simpa only [setAt_self] using h) ?_ (by simpa only [setAt_self] using hlt) ⟨rfl, rfl, ?_, rfl⟩
            · exact gives_of_less hp (by rw [hc]; exact hself) h hlt hk
            · rw [exec_notes A h]
          · left
            omega
      · left
        have := others_balance (u := u) hp (by rw [hc]; exact hself) h
        omega
    · left
      simp only [setAt_ne _ _ e]
      omega
  | accept pre post q v' c out hq hr h hlog hc =>
    left
    simp only [hlog, MetaVote.logCalls_call, MetaVote.logPaid_call, back_append, back_cons, back_nil, coming_append, reduceCtorEq, and_false,
      if_false] at l2 ⊢
    rw [hq, coming_append, coming_cons]
    have : (if q.own J me A u then q.amount else 0) ≤ MetaVote.creditOf J A u c (.ft_on_transfer q.sender q.amount q.msg) := by
      split
      · rename_i ho
        obtain ⟨h1, -, h3, h4, h5⟩ := ho
        simp only [MetaVote.creditOf]
        rw [if_pos (hc.trans h1), if_neg h4, if_pos h5]
      · exact Nat.zero_le _
    omega
  | reject pre post q hq hr =>
    left
    simp only [back_append, back_cons, back_nil, coming_append] at l2 ⊢
    rw [hq, coming_append, coming_cons]
    have : (if q.own J me A u then q.amount else 0) ≤ if q.token = A ∧ q.receiver = me ∧ q.sender = u ∧ True then q.amount else 0 := by
      split
      · rename_i ho
        rw [if_pos ⟨ho.1, ho.2.1, ho.2.2.1, trivial⟩]
      · exact Nat.zero_le _
    simp only [and_true] at this ⊢
    omega
  | other pre post q r hq hr =>
    left
    simp only [back_append, coming_append] at l2 ⊢
    rw [hq, coming_append, coming_cons, if_neg (fun ho => hr ho.2.1)]
    omega
  | settle pre post q r hq =>
    have hqm : (q, r) ∈ j.results := by rw [hq]; simp
    obtain ⟨hsend, htk⟩ := hi.results _ hqm
    simp only at l2 ⊢ hsend htk
    by_cases e : A = q.token
    · obtain ⟨p, hp, hperm⟩ := hi.tok q.token htk
      have hmem : q.pending ∈ p := by
        refine hperm.symm.subset ?_
        unfold outstanding
        refine List.mem_map.2 ⟨q, List.mem_filter.2 ⟨List.mem_append_right _ (List.mem_map.2 ⟨_, hqm, rfl⟩), by simp⟩, rfl⟩
      by_cases hru : q.receiver = u
      · obtain ⟨s', h1, h2, -, -, -, -⟩ := Token.C72_settle hp q.pending hmem r
        simp only [Note.pending] at h1 h2
        have hb : setAt j.tok q.token ((Token.exec (j.tok q.token) ⟨q.token, q.token, 0, r⟩
            (.ft_resolve_transfer q.sender q.receiver q.amount)).getOr (j.tok q.token, [])).1 A = s' := by
          rw [e, setAt_self, h1]; rfl
        rw [hru, ← e] at h2
        by_cases hlt : s'.ft_balance_of u < (j.tok A).ft_balance_of u
        · right
          exact .received pre post q r hq rfl e.symm hru (by simp only [hb]; omega) (by simp only [hb]; exact hlt)
        · left
          rw [hb, hq, back_append, back_append, back_cons, if_neg (fun x => hme (hru.symm.trans x.2.1))]
          omega
      · obtain ⟨s', h1, h2, -, -, h3, h5⟩ := Token.C72_settle hp q.pending hmem r
        simp only [Note.pending] at h1 h2 h3
        have hb : setAt j.tok q.token ((Token.exec (j.tok q.token) ⟨q.token, q.token, 0, r⟩
            (.ft_resolve_transfer q.sender q.receiver q.amount)).getOr (j.tok q.token, [])).1 A = s' := by
          rw [e, setAt_self, h1]; rfl
        rw [hb, hq, back_append, back_append, back_cons]
        simp only
        by_cases hsu : q.sender = u
        · by_cases hg : (j.tok A).accounts.get u = none
          · by_cases hc : q.receiver = me ∧ r = none
            · obtain ⟨hr, rfl⟩ := hc
              exact .inr (.closed pre post q hq rfl e.symm hsu hr hg)
            · left
              rw [if_neg (fun x => hc ⟨x.2.1, x.2.2.2⟩)]
              have : (j.tok A).ft_balance_of u = 0 := by unfold Token.State.ft_balance_of; rw [hg]; rfl
              omega
          · left
            have hsm : ((j.tok q.token).accounts.get q.sender).isSome = true := by
              rw [← e, hsu]; exact Option.isSome_iff_ne_none.2 hg
            rw [if_pos (show ((Token.World.mk (j.tok q.token) p).st.accounts.get q.pending.sender).isSome = true from hsm)] at h5
            have h6 := h5.1
            simp only [Note.pending] at h6
            rw [← e, hsu] at h6
            rw [h6]
            split
            · rename_i hx
              obtain ⟨-, hr, -, rfl⟩ := hx
              have := hi.covers (.inl rfl : A = A ∨ A = B)
              rw [hq, refunds_append, refunds_cons, if_pos ⟨e.symm, hr⟩] at this
              simp only [Option.getD_none, hr, Nat.min_self] at this ⊢
              omega
            · omega
        · left
          rw [if_neg (fun x => hsu x.2.2.1), e, h3 u (Ne.symm hsu) (Ne.symm hru)]
          omega
    · left
      rw [setAt_ne _ _ e, hq, back_append, back_append, back_cons, if_neg (fun x => e x.1.symm)]
      omega
  | pay pre post t hq =>
    left
    have htm : t ∈ j.mv.pending := hi.pend.symm.subset (List.mem_append_left _ (by rw [hq]; simp))
    simp only [ran_append, ran_cons, ran_nil] at l2 ⊢
    rw [hq, MetaVote.amounts_append, MetaVote.amounts_append, MetaVote.amounts_cons]
    by_cases e : A = t.token
    · rw [e, setAt_self]
      simp only [toward]
      cases hx : Token.exec (j.tok t.token) ⟨t.token, me, 1, none⟩ (.ft_transfer t.receiver t.amount) with
      | error x =>
        simp only [Res.getOr, Res.isOk, and_true]
        omega
      | ok y =>
        simp only [Token.exec, bind_ok_iff, require_ok_iff, pure_ok_iff] at hx
        obtain ⟨-, -, -, -, s1, h1, rfl⟩ := hx
        obtain ⟨b1, b2, b3, b4⟩ := transfer_balance h1
        simp only at b1 b2 b3 b4
        simp only [Res.getOr, Res.isOk, Bool.true_eq_false, and_false, if_false, decide_eq_true_eq, true_and]
        by_cases hr : t.receiver = u
        · rw [if_pos hr, ← hr, b2]; omega
        · rw [if_neg hr, b4 u hme (Ne.symm hr)]; omega
    · have hz : toward A u t = false := by simp [toward, Ne.symm e]
      rw [setAt_ne _ _ e, hz]
      simp only [Bool.false_eq_true, false_and, if_false]
      omega
  | lost pre post t hq =>
    left
    simp only [ran_append, ran_cons, ran_nil, and_true] at l2 ⊢
    rw [hq, MetaVote.amounts_append, MetaVote.amounts_append, MetaVote.amounts_cons]
    omega
  | callback pre post t ok b v' hq h hlog =>
    left
    obtain ⟨pr, po, ts, h1, h2, h3, h4⟩ := mv_resolve h hlog
    have htm : t ∈ j.mv.pending := by rw [h1]; simp
    have hto := toward_eq (u := u) hi htm
    simp only [hlog, MetaVote.logCalls_resolved, MetaVote.logPaid_resolved] at l2
    rw [hq] at l1 ⊢
    simp only [ran_append, ran_cons] at l1 l2 ⊢
    rw [hto] at l1 ⊢
    cases ok <;> simp only [Bool.true_eq_false, Bool.false_eq_true, and_false, false_and, if_false, true_and, and_true] at l1 l2 ⊢ <;> omega

/-- Steps in which `u` spends nothing. -/
inductive Saves (J : MetaVote.Json) (me A B u : String) : World → World → Prop
  | refl (j : World) : Saves J me A B u j j
  | step {j j' j'' : World} (h : Saves J me A B u j j') (hs : Step J me A B j' j'') (hn : ¬ Spends J me A u j' j'') : Saves J me A B u j j''

theorem Saves.reach (h : Saves J me A B u j j') (hr : Reach J me A B j) : Reach J me A B j' := by
  induction h with
  | refl => exact hr
  | step _ hs _ ih => exact ih.step hs

/-- **C106**: whatever the others do, and whatever is called on meta-vote, an account that spends nothing loses nothing. -/
theorem C106_kept (hr : Reach J me A B j) (h : Saves J me A B u j j') (hu : ¬ MetaVote.mirrored u) (hme : u ≠ me) :
    wealth J me A u j ≤ wealth J me A u j' := by
  induction h with
  | refl => exact Nat.le_refl _
  | step h hs hn ih => exact Nat.le_trans ih ((C106_step (h.reach hr) hs hu hme).resolve_right hn)

/-- In the execution of `C66`, alice has everything but the 6 mpDAO they gave away, in four places; bob has what was migrated. -/
example : wealth MetaVote.demoJ "me" "mpdao" "alice" demo0 = 900000000 ∧ wealth MetaVote.demoJ "me" "mpdao" "alice" demo = 894000000 ∧
    (demo.tok "mpdao").ft_balance_of "alice" = 861999997 ∧ (demo.mv.st.voterD "alice").held = 32000000 ∧
    coming MetaVote.demoJ "me" "mpdao" "alice" demo.notes = 3 ∧
    wealth MetaVote.demoJ "me" "mpdao" "bob" demo = 5000000 := by decide +kernel

/-- A step that leaves the token and the transfer-calls alone is no spending. -/
theorem not_spends (h1 : j'.tok A = j.tok A) (h2 : j'.results = j.results) : ¬ Spends J me A u j j' := by
  intro h
  cases h with
  | own c k out hc h hk hlt => rw [h1] at hlt; exact Nat.lt_irrefl _ hlt
  | received pre post q r hq hq' ht hr hb hlt => rw [h1] at hlt; exact Nat.lt_irrefl _ hlt
  | closed pre post q hq hq' => rw [h2, hq] at hq'; simpa using congrArg List.length hq'

/-- The next step of that execution: bob's failed payment is given back to bob by the callback, and bob spends nothing. -/
example : ∃ j', Saves MetaVote.demoJ "me" "mpdao" "stnear" "bob" demo j' ∧ (j'.mv.st.voterD "bob").held = 5000000 ∧
    (demo.mv.st.voterD "bob").held = 0 ∧ ran "mpdao" "bob" false demo.done = 5000000 ∧ ¬ MetaVote.mirrored "bob" := by
  have h : ∃ j', act MetaVote.demoJ "me" "mpdao" "stnear" demo (.callback (43 * MetaVote.DAY)) = some j' ∧
      (j'.mv.st.voterD "bob").held = 5000000 := by
    have h0 : ((act MetaVote.demoJ "me" "mpdao" "stnear" demo (.callback (43 * MetaVote.DAY))).map
        fun j' => (j'.mv.st.voterD "bob").held) = some 5000000 := by decide +kernel
    rw [Option.map_eq_some_iff] at h0
    exact h0
  obtain ⟨j', h1, h2⟩ := h
  refine ⟨j', .step (.refl _) (step_of_act h1) ?_, h2, by decide +kernel, by decide +kernel, by decide +kernel⟩
  simp only [act] at h1
  split at h1
  · cases h1
  · split at h1
    · cases h1; exact not_spends rfl rfl
    · cases h1

end Verif.Solvency
