import Verif.Props.WealthBytes

/-!
# C108: a payment arrives in full or is given back in full
-/

namespace Verif.Solvency

open Verif
open Verif.MetaVote (Json Transfer LStep LReach exec_ok run quiet_ok)

variable {J : Json} {me A B : String} {j : World}

/-- **C108**: a payment that the token accepts takes exactly its amount from meta-vote, gives exactly that to the receiver, and changes
the balance of nobody else. -/
theorem C108_payment {t : Transfer} {s : Token.State} {out : List Token.Promise}
    (h : Token.exec (j.tok t.token) ⟨t.token, me, 1, none⟩ (.ft_transfer t.receiver t.amount) = .ok (s, out)) :
    out = [] ∧ s.ft_balance_of me + t.amount = (j.tok t.token).ft_balance_of me ∧
      s.ft_balance_of t.receiver = (j.tok t.token).ft_balance_of t.receiver + t.amount ∧
      ∀ u, u ≠ me → u ≠ t.receiver → s.ft_balance_of u = (j.tok t.token).ft_balance_of u := by
  simp only [Token.exec, bind_ok_iff, require_ok_iff, pure_ok_iff] at h
  obtain ⟨-, -, -, -, s', hs, e⟩ := h
  cases e
  obtain ⟨h1, h2, -, h3⟩ := transfer_balance hs
  exact ⟨rfl, h1, h2, h3⟩

/-- **C108**: the callback of a payment that failed gives exactly its amount back to the account that asked for it, and nothing to
others; the callback of one that succeeded gives nothing. -/
theorem C108_callback (h : Reach J me A B j) {pre post : List (Transfer × Bool)} {t : Transfer} {ok b : Bool} {v' : MetaVote.World}
    (hq : j.done = pre ++ (t, ok) :: post) (hst : LStep J me j.mv v') (hlog : v'.log = .resolved t ok b :: j.mv.log) :
    (∀ i, v'.st.voterD i = { j.mv.st.voterD i with
      balance := (j.mv.st.voterD i).balance + if ok = false ∧ t.token = A ∧ i = t.receiver then t.amount else 0 }) ∧
    ∀ i, v'.st.get_claimable_stnear i
      = j.mv.st.get_claimable_stnear i + if ok = false ∧ t.token = B ∧ i = t.source then t.amount else 0 := by
  have hi := h.inv
  obtain ⟨pr, po, ts, h1, h2, h3, h4⟩ := mv_resolve hst hlog
  have htm : t ∈ j.mv.pending := by rw [h1]; simp
  have ht := (MetaVote.lreach_ledger hi.mv).pending t htm
  have hin := hi.toks t htm
  unfold InTheir at hin
  have hne : A ≠ B := hi.ne
  rw [h3]
  unfold MetaVote.Transfer.callbackCall
  cases hk : t.isMpdao with
  | true =>
    rw [if_pos hk] at hin
    obtain ⟨-, hcb, hm⟩ := ht.mpdao hk
    rw [hcb]
    simp only [hin, hne, false_and, and_false, if_false, true_and, Nat.add_zero]
    cases ok with
    | true =>
      cases hx : MetaVote.exec J j.mv.st ⟨me, me, 0, ts, [true]⟩ (.after_transfer_mpdao_callback t.receiver t.amount) with
      | error e => simp [Res.getOr]
      | ok r =>
        obtain ⟨s1, o1⟩ := r
        obtain ⟨-, -, -, hr⟩ := exec_ok.1 hx
        simp only [run, quiet_ok] at hr
        rcases MetaVote.callback_mpdao_ok hr.1 with ⟨-, e⟩ | ⟨e, -⟩
        · simp [Res.getOr, e]
        · simp at e
    | false =>
      have hmp := hi.mp
      have hfit := hi.fits (.inl rfl)
      have hmig := hi.mig
      have hex := executed_mem (b := false) (pre := pre) (post := post) hin
      rw [← hq] at hex
      have hN := MetaVote.heldN_le j.mv.st t.receiver
      simp only [MetaVote.heldN, hm, if_false] at hN
      obtain ⟨s', hx⟩ := MetaVote.callback_mp_succeeds (J := J) (me := me) (ts := ts) (id := t.receiver)
        (a := t.amount) (s := j.mv.st) (by
          have : ∀ v : MetaVote.Voter, v.balance ≤ v.held := fun v => by unfold MetaVote.Voter.held; omega
          refine le_trans (Nat.add_le_add_right ((this _).trans hN) _) ?_
          omega)
      rw [hx]
      obtain ⟨-, -, -, hr⟩ := exec_ok.1 hx
      simp only [run, quiet_ok] at hr
      rcases MetaVote.callback_mpdao_ok hr.1 with ⟨e, -⟩ | ⟨-, e⟩
      · simp at e
      · simp only [MetaVote.State.restore_transfer_to_mpdao, bind_ok_iff, addU128_ok_iff, pure_ok_iff,
          MetaVote.internal_get_voter_eq] at e
        obtain ⟨_, ⟨-, rfl⟩, rfl⟩ := e
        refine ⟨fun i => ?_, fun i => rfl⟩
        simp only [Res.getOr, MetaVote.State.voterD, UMap.get_insert]
        by_cases hid : i = t.receiver
        · subst hid; simp
        · simp [hid, Ne.symm hid]
  | false =>
    rw [if_neg (by simp [hk])] at hin
    obtain ⟨src, hcb⟩ := ht.stnear hk
    have hsrc : t.source = src := by unfold MetaVote.Transfer.source; rw [hcb]
    rw [hcb]
    simp only [hin, hne.symm, false_and, and_false, if_false, true_and, Nat.add_zero, hsrc]
    cases ok with
    | true =>
      cases hx : MetaVote.exec J j.mv.st ⟨me, me, 0, ts, [true]⟩ (.after_transfer_stnear_callback src t.amount) with
      | error e => simp [Res.getOr]
      | ok r =>
        obtain ⟨s1, o1⟩ := r
        obtain ⟨-, -, -, hr⟩ := exec_ok.1 hx
        simp only [run, quiet_ok] at hr
        rcases MetaVote.callback_stnear_ok hr.1 with ⟨-, e⟩ | ⟨e, -⟩
        · simp [Res.getOr, e]
        · simp at e
    | false =>
      have hmp := hi.st
      have hfit := hi.fits (.inr rfl)
      have hex := executed_mem (b := false) (pre := pre) (post := post) hin
      rw [← hq] at hex
      rcases Nat.eq_zero_or_pos t.amount with h0 | hpos
      · cases hx : MetaVote.exec J j.mv.st ⟨me, me, 0, ts, [false]⟩ (.after_transfer_stnear_callback src t.amount) with
        | error e => simp [Res.getOr, h0]
        | ok r =>
          obtain ⟨s1, o1⟩ := r
          obtain ⟨-, -, -, hr⟩ := exec_ok.1 hx
          simp only [run, quiet_ok] at hr
          rcases MetaVote.callback_stnear_ok hr.1 with ⟨e, -⟩ | ⟨-, e⟩
          · simp at e
          · have := (MetaVote.add_claimable_stnear_ok e).1; omega
      · obtain ⟨s', hx⟩ := MetaVote.callback_st_succeeds (J := J) (me := me) (ts := ts) (id := src)
          (a := t.amount) (MetaVote.lreach_cinv hi.mv) hpos (by omega)
        rw [hx]
        obtain ⟨-, -, -, hr⟩ := exec_ok.1 hx
        simp only [run, quiet_ok] at hr
        rcases MetaVote.callback_stnear_ok hr.1 with ⟨e, -⟩ | ⟨-, e⟩
        · simp at e
        · obtain ⟨-, -, rfl⟩ := MetaVote.add_claimable_stnear_ok e
          refine ⟨fun i => rfl, fun i => ?_⟩
          simp only [Res.getOr, MetaVote.State.get_claimable_stnear, UMap.get_insert]
          by_cases hi : i = src
          · subst hi; simp
          · simp [hi, Ne.symm hi]

/-- **C108**: no callback changes the mpDAO that anybody can claim. -/
theorem C108_claims {v v' : MetaVote.World} {t : Transfer} {ok b : Bool} (hst : LStep J me v v')
    (hlog : v'.log = .resolved t ok b :: v.log) : v'.st.claimable_mpdao = v.st.claimable_mpdao := by
  obtain ⟨-, -, ts, -, -, h3, -⟩ := mv_resolve hst hlog
  rw [h3]
  cases hx : MetaVote.exec J v.st ⟨me, me, 0, ts, [ok]⟩ t.callbackCall with
  | error e => rfl
  | ok r =>
    obtain ⟨s', out⟩ := r
    obtain ⟨-, -, -, hr⟩ := exec_ok.1 hx
    unfold MetaVote.Transfer.callbackCall at hr
    simp only [Res.getOr]
    split at hr
    · simp only [run, quiet_ok] at hr
      rcases MetaVote.callback_mpdao_ok hr.1 with ⟨-, rfl⟩ | ⟨-, e⟩
      · rfl
      · simp only [MetaVote.State.restore_transfer_to_mpdao, bind_ok_iff, pure_ok_iff] at e
        obtain ⟨_, -, rfl⟩ := e
        rfl
    · simp only [run, quiet_ok] at hr
      rcases MetaVote.callback_stnear_ok hr.1 with ⟨-, rfl⟩ | ⟨-, e⟩
      · rfl
      · obtain ⟨-, -, rfl⟩ := MetaVote.add_claimable_stnear_ok e
        rfl

theorem lreach_clock {w : MetaVote.World} (h : LReach J me w) : w.clock ≤ U64_MAX := by
  induction h with
  | init h => cases h; assumption
  | step h hs ih => cases hs <;> assumption

/-- **C108**: the callback of a payment that has run can run. -/
theorem C108_runs (h : Reach J me A B j) {t : Transfer} {ok : Bool} (hq : (t, ok) ∈ j.done) :
    ∃ v' b, LStep J me j.mv v' ∧ v'.log = .resolved t ok b :: j.mv.log := by
  have hi := h.inv
  have hm : t ∈ j.mv.pending := hi.pend.symm.subset (List.mem_append_right _ (List.mem_map.2 ⟨_, hq, rfl⟩))
  obtain ⟨a, b, e⟩ := List.append_of_mem hm
  exact ⟨_, _, .resolve j.mv a b t ok j.mv.clock e (Nat.le_refl _) (lreach_clock hi.mv), rfl⟩

/-- In the execution of C66 a payment of 5 mpDAO to bob failed: with its callback bob has 5 mpDAO more in meta-vote, alice nothing. -/
example : ∃ v' : MetaVote.World, LStep MetaVote.demoJ "me" demo.mv v' ∧
    (v'.st.voterD "bob").balance = (demo.mv.st.voterD "bob").balance + 5000000 ∧
    (v'.st.voterD "alice").balance = (demo.mv.st.voterD "alice").balance := by
  have hd : demo.done = [] ++ (⟨"mpdao", "bob", 5000000, .after_transfer_mpdao "bob" 5000000⟩, false) :: demo.done.tail := by
    decide +kernel
  obtain ⟨v', b, h1, h2⟩ := C108_runs demo_reach (by rw [hd]; exact List.mem_append_right _ List.mem_cons_self)
  obtain ⟨h3, -⟩ := C108_callback demo_reach hd h1 h2
  refine ⟨v', h1, ?_, ?_⟩
  · rw [h3]; simp
  · rw [h3]; simp

/-- There the payment of stNEAR to bob is refused by the token, since bob is not registered; one to alice of 3 mpDAO would arrive. -/
example : Res.isOk (Token.exec (demo.tok "mpdao") ⟨"mpdao", "me", 1, none⟩ (.ft_transfer "alice" 3)) = true := by decide +kernel

end Verif.Solvency

namespace Verif.Solvency.Bytes

open Verif Storage Disk Borsh Serde
open Verif.MetaVote (serde)

variable {X : Net} {j j' : World} {u : String}

/-- **C108** on bytes: after a payment of meta-vote runs at the token, what the token answers: if it was accepted, meta-vote has exactly
its amount less, the receiver exactly that more, and others what they had; if not, the storage of the token is what it was. -/
theorem C108_paid (hX : X.OK) (h : Reach X j) (hV : j.V < 2 ^ 32) (hK : j.K < 2 ^ 32) {t : MetaVote.Transfer} (ht : t ∈ j.sent) :
    (∃ e, paying X j t = .error e) ∨ ∃ D' lines, paying X j t = .ok (D', [], lines) ∧
      (∃ n n' : Nat, TokenSays (j.tok t.token) (.ft_balance_of X.me) n ∧ TokenSays D' (.ft_balance_of X.me) n' ∧ n' + t.amount = n) ∧
      (∃ n n' : Nat, TokenSays (j.tok t.token) (.ft_balance_of t.receiver) n ∧ TokenSays D' (.ft_balance_of t.receiver) n' ∧
        n' = n + t.amount) ∧
      ∀ u, u ≠ X.me → u ≠ t.receiver → ∃ n : Nat, TokenSays (j.tok t.token) (.ft_balance_of u) n ∧ TokenSays D' (.ft_balance_of u) n := by
  obtain ⟨-, S, tk, m, hs⟩ := h.sim hX hV hK
  have hi := hs.joint.inv
  have htp : t ∈ j.mv.pending := hi.pend.symm.subset (List.mem_append_left _ ht)
  have htk := (hi.toks t htp).mem
  obtain ⟨p, hp, -⟩ := hi.tok t.token htk
  have hread := (MetaVote.lpending_faithful hs.mv.loose t htp).payment
  by_cases hv : validAccount t.receiver = true
  · rw [if_pos hv] at hread
    have h0 := (Token.Bytes.C99_call (hs.rep t.token htk) (c := ⟨t.token, X.me, 1, none⟩) hX.me).2 _ hread trivial
    cases he : Token.exec (tk t.token) ⟨t.token, X.me, 1, none⟩ (.ft_transfer t.receiver t.amount) with
    | error e =>
      rw [he] at h0
      exact .inl ⟨e, h0⟩
    | ok r =>
      obtain ⟨s', out⟩ := r
      rw [he] at h0
      obtain ⟨rfl, e1, e2, e3⟩ := C108_payment (j := abs j S.st tk) he
      obtain ⟨D', h1, h2, -⟩ := h0
      obtain ⟨a, b, ea⟩ := List.append_of_mem ht
      obtain ⟨p', hp', -⟩ := (hs.joint.step (.pay (abs j S.st tk) a b t ea)).inv.tok t.token htk
      simp only [setAt_self, show (abs j S.st tk).tok t.token = tk t.token from rfl, he, Res.getOr] at hp'
      have hb : ∀ u, TokenSays (j.tok t.token) (.ft_balance_of u) ((tk t.token).ft_balance_of u) := fun u =>
        token_says (hs.rep t.token htk) hp (v := .ft_balance_of u) rfl
      have ha : ∀ u, TokenSays D' (.ft_balance_of u) (s'.ft_balance_of u) := fun u =>
        token_says h2 hp' (v := .ft_balance_of u) rfl
      refine .inr ⟨D', _, h1, ⟨_, _, hb _, ha _, e1⟩, ⟨_, _, hb _, ha _, e2⟩, fun u g1 g2 => ⟨_, hb u, ?_⟩⟩
      have := ha u
      rw [e3 u g1 g2] at this
      exact this
  · rw [if_neg hv] at hread
    exact .inl ⟨_, (Token.Bytes.C99_call (hs.rep t.token htk) hX.me).1 hread⟩

/-- **C108** on bytes: after the callback of a payment, what meta-vote answers: if the payment failed, exactly its amount is back in the
balance of the voter that withdrew it, or in the claim of the account that claimed it, and for every other account nothing changed; if it
succeeded neither changed. -/
theorem C108_back (hX : X.OK) (h : Reach X j) {pre post : List (MetaVote.Transfer × Bool)} {t : MetaVote.Transfer} {ok b : Bool} {V' : Nat}
    {v' : MetaVote.Bytes.BWorld} (hq : j.done = pre ++ (t, ok) :: post)
    (hst : MetaVote.Bytes.JStep X.H X.N X.me j.V j.mv V' v') (hlog : v'.log = .resolved t ok b :: j.mv.log)
    (hV : V' < 2 ^ 32) (hK : j.K < 2 ^ 32) (now : Nat) (hu : ¬ MetaVote.mirrored u) (hv : StrFits u) :
    ∃ x x' c c' : Nat, VoteSays X j now (.get_balance u) x ∧
      VoteSays X { j with V := V', mv := v', done := pre ++ post } now (.get_balance u) x' ∧
      VoteSays X j now (.get_claimable_stnear u) c ∧
      VoteSays X { j with V := V', mv := v', done := pre ++ post } now (.get_claimable_stnear u) c' ∧
      x' = x + (if ok = false ∧ t.token = X.A ∧ u = t.receiver then t.amount else 0) ∧
      c' = c + (if ok = false ∧ t.token = X.B ∧ u = t.source then t.amount else 0) := by
  have hs : Step X j { j with V := V', mv := v', done := pre ++ post } := .callback j pre post t ok b V' v' hq hst hlog
  obtain ⟨g1, -⟩ := hs.le
  obtain ⟨hj, S, tk, m, hsim⟩ := h.sim hX (Nat.lt_of_le_of_lt g1 hV) hK
  obtain ⟨S', hss, hstored⟩ := hst.follow hX.names hX.me hj hV hsim.mv hsim.stored
  have hl : MetaVote.LStep serde X.me (abs j S.st tk).mv ⟨S'.st, v'.pending, v'.clock, v'.log⟩ := hss.loose
  obtain ⟨h1, h2⟩ := C108_callback hsim.joint (v' := ⟨S'.st, v'.pending, v'.clock, v'.log⟩) hq hl hlog
  have hjoint := hsim.joint.step (.callback (abs j S.st tk) pre post t ok b ⟨S'.st, v'.pending, v'.clock, v'.log⟩ hq hl hlog)
  have fits : ∀ {w : Solvency.World}, Solvency.Reach serde X.me X.A X.B w → (w.mv.st.voterD u).held ≤ U128_MAX := fun {w} hw => by
    have h3 := hw.inv.fits (.inl rfl : X.A = X.A ∨ X.A = X.B)
    have h4 := C66_covered hw
    have h5 := MetaVote.heldN_le w.mv.st u
    unfold MetaVote.heldN at h5
    rw [if_neg hu] at h5
    omega
  obtain ⟨x, -, -, hx, -⟩ := MetaVote.C41_partition S.st now u (fits hsim.joint)
  obtain ⟨x', -, -, hx', -⟩ := MetaVote.C41_partition S'.st now u (fits hjoint)
  refine ⟨x, x', _, _, vote_says hX hsim.stored now (v := .get_balance u) hv hx,
    vote_says hX hstored now (v := .get_balance u) hv hx',
    vote_says hX hsim.stored now (v := .get_claimable_stnear u) hv rfl,
    vote_says hX hstored now (v := .get_claimable_stnear u) hv rfl, ?_, h2 u⟩
  simp only [MetaVote.State.get_balance, MetaVote.internal_get_voter_eq, bind_ok_iff, addU128_ok_iff] at hx hx'
  obtain ⟨y, hy, -, rfl⟩ := hx
  obtain ⟨y', hy', -, rfl⟩ := hx'
  have e := h1 u
  simp only [abs] at e
  rw [e] at hy' ⊢
  have : (S.st.voterD u).sum_unlocked now = .ok y' := hy'
  rw [hy] at this
  cases this
  simp only
  omega

/-- **C108** on bytes: no callback changes what meta-vote answers to be locked, unlocking or claimable in mpDAO. -/
theorem C108_rest (hX : X.OK) (h : Reach X j) {pre post : List (MetaVote.Transfer × Bool)} {t : MetaVote.Transfer} {ok b : Bool} {V' : Nat}
    {v' : MetaVote.Bytes.BWorld} (hq : j.done = pre ++ (t, ok) :: post)
    (hst : MetaVote.Bytes.JStep X.H X.N X.me j.V j.mv V' v') (hlog : v'.log = .resolved t ok b :: j.mv.log)
    (hV : V' < 2 ^ 32) (hK : j.K < 2 ^ 32) (now : Nat) (hu : ¬ MetaVote.mirrored u) (hv : StrFits u) :
    ∃ l w m : Nat, VoteSays X j now (.get_locked_balance u) l ∧ VoteSays X j now (.get_unlocking_balance u) w ∧
      VoteSays X j now (.get_claimable_mpdao u) m ∧
      VoteSays X { j with V := V', mv := v', done := pre ++ post } now (.get_locked_balance u) l ∧
      VoteSays X { j with V := V', mv := v', done := pre ++ post } now (.get_unlocking_balance u) w ∧
      VoteSays X { j with V := V', mv := v', done := pre ++ post } now (.get_claimable_mpdao u) m := by
  have hs : Step X j { j with V := V', mv := v', done := pre ++ post } := .callback j pre post t ok b V' v' hq hst hlog
  obtain ⟨g1, -⟩ := hs.le
  obtain ⟨hj, S, tk, m, hsim⟩ := h.sim hX (Nat.lt_of_le_of_lt g1 hV) hK
  obtain ⟨S', hss, hstored⟩ := hst.follow hX.names hX.me hj hV hsim.mv hsim.stored
  have hl : MetaVote.LStep serde X.me (abs j S.st tk).mv ⟨S'.st, v'.pending, v'.clock, v'.log⟩ := hss.loose
  obtain ⟨h1, -⟩ := C108_callback hsim.joint (v' := ⟨S'.st, v'.pending, v'.clock, v'.log⟩) hq hl hlog
  have h2 : S'.st.claimable_mpdao = S.st.claimable_mpdao := C108_claims hl hlog
  have e := h1 u
  simp only [abs] at e
  have hfit : (S.st.voterD u).held ≤ U128_MAX := by
    have h3 := hsim.joint.inv.fits (.inl rfl : X.A = X.A ∨ X.A = X.B)
    have h4 := C66_covered hsim.joint
    have h5 := MetaVote.heldN_le (abs j S.st tk).mv.st u
    unfold MetaVote.heldN at h5
    rw [if_neg hu] at h5
    exact Nat.le_trans h5 (by omega)
  obtain ⟨-, l, w, -, hy, hw, -⟩ := MetaVote.C41_partition S.st now u hfit
  have hy' : S'.st.get_locked_balance u = .ok l := by
    have hy := hy
    unfold MetaVote.State.get_locked_balance at hy ⊢
    rw [MetaVote.internal_get_voter_eq] at hy ⊢
    rw [e]
    exact hy
  have hw' : S'.st.get_unlocking_balance now u = .ok w := by
    have hw := hw
    unfold MetaVote.State.get_unlocking_balance at hw ⊢
    rw [MetaVote.internal_get_voter_eq] at hw ⊢
    rw [e]
    exact hw
  refine ⟨l, w, S.st.get_claimable_mpdao u, vote_says hX hsim.stored now (v := .get_locked_balance u) hv hy,
    vote_says hX hsim.stored now (v := .get_unlocking_balance u) hv hw, vote_says hX hsim.stored now (v := .get_claimable_mpdao u) hv rfl,
    vote_says hX hstored now (v := .get_locked_balance u) hv hy', vote_says hX hstored now (v := .get_unlocking_balance u) hv hw',
    vote_says hX hstored now (v := .get_claimable_mpdao u) hv ?_⟩
  show Except.ok (S'.st.get_claimable_mpdao u) = _
  unfold MetaVote.State.get_claimable_mpdao
  rw [h2]
  rfl

/-- **C108** on bytes: the callback of a payment that has run can run. -/
theorem C108_runs (hX : X.OK) (h : Reach X j) (hV : j.V < 2 ^ 32) (hK : j.K < 2 ^ 32) {t : MetaVote.Transfer} {ok : Bool}
    (hq : (t, ok) ∈ j.done) :
    ∃ v' b, MetaVote.Bytes.JStep X.H X.N X.me j.V j.mv (j.V + 3) v' ∧ v'.log = .resolved t ok b :: j.mv.log := by
  obtain ⟨-, S, tk, m, hs⟩ := h.sim hX hV hK
  have hi := hs.joint.inv
  have hm : t ∈ j.mv.pending := hi.pend.symm.subset (List.mem_append_right _ (List.mem_map.2 ⟨_, hq, rfl⟩))
  obtain ⟨a, b, e⟩ := List.append_of_mem hm
  exact ⟨_, _, .resolve a b t ok j.mv.clock e (Nat.le_refl _) (lreach_clock hi.mv), rfl⟩

/-- In the case of C105 the hypotheses are met by eve's payment, and the token either refuses it or gives eve 50 mpDAO. -/
example : ∃ j, Reach caseNet j ∧ eveOut ∈ j.sent ∧ ((∃ e, paying caseNet j eveOut = .error e) ∨
    ∃ D' lines, paying caseNet j eveOut = .ok (D', [], lines) ∧ ∃ n n' : Nat, TokenSays (j.tok "mpdao") (.ft_balance_of "eve") n ∧
      TokenSays D' (.ft_balance_of "eve") n' ∧ n' = n + 50000000) := by
  obtain ⟨j, h, hV, hK, hs, -⟩ := case_reach
  have hm : eveOut ∈ j.sent := by rw [hs]; simp
  refine ⟨j, h, hm, (C108_paid case_ok h hV hK hm).imp id ?_⟩
  rintro ⟨D', lines, h1, -, ⟨n, n', h2, h3, h4⟩, -⟩
  exact ⟨D', lines, h1, n, n', h2, h3, h4⟩

/-- If it is lost for want of gas, its callback runs and eve has 50 mpDAO more in meta-vote, as it answers. -/
example : ∃ j j', Reach caseNet j ∧ Step caseNet j j' ∧ j.done = [(eveOut, false)] ∧ j'.done = [] ∧
    ∃ x : Nat, VoteSays caseNet j 0 (.get_balance "eve") x ∧ VoteSays caseNet j' 0 (.get_balance "eve") (x + 50000000) := by
  obtain ⟨j, h, hV, hK, hs, hd, -⟩ := case_run
  have h1 := h.step (.lost j [] [] eveOut hs)
  have hq : ({ j with sent := [] ++ [], done := j.done ++ [(eveOut, false)] } : World).done = [] ++ (eveOut, false) :: [] := by
    simp only [hd]
  obtain ⟨v', b, h2, h3⟩ := C108_runs case_ok h1 (Nat.lt_of_lt_of_le hV (by decide)) hK (t := eveOut) (ok := false) (by rw [hq]; simp)
  have hv : StrFits "eve" := validAccount_fits (by decide +kernel)
  obtain ⟨x, x', c, c', g1, g2, -, -, g3, -⟩ := C108_back (u := "eve") case_ok h1 hq h2 h3 (show j.V + 3 < 2 ^ 32 by omega) hK 0
    (by decide +kernel) hv
  rw [if_pos ⟨rfl, rfl, rfl⟩] at g3
  subst g3
  exact ⟨_, _, h1, .callback _ [] [] eveOut false b _ v' hq h2 h3, hq, rfl, x, g1, g2⟩

/-- In the same run the callback leaves what eve has locked as it was told before. -/
example : ∃ j j', Reach caseNet j ∧ Step caseNet j j' ∧ j.done = [(eveOut, false)] ∧ j'.done = [] ∧
    ∃ l : Nat, VoteSays caseNet j 0 (.get_locked_balance "eve") l ∧ VoteSays caseNet j' 0 (.get_locked_balance "eve") l := by
  obtain ⟨j, h, hV, hK, hs, hd, -⟩ := case_run
  have h1 := h.step (.lost j [] [] eveOut hs)
  have hq : ({ j with sent := [] ++ [], done := j.done ++ [(eveOut, false)] } : World).done = [] ++ (eveOut, false) :: [] := by
    simp only [hd]
  obtain ⟨v', b, h2, h3⟩ := C108_runs case_ok h1 (Nat.lt_of_lt_of_le hV (by decide)) hK (t := eveOut) (ok := false) (by rw [hq]; simp)
  have hv : StrFits "eve" := validAccount_fits (by decide +kernel)
  obtain ⟨l, _, _, g1, -, -, g2, -⟩ := C108_rest (u := "eve") case_ok h1 hq h2 h3 (show j.V + 3 < 2 ^ 32 by omega) hK 0
    (by decide +kernel) hv
  exact ⟨_, _, h1, .callback _ [] [] eveOut false b _ v' hq h2 h3, hq, rfl, l, g1, g2⟩

end Verif.Solvency.Bytes
