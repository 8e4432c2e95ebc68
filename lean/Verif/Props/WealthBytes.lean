import Verif.Props.SolvencyBytes
import Verif.Props.Wealth

/-!
# C106 by what the contracts answer, in JSON on bytes
-/

namespace Verif.Solvency.Bytes

open Verif Storage Disk Borsh Serde
open Verif.MetaVote (serde)

variable {X : Net} {j j' : World} {u : String}

/-- The mpDAO of the transfer-calls of `u` to meta-vote that it refused and that are not settled. -/
def returning (X : Net) (u : String) (l : List (Note × Option Bytes)) : Nat :=
  (l.map fun x => if x.1.token = X.A ∧ x.1.receiver = X.me ∧ x.1.sender = u ∧ x.2 = none then x.1.amount else 0).sum

/-- All the mpDAO of `u`: what the token and meta-vote answer for `u`, and what is on its way. -/
def Told (X : Net) (u : String) (j : World) (w : Nat) : Prop :=
  ∀ now, ∃ n b k l c : Nat, TokenSays (j.tok X.A) (.ft_balance_of u) n ∧ VoteSays X j now (.get_balance u) b ∧
    VoteSays X j now (.get_locked_balance u) k ∧ VoteSays X j now (.get_unlocking_balance u) l ∧
    VoteSays X j now (.get_claimable_mpdao u) c ∧
    w = n + (b + k + l) + c + MetaVote.amounts (toward X.A u) j.sent + ran X.A u false j.done + coming serde X.me X.A u j.notes
      + returning X u j.results

/-- The balance of `u` at the token falls. -/
def Falls (X : Net) (u : String) (j j' : World) : Prop :=
  ∃ n n' : Nat, TokenSays (j.tok X.A) (.ft_balance_of u) n ∧ TokenSays (j'.tok X.A) (.ft_balance_of u) n' ∧ n' < n

/-- `u` itself gives tokens away, or a transfer-call is settled that `u` received, or that `u` made before closing the token account. -/
inductive Spends (X : Net) (u : String) (j j' : World) : Prop
  /-- a JSON call of `u` to the token -/
  | own (c : Token.Ctx) (name : String) (b : Bytes) (k : Token.Call) (out : List Token.Promise) (lines : List Token.Line)
      (hc : c.predecessor = u) (hr : Token.Call.read name b = some k) (hk : giving serde X.me X.A u k)
      (h : Token.Bytes.callJson (j.tok X.A) c name b = .ok (j'.tok X.A, out, lines)) (hlt : Falls X u j j')
  /-- the token takes back what `u` did not use of a transfer-call -/
  | received (pre post : List (Note × Option Bytes)) (q : Note) (r : Option Bytes) (hq : j.results = pre ++ (q, r) :: post)
      (hq' : j'.results = pre ++ post) (ht : q.token = X.A) (hr : q.receiver = u) (hlt : Falls X u j j')
  /-- meta-vote refused a transfer-call of `u`, for whom the token answers that there is no account -/
  | closed (pre post : List (Note × Option Bytes)) (q : Note) (hq : j.results = pre ++ (q, none) :: post)
      (hq' : j'.results = pre ++ post) (ht : q.token = X.A) (hs : q.sender = u) (hr : q.receiver = X.me)
      (h : TokenSays (j.tok X.A) (.storage_balance_of u) none)

theorem back_eq {l : List (Note × Option Bytes)}
    (h : ∀ x ∈ l, x.1.receiver = X.me → x.2 = some MetaVote.onTransferResult ∨ x.2 = none) :
    back X.me X.A u (l.map heard) = returning X u l := by
  unfold back returning
  rw [List.map_map]
  congr 1
  refine List.map_congr_left fun x hx => ?_
  obtain ⟨q, r⟩ := x
  simp only [Function.comp]
  by_cases hq : q.receiver = X.me
  · rcases h _ hx hq with e | e
    · simp only at e
      subst e
      rw [heard_accepted]
      simp
    · simp only at e
      subst e
      simp [heard]
  · rw [if_neg (fun e => hq e.2.1), if_neg (fun e => hq e.2.1)]

theorem Sim.told {S : SState} {tk : String → Token.State} {m : String → Token.Bytes.Metadata} (hX : X.OK) (h : Reach X j)
    (hs : Sim X j S tk m) (hu : ¬ MetaVote.mirrored u) (hv : StrFits u) :
    Told X u j (wealth serde X.me X.A u (abs j S.st tk)) := by
  intro now
  obtain ⟨p, hp, -⟩ := hs.joint.inv.tok X.A (.inl rfl)
  have hfit := hs.joint.inv.fits (.inl rfl : X.A = X.A ∨ X.A = X.B)
  have hc := C66_covered hs.joint
  simp only [abs] at hc hfit
  obtain ⟨b, k, l, h1, h2, h3, h4⟩ := held_told (j := j) hX hs.stored now hu hv (by omega)
  refine ⟨_, b, k, l, _, token_says (hs.rep X.A (.inl rfl)) hp (v := .ft_balance_of u) rfl, h1, h2, h3,
    vote_says hX hs.stored now (v := .get_claimable_mpdao u) hv rfl, ?_⟩
  unfold wealth
  simp only [abs]
  rw [back_eq (C105_answers h), h4]

theorem cons_same {α : Type} {pre post pre' post' : List α} {x y : α} (h : pre ++ x :: post = pre' ++ y :: post')
    (h' : pre ++ post = pre' ++ post') : x = y := by
  classical
  have h1 := congrArg (List.count x) h
  have h2 := congrArg (List.count x) h'
  simp only [List.count_append, List.count_cons, beq_self_eq_true, if_true] at h1 h2
  by_cases e : x = y
  · exact e
  · have : (y == x) = false := by simpa using fun c => e c.symm
    rw [this] at h1
    simp at h1
    omega

/-- If the transfer-calls become fewer by one then that one was settled. -/
theorem Step.settled (hs : Step X j j') {pre post : List (Note × Option Nat)} {q : Note} {r : Option Nat}
    (h : j.results.map heard = pre ++ (q, r) :: post) (h' : j'.results.map heard = pre ++ post) :
    ∃ pre' post' r', j.results = pre' ++ (q, r') :: post' ∧ j'.results = pre' ++ post' ∧ r'.bind Serde.u128.decode = r := by
  have l1 := congrArg List.length h
  have l2 := congrArg List.length h'
  simp only [List.length_map, List.length_append, List.length_cons] at l1 l2
  cases hs with
  | settle pre' post' q' r' hq =>
    have e : (q, r) = heard (q', r') := by
      refine cons_same (pre' := pre'.map heard) (post' := post'.map heard) (h.symm.trans ?_) (h'.symm.trans ?_)
      · rw [hq]; simp
      · simp
    cases e
    exact ⟨pre', post', r', hq, rfl, rfl⟩
  | accept | reject | other => simp only [List.length_append, List.length_singleton] at l2; omega
  | _ => simp only at l2; omega

theorem Falls.irrefl (hv : validAccount u = true) (h : Falls X u j j') (e : j'.tok X.A = j.tok X.A) : False := by
  obtain ⟨n, n', h1, h2, h3⟩ := h
  rw [e] at h2
  have := TokenSays.one (v := .ft_balance_of u) hv h1 h2
  subst this
  exact Nat.lt_irrefl _ h3

/-- **C106** on bytes: a step does not lower what an account is told to have in mpDAO, unless the account spends it. -/
theorem C106_told (hX : X.OK) (h : Reach X j) (hs : Step X j j') (hV : j'.V < 2 ^ 32) (hK : j'.K < 2 ^ 32)
    (hu : ¬ MetaVote.mirrored u) (hme : u ≠ X.me) (hv : validAccount u = true) :
    ∃ w w', Told X u j w ∧ Told X u j' w' ∧ (w ≤ w' ∨ Spends X u j j') := by
  obtain ⟨g1, g2⟩ := hs.le
  obtain ⟨hj, S, tk, m, hsim⟩ := h.sim hX (Nat.lt_of_le_of_lt g1 hV) (Nat.lt_of_le_of_lt g2 hK)
  obtain ⟨-, S', tk', hf⟩ := hsim.follow hX hj hs hV hK
  have hsim' : Sim X j' S' tk' m := ⟨hf.mv, hf.stored, hf.rep, hf.minters, hf.notes, hf.results, hsim.joint.step hf.joint⟩
  refine ⟨_, _, hsim.told hX h hu (validAccount_fits hv), hsim'.told hX (h.step hs) hu (validAccount_fits hv), ?_⟩
  refine (C106_step hsim.joint hf.joint hu hme).imp id fun hsp => ?_
  obtain ⟨p, hp, -⟩ := hsim.joint.inv.tok X.A (.inl rfl)
  obtain ⟨p', hp', -⟩ := hsim'.joint.inv.tok X.A (.inl rfl)
  have fall : (tk' X.A).ft_balance_of u < (tk X.A).ft_balance_of u → Falls X u j j' := fun hlt =>
    ⟨_, _, token_says (hsim.rep X.A (.inl rfl)) hp (v := .ft_balance_of u) rfl,
      token_says (hsim'.rep X.A (.inl rfl)) hp' (v := .ft_balance_of u) rfl, hlt⟩
  cases hsp with
  | received pre post q r hq hq' ht hr hb hlt =>
    obtain ⟨pre', post', r', e1, e2, -⟩ := hs.settled hq hq'
    exact .received pre' post' q r' e1 e2 ht hr (fall hlt)
  | closed pre post q hq hq' ht hsu hr hg =>
    obtain ⟨pre', post', r', e1, e2, e3⟩ := hs.settled hq hq'
    rcases C105_answers h (q, r') (by rw [e1]; simp) hr with e | e
    · simp only at e
      subst e
      have := heard_accepted q
      simp only [heard, e3] at this
      cases this
    · simp only at e
      subst e
      refine .closed pre' post' q e1 e2 ht hsu hr (token_says (hsim.rep X.A (.inl rfl)) hp ?_)
      simp only [abs] at hg
      show Except.ok ((tk X.A).storage_balance_of u) = _
      unfold Token.State.storage_balance_of
      rw [hg]
      rfl
  | own c' k' out' hc' hx' hk' hlt hrest =>
    have hfall := fall hlt
    obtain ⟨r1, r2, r3, r4⟩ := hrest
    simp only [abs] at r1 r2 r3 r4 hx'
    rw [exec_notes X.A hx', hc'] at r3
    cases hs with
    | token a ha c name b k D' out lines hr hvc hc hme' hself hx =>
      by_cases e : X.A = a
      · subst e
        have hroom : Token.Bytes.Room (tk X.A) k := by
          cases k with
          | add_minter x =>
            have := hsim.minters X.A ha
            simp only [Token.Bytes.adds] at hK
            show (tk X.A).minters.length + 1 < 2 ^ 32
            omega
          | _ => trivial
        have h0 := (Token.Bytes.C99_call (hsim.rep X.A ha) hvc (name := name) (b := b)).2 k hr hroom
        cases he : Token.exec (tk X.A) c k with
        | error e => rw [he] at h0; simp only at h0; rw [hx] at h0; cases h0
        | ok r =>
          rw [he] at h0
          obtain ⟨D1, h1, h2, -⟩ := h0
          rw [hx] at h1
          cases h1
          have hb : (tk' X.A).ft_balance_of u = r.1.ft_balance_of u := by
            have a1 := ((Token.Bytes.C91_views h2).1 u (Token.Bytes.account_id hv)).1
            have a2 := hf.rep X.A ha
            simp only [setAt_self] at a2
            have a3 := ((Token.Bytes.C91_views a2).1 u (Token.Bytes.account_id hv)).1
            exact Except.ok.inj (a3.symm.trans a1)
          have hlt' : r.1.ft_balance_of u < (tk X.A).ft_balance_of u := by rw [← hb]; exact hlt
          have hself' : c.predecessor ≠ c.current := by rw [hc]; exact hself
          have hcu : c.predecessor = u := by
            refine Classical.byContradiction fun hne => ?_
            exact Nat.lt_irrefl _ (Nat.lt_of_lt_of_le hlt' (others_balance hne hself' (s' := r.1) (out := r.2) he))
          have hn : ¬ ∃ n ms, k = .ft_transfer_call X.me n ms ∧ (Note.mk X.A u X.me n ms).own serde X.me X.A u := by
            rintro ⟨n, ms, rfl, ho⟩
            have r5 := List.append_cancel_left r3
            rw [exec_notes X.A (s' := r.1) (out := r.2) he, hcu] at r5
            cases k' with
            | ft_transfer_call x y z =>
              simp only [noteOf, List.cons.injEq, Note.mk.injEq, and_true, true_and] at r5
              obtain ⟨rfl, rfl, rfl⟩ := r5
              exact hk' ho
            | _ => simp [noteOf] at r5
          exact .own c name b k r.2 _ hcu hr (gives_of_less hcu hself' (s' := r.1) (out := r.2) he hlt' hn)
            (by simp only [setAt_self]; exact hx) hfall
      · exact (hfall.irrefl hv (by simp only [setAt_ne _ _ e])).elim
    | settle pre post q r hq =>
      have := congrArg List.length r4
      simp only [List.length_map, hq, List.length_append, List.length_cons] at this
      omega
    | pay pre post t hq =>
      have := congrArg List.length r2
      simp only [List.length_append, List.length_cons, List.length_nil] at this
      omega
    | _ => exact (hfall.irrefl hv rfl).elim

theorem VoteSays.one {now : Nat} {v : MetaVote.View} {r r' : v.Out} (hv : v.valid) (h : VoteSays X j now v r)
    (h' : VoteSays X j now v r') : r = r' := by
  obtain ⟨o, -, h1, h2⟩ := h
  obtain ⟨o', -, h1', h2'⟩ := h'
  have e := (h2 _ (MetaVote.View.read_write hv)).symm.trans (h2' _ (MetaVote.View.read_write hv))
  cases e
  exact Option.some.inj (h1.symm.trans h1')

/-- What is told is one amount. -/
theorem Told.one (hv : validAccount u = true) {w w' : Nat} (h : Told X u j w) (h' : Told X u j w') : w = w' := by
  obtain ⟨n, b, k, l, c, h1, h2, h3, h4, h5, rfl⟩ := h 0
  obtain ⟨n', b', k', l', c', h1', h2', h3', h4', h5', rfl⟩ := h' 0
  have e1 := TokenSays.one (v := .ft_balance_of u) hv h1 h1'
  have e2 := VoteSays.one (v := .get_balance u) trivial h2 h2'
  have e3 := VoteSays.one (v := .get_locked_balance u) trivial h3 h3'
  have e4 := VoteSays.one (v := .get_unlocking_balance u) trivial h4 h4'
  have e5 := VoteSays.one (v := .get_claimable_mpdao u) trivial h5 h5'
  subst e1 e2 e3 e4 e5
  rfl

/-- Steps in which `u` spends nothing. -/
inductive Saves (X : Net) (u : String) : World → World → Prop
  | refl (j : World) : Saves X u j j
  | step {j j' j'' : World} (h : Saves X u j j') (hs : Step X j' j'') (hn : ¬ Spends X u j' j'') : Saves X u j j''

theorem Saves.reach (h : Saves X u j j') (hr : Reach X j) : Reach X j' := by
  induction h with
  | refl => exact hr
  | step _ hs _ ih => exact ih.step hs

theorem Reach.told (hX : X.OK) (h : Reach X j) (hV : j.V < 2 ^ 32) (hK : j.K < 2 ^ 32) (hu : ¬ MetaVote.mirrored u)
    (hv : validAccount u = true) : ∃ w, Told X u j w := by
  obtain ⟨-, S, tk, m, hs⟩ := h.sim hX hV hK
  exact ⟨_, hs.told hX h hu (validAccount_fits hv)⟩

/-- **C106** on bytes: an account that spends nothing is never told to have less than before. -/
theorem C106_told_kept (hX : X.OK) (hr : Reach X j) (h : Saves X u j j') (hV : j'.V < 2 ^ 32) (hK : j'.K < 2 ^ 32)
    (hu : ¬ MetaVote.mirrored u) (hme : u ≠ X.me) (hv : validAccount u = true) :
    ∃ w w', Told X u j w ∧ Told X u j' w' ∧ w ≤ w' := by
  induction h with
  | refl =>
    obtain ⟨w, hw⟩ := hr.told hX hV hK hu hv
    exact ⟨w, w, hw, hw, Nat.le_refl _⟩
  | step h hs hn ih =>
    obtain ⟨g1, g2⟩ := hs.le
    obtain ⟨w, w1, h1, h2, h3⟩ := ih (Nat.lt_of_le_of_lt g1 hV) (Nat.lt_of_le_of_lt g2 hK)
    obtain ⟨w2, w3, h4, h5, h6⟩ := C106_told hX (h.reach hr) hs hV hK hu hme hv
    have := h2.one hv h4
    subst this
    exact ⟨w, w3, h1, h5, Nat.le_trans h3 (h6.resolve_right hn)⟩

/-- A step that leaves the token and the transfer-calls alone is no spending. -/
theorem not_spends (hv : validAccount u = true) (h1 : j'.tok X.A = j.tok X.A) (h2 : j'.results = j.results) : ¬ Spends X u j j' := by
  intro h
  cases h with
  | own c name b k out lines hc hr hk h hlt => exact hlt.irrefl hv h1
  | received pre post q r hq hq' ht hr hlt => exact hlt.irrefl hv h1
  | closed pre post q hq hq' => rw [h2, hq] at hq'; simpa using congrArg List.length hq'

/-- In the case of C105 eve's payment is lost for want of gas: eve keeps 50 mpDAO and more. -/
example : ∃ j j', Reach caseNet j ∧ Saves caseNet "eve" j j' ∧ j.sent = [eveOut] ∧ j'.sent = [] ∧ j'.done = j.done ++ [(eveOut, false)] ∧
    ∃ w w', Told caseNet "eve" j w ∧ Told caseNet "eve" j' w' ∧ w ≤ w' ∧ 50000000 ≤ w := by
  obtain ⟨j, h, hV, hK, hs, -⟩ := case_reach
  have hv : validAccount "eve" = true := by decide +kernel
  have hsv := Saves.step (.refl j) (.lost j [] [] eveOut hs) (not_spends (X := caseNet) hv rfl rfl)
  obtain ⟨w, w', h1, h2, h3⟩ := C106_told_kept case_ok h hsv hV hK (by decide +kernel) (by decide) hv
  refine ⟨j, _, h, hsv, hs, rfl, rfl, w, w', h1, h2, h3, ?_⟩
  obtain ⟨n, b, k, l, c, -, -, -, -, -, e⟩ := h1 0
  have : MetaVote.amounts (toward caseNet.A "eve") j.sent = 50000000 := by rw [hs]; decide +kernel
  rw [this] at e
  omega

end Verif.Solvency.Bytes
