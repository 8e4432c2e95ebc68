import Verif.Props.WealthBytes
import Verif.Props.WealthSt

/-!
# C107 by what the contracts answer, in JSON on bytes
-/

namespace Verif.Solvency.Bytes

open Verif Storage Disk Borsh Serde
open Verif.MetaVote (serde)

variable {X : Net} {j j' : World} {u : String}

/-- The stNEAR of the transfer-calls of `u` to meta-vote that it refused and that are not settled. -/
def returningSt (X : Net) (u : String) (l : List (Note × Option Bytes)) : Nat :=
  (l.map fun x => if x.1.token = X.B ∧ x.1.receiver = X.me ∧ x.1.sender = u ∧ x.2 = none then x.1.amount else 0).sum

/-- All the stNEAR of `u`: what the token and meta-vote answer for `u`, and what is on its way. -/
def ToldSt (X : Net) (u : String) (j : World) (w : Nat) : Prop :=
  ∀ now, ∃ n c : Nat, TokenSays (j.tok X.B) (.ft_balance_of u) n ∧ VoteSays X j now (.get_claimable_stnear u) c ∧
    w = n + c + MetaVote.amounts (claim X.B u) j.sent + ranSt X.B u false j.done + returningSt X u j.results

/-- The balance of `u` at the token falls. -/
def FallsSt (X : Net) (u : String) (j j' : World) : Prop :=
  ∃ n n' : Nat, TokenSays (j.tok X.B) (.ft_balance_of u) n ∧ TokenSays (j'.tok X.B) (.ft_balance_of u) n' ∧ n' < n

/-- `u` itself gives tokens away, or a transfer-call is settled that `u` received, or that `u` made before closing the token account. -/
inductive SpendsSt (X : Net) (u : String) (j j' : World) : Prop
  /-- a JSON call of `u` to the token -/
  | own (c : Token.Ctx) (name : String) (b : Bytes) (k : Token.Call) (out : List Token.Promise) (lines : List Token.Line)
      (hc : c.predecessor = u) (hr : Token.Call.read name b = some k) (hk : givingSt k)
      (h : Token.Bytes.callJson (j.tok X.B) c name b = .ok (j'.tok X.B, out, lines)) (hlt : FallsSt X u j j')
  /-- the token takes back what `u` did not use of a transfer-call -/
  | received (pre post : List (Note × Option Bytes)) (q : Note) (r : Option Bytes) (hq : j.results = pre ++ (q, r) :: post)
      (hq' : j'.results = pre ++ post) (ht : q.token = X.B) (hr : q.receiver = u) (hlt : FallsSt X u j j')
  /-- meta-vote refused a transfer-call of `u`, for whom the token answers that there is no account -/
  | closed (pre post : List (Note × Option Bytes)) (q : Note) (hq : j.results = pre ++ (q, none) :: post)
      (hq' : j'.results = pre ++ post) (ht : q.token = X.B) (hs : q.sender = u) (hr : q.receiver = X.me)
      (h : TokenSays (j.tok X.B) (.storage_balance_of u) none)

theorem back_eqSt {l : List (Note × Option Bytes)}
    (h : ∀ x ∈ l, x.1.receiver = X.me → x.2 = some MetaVote.onTransferResult ∨ x.2 = none) :
    back X.me X.B u (l.map heard) = returningSt X u l := by
  unfold back returningSt
  rw [List.map_map]
  congr 1
  refine List.map_congr_left fun x hx => ?_
  obtain ⟨q, r⟩ := x
  simp only [Function.comp]
  by_cases hq : q.receiver = X.me
  · rcases h _ hx hq with e | e
    · simp only at e
      subst e
      rw [heard_accepted]
      simp
    · simp only at e
      subst e
      simp [heard]
  · rw [if_neg (fun e => hq e.2.1), if_neg (fun e => hq e.2.1)]

theorem Sim.toldSt {S : SState} {tk : String → Token.State} {m : String → Token.Bytes.Metadata} (hX : X.OK) (h : Reach X j)
    (hs : Sim X j S tk m) (hv : StrFits u) :
    ToldSt X u j (wealthSt X.me X.B u (abs j S.st tk)) := by
  intro now
  obtain ⟨p, hp, -⟩ := hs.joint.inv.tok X.B (.inr rfl)
  refine ⟨_, _, token_says (hs.rep X.B (.inr rfl)) hp (v := .ft_balance_of u) rfl,
    vote_says hX hs.stored now (v := .get_claimable_stnear u) hv rfl, ?_⟩
  unfold wealthSt
  simp only [abs]
  rw [back_eqSt (C105_answers h)]

theorem FallsSt.irrefl (hv : validAccount u = true) (h : FallsSt X u j j') (e : j'.tok X.B = j.tok X.B) : False := by
  obtain ⟨n, n', h1, h2, h3⟩ := h
  rw [e] at h2
  have := TokenSays.one (v := .ft_balance_of u) hv h1 h2
  subst this
  exact Nat.lt_irrefl _ h3

/-- **C107** on bytes: a step does not lower what an account is told to have in stNEAR, unless the account spends it. -/
theorem C107_told (hX : X.OK) (h : Reach X j) (hs : Step X j j') (hV : j'.V < 2 ^ 32) (hK : j'.K < 2 ^ 32)
    (hu : ¬ MetaVote.mirrored u) (hme : u ≠ X.me) (hv : validAccount u = true) :
    ∃ w w', ToldSt X u j w ∧ ToldSt X u j' w' ∧ (w ≤ w' ∨ SpendsSt X u j j') := by
  obtain ⟨g1, g2⟩ := hs.le
  obtain ⟨hj, S, tk, m, hsim⟩ := h.sim hX (Nat.lt_of_le_of_lt g1 hV) (Nat.lt_of_le_of_lt g2 hK)
  obtain ⟨-, S', tk', hf⟩ := hsim.follow hX hj hs hV hK
  have hsim' : Sim X j' S' tk' m := ⟨hf.mv, hf.stored, hf.rep, hf.minters, hf.notes, hf.results, hsim.joint.step hf.joint⟩
  refine ⟨_, _, hsim.toldSt hX h (validAccount_fits hv), hsim'.toldSt hX (h.step hs) (validAccount_fits hv), ?_⟩
  refine (C107_step hsim.joint hf.joint hu hme).imp id fun hsp => ?_
  obtain ⟨p, hp, -⟩ := hsim.joint.inv.tok X.B (.inr rfl)
  obtain ⟨p', hp', -⟩ := hsim'.joint.inv.tok X.B (.inr rfl)
  have fall : (tk' X.B).ft_balance_of u < (tk X.B).ft_balance_of u → FallsSt X u j j' := fun hlt =>
    ⟨_, _, token_says (hsim.rep X.B (.inr rfl)) hp (v := .ft_balance_of u) rfl,
      token_says (hsim'.rep X.B (.inr rfl)) hp' (v := .ft_balance_of u) rfl, hlt⟩
  cases hsp with
  | received pre post q r hq hq' ht hr hb hlt =>
    obtain ⟨pre', post', r', e1, e2, -⟩ := hs.settled hq hq'
    exact .received pre' post' q r' e1 e2 ht hr (fall hlt)
  | closed pre post q hq hq' ht hsu hr hg =>
    obtain ⟨pre', post', r', e1, e2, e3⟩ := hs.settled hq hq'
    rcases C105_answers h (q, r') (by rw [e1]; simp) hr with e | e
    · simp only at e
      subst e
      have := heard_accepted q
      simp only [heard, e3] at this
      cases this
    · simp only at e
      subst e
      refine .closed pre' post' q e1 e2 ht hsu hr (token_says (hsim.rep X.B (.inr rfl)) hp ?_)
      simp only [abs] at hg
      show Except.ok ((tk X.B).storage_balance_of u) = _
      unfold Token.State.storage_balance_of
      rw [hg]
      rfl
  | own c' k' out' hc' hx' hk' hlt hrest =>
    have hfall := fall hlt
    obtain ⟨r1, r2, r3, r4⟩ := hrest
    simp only [abs] at r1 r2 r3 r4 hx'
    cases hs with
    | token a ha c name b k D' out lines hr hvc hc hme' hself hx =>
      by_cases e : X.B = a
      · subst e
        have hroom : Token.Bytes.Room (tk X.B) k := by
          cases k with
          | add_minter x =>
            have := hsim.minters X.B ha
            simp only [Token.Bytes.adds] at hK
            show (tk X.B).minters.length + 1 < 2 ^ 32
            omega
          | _ => trivial
        have h0 := (Token.Bytes.C99_call (hsim.rep X.B ha) hvc (name := name) (b := b)).2 k hr hroom
        cases he : Token.exec (tk X.B) c k with
        | error e => rw [he] at h0; simp only at h0; rw [hx] at h0; cases h0
        | ok r =>
          rw [he] at h0
          obtain ⟨D1, h1, h2, -⟩ := h0
          rw [hx] at h1
          cases h1
          have hb : (tk' X.B).ft_balance_of u = r.1.ft_balance_of u := by
            have a1 := ((Token.Bytes.C91_views h2).1 u (Token.Bytes.account_id hv)).1
            have a2 := hf.rep X.B ha
            simp only [setAt_self] at a2
            have a3 := ((Token.Bytes.C91_views a2).1 u (Token.Bytes.account_id hv)).1
            exact Except.ok.inj (a3.symm.trans a1)
          have hlt' : r.1.ft_balance_of u < (tk X.B).ft_balance_of u := by rw [← hb]; exact hlt
          have hself' : c.predecessor ≠ c.current := by rw [hc]; exact hself
          have hcu : c.predecessor = u := by
            refine Classical.byContradiction fun hne => ?_
            exact Nat.lt_irrefl _ (Nat.lt_of_lt_of_le hlt' (others_balance hne hself' (s' := r.1) (out := r.2) he))
          exact .own c name b k r.2 _ hcu hr (givesSt_of_less hcu hself' (s' := r.1) (out := r.2) he hlt')
            (by simp only [setAt_self]; exact hx) hfall
      · exact (hfall.irrefl hv (by simp only [setAt_ne _ _ e])).elim
    | settle pre post q r hq =>
      have := congrArg List.length r4
      simp only [List.length_map, hq, List.length_append, List.length_cons] at this
      omega
    | pay pre post t hq =>
      have := congrArg List.length r2
      simp only [List.length_append, List.length_cons, List.length_nil] at this
      omega
    | _ => exact (hfall.irrefl hv rfl).elim

/-- What is told is one amount. -/
theorem ToldSt.one (hv : validAccount u = true) {w w' : Nat} (h : ToldSt X u j w) (h' : ToldSt X u j w') : w = w' := by
  obtain ⟨n, c, h1, h5, rfl⟩ := h 0
  obtain ⟨n', c', h1', h5', rfl⟩ := h' 0
  have e1 := TokenSays.one (v := .ft_balance_of u) hv h1 h1'
  have e5 := VoteSays.one (v := .get_claimable_stnear u) trivial h5 h5'
  subst e1 e5
  rfl

/-- Steps in which `u` spends nothing. -/
inductive SavesSt (X : Net) (u : String) : World → World → Prop
  | refl (j : World) : SavesSt X u j j
  | step {j j' j'' : World} (h : SavesSt X u j j') (hs : Step X j' j'') (hn : ¬ SpendsSt X u j' j'') : SavesSt X u j j''

theorem SavesSt.reach (h : SavesSt X u j j') (hr : Reach X j) : Reach X j' := by
  induction h with
  | refl => exact hr
  | step _ hs _ ih => exact ih.step hs

theorem Reach.toldSt (hX : X.OK) (h : Reach X j) (hV : j.V < 2 ^ 32) (hK : j.K < 2 ^ 32)
    (hv : validAccount u = true) : ∃ w, ToldSt X u j w := by
  obtain ⟨-, S, tk, m, hs⟩ := h.sim hX hV hK
  exact ⟨_, hs.toldSt hX h (validAccount_fits hv)⟩

/-- **C107** on bytes: an account that spends nothing is never told to have less than before. -/
theorem C107_told_kept (hX : X.OK) (hr : Reach X j) (h : SavesSt X u j j') (hV : j'.V < 2 ^ 32) (hK : j'.K < 2 ^ 32)
    (hu : ¬ MetaVote.mirrored u) (hme : u ≠ X.me) (hv : validAccount u = true) :
    ∃ w w', ToldSt X u j w ∧ ToldSt X u j' w' ∧ w ≤ w' := by
  induction h with
  | refl =>
    obtain ⟨w, hw⟩ := hr.toldSt hX hV hK hv
    exact ⟨w, w, hw, hw, Nat.le_refl _⟩
  | step h hs hn ih =>
    obtain ⟨g1, g2⟩ := hs.le
    obtain ⟨w, w1, h1, h2, h3⟩ := ih (Nat.lt_of_le_of_lt g1 hV) (Nat.lt_of_le_of_lt g2 hK)
    obtain ⟨w2, w3, h4, h5, h6⟩ := C107_told hX (h.reach hr) hs hV hK hu hme hv
    have := h2.one hv h4
    subst this
    exact ⟨w, w3, h1, h5, Nat.le_trans h3 (h6.resolve_right hn)⟩

/-- A step that leaves the token and the transfer-calls alone is no spending. -/
theorem not_spendsSt (hv : validAccount u = true) (h1 : j'.tok X.B = j.tok X.B) (h2 : j'.results = j.results) : ¬ SpendsSt X u j j' := by
  intro h
  cases h with
  | own c name b k out lines hc hr hk h hlt => exact hlt.irrefl hv h1
  | received pre post q r hq hq' ht hr hlt => exact hlt.irrefl hv h1
  | closed pre post q hq hq' => rw [h2, hq] at hq'; simpa using congrArg List.length hq'

/-- Tokens in use when meta-vote is installed, and one call to the mpDAO token. -/
theorem first_saves (hX : X.OK) {D0 D D' : Disk} {c : MetaVote.Ctx} {b b' : Bytes} {K : Nat} {tok : String → Disk} {gifts : String → Nat}
    (h : Start X D0 c b D K tok gifts) {c' : Token.Ctx} {name : String} {k : Token.Call} {out : List Token.Promise} {lines : List Token.Line}
    (hr : Token.Call.read name b' = some k) (hv : validAccount c'.predecessor = true) (hc : c'.current = X.A) (hme : c'.predecessor ≠ X.me)
    (hself : c'.predecessor ≠ X.A) (hx : Token.Bytes.callJson (tok X.A) c' name b' = .ok (D', out, lines)) (hu : validAccount u = true) :
    ∃ j j', Reach X j ∧ SavesSt X u j j' ∧ j.tok X.B = tok X.B ∧ j'.tok X.A = D' ∧ j.V = 0 ∧ j'.V = 0 ∧ j.K = K ∧
      j'.K = K + Token.Bytes.adds (.call c' k) := by
  refine ⟨_, _, .init _ _ _ _ _ _ _ h, .step (.refl _) (.token _ X.A (.inl rfl) c' name b' k D' out lines hr hv hc hme hself hx)
    (not_spendsSt hu ?_ rfl), rfl, ?_, rfl, rfl, rfl, rfl⟩
  · exact setAt_ne _ _ hX.ne.symm
  · exact setAt_self _ _ _

theorem fresh_alice : Token.Bytes.viewAll fresh (Token.View.ft_balance_of "alice").write.1 (Token.View.ft_balance_of "alice").write.2 =
    .ok (MetaVote.ascii "\"900000000\"") := by decide +kernel

theorem told_alice {n : Nat} (h : TokenSays fresh (.ft_balance_of "alice") n) : n = 900000000 := by
  obtain ⟨out, -, h4, h5⟩ := h
  have h6 := h5 _ (Token.View.read_write (v := .ft_balance_of "alice") (show validAccount "alice" = true by decide +kernel))
  rw [fresh_alice] at h6
  have h7 : Serde.u128.decode (MetaVote.ascii "\"900000000\"") = some (900000000 : Nat) := by decide +kernel
  have h8 := Except.ok.inj h6
  rw [← h8] at h4
  exact Option.some.inj (h4.symm.trans h7)

/-- Eve's deposit of mpDAO leaves alice their stNEAR, of which they are told. -/
example : ∃ j j', Reach caseNet j ∧ SavesSt caseNet "alice" j j' ∧
    ∃ w w', ToldSt caseNet "alice" j w ∧ ToldSt caseNet "alice" j' w' ∧ w ≤ w' ∧ 900000000 ≤ w := by
  have hv : validAccount "alice" = true := by decide +kernel
  have ht := token_run
  cases hx : tokenStory with
  | error e => rw [hx] at ht; cases ht
  | ok r =>
  obtain ⟨D', out, lines⟩ := r
  obtain ⟨j, j', h, hs, hB, -, hV, hV', hK, hK'⟩ := first_saves (u := "alice") (D' := D') (out := out) (lines := lines) case_ok case_start
    (c' := ⟨"mpdao", "eve", 1, none⟩) (name := "ft_transfer_call") (b' := evePays) (k := .ft_transfer_call "me" 50000000 (MetaVote.ascii "60"))
    (by decide +kernel) (by decide +kernel) rfl (by decide) (by decide)
    (by rw [show caseNet.A = "mpdao" from rfl, disks_mpdao]; exact hx) hv
  obtain ⟨w, w', h1, h2, h3⟩ := C107_told_kept case_ok h hs (by rw [hV']; decide) (by rw [hK']; decide) (by decide +kernel) (by decide) hv
  refine ⟨j, j', h, hs, w, w', h1, h2, h3, ?_⟩
  obtain ⟨n, c, h4, -, e⟩ := h1 0
  rw [hB, show caseNet.B = "stnear" from rfl, disks_stnear] at h4
  have := told_alice h4
  omega

end Verif.Solvency.Bytes
