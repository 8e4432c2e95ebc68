import Verif.Joint.Tokens
import Verif.MetaVote.Trace

/-!
# Solvency of meta-vote with its token contracts: C66
-/

namespace Verif.Solvency

open Verif

variable {J : MetaVote.Json} {me A B : String} {j : World}

/-- **C66**: the mpDAO that the token records for meta-vote (plus what was migrated) is exactly what it owes to its
voters that are not mirrored, the unclaimed mpDAO, the payments that are not executed or that failed and are not yet
given back, the transfer-calls that are on their way or to be refunded, the deposits for mirrored accounts, and what
it got without any call.  -/
theorem C66_mpdao (h : Reach J me A B j) :
    (j.tok A).ft_balance_of me + MetaVote.logCalls (fun _ => MetaVote.migratedBy) j.mv.log
    = MetaVote.heldSum j.mv.st + j.mv.st.get_total_unclaimed_mpdao
      + MetaVote.amounts (fun t => decide (t.token = A)) j.sent + executed A false j.done
      + incoming me A j.notes + refunds me A j.results
      + MetaVote.logCalls (mirroredBy J A) j.mv.log + j.gifts A := by
  have h1 := h.inv.mp
  have h2 := h.stranded.1
  unfold MetaVote.State.get_total_unclaimed_mpdao
  unfold inTok at h1
  omega

/-- **C66**: so what it has covers all of this. -/
theorem C66_covered (h : Reach J me A B j) :
    MetaVote.heldSum j.mv.st + j.mv.st.get_total_unclaimed_mpdao
      + MetaVote.amounts (fun t => decide (t.token = A)) j.sent + executed A false j.done
      + incoming me A j.notes + refunds me A j.results ≤ (j.tok A).ft_balance_of me := by
  have h1 := C66_mpdao h
  have h2 := h.inv.mig
  omega

/-- **C66**: the same for stNEAR. -/
theorem C66_stnear (h : Reach J me A B j) :
    (j.tok B).ft_balance_of me
    = j.mv.st.get_contract_info.total_unclaimed_stnear
      + MetaVote.amounts (fun t => decide (t.token = B)) j.sent + executed B false j.done
      + incoming me B j.notes + refunds me B j.results + j.gifts B := by
  have h1 := h.inv.st
  have h2 := h.stranded.2
  have h3 : j.mv.st.get_contract_info.total_unclaimed_stnear = j.mv.st.total_unclaimed_stnear := rfl
  unfold inTok at h1
  omega

theorem amounts_mem {f : MetaVote.Transfer → Bool} {l : List MetaVote.Transfer} {t : MetaVote.Transfer} (h : t ∈ l)
    (hf : f t = true) : t.amount ≤ MetaVote.amounts f l := by
  obtain ⟨a, b, rfl⟩ := List.append_of_mem h
  rw [MetaVote.amounts_append, MetaVote.amounts_cons, if_pos hf]
  omega

/-- **C66**: a payment of meta-vote never fails for lack of funds: when the token executes it, it is accepted if and
only if the receiver is registered at the token and is not meta-vote itself, and the amount is not 0. -/
theorem C66_payment (h : Reach J me A B j) {t : MetaVote.Transfer} (ht : t ∈ j.sent) :
    Res.isOk (Token.exec (j.tok t.token) ⟨t.token, me, 1, none⟩ (.ft_transfer t.receiver t.amount)) = true ↔
      ((j.tok t.token).accounts.get t.receiver).isSome ∧ t.receiver ≠ me ∧ 0 < t.amount := by
  have hi := h.inv
  have htok := (hi.toks t (hi.pend.symm.subset (List.mem_append_left _ ht))).mem
  have hcov := hi.covers htok
  have hle := amounts_mem (f := inTok t.token) ht (by simp [inTok])
  have hfit := hi.fits htok
  obtain ⟨p, hp, -⟩ := hi.tok t.token htok
  obtain ⟨s1, s2⟩ := hp.inv.sound
  simp only at s1 s2
  have hok : ∀ {x : Res (Token.State × List Token.Promise)}, Res.isOk x = true ↔ ∃ y, x = .ok y := by
    intro x; cases x <;> simp [Res.isOk]
  rw [hok]
  simp only [Token.exec, bind_ok_iff, require_ok_iff, pure_ok_iff, Token.Call.payable, true_or,
    Token.Call.in_range, decide_eq_true_eq]
  constructor
  · rintro ⟨_, -, -, -, -, s', hs, -⟩
    obtain ⟨-, h1, h2, b, b', -, -, -, h6, -⟩ := Token.transfer_ok.1 hs
    exact ⟨by simp [h6], Ne.symm h1, h2⟩
  · rintro ⟨h1, h2, h3⟩
    obtain ⟨b', hb'⟩ := Option.isSome_iff_exists.1 h1
    have hbal : t.amount ≤ (j.tok t.token).ft_balance_of me := by omega
    have hb : ∃ b, (j.tok t.token).accounts.get me = some b := by
      cases hg : (j.tok t.token).accounts.get me with
      | some b => exact ⟨b, rfl⟩
      | none => simp [Token.State.ft_balance_of, hg] at hbal; omega
    obtain ⟨b, hb⟩ := hb
    have hbb : (j.tok t.token).ft_balance_of me = b := by simp [Token.State.ft_balance_of, hb]
    have hsum : b + b' ≤ (j.tok t.token).total_supply := by
      have e1 := Token.held_remove (j.tok t.token).accounts me
      have e2 := Token.held_remove ((j.tok t.token).accounts.remove me) t.receiver
      simp only [UMap.get_remove, if_neg (Ne.symm h2), hb, hb', Option.getD_some] at e1 e2
      rw [s1]; unfold Token.held; omega
    refine ⟨_, (), trivial, (), by omega, _, Token.transfer_ok.2 ⟨rfl, Ne.symm h2, h3, b, b', hb, by omega,
      by omega, hb', by omega, by omega, rfl⟩, rfl⟩

/-- **C66**: a transfer-call to meta-vote is settled for exactly what was not used: all of it if `ft_on_transfer`
panicked, nothing if it was accepted. It is taken from meta-vote, and given to the sender if still registered. -/
theorem C66_refund (h : Reach J me A B j) {q : Note} {r : Option Nat} (hq : (q, r) ∈ j.results)
    (hm : q.receiver = me) :
    ∃ s', Token.exec (j.tok q.token) ⟨q.token, q.token, 0, r⟩ (.ft_resolve_transfer q.sender q.receiver q.amount)
        = .ok (s', []) ∧
      s'.ft_balance_of me + min q.amount (r.getD q.amount) = (j.tok q.token).ft_balance_of me ∧
      (((j.tok q.token).accounts.get q.sender).isSome → s'.ft_balance_of q.sender
        = (j.tok q.token).ft_balance_of q.sender + min q.amount (r.getD q.amount)) := by
  have hi := h.inv
  obtain ⟨hsend, htk⟩ := hi.results _ hq
  obtain ⟨p, hp, hperm⟩ := hi.tok q.token htk
  have hcov := hi.covers htk
  simp only at hcov
  have hle : min q.amount (r.getD q.amount) ≤ refunds me q.token j.results := by
    obtain ⟨a, b, e⟩ := List.append_of_mem hq
    rw [e, refunds_append, refunds_cons, if_pos ⟨rfl, hm⟩]
    simp only
    omega
  have hmem : q.pending ∈ p := by
    refine hperm.symm.subset ?_
    unfold outstanding
    refine List.mem_map.2 ⟨q, List.mem_filter.2 ⟨List.mem_append_right _ (List.mem_map.2 ⟨_, hq, rfl⟩), by simp⟩, rfl⟩
  obtain ⟨s', h1, h2, -, -, -, h5⟩ := Token.C72_settle hp q.pending hmem r
  simp only [Note.pending, hm] at h1 h2 h5 ⊢
  refine ⟨s', h1, by omega, fun hs => ?_⟩
  rw [if_pos hs] at h5
  rw [h5.1]
  omega

/-- **C66**: the amounts that meta-vote returns: nothing unused if it accepted, and a failure otherwise. -/
theorem C66_answers (h : Reach J me A B j) : ∀ x ∈ j.results, x.1.receiver = me → x.2 = some 0 ∨ x.2 = none := by
  induction h with
  | @init j h => exact fun x hx hm => absurd hm (h.results x hx).1
  | @step j j' _ hs ih =>
    cases hs with
    | accept pre post q v' c out hq hr h hlog hc =>
      intro x hx hm
      rcases List.mem_append.1 hx with hx | hx
      · exact ih x hx hm
      · simp only [List.mem_singleton] at hx; rw [hx]; exact .inl rfl
    | reject pre post q hq hr =>
      intro x hx hm
      rcases List.mem_append.1 hx with hx | hx
      · exact ih x hx hm
      · simp only [List.mem_singleton] at hx; rw [hx]; exact .inr rfl
    | other pre post q r hq hr =>
      intro x hx hm
      rcases List.mem_append.1 hx with hx | hx
      · exact ih x hx hm
      · simp only [List.mem_singleton] at hx; rw [hx] at hm; exact absurd hm hr
    | settle pre post q r hq =>
      intro x hx hm
      refine ih x ?_ hm
      rw [hq]; simp only [List.mem_append, List.mem_cons] at *; tauto
    | _ => exact ih

/-- **C66**: in the joint system every failed payment is given back: the callback never overflows. -/
theorem C66_nothing_stranded (h : Reach J me A B j) : MetaVote.logStranded (fun _ => true) j.mv.log = 0 := by
  obtain ⟨h1, h2⟩ := h.stranded
  have key : ∀ l : List MetaVote.Entry, MetaVote.logStranded (fun _ => true) l
      = MetaVote.logStranded (fun t => t.isMpdao) l + MetaVote.logStranded (fun t => !t.isMpdao) l := by
    intro l
    induction l with
    | nil => rfl
    | cons e l ih =>
      cases e with
      | call => simp only [MetaVote.logStranded_call]; exact ih
      | resolved t a b =>
        simp only [MetaVote.logStranded_resolved, ih]
        cases t.isMpdao <;> cases a <;> cases b <;> simp <;> omega
  rw [key, h1, h2]

/-! ## An execution -/

inductive Action where
  | mv (predecessor : String) (deposit timestamp : Nat) (k : MetaVote.Call)
  | token (tk predecessor : String) (deposit : Nat) (k : Token.Call)
  /-- the oldest transfer-call is delivered; it panics if it is rejected -/
  | deliver (timestamp : Nat)
  | settle
  | pay
  | callback (timestamp : Nat)

/-- Not a change of the stNEAR token. -/
def keeps : MetaVote.Call → Bool
  | .set_stnear_contract _ => false
  | _ => true

def act (J : MetaVote.Json) (me A B : String) (j : World) : Action → Option World
  | .mv p d ts k =>
    if p ≠ A ∧ p ≠ B ∧ keeps k = true then
      match MetaVote.act J me j.mv (.call p d ts k), MetaVote.exec J j.mv.st ⟨me, p, d, ts, []⟩ k with
      | some v', .ok r =>
        if MetaVote.logCalls (fun _ => MetaVote.migratedBy) v'.log ≤ j.gifts A then
          some { j with mv := v', sent := j.sent ++ r.2 }
        else none
      | _, _ => none
    else none
  | .token tk p d k =>
    if (tk = A ∨ tk = B) ∧ p ≠ me ∧ p ≠ tk then
      match Token.exec (j.tok tk) ⟨tk, p, d, none⟩ k with
      | .ok r => some { j with tok := setAt j.tok tk r.1, notes := j.notes ++ notesOf tk r.2,
                               gifts := setAt j.gifts tk (j.gifts tk + giftOf me k) }
      | .error _ => none
    else none
  | .deliver ts =>
    match j.notes with
    | [] => none
    | q :: post =>
      if q.receiver = me then
        match MetaVote.act J me j.mv (.call q.token 0 ts (.ft_on_transfer q.sender q.amount q.msg)) with
        | some v' => some { j with mv := v', notes := post, results := j.results ++ [(q, some 0)] }
        | none => some { j with notes := post, results := j.results ++ [(q, none)] }
      else none
  | .settle =>
    match j.results with
    | [] => none
    | (q, r) :: post => some { j with
        results := post
        tok := setAt j.tok q.token ((Token.exec (j.tok q.token) ⟨q.token, q.token, 0, r⟩
          (.ft_resolve_transfer q.sender q.receiver q.amount)).getOr (j.tok q.token, [])).1 }
  | .pay =>
    match j.sent with
    | [] => none
    | t :: post => some { j with
        sent := post
        done := j.done ++ [(t, Res.isOk (Token.exec (j.tok t.token) ⟨t.token, me, 1, none⟩
          (.ft_transfer t.receiver t.amount)))]
        tok := setAt j.tok t.token ((Token.exec (j.tok t.token) ⟨t.token, me, 1, none⟩
          (.ft_transfer t.receiver t.amount)).getOr (j.tok t.token, [])).1 }
  | .callback ts =>
    match j.done with
    | [] => none
    | (t, ok) :: post =>
      match MetaVote.act J me j.mv (.resolve (j.mv.pending.idxOf t) ok ts) with
      | some v' => some { j with mv := v', done := post }
      | none => none

def runs (J : MetaVote.Json) (me A B : String) (j : World) : List Action → Option World
  | [] => some j
  | a :: l => match act J me A B j a with
    | some j' => runs J me A B j' l
    | none => none

theorem act_call {v v' : MetaVote.World} {p : String} {d ts : Nat} {k : MetaVote.Call}
    (h : MetaVote.act J me v (.call p d ts k) = some v') : ∃ r, MetaVote.exec J v.st ⟨me, p, d, ts, []⟩ k = .ok r ∧
      v'.log = .call ⟨me, p, d, ts, []⟩ k r.2 :: v.log := by
  simp only [MetaVote.act] at h
  split at h
  · split at h
    · rename_i r hr; cases h; exact ⟨r, hr, rfl⟩
    · simp at h
  · simp at h

theorem act_resolve {v v' : MetaVote.World} {i ts : Nat} {ok : Bool}
    (h : MetaVote.act J me v (.resolve i ok ts) = some v') : ∃ t b, v.pending[i]? = some t ∧
      v'.log = .resolved t ok b :: v.log := by
  simp only [MetaVote.act] at h
  split at h
  · rename_i t ht
    split at h
    · cases h; exact ⟨t, _, ht, rfl⟩
    · simp at h
  · simp at h

theorem step_of_act {j j' : World} {a : Action} (h : act J me A B j a = some j') : Step J me A B j j' := by
  cases a with
  | mv p d ts k =>
    simp only [act] at h
    split at h
    · rename_i hc
      split at h
      · rename_i v' r hv hr
        split at h
        · rename_i hm
          cases h
          obtain ⟨r', h1, h2⟩ := act_call hv
          rw [h1] at hr; cases hr
          exact .call j v' _ k _ (MetaVote.step_of_act hv).loose h2 hc.1 hc.2.1
            (by rintro a rfl; simp [keeps] at hc) hm
        · simp at h
      · simp at h
    · simp at h
  | token tk p d k =>
    simp only [act] at h
    split at h
    · rename_i hc
      split at h
      · rename_i r hr
        cases h
        exact .token j tk hc.1 _ k r.1 r.2 rfl hc.2.1 hc.2.2 hr
      · simp at h
    · simp at h
  | deliver ts =>
    simp only [act] at h
    split at h
    · simp at h
    · rename_i q post hq
      split at h
      · rename_i hm
        split at h
        · rename_i v' hv
          cases h
          obtain ⟨r', h1, h2⟩ := act_call hv
          have hst := Step.accept (A := A) (B := B) j [] post q v' _ r'.2 hq hm (MetaVote.step_of_act hv).loose h2 rfl
          have ho : r'.2 = [] := by
            obtain ⟨s1, o1⟩ := r'
            obtain ⟨-, -, -, hr⟩ := MetaVote.exec_ok.1 h1
            simp only [MetaVote.run, MetaVote.quiet_ok] at hr
            exact hr.2
          rw [ho, List.append_nil] at hst
          exact hst
        · cases h
          exact .reject j [] post q hq hm
      · simp at h
  | settle =>
    simp only [act] at h
    split at h
    · simp at h
    · rename_i q r post hq
      cases h
      exact .settle j [] post q r hq
  | pay =>
    simp only [act] at h
    split at h
    · simp at h
    · rename_i t post hq
      cases h
      exact .pay j [] post t hq
  | callback ts =>
    simp only [act] at h
    split at h
    · simp at h
    · rename_i t ok post hq
      split at h
      · rename_i v' hv
        cases h
        obtain ⟨t', b, h1, h2⟩ := act_resolve hv
        obtain ⟨hi, e⟩ := List.getElem?_eq_some_iff.1 h1
        rw [List.getElem_idxOf] at e
        subst e
        exact .callback j [] post t ok b v' hq (MetaVote.step_of_act hv).loose h2
      · simp at h

theorem reach_of_runs : ∀ {l : List Action} {j j' : World}, Reach J me A B j → runs J me A B j l = some j' →
    Reach J me A B j'
  | [], j, j', h, hr => by cases hr; exact h
  | a :: l, j, j', h, hr => by
    simp only [runs] at hr
    split at hr
    · rename_i j1 h1
      exact reach_of_runs (h.step (step_of_act h1)) hr
    · simp at hr

/-- Meta-vote just initialized, alice with all the mpDAO, carol with all the stNEAR, nobody else registered. -/
def demo0 : World where
  mv := MetaVote.demo0
  tok := fun tk => if tk = "mpdao" then (Token.new false true 5 "alice" 900000000).getOr ⟨UMap.empty, 0, 0, "", []⟩
    else (Token.new false true 5 "carol" (5 * 10 ^ 27)).getOr ⟨UMap.empty, 0, 0, "", []⟩
  sent := []
  done := []
  notes := []
  results := []
  gifts := fun _ => 0

theorem demo0_init : Init "me" "mpdao" "stnear" demo0 where
  mv := MetaVote.demo0_init
  mpdao := rfl
  stnear := rfl
  ne := by decide
  meA := by decide
  meB := by decide
  tok := by
    rintro tk (rfl | rfl)
    · refine ⟨[], .init (.mk 5 "alice" 900000000 _ (by decide) ?_), .refl _⟩
      rfl
    · refine ⟨[], .init (.mk 5 "carol" (5 * 10 ^ 27) _ (by decide) ?_), .refl _⟩
      rfl
  sent := rfl
  done := rfl
  notes := by simp [demo0]
  results := by simp [demo0]
  gifts := by
    intro tk _
    by_cases h : tk = "mpdao"
    · subst h; decide +kernel
    · have e : demo0.tok tk = demo0.tok "stnear" := by simp [demo0, h]
      rw [e]; show 0 = _; decide +kernel

/-- mpDAO is sent for a migration, positions are migrated for bob, alice deposits 40 mpDAO, a deposit of 10 units is
refused, stNEAR is distributed; bob and alice withdraw, bob's payment fails because bob is not registered at the token,
alice deposits again, and bob claims stNEAR. -/
def demoActs : List Action :=
  [ .token "mpdao" "alice" 5 (.storage_deposit (some "me") none),
    .token "stnear" "carol" 5 (.storage_deposit (some "me") none),
    .token "mpdao" "alice" 1 (.ft_transfer "me" 6000000),
    .mv "old-gov" 0 1000 (.migration_create_lps "bob" [(5 * 10 ^ 24, 30)] none),
    .token "mpdao" "alice" 1 (.ft_transfer_call "me" 40000000 (MetaVote.ascii "30")),
    .token "mpdao" "alice" 1 (.ft_transfer_call "me" 10 (MetaVote.ascii "30")),
    .deliver 2000, .deliver 3000, .settle,
    .token "stnear" "carol" 1 (.ft_transfer_call "me" 1200000000000000000000 (MetaVote.FOR_CLAIMS ++ [49])),
    .deliver 4000, .settle, .settle,
    .mv "bob" 0 5000 (.unlock_position 0),
    .mv "alice" 0 5000 (.unlock_partial_position 0 15000000),
    .mv "bob" 1 (40 * MetaVote.DAY) .withdraw_all,
    .mv "alice" 1 (40 * MetaVote.DAY) .withdraw_all,
    .pay, .pay,
    .token "mpdao" "alice" 1 (.ft_transfer_call "me" 7000000 (MetaVote.ascii "60")),
    .token "mpdao" "alice" 1 (.ft_transfer_call "me" 3 (MetaVote.ascii "60")),
    .mv "bob" 0 (41 * MetaVote.DAY) (.claim_stnear 300000000000000000000),
    .deliver (42 * MetaVote.DAY) ]

def demo : World := (runs MetaVote.demoJ "me" "mpdao" "stnear" demo0 demoActs).get (by decide +kernel)

theorem demo_reach : Reach MetaVote.demoJ "me" "mpdao" "stnear" demo :=
  reach_of_runs (.init demo0_init) (Option.some_get _).symm

example : (demo.tok "mpdao").ft_balance_of "me" = 38000003 ∧ MetaVote.heldSum demo.mv.st = 32000000 ∧
    MetaVote.logCalls (fun _ => MetaVote.migratedBy) demo.mv.log = 5000000 ∧ demo.gifts "mpdao" = 6000000 ∧
    demo.done.map (fun x => (x.1.receiver, x.1.amount, x.2)) = [("bob", 5000000, false), ("alice", 15000000, true)] ∧
    incoming "me" "mpdao" demo.notes = 3 ∧ demo.results.map (fun x => (x.1.amount, x.2)) = [(7000000, some 0)] ∧
    demo.sent.map (·.amount) = [300000000000000000000] ∧
    (demo.tok "stnear").ft_balance_of "me" = 1200000000000000000000 ∧
    demo.mv.st.get_contract_info.total_unclaimed_stnear = 900000000000000000000 := by decide +kernel

/-- bob's claim of stNEAR can be paid if bob is registered at the token, which is not yet so. -/
example : ((demo.tok "stnear").accounts.get "bob").isSome = false ∧
    (demo.sent.map (·.receiver)) = ["bob"] := by decide +kernel

end Verif.Solvency
