import Verif.Mpip.PropInv
import Verif.MetaVote.Trace
import Verif.MetaVote.Guard

/-!
# The mpip contract together with the meta-vote contract it asks

Both contracts run side by side.  A question of the mpip contract to meta-vote is answered from the state meta-vote
has at some moment between the call that asked and the callback, as receipts are executed on NEAR; it may also fail
(gas).  Assumed: the mpip contract keeps pointing to this meta-vote contract.  Simplification: the two clocks are
not tied together, which only allows more executions.
-/

namespace Verif.Joint

open Verif

/-- Both contracts; with every question in flight the meta-vote world in which it was asked. -/
structure World where
  mv : MetaVote.World
  mp : Mpip.World
  asked : List (Mpip.Pending × MetaVote.World)

/-- The answer that meta-vote gives in a state, as JSON bytes (`meta-vote-contract/src/view.rs:67-69`, `180-190`). -/
def Answers (J : Mpip.Json) (s : MetaVote.State) : Mpip.Query → Mpip.Reply → Prop
  | _, .failed => True
  | .get_all_locking_positions v, .successful b => ∃ now, J.positions b = some (s.get_all_locking_positions now v)
  | .get_total_voting_power, .successful b => J.total b = some s.get_total_voting_power

/-- One step of the joint system; `vote` and `gov` are the account ids of meta-vote and mpip. -/
inductive Step (Jv : MetaVote.Json) (J : Mpip.Json) (vote gov : String) : World → World → Prop
  /-- meta-vote does something -/
  | mv (j : World) (v' : MetaVote.World) (h : MetaVote.Step Jv vote j.mv v') :
      Step Jv J vote gov j { j with mv := v' }
  /-- a call to mpip is accepted -/
  | call (j : World) (p' : Mpip.World) (c : Mpip.Ctx) (k : Mpip.Call) (out : List Mpip.Promise)
      (h : Mpip.Step J gov j.mp p') (hlog : p'.log = .call c k out :: j.mp.log)
      (hk : ∀ a, k = .update_meta_vote_contract_address a → a = vote) :
      Step Jv J vote gov j ⟨j.mv, p', j.asked ++ (Mpip.asked c.signer out).map (fun q => (q, j.mv))⟩
  /-- an answer, computed in world `m`, reaches mpip -/
  | reply (j : World) (p' : Mpip.World) (pre post : List (Mpip.Pending × MetaVote.World)) (q : Mpip.Pending)
      (w0 m : MetaVote.World) (ts : Nat) (r : Mpip.Reply) (b : Bool)
      (h : Mpip.Step J gov j.mp p') (hlog : p'.log = .replied q ts r b :: j.mp.log)
      (hq : j.asked = pre ++ (q, w0) :: post)
      (h0 : MetaVote.Steps Jv vote w0 m) (h1 : MetaVote.Steps Jv vote m j.mv) (hr : Answers J m.st q.query r) :
      Step Jv J vote gov j ⟨j.mv, p', pre ++ post⟩
  /-- time passes for mpip -/
  | tick (j : World) (p' : Mpip.World) (h : Mpip.Step J gov j.mp p') (hlog : p'.log = j.mp.log) :
      Step Jv J vote gov j { j with mp := p' }

/-- Reachable: mpip is initialized with this meta-vote contract, which may have a history. -/
inductive Reach (Jv : MetaVote.Json) (J : Mpip.Json) (vote gov : String) : World → Prop
  | init (v : MetaVote.World) (p : Mpip.World) (hv : MetaVote.Reach Jv vote v) (hp : Mpip.Init p)
      (ha : p.st.meta_vote_contract_address = vote) : Reach Jv J vote gov ⟨v, p, []⟩
  | step {j j' : World} (h : Reach Jv J vote gov j) (hs : Step Jv J vote gov j j') : Reach Jv J vote gov j'

variable {Jv : MetaVote.Json} {J : Mpip.Json} {vote gov : String}

theorem read_positions_some {J : Mpip.Json} {b : List UInt8} {l : List MetaVote.LockingPositionJSON}
    (h : J.positions b = some l) : J.read_positions b = some l ∨ J.read_positions b = none := by
  unfold Mpip.Json.read_positions
  rw [h, Option.filter_some]
  split <;> simp

theorem read_total_some {J : Mpip.Json} {b : List UInt8} {n k : Nat} (h : J.total b = some n)
    (hr : J.read_total b = some k) : k = n := by
  unfold Mpip.Json.read_total at hr
  rw [h, Option.filter_some] at hr
  split at hr <;> simp_all

theorem Reach.mv {j : World} (h : Reach Jv J vote gov j) : MetaVote.Reach Jv vote j.mv := by
  induction h with
  | init _ _ hv _ _ => exact hv
  | step _ hs ih =>
    cases hs with
    | mv v' h => exact ih.step h
    | call => exact ih
    | reply => exact ih
    | tick => exact ih

theorem Reach.mp {j : World} (h : Reach Jv J vote gov j) : Mpip.Reach J gov j.mp := by
  induction h with
  | init _ _ _ hp _ => exact .init hp
  | step _ hs ih =>
    cases hs with
    | mv => exact ih
    | call _ _ _ _ h => exact ih.step h
    | reply _ _ _ _ _ _ _ _ _ h => exact ih.step h
    | tick _ h => exact ih.step h

/-- The questions in flight of mpip are those recorded with their worlds (up to order). -/
theorem Reach.asked {j : World} (h : Reach Jv J vote gov j) : j.mp.pending.Perm (j.asked.map (·.1)) := by
  induction h with
  | init _ _ _ hp _ => rw [hp.empty.2.2.2.2.2.1]; exact .refl _
  | @step j j' _ hs ih =>
    cases hs with
    | mv => exact ih
    | call p' c k out h hlog hk =>
      cases h with
      | call c1 k1 s1 out1 =>
        simp only [List.cons.injEq, Mpip.Entry.call.injEq, and_true] at hlog
        obtain ⟨rfl, rfl, rfl⟩ := hlog
        simp only [List.map_append, List.map_map]
        refine ih.append ?_
        rw [show ((fun x : Mpip.Pending × MetaVote.World => x.1) ∘ fun q => (q, j.mv)) = id from rfl, List.map_id]
      | reply => simp at hlog
      | tick => exact absurd (congrArg List.length hlog) (by simp)
    | reply p' pre post q w0 m ts r b h hlog hq h0 h1 hr =>
      cases h with
      | call => simp at hlog
      | reply pre1 post1 q1 r1 ts1 hpend =>
        simp only [List.cons.injEq, Mpip.Entry.replied.injEq, and_true] at hlog
        obtain ⟨rfl, -⟩ := hlog
        rw [hpend, hq] at ih
        simp only [List.map_append, List.map_cons] at ih ⊢
        exact List.perm_cons q1 |>.1 ((List.perm_middle.symm.trans ih).trans List.perm_middle)
      | tick => exact absurd (congrArg List.length hlog) (by simp)
    | tick p' h hlog =>
      cases h with
      | call => exact absurd (congrArg List.length hlog) (by simp)
      | reply => exact absurd (congrArg List.length hlog) (by simp)
      | tick => exact ih

/-- mpip keeps pointing to this meta-vote contract. -/
theorem Reach.address {j : World} (h : Reach Jv J vote gov j) : j.mp.st.meta_vote_contract_address = vote := by
  induction h with
  | init _ _ _ _ ha => exact ha
  | @step j j' hj hs ih =>
    have key : ∀ {s s' : Mpip.State} {c : Mpip.Ctx} {k : Mpip.Call} {out : List Mpip.Promise},
        (∀ a, k = .update_meta_vote_contract_address a → a = vote) → s.meta_vote_contract_address = vote →
        Mpip.exec J s c k = .ok (s', out) → s'.meta_vote_contract_address = vote := by
      intro s s' c k out hk hs he
      have hch := Mpip.exec_change he
      cases hch with
      | config =>
        obtain ⟨-, -, -, hx⟩ := Mpip.exec_ok.1 he
        cases k <;> simp only [Mpip.run, Mpip.quiet_ok, Mpip.sends_ok] at hx
        case new_ => simp [Mpip.new] at hx
        case update_meta_vote_contract_address a =>
          obtain rfl := hk a rfl
          simp only [Mpip.State.update_meta_vote_contract_address, bind_ok_iff, pure_ok_iff] at hx
          obtain ⟨⟨-, -, rfl⟩, -⟩ := hx
          rfl
        case process_voting_status =>
          simp only [Mpip.State.process_voting_status, bind_ok_iff] at hx
          obtain ⟨⟨-, -, b, -, hx⟩, -⟩ := hx
          split at hx
          · cases hx; exact hs
          · simp only [bind_ok_iff, expect_ok_iff] at hx
            obtain ⟨p, -, e, -, hx⟩ := hx
            split at hx
            · simp only [bind_ok_iff] at hx
              obtain ⟨q, -, hx⟩ := hx
              split at hx <;> cases hx <;> exact hs
            · cases hx; exact hs
        all_goals
          obtain ⟨hx, -⟩ := hx
          simp only [Mpip.State.update_open_for_new_mpips, Mpip.State.update_operator_role,
            Mpip.State.update_admin_role, Mpip.State.pay_to_account, Mpip.State.update_voting_period,
            Mpip.State.update_min_meta_amount, Mpip.State.update_min_voting_power_amount,
            Mpip.State.update_mpip_storage_near, Mpip.State.update_quorum_floor, Mpip.State.start_voting_period,
            Mpip.State.start_voting_period_callback, Mpip.State.create_proposal, Mpip.State.create_proposal_callback,
            Mpip.State.cancel_proposal, Mpip.State.update_proposal, Mpip.State.vote_proposal,
            Mpip.State.vote_proposal_callback, Mpip.State.remove_vote_proposal, bind_ok_iff, pure_ok_iff] at hx
          try (
            obtain ⟨_, _, hx⟩ := hx
            repeat (first | (cases hx; exact hs) | obtain ⟨_, _, hx⟩ := hx))
      | started => exact hs
      | created => exact hs
      | canceled => exact hs
      | edited => exact hs
      | voted => exact hs
      | unvoted => exact hs
      | executed => exact hs
    cases hs with
    | mv => exact ih
    | call p' c k out h hlog hk =>
      cases h with
      | call c1 k1 s1 out1 _ _ _ _ he =>
        simp only [List.cons.injEq, Mpip.Entry.call.injEq, and_true] at hlog
        obtain ⟨rfl, rfl, rfl⟩ := hlog
        exact key hk ih he
      | reply => simp at hlog
      | tick => exact ih
    | reply p' pre post q w0 m ts r b h hlog hq h0 h1 hr =>
      cases h with
      | call => simp at hlog
      | reply pre1 post1 q1 r1 ts1 hpend =>
        have hpr := Mpip.pending_private hj.mp (p := q1) (by rw [hpend]; simp)
        simp only
        cases he : Mpip.exec J j.mp.st (Mpip.replyCtx gov q1 ts1 r1) q1.callback with
        | error e => exact ih
        | ok x =>
          exact key (by intro a ha; rw [ha] at hpr; simp [Mpip.Call.is_private] at hpr) ih he
      | tick => exact ih
    | tick p' h hlog =>
      cases h with
      | call => exact absurd (congrArg List.length hlog) (by simp)
      | reply => exact absurd (congrArg List.length hlog) (by simp)
      | tick => exact ih

end Verif.Joint
