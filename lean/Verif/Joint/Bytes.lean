import Verif.Serde.BytesApi
import Verif.Serde.MpipBytesApi

/-!
# Mpip and meta-vote side by side as deployed: JSON calls, state in bytes, JSON between them

Every call is a method name and input bytes, the state of each contract is the bytes of its storage, and a question of mpip is
a receipt of its own: it travels to the contract it is addressed to, is answered there from the bytes of storage at that moment,
and the answer travels back.  Mpip may be pointed to another contract by its administration; then the answer is whatever that
contract says.  Simplification: the two clocks are not tied together, which only allows more executions.
-/

namespace Verif.MetaVote.Bytes

open Verif Storage Disk Borsh Serde

/-- One thing that happens to meta-vote on chain: the steps of `JReach`. -/
inductive JStep (H : Hash) (N : Names) (me : AccountId) : Nat → BWorld → Nat → BWorld → Prop
  | call {W : Nat} {w : BWorld} (c : Ctx) (name : String) (b : Bytes) (k : Call) (D' : Disk)
      (out : List Transfer) (hr : Call.read name b = some k) (hv : validAccount c.predecessor = true)
      (hme : c.current = me) (hres : c.promise_results = []) (hm : ¬ mirrored c.predecessor)
      (hclock : w.clock ≤ c.timestamp) (hu64 : c.timestamp ≤ U64_MAX) (hlen : b.length < 2 ^ 31) (hk : Named N k)
      (hexec : callJson H w.D c name b = .ok (D', out)) :
      JStep H N me W w (W + weight serde k) ⟨D', w.pending ++ out, c.timestamp, .call c k out :: w.log⟩
  | resolve {W : Nat} {w : BWorld} (pre post : List Transfer) (t : Transfer) (ok : Bool) (ts : Nat)
      (hpend : w.pending = pre ++ t :: post) (hclock : w.clock ≤ ts) (hu64 : ts ≤ U64_MAX) :
      JStep H N me W w (W + 3)
        ⟨((callJson H w.D ⟨me, me, 0, ts, [ok]⟩ t.callbackCall.write.1 t.callbackCall.write.2).getOr (w.D, [])).1, pre ++ post, ts,
          .resolved t ok (Res.isOk (callJson H w.D ⟨me, me, 0, ts, [ok]⟩ t.callbackCall.write.1 t.callbackCall.write.2)) :: w.log⟩
  | tick {W : Nat} {w : BWorld} (ts : Nat) (hclock : w.clock ≤ ts) (hu64 : ts ≤ U64_MAX) :
      JStep H N me W w W { w with clock := ts }

/-- Nothing is required of the calls. -/
def anyCall (_ _ : Disk) (_ : Ctx) (_ : Call) : Prop := True

theorem JReach.next {H : Hash} {N : Names} {me : AccountId} {W W' : Nat} {w w' : BWorld} (h : JReach H N me anyCall W w)
    (hs : JStep H N me W w W' w') : JReach H N me anyCall W' w' := by
  cases hs with
  | call c name b k D' out hr hv hme hres hm hclock hu64 hlen hk hexec =>
    exact .call h c name b k D' out hr hv hme hres hm hclock hu64 hlen hk hexec trivial
  | resolve pre post t ok ts hpend hclock hu64 => exact .resolve h pre post t ok ts hpend hclock hu64
  | tick ts hclock hu64 => exact .tick h ts hclock hu64

end Verif.MetaVote.Bytes

namespace Verif.Joint.Bytes

open Verif Storage Disk Borsh Serde

/-- The hash used for storage keys, the names whose keys do not collide, and the ids of the two contracts. -/
structure Net where
  H : Hash
  Nv : MetaVote.Bytes.Names
  Np : Mpip.Bytes.Names
  vote : String
  gov : String

/-- No collisions among the names, and both contracts are accounts. -/
structure Net.OK (X : Net) : Prop where
  nv : X.Nv.OK X.H
  np : X.Np.OK X.H
  vote : validAccount X.vote = true
  gov : validAccount X.gov = true

/-- Both contracts and the receipts between them: questions on the way to meta-vote, and answers on the way back.  `V` and `P`
bound the entries that were added to a collection of meta-vote and of mpip. -/
structure World where
  V : Nat
  mv : MetaVote.Bytes.BWorld
  P : Nat
  mp : Mpip.Bytes.BWorld
  asked : List Mpip.Pending
  answered : List (Mpip.Pending × Mpip.Reply)

/-- The result of a receipt: a panic is a failed promise. -/
def replyOf : Res Bytes → Mpip.Reply
  | .ok b => .successful b
  | .error _ => .failed

/-- What meta-vote replies from the bytes of its storage to a question of mpip (`mpip-contract/src/interface.rs:5-11`,
`meta-vote-contract/src/view.rs:67-69`, `180-190`). -/
def told (X : Net) (j : World) (now : Nat) (q : Mpip.Query) : Mpip.Reply :=
  replyOf (MetaVote.Bytes.viewAll X.H j.mv.D now q.write.1 q.write.2)

/-- One thing that happens. -/
inductive Step (X : Net) : World → World → Prop
  /-- meta-vote is called, or a payment of it is resolved, or time passes there -/
  | mv (j : World) (V' : Nat) (v' : MetaVote.Bytes.BWorld) (h : MetaVote.Bytes.JStep X.H X.Nv X.vote j.V j.mv V' v') :
      Step X j { j with V := V', mv := v' }
  /-- mpip is called by an account with JSON; its questions set out -/
  | call (j : World) (c : Mpip.Ctx) (name : String) (b : Bytes) (k : Mpip.Call) (D' : Disk)
      (out : List Mpip.Promise) (hr : Mpip.Call.read name b = some k) (hv : validAccount c.predecessor = true)
      (hs : validAccount c.signer = true)
      (hme : c.current = X.gov) (hres : c.results = []) (hclock : j.mp.clock ≤ c.timestamp) (hu64 : c.timestamp ≤ U64_MAX)
      (hlen : b.length < 2 ^ 31) (hk : Mpip.Bytes.Named X.Np c k) (hexec : Mpip.Bytes.callJson X.H j.mp.D c name b = .ok (D', out)) :
      Step X j { j with
        P := j.P + 4
        mp := ⟨D', j.mp.pending ++ Mpip.asked c.signer out, c.timestamp, .call c k out :: j.mp.log⟩
        asked := j.asked ++ Mpip.asked c.signer out }
  /-- meta-vote answers a question that is addressed to it -/
  | answer (j : World) (pre post : List Mpip.Pending) (q : Mpip.Pending) (now : Nat) (hq : j.asked = pre ++ q :: post)
      (hc : q.contract = X.vote) :
      Step X j { j with asked := pre ++ post, answered := j.answered ++ [(q, told X j now q.query)] }
  /-- another contract answers, or the question fails (gas) -/
  | other (j : World) (pre post : List Mpip.Pending) (q : Mpip.Pending) (r : Mpip.Reply) (hq : j.asked = pre ++ q :: post)
      (hc : q.contract ≠ X.vote ∨ r = .failed) :
      Step X j { j with asked := pre ++ post, answered := j.answered ++ [(q, r)] }
  /-- an answer arrives and the callback runs with the bytes that mpip wrote for it -/
  | reply (j : World) (pre post : List (Mpip.Pending × Mpip.Reply)) (q : Mpip.Pending) (r : Mpip.Reply) (pre' post' : List Mpip.Pending)
      (ts : Nat) (hq : j.answered = pre ++ (q, r) :: post) (hpend : j.mp.pending = pre' ++ q :: post') (hclock : j.mp.clock ≤ ts)
      (hu64 : ts ≤ U64_MAX) :
      Step X j { j with
        P := j.P + 4
        mp := ⟨((Mpip.Bytes.callJson X.H j.mp.D (Mpip.replyCtx X.gov q ts r) q.callback.write.1 q.callback.write.2).getOr
            (j.mp.D, [])).1, pre' ++ post', ts,
          .replied q ts r (Res.isOk (Mpip.Bytes.callJson X.H j.mp.D (Mpip.replyCtx X.gov q ts r) q.callback.write.1
            q.callback.write.2)) :: j.mp.log⟩
        answered := pre ++ post }
  /-- time passes for mpip -/
  | tick (j : World) (ts : Nat) (hclock : j.mp.clock ≤ ts) (hu64 : ts ≤ U64_MAX) :
      Step X j { j with mp := { j.mp with clock := ts } }

/-- Meta-vote may have a history when mpip is installed. -/
inductive Reach (X : Net) : World → Prop
  | init (V : Nat) (v : MetaVote.Bytes.BWorld) (hv : MetaVote.Bytes.JReach X.H X.Nv X.vote MetaVote.Bytes.anyCall V v)
      (D D' : Disk) (c : Mpip.Ctx) (b : Bytes) (hb : Mpip.Bytes.Blank X.H X.Np D) (hu64 : c.timestamp ≤ U64_MAX)
      (hexec : Mpip.Bytes.callJson X.H D c "new" b = .ok (D', [])) : Reach X ⟨V, v, 0, ⟨D', [], c.timestamp, []⟩, [], []⟩
  | step {j j' : World} (h : Reach X j) (hs : Step X j j') : Reach X j'

/-- Later worlds. -/
inductive Steps (X : Net) (j : World) : World → Prop
  | refl : Steps X j j
  | step {j1 j2 : World} (h : Steps X j j1) (hs : Step X j1 j2) : Steps X j j2

variable {X : Net}

theorem Reach.mv {j : World} (h : Reach X j) : MetaVote.Bytes.JReach X.H X.Nv X.vote MetaVote.Bytes.anyCall j.V j.mv := by
  induction h with
  | init V v hv => exact hv
  | step _ hs ih => cases hs with
    | mv V' v' h => exact ih.next h
    | call | answer | other | reply | tick => exact ih

theorem Reach.mp {j : World} (h : Reach X j) : Mpip.Bytes.JReach X.H X.Np X.gov j.P j.mp := by
  induction h with
  | init V v hv D D' c b hb hu64 hexec => exact .init D D' c b hb hu64 hexec
  | step _ hs ih => cases hs with
    | mv | answer | other => exact ih
    | call c name b k D' out hr hv hs hme hres hclock hu64 hlen hk hexec =>
      exact .call ih c name b k D' out hr hv hs hme hres hclock hu64 hlen hk hexec
    | reply pre post q r pre' post' ts hq hpend hclock hu64 => exact .reply ih pre' post' q r ts hpend hclock hu64
    | tick ts hclock hu64 => exact .tick ih ts hclock hu64

theorem Step.le {j j' : World} (h : Step X j j') : j.V ≤ j'.V ∧ j.P ≤ j'.P := by
  cases h with
  | mv V' v' h => cases h <;> exact ⟨by simp, Nat.le_refl _⟩
  | call | answer | other | reply | tick => simp

theorem Steps.le {j j' : World} (h : Steps X j j') : j.V ≤ j'.V ∧ j.P ≤ j'.P := by
  induction h with
  | refl => exact ⟨Nat.le_refl _, Nat.le_refl _⟩
  | step _ hs ih => exact ⟨ih.1.trans hs.le.1, ih.2.trans hs.le.2⟩

theorem Steps.trans {j j' j'' : World} (h : Steps X j j') (h' : Steps X j' j'') : Steps X j j'' := by
  induction h' with
  | refl => exact h
  | step _ hs ih => exact ih.step hs

theorem Reach.steps {j j' : World} (h : Reach X j) (hs : Steps X j j') : Reach X j' := by
  induction hs with
  | refl => exact h
  | step _ hs ih => exact ih.step hs

/-- The questions of mpip that wait for their callback are those on the way and those answered. -/
theorem Reach.flight {j : World} (h : Reach X j) : j.mp.pending.Perm (j.asked ++ j.answered.map (·.1)) := by
  induction h with
  | init => exact .refl _
  | @step j j' _ hs ih => cases hs with
    | mv | tick => exact ih
    | call c name b k D' out =>
      refine (ih.append_right _).trans ?_
      simp only [List.append_assoc]
      exact List.perm_append_comm.append_left _
    | answer pre post q now hq | other pre post q r hq =>
      refine ih.trans ?_
      simp only [hq, List.map_append, List.map_cons, List.map_nil, ← List.append_assoc]
      refine List.Perm.trans ?_ (List.perm_append_comm (l₁ := [q]))
      simp only [List.append_assoc, List.cons_append]
      exact List.perm_middle
    | reply pre post q r pre' post' ts hq hpend =>
      rw [hpend, hq] at ih
      simp only [List.map_append, List.map_cons, ← List.append_assoc] at ih ⊢
      exact (List.perm_cons q).1 ((List.perm_middle.symm.trans ih).trans List.perm_middle)

end Verif.Joint.Bytes
