import Verif.Serde.Wire

/-!
# Histories of meta-vote in JSON

Every call is a method name with JSON input, made by an existing account (or by the contract itself, for a callback).
-/

namespace Verif.MetaVote

open Verif Storage Serde

/-- A call by method name and input, as `#[near_bindgen]` dispatches it. -/
def callJson (s : State) (c : Ctx) (name : String) (b : Bytes) : Res (State × List Transfer) := do
  let k ← expect (Call.read name b) "Failed to deserialize input from JSON."
  exec serde s c k

/-- One step, as `Step`, with calls as bytes. -/
inductive JStep (me : AccountId) : World → World → Prop
  | call (w : World) (c : Ctx) (name : String) (b : Bytes) (k : Call) (s' : State) (out : List Transfer)
      (hb : Call.read name b = some k) (hv : validAccount c.predecessor = true)
      (hme : c.current = me) (hres : c.promise_results = []) (hm : ¬ mirrored c.predecessor)
      (hclock : w.clock ≤ c.timestamp) (hu64 : c.timestamp ≤ U64_MAX)
      (hexec : callJson w.st c name b = .ok (s', out)) :
      JStep me w ⟨s', w.pending ++ out, c.timestamp, .call c k out :: w.log⟩
  /-- the callback of a payment, as the bytes that meta-vote wrote -/
  | resolve (w : World) (pre post : List Transfer) (t : Transfer) (ok : Bool) (ts : Nat)
      (hpend : w.pending = pre ++ t :: post) (hclock : w.clock ≤ ts) (hu64 : ts ≤ U64_MAX) :
      JStep me w ⟨((callJson w.st ⟨me, me, 0, ts, [ok]⟩ t.callbackCall.write.1 t.callbackCall.write.2).getOr (w.st, [])).1,
        pre ++ post, ts, .resolved t ok
          (Res.isOk (callJson w.st ⟨me, me, 0, ts, [ok]⟩ t.callbackCall.write.1 t.callbackCall.write.2)) :: w.log⟩
  | tick (w : World) (ts : Nat) (hclock : w.clock ≤ ts) (hu64 : ts ≤ U64_MAX) : JStep me w { w with clock := ts }

/-- The world just after `new` with input `b` (`lib.rs:71`). -/
inductive JInit : World → Prop
  | mk (b : Bytes) (o op : AccountId) (p q d l v : Nat) (m st : AccountId) (r : Nat) (g : String) (ts : Nat) (s : State)
      (hb : Call.read "new" b = some (.new_ o op p q d l v m st r g)) (hts : ts ≤ U64_MAX)
      (h : new false o op p q d l v m st r g = .ok s) : JInit ⟨s, [], ts, []⟩

inductive JReach (me : AccountId) : World → Prop
  | init {w : World} (h : JInit w) : JReach me w
  | step {w w' : World} (h : JReach me w) (hs : JStep me w w') : JReach me w'

inductive JSteps (me : AccountId) (w : World) : World → Prop
  | refl : JSteps me w w
  | step {w1 w2 : World} (h : JSteps me w w1) (hs : JStep me w1 w2) : JSteps me w w2

end Verif.MetaVote
