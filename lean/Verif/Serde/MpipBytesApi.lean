import Verif.Serde.Wire
import Verif.Serde.MpipViews
import Verif.Serde.Fits
import Verif.Mpip.BytesWorld
import Verif.Mpip.BytesView

/-!
# Mpip with its inputs, its storage and its answers in bytes
-/

namespace Verif.Mpip.Bytes

open Verif Storage Disk Borsh Serde

/-- A view on the bytes of storage (`Mpip/Bytes.lean`).  `VoteJson` carries the id of the voter that was asked for
(`vote.rs:51-60`). -/
def answer (H : Hash) (D : Disk) (c : Ctx) : (v : View) → Res v.Out
  | .get_my_proposals proposer_id => view D fun x => x.get_my_proposals proposer_id
  | .check_proposal_threshold voting_power => view D fun x => pure (x.check_proposal_threshold voting_power)
  | .get_mpip_storage_near => view D fun x => pure x.get_mpip_storage_near
  | .get_proposal_votes mpip_id => view D fun x => x.get_proposal_votes H mpip_id
  | .get_quorum_reached mpip_id => view D fun x => x.get_quorum_reached H c mpip_id
  | .get_proposal_vote_succeeded mpip_id => view D fun x => x.get_proposal_vote_succeeded H mpip_id
  | .get_proposal_state mpip_id => view D fun x => x.get_proposal_state H c.now mpip_id
  | .get_proposal mpip_id => view D fun x => x.get_proposal mpip_id
  | .get_proposals from_index limit => view D fun x => x.get_proposals from_index limit
  | .get_user_proposals_ids proposer_id => view D fun x => x.get_user_proposals_ids proposer_id
  | .get_last_proposal_id => view D fun x => x.get_last_proposal_id
  | .get_quorum_floor => view D fun x => pure x.get_quorum_floor
  | .get_proposal_threshold => view D fun x => pure x.get_proposal_threshold
  | .get_total_voters => view D fun x => pure x.get_total_voters
  | .get_proposal_is_active_or_draft mpip_id => view D fun x => x.get_proposal_is_active_or_draft c.now mpip_id
  | .has_voted voter_id mpip_id => view D fun x => x.has_voted voter_id mpip_id
  | .get_my_vote voter_id mpip_id => do
    let r ← view D fun x => x.get_my_vote voter_id mpip_id
    pure (r.map fun x => (voter_id, x))
  | .get_voter voter_id => do
    let r ← view D fun x => x.get_voter H voter_id
    pure (r.map fun x => (voter_id, x))

/-- A view by name and input, answered in JSON. -/
def viewAll (H : Hash) (D : Disk) (c : Ctx) (name : String) (b : Bytes) : Res Bytes := do
  let v ← expect (View.read name b) "Failed to deserialize input from JSON."
  let r ← answer H D c v
  pure (v.ty.encode r)

/-- A call by name and input. -/
def callJson (H : Hash) (D : Disk) (c : Ctx) (name : String) (b : Bytes) : Res (Disk × List Promise) := do
  let k ← expect (Call.read name b) "Failed to deserialize input from JSON."
  exec H serde D c k

/-- What can happen on chain, as `BReach`, with every call a name and an input in bytes, and callbacks the bytes that the
contract itself wrote.  Inputs are shorter than 2³¹ bytes (the runtime allows 4 MiB). -/
inductive JReach (H : Hash) (N : Names) (me : AccountId) : Nat → BWorld → Prop
  | init (D D' : Disk) (c : Ctx) (b : Bytes) (hb : Blank H N D) (hu64 : c.timestamp ≤ U64_MAX)
      (hexec : callJson H D c "new" b = .ok (D', [])) : JReach H N me 0 ⟨D', [], c.timestamp, []⟩
  | call {W : Nat} {w : BWorld} (h : JReach H N me W w) (c : Ctx) (name : String) (b : Bytes) (k : Call) (D' : Disk)
      (out : List Promise) (hr : Call.read name b = some k) (hv : validAccount c.predecessor = true)
      (hs : validAccount c.signer = true)
      (hme : c.current = me) (hres : c.results = []) (hclock : w.clock ≤ c.timestamp) (hu64 : c.timestamp ≤ U64_MAX)
      (hlen : b.length < 2 ^ 31) (hk : Named N c k) (hexec : callJson H w.D c name b = .ok (D', out)) :
      JReach H N me (W + 4) ⟨D', w.pending ++ asked c.signer out, c.timestamp, .call c k out :: w.log⟩
  | reply {W : Nat} {w : BWorld} (h : JReach H N me W w) (pre post : List Pending) (p : Pending) (r : Reply) (ts : Nat)
      (hpend : w.pending = pre ++ p :: post) (hclock : w.clock ≤ ts) (hu64 : ts ≤ U64_MAX) :
      JReach H N me (W + 4)
        ⟨((callJson H w.D (replyCtx me p ts r) p.callback.write.1 p.callback.write.2).getOr (w.D, [])).1, pre ++ post, ts,
          .replied p ts r (Res.isOk (callJson H w.D (replyCtx me p ts r) p.callback.write.1 p.callback.write.2)) :: w.log⟩
  | tick {W : Nat} {w : BWorld} (h : JReach H N me W w) (ts : Nat) (hclock : w.clock ≤ ts) (hu64 : ts ≤ U64_MAX) :
      JReach H N me W { w with clock := ts }

end Verif.Mpip.Bytes
