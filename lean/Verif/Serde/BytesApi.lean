import Verif.Serde.Run
import Verif.Serde.Views
import Verif.Serde.Fits
import Verif.MetaVote.BytesWorld
import Verif.MetaVote.BytesView

/-!
# Meta-vote with its inputs, its storage and its answers in bytes

What `#[near_bindgen]` makes of the contract: a method reads its input from JSON, the state from the key `STATE`, and writes
storage; a view answers in JSON.
-/

namespace Verif.MetaVote.Bytes

open Verif Storage Disk Borsh Serde

/-- A view on the bytes of storage.  Most views are in `MetaVote/BytesView.lean`; those that read a field of the record are
cited here. -/
def answer (H : Hash) (D : Disk) (now : Nat) : (v : View) → Res v.Out
  | .get_owner_id => view D fun r => pure (get_owner_id r)
  | .get_operator_id => view D fun r => pure (get_operator_id r)
  | .get_contract_info => view D fun r => pure (get_contract_info r)
  | .get_voters_count => view D fun r => pure (get_voters_count r)
  | .get_total_voting_power => view D fun r => pure (get_total_voting_power r)
  | .get_voter_info voter_id => view D fun r => get_voter_info D r now voter_id
  | .get_voters from_index limit => view D fun r => get_voters D r now from_index limit
  | .get_balance voter_id => view D fun r => get_balance H D r now voter_id
  | .get_claimable_mpdao voter_id => view D fun r => get_claimable D r.claimable_mpdao voter_id
  | .get_claimable_meta voter_id => view D fun r => get_claimable D r.claimable_mpdao voter_id -- `view.rs:115-117`
  | .get_claimable_stnear voter_id => view D fun r => get_claimable D r.claimable_stnear voter_id
  | .get_stnear_claims from_index limit => view D fun r => internal_get_claims D r.claimable_stnear from_index limit
  | .get_claims from_index limit => view D fun r => internal_get_claims D r.claimable_mpdao from_index limit
  | .get_locked_balance voter_id => view D fun r => get_locked_balance H D r voter_id
  | .get_unlocking_balance voter_id => view D fun r => get_unlocking_balance H D r now voter_id
  | .get_available_voting_power voter_id => view D fun r => get_available_voting_power H D r voter_id
  | .get_used_voting_power voter_id => view D fun r => get_used_voting_power H D r voter_id
  | .get_locking_period => view D fun r => pure (r.min_unbond_period, r.max_unbond_period) -- `view.rs:175-178`
  | .get_all_locking_positions voter_id => view D fun r => get_all_locking_positions H D r now voter_id
  | .get_locking_position index voter_id => view D fun r => get_locking_position H D r now index voter_id
  | .get_total_votes contract_address votable_object_id => view D fun r => get_total_votes D r contract_address votable_object_id
  | .get_votes_by_app app_or_contract_address => view D fun r => get_votes_by_app H D r app_or_contract_address
  | .get_votes_by_contract contract_address => view D fun r => get_votes_by_contract H D r contract_address
  | .get_votes_by_voter voter_id => view D fun r => get_votes_by_voter H D r voter_id
  | .get_votes_for_object voter_id contract_address votable_object_id =>
    view D fun r => get_votes_for_object H D r voter_id contract_address votable_object_id
  | .get_total_unclaimed_mpdao => view D fun r => pure r.total_unclaimed_mpdao -- `view.rs:287-289`
  | .get_total_unclaimed_meta => view D fun r => pure r.total_unclaimed_mpdao -- `view.rs:291-293`
  | .get_accumulated_mpdao_distributed_for_claims => view D fun r => pure r.accumulated_mpdao_distributed_for_claims -- `view.rs:295-297`
  | .get_accumulated_distributed_for_claims => view D fun r => pure r.accumulated_mpdao_distributed_for_claims -- `view.rs:299-301`
  | .get_registration_cost => view D fun r => pure r.registration_cost -- `lib.rs:153-155`
  | .check_if_registered_for_airdrops account_id => view D fun r => check_if_registered_for_airdrops D r account_id
  | .check_if_user_is_registerd account_id => view D fun r => check_if_registered_for_airdrops D r account_id -- `lib.rs:161-163`
  | .get_airdrop_account account_id => view D fun r => get_airdrop_account D r account_id
  | .get_airdrop_accounts from_index limit => view D fun r => get_airdrop_accounts D r from_index limit
  | .get_lock_in_vote_filters => view D fun r => pure (get_lock_in_vote_filters r)
  | .get_pre_delegate_evm_address evm_address => view D fun r => get_pre_delegate_evm_address D r evm_address
  | .get_delegating_evm_addresses account_id => view D fun r => get_delegating_evm_addresses D r account_id
  | .get_delegates from_index limit => view D fun r => get_delegates D r from_index limit
  | .get_delegate evm_address => view D fun r => get_delegate D r evm_address
  | .get_delegation_signature evm_address => view D fun r => get_delegation_signature D r evm_address

/-- A view by name and input, answered in JSON. -/
def viewAll (H : Hash) (D : Disk) (now : Nat) (name : String) (b : Bytes) : Res Bytes := do
  let v ← expect (View.read name b) "Failed to deserialize input from JSON."
  let r ← answer H D now v
  pure (v.ty.encode r)

/-- A call by name and input. -/
def callJson (H : Hash) (D : Disk) (c : Ctx) (name : String) (b : Bytes) : Res (Disk × List Transfer) := do
  let k ← expect (Call.read name b) "Failed to deserialize input from JSON."
  exec H serde D c k

/-- What can happen on chain, as `BReach`, with every call a name and an input in bytes, and callbacks the bytes that the
contract itself wrote.  Inputs are shorter than 2³¹ bytes (the runtime allows 4 MiB). -/
inductive JReach (H : Hash) (N : Names) (me : AccountId) (G : Disk → Disk → Ctx → Call → Prop) : Nat → BWorld → Prop
  | init (D D' : Disk) (c : Ctx) (b : Bytes) (k : Call) (hb : Blank H N D) (hu64 : c.timestamp ≤ U64_MAX)
      (hr : Call.read "new" b = some k) (hlen : b.length < 2 ^ 31)
      (hexec : callJson H D c "new" b = .ok (D', [])) : JReach H N me G 0 ⟨D', [], c.timestamp, []⟩
  | call {W : Nat} {w : BWorld} (h : JReach H N me G W w) (c : Ctx) (name : String) (b : Bytes) (k : Call) (D' : Disk)
      (out : List Transfer) (hr : Call.read name b = some k) (hv : validAccount c.predecessor = true)
      (hme : c.current = me) (hres : c.promise_results = []) (hm : ¬ mirrored c.predecessor)
      (hclock : w.clock ≤ c.timestamp) (hu64 : c.timestamp ≤ U64_MAX) (hlen : b.length < 2 ^ 31) (hk : Named N k)
      (hexec : callJson H w.D c name b = .ok (D', out)) (hg : G w.D D' c k) :
      JReach H N me G (W + weight serde k) ⟨D', w.pending ++ out, c.timestamp, .call c k out :: w.log⟩
  | resolve {W : Nat} {w : BWorld} (h : JReach H N me G W w) (pre post : List Transfer) (t : Transfer) (ok : Bool) (ts : Nat)
      (hpend : w.pending = pre ++ t :: post) (hclock : w.clock ≤ ts) (hu64 : ts ≤ U64_MAX) :
      JReach H N me G (W + 3)
        ⟨((callJson H w.D ⟨me, me, 0, ts, [ok]⟩ t.callbackCall.write.1 t.callbackCall.write.2).getOr (w.D, [])).1, pre ++ post, ts,
          .resolved t ok (Res.isOk (callJson H w.D ⟨me, me, 0, ts, [ok]⟩ t.callbackCall.write.1 t.callbackCall.write.2)) :: w.log⟩
  | tick {W : Nat} {w : BWorld} (h : JReach H N me G W w) (ts : Nat) (hclock : w.clock ≤ ts) (hu64 : ts ≤ U64_MAX) :
      JReach H N me G W { w with clock := ts }

end Verif.MetaVote.Bytes
