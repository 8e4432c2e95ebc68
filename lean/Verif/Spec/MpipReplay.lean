import Verif.Spec.Mpip

/-!
# Replay of the mpip contract

What the settings and the proposals should be after a history of accepted calls and replies, computed from the
history alone.  Nothing here is used by the model.
-/

namespace Verif.Mpip

open Verif

/-- The settings of the contract. -/
structure Settings where
  admin : AccountId
  operator : AccountId
  metaToken : AccountId
  metaVote : AccountId
  period : Nat
  minMeta : Nat
  minStNear : Nat
  minPower : Nat
  cost : Nat
  storage : Nat
  isOpen : Bool
  floor : Nat
  deriving DecidableEq

/-- The settings in a state. -/
def State.settings (s : State) : Settings :=
  ⟨s.admin_id, s.operator_id, s.meta_token_contract_address, s.meta_vote_contract_address, s.voting_period,
    s.min_meta_amount, s.min_st_near_amount, s.min_voting_power_amount, s.mpip_cost_in_meta, s.mpip_storage_near,
    s.open_for_new_mpips, s.quorum_floor⟩

/-- The settings after an accepted call. -/
def settingsAfter (x : Settings) : Call → Settings
  | .update_open_for_new_mpips b => { x with isOpen := b }
  | .update_operator_role a => { x with operator := a }
  | .update_admin_role a => { x with admin := a }
  | .update_voting_period n => { x with period := n }
  | .update_min_meta_amount n => { x with minMeta := n }
  | .update_min_voting_power_amount n => { x with minPower := n }
  | .update_mpip_storage_near n => { x with storage := n }
  | .update_quorum_floor n => { x with floor := n }
  | .update_meta_vote_contract_address a => { x with metaVote := a }
  | _ => x

/-- The settings after a history (newest first) that started with `x`. -/
def settingsOf (x : Settings) : List Entry → Settings
  | [] => x
  | .call _ k _ :: l => settingsAfter (settingsOf x l) k
  | .replied .. :: l => settingsOf x l

/-- The promises of an accepted call. -/
def promisesOf (x : Settings) (c : Ctx) : Call → List Promise
  | .pay_to_account n a => [.pay a n]
  | .start_voting_period i => [.ask x.metaVote .get_total_voting_power (.start_voting_period_callback i)]
  | .create_proposal t => [.ask x.metaVote (.get_all_locking_positions c.predecessor) (.create_proposal_callback t)]
  | .vote_proposal i t m =>
    [.ask x.metaVote (.get_all_locking_positions c.predecessor) (.vote_proposal_callback i c.predecessor t m)]
  | _ => []

/-- Counted power for one answer after a history. -/
def tallyOf (J : Json) (l : List Entry) (i : Nat) (t : VoteType) : Nat :=
  credited J (fun _ => true) l i t - debited J (fun _ => true) l i t

/-- Whether `process_voting_status` marks a proposal executed: its voting has started and ends in this very
millisecond, it is neither canceled nor executed, and the votes in favour and the abstentions reach the quorum. -/
def executes (p : Proposal) (favour abstained now : Nat) : Bool :=
  match p.vote_start_timestamp, p.vote_end_timestamp, p.v_power_quorum_to_reach with
  | some t, some e, some q => decide (t ≤ now ∧ now = e ∧ q ≤ favour + abstained) && !p.draft && !p.canceled &&
      !p.executed
  | _, _, _ => false

/-- The proposals, in the order of their ids, after a history (newest first) that started with settings `x`. -/
def proposalsOf (J : Json) (x : Settings) : List Entry → List Proposal
  | [] => []
  | .call c k _ :: l =>
    let old := proposalsOf J x l
    match k with
    | .cancel_proposal i => old.modify i (fun p => { p with canceled := true })
    | .update_proposal i t => old.modify i (fun p => { p with content := t })
    | .process_voting_status i => old.modify i (fun p =>
        if executes p (tallyOf J l i .for_) (tallyOf J l i .abstain) c.now then { p with executed := true } else p)
    | _ => old
  | .replied q ts r accepted :: l =>
    let old := proposalsOf J x l
    match accepted, q.callback, r with
    | true, .create_proposal_callback t, _ =>
      old ++ [⟨old.length, t, q.signer, none, none, true, false, false, none⟩]
    | true, .start_voting_period_callback i, .successful b => old.modify i (fun p => { p with
        vote_start_timestamp := some (ts / 1000000)
        vote_end_timestamp := some (ts / 1000000 + (settingsOf x l).period)
        draft := false
        v_power_quorum_to_reach := (J.read_total b).map (fun n => n * (settingsOf x l).floor / 10000) })
    | _, _, _ => old

end Verif.Mpip
