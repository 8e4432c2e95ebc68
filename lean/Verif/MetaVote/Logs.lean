import Verif.MetaVote.Step

/-!
# meta-vote contract: the lines written to the log

Every `log!` of the contract.  A line is written by calls that do not panic only (lines of a failed receipt are
reported with its failure and are not modelled), so the lines of an accepted call are a function of the state before it
and of its arguments.
-/

namespace Verif.MetaVote

open Verif

/-- A line, with the values that are printed. -/
inductive Line where
  | unlocked (voter_id : String) (index : Nat)
  | partially_unlocked (voter_id : String) (index : Nat)
  | extended (voter_id : String) (index new_locking_period : Nat)
  | relocked (voter_id : String) (index : Nat)
  | partially_relocked (voter_id : String) (index : Nat)
  | relocked_balance (voter_id : String)
  | gave (voter_id : String) (voting_power : Nat) (votable_object_id contract_address : String)
  | increased (voter_id : String) (voting_power : Nat) (votable_object_id contract_address : String)
  | decreased (voter_id : String) (voting_power : Nat) (votable_object_id contract_address : String)
  | unvoted (voter_id votable_object_id contract_address : String)
  | mirror (prev_voting_power new_voting_power used_voting_power : Nat)
  | deposit (amount : Nat) (voter_id : String)
  | godspeed (voter_id : String)
  | withdrawn (amount : Nat) (voter_id : String)
  | failed_mpdao (amount : Nat) (voter_id : String)
  | withdrawn_stnear (source : String) (amount : Nat)
  | failed_stnear (amount : Nat) (source : String)
  deriving DecidableEq

namespace Line

/-- The line as it is written, with the format strings of `lib.rs:244-248, 289-293, 327-332, 395-399, 474-478, 500,
558-564, 638-644, 657-663, 709-714, 854-859`, `deposit.rs:58` and `withdraw.rs:36, 84-88, 91-95, 131, 134-138`. -/
def text : Line → String
  | unlocked v i => "UNLOCK: " ++ v ++ " unlocked position " ++ toString i ++ "."
  | partially_unlocked v i => "UNLOCK: " ++ v ++ " partially unlocked position " ++ toString i ++ "."
  | extended v i d => "EXTEND-TIME: " ++ v ++ " position #" ++ toString i ++ " " ++ toString d ++ " days"
  | relocked v i => "RELOCK: " ++ v ++ " relocked position " ++ toString i ++ "."
  | partially_relocked v i => "RELOCK: " ++ v ++ " partially relocked position " ++ toString i ++ "."
  | relocked_balance v => "RELOCK: " ++ v ++ " relocked position."
  | gave v n o a => "VOTE: " ++ v ++ " gave " ++ toString n ++ " votes for object " ++ o ++ " at address " ++ a ++ "."
  | increased v n o a =>
    "VOTE: " ++ v ++ " increased to " ++ toString n ++ " votes for object " ++ o ++ " at address " ++ a ++ "."
  | decreased v n o a =>
    "VOTE: " ++ v ++ " decreased to " ++ toString n ++ " votes for object " ++ o ++ " at address " ++ a ++ "."
  | unvoted v o a => "UNVOTE: " ++ v ++ " unvoted object " ++ o ++ " at address " ++ a ++ "."
  | mirror p n u => "MIRROR: prev_vp " ++ toString p ++ " new_vp " ++ toString n ++ " used_vp " ++ toString u ++ "."
  | deposit n v => "DEPOSIT: " ++ toString n ++ " mpDAO deposited from " ++ v
  | godspeed v => "GODSPEED: " ++ v ++ " is no longer part of Meta Vote!"
  | withdrawn n v => "WITHDRAW: " ++ toString n ++ " mpDAO transfer to " ++ v
  | failed_mpdao n v => "FAILED: " ++ toString n ++ " mpDAO not transferred. Recovering " ++ v ++ " state."
  | withdrawn_stnear v n => v ++ " WITHDRAW " ++ toString n ++ " stNEAR"
  | failed_stnear n v => "FAILED: " ++ toString n ++ " stNEAR not transferred. Recovering " ++ v ++ " state."

end Line

namespace State

/-- The line of `lib.rs:709-714`, for each vote removed by the loop at `lib.rs:861-875`. -/
def mirror_removed_lines (voter_id : String) (new_voting_power : Nat) : Nat → State → Voter → Nat → List Line
  | fuel, s, voter, used =>
    if new_voting_power < used then
      match fuel with
      | 0 => []
      | fuel + 1 => match voter.vote_positions.entries.head? with
        | none => []
        | some app => match app.2.entries.head? with
          | none => []
          | some obj => match s.internal_remove_voting_position voter app.1 obj.1 with
            | .error _ => []
            | .ok r => .unvoted voter_id obj.1 app.1 ::
              mirror_removed_lines voter_id new_voting_power fuel r.1 r.2 (used - obj.2)
    else []

/-- `lib.rs:834-899`: the line of 854-859, then those of the votes that are removed. -/
def mirror_lines (s : State) (external_address : String) (locking_positions : List (Nat × Nat)) : List Line :=
  let voter_id := pseudo_near_address external_address
  let voter := s.internal_get_voter voter_id
  let used_voting_power := voter.sum_used_votes.getOr 0
  let prev_voting_power := voter.available_voting_power + used_voting_power
  let new_voting_power := ((locking_positions.mapM fun i => calculate_voting_power i.2 i.1).getOr []).sum
  .mirror prev_voting_power new_voting_power used_voting_power ::
    mirror_removed_lines voter_id new_voting_power ((voter.vote_positions.values.map (·.len)).sum) s voter
      used_voting_power

/-- `lib.rs:602-676`: the line of 638-644, of 657-663, or of `unvote` (625). -/
def rebalance_lines (s : State) (voter_id : String) (voting_power : Nat)
    (contract_address votable_object_id : String) : List Line :=
  let votes := (((s.internal_get_voter voter_id).get_vote_position_for_address contract_address).get
    votable_object_id).getD 0
  if voting_power = 0 then [.unvoted voter_id votable_object_id contract_address]
  else if votes < voting_power then [.increased voter_id voting_power votable_object_id contract_address]
  else [.decreased voter_id voting_power votable_object_id contract_address]

/-- `lib.rs:256-305`: the line of 289-293, or of `unlock_position` (266) when the amount is that of the position. -/
def unlock_partial_lines (s : State) (voter_id : String) (index amount : Nat) : List Line :=
  match (s.internal_get_voter voter_id).locking_positions[index]? with
  | some p => if amount = p.amount then [.unlocked voter_id index] else [.partially_unlocked voter_id index]
  | none => []

/-- `withdraw.rs:11-41`: the line of 36 when the record is removed. -/
def withdraw_lines (s : State) (c : Ctx) (voter_id : String) (position_index_list : List Nat)
    (optional_amount_to_withdraw : Option Nat) : List Line :=
  let voter := s.internal_get_voter voter_id
  let voter := if position_index_list ≠ [] then
      (voter.clear_fully_unlocked_positions c.now position_index_list).getOr voter
    else voter
  let total_to_withdraw := optional_amount_to_withdraw.getD voter.balance
  if { voter with balance := voter.balance - total_to_withdraw }.is_empty then [.godspeed voter_id] else []

/-- `deposit.rs:13-64`: the line of 58, for deposits only. -/
def on_transfer_lines (J : Json) (s : State) (sender_id : String) (amount : Nat) (msg : List UInt8) : List Line :=
  match has_prefix msg FOR_CLAIMS with
  | .ok false => match s.deposit_target J sender_id msg with
    | .ok t => [.deposit amount t.1]
    | .error _ => []
  | _ => []

/-- The lines of an accepted call, the first one first. -/
def lines (J : Json) (s : State) (c : Ctx) : Call → List Line
  | .unlock_position i => [.unlocked c.predecessor i]
  | .unlock_partial_position i a => s.unlock_partial_lines c.predecessor i a
  | .locking_position_extend_days i d => [.extended c.predecessor i d]
  | .relock_position i _ _ => [.relocked c.predecessor i]
  | .relock_partial_position i _ _ _ => [.partially_relocked c.predecessor i]
  | .relock_from_balance _ _ => [.relocked_balance c.predecessor]
  | .vote n a o => [.gave c.predecessor n o a]
  | .vote_delegated e n a o => [.gave (pseudo_near_address e) n o a]
  | .rebalance n a o => s.rebalance_lines c.predecessor n a o
  | .unvote a o => [.unvoted c.predecessor o a]
  | .unvote_delegated e a o => [.unvoted (pseudo_near_address e) o a]
  | .operator_mirror_lps e l => s.mirror_lines e l
  | .withdraw l a => s.withdraw_lines c c.predecessor l (if a = 0 then none else some a)
  | .withdraw_all => s.withdraw_lines c c.predecessor
      ((s.internal_get_voter c.predecessor).get_unlocked_position_indexes c.now) none
  | .after_transfer_mpdao_callback v a =>
    if c.promise_results.head? = some true then [.withdrawn a v] else [.failed_mpdao a v]
  | .after_transfer_stnear_callback v a =>
    if c.promise_results.head? = some true then [.withdrawn_stnear v a] else [.failed_stnear a v]
  | .ft_on_transfer se a m => s.on_transfer_lines J se a m
  | _ => []

end State

/-- Executions with the lines written so far, the newest first.  The steps are those of `Step`. -/
inductive Logged (J : Json) (me : AccountId) : World → List Line → Prop
  | init {w : World} (h : Init w) : Logged J me w []
  | call {w : World} {L : List Line} (c : Ctx) (k : Call) (s' : State) (out : List Transfer) (h : Logged J me w L)
      (hme : c.current = me) (hres : c.promise_results = []) (hm : ¬ mirrored c.predecessor)
      (hclock : w.clock ≤ c.timestamp) (hu64 : c.timestamp ≤ U64_MAX) (hexec : exec J w.st c k = .ok (s', out)) :
      Logged J me ⟨s', w.pending ++ out, c.timestamp, .call c k out :: w.log⟩ ((w.st.lines J c k).reverse ++ L)
  | resolve {w : World} {L : List Line} (pre post : List Transfer) (t : Transfer) (ok : Bool) (ts : Nat)
      (h : Logged J me w L) (hpend : w.pending = pre ++ t :: post) (hclock : w.clock ≤ ts) (hu64 : ts ≤ U64_MAX) :
      Logged J me ⟨((exec J w.st ⟨me, me, 0, ts, [ok]⟩ t.callbackCall).getOr (w.st, [])).1, pre ++ post, ts,
        .resolved t ok (Res.isOk (exec J w.st ⟨me, me, 0, ts, [ok]⟩ t.callbackCall)) :: w.log⟩
        ((if Res.isOk (exec J w.st ⟨me, me, 0, ts, [ok]⟩ t.callbackCall) then
          (w.st.lines J ⟨me, me, 0, ts, [ok]⟩ t.callbackCall).reverse else []) ++ L)
  | tick {w : World} {L : List Line} (ts : Nat) (h : Logged J me w L) (hclock : w.clock ≤ ts) (hu64 : ts ≤ U64_MAX) :
      Logged J me { w with clock := ts } L

theorem Logged.reach {J : Json} {me : AccountId} {w : World} {L : List Line} (h : Logged J me w L) : Reach J me w := by
  induction h with
  | init h => exact .init h
  | call c k s' out _ hme hres hm hclock hu64 hexec ih => exact .step ih (.call _ c k s' out hme hres hm hclock hu64 hexec)
  | resolve pre post t ok ts _ hpend hclock hu64 ih => exact .step ih (.resolve _ pre post t ok ts hpend hclock hu64)
  | tick ts _ hclock hu64 ih => exact .step ih (.tick _ ts hclock hu64)

theorem Reach.logged {J : Json} {me : AccountId} {w : World} (h : Reach J me w) : ∃ L, Logged J me w L := by
  induction h with
  | init h => exact ⟨_, .init h⟩
  | step _ hs ih =>
    obtain ⟨L, h⟩ := ih
    cases hs with
    | call c k s' out hme hres hm hclock hu64 hexec => exact ⟨_, .call c k s' out h hme hres hm hclock hu64 hexec⟩
    | resolve pre post t ok ts hpend hclock hu64 => exact ⟨_, .resolve pre post t ok ts h hpend hclock hu64⟩
    | tick ts hclock hu64 => exact ⟨_, .tick ts h hclock hu64⟩

end Verif.MetaVote
