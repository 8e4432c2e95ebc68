import Verif.Spec.Ledger
import Verif.Spec.Positions
import Verif.MetaVote.Views

/-!
# When a call is accepted

`MayCall J s c k` lists, method by method, what has to be true of the caller, of the attached deposit, of the
arguments and of the stored records for the call to be accepted.  It is written from the description of the
methods, without the functions of the model.
-/

namespace Verif.MetaVote

open Verif

/-- Power of `a` mpDAO locked for `d` days. -/
def powerOf (a d : Nat) : Nat := a * 10 ^ 18 * d / 60

/-- The account has a voter record. -/
def State.knows (s : State) (id : String) : Prop := s.voters.get id ≠ none

/-- Positions of the account, in the order of their index. -/
def State.positionsOf (s : State) (id : String) : List LockingPosition := (s.voterD id).locking_positions

/-- `a` mpDAO can be locked for `d` days on top of the positions `l`: allowed period, power that can be
computed, room for the position (or a position of the same period to grow), and sums that fit a `u128`. -/
structure Lockable (s : State) (l : List LockingPosition) (a d : Nat) : Prop where
  min : s.min_unbond_period ≤ d
  max : d ≤ s.max_unbond_period
  days : d < 3600
  amount : a * 10 ^ 18 ≤ U128_MAX
  total : s.total_voting_power + powerOf a d ≤ U128_MAX
  room : (∀ p ∈ l, isLockedFor d p = false) → l.length < s.max_locking_positions
  grow : ∀ p, l.find? (isLockedFor d) = some p →
    p.amount + a ≤ U128_MAX ∧ p.voting_power + powerOf a d ≤ U128_MAX

/-- Days still to wait at `now` for a position that started to unlock at `t`, in milliseconds. -/
def leftOf (p : LockingPosition) (t now : Nat) : Nat := t + p.locking_period * 86400000 - now

/-- Positions after locking `a` mpDAO for `d` days on top of them: the locked position of that period grows, or a
position is added at the end. -/
def lockOn (a d : Nat) : List LockingPosition → List LockingPosition
  | [] => [⟨a, d, powerOf a d, none⟩]
  | p :: l => if isLockedFor d p then ⟨p.amount + a, d, p.voting_power + powerOf a d, none⟩ :: l
    else p :: lockOn a d l

/-- The pairs (amount, days) can be locked one after the other on top of the positions. -/
def LockableAll (s : State) : List LockingPosition → List (Nat × Nat) → Prop
  | _, [] => True
  | l, (a, d) :: r => Lockable s l a d ∧
    LockableAll { s with total_voting_power := s.total_voting_power + powerOf a d } (lockOn a d l) r

/-- mpDAO freed at `now` by visiting the indexes one after the other: a matured position leaves and the last one takes
its place.  `none` if an index is out of range when its turn comes. -/
def freed (now : Nat) : List LockingPosition → List Nat → Option Nat
  | _, [] => some 0
  | l, i :: r => match l[i]? with
    | none => none
    | some p => if p.matured now then (freed now (swapRemove l i) r).map (p.amount + ·) else freed now l r

/-- Visiting the listed indexes, the highest first, frees `n` mpDAO. -/
def Frees (now : Nat) (l : List LockingPosition) (is : List Nat) (n : Nat) : Prop :=
  ∃ r, r.Perm is ∧ r.Pairwise (· ≥ ·) ∧ freed now l r = some n

/-- `id` has an entry for the object (possibly of power zero). -/
def State.hasVote (s : State) (id app obj : String) : Prop :=
  ∃ m, (s.voterD id).vote_positions.get app = some m ∧ m.get obj ≠ none

/-- The object is in the list of totals of the app. -/
def State.hasTotal (s : State) (app obj : String) : Prop := ∃ m, s.votes.get app = some m ∧ m.get obj ≠ none

/-- The vote on `(app, obj)` may not be removed at `now`. -/
def State.keepsVote (s : State) (now : Nat) (app obj : String) : Prop :=
  s.lock_votes_in_address = some app ∧ now < s.lock_votes_in_end_timestamp_ms ∧
  ∃ pre post : List Char, obj.toList = pre ++ (" #" ++ toString s.lock_votes_in_numeric_id ++ " ").toList ++ post

/-- `id` may add `n` to its vote on an object. -/
def MayVote (s : State) (id : String) (n : Nat) : Prop :=
  s.knows id ∧ n ≤ (s.voterD id).available_voting_power ∧
  (s.voterD id).vote_positions.len ≤ s.max_voting_positions

/-- `id` may remove its vote on the object. -/
def MayUnvote (s : State) (now : Nat) (id app obj : String) : Prop :=
  s.hasVote id app obj ∧ ¬ s.keepsVote now app obj ∧ ((s.voterD id).votesOf app obj = 0 → s.hasTotal app obj)

/-- Order in which the entries of a list are taken when always the first one is removed and the last one takes its
place. -/
def takingOrder {α : Type} : List α → List α
  | [] => []
  | x :: l => x :: l.reverse

/-- Votes (app, object, power) in the order in which a mirroring takes them back. -/
def takenVotes (m : UMap String (UMap String Nat)) : List (String × String × Nat) :=
  (takingOrder m.entries).flatMap fun a => (takingOrder a.2.entries).map fun o => (a.1, o.1, o.2)

/-- As long as more than `n` of `used` is left, the votes can be taken back one after the other: a vote of power zero
only if the object is in the list of totals. -/
def CanTake (s : State) (n : Nat) : List (String × String × Nat) → Nat → Prop
  | [], _ => True
  | (a, o, k) :: l, used => n < used → (k = 0 → s.hasTotal a o) ∧ CanTake s n l (used - k)

/-- The positions `l` (days, amount) can be installed for `id`. -/
structure MayMirror (s : State) (id : String) (l : List (Nat × Nat)) : Prop where
  periods : (l.map Prod.fst).Nodup
  days : ∀ lp ∈ l, lp.1 < 3600
  amounts : ∀ lp ∈ l, lp.2 * 10 ^ 18 ≤ U128_MAX
  room : l.length ≤ s.max_locking_positions
  total : s.total_voting_power + mirrorPower l ≤ U128_MAX
  votes : CanTake s (mirrorPower l) (takenVotes (s.voterD id).vote_positions) (s.voterD id).used

/-- A message can be cut before byte `i`. -/
def cutsAt (m : List UInt8) (i : Nat) : Prop := ∀ b, m[i]? = some b → b &&& 0xC0 ≠ 0x80

/-- `id` is credited with a position of `d` days by the message `m` of `sender`. -/
def names (J : Json) (s : State) (sender : String) (m : List UInt8) (id : String) (d : Nat) : Prop :=
  ([91] <+: m ∧ cutsAt m 1 ∧ J.parse_pair m = some (id, d) ∧ sender = s.owner_id) ∨
  (isDays m d ∧ id = sender)

/-- A transfer of `a` tokens of `c.predecessor` with message `m` is taken as a distribution. -/
def MayDistribute (J : Json) (s : State) (c : Ctx) (a : Nat) (m : List UInt8) : Prop :=
  ∃ l, J.parse_claims (m.drop 11) = some l ∧ (∀ p ∈ l, 0 < p.2) ∧
    ((c.predecessor = s.mpdao_token_contract_address ∧ a = itemsTotal l * 10 ^ 6 ∧
      s.total_unclaimed_mpdao + a ≤ U128_MAX ∧ s.accumulated_mpdao_distributed_for_claims + a ≤ U128_MAX) ∨
     (c.predecessor ≠ s.mpdao_token_contract_address ∧ c.predecessor = s.stnear_token_contract_address ∧
      a = itemsTotal l * E20 ∧ s.total_unclaimed_stnear + a ≤ U128_MAX ∧
      s.accum_distributed_stnear_for_claims + a ≤ U128_MAX))

/-- The conditions under which each method is accepted. -/
def MayCall (J : Json) (s : State) (c : Ctx) : Call → Prop
  | .new_ .. | .migrate => False
  | .set_stnear_contract _ | .set_operator_id _ | .set_owner_id _ | .set_prev_gov_contract _ =>
    c.deposit = 1 ∧ c.predecessor = s.owner_id
  | .update_min_unbond_period d | .update_max_unbond_period d =>
    c.deposit = 1 ∧ c.predecessor = s.owner_id ∧ d ≤ U16_MAX
  | .update_registration_cost n => c.deposit = 0 ∧ c.predecessor = s.owner_id ∧ n ≤ U128_MAX
  | .set_lock_in_vote_filters t n _ =>
    c.deposit = 0 ∧ c.predecessor = s.operator_id ∧ t ≤ U64_MAX ∧ n ≤ U16_MAX
  | .update_airdrop_user_data _ => c.deposit = s.registration_cost
  | .operator_multi_set_airdrop_data _ => c.deposit = 0 ∧ c.predecessor = s.operator_id
  | .claim_and_lock a d => c.deposit = 0 ∧ s.min_deposit_amount ≤ a ∧
    a ≤ s.get_claimable_mpdao c.predecessor ∧ s.knows c.predecessor ∧
    Lockable s (s.positionsOf c.predecessor) a d
  | .claim_stnear a => c.deposit = 0 ∧ a ≤ U128_MAX ∧ a ≤ s.get_claimable_stnear c.predecessor
  | .unlock_position i => c.deposit = 0 ∧ ∃ p, (s.positionsOf c.predecessor)[i]? = some p ∧
    p.voting_power ≤ (s.voterD c.predecessor).available_voting_power
  | .unlock_partial_position i a => c.deposit = 0 ∧ a ≤ U128_MAX ∧
    ∃ p, (s.positionsOf c.predecessor)[i]? = some p ∧
      ((a = p.amount ∧ p.voting_power ≤ (s.voterD c.predecessor).available_voting_power) ∨
       (a < p.amount ∧ s.min_deposit_amount ≤ p.amount - a ∧ 1000000 ≤ a ∧ 1000000 ≤ p.amount - a ∧
        p.locking_period < 3600 ∧ a * 10 ^ 18 ≤ U128_MAX ∧ powerOf a p.locking_period ≤ p.voting_power ∧
        powerOf a p.locking_period ≤ (s.voterD c.predecessor).available_voting_power ∧
        (s.positionsOf c.predecessor).length < s.max_locking_positions))
  | .locking_position_extend_days i d => c.deposit = 0 ∧
    ∃ p, (s.positionsOf c.predecessor)[i]? = some p ∧ p.unlocking_started_at = none ∧ p.locking_period < d ∧
      d < 3600 ∧ p.amount * 10 ^ 18 ≤ U128_MAX ∧ p.voting_power ≤ powerOf p.amount d ∧
      powerOf p.amount d ≤ U128_MAX ∧ s.total_voting_power + (powerOf p.amount d - p.voting_power) ≤ U128_MAX
  | .relock_position i d x => c.deposit = 0 ∧ x ≤ (s.voterD c.predecessor).balance ∧
    ∃ p t, (s.positionsOf c.predecessor)[i]? = some p ∧ p.unlocking_started_at = some t ∧
      (0 < leftOf p t c.now → leftOf p t c.now < d * 86400000) ∧
      Lockable s (swapRemove (s.positionsOf c.predecessor) i) (p.amount + x) d
  | .relock_partial_position i a d x => c.deposit = 0 ∧ x ≤ (s.voterD c.predecessor).balance ∧
    s.min_deposit_amount ≤ x + a ∧
    ∃ p t, (s.positionsOf c.predecessor)[i]? = some p ∧ p.unlocking_started_at = some t ∧ a ≤ p.amount ∧
      ((0 < leftOf p t c.now ∧ leftOf p t c.now < d * 86400000 ∧ a < p.amount ∧ p.locking_period < 3600 ∧
        (p.amount - a) * 10 ^ 18 ≤ U128_MAX ∧ powerOf (p.amount - a) p.locking_period ≤ U128_MAX ∧
        Lockable s ((s.positionsOf c.predecessor).set i { p with
          amount := p.amount - a, voting_power := powerOf (p.amount - a) p.locking_period }) (x + a) d) ∨
       (leftOf p t c.now = 0 ∧ (s.voterD c.predecessor).balance + (p.amount - a) ≤ U128_MAX ∧
        Lockable s (swapRemove (s.positionsOf c.predecessor) i) (x + a) d))
  | .relock_from_balance d x => c.deposit = 0 ∧ s.knows c.predecessor ∧
    x ≤ (s.voterD c.predecessor).balance ∧ s.min_deposit_amount ≤ x ∧
    Lockable s (s.positionsOf c.predecessor) x d
  | .clear_locking_position l => c.deposit = 0 ∧ l ≠ [] ∧
    ∃ n, Frees c.now (s.positionsOf c.predecessor) l n ∧ (s.voterD c.predecessor).balance + n ≤ U128_MAX
  | .vote n _ _ => c.deposit = 0 ∧ MayVote s c.predecessor n
  | .unvote app obj => c.deposit = 0 ∧ MayUnvote s c.now c.predecessor app obj
  | .rebalance n app obj => c.deposit = 0 ∧ s.hasVote c.predecessor app obj ∧
    n ≠ (s.voterD c.predecessor).votesOf app obj ∧
    n ≤ (s.voterD c.predecessor).available_voting_power + (s.voterD c.predecessor).votesOf app obj ∧
    (n = 0 → ¬ s.keepsVote c.now app obj)
  | .withdraw l a => c.deposit = 1 ∧ ∃ n, Frees c.now (s.positionsOf c.predecessor) l n ∧
    (s.voterD c.predecessor).balance + n ≤ U128_MAX ∧
    a ≤ (s.voterD c.predecessor).balance + n ∧ 0 < (s.voterD c.predecessor).balance + n
  | .withdraw_all => c.deposit = 1 ∧ 0 < (s.voterD c.predecessor).withdrawable c.now ∧
    (s.voterD c.predecessor).withdrawable c.now ≤ U128_MAX
  | .after_transfer_mpdao_callback id a => c.deposit = 0 ∧ c.predecessor = c.current ∧ a ≤ U128_MAX ∧
    c.promise_results ≠ [] ∧ (c.promise_results.head? = some false → (s.voterD id).balance + a ≤ U128_MAX)
  | .after_transfer_stnear_callback _ a => c.deposit = 0 ∧ c.predecessor = c.current ∧ a ≤ U128_MAX ∧
    c.promise_results ≠ [] ∧ (c.promise_results.head? = some false →
      0 < a ∧ s.total_unclaimed_stnear + a ≤ U128_MAX)
  | .ft_on_transfer se a m => c.deposit = 0 ∧ cutsAt m 11 ∧
    ((forClaims m ∧ a ≤ U128_MAX ∧ MayDistribute J s c a m) ∨
     (¬ forClaims m ∧ c.predecessor = s.mpdao_token_contract_address ∧ s.min_deposit_amount ≤ a ∧
      ∃ id d, names J s se m id d ∧ Lockable s (s.positionsOf id) a d))
  | .pre_delegate_evm_address e _ => c.deposit = 1 ∧ '.' ∉ e.toList
  | .operator_remove_pre_delegate_evm_address _ | .operator_confirm_delegated_evm_address _ =>
    c.deposit = 1 ∧ c.predecessor = s.operator_id
  | .delegated_claim_stnear e a => e ∈ s.get_delegating_evm_addresses c.predecessor ∧ a ≤ U128_MAX ∧
    a ≤ s.get_claimable_stnear (e ++ ".evmp.near")
  | .vote_delegated e n _ _ => c.deposit = 0 ∧ e ∈ s.get_delegating_evm_addresses c.predecessor ∧
    MayVote s (e ++ ".evmp.near") n
  | .unvote_delegated e app obj => c.deposit = 0 ∧ e ∈ s.get_delegating_evm_addresses c.predecessor ∧
    MayUnvote s c.now (e ++ ".evmp.near") app obj
  | .remove_delegated_evm_address e => c.deposit = 1 ∧ e ∈ s.get_delegating_evm_addresses c.predecessor
  | .migration_create_lps id l _ => c.deposit = 0 ∧ c.predecessor = s.prev_governance_contract ∧
    (∀ x ∈ l, x.1 ≤ U128_MAX) ∧ LockableAll s (s.positionsOf id) (l.map fun x => (x.1 / 10 ^ 18, x.2))
  | .operator_mirror_lps e l => c.deposit = 0 ∧ c.predecessor = s.operator_id ∧ MayMirror s (e ++ ".evmp.near") l

end Verif.MetaVote
