import Verif.Spec.Accept
import Verif.Spec.Access

/-!
# The books of the meta-vote contract

Everything the contract keeps, as plain tables, and what each accepted call does to them.  Nothing here uses the
functions of the contract: subtractions never go below zero and the listed records exist, because the call was
accepted.
-/

namespace Verif.MetaVote

open Verif

/-- The tables.  The order in which accounts, apps and objects are listed is not part of them, except inside the
record of a voter. -/
@[ext] structure Book where
  /-- record of a voter: balance, positions, available power, votes given -/
  voter : String → Option Voter
  /-- number of voters -/
  voters : Nat
  /-- total voting power -/
  power : Nat
  /-- votes received by an object of an app -/
  votes : String → String → Option Nat
  /-- claimable mpDAO -/
  mpdao : String → Nat
  mpdaoOwed : Nat
  mpdaoGiven : Nat
  /-- claimable stNEAR -/
  stnear : String → Nat
  stnearOwed : Nat
  stnearGiven : Nat
  /-- airdrop data -/
  data : String → Option String
  /-- delegation asked for an address: account and signature -/
  asked : String → Option (String × String)
  /-- delegation of an address: account and signature -/
  granted : String → Option (String × String)
  /-- addresses delegated to an account -/
  delegated : String → Option (List String)
  /-- number of accounts with a list of delegated addresses -/
  delegates : Nat
  config : Config

/-- The books of a state. -/
def State.book (s : State) : Book where
  voter := s.voters.get
  voters := s.voters.len
  power := s.total_voting_power
  votes a o := (s.votes.get a).bind (·.get o)
  mpdao := s.get_claimable_mpdao
  mpdaoOwed := s.total_unclaimed_mpdao
  mpdaoGiven := s.accumulated_mpdao_distributed_for_claims
  stnear := s.get_claimable_stnear
  stnearOwed := s.total_unclaimed_stnear
  stnearGiven := s.accum_distributed_stnear_for_claims
  data := s.associated_user_data.get
  asked := s.evm_pre_delegation.get
  granted := s.evm_delegation_signatures.get
  delegated := s.evm_delegates.get
  delegates := s.evm_delegates.len
  config := s.config

/-- One entry of a table is replaced. -/
def upd {α : Type} (f : String → α) (k : String) (x : α) : String → α := fun i => if i = k then x else f i

/-- The votes of a voter with `n` on the object. -/
def giveVote (m : UMap String (UMap String Nat)) (app obj : String) (n : Nat) : UMap String (UMap String Nat) :=
  m.insert app (((m.get app).getD UMap.empty).insert obj n)

/-- The votes of a voter without the object, and without the app if it was its last object. -/
def dropVote (m : UMap String (UMap String Nat)) (app obj : String) : UMap String (UMap String Nat) :=
  if ((m.get app).getD UMap.empty).remove obj = UMap.empty then m.remove app
  else m.insert app (((m.get app).getD UMap.empty).remove obj)

/-- Balance and positions after visiting the indexes one after the other at `now`: a matured position goes to the
balance and the last one takes its place. -/
def cleared (now : Nat) : Nat × List LockingPosition → List Nat → Nat × List LockingPosition
  | x, [] => x
  | x, i :: r => match x.2[i]? with
    | some p => if p.matured now then cleared now (x.1 + p.amount, swapRemove x.2 i) r else cleared now x r
    | none => cleared now x r

/-- The indexes, the highest first. -/
def highestFirst (l : List Nat) : List Nat := l.mergeSort (fun a b => decide (b ≤ a))

/-- The voter after clearing the listed positions. -/
def Voter.clearedAt (v : Voter) (now : Nat) (is : List Nat) : Voter :=
  { v with
    balance := (cleared now (v.balance, v.locking_positions) (highestFirst is)).1
    locking_positions := (cleared now (v.balance, v.locking_positions) (highestFirst is)).2 }

/-- Indexes of the matured positions. -/
def maturedAt (now : Nat) (l : List LockingPosition) : List Nat :=
  (List.range l.length).filter fun i => match l[i]? with
    | some p => decide (p.matured now)
    | none => false

/-- The votes taken back, in order, as long as more than `n` of `used` is left. -/
def takenBack (n : Nat) : List (String × String × Nat) → Nat → List (String × String × Nat)
  | [], _ => []
  | x :: l, used => if n < used then x :: takenBack n l (used - x.2.2) else []

/-- Power of the listed votes. -/
def powerIn (l : List (String × String × Nat)) : Nat := (l.map (·.2.2)).sum

/-- The votes of a voter without the listed ones. -/
def dropAll (m : UMap String (UMap String Nat)) : List (String × String × Nat) → UMap String (UMap String Nat)
  | [] => m
  | x :: l => dropAll (dropVote m x.1 x.2.1) l

/-- Value of a decimal number with an optional `+`. -/
def decimal (m : List UInt8) : Nat :=
  (match m with | 43 :: t => t | _ => m).foldl (fun v (x : UInt8) => v * 10 + (x.toNat - 48)) 0

namespace Book

variable (b : Book)

/-- Record of the account, a blank one when there is none. -/
def acct (id : String) : Voter := (b.voter id).getD ⟨0, [], 0, UMap.empty⟩

/-- Write a record. -/
def put (id : String) (v : Voter) : Book :=
  { b with voter := upd b.voter id (some v), voters := if b.voter id = none then b.voters + 1 else b.voters }

/-- Delete a record. -/
def erase (id : String) : Book :=
  { b with voter := upd b.voter id none, voters := if b.voter id = none then b.voters else b.voters - 1 }

/-- Write a list of delegated addresses. -/
def putList (id : String) (l : List String) : Book :=
  { b with
    delegated := upd b.delegated id (some l)
    delegates := if b.delegated id = none then b.delegates + 1 else b.delegates }

/-- Delete a list of delegated addresses. -/
def eraseList (id : String) : Book :=
  { b with
    delegated := upd b.delegated id none
    delegates := if b.delegated id = none then b.delegates else b.delegates - 1 }

/-- `a` mpDAO are locked for `d` days on top of the record `v`, which becomes the record of `id`. -/
def lock (id : String) (v : Voter) (a d : Nat) : Book :=
  ({ b with power := b.power + powerOf a d }).put id { v with
    locking_positions := lockOn a d v.locking_positions
    available_voting_power := v.available_voting_power + powerOf a d }

/-- The object loses `n` votes and leaves the list when none is left. -/
def loseVotes (app obj : String) (n : Nat) : Book :=
  { b with votes := upd b.votes app (upd (b.votes app) obj
    (if (b.votes app obj).getD 0 - n = 0 then none else some ((b.votes app obj).getD 0 - n))) }

/-- The object gets `n` votes. -/
def winVotes (app obj : String) (n : Nat) : Book :=
  { b with votes := upd b.votes app (upd (b.votes app) obj (some ((b.votes app obj).getD 0 + n))) }

/-- `id` adds `n` to its vote on the object. -/
def cast (id : String) (n : Nat) (app obj : String) : Book :=
  (b.winVotes app obj n).put id { b.acct id with
    available_voting_power := (b.acct id).available_voting_power - n
    vote_positions := giveVote (b.acct id).vote_positions app obj ((b.acct id).votesOf app obj + n) }

/-- `id` takes its vote on the object back. -/
def uncast (id app obj : String) : Book :=
  (b.loseVotes app obj ((b.acct id).votesOf app obj)).put id { b.acct id with
    available_voting_power := (b.acct id).available_voting_power + (b.acct id).votesOf app obj
    vote_positions := dropVote (b.acct id).vote_positions app obj }

/-- `id` moves its vote on the object to `n`. -/
def recast (id : String) (n : Nat) (app obj : String) : Book :=
  if n = 0 then b.uncast id app obj
  else (if (b.acct id).votesOf app obj < n then b.winVotes app obj (n - (b.acct id).votesOf app obj)
      else b.loseVotes app obj ((b.acct id).votesOf app obj - n)).put id { b.acct id with
    available_voting_power := (b.acct id).available_voting_power + (b.acct id).votesOf app obj - n
    vote_positions := giveVote (b.acct id).vote_positions app obj n }

/-- `id` starts to unlock its position `i` at `now`. -/
def unlock (id : String) (now i : Nat) (p : LockingPosition) : Book :=
  ({ b with power := b.power - p.voting_power }).put id { b.acct id with
    locking_positions := (b.acct id).locking_positions.set i { p with unlocking_started_at := some now }
    available_voting_power := (b.acct id).available_voting_power - p.voting_power }

/-- `id` splits `a` mpDAO off its position `i` and starts to unlock them at `now`. -/
def split (id : String) (now i a : Nat) (p : LockingPosition) : Book :=
  ({ b with power := b.power - powerOf a p.locking_period }).put id { b.acct id with
    locking_positions := (b.acct id).locking_positions.set i { p with
        voting_power := p.voting_power - powerOf a p.locking_period, amount := p.amount - a }
      ++ [LockingPosition.mk a p.locking_period (powerOf a p.locking_period) (some now)]
    available_voting_power := (b.acct id).available_voting_power - powerOf a p.locking_period }

/-- `id` extends its position `i` to `d` days. -/
def extend (id : String) (i d : Nat) (p : LockingPosition) : Book :=
  ({ b with power := b.power + (powerOf p.amount d - p.voting_power) }).put id { b.acct id with
    locking_positions := (b.acct id).locking_positions.set i { p with
      locking_period := d, voting_power := powerOf p.amount d }
    available_voting_power := (b.acct id).available_voting_power + (powerOf p.amount d - p.voting_power) }

/-- What `id` withdraws: `a`, or everything when `a` is 0. -/
def withdrawn (id : String) (now : Nat) (is : List Nat) (a : Nat) : Nat :=
  if a = 0 then ((b.acct id).clearedAt now is).balance else a

/-- `id` clears the listed positions and withdraws; an account without mpDAO loses its record. -/
def pay (id : String) (now : Nat) (is : List Nat) (a : Nat) : Book :=
  if ((b.acct id).clearedAt now is).balance = b.withdrawn id now is a ∧
    ((b.acct id).clearedAt now is).locking_positions = [] then b.erase id
  else b.put id { (b.acct id).clearedAt now is with
    balance := ((b.acct id).clearedAt now is).balance - b.withdrawn id now is a }

/-- `id` uses `a` of its claimable stNEAR. -/
def claim (id : String) (a : Nat) : Book :=
  { b with stnear := upd b.stnear id (b.stnear id - a), stnearOwed := b.stnearOwed - a }

/-- The votes of `id` that do not fit the power of the pairs (days, amount). -/
def excess (id : String) (l : List (Nat × Nat)) : List (String × String × Nat) :=
  takenBack (mirrorPower l) (takenVotes (b.acct id).vote_positions) (b.acct id).used

/-- The listed objects lose the listed votes. -/
def loseAll : Book → List (String × String × Nat) → Book
  | b, [] => b
  | b, x :: l => loseAll (b.loseVotes x.1 x.2.1 x.2.2) l

/-- The positions mirrored for `id` are replaced; votes that exceed the new power are taken back. -/
def mirror (id : String) (l : List (Nat × Nat)) : Book :=
  ({ b.loseAll (b.excess id l) with power := b.power + mirrorPower l - (b.acct id).power }).put id { b.acct id with
    locking_positions := l.map mirrorPosition
    available_voting_power := mirrorPower l - ((b.acct id).used - powerIn (b.excess id l))
    vote_positions := dropAll (b.acct id).vote_positions (b.excess id l) }

/-- A deposit of `a` mpDAO or a distribution. -/
def receive (J : Json) (c : Ctx) (sender : String) (a : Nat) (m : List UInt8) : Book :=
  if forClaims m then
    if c.predecessor = b.config.mpdao then
      { b with
        mpdao := fun id => b.mpdao id + itemsFor id (claimItems J m) * 10 ^ 6
        mpdaoOwed := b.mpdaoOwed + a
        mpdaoGiven := b.mpdaoGiven + a }
    else
      { b with
        stnear := fun id => b.stnear id + itemsFor id (claimItems J m) * 10 ^ 20
        stnearOwed := b.stnearOwed + a
        stnearGiven := b.stnearGiven + a }
  else if [91] <+: m then match J.parse_pair m with
    | some t => b.lock t.1 (b.acct t.1) a t.2
    | none => b
  else b.lock sender (b.acct sender) a (decimal m)

/-- The delegation of `e` to the account `id` is recorded. -/
def grant (e id sig : String) : Book :=
  { b.putList id ((b.delegated id).getD [] ++ [e]) with granted := upd b.granted e (some (id, sig)) }

/-- `e` leaves the list of its delegate `id`; an empty list is deleted. -/
def revoke (e id : String) : Book :=
  if ((b.delegated id).getD []).filter (fun x => x ≠ e) = [] then b.eraseList id
  else b.putList id (((b.delegated id).getD []).filter (fun x => x ≠ e))

/-- The delegation asked for `e` is confirmed. -/
def confirm (e : String) : Book :=
  match b.asked e with
  | none => b
  | some x => match b.granted e with
    | none => ({ b with asked := upd b.asked e none }).grant e x.1 x.2
    | some y => if y.1 = x.1 then { b with asked := upd b.asked e none }
      else (({ b with asked := upd b.asked e none }).revoke e y.1).grant e x.1 x.2

/-- The position `i` of the caller. -/
def position (c : Ctx) (i : Nat) : Option LockingPosition := (b.acct c.predecessor).locking_positions[i]?

/-- The books after an accepted call, the configuration apart. -/
def change (J : Json) (c : Ctx) : Call → Book
  | .update_airdrop_user_data d => { b with data := upd b.data c.predecessor (some d) }
  | .operator_multi_set_airdrop_data l => { b with data := l.foldl (fun f x => upd f x.1 (some x.2)) b.data }
  | .claim_and_lock a d =>
    ({ b with
      mpdao := upd b.mpdao c.predecessor (b.mpdao c.predecessor - a)
      mpdaoOwed := b.mpdaoOwed - a }).lock c.predecessor (b.acct c.predecessor) a d
  | .claim_stnear a => b.claim c.predecessor a
  | .delegated_claim_stnear e a => b.claim (e ++ ".evmp.near") a
  | .unlock_position i => match b.position c i with
    | some p => b.unlock c.predecessor c.now i p
    | none => b
  | .unlock_partial_position i a => match b.position c i with
    | some p => if a = p.amount then b.unlock c.predecessor c.now i p else b.split c.predecessor c.now i a p
    | none => b
  | .locking_position_extend_days i d => match b.position c i with
    | some p => b.extend c.predecessor i d p
    | none => b
  | .relock_position i d x => match b.position c i with
    | some p => b.lock c.predecessor { b.acct c.predecessor with
        balance := (b.acct c.predecessor).balance - x
        locking_positions := swapRemove (b.acct c.predecessor).locking_positions i } (p.amount + x) d
    | none => b
  | .relock_partial_position i a d x => match b.position c i with
    | some p => if 0 < leftOf p (p.unlocking_started_at.getD 0) c.now then
        b.lock c.predecessor { b.acct c.predecessor with
          balance := (b.acct c.predecessor).balance - x
          locking_positions := (b.acct c.predecessor).locking_positions.set i { p with
            amount := p.amount - a, voting_power := powerOf (p.amount - a) p.locking_period } } (x + a) d
      else b.lock c.predecessor { b.acct c.predecessor with
          balance := (b.acct c.predecessor).balance + (p.amount - a) - x
          locking_positions := swapRemove (b.acct c.predecessor).locking_positions i } (x + a) d
    | none => b
  | .relock_from_balance d x => b.lock c.predecessor { b.acct c.predecessor with
      balance := (b.acct c.predecessor).balance - x } x d
  | .clear_locking_position l => b.put c.predecessor ((b.acct c.predecessor).clearedAt c.now l)
  | .vote n app obj => b.cast c.predecessor n app obj
  | .vote_delegated e n app obj => b.cast (e ++ ".evmp.near") n app obj
  | .unvote app obj => b.uncast c.predecessor app obj
  | .unvote_delegated e app obj => b.uncast (e ++ ".evmp.near") app obj
  | .rebalance n app obj => b.recast c.predecessor n app obj
  | .migration_create_lps id l d =>
    { l.foldl (fun b x => b.lock id (b.acct id) (x.1 / 10 ^ 18) x.2) b with
      data := match d, b.data c.predecessor with
        | some x, none => upd b.data c.predecessor (some x)
        | _, _ => b.data }
  | .operator_mirror_lps e l => b.mirror (e ++ ".evmp.near") l
  | .withdraw l a => b.pay c.predecessor c.now l a
  | .withdraw_all => b.pay c.predecessor c.now (maturedAt c.now (b.acct c.predecessor).locking_positions) 0
  | .after_transfer_mpdao_callback id a => if c.promise_results.head? = some false then
      b.put id { b.acct id with balance := (b.acct id).balance + a } else b
  | .after_transfer_stnear_callback id a => if c.promise_results.head? = some false then
      { b with stnear := upd b.stnear id (b.stnear id + a), stnearOwed := b.stnearOwed + a } else b
  | .ft_on_transfer se a m => b.receive J c se a m
  | .pre_delegate_evm_address e g => { b with asked := upd b.asked e (some (c.predecessor, g)) }
  | .operator_remove_pre_delegate_evm_address e => { b with asked := upd b.asked e none }
  | .operator_confirm_delegated_evm_address e => b.confirm e
  | .remove_delegated_evm_address e =>
    { b.putList c.predecessor (((b.delegated c.predecessor).getD []).filter (fun x => x ≠ e)) with
      granted := upd b.granted e none }
  | _ => b

/-- The books after an accepted call. -/
def after (J : Json) (c : Ctx) (k : Call) : Book := { b.change J c k with config := configAfter b.config k }

/-- The transfers started by an accepted call. -/
def sends (c : Ctx) : Call → List Transfer
  | .claim_stnear a => [⟨b.config.stnear, c.predecessor, a, .after_transfer_stnear c.predecessor a⟩]
  | .delegated_claim_stnear e a => [⟨b.config.stnear, c.predecessor, a, .after_transfer_stnear (e ++ ".evmp.near") a⟩]
  | .withdraw l a => [⟨b.config.mpdao, c.predecessor, b.withdrawn c.predecessor c.now l a,
      .after_transfer_mpdao c.predecessor (b.withdrawn c.predecessor c.now l a)⟩]
  | .withdraw_all => [⟨b.config.mpdao, c.predecessor, (b.acct c.predecessor).withdrawable c.now,
      .after_transfer_mpdao c.predecessor ((b.acct c.predecessor).withdrawable c.now)⟩]
  | _ => []

/-- The books of a fresh contract. -/
def fresh (cf : Config) : Book :=
  ⟨fun _ => none, 0, 0, fun _ _ => none, fun _ => 0, 0, 0, fun _ => 0, 0, 0, fun _ => none, fun _ => none,
    fun _ => none, fun _ => none, 0, cf⟩

/-- The books after a history (newest entry first): accepted calls, and transfers that failed and were given back. -/
def replay (J : Json) (b : Book) : List Entry → Book
  | [] => b
  | .call c k _ :: l => (replay J b l).after J c k
  | .resolved t ok restored :: l => if ok = false ∧ restored = true then
      match t.callback with
      | .after_transfer_mpdao id a =>
        (replay J b l).put id { (replay J b l).acct id with balance := ((replay J b l).acct id).balance + a }
      | .after_transfer_stnear id a => { replay J b l with
          stnear := upd (replay J b l).stnear id ((replay J b l).stnear id + a)
          stnearOwed := (replay J b l).stnearOwed + a }
    else replay J b l

end Book

end Verif.MetaVote
