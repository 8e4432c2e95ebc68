import Verif.Storage.Cells
import Verif.Storage.Keys
import Verif.MetaVote.Step

/-!
# meta-vote over contract storage

The model in `Verif/MetaVote` treats the vote maps as values.  In the contract they are handles (prefix and length) over
storage entries, and two things can happen that values do not show: a map may be created again over entries that an earlier
one left behind, and two maps may share a prefix.  Here the vote maps are modelled as they are stored; everything else is
taken from `Verif/MetaVote`.

Stored are
* for each voter, the map from apps to handles (`StorageKey::VotePosition`, prefix: hash of the voter id); its length is
  in the voter record;
* for each id `voter-app`, the map from objects to votes (`StorageKey::VoterVotes`, prefix: hash of the id); its handle is
  the value in the map above;
* the map from apps to handles of total votes (`StorageKey::Votes`), created once, so modelled as a value;
* for each app, the map from objects to total votes (`StorageKey::ContractVotes`, prefix: hash of the app).

Simplifications: the hash has no collisions, so regions are named by the strings that are hashed; the other collections are
values (they are created once, except the positions of a voter, which are empty when the voter is removed).
-/

namespace Verif.Storage

open Verif MetaVote

/-- A stored `UnorderedMap<VotableObjId, u128>`: the string hashed in its prefix, and its length. -/
structure Handle where
  region : String
  len : Nat
  deriving DecidableEq

/-- Storage of the vote maps. -/
structure Mem where
  /-- `vote_positions` of a voter (`voter.rs:20,31-33`) -/
  vp : String → Cells String Handle
  /-- votes of a voter for an app, by id (`voter.rs:105-110`) -/
  vv : String → Cells String Nat
  /-- `votes` of the contract: length of the map of each app (`lib.rs:33,93`) -/
  vt : UMap String Nat
  /-- total votes for an app (`internal.rs:42-46`) -/
  cv : String → Cells String Nat

namespace Mem

/-- `voter.rs:100-111` -/
def position (m : Mem) (voter_id : String) (vlen : Nat) (contract_address : String) : Res Handle := do
  let h ← (m.vp voter_id).get vlen contract_address
  pure (h.getD ⟨join voter_id contract_address, 0⟩)

/-- `votes_for_address.get(..)` -/
def voteIn (m : Mem) (h : Handle) (votable_object_id : String) : Res (Option Nat) :=
  (m.vv h.region).get h.len votable_object_id

/-- `votes_for_address.insert(..)` and `voter.vote_positions.insert(..)` (`lib.rs:592-595`, `lib.rs:671-674`); also the
new length of the latter. -/
def setVote (m : Mem) (voter_id : String) (vlen : Nat) (contract_address : String) (h : Handle)
    (votable_object_id : String) (votes : Nat) : Res (Mem × Nat) := do
  let r ← (m.vv h.region).insert h.len votable_object_id votes
  let q ← (m.vp voter_id).insert vlen contract_address ⟨h.region, r.2⟩
  pure ({ m with vv := upd m.vv h.region r.1, vp := upd m.vp voter_id q.1 }, q.2)

/-- `user_votes_for_app.remove(..)`, and removal or replacement of the map (`lib.rs:693-701`). -/
def delVote (m : Mem) (voter_id : String) (vlen : Nat) (contract_address : String) (h : Handle)
    (votable_object_id : String) : Res (Mem × Nat) := do
  let r ← (m.vv h.region).remove h.len votable_object_id
  let q ← (if r.2 = 0 then (m.vp voter_id).remove vlen contract_address
    else (m.vp voter_id).insert vlen contract_address ⟨h.region, r.2⟩)
  pure ({ m with vv := upd m.vv h.region r.1, vp := upd m.vp voter_id q.1 }, q.2)

/-- `internal.rs:49-61` -/
def increaseTotal (m : Mem) (voting_power : Nat) (contract_address votable_object_id : String) : Res Mem := do
  let len := (m.vt.get contract_address).getD 0
  let old ← (m.cv contract_address).get len votable_object_id
  let votes ← addU128 (old.getD 0) voting_power
  let r ← (m.cv contract_address).insert len votable_object_id votes
  pure { m with cv := upd m.cv contract_address r.1, vt := m.vt.insert contract_address r.2 }

/-- `internal.rs:63-87` -/
def decreaseTotal (m : Mem) (voting_power : Nat) (contract_address votable_object_id : String) : Res Mem := do
  let len := (m.vt.get contract_address).getD 0
  let old ← (m.cv contract_address).get len votable_object_id
  let votes ← expect old "Cannot decrease if the Contract Address has no Votable Object."
  require (voting_power ≤ votes) "Decreasing total is too large."
  let votes ← subU votes voting_power
  let r ← (if votes = 0 then (m.cv contract_address).remove len votable_object_id
    else (m.cv contract_address).insert len votable_object_id votes)
  pure { m with
    cv := upd m.cv contract_address r.1
    vt := if r.2 = 0 then m.vt.remove contract_address else m.vt.insert contract_address r.2 }

/-- `voter.rs:71-77` -/
def usedVotes (m : Mem) (voter_id : String) (vlen : Nat) : Res Nat := do
  let maps ← (m.vp voter_id).values vlen
  let sums ← maps.mapM (fun h => do
    let l ← (m.vv h.region).values h.len
    sumU128 l)
  sumU128 sums

end Mem

/-- State of the contract: `st` without the vote maps, the lengths of `vote_positions` in the voter records, and the
storage of the vote maps. -/
structure SState where
  st : State
  vlen : String → Nat
  mem : Mem

namespace SState

/-- Save a voter record (`self.voters.insert`). -/
def save (S : SState) (voter_id : String) (voter : Voter) (vlen : Nat) : SState :=
  { S with st := { S.st with voters := S.st.voters.insert voter_id voter }, vlen := upd S.vlen voter_id vlen }

/-- `lib.rs:567-600` -/
def internal_create_voting_position (S : SState) (voter_id : String) (voter : Voter) (vlen voting_power : Nat)
    (contract_address votable_object_id : String) : Res (SState × Voter × Nat) := do
  require (voting_power ≤ voter.available_voting_power) "Not enough free voting power."
  require (vlen ≤ S.st.max_voting_positions) "Cannot exceed voting positions."
  let h ← S.mem.position voter_id vlen contract_address
  let old ← S.mem.voteIn h votable_object_id
  let avp ← subU voter.available_voting_power voting_power
  let votes ← addU128 (old.getD 0) voting_power
  let r ← S.mem.setVote voter_id vlen contract_address h votable_object_id votes
  let m ← r.1.increaseTotal voting_power contract_address votable_object_id
  pure ({ S with mem := m }, { voter with available_voting_power := avp }, r.2)

/-- `lib.rs:537-565` -/
def internal_vote (S : SState) (voter_id : String) (voting_power : Nat) (contract_address votable_object_id : String) :
    Res SState := do
  let voter ← S.st.internal_get_voter_or_panic voter_id
  let r ← S.internal_create_voting_position voter_id voter (S.vlen voter_id) voting_power contract_address votable_object_id
  pure (r.1.save voter_id r.2.1 r.2.2)

/-- `lib.rs:678-715` -/
def internal_remove_voting_position (S : SState) (voter_id : String) (voter : Voter) (vlen : Nat)
    (contract_address votable_object_id : String) : Res (SState × Voter × Nat) := do
  let h ← S.mem.position voter_id vlen contract_address
  let old ← S.mem.voteIn h votable_object_id
  let user_vote_for_object ← expect old "Cannot unvote a Votable Object without votes."
  let avp ← addU128 voter.available_voting_power user_vote_for_object
  let r ← S.mem.delVote voter_id vlen contract_address h votable_object_id
  let m ← r.1.decreaseTotal user_vote_for_object contract_address votable_object_id
  pure ({ S with mem := m }, { voter with available_voting_power := avp }, r.2)

/-- `lib.rs:722-752` -/
def internal_unvote (S : SState) (c : Ctx) (voter_id : String) (contract_address votable_object_id : String) :
    Res SState := do
  require (S.st.is_vote_locked c.now contract_address votable_object_id = false) "you can not remove votes here"
  let voter ← S.st.internal_get_voter_or_panic voter_id
  let r ← S.internal_remove_voting_position voter_id voter (S.vlen voter_id) contract_address votable_object_id
  pure (r.1.save voter_id r.2.1 r.2.2)

/-- `lib.rs:602-676` -/
def rebalance (S : SState) (c : Ctx) (voting_power : Nat) (contract_address votable_object_id : String) : Res SState := do
  let voter_id := c.predecessor
  let voter ← S.st.internal_get_voter_or_panic voter_id
  let h ← S.mem.position voter_id (S.vlen voter_id) contract_address
  let old ← S.mem.voteIn h votable_object_id
  let votes ← expect old "Rebalance not allowed for nonexisting Votable Object."
  require (votes ≠ voting_power) "Cannot rebalance to same Voting Power."
  if voting_power = 0 then
    S.internal_unvote c c.predecessor contract_address votable_object_id
  else
    let r ← (if votes < voting_power then do
        let additional_votes ← subU voting_power votes
        require (additional_votes ≤ voter.available_voting_power) "Not enough free voting power to unlock!"
        let avp ← subU voter.available_voting_power additional_votes
        let votes ← addU128 votes additional_votes
        let m ← S.mem.increaseTotal additional_votes contract_address votable_object_id
        pure (m, avp, votes)
      else do
        let remove_votes ← subU votes voting_power
        let avp ← addU128 voter.available_voting_power remove_votes
        let votes ← subU votes remove_votes
        let m ← S.mem.decreaseTotal remove_votes contract_address votable_object_id
        pure (m, avp, votes) : Res (Mem × Nat × Nat))
    let q ← r.1.setVote voter_id (S.vlen voter_id) contract_address h votable_object_id r.2.2
    pure (({ S with mem := q.1 }).save voter_id { voter with available_voting_power := r.2.1 } q.2)

/-- The `while` loop at `lib.rs:861-875`.  Every iteration that succeeds removes an entry of the voter; the loop is given
`fuel` iterations, and running out of them is an error. -/
def mirror_remove_votes (voter_id : String) (new_voting_power : Nat) :
    Nat → SState → Voter → Nat → Nat → Res (SState × Voter × Nat × Nat)
  | fuel, S, voter, vlen, used =>
    if new_voting_power < used then
      match fuel with
      | 0 => .error (.assert "called `Option::unwrap()` on a `None` value")
      | fuel + 1 => do
        let key ← (S.mem.vp voter_id).keyAt vlen 0
        let app ← expect key "unwrap"
        let h ← (S.mem.vp voter_id).get vlen app
        let h ← expect h "unwrap"
        let key ← (S.mem.vv h.region).keyAt h.len 0
        let obj ← expect key "unwrap"
        let votes ← S.mem.voteIn h obj
        let votes ← expect votes "unwrap"
        let r ← S.internal_remove_voting_position voter_id voter vlen app obj
        let used ← subU used votes
        mirror_remove_votes voter_id new_voting_power fuel r.1 r.2.1 r.2.2 used
    else pure (S, voter, vlen, used)

/-- The number of vote entries of a voter, which bounds the loop. -/
def entryCount (S : SState) (voter_id : String) (vlen : Nat) : Res Nat := do
  let maps ← (S.mem.vp voter_id).values vlen
  pure ((maps.map (·.len)).sum)

/-- `lib.rs:834-899` -/
def operator_mirror_lps (S : SState) (c : Ctx) (external_address : String) (locking_positions : List (Nat × Nat)) :
    Res SState := do
  S.st.assert_operator c
  let voter_id := pseudo_near_address external_address
  let voter := S.st.internal_get_voter voter_id
  let vlen := S.vlen voter_id
  let used_voting_power ← S.mem.usedVotes voter_id vlen
  let prev_voting_power ← addU128 voter.available_voting_power used_voting_power
  let new_vps ← locking_positions.mapM (fun i => calculate_voting_power i.2 i.1)
  let new_voting_power ← sumU128 new_vps
  let fuel ← S.entryCount voter_id vlen
  let r ← mirror_remove_votes voter_id new_voting_power fuel S voter vlen used_voting_power
  let voter := { r.2.1 with locking_positions := [], available_voting_power := 0 }
  let sv ← locking_positions.foldlM State.mirror_step (r.1.st, voter)
  let avp ← subU sv.2.available_voting_power r.2.2.2
  let total ← subU sv.1.total_voting_power prev_voting_power
  pure (({ r.1 with st := { sv.1 with total_voting_power := total } }).save voter_id
    { sv.2 with available_voting_power := avp } r.2.2.1)

/-- The other calls do not touch the vote maps.  A voter that is removed, or was not registered, has a map of length 0 when
it is created (`voter.rs:31-33`); nothing is deleted from the storage of its map. -/
def other (J : Json) (S : SState) (c : Ctx) (k : Call) : Res (SState × List Transfer) := do
  let r ← run J S.st c k
  pure ({ S with
    st := r.1
    vlen := fun id => if (r.1.voters.get id).isSome then S.vlen id else 0 }, r.2)

/-- A method that starts no transfer. -/
def quiet (r : Res SState) : Res (SState × List Transfer) := do
  let s ← r
  pure (s, [])

end SState

/-- Body of each entry point (`MetaVote.run`) over storage. -/
def srun (J : Json) (S : SState) (c : Ctx) (k : Call) : Res (SState × List Transfer) :=
  match k with
  | .vote n a o => SState.quiet (S.internal_vote c.predecessor n a o)
  | .rebalance n a o => SState.quiet (S.rebalance c n a o)
  | .unvote a o => SState.quiet (S.internal_unvote c c.predecessor a o)
  | .operator_mirror_lps e l => SState.quiet (S.operator_mirror_lps c e l)
  | .vote_delegated e n a o => SState.quiet (do
    let pseudo_account ← S.st.verify_delegate c e
    S.internal_vote pseudo_account n a o)
  | .unvote_delegated e a o => SState.quiet (do
    let pseudo_account ← S.st.verify_delegate c e
    S.internal_unvote c pseudo_account a o)
  | k => S.other J c k

/-- `MetaVote.exec` over storage. -/
def sexec (J : Json) (S : SState) (c : Ctx) (k : Call) : Res (SState × List Transfer) := do
  require (k.payable = true ∨ c.deposit = 0) "Method doesn't accept deposit"
  require (k.is_private = true → c.predecessor = c.current) "Method is private"
  require (k.in_range = true) "Failed to deserialize input from JSON."
  srun J S c k

/-! ## Executions -/

/-- Contract state, transfers in flight, clock and log, as in `MetaVote.World`. -/
structure SWorld where
  S : SState
  pending : List Transfer
  clock : Nat
  log : List Entry

/-- One step of the chain (`MetaVote.Step`) over storage. -/
inductive SStep (J : Json) (me : AccountId) : SWorld → SWorld → Prop
  | call (w : SWorld) (c : Ctx) (k : Call) (S' : SState) (out : List Transfer)
      (hme : c.current = me) (hres : c.promise_results = []) (hm : ¬ mirrored c.predecessor)
      (hclock : w.clock ≤ c.timestamp) (hu64 : c.timestamp ≤ U64_MAX)
      (hexec : sexec J w.S c k = .ok (S', out)) :
      SStep J me w ⟨S', w.pending ++ out, c.timestamp, .call c k out :: w.log⟩
  | resolve (w : SWorld) (pre post : List Transfer) (t : Transfer) (ok : Bool) (ts : Nat)
      (hpend : w.pending = pre ++ t :: post) (hclock : w.clock ≤ ts) (hu64 : ts ≤ U64_MAX) :
      SStep J me w ⟨((sexec J w.S ⟨me, me, 0, ts, [ok]⟩ t.callbackCall).getOr (w.S, [])).1,
        pre ++ post, ts,
        .resolved t ok (Res.isOk (sexec J w.S ⟨me, me, 0, ts, [ok]⟩ t.callbackCall)) :: w.log⟩
  | tick (w : SWorld) (ts : Nat) (hclock : w.clock ≤ ts) (hu64 : ts ≤ U64_MAX) :
      SStep J me w { w with clock := ts }

/-- Untouched storage. -/
def Mem.empty : Mem := ⟨fun _ => Cells.empty, fun _ => Cells.empty, UMap.empty, fun _ => Cells.empty⟩

/-- The world just after an accepted `new`, with untouched storage. -/
inductive SInit : SWorld → Prop
  | mk (w : World) (h : Init w) : SInit ⟨⟨w.st, fun _ => 0, Mem.empty⟩, [], w.clock, []⟩

/-- Worlds reachable from an initialization. -/
inductive SReach (J : Json) (me : AccountId) : SWorld → Prop
  | init {w : SWorld} (h : SInit w) : SReach J me w
  | step {w w' : SWorld} (h : SReach J me w) (hs : SStep J me w w') : SReach J me w'

/-! ## Views -/

namespace SState

/-- `view.rs:272-284` -/
def get_votes_for_object (S : SState) (voter_id contract_address votable_object_id : String) : Res Nat := do
  let h ← (S.mem.vp voter_id).get (S.vlen voter_id) contract_address
  match h with
  | none => pure 0
  | some h => do
    let n ← S.mem.voteIn h votable_object_id
    pure (n.getD 0)

/-- `view.rs:170-173` -/
def get_used_voting_power (S : SState) (voter_id : String) : Res Nat := S.mem.usedVotes voter_id (S.vlen voter_id)

/-- `view.rs:206-216` -/
def get_total_votes (S : SState) (contract_address votable_object_id : String) : Res Nat := do
  match S.mem.vt.get contract_address with
  | none => pure 0
  | some len => do
    let n ← (S.mem.cv contract_address).get len votable_object_id
    pure (n.getD 0)

end SState

end Verif.Storage
