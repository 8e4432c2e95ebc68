import Verif.Serde.MetaVoteApi
import Verif.Serde.MpipApi
import Verif.Serde.SmallApi
import Verif.Joint.Governance
import Verif.MetaVote.Ranges
import Verif.MetaVote.Accept
import Verif.MetaVote.AcceptIff
import Verif.MetaVote.ViewLemmas

/-!
# The messages between the contracts as JSON

`serde_json` at the types used by the contracts replaces the parameter `Json` of both models; the questions of mpip to
meta-vote, the answers, and the messages between meta-vote and the tokens are bytes.
-/

namespace Verif.Serde

open Verif Storage MetaVote

theorem uint_ne_null {m : Nat} (n : Nat) : (uint m).write n ≠ .null := by simp [uint]

/-- `LockingPositionJSON`: `meta-vote-contract/src/types.rs:23-34`, `mpip-contract/src/types.rs:19-30`. -/
def positionFields : Fields LockingPositionJSON :=
  (Fields.opt "index" u64 uint_ne_null ⊗ Fields.one "amount" u128 ⊗ Fields.one "locking_period" u16 ⊗
    Fields.one "voting_power" u128 ⊗ Fields.opt "unlocking_started_at" u64 uint_ne_null ⊗ Fields.one "is_unlocked" bool ⊗
    Fields.one "is_unlocking" bool ⊗ Fields.one "is_locked" bool).iso
    (fun (a, b, c, d, e, f, g, h) => ⟨a, b, c, d, e, f, g, h⟩)
    (fun p => (p.index, p.amount, p.locking_period, p.voting_power, p.unlocking_started_at, p.is_unlocked, p.is_unlocking,
      p.is_locked)) (fun _ => rfl) (fun _ => rfl)

def positionTy : Ty LockingPositionJSON := struct positionFields

/-- Positions that fit their types. -/
theorem positionTy_ok {p : LockingPositionJSON} : positionTy.ok p ↔ (∀ i, p.index = some i → i ≤ U64_MAX) ∧
    p.amount ≤ U128_MAX ∧ p.locking_period ≤ U16_MAX ∧ p.voting_power ≤ U128_MAX ∧
    ∀ t, p.unlocking_started_at = some t → t ≤ U64_MAX :=
  ⟨fun h => ⟨h.1, h.2.1, h.2.2.1, h.2.2.2.1, h.2.2.2.2.1⟩,
    fun h => ⟨h.1, h.2.1, h.2.2.1, h.2.2.2.1, h.2.2.2.2, trivial, trivial, trivial⟩⟩

end Verif.Serde

namespace Verif.MetaVote

open Verif Storage Serde

/-- `serde_json::from_str` at `Vec<(String, u64)>` and `(String, u16)` (`deposit.rs:24`, `deposit.rs:39`). -/
def serde : Json := ⟨(list (pair str u64)).decode, (pair str u16).decode⟩

/-- The two views that mpip asks: name and input to output (`view.rs:67-69`, `view.rs:180-190`).  A method without arguments
does not look at its input. -/
def viewJson (s : State) (now : Nat) (name : String) (b : Bytes) : Option Bytes :=
  match name with
  | "get_all_locking_positions" =>
    argsOf (Fields.one "voter_id" str) (fun v => (list positionTy).encode (s.get_all_locking_positions now v)) b
  | "get_total_voting_power" => some (u128.encode s.get_total_voting_power)
  | _ => none

/-- `ft_transfer` as sent to a token: receiver as written in the ledger, no memo (`interface.rs:14-19`,
`withdraw.rs:70`, `withdraw.rs:117`). -/
def Transfer.write (t : Transfer) : String × Bytes :=
  ("ft_transfer", argsTo (Fields.one "receiver_id" str ⊗ Fields.one "amount" u128 ⊗
    Fields.opt "memo" str (fun _ => by simp [str])) (t.receiver, t.amount, none))

/-- What `ft_on_transfer` returns when it is accepted (`deposit.rs:63`). -/
def onTransferResult : Bytes := u128.encode 0

/-- Positions shown by a reachable state fit their types. -/
theorem shown_ok {J : Json} {me : AccountId} {w : World} (h : Reach J me w) (now : Nat) (v : String) :
    ∀ p ∈ w.st.get_all_locking_positions now v, positionTy.ok p := by
  intro p hp
  unfold State.get_all_locking_positions positions_json at hp
  rw [internal_get_voter_eq] at hp
  obtain ⟨⟨q, i⟩, hq, rfl⟩ := List.mem_map.1 hp
  have hmem : q ∈ (w.st.voterD v).locking_positions := List.fst_mem_of_mem_zipIdx hq
  have hi : i < (w.st.voterD v).locking_positions.length := by
    have := List.snd_lt_of_mem_zipIdx hq; simpa using this
  have hlen := (reach_sound h).length v
  have hpos := reach_posOK h v q hmem
  have hf := (reach_fundOK h v).2 q hmem
  have hc := reach_clock h
  rw [positionTy_ok]
  refine ⟨?_, hpos.1, hpos.2.1, hpos.2.2, ?_⟩
  · intro j hj
    simp only [LockingPosition.to_json, Option.some.injEq] at hj
    subst hj
    have h8 : U8_MAX ≤ U64_MAX := by decide
    have : (w.st.positionsOf v).length = (w.st.voterD v).locking_positions.length := rfl
    omega
  · intro t ht
    have := hf t ht
    have := Nat.div_le_self w.clock 1000000
    omega

end Verif.MetaVote

namespace Verif.Mpip

open Verif Storage Serde

/-- `serde_json::from_slice` at `U128` and `Vec<LockingPositionJSON>` (`internal.rs:167`, `internal.rs:184`). -/
def serde : Json := ⟨u128.decode, (list positionTy).decode⟩

/-- A question as sent (`interface.rs:5-11`): the voter is an `AccountId` here. -/
def Query.write : Query → String × Bytes
  | .get_all_locking_positions v => ("get_all_locking_positions", argsTo (Fields.one "voter_id" account) v)
  | .get_total_voting_power => ("get_total_voting_power", [])

end Verif.Mpip

namespace Verif.Joint

open Verif Storage Serde

/-- The answer of meta-vote to the bytes of a question, or a failure (gas). -/
def Replies (s : MetaVote.State) (q : Mpip.Query) (r : Mpip.Reply) : Prop :=
  r = .failed ∨ ∃ now b, MetaVote.viewJson s now q.write.1 q.write.2 = some b ∧ r = .successful b

/-- One step of both contracts, with JSON messages. -/
inductive WStep (vote gov : String) : World → World → Prop
  | mv (j : World) (v' : MetaVote.World) (h : MetaVote.Step MetaVote.serde vote j.mv v') :
      WStep vote gov j { j with mv := v' }
  /-- method `name` of mpip is called with input `b` by an existing account -/
  | call (j : World) (p' : Mpip.World) (c : Mpip.Ctx) (name : String) (b : Bytes) (k : Mpip.Call) (out : List Mpip.Promise)
      (hb : Mpip.Call.read name b = some k) (hc : validAccount c.predecessor = true)
      (h : Mpip.Step Mpip.serde gov j.mp p') (hlog : p'.log = .call c k out :: j.mp.log)
      (hk : ∀ a, k = .update_meta_vote_contract_address a → a = vote) :
      WStep vote gov j ⟨j.mv, p', j.asked ++ (Mpip.asked c.signer out).map (fun q => (q, j.mv))⟩
  | reply (j : World) (p' : Mpip.World) (pre post : List (Mpip.Pending × MetaVote.World)) (q : Mpip.Pending)
      (w0 m : MetaVote.World) (ts : Nat) (r : Mpip.Reply) (b : Bool)
      (h : Mpip.Step Mpip.serde gov j.mp p') (hlog : p'.log = .replied q ts r b :: j.mp.log)
      (hq : j.asked = pre ++ (q, w0) :: post) (h0 : MetaVote.Steps MetaVote.serde vote w0 m)
      (h1 : MetaVote.Steps MetaVote.serde vote m j.mv) (hr : Replies m.st q.query r) :
      WStep vote gov j ⟨j.mv, p', pre ++ post⟩
  | tick (j : World) (p' : Mpip.World) (h : Mpip.Step Mpip.serde gov j.mp p') (hlog : p'.log = j.mp.log) :
      WStep vote gov j { j with mp := p' }

inductive WReach (vote gov : String) : World → Prop
  | init (v : MetaVote.World) (p : Mpip.World) (hv : MetaVote.Reach MetaVote.serde vote v) (hp : Mpip.Init p)
      (ha : p.st.meta_vote_contract_address = vote) : WReach vote gov ⟨v, p, []⟩
  | step {j j' : World} (h : WReach vote gov j) (hs : WStep vote gov j j') : WReach vote gov j'

end Verif.Joint
