import Verif.Spec.MetaVote
import Mathlib.Tactic.NormNum

/-!
# Ledger specification for the meta-vote contract

What the contract received, paid and still has in flight, read off the log of accepted calls and
resolved transfers.  Nothing here refers to the functions of the contract, except the JSON decoder
`Json`, which is a parameter.
-/

namespace Verif.MetaVote

open Verif

/-- The message starts with `for-claims:`. -/
def forClaims (m : List UInt8) : Prop := FOR_CLAIMS <+: m

instance (m : List UInt8) : Decidable (forClaims m) := by unfold forClaims; infer_instance

/-- The items listed in a `for-claims:` message. -/
def claimItems (J : Json) (m : List UInt8) : List (String × Nat) := (J.parse_claims (m.drop 11)).getD []

/-- The unit of the listed mpDAO amounts, 10^6. -/
@[irreducible] def E6 : Nat := 1000000

theorem E6_eq : E6 = 10 ^ 6 := by unfold E6; norm_num

/-- Sum of all the listed amounts. -/
def itemsTotal (l : List (String × Nat)) : Nat := (l.map (·.2)).sum

/-- Sum of the amounts listed for `id`. -/
def itemsFor (id : String) (l : List (String × Nat)) : Nat :=
  (l.map (fun p => if p.1 = id then p.2 else 0)).sum

/-- Who is credited by a deposit: `[voter, days]` names the voter, otherwise it is the sender. -/
def beneficiary (J : Json) (sender : String) : List UInt8 → Option String
  | 91 :: t => (J.pair (91 :: t)).map Prod.fst
  | _ => some sender

/-- mpDAO brought by a migration: 24 decimals become 6. -/
def migratedAmount (l : List (Nat × Nat)) : Nat := (l.map (fun p => p.1 / 10 ^ 18)).sum

/-- mpDAO credited to account `id` by an accepted call. -/
def creditOf (J : Json) (mpdao : AccountId) (id : String) (c : Ctx) : Call → Nat
  | .ft_on_transfer sender a m =>
    if c.predecessor = mpdao then
      if forClaims m then itemsFor id (claimItems J m) * E6
      else if beneficiary J sender m = some id then a else 0
    else 0
  | .migration_create_lps v l _ => if v = id then migratedAmount l else 0
  | _ => 0

/-- mpDAO received with an accepted call, except deposits for mirrored accounts. -/
def receivedBy (J : Json) (mpdao : AccountId) (c : Ctx) : Call → Nat
  | .ft_on_transfer sender a m =>
    if c.predecessor = mpdao then
      if forClaims m then a
      else match beneficiary J sender m with
        | some v => if mirrored v then 0 else a
        | none => 0
    else 0
  | _ => 0

/-- mpDAO migrated by an accepted call, except for mirrored accounts. -/
def migratedBy : Call → Nat
  | .migration_create_lps v l _ => if mirrored v then 0 else migratedAmount l
  | _ => 0

/-- stNEAR received with an accepted call. -/
def receivedStBy (mpdao : AccountId) (c : Ctx) : Call → Nat
  | .ft_on_transfer _ a m => if c.predecessor ≠ mpdao ∧ forClaims m then a else 0
  | _ => 0

/-- stNEAR credited to `id` by an accepted call. -/
def creditStOf (J : Json) (mpdao : AccountId) (id : String) (c : Ctx) : Call → Nat
  | .ft_on_transfer _ _ m =>
    if c.predecessor ≠ mpdao ∧ forClaims m then itemsFor id (claimItems J m) * E20 else 0
  | _ => 0

/-- A withdrawal of mpDAO (the other transfers are claims of stNEAR). -/
def Transfer.isMpdao (t : Transfer) : Bool :=
  match t.callback with
  | .after_transfer_mpdao .. => true
  | .after_transfer_stnear .. => false

/-- The account that is debited by a transfer and gets it back if it fails. -/
def Transfer.source (t : Transfer) : String :=
  match t.callback with
  | .after_transfer_mpdao v _ => v
  | .after_transfer_stnear v _ => v

/-- Sum of the amounts of the transfers selected by `f`. -/
def amounts (f : Transfer → Bool) (l : List Transfer) : Nat :=
  (l.map (fun t => if f t then t.amount else 0)).sum

/-- Sum over the accepted calls. -/
def logCalls (g : Ctx → Call → Nat) (l : List Entry) : Nat :=
  (l.map (fun e => match e with | .call c k _ => g c k | .resolved .. => 0)).sum

/-- Sum over the transfers that succeeded. -/
def logPaid (f : Transfer → Bool) (l : List Entry) : Nat :=
  (l.map (fun e => match e with | .resolved t true _ => if f t then t.amount else 0 | _ => 0)).sum

/-- Sum over the transfers that failed and whose callback failed too. -/
def logStranded (f : Transfer → Bool) (l : List Entry) : Nat :=
  (l.map (fun e => match e with | .resolved t false false => if f t then t.amount else 0 | _ => 0)).sum

/-- Claim of an account. -/
def claimOf (m : UMap String Nat) (id : String) : Nat := (m.get id).getD 0

/-- mpDAO owed to an account: balance, positions and claim. -/
def owedMp (s : State) (id : String) : Nat := (s.voterD id).held + claimOf s.claimable_mpdao id

/-- stNEAR owed to an account. -/
def owedSt (s : State) (id : String) : Nat := claimOf s.claimable_stnear id

/-- mpDAO transfers debited from `id`. -/
def mpOf (id : String) (t : Transfer) : Bool := t.isMpdao && decide (t.source = id)
/-- stNEAR transfers debited from `id`. -/
def stOf (id : String) (t : Transfer) : Bool := !t.isMpdao && decide (t.source = id)

/-- mpDAO held for the voters that are not mirrored. -/
def heldSum (s : State) : Nat := s.voters.sum (fun id v => if mirrored id then 0 else v.held)

/-- At every moment of the history the mpDAO received and migrated minus the mpDAO paid fits a `u128`. -/
def netFits (J : Json) (mp : AccountId) (log : List Entry) : Prop :=
  ∀ l, l <:+ log → logCalls (receivedBy J mp) l + logCalls (fun _ => migratedBy) l
    ≤ U128_MAX + logPaid (·.isMpdao) l

/-- At every moment of the history the stNEAR received minus the stNEAR paid fits a `u128`. -/
def netFitsSt (mp : AccountId) (log : List Entry) : Prop :=
  ∀ l, l <:+ log → logCalls (receivedStBy mp) l ≤ U128_MAX + logPaid (fun t => !t.isMpdao) l

/-- The stNEAR token was never replaced. -/
def stnearFixed (l : List Entry) : Prop := ∀ c a o, Entry.call c (.set_stnear_contract a) o ∉ l

end Verif.MetaVote
