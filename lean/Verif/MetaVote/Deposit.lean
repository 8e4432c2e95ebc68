import Verif.MetaVote.Withdraw

/-!
# meta-vote contract: `deposit.rs`

A message is its list of UTF-8 bytes.  `serde_json` is a parameter (`Json`); the rest of the
decoding (prefix tests with their char-boundary panics, `str::parse::<u16>`) is modelled.
-/

namespace Verif.MetaVote

open Verif

/-- `serde_json::from_str` at the two types used by `deposit.rs`; `none` is a parse error. -/
structure Json where
  /-- `Vec<(String, u64)>`, `deposit.rs:24` -/
  claims : List UInt8 → Option (List (String × Nat))
  /-- `(String, u16)`, `deposit.rs:39` -/
  pair : List UInt8 → Option (String × Nat)

/-- serde rejects a number that does not fit the `u64`. -/
def Json.parse_claims (J : Json) (m : List UInt8) : Option (List (String × Nat)) :=
  match J.claims m with
  | some l => if l.all (fun x => decide (x.2 ≤ U64_MAX)) then some l else none
  | none => none

/-- serde rejects a number that does not fit the `u16`. -/
def Json.parse_pair (J : Json) (m : List UInt8) : Option (String × Nat) :=
  match J.pair m with
  | some p => if p.2 ≤ U16_MAX then some p else none
  | none => none

/-- `str::is_char_boundary(i)` on the UTF-8 bytes (`i ≤ len`). -/
def is_char_boundary (m : List UInt8) (i : Nat) : Bool :=
  match m[i]? with
  | some b => b &&& 0xC0 != 0x80
  | none => i == m.length

/-- The 11 bytes of `"for-claims:"`. -/
def FOR_CLAIMS : List UInt8 := [102, 111, 114, 45, 99, 108, 97, 105, 109, 115, 58]

/-- `msg.len() >= n && &msg[..n] == p`, with the slicing panic (`deposit.rs:23`, `deposit.rs:37`). -/
def has_prefix (m p : List UInt8) : Res Bool :=
  if p.length ≤ m.length then do
    require (is_char_boundary m p.length = true) "byte index is not a char boundary"
    pure (decide (m.take p.length = p))
  else pure false

/-- Value of a string of decimal digits, `none` on another byte. -/
def digits : List UInt8 → Nat → Option Nat
  | [], acc => some acc
  | b :: t, acc => if 48 ≤ b.toNat ∧ b.toNat ≤ 57 then digits t (acc * 10 + (b.toNat - 48)) else none

/-- `msg.parse::<u16>()` (`deposit.rs:51`): an optional `+`, at least one digit, value in range. -/
def parse_u16 (m : List UInt8) : Option Nat :=
  let ds := match m with
    | 43 :: t => t
    | _ => m
  if ds = [] then none
  else match digits ds 0 with
    | some n => if n ≤ U16_MAX then some n else none
    | none => none

namespace State

/-- Body of the loop at `deposit.rs:80-85`; the accumulator is `(self, total_distributed)`. -/
def distribute_mpdao_step (a : State × Nat) (item : String × Nat) : Res (State × Nat) := do
  let amount ← mulU128 item.2 1000000
  let s ← a.1.add_claimable_mpdao item.1 amount
  let total ← addU128 a.2 amount
  pure (s, total)

/-- Body of the loop at `deposit.rs:90-96`. -/
def distribute_stnear_step (a : State × Nat) (item : String × Nat) : Res (State × Nat) := do
  let amount ← mulU128 item.2 E20
  let s ← a.1.add_claimable_stnear item.1 amount
  let total ← addU128 a.2 amount
  pure (s, total)

/-- `deposit.rs:70-107` -/
def distribute_for_claims (s : State) (c : Ctx) (total_amount : Nat)
    (distribute_info : List (String × Nat)) : Res State := do
  let r ← (if c.predecessor = s.mpdao_token_contract_address then do
      let r ← distribute_info.foldlM distribute_mpdao_step (s, 0)
      let acc ← addU128 r.1.accumulated_mpdao_distributed_for_claims r.2
      pure ({ r.1 with accumulated_mpdao_distributed_for_claims := acc }, r.2)
    else if c.predecessor = s.stnear_token_contract_address then do
      let r ← distribute_info.foldlM distribute_stnear_step (s, 0)
      let acc ← addU128 r.1.accum_distributed_stnear_for_claims r.2
      pure ({ r.1 with accum_distributed_stnear_for_claims := acc }, r.2)
    else .error (.assert "Unknown token address") : Res (State × Nat))
  require (r.2 = total_amount) "total to distribute != total_amount sent"
  pure r.1

/-- The pair `(voter_id, days)` of `deposit.rs:37-55`. -/
def deposit_target (s : State) (J : Json) (sender_id : String) (msg : List UInt8) :
    Res (String × Nat) := do
  let bracket ← has_prefix msg [91]
  if bracket then
    let pair ← expect (J.parse_pair msg) "Err parsing msg, expected [voter_id,days]"
    require (sender_id = s.owner_id) "only allowed for owner"
    pure pair
  else
    let days ← expect (parse_u16 msg) "Err parsing bonding_days from msg. Must be u16"
    pure (sender_id, days)

/-- `deposit.rs:13-64`.  The returned unused amount is always 0. -/
def ft_on_transfer (s : State) (J : Json) (c : Ctx) (sender_id : String) (amount : Nat)
    (msg : List UInt8) : Res State := do
  let claims ← has_prefix msg FOR_CLAIMS
  if claims then
    let info ← expect (J.parse_claims (msg.drop 11)) "Err parsing msg for-claims"
    s.distribute_for_claims c amount info
  else
    require (c.predecessor = s.mpdao_token_contract_address) "You can only bond mpDAO-token"
    let t ← s.deposit_target J sender_id msg
    s.assert_min_deposit_amount amount
    let r ← s.deposit_locking_position amount t.2 t.1 (s.internal_get_voter t.1)
    pure r.1

end State

end Verif.MetaVote
