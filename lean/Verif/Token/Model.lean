import Verif.Base.Res
import Verif.Base.UMap

/-!
# Model of `test-meta-token/src/lib.rs`

The contract delegates most of its work to `near-contract-standards 5.0.0`, whose source is not in `/repo`; the
methods `internal_*`, `ft_*` and `storage_*` of `FungibleToken` are modelled after its published source
(`fungible_token/core_impl.rs`, `storage_impl.rs`).  The lines written are in
`Verif/Token/Events`.  The metadata are in `Verif/Token/Bytes`.  Not modelled: gas
(`ft_transfer_call` rejects calls with little gas).
Account ids are strings; their validation belongs to JSON decoding.
-/

namespace Verif.Token

open Verif

abbrev AccountId := String

/-- `lib.rs:38-45`; the first three fields are those of `FungibleToken`; `storage_cost` is
`storage_balance_bounds().min` (`account_storage_usage` times the price of a byte, a constant). -/
structure State where
  accounts : UMap AccountId Nat
  total_supply : Nat
  storage_cost : Nat
  owner_id : AccountId
  minters : List AccountId

/-- What a method sees of a call; `result` is the result of the promise it waits for, decoded as `U128`
(`none`: failed or not decodable). -/
structure Ctx where
  current : AccountId
  predecessor : AccountId
  deposit : Nat
  result : Option Nat
  deriving DecidableEq

/-- `near_sdk::assert_one_yocto` -/
def assert_one_yocto (c : Ctx) : Res Unit :=
  require (c.deposit = 1) "Requires attached deposit of exactly 1 yoctoNEAR"

namespace State

/-! ## `FungibleToken` (near-contract-standards) -/

/-- `internal_unwrap_balance_of` -/
def internal_unwrap_balance_of (s : State) (a : AccountId) : Res Nat :=
  expect (s.accounts.get a) "The account is not registered"

/-- `internal_deposit` -/
def internal_deposit (s : State) (a : AccountId) (amount : Nat) : Res State := do
  let balance ← s.internal_unwrap_balance_of a
  let b ← addU128 balance amount
  let t ← addU128 s.total_supply amount
  pure { s with accounts := s.accounts.insert a b, total_supply := t }

/-- `internal_withdraw` -/
def internal_withdraw (s : State) (a : AccountId) (amount : Nat) : Res State := do
  let balance ← s.internal_unwrap_balance_of a
  let b ← subU balance amount
  let t ← subU s.total_supply amount
  pure { s with accounts := s.accounts.insert a b, total_supply := t }

/-- `internal_transfer` -/
def internal_transfer (s : State) (sender receiver : AccountId) (amount : Nat) : Res State := do
  require (sender ≠ receiver) "Sender and receiver should be different"
  require (0 < amount) "The amount should be a positive number"
  let s ← s.internal_withdraw sender amount
  s.internal_deposit receiver amount

/-- `internal_register_account` -/
def internal_register_account (s : State) (a : AccountId) : Res State := do
  require (s.accounts.get a = none) "The account is already registered"
  pure { s with accounts := s.accounts.insert a 0 }

/-- `ft_transfer` (`lib.rs:182-184`) -/
def ft_transfer (s : State) (c : Ctx) (receiver_id : AccountId) (amount : Nat) : Res State := do
  assert_one_yocto c
  s.internal_transfer c.predecessor receiver_id amount

/-- `internal_ft_resolve_transfer` (`lib.rs:208-223`); a failed or undecodable result
counts as everything unused; the returned number only matters to the caller and the log. -/
def internal_ft_resolve_transfer (s : State) (c : Ctx) (sender receiver : AccountId) (amount : Nat) :
    Res (State × Nat) :=
  let unused := min amount (c.result.getD amount)
  let receiver_balance := (s.accounts.get receiver).getD 0
  if 0 < unused ∧ 0 < receiver_balance then do
    let refund := min receiver_balance unused
    let r ← subU receiver_balance refund
    let s := { s with accounts := s.accounts.insert receiver r }
    match s.accounts.get sender with
    | some b => do
      let b' ← addU128 b refund
      let used ← subU amount refund
      pure ({ s with accounts := s.accounts.insert sender b' }, used)
    | none => do
      let t ← subU s.total_supply refund
      pure ({ s with total_supply := t }, amount)
  else pure (s, amount)

/-- `internal_storage_unregister` (`lib.rs:241-250`); the second component is the NEAR paid back. -/
def internal_storage_unregister (s : State) (c : Ctx) (force : Bool) : Res (State × Nat) := do
  assert_one_yocto c
  match s.accounts.get c.predecessor with
  | some balance =>
    if balance = 0 ∨ force = true then do
      let t ← subU s.total_supply balance
      pure ({ s with accounts := s.accounts.remove c.predecessor, total_supply := t }, s.storage_cost + 1)
    else .error (.assert "Can't unregister the account with the positive balance without force")
  | none => pure (s, 0)

/-- `storage_deposit` (`lib.rs:227-234`); the second component is the NEAR paid back. -/
def storage_deposit (s : State) (c : Ctx) (account_id : Option AccountId) : Res (State × Nat) :=
  let a := account_id.getD c.predecessor
  match s.accounts.get a with
  | some _ => pure (s, c.deposit)
  | none => do
    require (s.storage_cost ≤ c.deposit) "The attached deposit is less than the minimum storage balance"
    let s' ← s.internal_register_account a
    pure (s', c.deposit - s.storage_cost)

/-- `storage_withdraw` (`lib.rs:236-239`): nothing can be withdrawn. -/
def storage_withdraw (s : State) (c : Ctx) (amount : Option Nat) : Res State := do
  assert_one_yocto c
  require ((s.accounts.get c.predecessor).isSome) "The account is not registered"
  require (amount.getD 0 = 0) "The amount is greater than the available storage balance"
  pure s

/-- `ft_total_supply` (`lib.rs:197-199`) -/
def ft_total_supply (s : State) : Nat := s.total_supply
/-- `ft_balance_of` (`lib.rs:201-203`) -/
def ft_balance_of (s : State) (a : AccountId) : Nat := (s.accounts.get a).getD 0

/-- `storage_balance_bounds` (`lib.rs:252-254`): minimum and maximum are the price of one account. -/
def storage_balance_bounds (s : State) : Nat × Option Nat := (s.storage_cost, some s.storage_cost)
/-- `storage_balance_of` (`lib.rs:256-258`): total and available. -/
def storage_balance_of (s : State) (a : AccountId) : Option (Nat × Nat) :=
  (s.accounts.get a).map (fun _ => (s.storage_cost, 0))

/-! ## The contract -/

/-- `lib.rs:100-105` -/
def assert_owner_calling (s : State) (c : Ctx) : Res Unit :=
  require (c.predecessor = s.owner_id) "can only be called by the owner"

/-- `lib.rs:107-109` -/
def get_owner_id (s : State) : AccountId := s.owner_id

/-- `lib.rs:111-115`; an `AccountId` is always valid -/
def set_owner_id (s : State) (c : Ctx) (owner_id : AccountId) : Res State := do
  s.assert_owner_calling c
  pure { s with owner_id := owner_id }

/-- `lib.rs:118-127` -/
def add_minter (s : State) (c : Ctx) (account_id : AccountId) : Res State := do
  assert_one_yocto c
  s.assert_owner_calling c
  require (account_id ∉ s.minters) "already in the list"
  pure { s with minters := s.minters ++ [account_id] }

/-- `lib.rs:129-139` -/
def remove_minter (s : State) (c : Ctx) (account_id : AccountId) : Res State := do
  assert_one_yocto c
  s.assert_owner_calling c
  require (account_id ∈ s.minters) "not a minter"
  pure { s with minters := swapRemove s.minters (s.minters.idxOf account_id) }

/-- `lib.rs:141-143` -/
def get_minters (s : State) : List AccountId := s.minters

/-- `lib.rs:145-147`, also callable as a method -/
def assert_minter (s : State) (account_id : AccountId) : Res Unit := require (account_id ∈ s.minters) "not a minter"

/-- `lib.rs:150-162` -/
def ft_mint (s : State) (c : Ctx) (amount : Nat) : Res State := do
  assert_one_yocto c
  s.assert_minter c.predecessor
  s.internal_deposit c.predecessor amount

/-- `lib.rs:165-176` -/
def ft_burn (s : State) (c : Ctx) (amount : Nat) : Res State := do
  assert_one_yocto c
  s.internal_withdraw c.predecessor amount

end State

/-- `lib.rs:80-98`; `valid` is `metadata.assert_valid()` -/
def new (exists_ valid : Bool) (storage_cost : Nat) (owner_id : AccountId) (total_supply : Nat) : Res State := do
  require (exists_ = false) "Already initialized"
  require (valid = true) "invalid metadata"
  let s : State := ⟨UMap.empty, 0, storage_cost, owner_id, []⟩
  let s ← s.internal_register_account owner_id
  s.internal_deposit owner_id total_supply

/-- `lib.rs:61-75`: the default metadata is valid -/
def new_default_meta (exists_ : Bool) (storage_cost : Nat) (owner_id : AccountId) (total_supply : Nat) : Res State :=
  new exists_ true storage_cost owner_id total_supply

/-- The calls that can change the state; `memo`s are dropped. -/
inductive Call where
  | set_owner_id (owner_id : AccountId)
  | add_minter (account_id : AccountId)
  | remove_minter (account_id : AccountId)
  | assert_minter (account_id : AccountId)
  | ft_mint (amount : Nat)
  | ft_burn (amount : Nat)
  | ft_transfer (receiver_id : AccountId) (amount : Nat)
  | ft_transfer_call (receiver_id : AccountId) (amount : Nat) (msg : List UInt8)
  | ft_resolve_transfer (sender_id receiver_id : AccountId) (amount : Nat)
  | storage_deposit (account_id : Option AccountId) (registration_only : Option Bool)
  | storage_withdraw (amount : Option Nat)
  | storage_unregister (force : Option Bool)
  deriving DecidableEq

/-- `#[payable]` -/
def Call.payable : Call → Bool
  | .assert_minter _ | .ft_resolve_transfer .. => false
  | _ => true

/-- Arguments of type `U128` fit. -/
def Call.in_range : Call → Bool
  | .ft_mint n | .ft_burn n | .ft_transfer _ n | .ft_transfer_call _ n _ | .ft_resolve_transfer _ _ n =>
    decide (n ≤ U128_MAX)
  | _ => true

/-- Promises started: a payment of NEAR, or `ft_on_transfer` on the receiver followed by `ft_resolve_transfer`
(`ft_transfer_call`, `lib.rs:186-195`). -/
inductive Promise where
  | pay (receiver : AccountId) (amount : Nat)
  | notify (sender receiver : AccountId) (amount : Nat) (msg : List UInt8)
  deriving DecidableEq

/-- A payment, if it is positive. -/
def pays (receiver : AccountId) (amount : Nat) : List Promise := if amount = 0 then [] else [.pay receiver amount]

/-- A call: the checks of `#[near_bindgen]` and `#[private]` (`lib.rs:208`), then the method. -/
def exec (s : State) (c : Ctx) (k : Call) : Res (State × List Promise) := do
  require (k.payable = true ∨ c.deposit = 0) "Method doesn't accept deposit"
  require (k.in_range = true) "Failed to deserialize input from JSON."
  match k with
  | .set_owner_id a => do let s' ← s.set_owner_id c a; pure (s', [])
  | .add_minter a => do let s' ← s.add_minter c a; pure (s', [])
  | .remove_minter a => do let s' ← s.remove_minter c a; pure (s', [])
  | .assert_minter a => do s.assert_minter a; pure (s, [])
  | .ft_mint n => do let s' ← s.ft_mint c n; pure (s', [])
  | .ft_burn n => do let s' ← s.ft_burn c n; pure (s', [])
  | .ft_transfer r n => do let s' ← s.ft_transfer c r n; pure (s', [])
  | .ft_transfer_call r n m => do
    let s' ← s.ft_transfer c r n
    pure (s', [.notify c.predecessor r n m])
  | .ft_resolve_transfer a r n => do
    require (c.predecessor = c.current) "Method ft_resolve_transfer is private"
    let x ← s.internal_ft_resolve_transfer c a r n
    pure (x.1, [])
  | .storage_deposit a _ => do
    let x ← s.storage_deposit c a
    pure (x.1, pays c.predecessor x.2)
  | .storage_withdraw a => do let s' ← s.storage_withdraw c a; pure (s', [])
  | .storage_unregister f => do
    let x ← s.internal_storage_unregister c (f.getD false)
    pure (x.1, pays c.predecessor x.2)

/-! ## Executions -/

/-- A transfer-call whose resolution is outstanding. -/
structure Pending where
  sender : AccountId
  receiver : AccountId
  amount : Nat
  deriving DecidableEq

/-- The transfer-calls among the promises. -/
def notified : List Promise → List Pending
  | [] => []
  | .pay .. :: l => notified l
  | .notify a r n _ :: l => ⟨a, r, n⟩ :: notified l

/-- State and outstanding resolutions. -/
structure World where
  st : State
  pending : List Pending

/-- One step: an accepted call, or the resolution of a transfer-call with any result (the callback runs with the
contract as predecessor; if it panicked, the state would stay). -/
inductive Step (me : AccountId) : World → World → Prop
  | call (w : World) (c : Ctx) (k : Call) (s' : State) (out : List Promise) (hme : c.current = me)
      (hpr : c.predecessor ≠ me) (h : exec w.st c k = .ok (s', out)) :
      Step me w ⟨s', w.pending ++ notified out⟩
  | resolve (w : World) (pre post : List Pending) (p : Pending) (r : Option Nat) (hp : w.pending = pre ++ p :: post) :
      Step me w ⟨((exec w.st ⟨me, me, 0, r⟩ (.ft_resolve_transfer p.sender p.receiver p.amount)).getOr (w.st, [])).1,
        pre ++ post⟩

/-- The world just after an accepted `new`. -/
inductive Init : World → Prop
  | mk (cost : Nat) (owner : AccountId) (supply : Nat) (s : State) (hs : supply ≤ U128_MAX)
      (h : new false true cost owner supply = .ok s) : Init ⟨s, []⟩

/-- Reachable worlds. -/
inductive Reach (me : AccountId) : World → Prop
  | init {w : World} (h : Init w) : Reach me w
  | step {w w' : World} (h : Reach me w) (hs : Step me w w') : Reach me w'

end Verif.Token
