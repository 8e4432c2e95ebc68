import Verif.Token.Events
import Verif.Borsh.Handle

/-!
# The token on the bytes of its storage

`test-meta-token/src/lib.rs` as it runs on chain: a call reads and decodes the record under `STATE`, works on the accounts
through their `LookupMap`, writes its lines, and writes the record back.  A view does not write.  A call that panics leaves the
storage as it was.  The methods of `FungibleToken`, `FungibleTokenMetadata` and `LazyOption` follow the published source of
near-contract-standards and near-sdk, which are not in `/repo`.
-/

namespace Verif.Token.Bytes

open Verif Storage Disk Borsh

/-! ## Metadata -/

/-- `FungibleTokenMetadata` -/
structure Metadata where
  spec : String
  name : String
  symbol : String
  icon : Option String
  reference : Option String
  reference_hash : Option Bytes
  decimals : Nat
  deriving DecidableEq

/-- Its stored form: the fields in order. -/
def metadata : Codec Metadata :=
  iso (pair string (pair string (pair string (pair (option string) (pair (option string) (pair (option bytes) u8))))))
    (fun x => ⟨x.1, x.2.1, x.2.2.1, x.2.2.2.1, x.2.2.2.2.1, x.2.2.2.2.2.1, x.2.2.2.2.2.2⟩)
    (fun x => (x.spec, x.name, x.symbol, x.icon, x.reference, x.reference_hash, x.decimals)) (fun _ => rfl) (fun _ => rfl)

/-- `FungibleTokenMetadata::assert_valid` -/
def Metadata.assert_valid (m : Metadata) : Res Unit := do
  require (m.spec = "ft-1.0.0") "require! assertion failed"
  require (m.reference.isSome = m.reference_hash.isSome) "require! assertion failed"
  match m.reference_hash with
  | some h => require (h.length = 32) "Hash has to be 32 bytes"
  | none => pure ()

/-! ## The state -/

/-- `env::state_read` with `PanicOnDefault` (`lib.rs:38`) -/
def load (D : Disk) : Res TokenRec :=
  match D STATE with
  | none => .error (.assert "The contract is not initialized")
  | some b => expect (tokenRec.read b) "Cannot deserialize the contract state."

/-- `env::state_write` -/
def save (D : Disk) (t : TokenRec) : Disk := upd D STATE (some (tokenRec.enc t))

/-- Price of a byte of storage in yocto, a constant of the protocol (`env::storage_byte_cost`). -/
def BYTE_COST : Nat := 10 ^ 19

/-- Bytes that an entry counts for in `env::storage_usage`: key, value and 40 more, a constant of the protocol. -/
def entryUsage (k v : Bytes) : Nat := k.length + v.length + 40

/-- Growth of `env::storage_usage` when an entry is written; the subtraction is checked. -/
def writeUsage (D : Disk) (k v : Bytes) : Res Nat :=
  match D k with
  | none => pure (entryUsage k v)
  | some old => subU v.length old.length

/-! ## `FungibleToken` -/

/-- `accounts.get` -/
def balance (D : Disk) (t : TokenRec) (a : AccountId) : Res (Option Nat) := LookupH.get string u128 D t.accounts a

/-- `accounts.insert` -/
def put (D : Disk) (t : TokenRec) (a : AccountId) (n : Nat) : Disk := LookupH.insert string u128 D t.accounts a n

/-- `internal_unwrap_balance_of` -/
def internal_unwrap_balance_of (D : Disk) (t : TokenRec) (a : AccountId) : Res Nat := do
  expect (← balance D t a) "The account is not registered"

/-- `internal_deposit` -/
def internal_deposit (D : Disk) (t : TokenRec) (a : AccountId) (amount : Nat) : Res (Disk × TokenRec) := do
  let b ← internal_unwrap_balance_of D t a
  let b ← addU128 b amount
  let n ← addU128 t.total_supply amount
  pure (put D t a b, { t with total_supply := n })

/-- `internal_withdraw` -/
def internal_withdraw (D : Disk) (t : TokenRec) (a : AccountId) (amount : Nat) : Res (Disk × TokenRec) := do
  let b ← internal_unwrap_balance_of D t a
  let b ← subU b amount
  let n ← subU t.total_supply amount
  pure (put D t a b, { t with total_supply := n })

/-- `internal_transfer` -/
def internal_transfer (D : Disk) (t : TokenRec) (sender receiver : AccountId) (amount : Nat) :
    Res (Disk × TokenRec × List Line) := do
  require (sender ≠ receiver) "Sender and receiver should be different"
  require (0 < amount) "The amount should be a positive number"
  let r ← internal_withdraw D t sender amount
  let r ← internal_deposit r.1 r.2 receiver amount
  pure (r.1, r.2, [.transfer sender receiver amount])

/-- `internal_register_account` -/
def internal_register_account (D : Disk) (t : TokenRec) (a : AccountId) : Res Disk := do
  let old ← balance D t a
  require (old = none) "The account is already registered"
  pure (put D t a 0)

/-- `ft_transfer` (`lib.rs:182-184`) -/
def ft_transfer (D : Disk) (t : TokenRec) (c : Ctx) (receiver_id : AccountId) (amount : Nat) :
    Res (Disk × TokenRec × List Line) := do
  assert_one_yocto c
  internal_transfer D t c.predecessor receiver_id amount

/-- `internal_ft_resolve_transfer`: also what was burned. -/
def internal_ft_resolve_transfer (D : Disk) (t : TokenRec) (c : Ctx) (sender receiver : AccountId) (amount : Nat) :
    Res (Disk × TokenRec × List Line × Nat) :=
  let unused := min amount (c.result.getD amount)
  if 0 < unused then do
    let receiver_balance := (← balance D t receiver).getD 0
    if 0 < receiver_balance then do
      let refund := min receiver_balance unused
      let r ← subU receiver_balance refund
      let D := put D t receiver r
      match ← balance D t sender with
      | some b => do
        let b ← addU128 b refund
        let _used ← subU amount refund
        pure (put D t sender b, t, [.transfer receiver sender refund], 0)
      | none => do
        let n ← subU t.total_supply refund
        pure (D, { t with total_supply := n }, [.deleted, .burn receiver refund], refund)
    else pure (D, t, [], 0)
  else pure (D, t, [], 0)

/-- `lib.rs:208-223` -/
def ft_resolve_transfer (D : Disk) (t : TokenRec) (c : Ctx) (sender receiver : AccountId) (amount : Nat) :
    Res (Disk × TokenRec × List Line) := do
  let r ← internal_ft_resolve_transfer D t c sender receiver amount
  pure (r.1, r.2.1, r.2.2.1 ++ (if 0 < r.2.2.2 then [.burned sender r.2.2.2] else []))

/-- `storage_balance_bounds().min` -/
def minBalance (t : TokenRec) : Nat := BYTE_COST * t.account_storage_usage

/-- `storage_unregister` (`lib.rs:241-250`) with `internal_storage_unregister`: also the NEAR paid back. -/
def storage_unregister (D : Disk) (t : TokenRec) (c : Ctx) (force : Bool) : Res (Disk × TokenRec × List Line × Nat) := do
  assert_one_yocto c
  match ← balance D t c.predecessor with
  | some b =>
    if b = 0 ∨ force = true then do
      let n ← subU t.total_supply b
      pure (LookupH.remove string D t.accounts c.predecessor, { t with total_supply := n }, [.closed c.predecessor b],
        minBalance t + 1)
    else .error (.assert "Can't unregister the account with the positive balance without force")
  | none => pure (D, t, [.unknown c.predecessor], 0)

/-- `storage_deposit` (`lib.rs:227-234`): also the NEAR paid back. -/
def storage_deposit (D : Disk) (t : TokenRec) (c : Ctx) (account_id : Option AccountId) : Res (Disk × List Line × Nat) := do
  let a := account_id.getD c.predecessor
  match ← balance D t a with
  | some _ => pure (D, [.already], c.deposit)
  | none => do
    require (minBalance t ≤ c.deposit) "The attached deposit is less than the minimum storage balance"
    let D ← internal_register_account D t a
    pure (D, [], c.deposit - minBalance t)

/-- `storage_withdraw` (`lib.rs:236-239`) -/
def storage_withdraw (D : Disk) (t : TokenRec) (c : Ctx) (amount : Option Nat) : Res Unit := do
  assert_one_yocto c
  let b ← balance D t c.predecessor
  require b.isSome "The account is not registered"
  require (amount.getD 0 = 0) "The amount is greater than the available storage balance"

/-! ## The contract -/

/-- `lib.rs:100-105` -/
def assert_owner_calling (t : TokenRec) (c : Ctx) : Res Unit :=
  require (c.predecessor = t.owner_id) "can only be called by the owner"

/-- `lib.rs:111-115` -/
def set_owner_id (t : TokenRec) (c : Ctx) (owner_id : AccountId) : Res TokenRec := do
  assert_owner_calling t c
  pure { t with owner_id := owner_id }

/-- `lib.rs:118-127` -/
def add_minter (t : TokenRec) (c : Ctx) (account_id : AccountId) : Res TokenRec := do
  assert_one_yocto c
  assert_owner_calling t c
  require (account_id ∉ t.minters) "already in the list"
  pure { t with minters := t.minters ++ [account_id] }

/-- `lib.rs:129-139` -/
def remove_minter (t : TokenRec) (c : Ctx) (account_id : AccountId) : Res TokenRec := do
  assert_one_yocto c
  assert_owner_calling t c
  require (account_id ∈ t.minters) "not a minter"
  pure { t with minters := swapRemove t.minters (t.minters.idxOf account_id) }

/-- `lib.rs:145-147` -/
def assert_minter (t : TokenRec) (account_id : AccountId) : Res Unit := require (account_id ∈ t.minters) "not a minter"

/-- `lib.rs:150-162` -/
def ft_mint (D : Disk) (t : TokenRec) (c : Ctx) (amount : Nat) : Res (Disk × TokenRec × List Line) := do
  assert_one_yocto c
  assert_minter t c.predecessor
  let r ← internal_deposit D t c.predecessor amount
  pure (r.1, r.2, [.mint c.predecessor amount])

/-- `lib.rs:165-176` -/
def ft_burn (D : Disk) (t : TokenRec) (c : Ctx) (amount : Nat) : Res (Disk × TokenRec × List Line) := do
  assert_one_yocto c
  let r ← internal_withdraw D t c.predecessor amount
  pure (r.1, r.2, [.burn c.predecessor amount])

/-- `measure_account_storage_usage`, called by `FungibleToken::new`: an entry for an id of 64 letters is written and removed. -/
def measure (D : Disk) (t : TokenRec) : Res (Disk × TokenRec) := do
  let id := String.ofList (List.replicate 64 'a')
  let n ← writeUsage D (t.accounts.pre ++ string.enc id) (u128.enc 0)
  let D := put D t id 0
  pure (LookupH.remove string D t.accounts id, { t with account_storage_usage := n })

/-- `lib.rs:80-98`; the prefixes are the numbers of the variants (`lib.rs:49-54`) -/
def new (D : Disk) (owner_id : AccountId) (total_supply : Nat) (m : Metadata) : Res (Disk × List Line) := do
  require ((D STATE).isSome = false) "Already initialized"
  m.assert_valid
  let r ← measure D ⟨⟨[0]⟩, 0, 0, [1], owner_id, []⟩
  let D := upd r.1 [1] (some (metadata.enc m))
  let D ← internal_register_account D r.2 owner_id
  let r ← internal_deposit D r.2 owner_id total_supply
  pure (save r.1 r.2, [.mint owner_id total_supply])

/-- A call: the checks of `#[near_bindgen]`, state read, `#[private]` (`lib.rs:208`), method, state written.  A private method
checks its caller before the state is read; since a missing state makes both panic, the order only matters for the message. -/
def exec (D : Disk) (c : Ctx) (k : Call) : Res (Disk × List Promise × List Line) := do
  require (k.payable = true ∨ c.deposit = 0) "Method doesn't accept deposit"
  require (k.in_range = true) "Failed to deserialize input from JSON."
  let t ← load D
  match k with
  | .set_owner_id a => do let t ← set_owner_id t c a; pure (save D t, [], [])
  | .add_minter a => do let t ← add_minter t c a; pure (save D t, [], [])
  | .remove_minter a => do let t ← remove_minter t c a; pure (save D t, [], [])
  | .assert_minter a => do assert_minter t a; pure (D, [], [])
  | .ft_mint n => do let r ← ft_mint D t c n; pure (save r.1 r.2.1, [], r.2.2)
  | .ft_burn n => do let r ← ft_burn D t c n; pure (save r.1 r.2.1, [], r.2.2)
  | .ft_transfer a n => do let r ← ft_transfer D t c a n; pure (save r.1 r.2.1, [], r.2.2)
  | .ft_transfer_call a n m => do
    let r ← ft_transfer D t c a n
    pure (save r.1 r.2.1, [.notify c.predecessor a n m], r.2.2)
  | .ft_resolve_transfer a b n => do
    require (c.predecessor = c.current) "Method ft_resolve_transfer is private"
    let r ← ft_resolve_transfer D t c a b n
    pure (save r.1 r.2.1, [], r.2.2)
  | .storage_deposit a _ => do
    let r ← storage_deposit D t c a
    pure (save r.1 t, pays c.predecessor r.2.2, r.2.1)
  | .storage_withdraw a => do storage_withdraw D t c a; pure (save D t, [], [])
  | .storage_unregister f => do
    let r ← storage_unregister D t c (f.getD false)
    pure (save r.1 r.2.1, pays c.predecessor r.2.2.2, r.2.2.1)

/-! ## Views -/

/-- `lib.rs:107-109` -/
def get_owner_id (D : Disk) : Res AccountId := do pure (← load D).owner_id
/-- `lib.rs:141-143` -/
def get_minters (D : Disk) : Res (List AccountId) := do pure (← load D).minters
/-- `lib.rs:197-199` -/
def ft_total_supply (D : Disk) : Res Nat := do pure (← load D).total_supply
/-- `lib.rs:201-203` -/
def ft_balance_of (D : Disk) (a : AccountId) : Res Nat := do
  let t ← load D
  let b ← balance D t a
  pure (b.getD 0)
/-- `lib.rs:252-254` -/
def storage_balance_bounds (D : Disk) : Res (Nat × Option Nat) := do
  let t ← load D
  pure (minBalance t, some (minBalance t))
/-- `lib.rs:256-258` -/
def storage_balance_of (D : Disk) (a : AccountId) : Res (Option (Nat × Nat)) := do
  let t ← load D
  let b ← balance D t a
  pure (b.map fun _ => (minBalance t, 0))
/-- `lib.rs:263-265`: `LazyOption::get` under the key of the metadata, unwrapped. -/
def ft_metadata (D : Disk) : Res Metadata := do
  let t ← load D
  match D t.metadata with
  | none => .error (.assert "called `Option::unwrap()` on a `None` value")
  | some b => expect (metadata.read b) "Cannot deserialize value with Borsh"

/-! ## Executions -/

/-- Storage and outstanding resolutions. -/
structure BWorld where
  disk : Disk
  pending : List Pending

/-- What happens to the contract: a call, or the answer to the transfer-call with the given number. -/
inductive Input where
  | call (c : Ctx) (k : Call)
  | settle (i : Nat) (r : Option Nat)

/-- One input after the other, with the lines that are written.  Calls that panic change nothing.  The contract does not call itself
except for settling; inputs that are not possible are skipped. -/
def runs (me : AccountId) (w : BWorld) : List Input → BWorld × List Line
  | [] => (w, [])
  | .call c k :: l =>
    if c.current = me ∧ c.predecessor ≠ me then
      match exec w.disk c k with
      | .ok r => let x := runs me ⟨r.1, w.pending ++ notified r.2.1⟩ l; (x.1, r.2.2 ++ x.2)
      | .error _ => runs me w l
    else runs me w l
  | .settle i r :: l =>
    match w.pending[i]? with
    | none => runs me w l
    | some p =>
      match exec w.disk ⟨me, me, 0, r⟩ (.ft_resolve_transfer p.sender p.receiver p.amount) with
      | .ok x => let y := runs me ⟨x.1, w.pending.eraseIdx i⟩ l; (y.1, x.2.2 ++ y.2)
      | .error _ => runs me ⟨w.disk, w.pending.eraseIdx i⟩ l

end Verif.Token.Bytes
