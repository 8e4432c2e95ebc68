import Verif.Storage.Cells
import Verif.Storage.Keys

/-!
# Collections of near-sdk over the bytes of contract storage

`Verif/Storage/Cells` models the entries of one `UnorderedMap` with keys and values as they are.  Here the storage is one
table from bytes to bytes, as the contract has it, and a collection is a prefix and a number of elements.  The operations
are those of near-sdk 4 on raw keys and values (`collections/vector.rs`, `collections/unordered_map/mod.rs`,
`collections/lookup_map.rs`; modelled after the published source, which is not in `/repo`); the typed operations encode
their arguments first.  Panics of near-sdk are errors.  All collections of the contracts of `/repo` are of these kinds
(`meta-vote-contract/src/lib.rs:31-62`, `voter.rs:18-20`, `mpip-contract/src/lib.rs:33-41`, `kv-store-contract/src/lib.rs:18`).
-/

namespace Verif.Disk

open Verif Storage


set_option linter.dupNamespace false in
/-- Contract storage. -/
abbrev Disk := Bytes → Option Bytes

/-- Value of little-endian bytes. -/
def unle : Bytes → Nat
  | [] => 0
  | b :: l => b.toNat + 256 * unle l

/-- `UnorderedMap::deserialize_index` -/
def readIndex (raw : Bytes) : Res Nat := do
  require (raw.length = 8) "called `Result::unwrap()` on an `Err` value"
  pure (unle raw)

/-! ## `Vector`, with the keys of its elements given by `f` -/

/-- `Vector::get_raw` -/
def vecGet (D : Disk) (f : Nat → Bytes) (len i : Nat) : Res (Option Bytes) :=
  if len ≤ i then pure none else match D (f i) with
    | some x => pure (some x)
    | none => inconsistent

/-- `Vector::push_raw`; the length goes up by one. -/
def vecPush (D : Disk) (f : Nat → Bytes) (len : Nat) (x : Bytes) : Disk := upd D (f len) (some x)

/-- `Vector::replace_raw` -/
def vecReplace (D : Disk) (f : Nat → Bytes) (len i : Nat) (x : Bytes) : Res Disk := do
  require (i < len) "Index out of bounds"
  match D (f i) with
  | some _ => pure (upd D (f i) (some x))
  | none => inconsistent

/-- `Vector::swap_remove_raw`, with `Vector::pop_raw`; the length goes down by one. -/
def vecSwapRemove (D : Disk) (f : Nat → Bytes) (len i : Nat) : Res Disk := do
  require (i < len) "Index out of bounds"
  match D (f (len - 1)) with
  | none => inconsistent
  | some last =>
    let D' := upd D (f (len - 1)) none
    if i + 1 = len then pure D'
    else match D' (f i) with
      | none => inconsistent
      | some _ => pure (upd D' (f i) (some last))

/-! ## `UnorderedMap` with prefix `p` -/

/-- Storage key of the position of a map key. -/
def ikey (p k : Bytes) : Bytes := p ++ (Elem.posOf k).bytes
/-- Storage key of the map key at a position. -/
def kkey (p : Bytes) (i : Nat) : Bytes := p ++ (Elem.keyAt i).bytes
/-- Storage key of the value at a position. -/
def vkey (p : Bytes) (i : Nat) : Bytes := p ++ (Elem.valAt i).bytes

/-- `UnorderedMap::get_raw` -/
def mapGet (D : Disk) (p : Bytes) (len : Nat) (k : Bytes) : Res (Option Bytes) :=
  match D (ikey p k) with
  | none => pure none
  | some raw => do
    let i ← readIndex raw
    match ← vecGet D (vkey p) len i with
    | some v => pure (some v)
    | none => inconsistent

/-- `UnorderedMap::insert_raw`; also the new length. -/
def mapInsert (D : Disk) (p : Bytes) (len : Nat) (k v : Bytes) : Res (Disk × Nat) :=
  match D (ikey p k) with
  | some raw => do
    let i ← readIndex raw
    let D ← vecReplace D (vkey p) len i v
    pure (D, len)
  | none => do
    let D := upd D (ikey p k) (some (le 8 len))
    let D := vecPush D (kkey p) len k
    let D := vecPush D (vkey p) len v
    pure (D, len + 1)

/-- `UnorderedMap::remove_raw`; also the new length. -/
def mapRemove (D : Disk) (p : Bytes) (len : Nat) (k : Bytes) : Res (Disk × Nat) :=
  match D (ikey p k) with
  | none => pure (D, len)
  | some raw => do
    let D ← (if len = 1 then pure (upd D (ikey p k) none)
      else do
        let n ← subU len 1
        match ← vecGet D (kkey p) len n with
        | none => inconsistent
        | some last =>
          let D := upd D (ikey p k) none
          pure (if last = k then D else upd D (ikey p last) (some raw)) : Res Disk)
    let i ← readIndex raw
    let D ← vecSwapRemove D (kkey p) len i
    let D ← vecSwapRemove D (vkey p) len i
    pure (D, len - 1)

/-- `keys_as_vector().get(i)` -/
def mapKeyAt (D : Disk) (p : Bytes) (len i : Nat) : Res (Option Bytes) := vecGet D (kkey p) len i

/-- `iter()` collected -/
def mapEntries (D : Disk) (p : Bytes) (len : Nat) : Res (List (Bytes × Bytes)) :=
  (List.range len).mapM (fun i => match D (kkey p i), D (vkey p i) with
    | some k, some v => pure (k, v)
    | _, _ => inconsistent)

/-! ## Operations on one collection -/

/-- An operation on a collection. -/
inductive Op where
  /-- `UnorderedMap` -/
  | get (k : Bytes)
  | insert (k v : Bytes)
  | remove (k : Bytes)
  | keyAt (i : Nat)
  | entries
  /-- `Vector` -/
  | vget (i : Nat)
  | push (v : Bytes)
  | replace (i : Nat) (v : Bytes)
  | swapRemove (i : Nat)
  /-- `LookupMap` -/
  | lget (k : Bytes)
  | linsert (k v : Bytes)
  | lremove (k : Bytes)

/-- What an operation returns; the values that `insert`, `replace` and `remove` give back are not modelled, since no
contract uses them apart from `expect` after a `get`. -/
inductive Ans where
  | done
  | val (v : Option Bytes)
  | all (l : List (Bytes × Bytes))
  deriving DecidableEq

/-- The kind of collection that has the operation; indexes are `u64`. -/
def Op.on (k : Kind) : Op → Prop
  | .get _ | .insert .. | .remove _ | .entries => k = .map
  | .keyAt i => k = .map ∧ i < 2 ^ 64
  | .push _ => k = .vector
  | .vget i | .replace i _ | .swapRemove i => k = .vector ∧ i < 2 ^ 64
  | .lget _ | .linsert .. | .lremove _ => k = .lookup

/-- Storage key of an element of a `Vector`. -/
def ekey (p : Bytes) (i : Nat) : Bytes := p ++ (Elem.elemAt i).bytes
/-- Storage key of an entry of a `LookupMap`. -/
def lkey (p k : Bytes) : Bytes := p ++ (Elem.valOf k).bytes

/-- The operation on the collection with prefix `p` and `len` elements. -/
def Op.disk (D : Disk) (p : Bytes) (len : Nat) : Op → Res (Disk × Nat × Ans)
  | .get k => do pure (D, len, .val (← mapGet D p len k))
  | .insert k v => do
    let r ← mapInsert D p len k v
    pure (r.1, r.2, .done)
  | .remove k => do
    let r ← mapRemove D p len k
    pure (r.1, r.2, .done)
  | .keyAt i => do pure (D, len, .val (← mapKeyAt D p len i))
  | .entries => do pure (D, len, .all (← mapEntries D p len))
  | .vget i => do pure (D, len, .val (← vecGet D (ekey p) len i))
  | .push v => pure (vecPush D (ekey p) len v, len + 1, .done)
  | .replace i v => do pure (← vecReplace D (ekey p) len i v, len, .done)
  | .swapRemove i => do pure (← vecSwapRemove D (ekey p) len i, len - 1, .done)
  | .lget k => pure (D, len, .val (D (lkey p k)))
  | .linsert k v => pure (upd D (lkey p k) (some v), len, .done)
  | .lremove k => pure (upd D (lkey p k) none, len, .done)

/-- Collections `ι` in one storage. -/
structure Sys (ι : Type) where
  disk : Disk
  len : ι → Nat

/-- Operations one after the other; a panic ends them. -/
def runDisk {ι : Type} [DecidableEq ι] (pre : ι → Bytes) (S : Sys ι) : List (ι × Op) → Res (Sys ι × List Ans)
  | [] => pure (S, [])
  | (c, o) :: l => do
    let r ← o.disk S.disk (pre c) (S.len c)
    let q ← runDisk pre ⟨r.1, upd S.len c r.2.1⟩ l
    pure (q.1, r.2.2 :: q.2)

end Verif.Disk
