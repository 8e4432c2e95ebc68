import Verif.Borsh.Types
import Verif.Disk.Model

/-!
# Collections through their handles

The operations of near-sdk 4 on an `UnorderedMap` and a `LookupMap` as the contracts use them: the handle that was read with the
state says where the elements are and how many there are, keys and values are coded, and the handle that results is written
back with the state.  (`collections/unordered_map/mod.rs`, `collections/lookup_map.rs`, `collections/vector.rs` of near-sdk,
which is not in `/repo`.)
-/

namespace Verif.Borsh

open Verif Storage Disk

/-- Keys of the elements of a vector: `Vector::index_to_lookup_key` -/
def VecH.key (h : VecH) (i : Nat) : Bytes := h.pre ++ le 8 i

namespace VecH

variable {V : Type}

/-- `get(i)` -/
def get (c : Codec V) (D : Disk) (h : VecH) (i : Nat) : Res (Option V) := do
  match ← vecGet D h.key h.len i with
  | none => pure none
  | some b => do pure (some (← expect (c.read b) "Cannot deserialize element"))

/-- `push(&v)` -/
def push (c : Codec V) (D : Disk) (h : VecH) (v : V) : Disk × VecH :=
  (vecPush D h.key h.len (c.enc v), { h with len := h.len + 1 })

/-- `replace(i, &v)`; the value that was replaced is decoded (`collections/vector.rs`). -/
def replace (c : Codec V) (D : Disk) (h : VecH) (i : Nat) (v : V) : Res Disk := do
  let old := D (h.key i)
  let D ← vecReplace D h.key h.len i (c.enc v)
  let _ ← (match old with
    | some b => do pure (some (← expect (c.read b) "Cannot deserialize element"))
    | none => pure none : Res (Option V))
  pure D

/-- `swap_remove(i)`; the value that was removed is decoded. -/
def swapRemove (c : Codec V) (D : Disk) (h : VecH) (i : Nat) : Res (Disk × VecH) := do
  let old := D (h.key i)
  let D ← vecSwapRemove D h.key h.len i
  let _ ← (match old with
    | some b => do pure (some (← expect (c.read b) "Cannot deserialize element"))
    | none => pure none : Res (Option V))
  pure (D, { h with len := h.len - 1 })

/-- `clear()` -/
def clear (D : Disk) (h : VecH) : Disk × VecH :=
  ((List.range h.len).foldl (fun D i => upd D (h.key i) none) D, { h with len := 0 })

/-- `iter().next()` at a position below the length -/
def item (c : Codec V) (D : Disk) (h : VecH) (i : Nat) : Res V :=
  match D (h.key i) with
  | some b => expect (c.read b) "Cannot deserialize element"
  | none => inconsistent

end VecH

namespace MapH

/-- Key of the position of a map key: `raw_key_to_index_lookup` -/
def ikey (h : MapH) (k : Bytes) : Bytes := h.key_index_prefix ++ k

/-- The handle with other lengths. -/
def resize (h : MapH) (n m : Nat) : MapH := { h with keys := { h.keys with len := n }, values := { h.values with len := m } }

/-- `get_raw` -/
def getRaw (D : Disk) (h : MapH) (k : Bytes) : Res (Option Bytes) :=
  match D (h.ikey k) with
  | none => pure none
  | some raw => do
    let i ← readIndex raw
    match ← vecGet D h.values.key h.values.len i with
    | some v => pure (some v)
    | none => inconsistent

/-- `insert_raw`; also the new handle.  The value that was replaced is not returned, since no method uses it. -/
def insertRaw (D : Disk) (h : MapH) (k v : Bytes) : Res (Disk × MapH) :=
  match D (h.ikey k) with
  | some raw => do
    let i ← readIndex raw
    let D ← vecReplace D h.values.key h.values.len i v
    pure (D, h)
  | none => do
    let D := upd D (h.ikey k) (some (le 8 h.keys.len))
    let D := vecPush D h.keys.key h.keys.len k
    let D := vecPush D h.values.key h.values.len v
    pure (D, h.resize (h.keys.len + 1) (h.values.len + 1))

/-- `remove_raw`; also the new handle and the removed value, which `swap_remove_raw` gives. -/
def removeRaw (D : Disk) (h : MapH) (k : Bytes) : Res (Disk × MapH × Option Bytes) :=
  match D (h.ikey k) with
  | none => pure (D, h, none)
  | some raw => do
    let D ← (if h.keys.len = 1 then pure (upd D (h.ikey k) none)
      else do
        let n ← subU h.keys.len 1
        match ← vecGet D h.keys.key h.keys.len n with
        | none => inconsistent
        | some last =>
          let D := upd D (h.ikey k) none
          pure (if last = k then D else upd D (h.ikey last) (some raw)) : Res Disk)
    let i ← readIndex raw
    let D ← vecSwapRemove D h.keys.key h.keys.len i
    let v := D (h.values.key i)
    let D ← vecSwapRemove D h.values.key h.values.len i
    pure (D, h.resize (h.keys.len - 1) (h.values.len - 1), v)

variable {K V : Type}

/-- `get(&k)` -/
def get (kc : Codec K) (vc : Codec V) (D : Disk) (h : MapH) (k : K) : Res (Option V) := do
  match ← getRaw D h (kc.enc k) with
  | none => pure none
  | some b => do pure (some (← expect (vc.read b) "Cannot deserialize value with Borsh"))

/-- `insert(&k, &v)` -/
def insert (kc : Codec K) (vc : Codec V) (D : Disk) (h : MapH) (k : K) (v : V) : Res (Disk × MapH) :=
  insertRaw D h (kc.enc k) (vc.enc v)

/-- `remove(&k)` -/
def remove (kc : Codec K) (vc : Codec V) (D : Disk) (h : MapH) (k : K) : Res (Disk × MapH × Option V) := do
  let r ← removeRaw D h (kc.enc k)
  match r.2.2 with
  | none => pure (r.1, r.2.1, none)
  | some b => do pure (r.1, r.2.1, some (← expect (vc.read b) "Cannot deserialize value with Borsh"))

/-- `values()` collected -/
def valueList (vc : Codec V) (D : Disk) (h : MapH) : Res (List V) :=
  (List.range h.values.len).mapM (fun i => match D (h.values.key i) with
    | some b => expect (vc.read b) "Cannot deserialize element"
    | none => inconsistent)

/-- `iter()` collected -/
def entryList (kc : Codec K) (vc : Codec V) (D : Disk) (h : MapH) : Res (List (K × V)) :=
  (List.range h.keys.len).mapM (fun i => match D (h.keys.key i), D (h.values.key i) with
    | some a, some b => do
      let k ← expect (kc.read a) "Cannot deserialize element"
      let v ← expect (vc.read b) "Cannot deserialize element"
      pure (k, v)
    | _, _ => inconsistent)

/-- `keys_as_vector().get(i)` -/
def keyAt (kc : Codec K) (D : Disk) (h : MapH) (i : Nat) : Res (Option K) := do
  match ← vecGet D h.keys.key h.keys.len i with
  | none => pure none
  | some b => do pure (some (← expect (kc.read b) "Cannot deserialize element"))

end MapH

namespace LookupH

variable {K V : Type}

/-- `get(&k)` -/
def get (kc : Codec K) (vc : Codec V) (D : Disk) (h : LookupH) (k : K) : Res (Option V) :=
  match D (h.pre ++ kc.enc k) with
  | none => pure none
  | some b => do pure (some (← expect (vc.read b) "Cannot deserialize value with Borsh"))

/-- `insert(&k, &v)` -/
def insert (kc : Codec K) (vc : Codec V) (D : Disk) (h : LookupH) (k : K) (v : V) : Disk :=
  upd D (h.pre ++ kc.enc k) (some (vc.enc v))

/-- `remove(&k)`; the removed value is not returned, since no method uses it. -/
def remove (kc : Codec K) (D : Disk) (h : LookupH) (k : K) : Disk := upd D (h.pre ++ kc.enc k) none

end LookupH

end Verif.Borsh
