import Verif.Disk.Model

/-!
# What collections are for: separate tables (C87)
-/

namespace Verif.Disk

open Verif Storage

/-- A collection as its users think of it. -/
inductive Table where
  /-- entries in the order in which they are listed -/
  | map (m : UMap Bytes Bytes)
  | vec (l : List Bytes)
  | lookup (f : Bytes → Option Bytes)

/-- A collection without elements. -/
def Table.empty : Kind → Table
  | .map => .map UMap.empty
  | .vector => .vec []
  | .lookup => .lookup fun _ => none

/-- The operation on a table; an index out of bounds in a vector is an error. -/
def Op.table : Op → Table → Res (Table × Ans)
  | .get k, .map m => pure (.map m, .val (m.get k))
  | .insert k v, .map m => pure (.map (m.insert k v), .done)
  | .remove k, .map m => pure (.map (m.remove k), .done)
  | .keyAt i, .map m => pure (.map m, .val m.keys[i]?)
  | .entries, .map m => pure (.map m, .all m.entries)
  | .vget i, .vec l => pure (.vec l, .val l[i]?)
  | .push v, .vec l => pure (.vec (l ++ [v]), .done)
  | .replace i v, .vec l => do
    require (i < l.length) "Index out of bounds"
    pure (.vec (l.set i v), .done)
  | .swapRemove i, .vec l => do
    require (i < l.length) "Index out of bounds"
    pure (.vec (Verif.swapRemove l i), .done)
  | .lget k, .lookup f => pure (.lookup f, .val (f k))
  | .linsert k v, .lookup f => pure (.lookup (upd f k (some v)), .done)
  | .lremove k, .lookup f => pure (.lookup (upd f k none), .done)
  | _, t => pure (t, .done)

/-- Operations on separate tables one after the other. -/
def runTables {ι : Type} [DecidableEq ι] (T : ι → Table) : List (ι × Op) → Res ((ι → Table) × List Ans)
  | [] => pure (T, [])
  | (c, o) :: l => do
    let r ← o.table (T c)
    let q ← runTables (upd T c r.1) l
    pure (q.1, r.2 :: q.2)

end Verif.Disk
