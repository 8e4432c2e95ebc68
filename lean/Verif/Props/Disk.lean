import Verif.Disk.Refine
import Verif.Props.Storage

/-!
# C87: collections in one storage of bytes are separate tables
-/

namespace Verif.Disk

open Verif Storage

/-! ## Any layout -/

/-- Operations on the collections of `U`. -/
def Fits {ι : Type} (kind : ι → Kind) (U : ι → Prop) (l : List (ι × Op)) : Prop := ∀ x ∈ l, U x.1 ∧ x.2.on (kind x.1)

/-- No element of the collections of `U` is in storage. -/
def Blank {ι : Type} (pre : ι → Bytes) (kind : ι → Kind) (U : ι → Prop) (D : Disk) : Prop :=
  ∀ c, U c → ∀ e : Elem, e.of (kind c) → D (pre c ++ e.bytes) = none

theorem all_blank {ι : Type} {pre : ι → Bytes} {kind : ι → Kind} {U : ι → Prop} {D : Disk} (h : Blank pre kind U D) :
    All pre kind U ⟨D, fun _ => 0⟩ (fun c => Table.empty (kind c)) :=
  fun c hc => ⟨holds_empty (h c hc), by cases hk : kind c <;> simp [Table.empty, Table.kind, hk]⟩

/-- **C87**: collections whose elements have different keys answer every operation as separate tables do, panics included. -/
theorem C87_answers {ι : Type} [DecidableEq ι] {pre : ι → Bytes} {kind : ι → Kind} {U : ι → Prop} (hs : Sep pre kind U)
    {D : Disk} (hD : Blank pre kind U D) {l : List (ι × Op)} (hl : Fits kind U l) (hn : l.length < 2 ^ 64) :
    (runDisk pre ⟨D, fun _ => 0⟩ l).map Prod.snd = (runTables (fun c => Table.empty (kind c)) l).map Prod.snd := by
  have h := run_holds hs hl (all_blank hD) (n := 0) (fun _ => Nat.le_refl _) (by omega)
  cases hq : runTables (fun c => Table.empty (kind c)) l with
  | error e => rw [hq] at h; rw [h]; rfl
  | ok q =>
    rw [hq] at h
    obtain ⟨S', h1, -⟩ := h
    rw [h1]; rfl

/-- **C87**: entries of storage that are not elements of the collections stay as they are. -/
theorem C87_rest {ι : Type} [DecidableEq ι] {pre : ι → Bytes} {kind : ι → Kind} {U : ι → Prop} (hs : Sep pre kind U)
    {D : Disk} (hD : Blank pre kind U D) {l : List (ι × Op)} (hl : Fits kind U l) (hn : l.length < 2 ^ 64)
    {S : Sys ι} {a : List Ans} (hr : runDisk pre ⟨D, fun _ => 0⟩ l = .ok (S, a)) {x : Bytes}
    (hx : ∀ c, U c → ∀ e : Elem, e.of (kind c) → x ≠ pre c ++ e.bytes) : S.disk x = D x := by
  have h := run_holds hs hl (all_blank hD) (n := 0) (fun _ => Nat.le_refl _) (by omega)
  cases hq : runTables (fun c => Table.empty (kind c)) l with
  | error e => rw [hq] at h; rw [h] at hr; cases hr
  | ok q =>
    rw [hq] at h
    obtain ⟨S', h1, -, h3⟩ := h
    rw [h1] at hr
    cases hr
    exact h3 x hx

/-- **C87**: the bytes of storage depend on the contents of the tables only, not on how they came about; in particular
(`l' = []`) nothing is left when the tables are emptied. -/
theorem C87_bytes {ι : Type} [DecidableEq ι] {pre : ι → Bytes} {kind : ι → Kind} {U : ι → Prop} (hs : Sep pre kind U)
    {D : Disk} (hD : Blank pre kind U D) {l l' : List (ι × Op)} (hl : Fits kind U l) (hn : l.length < 2 ^ 64)
    (hl' : Fits kind U l') (hn' : l'.length < 2 ^ 64) {S S' : Sys ι} {a a' : List Ans}
    (hr : runDisk pre ⟨D, fun _ => 0⟩ l = .ok (S, a)) (hr' : runDisk pre ⟨D, fun _ => 0⟩ l' = .ok (S', a'))
    (ht : (runTables (fun c => Table.empty (kind c)) l).map Prod.fst =
      (runTables (fun c => Table.empty (kind c)) l').map Prod.fst) : S.disk = S'.disk := by
  have h := run_holds hs hl (all_blank hD) (n := 0) (fun _ => Nat.le_refl _) (by omega)
  have h' := run_holds hs hl' (all_blank hD) (n := 0) (fun _ => Nat.le_refl _) (by omega)
  cases hq : runTables (fun c => Table.empty (kind c)) l with
  | error e => rw [hq] at h; rw [h] at hr; cases hr
  | ok q =>
    cases hq' : runTables (fun c => Table.empty (kind c)) l' with
    | error e => rw [hq'] at h'; rw [h'] at hr'; cases hr'
    | ok q' =>
      rw [hq] at h; rw [hq'] at h'
      rw [hq, hq'] at ht
      have hqq : q.1 = q'.1 := by simpa [Except.map] using ht
      obtain ⟨A, h1, h2, -⟩ := h
      obtain ⟨A', h1', h2', -⟩ := h'
      rw [h1] at hr; cases hr
      rw [h1'] at hr'; cases hr'
      funext x
      by_cases hx : ∃ c, U c ∧ ∃ e : Elem, e.of (kind c) ∧ x = pre c ++ e.bytes
      · obtain ⟨c, hc, e, he, rfl⟩ := hx
        obtain ⟨p1, p2⟩ := h2 c hc
        obtain ⟨p1', -⟩ := h2' c hc
        rw [← hqq] at p1'
        exact p1.same p1' (by rw [p2]; exact he)
      · have hx' : ∀ c, U c → ∀ e : Elem, e.of (kind c) → x ≠ pre c ++ e.bytes :=
          fun c hc e he e' => hx ⟨c, hc, e, he, e'⟩
        rw [C87_rest hs hD hl hn h1 hx', C87_rest hs hD hl' hn' h1' hx']

/-! ## The contracts -/

/-- The hash keeps the ids of the collections apart. -/
def Clear {ι : Type} (H : Hash) (id : ι → Option String) (U : ι → Prop) : Prop := ∀ c d, U c → U d → H.Apart (id c) (id d)

/-- Prefixes of the collections of meta-vote. -/
def metaPre (H : Hash) (c : Coll) : Bytes := prefixOf H c.tag c.id

/-- Prefixes of the collections of mpip. -/
def mpipPre (H : Hash) (c : MpipColl) : Bytes := prefixOf H c.tag c.id

/-- **C87**: the collections of meta-vote have different keys, and none has the key of the contract state. -/
theorem C87_meta {H : Hash} {U : Coll → Prop} (h : Clear H Coll.id U) :
    Sep (metaPre H) Coll.kind U ∧ ∀ c e, Elem.of c.kind e → STATE ≠ metaPre H c ++ e.bytes :=
  ⟨fun c d hc hd _ _ he he' e => ((C43_keys (h c d hc hd) he he').1 e).1,
    fun c _ he e => (C43_keys (H := H) (c := c) (d := c) (fun _ => rfl) he he).2 e.symm⟩

/-- **C87**: the same for mpip. -/
theorem C87_mpip {H : Hash} {U : MpipColl → Prop} (h : Clear H MpipColl.id U) :
    Sep (mpipPre H) (fun _ => .map) U ∧ ∀ c e, Elem.of .map e → STATE ≠ mpipPre H c ++ e.bytes :=
  ⟨fun c d hc hd _ _ he he' e => ((C43_keys_mpip (h c d hc hd) he he').1 e).1,
    fun c _ he e => (C43_keys_mpip (H := H) (c := c) (d := c) (fun _ => rfl) he he).2 e.symm⟩

/-- The collections of kv-store (`kv-store-contract/src/lib.rs:21-24`): one map. -/
def kvPre : Unit → Bytes := fun _ => [0]

/-- **C87**: the same for kv-store. -/
theorem C87_kv : Sep kvPre (fun _ => .map) (fun _ => True) ∧ ∀ c e, Elem.of .map e → STATE ≠ kvPre c ++ e.bytes :=
  ⟨fun _ _ _ _ _ _ _ _ _ => rfl, fun _ _ _ e => by simp [STATE, kvPre] at e⟩

/-- The collections of the token (`test-meta-token/src/lib.rs:49-54`): the accounts, a `LookupMap`, and the metadata, a
`LazyOption`, i.e. a `LookupMap` used with the empty key. -/
def tokenPre : Bool → Bytes
  | false => [0]
  | true => [1]

/-- **C87**: the same for the token. -/
theorem C87_token : Sep tokenPre (fun _ => .lookup) (fun _ => True) ∧ ∀ c e, Elem.of .lookup e → STATE ≠ tokenPre c ++ e.bytes := by
  refine ⟨fun c d _ _ e e' _ _ h => ?_, fun c e _ h => ?_⟩
  · cases c <;> cases d <;> first | rfl | simp [tokenPre] at h
  · cases c <;> simp [STATE, tokenPre] at h

/-! ## Cases -/

/-- Operations on three collections of meta-vote: votes of two voters and the list of voters. -/
def ops : List (Coll × Op) :=
  [(.voters, .insert [1] [10]), (.voters, .insert [2] [20]), (.lockingPosition "a", .push [5]), (.lockingPosition "b", .push [6]),
    (.voters, .remove [1]), (.voters, .entries), (.lockingPosition "a", .vget 0), (.evmPreDelegation, .linsert [7] [8]),
    (.voters, .get [2]), (.voters, .keyAt 0), (.lockingPosition "a", .swapRemove 0), (.lockingPosition "b", .vget 0),
    (.evmPreDelegation, .lget [7])]

/-- A hash that keeps `"a"` and `"b"` apart. -/
def firstByte : Hash := ⟨fun s => (utf8 s ++ List.replicate 32 0).take 32, fun s => by simp⟩

/-- The collections of `ops`. -/
def used (c : Coll) : Prop := c = .voters ∨ c = .lockingPosition "a" ∨ c = .lockingPosition "b" ∨ c = .evmPreDelegation

theorem used_clear : Clear firstByte Coll.id used := by
  have hab : firstByte.fn "a" ≠ firstByte.fn "b" := by decide +kernel
  intro c d hc hd e
  rcases hc with rfl | rfl | rfl | rfl <;> rcases hd with rfl | rfl | rfl | rfl <;>
    first
    | rfl
    | (simp [Coll.id] at e; done)
    | (simp only [Coll.id, Option.map_some, Option.some.injEq] at e; exact absurd e hab)
    | (simp only [Coll.id, Option.map_some, Option.some.injEq] at e; exact absurd e.symm hab)

theorem ops_fit : Fits Coll.kind used ops := by
  simp [Fits, ops, used, Op.on, Coll.kind]

example : (runDisk (metaPre firstByte) ⟨fun x => if x = STATE then some [] else none, fun _ => 0⟩ ops).map Prod.snd =
    .ok [.done, .done, .done, .done, .done, .all [([2], [20])], .val (some [5]), .done, .val (some [20]), .val (some [2]), .done,
      .val (some [6]), .val (some [8])] := by
  rw [C87_answers (C87_meta used_clear).1 (kind := Coll.kind) (U := used) ?_ ops_fit (by decide)]
  · decide +kernel
  · intro c _ e he
    exact if_neg fun h => (C87_meta used_clear).2 c e he h.symm

/-- With a hash that does not keep the ids apart the answers differ: the position of one voter replaces that of another. -/
example : (runDisk (metaPre zeros) ⟨fun _ => none, fun _ => 0⟩ ops).map Prod.snd ≠
    (runTables (fun c => Table.empty c.kind) ops).map Prod.snd := by
  decide +kernel

end Verif.Disk
