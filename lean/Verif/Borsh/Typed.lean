import Verif.Borsh.Handle
import Verif.Disk.Refine

/-!
# A coded map in storage behaves as the map
-/

namespace Verif.Borsh

open Verif Storage Disk

section
variable {K V : Type} [DecidableEq K]

theorem Codec.enc_inj {α : Type} (c : Codec α) {a b : α} (ha : c.ok a) (hb : c.ok b) (h : c.enc a = c.enc b) : a = b := by
  have h1 := c.read_enc ha
  rw [h, c.read_enc hb] at h1
  exact (Option.some.inj h1).symm

/-- An entry in bytes. -/
def encEntry (kc : Codec K) (vc : Codec V) (p : K × V) : Bytes × Bytes := (kc.enc p.1, vc.enc p.2)

/-- The keys are values of their type. -/
def KeysOK (kc : Codec K) (l : List (K × V)) : Prop := ∀ p ∈ l, kc.ok p.1

theorem findL_enc {kc : Codec K} {vc : Codec V} {l : List (K × V)} (h : KeysOK kc l) {k : K} (hk : kc.ok k) :
    findL (l.map (encEntry kc vc)) (kc.enc k) = (findL l k).map vc.enc := by
  induction l with
  | nil => rfl
  | cons p t ih =>
    obtain ⟨a, v⟩ := p
    have ha : kc.ok a := h (a, v) List.mem_cons_self
    have := ih fun p hp => h p (List.mem_cons_of_mem _ hp)
    simp only [List.map_cons, encEntry, findL]
    by_cases e : a = k
    · subst e; simp
    · rw [if_neg e, if_neg fun e' => e (kc.enc_inj ha hk e')]
      exact this

theorem insertL_enc {kc : Codec K} {vc : Codec V} {l : List (K × V)} (h : KeysOK kc l) {k : K} (hk : kc.ok k) (v : V) :
    insertL (l.map (encEntry kc vc)) (kc.enc k) (vc.enc v) = (insertL l k v).map (encEntry kc vc) := by
  induction l with
  | nil => rfl
  | cons p t ih =>
    obtain ⟨a, x⟩ := p
    have ha : kc.ok a := h (a, x) List.mem_cons_self
    have := ih fun p hp => h p (List.mem_cons_of_mem _ hp)
    simp only [List.map_cons, encEntry, insertL]
    by_cases e : a = k
    · subst e; simp [encEntry]
    · rw [if_neg e, if_neg fun e' => e (kc.enc_inj ha hk e'), List.map_cons]
      rw [← this]; rfl

theorem indexL_enc {kc : Codec K} {vc : Codec V} {l : List (K × V)} (h : KeysOK kc l) {k : K} (hk : kc.ok k) :
    indexL (l.map (encEntry kc vc)) (kc.enc k) = indexL l k := by
  induction l with
  | nil => rfl
  | cons p t ih =>
    obtain ⟨a, x⟩ := p
    have ha : kc.ok a := h (a, x) List.mem_cons_self
    have := ih fun p hp => h p (List.mem_cons_of_mem _ hp)
    simp only [List.map_cons, encEntry, indexL]
    by_cases e : a = k
    · subst e; simp
    · rw [if_neg e, if_neg fun e' => e (kc.enc_inj ha hk e')]
      exact congrArg (· + 1) this

omit [DecidableEq K] in
theorem mem_enc {kc : Codec K} {vc : Codec V} {l : List (K × V)} (h : KeysOK kc l) {k : K} (hk : kc.ok k) :
    kc.enc k ∈ (l.map (encEntry kc vc)).map Prod.fst ↔ k ∈ l.map Prod.fst := by
  simp only [List.map_map, List.mem_map, Function.comp, encEntry]
  constructor
  · rintro ⟨p, hp, e⟩; exact ⟨p, hp, kc.enc_inj (h p hp) hk e⟩
  · rintro ⟨p, hp, rfl⟩; exact ⟨p, hp, rfl⟩

theorem swapRemove_map {α β : Type} (f : α → β) (l : List α) (i : Nat) : swapRemove (l.map f) i = (swapRemove l i).map f := by
  unfold swapRemove
  rw [List.getLast?_map]
  cases l.getLast? with
  | none => rfl
  | some x => simp only [Option.map_some, ← List.map_set, List.map_dropLast]

theorem removeL_enc {kc : Codec K} {vc : Codec V} {l : List (K × V)} (h : KeysOK kc l) {k : K} (hk : kc.ok k) :
    removeL (l.map (encEntry kc vc)) (kc.enc k) = (removeL l k).map (encEntry kc vc) := by
  unfold removeL
  by_cases e : k ∈ l.map Prod.fst
  · rw [if_pos e, if_pos ((mem_enc h hk).2 e), indexL_enc h hk, swapRemove_map]
  · rw [if_neg e, if_neg fun e' => e ((mem_enc h hk).1 e')]

omit [DecidableEq K] in
theorem enc_nodup {kc : Codec K} {vc : Codec V} {l : List (K × V)} (h : KeysOK kc l) (hn : (l.map Prod.fst).Nodup) :
    ((l.map (encEntry kc vc)).map Prod.fst).Nodup := by
  rw [List.map_map, show (Prod.fst ∘ encEntry kc vc) = kc.enc ∘ Prod.fst from rfl, ← List.map_map]
  refine List.Nodup.map_on ?_ hn
  intro a ha b hb e
  obtain ⟨p, hp, rfl⟩ := List.mem_map.1 ha
  obtain ⟨q, hq, rfl⟩ := List.mem_map.1 hb
  exact kc.enc_inj (h p hp) (h q hq) e

/-- The entries are values of their types. -/
def MapOK (kc : Codec K) (vc : Codec V) (m : UMap K V) : Prop := ∀ p ∈ m.entries, kc.ok p.1 ∧ vc.ok p.2

/-- The map in bytes. -/
def encMap (kc : Codec K) (vc : Codec V) (m : UMap K V) (h : MapOK kc vc m) : UMap Bytes Bytes :=
  ⟨m.entries.map (encEntry kc vc), enc_nodup (fun p hp => (h p hp).1) m.nodup⟩

/-- The storage at prefix `p`, with the handle `h`, is the map `m`. -/
def IsMap (kc : Codec K) (vc : Codec V) (D : Disk) (p : Bytes) (h : MapH) (m : UMap K V) : Prop :=
  h = MapH.at p m.len ∧ ∃ ok : MapOK kc vc m, Like D p (Cells.of (encMap kc vc m ok))

theorem MapOK.insert {kc : Codec K} {vc : Codec V} {m : UMap K V} (h : MapOK kc vc m) {k : K} {v : V} (hk : kc.ok k)
    (hv : vc.ok v) : MapOK kc vc (m.insert k v) := by
  intro p hp
  have hg : (m.insert k v).get p.1 = some p.2 := UMap.get_eq_some_iff.2 hp
  rw [UMap.get_insert] at hg
  split at hg
  · rename_i e
    cases hg
    rw [← e]; exact ⟨hk, hv⟩
  · exact h p (UMap.get_eq_some_iff.1 hg)

theorem MapOK.remove {kc : Codec K} {vc : Codec V} {m : UMap K V} (h : MapOK kc vc m) (k : K) : MapOK kc vc (m.remove k) := by
  intro p hp
  have hg : (m.remove k).get p.1 = some p.2 := UMap.get_eq_some_iff.2 hp
  rw [UMap.get_remove] at hg
  split at hg
  · cases hg
  · exact h p (UMap.get_eq_some_iff.1 hg)

theorem encMap_len {kc : Codec K} {vc : Codec V} {m : UMap K V} (h : MapOK kc vc m) : (encMap kc vc m h).len = m.len := by
  simp [encMap, UMap.len]

theorem encMap_get {kc : Codec K} {vc : Codec V} {m : UMap K V} (h : MapOK kc vc m) {k : K} (hk : kc.ok k) :
    (encMap kc vc m h).get (kc.enc k) = (m.get k).map vc.enc := findL_enc (fun p hp => (h p hp).1) hk

theorem encMap_insert {kc : Codec K} {vc : Codec V} {m : UMap K V} (h : MapOK kc vc m) {k : K} {v : V} (hk : kc.ok k)
    (hv : vc.ok v) : (encMap kc vc m h).insert (kc.enc k) (vc.enc v) = encMap kc vc (m.insert k v) (h.insert hk hv) :=
  UMap.ext' (insertL_enc (fun p hp => (h p hp).1) hk v)

theorem encMap_remove {kc : Codec K} {vc : Codec V} {m : UMap K V} (h : MapOK kc vc m) {k : K} (hk : kc.ok k) :
    (encMap kc vc m h).remove (kc.enc k) = encMap kc vc (m.remove k) (h.remove k) :=
  UMap.ext' (removeL_enc (fun p hp => (h p hp).1) hk)

/-! ## Keys of a handle -/

theorem at_ikey (p k : Bytes) (n : Nat) : (MapH.at p n).ikey k = Disk.ikey p k := by
  simp [MapH.ikey, MapH.at, Disk.ikey, Elem.bytes]

theorem at_kkey (p : Bytes) (n : Nat) : (MapH.at p n).keys.key = Disk.kkey p := by
  funext i; simp [VecH.key, MapH.at, Disk.kkey, Elem.bytes]

theorem at_vkey (p : Bytes) (n : Nat) : (MapH.at p n).values.key = Disk.vkey p := by
  funext i; simp [VecH.key, MapH.at, Disk.vkey, Elem.bytes]

theorem getRaw_at (D : Disk) (p : Bytes) (n : Nat) (k : Bytes) : MapH.getRaw D (.at p n) k = mapGet D p n k := by
  unfold MapH.getRaw mapGet
  rw [at_ikey, at_vkey]
  rfl

theorem insertRaw_at (D : Disk) (p : Bytes) (n : Nat) (k v : Bytes) :
    MapH.insertRaw D (.at p n) k v = (mapInsert D p n k v).map (fun r => (r.1, .at p r.2)) := by
  unfold MapH.insertRaw mapInsert
  rw [at_ikey, at_vkey, at_kkey]
  cases D (Disk.ikey p k) with
  | none => rfl
  | some raw =>
    simp only
    cases readIndex raw with
    | error e => rfl
    | ok i =>
      change (vecReplace D (Disk.vkey p) n i v >>= _) = Except.map _ (vecReplace D (Disk.vkey p) n i v >>= _)
      cases vecReplace D (Disk.vkey p) n i v <;> rfl

theorem swap_only {D D' : Disk} {f : Nat → Bytes} {n i : Nat} (h : vecSwapRemove D f n i = .ok D') {x : Bytes}
    (hx : ∀ j, x ≠ f j) : D' x = D x := by
  simp only [Disk.vecSwapRemove, bind_ok_iff, require_ok_iff] at h
  obtain ⟨-, -, h⟩ := h
  cases hl : D (f (n - 1)) with
  | none => rw [hl] at h; cases h
  | some last =>
    simp only [hl] at h
    split at h
    · cases h; exact upd_ne _ _ (hx _)
    · split at h
      · cases h
      · cases h; rw [upd_ne _ _ (hx _), upd_ne _ _ (hx _)]

theorem removeRaw_at {D D' : Disk} {p : Bytes} {n n' : Nat} {k : Bytes} {v : Option Bytes}
    (h : mapRemove D p n k = .ok (D', n')) (hv : mapGet D p n k = .ok v) :
    MapH.removeRaw D (.at p n) k = .ok (D', .at p n', v) := by
  unfold MapH.removeRaw
  unfold mapRemove at h
  unfold mapGet at hv
  rw [at_ikey, at_kkey, at_vkey]
  cases hi : D (Disk.ikey p k) with
  | none => rw [hi] at h hv; cases h; cases hv; rfl
  | some raw =>
    simp only [hi] at h hv
    rw [bind_ok_iff] at h
    obtain ⟨D1, h1, h⟩ := h
    simp only [bind_ok_iff, pure_ok_iff] at h hv
    obtain ⟨i, hri, D2, h2, D3, h3, e⟩ := h
    cases e
    obtain ⟨i', hri', w, hw, hv⟩ := hv
    rw [hri] at hri'
    cases hri'
    simp only
    rw [bind_ok_iff]
    have hD1 : D1 (Disk.vkey p i) = D (Disk.vkey p i) := by
      split at h1
      · cases h1; exact upd_ne _ _ ikey_ne_vkey.symm
      · simp only [bind_ok_iff] at h1
        obtain ⟨_, -, q, -, h1⟩ := h1
        split at h1
        · cases h1
        · cases h1
          split
          · exact upd_ne _ _ ikey_ne_vkey.symm
          · rw [upd_ne _ _ ikey_ne_vkey.symm, upd_ne _ _ ikey_ne_vkey.symm]
    have hD2 : D2 (Disk.vkey p i) = D1 (Disk.vkey p i) := swap_only h2 fun j => kkey_ne_vkey.symm
    refine ⟨D1, ?_, ?_⟩
    · rw [← h1]
      show (if n = 1 then _ else _) = _
      by_cases e : n = 1
      · rw [if_pos e, if_pos e]
      · rw [if_neg e, if_neg e]
        simp only [at_ikey]
        rfl
    · simp only [bind_ok_iff, pure_ok_iff]
      refine ⟨i, hri, D2, h2, _, h3, ?_⟩
      rw [hD2, hD1]
      have : v = D (Disk.vkey p i) := by
        unfold Disk.vecGet at hw
        split at hw
        · cases hw; cases hv
        · split at hw
          · rename_i x hx
            cases hw; cases hv; exact hx.symm
          · cases hw
      rw [this]
      rfl

/-! ## The map -/

variable {kc : Codec K} {vc : Codec V} {D : Disk} {p : Bytes} {h : MapH} {m : UMap K V}

theorem IsMap.len (hm : IsMap kc vc D p h m) : h.keys.len = m.len := by rw [hm.1]; rfl

theorem IsMap.get (hm : IsMap kc vc D p h m) {k : K} (hk : kc.ok k) : MapH.get kc vc D h k = .ok (m.get k) := by
  obtain ⟨rfl, ok, hl⟩ := hm
  have h1 : mapGet D p m.len (kc.enc k) = .ok ((m.get k).map vc.enc) := by
    rw [mapGet_like hl, ← encMap_len ok, Cells.get_of, encMap_get ok hk]
  unfold MapH.get
  rw [getRaw_at, h1]
  cases hg : m.get k with
  | none => rfl
  | some v =>
    have := vc.read_enc (ok _ (UMap.get_eq_some_iff.1 hg)).2
    simp only [Option.map_some, Bind.bind, Except.bind, this, expect]
    rfl

theorem IsMap.insert (hm : IsMap kc vc D p h m) (hn : m.len < 2 ^ 64) {k : K} {v : V} (hk : kc.ok k) (hv : vc.ok v) :
    ∃ D' h', MapH.insert kc vc D h k v = .ok (D', h') ∧ IsMap kc vc D' p h' (m.insert k v) ∧ Frame .map p D D' := by
  obtain ⟨rfl, ok, hl⟩ := hm
  have h1 := Cells.insert_of (encMap kc vc m ok) (kc.enc k) (vc.enc v)
  rw [encMap_insert ok hk hv, encMap_len, encMap_len] at h1
  obtain ⟨D', h2, h3, h4⟩ := mapInsert_like hl hn _ _ h1
  refine ⟨D', _, ?_, ⟨rfl, _, h3⟩, h4⟩
  unfold MapH.insert
  rw [insertRaw_at, h2]
  rfl

theorem IsMap.remove (hm : IsMap kc vc D p h m) (hn : m.len ≤ 2 ^ 64) {k : K} (hk : kc.ok k) :
    ∃ D' h', MapH.remove kc vc D h k = .ok (D', h', m.get k) ∧ IsMap kc vc D' p h' (m.remove k) ∧ Frame .map p D D' := by
  obtain ⟨rfl, ok, hl⟩ := hm
  have h1 := Cells.remove_of (encMap kc vc m ok) (kc.enc k)
  rw [encMap_remove ok hk, encMap_len, encMap_len] at h1
  obtain ⟨D', h2, h3, h4⟩ := mapRemove_like hl hn _ h1
  have hg : mapGet D p m.len (kc.enc k) = .ok ((m.get k).map vc.enc) := by
    rw [mapGet_like hl, ← encMap_len ok, Cells.get_of, encMap_get ok hk]
  refine ⟨D', _, ?_, ⟨rfl, _, h3⟩, h4⟩
  unfold MapH.remove
  rw [removeRaw_at h2 hg]
  cases hv : m.get k with
  | none => rfl
  | some v =>
    have := vc.read_enc (ok _ (UMap.get_eq_some_iff.1 hv)).2
    simp only [Option.map_some, Bind.bind, Except.bind, this, expect]
    rfl

theorem IsMap.keyAt (hm : IsMap kc vc D p h m) {i : Nat} (hi : i < 2 ^ 64) : MapH.keyAt kc D h i = .ok m.keys[i]? := by
  obtain ⟨rfl, ok, hl⟩ := hm
  have h1 : vecGet D (Disk.kkey p) m.len i = .ok (m.keys[i]?.map kc.enc) := by
    have := (vecGet_row (len := m.len) hl.keys hi)
    rw [this, ← encMap_len ok]
    refine (Cells.keyAt_of _ i).trans ?_
    simp only [UMap.keys, encMap, List.map_map, List.getElem?_map, Option.map_map]
    rfl
  unfold MapH.keyAt
  rw [at_kkey]
  change (vecGet D (Disk.kkey p) m.len i >>= _) = _
  rw [h1]
  cases hk : m.keys[i]? with
  | none => rfl
  | some k =>
    have hmem : k ∈ m.keys := List.mem_of_getElem? hk
    obtain ⟨q, hq, rfl⟩ := List.mem_map.1 hmem
    have := kc.read_enc (ok q hq).1
    simp only [Option.map_some, Bind.bind, Except.bind, this, expect]
    rfl

/-- The storage of the map stays when nothing of it changes. -/
theorem IsMap.frame {D' : Disk} (hm : IsMap kc vc D p h m) (hf : ∀ e : Elem, e.of .map → D' (p ++ e.bytes) = D (p ++ e.bytes)) :
    IsMap kc vc D' p h m := by
  obtain ⟨h1, ok, hl⟩ := hm
  exact ⟨h1, ok, (Holds.frame (t := .map _) (len := _) ⟨hl, rfl⟩ hf).1⟩

theorem IsMap.empty (hb : ∀ e : Elem, e.of .map → D (p ++ e.bytes) = none) :
    IsMap kc vc D p (.at p 0) (UMap.empty : UMap K V) :=
  ⟨rfl, (fun _ h => by cases h), (holds_empty (k := .map) hb).1⟩

end

end Verif.Borsh
