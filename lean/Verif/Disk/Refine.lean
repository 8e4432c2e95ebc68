import Verif.Spec.Disk

/-!
# Bytes of storage and separate tables
-/

namespace Verif.Disk

open Verif Storage

theorem unle_le (n x : Nat) (h : x < 256 ^ n) : unle (le n x) = x := by
  induction n generalizing x with
  | zero => simp at h; simp [le, unle, h]
  | succ n ih =>
    simp only [le, unle]
    rw [ih (x / 256) (by rw [Nat.pow_succ] at h; omega), UInt8.toNat_ofNat']
    omega

theorem readIndex_le {i : Nat} (h : i < 2 ^ 64) : readIndex (le 8 i) = .ok i := by
  have h1 : unle (le 8 i) = i := unle_le 8 i (Nat.lt_of_lt_of_eq h (by decide))
  unfold readIndex
  rw [require, if_pos (le_length 8 i), h1]
  rfl

/-! ## Vectors -/

/-- The entries with keys `f` are `g`. -/
def Row (D : Disk) (f : Nat → Bytes) (g : Nat → Option Bytes) : Prop := ∀ i, i < 2 ^ 64 → D (f i) = g i

/-- The keys are different. -/
def Inj (f : Nat → Bytes) : Prop := ∀ i j, i < 2 ^ 64 → j < 2 ^ 64 → f i = f j → i = j

/-- Nothing else changed. -/
def Only (f : Nat → Bytes) (D D' : Disk) : Prop := ∀ x, (∀ i, i < 2 ^ 64 → x ≠ f i) → D' x = D x

theorem Row.upd {D : Disk} {f : Nat → Bytes} {g : Nat → Option Bytes} (hf : Inj f) (h : Row D f g) {i : Nat} (hi : i < 2 ^ 64)
    (v : Option Bytes) : Row (upd D (f i) v) f (upd g i v) ∧ Only f D (upd D (f i) v) := by
  constructor
  · intro j hj
    by_cases e : j = i
    · subst e; simp
    · rw [upd_ne _ _ e, upd_ne _ _ (fun e' => e (hf j i hj hi e')), h j hj]
  · intro x hx
    exact upd_ne _ _ (hx i hi)

theorem vecGet_row {D : Disk} {f : Nat → Bytes} {g : Nat → Option Bytes} (h : Row D f g) {len i : Nat} (hi : i < 2 ^ 64) :
    vecGet D f len i = Storage.vecGet g len i := by
  unfold vecGet Storage.vecGet
  rw [h i hi]
  by_cases e : i < len
  · rw [if_neg (by omega), if_pos e]; cases g i <;> rfl
  · rw [if_pos (by omega), if_neg e]

theorem vecReplace_row {D : Disk} {f : Nat → Bytes} {g : Nat → Option Bytes} (hf : Inj f) (h : Row D f g) {len i : Nat}
    (hi : i < 2 ^ 64) (x : Bytes) :
    match Storage.vecReplace g len i x with
    | .ok g' => ∃ D', vecReplace D f len i x = .ok D' ∧ Row D' f g' ∧ Only f D D'
    | .error e => vecReplace D f len i x = .error e := by
  unfold vecReplace Storage.vecReplace
  rw [h i hi]
  by_cases e : i < len
  · rw [require, if_pos e]
    cases hg : g i with
    | none => rfl
    | some y => exact ⟨_, rfl, h.upd hf hi _⟩
  · rw [require, if_neg e]; rfl

theorem vecSwapRemove_row {D : Disk} {f : Nat → Bytes} {g : Nat → Option Bytes} (hf : Inj f) (h : Row D f g) {len i : Nat}
    (hi : i < 2 ^ 64) (hl : len ≤ 2 ^ 64) :
    match Storage.vecSwapRemove g len i with
    | .ok g' => ∃ D', vecSwapRemove D f len i = .ok D' ∧ Row D' f g' ∧ Only f D D'
    | .error e => vecSwapRemove D f len i = .error e := by
  unfold vecSwapRemove Storage.vecSwapRemove
  by_cases e : i < len
  · have hn : len - 1 < 2 ^ 64 := by omega
    rw [require, if_pos e, h _ hn]
    cases hg : g (len - 1) with
    | none => rfl
    | some last =>
      obtain ⟨h1, o1⟩ := h.upd hf hn none
      by_cases e2 : i + 1 = len
      · simp only [if_pos e2]
        exact ⟨_, rfl, h1, o1⟩
      · simp only [if_neg e2]
        have hx := h1 i hi
        cases hg2 : Storage.upd g (len - 1) none i with
        | none =>
          rw [hg2] at hx
          simp only [Bind.bind, Except.bind, hx]
          rfl
        | some y =>
          rw [hg2] at hx
          obtain ⟨h2, o2⟩ := h1.upd hf hi (some last)
          simp only [Bind.bind, Except.bind, hx]
          exact ⟨_, rfl, h2, fun x hx => (o2 x hx).trans (o1 x hx)⟩
  · rw [require, if_neg e]; rfl

/-! ## Maps -/

/-- The entries of the map with prefix `p`. -/
structure Like (D : Disk) (p : Bytes) (M : Cells Bytes Bytes) : Prop where
  index : ∀ k, D (ikey p k) = (M.index k).map (le 8)
  small : ∀ k i, M.index k = some i → i < 2 ^ 64
  keys : Row D (kkey p) M.keys
  vals : Row D (vkey p) M.vals

/-- Nothing changed outside the elements of a collection. -/
def Frame (k : Kind) (p : Bytes) (D D' : Disk) : Prop := ∀ x, (∀ e : Elem, e.of k → x ≠ p ++ e.bytes) → D' x = D x

theorem Frame.refl {k : Kind} {p : Bytes} {D : Disk} : Frame k p D D := fun _ _ => rfl

theorem Frame.trans {k : Kind} {p : Bytes} {A B C : Disk} (h : Frame k p A B) (h' : Frame k p B C) : Frame k p A C :=
  fun x hx => (h' x hx).trans (h x hx)

theorem key_inj {k : Kind} {p : Bytes} {e e' : Elem} (he : e.of k) (he' : e'.of k) (h : p ++ e.bytes = p ++ e'.bytes) : e = e' :=
  bytes_inj he he' (List.append_cancel_left h)

theorem ikey_inj {p k k' : Bytes} (h : ikey p k = ikey p k') : k = k' := by
  simpa [ikey, Elem.bytes] using h

theorem kkey_inj {p : Bytes} : Inj (kkey p) := fun i j hi hj h => by
  have := key_inj (k := .map) (e := .keyAt i) (e' := .keyAt j) hi hj h
  cases this; rfl

theorem vkey_inj {p : Bytes} : Inj (vkey p) := fun i j hi hj h => by
  have := key_inj (k := .map) (e := .valAt i) (e' := .valAt j) hi hj h
  cases this; rfl

theorem ekey_inj {p : Bytes} : Inj (ekey p) := fun i j hi hj h => by
  have := key_inj (k := .vector) (e := .elemAt i) (e' := .elemAt j) hi hj h
  cases this; rfl

theorem lkey_inj {p k k' : Bytes} (h : lkey p k = lkey p k') : k = k' := by
  simpa [lkey, Elem.bytes] using h

theorem ikey_ne_kkey {p k : Bytes} {i : Nat} : ikey p k ≠ kkey p i := by
  simp [ikey, kkey, Elem.bytes]

theorem ikey_ne_vkey {p k : Bytes} {i : Nat} : ikey p k ≠ vkey p i := by
  simp [ikey, vkey, Elem.bytes]

theorem kkey_ne_vkey {p : Bytes} {i j : Nat} : kkey p i ≠ vkey p j := by
  simp [kkey, vkey, Elem.bytes]

theorem frame_ikey {D : Disk} {p k : Bytes} {v : Option Bytes} : Frame .map p D (upd D (ikey p k) v) :=
  fun _ hx => upd_ne _ _ (hx (.posOf k) trivial)

theorem frame_kkey {D D' : Disk} {p : Bytes} (h : Only (kkey p) D D') : Frame .map p D D' :=
  fun x hx => h x fun i hi => hx (.keyAt i) hi

theorem frame_vkey {D D' : Disk} {p : Bytes} (h : Only (vkey p) D D') : Frame .map p D D' :=
  fun x hx => h x fun i hi => hx (.valAt i) hi

theorem frame_ekey {D D' : Disk} {p : Bytes} (h : Only (ekey p) D D') : Frame .vector p D D' :=
  fun x hx => h x fun i hi => hx (.elemAt i) hi

theorem Like.setIndex {D : Disk} {p : Bytes} {M : Cells Bytes Bytes} (h : Like D p M) (k : Bytes) {v : Option Nat}
    (hv : ∀ i, v = some i → i < 2 ^ 64) : Like (upd D (ikey p k) (v.map (le 8))) p { M with index := upd M.index k v } where
  index k' := by
    by_cases e : k' = k
    · subst e; simp
    · rw [upd_ne _ _ (fun e' => e (ikey_inj e')), h.index]
      show _ = (upd M.index k v k').map (le 8)
      rw [upd_ne _ _ e]
  small k' i hi := by
    change upd M.index k v k' = some i at hi
    by_cases e : k' = k
    · subst e; rw [upd_self] at hi; exact hv i hi
    · rw [upd_ne _ _ e] at hi; exact h.small k' i hi
  keys i hi := by rw [upd_ne _ _ ikey_ne_kkey.symm]; exact h.keys i hi
  vals i hi := by rw [upd_ne _ _ ikey_ne_vkey.symm]; exact h.vals i hi

theorem Like.setKeys {D D' : Disk} {p : Bytes} {M : Cells Bytes Bytes} (h : Like D p M) {g : Nat → Option Bytes}
    (hr : Row D' (kkey p) g) (ho : Only (kkey p) D D') : Like D' p { M with keys := g } where
  index k := (ho _ fun _ _ => ikey_ne_kkey).trans (h.index k)
  small := h.small
  keys := hr
  vals i hi := (ho _ fun _ _ => kkey_ne_vkey.symm).trans (h.vals i hi)

theorem Like.setVals {D D' : Disk} {p : Bytes} {M : Cells Bytes Bytes} (h : Like D p M) {g : Nat → Option Bytes}
    (hr : Row D' (vkey p) g) (ho : Only (vkey p) D D') : Like D' p { M with vals := g } where
  index k := (ho _ fun _ _ => ikey_ne_vkey).trans (h.index k)
  small := h.small
  keys i hi := (ho _ fun _ _ => kkey_ne_vkey).trans (h.keys i hi)
  vals := hr

theorem mapGet_like {D : Disk} {p : Bytes} {M : Cells Bytes Bytes} (h : Like D p M) (len : Nat) (k : Bytes) :
    mapGet D p len k = M.get len k := by
  unfold mapGet Cells.get
  rw [h.index]
  cases e : M.index k with
  | none => rfl
  | some i =>
    have hi := h.small k i e
    simp only [Option.map_some, readIndex_le hi, Bind.bind, Except.bind, vecGet_row h.vals hi]
    rcases Storage.vecGet M.vals len i with _ | _ | _ <;> rfl

theorem mapInsert_like {D : Disk} {p : Bytes} {M : Cells Bytes Bytes} (h : Like D p M) {len : Nat} (hl : len < 2 ^ 64)
    (k v : Bytes) {r : Cells Bytes Bytes × Nat} (hr : M.insert len k v = .ok r) :
    ∃ D', mapInsert D p len k v = .ok (D', r.2) ∧ Like D' p r.1 ∧ Frame .map p D D' := by
  unfold Cells.insert at hr
  unfold mapInsert
  rw [h.index]
  cases e : M.index k with
  | some i =>
    have hi := h.small k i e
    have hs := vecReplace_row vkey_inj h.vals (len := len) hi v
    simp only [e, bind_ok_iff, pure_ok_iff] at hr
    obtain ⟨g, hg, rfl⟩ := hr
    rw [hg] at hs
    obtain ⟨D', hd, row, only⟩ := hs
    refine ⟨D', ?_, h.setVals row only, frame_vkey only⟩
    simp only [Option.map_some, readIndex_le hi, Bind.bind, Except.bind, hd]
    rfl
  | none =>
    simp only [e, pure_ok_iff] at hr
    subst hr
    have h1 := h.setIndex k (v := some len) (fun i hi => by cases hi; exact hl)
    obtain ⟨r2, o2⟩ := h1.keys.upd kkey_inj hl (some k)
    have h2 := h1.setKeys r2 o2
    obtain ⟨r3, o3⟩ := h2.vals.upd vkey_inj hl (some v)
    exact ⟨_, rfl, h2.setVals r3 o3, frame_ikey.trans ((frame_kkey o2).trans (frame_vkey o3))⟩

theorem mapRemove_like {D : Disk} {p : Bytes} {M : Cells Bytes Bytes} (h : Like D p M) {len : Nat} (hl : len ≤ 2 ^ 64)
    (k : Bytes) {r : Cells Bytes Bytes × Nat} (hr : M.remove len k = .ok r) :
    ∃ D', mapRemove D p len k = .ok (D', r.2) ∧ Like D' p r.1 ∧ Frame .map p D D' := by
  unfold Cells.remove at hr
  unfold mapRemove
  rw [h.index]
  cases e : M.index k with
  | none =>
    simp only [e, pure_ok_iff] at hr
    subst hr
    exact ⟨D, rfl, h, Frame.refl⟩
  | some i =>
    have hi := h.small k i e
    simp only [e] at hr
    rw [bind_ok_iff] at hr
    obtain ⟨ix, hix, hr⟩ := hr
    have h0 : ∃ D1, (if len = 1 then pure (upd D (ikey p k) none)
      else do
        let n ← subU len 1
        match ← vecGet D (kkey p) len n with
        | none => inconsistent
        | some last =>
          let D := upd D (ikey p k) none
          pure (if last = k then D else upd D (ikey p last) (some (le 8 i))) : Res Disk) = .ok D1 ∧
          Like D1 p { M with index := ix } ∧ Frame .map p D D1 := by
      by_cases e1 : len = 1
      · rw [if_pos e1] at hix ⊢
        simp only [pure_ok_iff] at hix
        subst hix
        exact ⟨_, rfl, h.setIndex k (v := none) (fun _ h => by cases h), frame_ikey⟩
      · rw [if_neg e1] at hix ⊢
        simp only [bind_ok_iff] at hix
        obtain ⟨n, hn, q, hq, hix⟩ := hix
        have hn' := hn
        rw [subU_ok_iff] at hn'
        rw [hn, show (Except.ok n : Res Nat) = pure n from rfl, pure_bind, vecGet_row h.keys (by omega), hq,
          show (Except.ok q : Res (Option Bytes)) = pure q from rfl, pure_bind]
        cases q with
        | none => cases hix
        | some last =>
          simp only [pure_ok_iff] at hix
          subst hix
          have h1 := h.setIndex k (v := none) (fun _ h => by cases h)
          refine ⟨_, rfl, ?_⟩
          by_cases e2 : last = k
          · rw [if_pos e2, if_pos e2]; exact ⟨h1, frame_ikey⟩
          · rw [if_neg e2, if_neg e2]
            exact ⟨h1.setIndex last (v := some i) (fun _ h => by cases h; exact hi), frame_ikey.trans frame_ikey⟩
    obtain ⟨D1, hD1, h1, f1⟩ := h0
    simp only [bind_ok_iff, pure_ok_iff] at hr
    obtain ⟨gk, hgk, gv, hgv, rfl⟩ := hr
    have s2 := vecSwapRemove_row kkey_inj h1.keys (len := len) hi hl
    change match Storage.vecSwapRemove M.keys len i with | .ok g' => _ | .error e => _ at s2
    rw [hgk] at s2
    obtain ⟨D2, hD2, r2, o2⟩ := s2
    have h2 := h1.setKeys r2 o2
    have s3 := vecSwapRemove_row vkey_inj h2.vals (len := len) hi hl
    change match Storage.vecSwapRemove M.vals len i with | .ok g' => _ | .error e => _ at s3
    rw [hgv] at s3
    obtain ⟨D3, hD3, r3, o3⟩ := s3
    refine ⟨D3, ?_, h2.setVals r3 o3, f1.trans ((frame_kkey o2).trans (frame_vkey o3))⟩
    simp only [Option.map_some]
    rw [bind_ok_iff]
    refine ⟨D1, hD1, ?_⟩
    simp only [bind_ok_iff, pure_ok_iff]
    exact ⟨i, readIndex_le hi, D2, hD2, D3, hD3, rfl⟩

theorem mapM_eq {α β : Type} {f g : α → Res β} {l : List α} (h : ∀ x ∈ l, f x = g x) : l.mapM f = l.mapM g := by
  induction l with
  | nil => rfl
  | cons x t ih =>
    rw [List.mapM_cons, List.mapM_cons, ih (fun y hy => h y (List.mem_cons_of_mem _ hy)), h x List.mem_cons_self]

theorem mapEntries_like {D : Disk} {p : Bytes} {M : Cells Bytes Bytes} (h : Like D p M) {len : Nat} (hl : len ≤ 2 ^ 64) :
    mapEntries D p len = M.entries len := by
  unfold mapEntries Cells.entries
  refine mapM_eq fun i hi => ?_
  have hi' : i < 2 ^ 64 := Nat.lt_of_lt_of_le (List.mem_range.1 hi) hl
  rw [h.keys i hi', h.vals i hi']
  cases M.keys i <;> cases M.vals i <;> rfl

/-! ## Tables -/

/-- The storage of a collection is the table. -/
def Holds (D : Disk) (p : Bytes) (len : Nat) : Table → Prop
  | .map m => Like D p (Cells.of m) ∧ len = m.len
  | .vec l => Row D (ekey p) (fun i => l[i]?) ∧ len = l.length
  | .lookup f => (∀ k, D (lkey p k) = f k) ∧ len = 0

/-- The kind of a table. -/
def Table.kind : Table → Kind
  | .map _ => .map
  | .vec _ => .vector
  | .lookup _ => .lookup

/-- An untouched part of storage holds the table without elements. -/
theorem holds_empty {D : Disk} {k : Kind} {p : Bytes} (h : ∀ e : Elem, e.of k → D (p ++ e.bytes) = none) :
    Holds D p 0 (Table.empty k) := by
  cases k with
  | vector => exact ⟨fun i hi => h (.elemAt i) hi, rfl⟩
  | map =>
    refine ⟨?_, rfl⟩
    rw [Cells.of_empty]
    exact ⟨fun k => h (.posOf k) trivial, (fun _ _ h => by cases h), fun i hi => h (.keyAt i) hi, fun i hi => h (.valAt i) hi⟩
  | lookup => exact ⟨fun k => h (.valOf k) trivial, rfl⟩

/-- A table stays where it is when its keys keep their values. -/
theorem Holds.frame {D D' : Disk} {p : Bytes} {len : Nat} {t : Table} (h : Holds D p len t)
    (hf : ∀ e : Elem, e.of t.kind → D' (p ++ e.bytes) = D (p ++ e.bytes)) : Holds D' p len t := by
  cases t with
  | map m =>
    obtain ⟨h, hl⟩ := h
    exact ⟨⟨fun k => (hf (.posOf k) trivial).trans (h.index k), h.small, fun i hi => (hf (.keyAt i) hi).trans (h.keys i hi),
      fun i hi => (hf (.valAt i) hi).trans (h.vals i hi)⟩, hl⟩
  | vec l => exact ⟨fun i hi => (hf (.elemAt i) hi).trans (h.1 i hi), h.2⟩
  | lookup f => exact ⟨fun k => (hf (.valOf k) trivial).trans (h.1 k), h.2⟩

theorem getElem?_set_upd (l : List Bytes) (i : Nat) (x : Bytes) (h : i < l.length) (j : Nat) :
    (l.set i x)[j]? = upd (fun j => l[j]?) i (some x) j := by
  by_cases e : j = i
  · subst e; simp [h]
  · rw [upd_ne _ _ e, List.getElem?_set_ne (Ne.symm e)]

/-- One operation. -/
theorem op_holds {D : Disk} {p : Bytes} {len : Nat} {t : Table} (h : Holds D p len t) (hl : len < 2 ^ 64) {o : Op}
    (ho : o.on t.kind) :
    match o.table t with
    | .ok r => ∃ D' len', o.disk D p len = .ok (D', len', r.2) ∧ Holds D' p len' r.1 ∧ r.1.kind = t.kind ∧
        len' ≤ len + 1 ∧ Frame t.kind p D D'
    | .error e => o.disk D p len = .error e := by
  cases t with
  | map m =>
    obtain ⟨h, rfl⟩ := h
    cases o <;> simp only [Op.on, Table.kind, reduceCtorEq, false_and] at ho
    case get k =>
      refine ⟨D, m.len, ?_, ⟨h, rfl⟩, rfl, Nat.le_succ _, Frame.refl⟩
      simp only [Op.disk, mapGet_like h, Cells.get_of]; rfl
    case insert k v =>
      obtain ⟨D', h1, h2, h3⟩ := mapInsert_like h hl k v (Cells.insert_of m k v)
      refine ⟨D', (m.insert k v).len, ?_, ⟨h2, rfl⟩, rfl, ?_, h3⟩
      · simp only [Op.disk, h1]; rfl
      · have := m.len_insert k v
        split at this <;> omega
    case remove k =>
      obtain ⟨D', h1, h2, h3⟩ := mapRemove_like h (Nat.le_of_lt hl) k (Cells.remove_of m k)
      refine ⟨D', (m.remove k).len, ?_, ⟨h2, rfl⟩, rfl, ?_, h3⟩
      · simp only [Op.disk, h1]; rfl
      · have := m.len_remove k
        split at this <;> omega
    case keyAt i =>
      refine ⟨D, m.len, ?_, ⟨h, rfl⟩, rfl, Nat.le_succ _, Frame.refl⟩
      have : mapKeyAt D p m.len i = .ok m.keys[i]? := (vecGet_row h.keys ho.2).trans (Cells.keyAt_of m i)
      simp only [Op.disk, this]; rfl
    case entries =>
      refine ⟨D, m.len, ?_, ⟨h, rfl⟩, rfl, Nat.le_succ _, Frame.refl⟩
      simp only [Op.disk, mapEntries_like h (Nat.le_of_lt hl), Cells.entries_of]; rfl
  | vec l =>
    obtain ⟨h, rfl⟩ := h
    cases o <;> simp only [Op.on, Table.kind, reduceCtorEq, false_and] at ho
    case vget i =>
      refine ⟨D, l.length, ?_, ⟨h, rfl⟩, rfl, Nat.le_succ _, Frame.refl⟩
      have : vecGet D (ekey p) l.length i = .ok l[i]? := by
        rw [vecGet_row h ho.2]
        unfold Storage.vecGet
        by_cases e : i < l.length
        · rw [if_pos e]; simp only [List.getElem?_eq_getElem e]; rfl
        · rw [if_neg e, List.getElem?_eq_none (by omega)]; rfl
      simp only [Op.disk, this]; rfl
    case push v =>
      obtain ⟨r, o⟩ := h.upd ekey_inj hl (some v)
      refine ⟨_, _, rfl, ⟨?_, ?_⟩, rfl, Nat.le_refl _, frame_ekey o⟩
      · intro i hi
        rw [show vecPush D (ekey p) l.length v = upd D (ekey p l.length) (some v) from rfl, r i hi]
        by_cases e : i = l.length
        · subst e; simp
        · rw [upd_ne _ _ e]
          by_cases e2 : i < l.length
          · exact (List.getElem?_append_left e2).symm
          · exact (List.getElem?_eq_none (by omega)).trans (List.getElem?_eq_none (by simp; omega)).symm
      · simp
    case replace i v =>
      have hs := vecReplace_row ekey_inj h (len := l.length) ho.2 v
      simp only [Op.table]
      by_cases e : i < l.length
      · rw [require, if_pos e]
        have hv : Storage.vecReplace (fun i => l[i]?) l.length i v = .ok (upd (fun i => l[i]?) i (some v)) := by
          unfold Storage.vecReplace
          rw [require, if_pos e]
          simp only [List.getElem?_eq_getElem e]; rfl
        rw [hv] at hs
        obtain ⟨D', h1, h2, h3⟩ := hs
        refine ⟨D', l.length, ?_, ⟨?_, by simp⟩, rfl, Nat.le_succ _, frame_ekey h3⟩
        · simp only [Op.disk, h1]; rfl
        · intro j hj; exact (h2 j hj).trans (getElem?_set_upd l i v e j).symm
      · rw [require, if_neg e]
        simp only [Op.disk, vecReplace, require, if_neg e]; rfl
    case swapRemove i =>
      have hs := vecSwapRemove_row ekey_inj h (len := l.length) ho.2 (Nat.le_of_lt hl)
      simp only [Op.table]
      by_cases e : i < l.length
      · rw [require, if_pos e]
        have hv := Cells.vecSwapRemove_of l (p := id) e
        simp only [Option.map_id, id_eq] at hv
        rw [hv] at hs
        obtain ⟨D', h1, h2, h3⟩ := hs
        refine ⟨D', l.length - 1, ?_, ⟨h2, ?_⟩, rfl, by omega, frame_ekey h3⟩
        · simp only [Op.disk, h1]; rfl
        · have := (swapRemove_perm l i e).length_eq
          simp at this; omega
      · rw [require, if_neg e]
        simp only [Op.disk, vecSwapRemove, require, if_neg e]; rfl
  | lookup f =>
    obtain ⟨h, rfl⟩ := h
    cases o <;> simp only [Op.on, Table.kind, reduceCtorEq, false_and] at ho
    case lget k =>
      refine ⟨D, 0, ?_, ⟨h, rfl⟩, rfl, Nat.le_succ _, Frame.refl⟩
      simp only [Op.disk, h]; rfl
    case linsert k v =>
      refine ⟨_, _, rfl, ⟨?_, rfl⟩, rfl, Nat.le_succ _, fun x hx => upd_ne _ _ (hx (.valOf k) trivial)⟩
      intro k'
      by_cases e : k' = k
      · subst e; simp
      · rw [upd_ne _ _ e, upd_ne _ _ (fun e' => e (lkey_inj e')), h]
    case lremove k =>
      refine ⟨_, _, rfl, ⟨?_, rfl⟩, rfl, Nat.le_succ _, fun x hx => upd_ne _ _ (hx (.valOf k) trivial)⟩
      intro k'
      by_cases e : k' = k
      · subst e; simp
      · rw [upd_ne _ _ e, upd_ne _ _ (fun e' => e (lkey_inj e')), h]

/-! ## Many operations on many collections -/

/-- The elements of the collections `U` have different keys. -/
def Sep {ι : Type} (pre : ι → Bytes) (kind : ι → Kind) (U : ι → Prop) : Prop :=
  ∀ c d, U c → U d → ∀ e e' : Elem, e.of (kind c) → e'.of (kind d) → pre c ++ e.bytes = pre d ++ e'.bytes → c = d

/-- The storage of the collections `U` is the tables. -/
def All {ι : Type} (pre : ι → Bytes) (kind : ι → Kind) (U : ι → Prop) (S : Sys ι) (T : ι → Table) : Prop :=
  ∀ c, U c → Holds S.disk (pre c) (S.len c) (T c) ∧ (T c).kind = kind c

theorem run_holds {ι : Type} [DecidableEq ι] {pre : ι → Bytes} {kind : ι → Kind} {U : ι → Prop} (hs : Sep pre kind U)
    {l : List (ι × Op)} (hl : ∀ x ∈ l, U x.1 ∧ x.2.on (kind x.1)) {S : Sys ι} {T : ι → Table} (h : All pre kind U S T)
    {n : Nat} (hn : ∀ c, S.len c ≤ n) (hb : n + l.length ≤ 2 ^ 64) :
    match runTables T l with
    | .ok q => ∃ S', runDisk pre S l = .ok (S', q.2) ∧ All pre kind U S' q.1 ∧
        (∀ x, (∀ c, U c → ∀ e : Elem, e.of (kind c) → x ≠ pre c ++ e.bytes) → S'.disk x = S.disk x)
    | .error e => runDisk pre S l = .error e := by
  induction l generalizing S T n with
  | nil => exact ⟨S, rfl, h, fun _ _ => rfl⟩
  | cons x t ih =>
    obtain ⟨c, o⟩ := x
    obtain ⟨hU, ho⟩ := hl (c, o) List.mem_cons_self
    obtain ⟨hc, hk⟩ := h c hU
    have hlen : t.length + 1 = ((c, o) :: t).length := rfl
    have hone := op_holds hc (by have := hn c; omega) (o := o) (by rw [hk]; exact ho)
    simp only [runTables, runDisk]
    cases hr : o.table (T c) with
    | error e =>
      rw [hr] at hone
      simp only [hone]
      rfl
    | ok r =>
      rw [hr] at hone
      obtain ⟨D', len', hd, hh, hk', hle, hf⟩ := hone
      rw [hk] at hk' hf
      have hall : All pre kind U ⟨D', upd S.len c len'⟩ (upd T c r.1) := by
        intro d hd
        by_cases e : d = c
        · subst e
          simp only [upd_self]
          exact ⟨hh, hk'⟩
        · simp only [upd_ne _ _ e]
          obtain ⟨h1, h2⟩ := h d hd
          refine ⟨h1.frame fun el he => hf _ fun el' he' heq => ?_, h2⟩
          rw [h2] at he
          exact e (hs d c hd hU el el' he he' heq)
      have hrec := ih (fun x hx => hl x (List.mem_cons_of_mem _ hx)) hall (n := n + 1) (fun d => by
        by_cases e : d = c
        · subst e; simp only [upd_self]; have := hn d; omega
        · simp only [upd_ne _ _ e]; have := hn d; omega) (by omega)
      rw [show (Except.ok r : Res (Table × Ans)) = pure r from rfl, pure_bind, hd,
        show (Except.ok (D', len', r.2) : Res (Disk × Nat × Ans)) = pure (D', len', r.2) from rfl, pure_bind]
      cases hq : runTables (upd T c r.1) t with
      | error e =>
        rw [hq] at hrec
        simp only [hrec]
        rfl
      | ok q =>
        rw [hq] at hrec
        obtain ⟨S', h1, h2, h3⟩ := hrec
        refine ⟨S', ?_, h2, ?_⟩
        · simp only [h1]; rfl
        · intro x hx
          exact (h3 x hx).trans (hf x fun el he => hx c hU el he)

/-- Storage of a table is determined by the table. -/
theorem Holds.same {D D' : Disk} {p : Bytes} {n n' : Nat} {t : Table} (h : Holds D p n t) (h' : Holds D' p n' t) {e : Elem}
    (he : e.of t.kind) : D (p ++ e.bytes) = D' (p ++ e.bytes) := by
  cases t with
  | map m =>
    cases e <;> simp only [Table.kind, Elem.of] at he
    case posOf k => exact (h.1.index k).trans (h'.1.index k).symm
    case keyAt i => exact (h.1.keys i he).trans (h'.1.keys i he).symm
    case valAt i => exact (h.1.vals i he).trans (h'.1.vals i he).symm
  | vec l =>
    cases e <;> simp only [Table.kind, Elem.of] at he
    case elemAt i => exact (h.1 i he).trans (h'.1 i he).symm
  | lookup f =>
    cases e <;> simp only [Table.kind, Elem.of] at he
    case valOf k => exact (h.1 k).trans (h'.1 k).symm

end Verif.Disk
