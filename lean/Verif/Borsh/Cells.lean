import Verif.Base.Rel
import Verif.Borsh.Typed

/-!
# A map that was created over entries of an earlier one, in bytes

`Cells` are the entries under one prefix with keys and values as they are, also when they are not those of a map that was
filled from untouched storage.  Here they are coded.
-/

namespace Verif.Borsh

open Verif Storage Disk

/-- How keys and values are coded: values are translated by `f` first. -/
structure Typ (K V : Type) where
  W : Type
  kc : Codec K
  vc : Codec W
  f : V → W
  KO : K → Prop
  VO : V → Prop
  kok : ∀ k, KO k → kc.ok k
  vok : ∀ v, VO v → vc.ok (f v)

namespace Typ

variable {K V : Type} (T : Typ K V)

/-- Bytes of a value. -/
def ve (v : V) : Bytes := T.vc.enc (T.f v)

theorem ke_inj {a b : K} (ha : T.KO a) (hb : T.KO b) (h : T.kc.enc a = T.kc.enc b) : a = b :=
  T.kc.enc_inj (T.kok a ha) (T.kok b hb) h

theorem read_k {k : K} (h : T.KO k) : T.kc.read (T.kc.enc k) = some k := T.kc.read_enc (T.kok k h)

theorem read_v {v : V} (h : T.VO v) : T.vc.read (T.ve v) = some (T.f v) := T.vc.read_enc (T.vok v h)

end Typ

/-- The entries under prefix `p` are `C`. -/
structure TLike {K V : Type} (T : Typ K V) (D : Disk) (p : Bytes) (C : Cells K V) : Prop where
  index : ∀ k, T.KO k → D (Disk.ikey p (T.kc.enc k)) = (C.index k).map (le 8)
  small : ∀ k, T.KO k → ∀ i, C.index k = some i → i < 2 ^ 64
  keys : Row D (Disk.kkey p) (fun i => (C.keys i).map T.kc.enc)
  vals : Row D (Disk.vkey p) (fun i => (C.vals i).map T.ve)
  kok : ∀ i k, C.keys i = some k → T.KO k
  vok : ∀ i v, C.vals i = some v → T.VO v

section
variable {α β : Type}

theorem vecGet_map (g : Nat → Option α) (e : α → β) (len i : Nat) :
    Storage.vecGet (fun i => (g i).map e) len i = (Storage.vecGet g len i).map (Option.map e) := by
  unfold Storage.vecGet
  split
  · beta_reduce; cases g i <;> rfl
  · rfl

theorem upd_map (g : Nat → Option α) (e : α → β) (i : Nat) (x : Option α) :
    upd (fun i => (g i).map e) i (x.map e) = fun j => (upd g i x j).map e := by
  funext j
  by_cases h : j = i
  · subst h; simp
  · rw [upd_ne _ _ h, upd_ne _ _ h]

theorem vecReplace_map (g : Nat → Option α) (e : α → β) (len i : Nat) (x : α) :
    Storage.vecReplace (fun i => (g i).map e) len i (e x) = (Storage.vecReplace g len i x).map (fun g' i => (g' i).map e) := by
  unfold Storage.vecReplace
  by_cases h : i < len
  · rw [require, if_pos h]
    beta_reduce
    cases hg : g i with
    | none => rfl
    | some y =>
      simp only [Option.map_some, bind, Except.bind, pure, Except.pure, Except.map]
      rw [← upd_map]; rfl
  · rw [require, if_neg h]; rfl

theorem vecSwapRemove_map (g : Nat → Option α) (e : α → β) (len i : Nat) :
    Storage.vecSwapRemove (fun i => (g i).map e) len i = (Storage.vecSwapRemove g len i).map (fun g' i => (g' i).map e) := by
  unfold Storage.vecSwapRemove
  by_cases h : i < len
  · rw [require, if_pos h]
    beta_reduce
    cases hg : g (len - 1) with
    | none => rfl
    | some last =>
      simp only [Option.map_some, bind, Except.bind]
      have h1 := upd_map g e (len - 1) none
      simp only [Option.map_none] at h1
      by_cases h2 : i + 1 = len
      · simp only [if_pos h2, h1]; rfl
      · simp only [if_neg h2, h1]
        cases hg2 : upd g (len - 1) none i with
        | none => rfl
        | some y =>
          simp only [Option.map_some, pure, Except.pure, Except.map]
          have := upd_map (upd g (len - 1) none) e i (some last)
          simp only [Option.map_some] at this
          rw [this]
  · rw [require, if_neg h]; rfl

theorem rel_match {γ : Type} {R : α → γ → Prop} {x : Res α} {y : Res γ}
    (h : match x with | .ok a => ∃ b, y = .ok b ∧ R a b | .error e => y = .error e) : Rel R x y := by
  cases x with
  | error e => subst h; rfl
  | ok a => obtain ⟨b, rfl, h⟩ := h; exact h

theorem vecReplace_rel {D : Disk} {f : Nat → Bytes} {g : Nat → Option α} {e : α → Bytes} (hf : Inj f)
    (h : Row D f (fun i => (g i).map e)) {len i : Nat} (hi : i < 2 ^ 64) (x : α) :
    Rel (fun g' D' => Row D' f (fun i => (g' i).map e) ∧ Only f D D') (Storage.vecReplace g len i x)
      (Disk.vecReplace D f len i (e x)) := by
  have := vecReplace_row hf h (len := len) hi (e x)
  rw [vecReplace_map] at this
  cases hx : Storage.vecReplace g len i x with
  | error er => rw [hx] at this; rw [show Disk.vecReplace D f len i (e x) = _ from this]; rfl
  | ok g' =>
    rw [hx] at this
    obtain ⟨D', h1, h2⟩ := this
    rw [h1]; exact h2

theorem vecSwapRemove_rel {D : Disk} {f : Nat → Bytes} {g : Nat → Option α} {e : α → Bytes} (hf : Inj f)
    (h : Row D f (fun i => (g i).map e)) {len i : Nat} (hi : i < 2 ^ 64) (hl : len ≤ 2 ^ 64) :
    Rel (fun g' D' => Row D' f (fun i => (g' i).map e) ∧ Only f D D') (Storage.vecSwapRemove g len i)
      (Disk.vecSwapRemove D f len i) := by
  have := vecSwapRemove_row hf h (len := len) hi hl
  rw [vecSwapRemove_map] at this
  cases hx : Storage.vecSwapRemove g len i with
  | error er => rw [hx] at this; rw [show Disk.vecSwapRemove D f len i = _ from this]; rfl
  | ok g' =>
    rw [hx] at this
    obtain ⟨D', h1, h2⟩ := this
    rw [h1]; exact h2

end

section
variable {K V : Type} [DecidableEq K] {T : Typ K V} {D D' : Disk} {p : Bytes} {C : Cells K V}

theorem TLike.setIndex (h : TLike T D p C) {k : K} (hk : T.KO k) {v : Option Nat} (hv : ∀ i, v = some i → i < 2 ^ 64) :
    TLike T (upd D (Disk.ikey p (T.kc.enc k)) (v.map (le 8))) p { C with index := upd C.index k v } where
  index k' hk' := by
    by_cases e : k' = k
    · subst e; simp
    · rw [upd_ne _ _ (fun e' => e (T.ke_inj hk' hk (ikey_inj e'))), h.index k' hk']
      show _ = (upd C.index k v k').map (le 8)
      rw [upd_ne _ _ e]
  small k' hk' i hi := by
    change upd C.index k v k' = some i at hi
    by_cases e : k' = k
    · subst e; rw [upd_self] at hi; exact hv i hi
    · rw [upd_ne _ _ e] at hi; exact h.small k' hk' i hi
  keys i hi := by rw [upd_ne _ _ ikey_ne_kkey.symm]; exact h.keys i hi
  vals i hi := by rw [upd_ne _ _ ikey_ne_vkey.symm]; exact h.vals i hi
  kok := h.kok
  vok := h.vok

omit [DecidableEq K] in
theorem TLike.setKeys (h : TLike T D p C) {g : Nat → Option K} (hr : Row D' (Disk.kkey p) (fun i => (g i).map T.kc.enc))
    (ho : Only (Disk.kkey p) D D') (hk : ∀ i k, g i = some k → T.KO k) : TLike T D' p { C with keys := g } where
  index k hk := (ho _ fun _ _ => ikey_ne_kkey).trans (h.index k hk)
  small := h.small
  keys := hr
  vals i hi := (ho _ fun _ _ => kkey_ne_vkey.symm).trans (h.vals i hi)
  kok := hk
  vok := h.vok

omit [DecidableEq K] in
theorem TLike.setVals (h : TLike T D p C) {g : Nat → Option V} (hr : Row D' (Disk.vkey p) (fun i => (g i).map T.ve))
    (ho : Only (Disk.vkey p) D D') (hv : ∀ i v, g i = some v → T.VO v) : TLike T D' p { C with vals := g } where
  index k hk := (ho _ fun _ _ => ikey_ne_vkey).trans (h.index k hk)
  small := h.small
  keys i hi := (ho _ fun _ _ => kkey_ne_vkey).trans (h.keys i hi)
  vals := hr
  kok := h.kok
  vok := hv

omit [DecidableEq K] in
theorem TLike.frame (h : TLike T D p C) (hf : ∀ e : Elem, e.of .map → D' (p ++ e.bytes) = D (p ++ e.bytes)) : TLike T D' p C where
  index k hk := (hf (.posOf _) trivial).trans (h.index k hk)
  small := h.small
  keys i hi := (hf (.keyAt i) hi).trans (h.keys i hi)
  vals i hi := (hf (.valAt i) hi).trans (h.vals i hi)
  kok := h.kok
  vok := h.vok

omit [DecidableEq K] in
theorem TLike.empty (hb : ∀ e : Elem, e.of .map → D (p ++ e.bytes) = none) : TLike T D p (Cells.empty : Cells K V) where
  index k _ := hb (.posOf _) trivial
  small _ _ _ h := by cases h
  keys i hi := hb (.keyAt i) hi
  vals i hi := hb (.valAt i) hi
  kok _ _ h := by cases h
  vok _ _ h := by cases h

omit [DecidableEq K] in
theorem TLike.get (h : TLike T D p C) (len : Nat) {k : K} (hk : T.KO k) :
    MapH.get T.kc T.vc D (.at p len) k = (C.get len k).map (Option.map T.f) := by
  unfold MapH.get Cells.get
  rw [getRaw_at, mapGet, h.index k hk]
  cases e : C.index k with
  | none => rfl
  | some i =>
    have hi := h.small k hk i e
    simp only [Option.map_some, readIndex_le hi, bind, Except.bind, vecGet_row h.vals hi, vecGet_map]
    cases hg : Storage.vecGet C.vals len i with
    | error er => rfl
    | ok o =>
      cases o with
      | none => rfl
      | some v =>
        have hv : T.VO v := by
          unfold Storage.vecGet at hg
          split at hg
          · cases hvi : C.vals i with
            | none => rw [hvi] at hg; cases hg
            | some w =>
              rw [hvi] at hg
              cases hg
              exact h.vok i v hvi
          · cases hg
        simp only [Except.map, Option.map_some, pure, Except.pure, T.read_v hv, expect]

theorem TLike.insert (h : TLike T D p C) {len : Nat} (hl : len < 2 ^ 64) {k : K} {v : V} (hk : T.KO k) (hv : T.VO v) :
    Rel (fun r b => b.2 = MapH.at p r.2 ∧ TLike T b.1 p r.1 ∧ Frame .map p D b.1) (C.insert len k v)
      (MapH.insert T.kc T.vc D (.at p len) k (T.f v)) := by
  unfold MapH.insert Cells.insert
  rw [insertRaw_at, mapInsert, h.index k hk]
  cases e : C.index k with
  | some i =>
    have hi := h.small k hk i e
    have hr := vecReplace_rel vkey_inj h.vals (len := len) hi v
    simp only [Option.map_some, readIndex_le hi, bind, Except.bind]
    rw [show T.vc.enc (T.f v) = T.ve v from rfl]
    cases hg : Storage.vecReplace C.vals len i v with
    | error er =>
      rw [hg] at hr
      cases hd : Disk.vecReplace D (Disk.vkey p) len i (T.ve v) with
      | error e' => rw [hd] at hr; exact hr
      | ok _ => rw [hd] at hr; exact hr.elim
    | ok g =>
      rw [hg] at hr
      cases hd : Disk.vecReplace D (Disk.vkey p) len i (T.ve v) with
      | error e' => rw [hd] at hr; exact hr.elim
      | ok D1 =>
        rw [hd] at hr
        refine ⟨rfl, h.setVals hr.1 hr.2 ?_, frame_vkey hr.2⟩
        intro j w hw
        unfold Storage.vecReplace at hg
        simp only [bind_ok_iff, require_ok_iff] at hg
        obtain ⟨-, -, hg⟩ := hg
        split at hg
        · cases hg
          by_cases ej : j = i
          · subst ej; rw [upd_self] at hw; cases hw; exact hv
          · rw [upd_ne _ _ ej] at hw; exact h.vok j w hw
        · cases hg
  | none =>
    have h1 := h.setIndex hk (v := some len) (fun i hi => by cases hi; exact hl)
    obtain ⟨r2, o2⟩ := h1.keys.upd kkey_inj hl (some (T.kc.enc k))
    have e2 := upd_map C.keys T.kc.enc len (some k)
    rw [Option.map_some] at e2
    simp only [e2] at r2
    have h2 := h1.setKeys r2 o2 (fun j w hw => by
      by_cases ej : j = len
      · subst ej; rw [upd_self] at hw; cases hw; exact hk
      · rw [upd_ne _ _ ej] at hw; exact h.kok j w hw)
    obtain ⟨r3, o3⟩ := h2.vals.upd vkey_inj hl (some (T.ve v))
    have e3 := upd_map C.vals T.ve len (some v)
    rw [Option.map_some] at e3
    simp only [e3] at r3
    exact ⟨rfl, h2.setVals r3 o3 (fun j w hw => by
      by_cases ej : j = len
      · subst ej; rw [upd_self] at hw; cases hw; exact hv
      · rw [upd_ne _ _ ej] at hw; exact h.vok j w hw), frame_ikey.trans ((frame_kkey o2).trans (frame_vkey o3))⟩

/-- What a removal leaves was there. -/
theorem swap_from {α : Type} {g g' : Nat → Option α} {len i : Nat} (h : Storage.vecSwapRemove g len i = .ok g') :
    (∀ j x, g' j = some x → ∃ l, g l = some x) ∧ ∃ x, g i = some x := by
  unfold Storage.vecSwapRemove at h
  simp only [bind_ok_iff, require_ok_iff] at h
  obtain ⟨-, hlt, h⟩ := h
  cases hl : g (len - 1) with
  | none => rw [hl] at h; cases h
  | some last =>
    simp only [hl] at h
    have hd : ∀ j x, upd g (len - 1) none j = some x → g j = some x := fun j x hx => by
      by_cases e : j = len - 1
      · subst e; rw [upd_self] at hx; cases hx
      · rw [upd_ne _ _ e] at hx; exact hx
    by_cases e : i + 1 = len
    · rw [if_pos e] at h
      cases h
      exact ⟨fun j x hx => ⟨j, hd j x hx⟩, last, by rw [← hl]; congr; omega⟩
    · rw [if_neg e] at h
      cases hg : upd g (len - 1) none i with
      | none => rw [hg] at h; cases h
      | some y =>
        rw [hg] at h
        cases h
        refine ⟨fun j x hx => ?_, y, hd i y hg⟩
        by_cases ej : j = i
        · subst ej; rw [upd_self] at hx; cases hx; exact ⟨_, hl⟩
        · rw [upd_ne _ _ ej] at hx; exact ⟨j, hd j x hx⟩

theorem TLike.remove (h : TLike T D p C) {len : Nat} (hl : len ≤ 2 ^ 64) {k : K} (hk : T.KO k) :
    Rel (fun r b => b.2.1 = MapH.at p r.2 ∧ TLike T b.1 p r.1 ∧ Frame .map p D b.1) (C.remove len k)
      (MapH.remove T.kc T.vc D (.at p len) k) := by
  unfold MapH.remove Cells.remove MapH.removeRaw
  rw [at_ikey, at_kkey, at_vkey, h.index k hk]
  cases e : C.index k with
  | none => exact ⟨rfl, h, Frame.refl⟩
  | some i =>
    have hi := h.small k hk i e
    simp only [Option.map_some, bind_assoc]
    refine Rel.bind (R := fun ix D1 => TLike T D1 p { C with index := ix } ∧ Frame .map p D D1) ?_ ?_
    · change Rel _ (if len = 1 then _ else _) (if len = 1 then _ else _)
      by_cases e1 : len = 1
      · rw [if_pos e1, if_pos e1]
        exact ⟨h.setIndex hk (v := none) (fun _ h => by cases h), frame_ikey⟩
      · rw [if_neg e1, if_neg e1]
        refine Rel.step (subU len 1) fun n hn => ?_
        rw [subU_ok_iff] at hn
        change Rel _ _ (Disk.vecGet D (Disk.kkey p) len n >>= _)
        rw [vecGet_row h.keys (by omega), vecGet_map]
        refine Rel.map _ _ fun q hq => ?_
        cases q with
        | none => exact rfl
        | some last =>
          have hlast : T.KO last := by
            unfold Storage.vecGet at hq
            split at hq
            · cases hvi : C.keys n with
              | none => rw [hvi] at hq; cases hq
              | some w => rw [hvi] at hq; cases hq; exact h.kok n last hvi
            · cases hq
          have h1 := h.setIndex hk (v := none) (fun _ h => by cases h)
          refine Rel.pure ?_
          simp only [at_ikey]
          by_cases e2 : last = k
          · rw [if_pos e2, if_pos (by rw [e2])]; exact ⟨h1, frame_ikey⟩
          · rw [if_neg e2, if_neg fun e' => e2 (T.ke_inj hlast hk e')]
            exact ⟨h1.setIndex hlast (v := some i) (fun _ h => by cases h; exact hi), frame_ikey.trans frame_ikey⟩
    · rintro ix D1 - ⟨h1, f1⟩
      refine Rel.ok (readIndex_le hi) ?_
      refine Rel.bind (vecSwapRemove_rel kkey_inj h1.keys hi hl) ?_
      rintro gk D2 hgk ⟨r2, o2⟩
      have h2 := h1.setKeys r2 o2 (fun j x hx => by
        obtain ⟨l, hl⟩ := (swap_from hgk).1 j x hx
        exact h.kok l x hl)
      refine Rel.bind (vecSwapRemove_rel vkey_inj h2.vals hi hl) ?_
      rintro gv D3 hgv ⟨r3, o3⟩
      have h3 := h2.setVals r3 o3 (fun j x hx => by
        obtain ⟨l, hl⟩ := (swap_from hgv).1 j x hx
        exact h.vok l x hl)
      obtain ⟨x, hx⟩ := (swap_from hgv).2
      have hd : D2 (Disk.vkey p i) = some (T.ve x) := by
        rw [h2.vals i hi]
        change (C.vals i).map T.ve = _
        rw [show C.vals i = some x from hx]; rfl
      simp only [pure_bind, hd]
      refine Rel.ok (c := T.f x) (by rw [T.read_v (h.vok i x hx)]; rfl) ?_
      exact ⟨rfl, h3, f1.trans ((frame_kkey o2).trans (frame_vkey o3))⟩

omit [DecidableEq K] in
theorem TLike.keyAt (h : TLike T D p C) (len : Nat) {i : Nat} (hi : i < 2 ^ 64) :
    MapH.keyAt T.kc D (.at p len) i = C.keyAt len i := by
  unfold MapH.keyAt Cells.keyAt
  rw [at_kkey]
  change (Disk.vecGet D (Disk.kkey p) len i >>= _) = _
  rw [vecGet_row h.keys hi, vecGet_map]
  cases hg : Storage.vecGet C.keys len i with
  | error e => rfl
  | ok o =>
    cases o with
    | none => rfl
    | some k =>
      have hk : T.KO k := by
        unfold Storage.vecGet at hg
        split at hg
        · cases hvi : C.keys i with
          | none => rw [hvi] at hg; cases hg
          | some w => rw [hvi] at hg; cases hg; exact h.kok i k hvi
        · cases hg
      simp only [Except.map, Option.map_some, bind, Except.bind, T.read_k hk, expect]
      rfl

theorem mapM_mapped {α β γ : Type} {f : α → Res β} {g : α → Res γ} {t : β → γ} {l : List α} (h : ∀ x ∈ l, g x = (f x).map t) :
    l.mapM g = (l.mapM f).map (List.map t) := by
  induction l with
  | nil => rfl
  | cons x xs ih =>
    rw [List.mapM_cons, List.mapM_cons, ih (fun y hy => h y (List.mem_cons_of_mem _ hy)), h x List.mem_cons_self]
    cases f x with
    | error e => rfl
    | ok a => cases xs.mapM f <;> rfl

omit [DecidableEq K] in
theorem TLike.values (h : TLike T D p C) {len : Nat} (hl : len ≤ 2 ^ 64) :
    MapH.valueList T.vc D (.at p len) = (C.values len).map (List.map T.f) := by
  unfold MapH.valueList Cells.values
  rw [at_vkey]
  refine mapM_mapped fun i hi => ?_
  rw [h.vals i (Nat.lt_of_lt_of_le (List.mem_range.1 hi) hl)]
  beta_reduce
  cases hv : C.vals i with
  | none => rfl
  | some v => simp only [Option.map_some, T.read_v (h.vok i v hv)]; rfl

omit [DecidableEq K] in
theorem TLike.entries (h : TLike T D p C) {len : Nat} (hl : len ≤ 2 ^ 64) :
    MapH.entryList T.kc T.vc D (.at p len) = (C.entries len).map (List.map (fun e => (e.1, T.f e.2))) := by
  unfold MapH.entryList Cells.entries
  rw [at_vkey, at_kkey]
  refine mapM_mapped fun i hi => ?_
  have hi' : i < 2 ^ 64 := Nat.lt_of_lt_of_le (List.mem_range.1 hi) hl
  rw [h.vals i hi', h.keys i hi']
  beta_reduce
  cases hk : C.keys i with
  | none => cases C.vals i <;> rfl
  | some k =>
    cases hv : C.vals i with
    | none => rfl
    | some v => simp only [Option.map_some, T.read_v (h.vok i v hv), T.read_k (h.kok i k hk)]; rfl

end

end Verif.Borsh
