import Verif.Borsh.Cells

/-!
# A coded vector, and a coded `LookupMap`, in storage
-/

namespace Verif.Borsh

open Verif Storage Disk

section
variable {V : Type} {c : Codec V} {D D' : Disk} {p : Bytes} {l : List V}

/-- The elements at prefix `p` are `l`. -/
structure IsVec (c : Codec V) (D : Disk) (p : Bytes) (l : List V) : Prop where
  row : Row D (ekey p) (fun i => l[i]?.map c.enc)
  ok : ∀ x ∈ l, c.ok x

theorem IsVec.frame (h : IsVec c D p l) (hf : ∀ e : Elem, e.of .vector → D' (p ++ e.bytes) = D (p ++ e.bytes)) : IsVec c D' p l :=
  ⟨fun i hi => (hf (.elemAt i) hi).trans (h.row i hi), h.ok⟩

theorem IsVec.empty (hb : ∀ e : Elem, e.of .vector → D (p ++ e.bytes) = none) : IsVec c D p ([] : List V) :=
  ⟨fun i hi => hb (.elemAt i) hi, fun _ h => by cases h⟩

theorem IsVec.get (h : IsVec c D p l) {i : Nat} (hi : i < 2 ^ 64) : VecH.get c D ⟨l.length, p⟩ i = .ok l[i]? := by
  unfold VecH.get
  change (Disk.vecGet D (ekey p) l.length i >>= _) = _
  rw [vecGet_row h.row hi, vecGet_map]
  unfold Storage.vecGet
  by_cases e : i < l.length
  · rw [if_pos e]
    have hl : l[i]? = some l[i] := List.getElem?_eq_getElem e
    rw [hl]
    simp only [pure, Except.pure, Except.map, bind, Except.bind, Option.map_some,
      c.read_enc (h.ok _ (List.getElem_mem e)), expect]
  · rw [if_neg e, List.getElem?_eq_none (by omega)]; rfl

theorem IsVec.item (h : IsVec c D p l) {i : Nat} (hi : i < 2 ^ 64) (e : i < l.length) :
    VecH.item c D ⟨l.length, p⟩ i = .ok l[i] := by
  unfold VecH.item
  rw [show D (VecH.key ⟨l.length, p⟩ i) = _ from h.row i hi]
  beta_reduce
  rw [List.getElem?_eq_getElem e]
  simp only [Option.map_some, c.read_enc (h.ok _ (List.getElem_mem e)), expect]

theorem getElem?_upd (l : List V) (i : Nat) (x : V) (h : i < l.length) :
    (fun j => (l.set i x)[j]?) = upd (fun j => l[j]?) i (some x) := by
  funext j
  by_cases e : j = i
  · subst e; simp [h]
  · rw [upd_ne _ _ e, List.getElem?_set_ne (Ne.symm e)]

theorem IsVec.push (h : IsVec c D p l) (hl : l.length < 2 ^ 64) {x : V} (hx : c.ok x) :
    ∃ D', VecH.push c D ⟨l.length, p⟩ x = (D', ⟨(l ++ [x]).length, p⟩) ∧ IsVec c D' p (l ++ [x]) ∧ Frame .vector p D D' := by
  obtain ⟨r, o⟩ := h.row.upd ekey_inj hl (some (c.enc x))
  refine ⟨_, by rw [List.length_append]; rfl, ⟨?_, ?_⟩, frame_ekey o⟩
  · intro i hi
    refine (r i hi).trans ?_
    by_cases e : i = l.length
    · subst e; simp
    · rw [upd_ne _ _ e]
      beta_reduce
      by_cases e2 : i < l.length
      · rw [List.getElem?_append_left e2]
      · rw [List.getElem?_eq_none (by omega), List.getElem?_eq_none (by simp; omega)]
  · intro y hy
    rcases List.mem_append.1 hy with hy | hy
    · exact h.ok y hy
    · rw [List.mem_singleton] at hy; subst hy; exact hx

theorem IsVec.replace (h : IsVec c D p l) {i : Nat} (hi : i < 2 ^ 64) (e : i < l.length) {x : V} (hx : c.ok x) :
    ∃ D', VecH.replace c D ⟨l.length, p⟩ i x = .ok D' ∧ IsVec c D' p (l.set i x) ∧ Frame .vector p D D' := by
  have hr := vecReplace_rel ekey_inj h.row (len := l.length) hi x
  have hv : Storage.vecReplace (fun i => l[i]?) l.length i x = .ok (upd (fun i => l[i]?) i (some x)) := by
    unfold Storage.vecReplace
    rw [require, if_pos e]
    simp only [List.getElem?_eq_getElem e]; rfl
  rw [hv, ← getElem?_upd l i x e] at hr
  unfold VecH.replace
  rw [show D (VecH.key ⟨l.length, p⟩ i) = _ from h.row i hi]
  beta_reduce
  rw [List.getElem?_eq_getElem e]
  simp only [Option.map_some, c.read_enc (h.ok _ (List.getElem_mem e)), expect]
  change ∃ D', (Disk.vecReplace D (ekey p) l.length i (c.enc x) >>= _) = _ ∧ _
  cases hd : Disk.vecReplace D (ekey p) l.length i (c.enc x) with
  | error er => rw [hd] at hr; exact hr.elim
  | ok D1 =>
    rw [hd] at hr
    refine ⟨D1, rfl, ⟨hr.1, ?_⟩, frame_ekey hr.2⟩
    intro y hy
    rcases List.mem_or_eq_of_mem_set hy with hy | rfl
    · exact h.ok y hy
    · exact hx

theorem IsVec.swapRemove (h : IsVec c D p l) {i : Nat} (hi : i < 2 ^ 64) (e : i < l.length) (hl : l.length ≤ 2 ^ 64) :
    ∃ D', VecH.swapRemove c D ⟨l.length, p⟩ i = .ok (D', ⟨(Verif.swapRemove l i).length, p⟩) ∧
      IsVec c D' p (Verif.swapRemove l i) ∧ Frame .vector p D D' := by
  have hr := vecSwapRemove_rel ekey_inj h.row (len := l.length) hi hl
  have hv := Cells.vecSwapRemove_of l (p := id) e
  simp only [Option.map_id, id_eq] at hv
  rw [hv] at hr
  have hlen : (Verif.swapRemove l i).length = l.length - 1 := by
    have := (swapRemove_perm l i e).length_eq
    simp at this; omega
  unfold VecH.swapRemove
  rw [show D (VecH.key ⟨l.length, p⟩ i) = _ from h.row i hi]
  beta_reduce
  rw [List.getElem?_eq_getElem e]
  simp only [Option.map_some, c.read_enc (h.ok _ (List.getElem_mem e)), expect]
  change ∃ D', (Disk.vecSwapRemove D (ekey p) l.length i >>= _) = _ ∧ _
  cases hd : Disk.vecSwapRemove D (ekey p) l.length i with
  | error er => rw [hd] at hr; exact hr.elim
  | ok D1 =>
    rw [hd] at hr
    refine ⟨D1, by rw [hlen]; rfl, ⟨hr.1, ?_⟩, frame_ekey hr.2⟩
    intro y hy
    exact h.ok y ((swapRemove_perm l i e).mem_iff.2 (List.mem_cons_of_mem _ hy))

theorem clear_row (f : Nat → Bytes) (hf : Inj f) (n : Nat) (hn : n ≤ 2 ^ 64) (D : Disk) :
    (∀ i, i < 2 ^ 64 → (List.range n).foldl (fun D i => upd D (f i) none) D (f i) = if i < n then none else D (f i)) ∧
    Only f D ((List.range n).foldl (fun D i => upd D (f i) none) D) := by
  induction n with
  | zero => exact ⟨fun i _ => by simp, fun _ _ => rfl⟩
  | succ n ih =>
    obtain ⟨h1, h2⟩ := ih (by omega)
    rw [List.range_succ, List.foldl_append]
    simp only [List.foldl_cons, List.foldl_nil]
    constructor
    · intro i hi
      by_cases e : i = n
      · subst e; rw [upd_self, if_pos (by omega)]
      · rw [upd_ne _ _ fun e' => e (hf i n hi (by omega) e'), h1 i hi]
        by_cases e2 : i < n
        · rw [if_pos e2, if_pos (by omega)]
        · rw [if_neg e2, if_neg (by omega)]
    · intro x hx
      rw [upd_ne _ _ (hx n (by omega)), h2 x hx]

theorem IsVec.clear (h : IsVec c D p l) (hl : l.length ≤ 2 ^ 64) :
    ∃ D', VecH.clear D ⟨l.length, p⟩ = (D', ⟨([] : List V).length, p⟩) ∧ IsVec c D' p ([] : List V) ∧ Frame .vector p D D' := by
  obtain ⟨h1, h2⟩ := clear_row (ekey p) ekey_inj l.length hl D
  refine ⟨_, rfl, ⟨fun i hi => ?_, fun _ h => by cases h⟩, frame_ekey h2⟩
  refine (h1 i hi).trans ?_
  by_cases e : i < l.length
  · rw [if_pos e]; rfl
  · rw [if_neg e, h.row i hi]
    beta_reduce
    rw [List.getElem?_eq_none (by omega)]; rfl

end

section
variable {K V : Type} [DecidableEq K] {kc : Codec K} {vc : Codec V} {D D' : Disk} {p : Bytes} {m : UMap K V}

/-- The entries at prefix `p` of a `LookupMap` are `m`. -/
structure IsLook (kc : Codec K) (vc : Codec V) (D : Disk) (p : Bytes) (m : UMap K V) : Prop where
  entry : ∀ k, kc.ok k → D (lkey p (kc.enc k)) = (m.get k).map vc.enc
  ok : ∀ k v, m.get k = some v → vc.ok v

theorem IsLook.frame (h : IsLook kc vc D p m) (hf : ∀ e : Elem, e.of .lookup → D' (p ++ e.bytes) = D (p ++ e.bytes)) :
    IsLook kc vc D' p m := ⟨fun k hk => (hf (.valOf _) trivial).trans (h.entry k hk), h.ok⟩

theorem IsLook.empty (hb : ∀ e : Elem, e.of .lookup → D (p ++ e.bytes) = none) : IsLook kc vc D p (UMap.empty : UMap K V) :=
  ⟨fun _ _ => hb (.valOf _) trivial, fun _ _ h => by cases h⟩

theorem IsLook.get (h : IsLook kc vc D p m) {k : K} (hk : kc.ok k) : LookupH.get kc vc D ⟨p⟩ k = .ok (m.get k) := by
  unfold LookupH.get
  change (match D (lkey p (kc.enc k)) with | none => _ | some b => _) = _
  rw [h.entry k hk]
  cases hm : m.get k with
  | none => rfl
  | some v => simp only [Option.map_some, vc.read_enc (h.ok k v hm)]; rfl

theorem frame_lkey {k : Bytes} {v : Option Bytes} : Frame .lookup p D (upd D (lkey p k) v) :=
  fun _ hx => upd_ne _ _ (hx (.valOf k) trivial)

theorem IsLook.insert (h : IsLook kc vc D p m) {k : K} {v : V} (hk : kc.ok k) (hv : vc.ok v) :
    IsLook kc vc (LookupH.insert kc vc D ⟨p⟩ k v) p (m.insert k v) ∧ Frame .lookup p D (LookupH.insert kc vc D ⟨p⟩ k v) := by
  refine ⟨⟨fun a ha => ?_, fun a w ha => ?_⟩, frame_lkey⟩
  · unfold LookupH.insert
    change upd D (lkey p (kc.enc k)) (some (vc.enc v)) (lkey p (kc.enc a)) = _
    rw [UMap.get_insert]
    by_cases e : k = a
    · subst e; rw [upd_self, if_pos rfl]; rfl
    · rw [if_neg e, upd_ne _ _ fun e' => e (kc.enc_inj hk ha (lkey_inj e').symm), h.entry a ha]
  · rw [UMap.get_insert] at ha
    split at ha
    · cases ha; exact hv
    · exact h.ok a w ha

theorem IsLook.remove (h : IsLook kc vc D p m) {k : K} (hk : kc.ok k) :
    IsLook kc vc (LookupH.remove kc D ⟨p⟩ k) p (m.remove k) ∧ Frame .lookup p D (LookupH.remove kc D ⟨p⟩ k) := by
  refine ⟨⟨fun a ha => ?_, fun a w ha => ?_⟩, frame_lkey⟩
  · unfold LookupH.remove
    change upd D (lkey p (kc.enc k)) none (lkey p (kc.enc a)) = _
    rw [UMap.get_remove]
    by_cases e : k = a
    · subst e; rw [upd_self, if_pos rfl]; rfl
    · rw [if_neg e, upd_ne _ _ fun e' => e (kc.enc_inj hk ha (lkey_inj e').symm), h.entry a ha]
  · rw [UMap.get_remove] at ha
    split at ha
    · cases ha
    · exact h.ok a w ha

end

end Verif.Borsh
