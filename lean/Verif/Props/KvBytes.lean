import Verif.Kv.Bytes
import Verif.Borsh.Typed
import Verif.Props.Borsh
import Verif.Props.Kv

/-!
# C89: the key-value store on bytes is the key-value store
-/

namespace Verif.Kv.Bytes

open Verif Storage Disk Borsh

/-- Strings of wasm32 in the arguments. -/
def Fits : Call → Prop
  | .set_operator_id a | .set_owner_id a | .remove_value a => StrFits a
  | .set_value k v => StrFits k ∧ StrFits v
  | .set_values l => ∀ p ∈ l, StrFits p.1 ∧ StrFits p.2

/-- Entries that a call may add. -/
def size : Call → Nat
  | .set_value .. => 1
  | .set_values l => l.length
  | _ => 0

/-- The storage is that of the state. -/
structure Rep (D : Disk) (s : State) : Prop where
  owner : StrFits s.owner_id
  operator : StrFits s.operator_id
  small : s.associated_user_data.len < 2 ^ 64
  data : ∃ h, D STATE = some (kvRec.enc ⟨s.owner_id, s.operator_id, h⟩) ∧
    IsMap string string D [0] h s.associated_user_data

theorem state_ne (e : Elem) : ([0] : Bytes) ++ e.bytes ≠ STATE := by simp [STATE]

theorem save_map {D : Disk} {r : KvRec} {h : MapH} {m : UMap String String} (hm : IsMap string string D [0] h m) :
    IsMap string string (save D r) [0] h m := hm.frame fun e _ => upd_ne _ _ (state_ne e)

theorem at_fits {n : Nat} (h : n < 2 ^ 64) : (MapH.at [0] n).Fits := mapAt_fits (by decide) h

theorem load_rep {D : Disk} {s : State} (h : Rep D s) : ∃ m, load D = .ok ⟨s.owner_id, s.operator_id, m⟩ ∧
    IsMap string string D [0] m s.associated_user_data := by
  obtain ⟨m, h1, h2⟩ := h.data
  refine ⟨m, ?_, h2⟩
  have : m.Fits := by rw [h2.1]; exact at_fits h.small
  unfold load
  rw [h1]
  show expect (kvRec.read _) _ = _
  rw [C88_kv.2 ⟨⟨h.owner, h.operator, this⟩, rfl⟩]
  rfl

theorem save_rep {D : Disk} {s : State} {m : MapH} (ho : StrFits s.owner_id) (hp : StrFits s.operator_id)
    (hn : s.associated_user_data.len < 2 ^ 64) (hm : IsMap string string D [0] m s.associated_user_data) :
    Rep (save D ⟨s.owner_id, s.operator_id, m⟩) s :=
  ⟨ho, hp, hn, m, upd_self _ _ _, save_map hm⟩

/-- Nothing outside the state and the map changed. -/
def Rest (D D' : Disk) : Prop := ∀ x, x ≠ STATE → (∀ e : Elem, e.of .map → x ≠ [0] ++ e.bytes) → D' x = D x

theorem save_rest {D D' : Disk} {r : KvRec} (h : Frame .map [0] D D') : Rest D (save D' r) := fun x hx he => by
  rw [save, upd_ne _ _ hx]; exact h x he

theorem foldl_insert {l : List (String × String)} {D : Disk} {h : MapH} {m : UMap String String}
    (hm : IsMap string string D [0] h m) (hn : m.len + l.length < 2 ^ 64) (hl : ∀ p ∈ l, StrFits p.1 ∧ StrFits p.2) :
    ∃ r : Disk × MapH, l.foldlM (fun (x : Disk × MapH) kv => MapH.insert string string x.1 x.2 kv.1 kv.2) (D, h) = .ok r ∧
      IsMap string string r.1 [0] r.2 (l.foldl (fun m kv => m.insert kv.1 kv.2) m) ∧
      (l.foldl (fun m kv => m.insert kv.1 kv.2) m).len < 2 ^ 64 ∧ Frame .map [0] D r.1 := by
  induction l generalizing D h m with
  | nil => exact ⟨_, rfl, hm, by simpa using hn, Frame.refl⟩
  | cons p t ih =>
    obtain ⟨h1, h2⟩ := hl p List.mem_cons_self
    rw [List.length_cons] at hn
    obtain ⟨D', h', e, hm', hf⟩ := hm.insert (by omega) (str_ok.2 h1) (str_ok.2 h2)
    have := m.len_insert p.1 p.2
    obtain ⟨r, r1, r2, r3, r4⟩ := ih hm' (by split at this <;> omega) fun q hq => hl q (List.mem_cons_of_mem _ hq)
    refine ⟨r, ?_, r2, r3, hf.trans r4⟩
    rw [List.foldlM_cons, e]
    exact r1

/-- **C89**: a call on the storage of a state has the answer of the model, panic messages included, leaves the storage of
the resulting state, and changes nothing else. -/
theorem C89_call {D : Disk} {s : State} (h : Rep D s) (c : Ctx) {k : Call} (hk : Fits k)
    (hn : s.associated_user_data.len + size k < 2 ^ 64) :
    match Kv.exec s c k with
    | .ok r => ∃ D', exec D c k = .ok (D', r.2) ∧ Rep D' r.1 ∧ Rest D D'
    | .error e => exec D c k = .error e := by
  obtain ⟨m, hl, hm⟩ := load_rep h
  unfold exec Kv.exec
  by_cases hd : k.payable = true ∨ c.deposit = 0
  · rw [require, if_pos hd, hl]
    cases k with
    | set_operator_id a =>
      simp only [Bind.bind, Except.bind, set_operator_id, State.set_operator_id, State.assert_one_yocto, assert_only_owner,
        State.assert_only_owner, require]
      by_cases h1 : c.deposit = 1
      · by_cases h2 : s.owner_id = c.predecessor
        · simp only [if_pos h1, if_pos h2]
          exact ⟨_, rfl, save_rep (s := { s with operator_id := a }) h.owner hk h.small hm, save_rest Frame.refl⟩
        · simp only [if_pos h1, if_neg h2]
      · simp only [if_neg h1]
    | set_owner_id a =>
      simp only [Bind.bind, Except.bind, set_owner_id, State.set_owner_id, State.assert_one_yocto, assert_only_owner,
        State.assert_only_owner, require]
      by_cases h1 : c.deposit = 1
      · by_cases h2 : s.owner_id = c.predecessor
        · simp only [if_pos h1, if_pos h2]
          exact ⟨_, rfl, save_rep (s := { s with owner_id := a }) hk h.operator h.small hm, save_rest Frame.refl⟩
        · simp only [if_pos h1, if_neg h2]
      · simp only [if_neg h1]
    | set_value key v =>
      simp only [Bind.bind, Except.bind, set_value, State.set_value, assert_operator, State.assert_operator, require]
      by_cases h2 : s.operator_id = c.predecessor
      · obtain ⟨D', h', e, hm', hf⟩ := hm.insert h.small (str_ok.2 hk.1) (str_ok.2 hk.2)
        have := s.associated_user_data.len_insert key v
        simp only [if_pos h2, e]
        refine ⟨_, rfl, save_rep (s := ⟨s.owner_id, s.operator_id, s.associated_user_data.insert key v⟩) h.owner h.operator ?_ hm',
          save_rest hf⟩
        simp only [size] at hn
        show (s.associated_user_data.insert key v).len < _
        split at this <;> omega
      · simp only [if_neg h2]
    | set_values l =>
      simp only [Bind.bind, Except.bind, set_values, State.set_values, assert_operator, State.assert_operator, require]
      by_cases h2 : s.operator_id = c.predecessor
      · obtain ⟨r, r1, r2, r3, r4⟩ := foldl_insert hm hn hk
        simp only [if_pos h2, r1]
        exact ⟨_, rfl, save_rep (s := ⟨s.owner_id, s.operator_id, l.foldl (fun m kv => m.insert kv.1 kv.2) s.associated_user_data⟩) h.owner
          h.operator r3 r2, save_rest r4⟩
      · simp only [if_neg h2]
    | remove_value key =>
      simp only [Bind.bind, Except.bind, remove_value, State.remove_value, assert_operator, State.assert_operator, require]
      by_cases h2 : s.operator_id = c.predecessor
      · obtain ⟨D', h', e, hm', hf⟩ := hm.remove (Nat.le_of_lt h.small) (str_ok.2 hk)
        have := s.associated_user_data.len_remove key
        simp only [if_pos h2, e]
        refine ⟨_, rfl, save_rep (s := ⟨s.owner_id, s.operator_id, s.associated_user_data.remove key⟩) h.owner h.operator ?_ hm',
          save_rest hf⟩
        have hs := h.small
        show (s.associated_user_data.remove key).len < _
        split at this <;> omega
      · simp only [if_neg h2]
  · rw [require, if_neg hd]; rfl

/-- **C89**: every view on the storage of a state is that of the model. -/
theorem C89_views {D : Disk} {s : State} (h : Rep D s) :
    (∀ key, StrFits key → get_value D key = .ok (s.get_value key)) ∧
    (∀ i n, i < 2 ^ 32 → get_values D i n = s.get_values i n) ∧ get_owner_id D = .ok s.get_owner_id ∧
    get_operator_id D = .ok s.get_operator_id ∧ get_kv_count D = .ok s.get_kv_count := by
  obtain ⟨m, hl, hm⟩ := load_rep h
  refine ⟨?_, ?_, ?_, ?_, ?_⟩
  · intro key hk
    unfold get_value
    rw [hl]
    exact hm.get (str_ok.2 hk)
  · intro i n hi
    unfold get_values State.get_values
    rw [hl]
    change List.mapM _ (List.range (min (i + n) m.keys.len - i)) = _
    rw [hm.len]
    refine mapM_eq fun j hj => ?_
    have hj' := List.mem_range.1 hj
    have hs := h.small
    change (MapH.keyAt string D m (i + j) >>= _) = _
    rw [hm.keyAt (by omega)]
    change (expect s.associated_user_data.keys[i + j]? _ >>= _) = _
    cases hkey : s.associated_user_data.keys[i + j]? with
    | none => rfl
    | some key =>
      have hok : string.ok key := by
        obtain ⟨q, hq, rfl⟩ := List.mem_map.1 (List.mem_of_getElem? hkey)
        obtain ⟨-, ok, -⟩ := hm
        exact (ok q hq).1
      change (MapH.get string string D m key >>= _) = _
      rw [hm.get hok]
      rfl
  · unfold get_owner_id; rw [hl]; rfl
  · unfold get_operator_id; rw [hl]; rfl
  · unfold get_kv_count; rw [hl, State.get_kv_count, ← hm.len]; rfl

/-- Who may make a call after the accepted calls of a log. -/
def Allowed (owner operator : String) (log : List (Ctx × Call)) (c : Ctx) (k : Call) : Prop :=
  if writes k then c.predecessor = operatorOf operator log ∧ c.deposit = 0
  else c.predecessor = ownerOf owner log ∧ c.deposit = 1

instance (owner operator : String) (log : List (Ctx × Call)) (c : Ctx) (k : Call) : Decidable (Allowed owner operator log c k) := by
  unfold Allowed; infer_instance

/-- The accepted calls, newest first. -/
def accepted (owner operator : String) : List (Ctx × Call) → List (Ctx × Call) → List (Ctx × Call)
  | log, [] => log
  | log, (c, k) :: l => if Allowed owner operator log c k then accepted owner operator ((c, k) :: log) l
    else accepted owner operator log l

/-- The answers: `none` to a rejected call; a removal answers with the value that was there. -/
def answers (owner operator : String) : List (Ctx × Call) → List (Ctx × Call) → List (Option (Option String))
  | _, [] => []
  | log, (c, k) :: l => if Allowed owner operator log c k then
      some (match k with | .remove_value key => valueOf key log | _ => none) :: answers owner operator ((c, k) :: log) l
    else none :: answers owner operator log l

theorem allowed_ok {owner operator : String} {w : World} (hw : Reach owner operator w) {c : Ctx} {k : Call}
    {r : State × Option String} (h : Kv.exec w.st c k = .ok r) : Allowed owner operator w.log c k ∧
      r.2 = match (generalizing := false) k with | .remove_value key => valueOf key w.log | _ => none := by
  have h1 := C62_authorized (hw.step h) [] c k w.log rfl
  refine ⟨h1, ?_⟩
  obtain ⟨-, hk⟩ := exec_ok (s' := r.1) (r := r.2) h
  cases k <;> simp only at hk
  · exact hk.2.2.2
  · exact hk.2.2.2
  · exact hk.2.2
  · exact hk.2.2
  · rw [hk.2.2]; exact C61_value hw _

theorem allowed_error {owner operator : String} {w : World} (hw : Reach owner operator w) {c : Ctx} {k : Call}
    {e : Panic} (h : Kv.exec w.st c k = .error e) : ¬ Allowed owner operator w.log c k := by
  intro ha
  obtain ⟨h1, h2⟩ := C62_roles hw
  unfold Allowed at ha
  rw [← h1, ← h2] at ha
  split at ha
  · rename_i hk
    obtain ⟨r, hr⟩ := C61_accepted w.st c k hk ha.2 ha.1
    rw [hr] at h; cases h
  · rename_i hk
    cases k <;> simp [writes] at hk <;>
      simp [Kv.exec, require, bind, Except.bind, State.set_operator_id, State.set_owner_id, State.assert_one_yocto,
        State.assert_only_owner, ha, State.get_owner_id, Call.payable, pure, Except.pure] at h

theorem fold_len (l : List (String × String)) (m : UMap String String) :
    (l.foldl (fun m kv => m.insert kv.1 kv.2) m).len ≤ m.len + l.length := by
  induction l generalizing m with
  | nil => exact Nat.le_refl _
  | cons p t ih =>
    have h1 := m.len_insert p.1 p.2
    have h2 := ih (m.insert p.1 p.2)
    rw [List.foldl_cons, List.length_cons]
    split at h1 <;> omega

theorem runs_rep {owner operator : String} {l : List (Ctx × Call)} {D : Disk} {w : World} (hw : Reach owner operator w)
    (h : Rep D w.st) (hf : ∀ x ∈ l, Fits x.2)
    (hn : w.st.associated_user_data.len + (l.map fun x => size x.2).sum < 2 ^ 64) :
    (runs D l).2.map Except.toOption = answers owner operator w.log l ∧
    ∃ w', Reach owner operator w' ∧ w'.log = accepted owner operator w.log l ∧ Rep (runs D l).1 w'.st ∧
      Rest D (runs D l).1 := by
  induction l generalizing D w with
  | nil => exact ⟨rfl, w, hw, rfl, h, fun _ _ _ => rfl⟩
  | cons x t ih =>
    obtain ⟨c, k⟩ := x
    simp only [List.map_cons, List.sum_cons] at hn
    have hc := C89_call h c (k := k) (hf (c, k) List.mem_cons_self) (by omega)
    have hf' : ∀ x ∈ t, Fits x.2 := fun x hx => hf x (List.mem_cons_of_mem _ hx)
    cases he : Kv.exec w.st c k with
    | error e =>
      rw [he] at hc
      have hna := allowed_error hw he
      simp only [runs, hc, answers, accepted, if_neg hna, List.map_cons]
      obtain ⟨i1, i2⟩ := ih hw h hf' (by omega)
      exact ⟨by rw [← i1]; rfl, i2⟩
    | ok r =>
      rw [he] at hc
      obtain ⟨D', h1, h2, h3⟩ := hc
      obtain ⟨ha, hr⟩ := allowed_ok hw he
      simp only [runs, h1, answers, accepted, if_pos ha, List.map_cons]
      have hlen : r.1.associated_user_data.len ≤ w.st.associated_user_data.len + size k := by
        obtain ⟨-, hk⟩ := exec_ok (s' := r.1) (r := r.2) he
        cases k <;> simp only at hk
        · rw [hk.2.2.1]; exact Nat.le_refl _
        · rw [hk.2.2.1]; exact Nat.le_refl _
        · rw [hk.2.1]
          rename_i a b
          have := w.st.associated_user_data.len_insert a b
          show (w.st.associated_user_data.insert a b).len ≤ _ + 1
          split at this <;> omega
        · rw [hk.2.1]; exact fold_len _ _
        · rw [hk.2.1]
          rename_i a
          have := w.st.associated_user_data.len_remove a
          show (w.st.associated_user_data.remove a).len ≤ _
          split at this <;> omega
      obtain ⟨i0, w', i1, i2, i3, i4⟩ := ih (D := D') (w := ⟨r.1, (c, k) :: w.log⟩) (hw.step he) h2 hf' (by
        show r.1.associated_user_data.len + _ < _; omega)
      exact ⟨by rw [← i0, hr]; rfl, w', i1, i2, i3, fun x hx he => (i4 x hx he).trans (h3 x hx he)⟩

/-- No entry of the contract in storage. -/
def Blank (D : Disk) : Prop := D STATE = none ∧ ∀ e : Elem, e.of .map → D ([0] ++ e.bytes) = none

/-- **C89**: initialized on storage without entries of the contract, after any calls, accepted or not, the calls accepted are
those of who then had the role, a removal answers with the value it removed, and every view shows what the accepted calls say: the newest value of every key, the roles, and the pages of one list of the keys. -/
theorem C89_history {owner operator : String} (ho : StrFits owner) (hp : StrFits operator) {D : Disk} (hD : Blank D)
    {l : List (Ctx × Call)} (hf : ∀ x ∈ l, Fits x.2) (hn : (l.map fun x => size x.2).sum < 2 ^ 64) :
    ∃ D0, new D owner operator = .ok D0 ∧ (runs D0 l).2.map Except.toOption = answers owner operator [] l ∧
      ∃ log, log = accepted owner operator [] l ∧
      (∀ key, StrFits key → get_value (runs D0 l).1 key = .ok (valueOf key log)) ∧
      get_owner_id (runs D0 l).1 = .ok (ownerOf owner log) ∧ get_operator_id (runs D0 l).1 = .ok (operatorOf operator log) ∧
      (∃ all : List (String × String), (all.map Prod.fst).Nodup ∧
        (∀ k v, StrFits k → ((k, v) ∈ all ↔ valueOf k log = some v)) ∧ get_kv_count (runs D0 l).1 = .ok all.length ∧
        ∀ i n, i < 2 ^ 32 → get_values (runs D0 l).1 i n = .ok ((all.drop i).take n)) ∧
      Rest D (runs D0 l).1 := by
  have h0 : Rep (save D ⟨owner, operator, .at [0] 0⟩) ⟨owner, operator, UMap.empty⟩ :=
    save_rep (s := ⟨owner, operator, UMap.empty⟩) ho hp (Nat.two_pow_pos 64) (.empty hD.2)
  refine ⟨save D ⟨owner, operator, .at [0] 0⟩, by unfold new; rw [hD.1]; rfl, ?_⟩
  obtain ⟨w0, w, w1, w2, w3, w4⟩ := runs_rep (w := ⟨⟨owner, operator, UMap.empty⟩, []⟩) (.init rfl) h0 hf (by
    simpa [UMap.len, UMap.empty] using hn)
  obtain ⟨v1, v2, v3, v4, v5⟩ := C89_views w3
  obtain ⟨r1, r2⟩ := C62_roles w1
  obtain ⟨all, a1, a2, a3, a4⟩ := C63_pages w.st
  refine ⟨w0, w.log, w2, ?_, by rw [v3, r1], by rw [v4, r2], ⟨all, a1, ?_, by rw [v5, a3], ?_⟩, ?_⟩
  · intro key hk
    rw [v1 key hk, C61_value w1]
  · intro k v _
    rw [a2, C61_value w1]
  · intro i n hi
    rw [v2 i n hi, a4]
  · exact fun x hx he => (w4 x hx he).trans (save_rest Frame.refl x hx he)

instance (a : String) : Decidable (StrFits a) := by unfold StrFits; infer_instance

instance : (k : Call) → Decidable (Fits k)
  | .set_operator_id a | .set_owner_id a | .remove_value a => inferInstanceAs (Decidable (StrFits a))
  | .set_value k v => inferInstanceAs (Decidable (StrFits k ∧ StrFits v))
  | .set_values l => inferInstanceAs (Decidable (∀ p ∈ l, StrFits p.1 ∧ StrFits p.2))

/-- Writes, an attempt by someone else, a list of writes, a removal, a new operator, the old one, another write. -/
def calls : List (Ctx × Call) :=
  [(⟨"op", 0⟩, .set_value "a" "1"), (⟨"eve", 0⟩, .set_value "a" "9"),
   (⟨"op", 0⟩, .set_values [("b", "2"), ("c", "3"), ("b", "4")]), (⟨"op", 0⟩, .remove_value "a"),
   (⟨"own", 1⟩, .set_operator_id "op2"), (⟨"op", 0⟩, .remove_value "b"), (⟨"op2", 0⟩, .set_value "d" "5")]

/-- Another contract's entry was in the storage before. -/
def before : Disk := upd (fun _ => none) [7] (some [1])

theorem before_blank : Blank before := by
  refine ⟨upd_ne _ _ (by decide), fun e _ => upd_ne _ _ ?_⟩
  simp

example : ∃ D0, new before "own" "op" = .ok D0 ∧
    (runs D0 calls).2.map Except.toOption =
      [some none, none, some none, some (some "1"), some none, none, some none] ∧
    get_value (runs D0 calls).1 "b" = .ok (some "4") ∧ get_value (runs D0 calls).1 "a" = .ok none ∧
    get_operator_id (runs D0 calls).1 = .ok "op2" ∧ (runs D0 calls).1 [7] = some [1] := by
  obtain ⟨D0, h0, h1, log, hl, h2, -, h4, -, h6⟩ := C89_history (owner := "own") (operator := "op") (by decide +kernel) (by decide +kernel)
    before_blank (l := calls) (by decide +kernel) (by decide)
  refine ⟨D0, h0, h1.trans (by decide), (h2 _ (by decide +kernel)).trans ?_, (h2 _ (by decide +kernel)).trans ?_, h4.trans ?_, ?_⟩
  · rw [hl]; exact congrArg _ (by decide)
  · rw [hl]; exact congrArg _ (by decide)
  · rw [hl]; exact congrArg _ (by decide)
  · rw [h6 _ (by decide) (by simp)]; exact upd_self _ _ _

end Verif.Kv.Bytes
