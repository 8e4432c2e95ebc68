import Verif.Serde.SmallBytesApi
import Verif.Props.KvBytes
import Verif.Props.TokenBytes
import Verif.Props.ApiViews
import Verif.Props.Interface
import Verif.Serde.Small

/-!
# C99: clients that speak JSON to the key-value store and to the token, whose states are bytes
-/

namespace Verif.Kv.Bytes

open Verif Storage Disk Borsh Serde

/-- The calls that the inputs stand for. -/
def readable (l : List (Ctx × String × Bytes)) : List (Ctx × Call) :=
  l.filterMap fun x => (Call.read x.2.1 x.2.2).map fun k => (x.1, k)

theorem runs_json (D : Disk) (l : List (Ctx × String × Bytes)) : (runsJson D l).1 = (runs D (readable l)).1 := by
  induction l generalizing D with
  | nil => rfl
  | cons x t ih =>
    obtain ⟨c, name, b⟩ := x
    simp only [runsJson, readable, List.filterMap_cons]
    cases hr : Call.read name b with
    | none =>
      have e : callJson D c name b = .error (.assert "Failed to deserialize input from JSON.") := by
        unfold callJson; rw [hr]; rfl
      rw [e]
      exact ih D
    | some k =>
      have e : callJson D c name b = (exec D c k >>= fun r => pure (r.1, returned k r.2)) := by
        unfold callJson; rw [hr]; rfl
      rw [e]
      simp only [Option.map_some, runs]
      cases exec D c k with
      | error e => exact ih D
      | ok r => exact ih r.1

theorem account_fits {a : String} (h : validAccount a = true) : StrFits a := by
  unfold validAccount at h
  rw [Bool.and_eq_true, decide_eq_true_eq] at h
  exact Nat.lt_of_le_of_lt h.1.2 (by decide)

/-- Strings in an input that are keys or values. -/
def TextFits : Call → Prop
  | .remove_value a => StrFits a
  | .set_value k v => StrFits k ∧ StrFits v
  | .set_values l => ∀ p ∈ l, StrFits p.1 ∧ StrFits p.2
  | _ => True

/-- A key that is asked for. -/
def KeyFits : View → Prop
  | .get_value key => StrFits key
  | _ => True

theorem read_fits {name : String} {b : Bytes} {k : Call} (h : Call.read name b = some k) (hb : b.length < 2 ^ 32) :
    TextFits k ∧ size k ≤ b.length := by
  unfold Call.read at h
  split at h
  · obtain ⟨a, -, rfl⟩ := args_gives (.one _ (gives_any _ _)) h
    exact ⟨trivial, Nat.zero_le _⟩
  · obtain ⟨a, -, rfl⟩ := args_gives (.one _ (gives_any _ _)) h
    exact ⟨trivial, Nat.zero_le _⟩
  · have hp := args_pos h
    obtain ⟨a, ha, rfl⟩ := args_gives (.and (.one _ (str_gives _)) (.one _ (str_gives _))) h
    exact ⟨⟨Nat.lt_of_le_of_lt ha.1 hb, Nat.lt_of_le_of_lt ha.2 hb⟩, hp⟩
  · obtain ⟨a, ha, rfl⟩ := args_gives (.one _ (list_gives (pair_gives (str_gives _) (str_gives _)))) h
    exact ⟨fun p hp => ⟨Nat.lt_of_le_of_lt (ha.2 p hp).1 hb, Nat.lt_of_le_of_lt (ha.2 p hp).2 hb⟩, ha.1⟩
  · obtain ⟨a, ha, rfl⟩ := args_gives (.one _ (str_gives _)) h
    exact ⟨Nat.lt_of_le_of_lt ha hb, Nat.zero_le _⟩
  · cases h

theorem asked_fits {name : String} {b : Bytes} {v : View} (h : View.read name b = some v) (hb : b.length < 2 ^ 32) : KeyFits v := by
  cases v with
  | get_value key =>
    unfold View.read at h
    split at h
    all_goals first
      | (obtain ⟨a, ha, e⟩ := args_gives (.one _ (str_gives _)) h
         cases e
         exact Nat.lt_of_le_of_lt ha hb)
      | (obtain ⟨_, -, e⟩ := argsOf_ok h; cases e; done)
      | (cases h)
  | _ => trivial

theorem sizes_le {l : List (Ctx × String × Bytes)} (hb : ∀ x ∈ l, x.2.2.length < 2 ^ 32) :
    (∀ x ∈ readable l, TextFits x.2) ∧ ((readable l).map fun x => size x.2).sum ≤ (l.map fun x => x.2.2.length).sum := by
  induction l with
  | nil => exact ⟨fun x hx => (by cases hx), Nat.le_refl _⟩
  | cons y l ih =>
    obtain ⟨h1, h2⟩ := ih fun x hx => hb x (List.mem_cons_of_mem _ hx)
    unfold readable at h1 h2 ⊢
    rw [List.filterMap_cons]
    cases hk : Call.read y.2.1 y.2.2 with
    | none =>
      simp only [Option.map_none]
      exact ⟨h1, Nat.le_trans h2 (by rw [List.map_cons, List.sum_cons]; omega)⟩
    | some k =>
      obtain ⟨h3, h4⟩ := read_fits hk (hb y List.mem_cons_self)
      simp only [Option.map_some]
      refine ⟨fun x hx => ?_, ?_⟩
      · rcases List.mem_cons.1 hx with rfl | hx
        exacts [h3, h1 x hx]
      · rw [List.map_cons, List.sum_cons, List.map_cons, List.sum_cons]
        exact Nat.add_le_add h4 h2

theorem answer_eq {D : Disk} {s : State} (h : Rep D s) {v : View} (hv : v.valid) (hk : KeyFits v) : answer D v = s.view v := by
  obtain ⟨h1, h2, h3, h4, h5⟩ := C89_views h
  cases v with
  | get_value key => exact h1 key hk
  | get_values i n => exact h2 i n (by have := hv.1; unfold U32_MAX at this; omega)
  | get_owner_id => exact h3
  | get_operator_id => exact h4
  | get_kv_count => exact h5

/-- **C99.** A JSON call of the key-value store panics exactly when the call it is read as panics in the model, with its message;
otherwise the bytes that result hold the state that results, and what is returned is read by the client as the result. -/
theorem C99_call {D : Disk} {s : State} (h : Rep D s) (c : Ctx) {name : String} {b : Bytes} :
    (Call.read name b = none → callJson D c name b = .error (.assert "Failed to deserialize input from JSON.")) ∧
    ∀ k, Call.read name b = some k → b.length < 2 ^ 32 → s.associated_user_data.len + b.length < 2 ^ 64 →
      match Kv.exec s c k with
      | .ok r => ∃ D' out, callJson D c name b = .ok (D', out) ∧ Rep D' r.1 ∧ Rest D D' ∧
          (∀ key, k = .remove_value key → (opt str str_ne_null).decode out = some r.2) ∧ ((∀ key, k ≠ .remove_value key) → out = [])
      | .error e => callJson D c name b = .error e := by
  constructor
  · intro e
    unfold callJson
    rw [e]
    rfl
  · intro k hr hb hl
    obtain ⟨ht, hs⟩ := read_fits hr hb
    have hn : s.associated_user_data.len + size k < 2 ^ 64 := by omega
    have hf : Fits k := by
      obtain ⟨hv, -⟩ := Call.read_ok hr
      cases k with
      | set_operator_id a | set_owner_id a => exact account_fits hv
      | _ => exact ht
    have hc := C89_call h c hf hn
    have e : callJson D c name b = (exec D c k >>= fun r => pure (r.1, returned k r.2)) := by
      unfold callJson
      rw [hr]
      rfl
    rw [e]
    cases hx : Kv.exec s c k with
    | error e => rw [hx] at hc; simp only at hc ⊢; rw [hc]; rfl
    | ok r =>
      rw [hx] at hc
      obtain ⟨D', h1, h2, h3⟩ := hc
      simp only
      rw [h1]
      refine ⟨D', _, rfl, h2, h3, ?_, ?_⟩
      · rintro key rfl
        exact Ty.decode_encode _ (fun _ _ => trivial) (by decide)
      · intro hk
        cases k with
        | remove_value key => exact absurd rfl (hk key)
        | _ => rfl

/-- **C99.** Whatever is sent to the key-value store, installed by a JSON call on storage without entries of the contract: what
happens is an execution of the model, made of the accepted ones of the calls that the inputs are read as; every view, asked and
answered in JSON on the bytes, gives the client exactly the value of that view of the model, or is refused with the message with
which it is refused there; and nothing else in storage changes. -/
theorem C99_client {D D0 : Disk} {b0 : Bytes} (hD : Blank D) (h0 : newJson D b0 = .ok D0) {l : List (Ctx × String × Bytes)}
    (hb : ∀ x ∈ l, x.2.2.length < 2 ^ 32) (hl : (l.map fun x => x.2.2.length).sum < 2 ^ 64) :
    ∃ owner operator w, argsOf newArgs id b0 = some (owner, operator) ∧ Reach owner operator w ∧
      w.log = accepted owner operator [] (readable l) ∧ Rest D (runsJson D0 l).1 ∧
      ∀ name b v, View.read name b = some v → b.length < 2 ^ 32 →
        (∃ e, w.st.view v = .error e ∧ viewAll (runsJson D0 l).1 name b = .error e) ∨
        ∃ r out, w.st.view v = .ok r ∧ viewAll (runsJson D0 l).1 name b = .ok out ∧
          JsonText.IsJson out (v.answer r) ∧ v.ty.decode out = some r := by
  obtain ⟨hf, hs⟩ := sizes_le hb
  have hn := Nat.lt_of_le_of_lt hs hl
  unfold newJson at h0
  simp only [bind_ok_iff, expect_ok_iff] at h0
  obtain ⟨⟨owner, operator⟩, ha, hx⟩ := h0
  obtain ⟨y, hy, e⟩ := argsOf_ok ha
  cases e
  have ho := account_fits hy.1
  have hp := account_fits hy.2
  have h1 : Rep (save D ⟨owner, operator, .at [0] 0⟩) ⟨owner, operator, UMap.empty⟩ :=
    save_rep (s := ⟨owner, operator, UMap.empty⟩) ho hp (Nat.two_pow_pos 64) (.empty hD.2)
  have hD0 : D0 = save D ⟨owner, operator, .at [0] 0⟩ := by
    unfold new at hx
    rw [hD.1] at hx
    cases hx
    rfl
  subst hD0
  have hf' : ∀ x ∈ readable l, Fits x.2 := by
    intro x hx
    have ht := hf x hx
    obtain ⟨z, -, hz⟩ := List.mem_filterMap.1 hx
    obtain ⟨k, hk, rfl⟩ := Option.map_eq_some_iff.1 hz
    obtain ⟨hv, -⟩ := Call.read_ok hk
    cases k with
    | set_operator_id a | set_owner_id a => exact account_fits hv
    | _ => exact ht
  obtain ⟨-, w, w1, w2, w3, w4⟩ := runs_rep (w := ⟨⟨owner, operator, UMap.empty⟩, []⟩) (.init rfl) h1 hf' (by
    simpa [UMap.len, UMap.empty] using hn)
  rw [runs_json]
  refine ⟨owner, operator, w, ha, w1, w2, fun x hx he => (w4 x hx he).trans (save_rest Frame.refl x hx he),
    fun name b v hv hk => ?_⟩
  have e : viewAll (runs (save D ⟨owner, operator, .at [0] 0⟩) (readable l)).1 name b =
      (w.st.view v >>= fun r => pure (v.ty.encode r)) := by
    unfold viewAll
    rw [hv]
    change (answer _ v >>= _) = (w.st.view v >>= _)
    rw [answer_eq w3 (View.read_ok hv).1 (asked_fits hv hk)]
  rw [e]
  cases hr : w.st.view v with
  | error e => exact .inl ⟨e, rfl, rfl⟩
  | ok r => exact .inr ⟨r, _, rfl, rfl, View.parse_answer (view_ok (Nat.le_of_lt_succ w3.small) hr),
      v.ty.decode_encode (view_ok (Nat.le_of_lt_succ w3.small) hr) v.depth⟩

/-! ## A case -/

def newInput : Bytes := MetaVote.ascii "{\"operator_id\":\"op\",\"owner_id\":\"own\"}"

/-- Writes, an attempt by someone else, an input that is not read, a list of writes, a removal. -/
def talk : List (Ctx × String × Bytes) :=
  [(⟨"op", 0⟩, "set_value", MetaVote.ascii "{\"key\":\"a\",\"value\":\"1\"}"),
   (⟨"eve", 0⟩, "set_value", MetaVote.ascii "{\"key\":\"a\",\"value\":\"9\"}"),
   (⟨"op", 0⟩, "set_value", MetaVote.ascii "{\"key\":\"a\",\"value\":9}"),
   (⟨"op", 0⟩, "set_values", MetaVote.ascii "{\"kv_array\":[[\"b\",\"2\"],[\"c\",\"3\"],[\"b\",\"4\"]]}"),
   (⟨"op", 0⟩, "remove_value", MetaVote.ascii "{\"key\":\"a\"}")]

theorem talk_run : (match newJson before newInput with
    | .error _ => none
    | .ok D0 => some ((runsJson D0 talk).2.map Except.toOption,
        viewAll (runsJson D0 talk).1 "get_values" (MetaVote.ascii "{\"from_index\":0,\"limit\":10}"))) =
    some ([some [], none, none, some [], some (MetaVote.ascii "\"1\"")],
      .ok (MetaVote.ascii "[[\"c\",\"3\"],[\"b\",\"4\"]]")) := by
  decide +kernel

/-- The hypotheses of the theorems are met, and what clients are told. -/
example : Blank before ∧ (∀ x ∈ talk, x.2.2.length < 2 ^ 32) ∧ (talk.map fun x => x.2.2.length).sum < 2 ^ 64 ∧
    ∃ D0, newJson before newInput = .ok D0 ∧
      (runsJson D0 talk).2.map Except.toOption = [some [], none, none, some [], some (MetaVote.ascii "\"1\"")] ∧
      viewAll (runsJson D0 talk).1 "get_values" (MetaVote.ascii "{\"from_index\":0,\"limit\":10}") =
        .ok (MetaVote.ascii "[[\"c\",\"3\"],[\"b\",\"4\"]]") := by
  refine ⟨before_blank, by decide +kernel, by decide +kernel, ?_⟩
  have h := talk_run
  cases hn : newJson before newInput with
  | error e => rw [hn] at h; cases h
  | ok D0 =>
    rw [hn] at h
    simp only [Option.some.injEq, Prod.mk.injEq] at h
    exact ⟨D0, rfl, h.1, h.2⟩

end Verif.Kv.Bytes

namespace Verif.Token.Bytes

open Verif Storage Disk Borsh Serde

variable {D : Disk} {s : State} {me : AccountId}

theorem account_id {a : String} (h : validAccount a = true) : IdFits a := by
  unfold validAccount at h
  rw [Bool.and_eq_true, decide_eq_true_eq] at h
  exact h.1.2

/-- The input that a JSON input stands for. -/
def plain : JInput → Option Input
  | .call c name b => (Call.read name b).map fun k => .call c k
  | .settle i r => some (.settle i (r.bind Serde.u128.decode))

/-- Calls are made by accounts that can exist. -/
def Exists : JInput → Prop
  | .call c _ _ => validAccount c.predecessor = true
  | .settle .. => True

/-- What the contract writes down of a transfer-call can be written to JSON and read back. -/
def Sendable (p : Pending) : Prop := validAccount p.sender = true ∧ validAccount p.receiver = true ∧ p.amount ≤ U128_MAX

theorem notified_exec {c : Ctx} {k : Call} {r : Disk × List Promise × List Line} (h : exec D c k = .ok r) {p : Pending}
    (hp : p ∈ notified r.2.1) :
    k.in_range = true ∧ ∃ m, k = .ft_transfer_call p.receiver p.amount m ∧ p.sender = c.predecessor := by
  simp only [exec, bind_ok_iff, require_ok_iff] at h
  obtain ⟨-, -, -, hr, t, -, h⟩ := h
  refine ⟨hr, ?_⟩
  cases k <;> simp only [bind_ok_iff, pure_ok_iff, require_ok_iff] at h
  case ft_transfer_call a n m =>
    obtain ⟨x, -, rfl⟩ := h
    simp only [notified, List.mem_singleton] at hp
    subst hp
    exact ⟨m, rfl, rfl⟩
  case assert_minter => obtain ⟨-, -, rfl⟩ := h; simp [notified] at hp
  case ft_resolve_transfer => obtain ⟨_, -, _, -, rfl⟩ := h; simp [notified] at hp
  case storage_deposit => obtain ⟨x, -, rfl⟩ := h; unfold pays at hp; simp only at hp; split at hp <;> simp [notified] at hp
  case storage_unregister => obtain ⟨x, -, rfl⟩ := h; unfold pays at hp; simp only at hp; split at hp <;> simp [notified] at hp
  all_goals (obtain ⟨_, -, rfl⟩ := h; simp [notified] at hp)

theorem runs_json {l : List JInput} {w : BWorld} (hp : ∀ p ∈ w.pending, Sendable p) (hl : ∀ x ∈ l, Exists x) :
    runsJson me w l = runs me w (l.filterMap plain) := by
  induction l generalizing w with
  | nil => rfl
  | cons x t ih =>
    have hl' : ∀ x ∈ t, Exists x := fun x hx => hl x (List.mem_cons_of_mem _ hx)
    cases x with
    | call c name b =>
      have hc : validAccount c.predecessor = true := hl _ List.mem_cons_self
      simp only [runsJson, plain, List.filterMap_cons]
      cases hr : Call.read name b with
      | none =>
        have e : callJson w.disk c name b = .error (.assert "Failed to deserialize input from JSON.") := by
          unfold callJson; rw [hr]; rfl
        rw [e]
        simp only [Option.map_none, ite_self]
        exact ih hp hl'
      | some k =>
        have e : callJson w.disk c name b = exec w.disk c k := by unfold callJson; rw [hr]; rfl
        rw [e]
        simp only [Option.map_some, runs]
        split
        · cases hx : exec w.disk c k with
          | error e => exact ih hp hl'
          | ok r =>
            simp only
            rw [ih (w := ⟨r.1, w.pending ++ notified r.2.1⟩) ?_ hl']
            intro p hm
            rcases List.mem_append.1 hm with hm | hm
            · exact hp p hm
            · obtain ⟨h1, m, rfl, h2⟩ := notified_exec hx hm
              exact ⟨h2 ▸ hc, (Call.read_ok hr).2.1.1, of_decide_eq_true h1⟩
        · exact ih hp hl'
    | settle i r =>
      simp only [runsJson, plain, List.filterMap_cons, runs]
      cases hi : w.pending[i]? with
      | none => exact ih hp hl'
      | some p =>
        have hs := hp p (List.mem_of_getElem? hi)
        have e : ∀ c, callJson w.disk c (Call.ft_resolve_transfer p.sender p.receiver p.amount).write.1
            (Call.ft_resolve_transfer p.sender p.receiver p.amount).write.2 =
              exec w.disk c (.ft_resolve_transfer p.sender p.receiver p.amount) := by
          intro c
          unfold callJson
          rw [Call.read_write (k := .ft_resolve_transfer p.sender p.receiver p.amount) (decide_eq_true hs.2.2) ⟨hs.1, hs.2.1⟩]
          rfl
        have hq : ∀ q ∈ w.pending.eraseIdx i, Sendable q := fun q h => hp q (List.mem_of_mem_eraseIdx h)
        simp only [e]
        cases exec w.disk ⟨me, me, 0, r.bind Serde.u128.decode⟩ (.ft_resolve_transfer p.sender p.receiver p.amount) with
        | error e => exact ih (w := ⟨w.disk, w.pending.eraseIdx i⟩) hq hl'
        | ok x =>
          simp only
          rw [ih (w := ⟨x.1, w.pending.eraseIdx i⟩) hq hl']

theorem answer_eq {m : Metadata} (h : Rep D s m) {v : View} (hv : v.valid) : answer D v = s.view v := by
  obtain ⟨h1, h2, h3, h4, h5, -⟩ := C91_views h
  cases v with
  | get_owner_id => exact h3
  | get_minters => exact h4
  | ft_total_supply => exact h2
  | ft_balance_of a => exact (h1 a (account_id hv)).1
  | storage_balance_bounds => exact h5
  | storage_balance_of a => exact (h1 a (account_id hv)).2

theorem fits_read {c : Ctx} {name : String} {b : Bytes} {k : Call} (hr : Call.read name b = some k)
    (hc : validAccount c.predecessor = true) : Fits c k := by
  have hv := (Call.read_ok hr).2.1
  have h0 := account_id hc
  cases k with
  | set_owner_id a | add_minter a | remove_minter a | assert_minter a | ft_transfer a => exact ⟨h0, account_id hv⟩
  | ft_transfer_call a => exact ⟨h0, account_id hv.1⟩
  | ft_resolve_transfer a b => exact ⟨h0, account_id hv.1, account_id hv.2⟩
  | storage_deposit a =>
    cases a with
    | none => exact ⟨h0, h0⟩
    | some a => exact ⟨h0, account_id (hv a rfl)⟩
  | _ => exact h0

/-- **C99.** A JSON call of the token, by an account that can exist, panics exactly when the call it is read as panics in the model,
with its message; otherwise both have the same promises, the bytes that result hold the state that results and the lines written are those of the model. -/
theorem C99_call {m : Metadata} (h : Rep D s m) {c : Ctx} (hc : validAccount c.predecessor = true) {name : String} {b : Bytes} :
    (Call.read name b = none → callJson D c name b = .error (.assert "Failed to deserialize input from JSON.")) ∧
    ∀ k, Call.read name b = some k → Room s k →
      match Token.exec s c k with
      | .ok r => ∃ D', callJson D c name b = .ok (D', r.2, s.lines c k) ∧ Rep D' r.1 m ∧ Rest D D'
      | .error e => callJson D c name b = .error e := by
  constructor
  · intro e
    unfold callJson
    rw [e]
    rfl
  · intro k hr hn
    have e : callJson D c name b = exec D c k := by unfold callJson; rw [hr]; rfl
    rw [e]
    exact C91_call h c (fits_read hr hc) hn

/-- Texts in the metadata of an installation. -/
def MetaFits (m : Metadata) : Prop :=
  StrFits m.spec ∧ StrFits m.name ∧ StrFits m.symbol ∧ (∀ x, m.icon = some x → StrFits x) ∧ ∀ x, m.reference = some x → StrFits x

theorem option_ok {α : Type} {C : Codec α} {x : Option α} (h : ∀ y, x = some y → C.ok y) : (option C).ok x := by
  cases x with
  | none => trivial
  | some y => exact h y rfl

theorem MetaFits.ok {m : Metadata} (h : MetaFits m) (hv : Valid m) (hd : m.decimals ≤ U8_MAX) : metadata.ok m := by
  obtain ⟨h1, h2, h3, h4, h5⟩ := h
  refine ⟨str_ok.2 h1, str_ok.2 h2, str_ok.2 h3, option_ok fun y hy => str_ok.2 (h4 y hy), option_ok fun y hy => str_ok.2 (h5 y hy),
    option_ok fun y hy => ?_, u8_ok.2 (Nat.lt_succ_of_le hd)⟩
  exact bytes_ok.2 (by rw [hv.2.2 y hy]; decide)

theorem init_fits {name : String} {b : Bytes} {x : String × Nat × Metadata} (h : initRead name b = some x) (hb : b.length < 2 ^ 32) :
    MetaFits x.2.2 := by
  unfold initRead at h
  split at h
  · obtain ⟨y, -, rfl⟩ := argsOf_ok h
    change MetaFits default_meta
    refine ⟨?_, ?_, ?_, fun y hy => ?_, fun y hy => (by cases hy)⟩
    · unfold StrFits; decide
    · unfold StrFits; decide
    · unfold StrFits; decide
    · cases hy; unfold StrFits; decide +kernel
  · obtain ⟨y, hy, rfl⟩ := args_gives (.and (.one _ (gives_any _ _)) (.and (.one _ (gives_any _ _)) (.one _
      (struct_gives (.iso (.and (.one _ (str_gives _)) (.and (.one _ (str_gives _)) (.and (.one _ (str_gives _))
        (.and (.opt _ _ (str_gives _)) (.and (.opt _ _ (str_gives _)) (.and (.opt _ _ (gives_any _ _))
          (.one _ (gives_any _ _))))))))))))) h
    obtain ⟨-, -, h1, h2, h3, h4, h5, -⟩ := hy
    exact ⟨Nat.lt_of_le_of_lt h1 hb, Nat.lt_of_le_of_lt h2 hb, Nat.lt_of_le_of_lt h3 hb,
      fun z hz => Nat.lt_of_le_of_lt (h4 z hz) hb, fun z hz => Nat.lt_of_le_of_lt (h5 z hz) hb⟩
  · cases h

theorem metadataTy_ok {m : Metadata} (h : m.decimals ≤ U8_MAX) : metadataTy.ok m :=
  ⟨trivial, trivial, trivial, fun _ _ => trivial, fun _ _ => trivial, fun _ _ => trivial, h⟩

theorem initRead_ok {name : String} {b : Bytes} {x : String × Nat × Metadata} (h : initRead name b = some x) :
    validAccount x.1 = true ∧ x.2.1 ≤ U128_MAX ∧ x.2.2.decimals ≤ U8_MAX := by
  unfold initRead at h
  split at h
  · obtain ⟨y, hy, rfl⟩ := argsOf_ok h
    exact ⟨hy.1, hy.2, (by decide : 6 ≤ U8_MAX)⟩
  · obtain ⟨y, hy, rfl⟩ := argsOf_ok h
    exact ⟨hy.1, hy.2.1, hy.2.2.2.2.2.2.2.2⟩
  · cases h

/-- **C99.** Whatever is sent to the token by accounts that can exist, installed by a JSON call on storage without entries of the
contract: what happens is an execution of the model that writes the same lines; every view, asked and answered in JSON on the
bytes, gives the client exactly the value of that view of the model, or is refused with the message with which it is refused
there; and the metadata that a client reads are those of the installation. -/
theorem C99_client (hD : Blank D) (hme : validAccount me = true) {name0 : String} {b0 : Bytes} {r0 : Disk × List Line}
    (h0 : initJson D name0 b0 = .ok r0) (hb : b0.length < 2 ^ 32) {l : List JInput}
    (hl : ∀ x ∈ l, Exists x) (hn : ((l.filterMap plain).map adds).sum < 2 ^ 32) :
    ∃ owner supply m w, initRead name0 b0 = some (owner, supply, m) ∧ Writes me w (r0.2 ++ (runsJson me ⟨r0.1, []⟩ l).2) ∧
      (∃ s c, Token.new false true c owner supply = .ok s) ∧
      (runsJson me ⟨r0.1, []⟩ l).1.pending = w.pending ∧ Rest D (runsJson me ⟨r0.1, []⟩ l).1.disk ∧
      (∀ name b v, View.read name b = some v →
        (∃ e, w.st.view v = .error e ∧ viewAll (runsJson me ⟨r0.1, []⟩ l).1.disk name b = .error e) ∨
        ∃ r out, w.st.view v = .ok r ∧ viewAll (runsJson me ⟨r0.1, []⟩ l).1.disk name b = .ok out ∧
          JsonText.IsJson out (v.answer r) ∧ v.ty.decode out = some r) ∧
      ∀ b, ∃ out, viewAll (runsJson me ⟨r0.1, []⟩ l).1.disk "ft_metadata" b = .ok out ∧
        JsonText.IsJson out (fungibleTokenMetadata m) ∧ metadataTy.decode out = some m := by
  unfold initJson at h0
  simp only [bind_ok_iff, expect_ok_iff] at h0
  obtain ⟨⟨owner, supply, m⟩, ha, hx⟩ := h0
  obtain ⟨ho, hs, hd⟩ := initRead_ok ha
  have hv : Valid m := by
    refine Classical.byContradiction fun hv => ?_
    obtain ⟨e, he⟩ := C91_new_refused (D := D) (owner := owner) (supply := supply) (.inr hv)
    rw [hx] at he; cases he
  obtain ⟨D0, s, h1, h2, h3, h4⟩ := C91_new hD (account_id ho) (Nat.lt_succ_of_le hs) ((init_fits ha hb).ok hv hd) hv
  rw [hx] at h1
  cases h1
  rw [runs_json (w := ⟨D0, []⟩) (fun p hp => by cases hp) hl]
  have hf : ∀ x ∈ l.filterMap plain, InputFits x := by
    intro x hx
    obtain ⟨z, hz, e⟩ := List.mem_filterMap.1 hx
    cases z with
    | call c name b =>
      obtain ⟨k, hk, rfl⟩ := Option.map_eq_some_iff.1 e
      exact fits_read hk (hl _ hz)
    | settle i r => cases e; trivial
  have hw := Writes.init (me := me) (125 * 10 ^ 19) owner supply s hs h2
  obtain ⟨w, w1, w2, w3, w4⟩ := runs_rep (b := ⟨D0, []⟩) (account_id hme) hw h3 rfl (fun p hp => by cases hp) hf (by
    rw [(new_ok h2).2.2.2.1]; simpa using hn)
  refine ⟨owner, supply, m, w, ha, w1, ⟨s, _, h2⟩, w3, h4.trans w4, fun name b v hv => ?_, fun b => ?_⟩
  · have hne : name ≠ "ft_metadata" := by
      rintro rfl
      have := (View.read_ok hv).2
      cases v <;> simp [View.write] at this
    have e : viewAll (runs me ⟨D0, []⟩ (l.filterMap plain)).1.disk name b = (w.st.view v >>= fun r => pure (v.ty.encode r)) := by
      unfold viewAll
      rw [if_neg hne, hv]
      change (answer _ v >>= _) = (w.st.view v >>= _)
      rw [answer_eq w2 (View.read_ok hv).1]
    rw [e]
    have hc : w.st.storage_cost ≤ U128_MAX := by rw [w2.good.cost]; decide
    cases hr : w.st.view v with
    | error e => exact .inl ⟨e, rfl, rfl⟩
    | ok r => exact .inr ⟨r, _, rfl, rfl, View.parse_answer (view_ok (C90_exists.2 ⟨_, w1⟩) hc hr),
        v.ty.decode_encode (view_ok (C90_exists.2 ⟨_, w1⟩) hc hr) v.depth⟩
  · refine ⟨metadataTy.encode m, ?_, metadata_answer (metadataTy_ok hd), metadataTy.decode_encode (metadataTy_ok hd) (by decide)⟩
    unfold viewAll
    rw [if_pos rfl, (C91_views w2).2.2.2.2.2]
    rfl

/-! ## A case -/

/-- Two registrations and a transfer-call of which a part comes back; a memo is given; one input is not read. -/
def talk : List JInput :=
  [.call ⟨"tok", "bob", 125 * 10 ^ 19, none⟩ "storage_deposit" (MetaVote.ascii "{}"),
   .call ⟨"tok", "bob", 2 * 10 ^ 21, none⟩ "storage_deposit" (MetaVote.ascii "{\"account_id\":\"dex\",\"registration_only\":null}"),
   .call ⟨"tok", "alice", 1, none⟩ "ft_transfer" (MetaVote.ascii "{\"receiver_id\":\"bob\",\"amount\":100}"),
   .call ⟨"tok", "alice", 1, none⟩ "ft_transfer_call" (MetaVote.ascii "{\"receiver_id\":\"dex\",\"amount\":\"100\",\"memo\":\"m\",\"msg\":\"\"}"),
   .settle 0 (some (MetaVote.ascii "\"30\""))]

/-- An installation with a hash in base64. -/
def newInput : Bytes := MetaVote.ascii "{\"owner_id\":\"alice\",\"total_supply\":\"1000\",\"metadata\":{\"spec\":\"ft-1.0.0\",\"name\":\"n\",\"symbol\":\"S\",\"icon\":null,\"reference\":\"r\",\"reference_hash\":\"AAECAwQFBgcICQoLDA0ODxAREhMUFRYXGBkaGxwdHv8=\",\"decimals\":6}}"

theorem talk_run : (match initJson before "new" newInput with
    | .error _ => none
    | .ok r => some ((runsJson "tok" ⟨r.1, []⟩ talk).2,
        viewAll (runsJson "tok" ⟨r.1, []⟩ talk).1.disk "ft_balance_of" (MetaVote.ascii "{\"account_id\":\"dex\"}"),
        viewAll (runsJson "tok" ⟨r.1, []⟩ talk).1.disk "storage_balance_of" (MetaVote.ascii "{\"account_id\":\"bob\"}"),
        viewAll (runsJson "tok" ⟨r.1, []⟩ talk).1.disk "ft_metadata" [])) =
    some ([.transfer "alice" "dex" 100, .transfer "dex" "alice" 30], .ok (MetaVote.ascii "\"70\""),
      .ok (MetaVote.ascii "{\"total\":\"1250000000000000000000\",\"available\":\"0\"}"),
      .ok (MetaVote.ascii "{\"spec\":\"ft-1.0.0\",\"name\":\"n\",\"symbol\":\"S\",\"icon\":null,\"reference\":\"r\",\"reference_hash\":\"AAECAwQFBgcICQoLDA0ODxAREhMUFRYXGBkaGxwdHv8=\",\"decimals\":6}")) := by
  decide +kernel

/-- The hypotheses of the theorems are met, and what clients are told. -/
example : Blank before ∧ validAccount "tok" = true ∧ newInput.length < 2 ^ 32 ∧
    (∀ x ∈ talk, Exists x) ∧ ((talk.filterMap plain).map adds).sum = 0 ∧ ∃ r, initJson before "new" newInput = .ok r ∧
      viewAll (runsJson "tok" ⟨r.1, []⟩ talk).1.disk "ft_balance_of" (MetaVote.ascii "{\"account_id\":\"dex\"}") =
        .ok (MetaVote.ascii "\"70\"") ∧
      viewAll (runsJson "tok" ⟨r.1, []⟩ talk).1.disk "storage_balance_of" (MetaVote.ascii "{\"account_id\":\"bob\"}") =
        .ok (MetaVote.ascii "{\"total\":\"1250000000000000000000\",\"available\":\"0\"}") := by
  refine ⟨before_blank, by decide +kernel, by decide +kernel, ?_, by decide +kernel, ?_⟩
  · intro x hx
    simp only [talk, List.mem_cons, List.not_mem_nil, or_false] at hx
    rcases hx with rfl | rfl | rfl | rfl | rfl <;> simp only [Exists] <;> decide +kernel
  · have h := talk_run
    cases hn : initJson before "new" newInput with
    | error e => rw [hn] at h; cases h
    | ok r =>
      rw [hn] at h
      simp only [Option.some.injEq, Prod.mk.injEq] at h
      exact ⟨r, rfl, h.2.1, h.2.2.1⟩

/-- The installation with the metadata in the code. -/
example : initRead "new_default_meta" (MetaVote.ascii "{\"total_supply\":\"7\",\"owner_id\":\"alice\"}") = some ("alice", 7, default_meta) ∧
    Valid default_meta := ⟨by decide +kernel, rfl, rfl, fun h e => by cases e⟩

end Verif.Token.Bytes
