import Verif.Mpip.Ids
import Verif.Props.MpipEndToEnd
import Verif.Props.EndToEnd
import Verif.Props.SmallEndToEnd

/-!
# C103: account ids that the contracts keep are valid

The library refuses an `AccountId` that is not valid when it is read from a call (`validAccount`, part of the types of the JSON
inputs).  It may refuse one that is read from storage, too.  Here: that never happens.
-/

namespace Verif.MetaVote.Bytes

open Verif Storage Disk Borsh Serde MetaVote

variable {H : Hash} {N : Names} {me : AccountId} {G : Disk → Disk → Ctx → Call → Prop} {D : Disk} {S : SState}

/-- The account ids of the record (`lib.rs:29-47`) are valid. -/
def Ids (r : StateRec) : Prop :=
  validAccount r.owner_id = true ∧ validAccount r.operator_id = true ∧ validAccount r.mpdao_token_contract_address = true ∧
    validAccount r.stnear_token_contract_address = true

theorem ids_after {c : Config} {k : Call} (hk : k.valid) (hc : validAccount c.owner = true ∧ validAccount c.operator = true ∧
    validAccount c.mpdao = true ∧ validAccount c.stnear = true) :
    validAccount (configAfter c k).owner = true ∧ validAccount (configAfter c k).operator = true ∧
      validAccount (configAfter c k).mpdao = true ∧ validAccount (configAfter c k).stnear = true := by
  cases k <;> first | exact hc | skip
  case set_stnear_contract => exact ⟨hc.1, hc.2.1, hc.2.2.1, hk⟩
  case set_operator_id => exact ⟨hc.1, hk, hc.2.2⟩
  case set_owner_id => exact ⟨hk, hc.2⟩

theorem ids_call {f' : Nat} {c : Ctx} {k : Call} {S' : SState} {D' : Disk} {out : List Transfer} (h : Stored H N f' S D)
    (hi : ∃ r, load D = .ok r ∧ Ids r) (hv : k.valid) (hx : sexec serde S c k = .ok (S', out)) {f : Nat} (h' : Stored H N f S' D') :
    ∃ r, load D' = .ok r ∧ Ids r := by
  obtain ⟨r, hr, h1⟩ := hi
  rw [h.load] at hr
  cases hr
  refine ⟨_, h'.load, ?_⟩
  have hc := (sexec_ran hx).config
  change validAccount S'.st.config.owner = true ∧ validAccount S'.st.config.operator = true ∧
    validAccount S'.st.config.mpdao = true ∧ validAccount S'.st.config.stnear = true
  rw [hc]
  exact ids_after hv h1

/-- **C103.** Whatever is sent to meta-vote in JSON, the record in storage can be read, and the owner, the operator and both token
contracts in it are valid account ids. -/
theorem C103_record (hN : N.OK H) (hme : validAccount me = true) {W : Nat} {w : BWorld} (h : JReach H N me G W w) (hW : W < 2 ^ 32) :
    ∃ r, load w.D = .ok r ∧ Ids r := by
  induction h with
  | init D D' c b k hb hu64 hr hlen hexec =>
    have h0 := C99_reach hN hme (JReach.init (me := me) (G := G) D D' c b k hb hu64 hr hlen hexec) hW
    obtain ⟨S, h1, h2, -⟩ := C92_reach hN (validAccount_fits hme) h0 hW
    rw [callJson_eq hr] at hexec
    obtain ⟨-, hv, hn⟩ := Call.read_ok hr
    cases k with
    | new_ o op x y d l v mp st r p =>
      have h3 := hb.new (J := serde) (c := c) (f := 2 ^ 32 - 1 - 0) (by omega) (validAccount_fits hv.1) (validAccount_fits hv.2.1)
        (validAccount_fits hv.2.2.1) (validAccount_fits hv.2.2.2) (read_prev hlen hr) (a := x) (b := y) (d := d) (l := l) (v := v) (r := r)
      rw [hexec] at h3
      generalize hx : (do
        require (c.deposit = 0) "Method doesn't accept deposit"
        require ((Call.new_ o op x y d l v mp st r p).in_range = true) "Failed to deserialize input from JSON."
        MetaVote.new false o op x y d l v mp st r p : Res State) = z at h3
      cases z with
      | error e => exact h3.elim
      | ok s =>
        simp only [bind_ok_iff, require_ok_iff] at hx
        obtain ⟨-, -, -, -, hnew⟩ := hx
        obtain ⟨-, -, rfl⟩ := new_ok hnew
        exact ⟨_, h3.2.load, hv⟩
    | _ => exact absurd hn (by simp [Call.write])
  | @call W w h c name b k D' out hr hv hme' hres hm hclock hu64 hlen hk hexec hg ih =>
    obtain ⟨S, -, h2, -⟩ := C92_reach hN (validAccount_fits hme) (C99_reach hN hme h (by omega)) (by omega)
    rcases (C99_call (f := 2 ^ 32 - 1 - (W + weight serde k)) hN h2 hv hu64 hlen).2 k hr hk (by omega) with
      ⟨e, -, he⟩ | ⟨S', D1, out1, hx, he, h3, -⟩
    · rw [hexec] at he; cases he
    · rw [hexec] at he
      cases he
      exact ids_call h2 (ih (by omega)) (Call.read_ok hr).2.1 hx h3
  | @resolve W w h pre post t ok ts hpend hclock hu64 ih =>
    have h0 := C99_reach hN hme h (by omega)
    obtain ⟨S, h1, h2, h4⟩ := h0.inv hN (validAccount_fits hme) (by omega)
    have ht : t ∈ w.pending := by rw [hpend]; simp
    have hc := (lpending_faithful h1.loose t ht).callback
    simp only
    rw [callJson_eq (H := H) (D := w.D) (c := ⟨me, me, 0, ts, [ok]⟩) hc]
    rcases C92_call (J := serde) (f := 2 ^ 32 - 1 - (W + 3)) (c := ⟨me, me, 0, ts, [ok]⟩) hN (by rw [weight_callback]; omega) h2
      (validAccount_fits hme) hu64 (h4 t ht) with ⟨e, -, he⟩ | ⟨S', D1, out1, hx, he, h3, -⟩
    · rw [he]; exact ih (by omega)
    · rw [he]; exact ids_call h2 (ih (by omega)) (Call.read_ok hc).2.1 hx h3
  | tick h ts hclock hu64 ih => exact ih hW

/-- There is a history with bytes. -/
example : few.OK Disk.firstByte ∧ validAccount "me" = true ∧
    ∃ W w, JReach Disk.firstByte few "me" (fun D D' c k => keeps D D' c k = true) W w ∧ W < 2 ^ 32 ∧
      viewAll Disk.firstByte w.D (62 * DAY / 1000000) "get_balance" (ascii "{\"voter_id\":\"eve\"}") = .ok (ascii "\"50000000\"") := by
  obtain ⟨x, hx, e⟩ := Option.map_eq_some_iff.1 talk_run
  rw [Prod.mk.injEq, Prod.mk.injEq, decide_eq_true_eq] at e
  exact ⟨few_ok, by decide +kernel, x.1, x.2, reach_jruns installedJ_reach talk_ok hx, e.1, e.2.1⟩

end Verif.MetaVote.Bytes

namespace Verif.Mpip.Bytes

open Verif Storage Disk Borsh Serde

variable {H : Hash} {N : Names} {f : Nat} {s : State} {D : Disk} {me : AccountId}

theorem asked_signer {a : AccountId} {out : List Promise} {q : Pending} (h : q ∈ asked a out) : q.signer = a := by
  induction out with
  | nil => cases h
  | cons p l ih =>
    cases p with
    | pay => exact ih h
    | ask =>
      rcases List.mem_cons.1 h with rfl | h
      · rfl
      · exact ih h

theorem JReach.ids (hN : N.OK H) (hme : validAccount me = true) {W : Nat} {w : BWorld} (h : JReach H N me W w) (hW : W < 2 ^ 32) :
    (∃ s, Stored H N (2 ^ 32 - 1 - W) s w.D ∧ Ids s) ∧ ∀ q ∈ w.pending, validAccount q.signer = true := by
  induction h with
  | init D D' c b hb hu64 hexec =>
    obtain ⟨k, hr, hx⟩ := readable hexec
    obtain ⟨hin, hv, hn⟩ := Call.read_ok hr
    refine ⟨?_, by simp⟩
    cases k with
    | new_ a o t v p m st q =>
      have h0 := hb.new (J := serde) (c := c) (f := 2 ^ 32 - 1 - 0) (by omega) (account_fits hv.1) (account_fits hv.2.1)
        (account_fits hv.2.2.1) (account_fits hv.2.2.2) (p := p) (m := m) (st := st) (q := q)
      rw [hx] at h0
      generalize hy : (do
        require (c.deposit = 0) "Method doesn't accept deposit"
        require ((Call.new_ a o t v p m st q).in_range = true) "Failed to deserialize input from JSON."
        Mpip.new false a o t v p m st q : Res State) = y at h0
      cases y with
      | error e => exact h0.elim
      | ok s =>
        simp only [bind_ok_iff, require_ok_iff] at hy
        obtain ⟨-, -, -, -, hnew⟩ := hy
        exact ⟨s, h0.2, ids_new hnew hv⟩
    | _ => exact absurd hn (by simp [Call.write])
  | @call W w h c name b k D' out hr hv hsig hme' hres hclock hu64 hlen hk hexec ih =>
    obtain ⟨⟨s, h1, h2⟩, h3⟩ := ih (by omega)
    rcases (C99_call hN (f := 2 ^ 32 - 1 - (W + 4)) (h1.mono (by omega)) hsig hu64 hlen).2 k hr hk with
      ⟨e, -, he⟩ | ⟨s', D1, out1, hx, he, h4, -⟩
    · rw [hexec] at he; cases he
    · rw [hexec] at he
      cases he
      refine ⟨⟨s', h4, h2.exec hx (Call.read_ok hr).2.1 hsig hv⟩, fun q hq => ?_⟩
      rcases List.mem_append.1 hq with hq | hq
      · exact h3 q hq
      · rw [asked_signer hq]; exact hsig
  | @reply W w h pre post p r ts hpend hclock hu64 ih =>
    obtain ⟨⟨s, h1, h2⟩, h3⟩ := ih (by omega)
    obtain ⟨h0, hp⟩ := C99_reach hN h (by omega)
    obtain ⟨-, -, -, hok⟩ := h0.inv hN (by omega)
    have hm : p ∈ w.pending := by rw [hpend]; simp
    have hs := hp p hm
    have e := callJson_eq (H := H) (D := w.D) (c := replyCtx me p ts r) (Call.read_write hs.1 hs.2)
    refine ⟨?_, fun q hq => h3 q ?_⟩
    · simp only
      rw [e]
      rcases C93_call (J := serde) (f := 2 ^ 32 - 1 - (W + 4)) hN (h1.mono (by omega)) (c := replyCtx me p ts r) hu64 (hok p hm ts r) with
        ⟨e, -, he⟩ | ⟨s', D1, out1, hx, he, h4, -⟩
      · rw [he]; exact ⟨s, h1.mono (by omega), h2⟩
      · rw [he]; exact ⟨s', h4, h2.exec hx hs.2 (h3 p hm) hme⟩
    · rw [hpend]
      rcases List.mem_append.1 hq with hq | hq
      · exact List.mem_append_left _ hq
      · exact List.mem_append_right _ (List.mem_cons_of_mem _ hq)
  | tick h ts hclock hu64 ih => exact ih hW

/-- **C103.** Whatever is sent to mpip in JSON, the record in storage can be read, and the admin, the operator and both contracts in
it are valid account ids; so are the creators of proposals and the voters that are shown. -/
theorem C103_record (hN : N.OK H) (hme : validAccount me = true) {W : Nat} {w : BWorld} (h : JReach H N me W w) (hW : W < 2 ^ 32) :
    (∃ r, load w.D = .ok r ∧ validAccount r.admin_id = true ∧ validAccount r.operator_id = true ∧
      validAccount r.meta_token_contract_address = true ∧ validAccount r.meta_vote_contract_address = true) ∧
    (∀ c i p, i ≤ U32_MAX → answer H w.D c (.get_proposal i) = .ok p → validAccount p.creator_id = true) ∧
    (∀ c i n l, i ≤ U32_MAX → n ≤ U32_MAX → answer H w.D c (.get_proposals i n) = .ok (some l) →
      ∀ p ∈ l, validAccount p.creator_id = true) ∧
    ∀ c i x, i ≤ U32_MAX → answer H w.D c (.get_proposal_votes i) = .ok x → ∀ v ∈ x.has_voted, validAccount v.1 = true := by
  obtain ⟨⟨s, h1, h2⟩, -⟩ := h.ids hN hme hW
  refine ⟨⟨_, h1.load, h2.admin, h2.operator, h2.token, h2.power⟩, fun c i p hi hp => ?_, fun c i n l hi hn hl p hp => ?_,
    fun c i x hi hx v hv => ?_⟩
  · rw [answer_eq h1 c (v := .get_proposal i) hi] at hp
    change s.internal_get_proposal i = .ok p at hp
    unfold State.internal_get_proposal at hp
    exact h2.creators _ _ (expect_ok_iff.1 hp)
  · rw [answer_eq h1 c (v := .get_proposals i n) ⟨hi, hn⟩] at hl
    change s.get_proposals i n = .ok (some l) at hl
    unfold State.get_proposals at hl
    split at hl
    · cases hl
    · simp only [bind_ok_iff, pure_ok_iff] at hl
      obtain ⟨l', hl, e⟩ := hl
      cases e
      obtain ⟨j, -, hj⟩ := MetaVote.Bytes.mapM_mem hl p hp
      simp only [bind_ok_iff, expect_ok_iff] at hj
      obtain ⟨k, -, hk⟩ := hj
      exact h2.creators _ _ hk
  · rw [answer_eq h1 c (v := .get_proposal_votes i) hi] at hx
    cases hx
    exact h2.tally i (UMap.get_eq_some_iff.2 hv)

/-- There is a history with bytes. -/
example : few.OK Disk.firstByte ∧ validAccount "me" = true ∧ ∃ W w, JReach Disk.firstByte few "me" W w ∧ W < 2 ^ 32 ∧
    viewAll Disk.firstByte w.D ⟨"me", "", "", 0, 7 * MS, []⟩ "get_proposal_state" (MetaVote.ascii "{ \"mpip_id\" : 0 }") =
      .ok (MetaVote.ascii "\"VotingProcess\"") := by
  obtain ⟨w, hw, e⟩ := Option.map_eq_some_iff.1 talk_run
  rw [Prod.mk.injEq] at e
  exact ⟨few_ok, by decide +kernel, _, w, reach_jruns installedJ_reach talk_ok hw, by decide, e.2⟩

end Verif.Mpip.Bytes

namespace Verif.Kv.Bytes

open Verif Storage Disk Borsh Serde

theorem accepted_mem {owner operator : String} {l log : List (Ctx × Call)} {x : Ctx × Call}
    (h : x ∈ accepted owner operator log l) : x ∈ log ∨ x ∈ l := by
  induction l generalizing log with
  | nil => exact .inl h
  | cons y t ih =>
    simp only [accepted] at h
    split at h
    · rcases ih h with h | h
      · rcases List.mem_cons.1 h with rfl | h
        · exact .inr List.mem_cons_self
        · exact .inl h
      · exact .inr (List.mem_cons_of_mem _ h)
    · rcases ih h with h | h
      · exact .inl h
      · exact .inr (List.mem_cons_of_mem _ h)

/-- **C103.** Whatever is sent to the key-value store in JSON, the record in storage can be read, and the owner and the operator in it
are valid account ids. -/
theorem C103_record {D D0 : Disk} {b0 : Bytes} (hD : Blank D) (h0 : newJson D b0 = .ok D0) {l : List (Ctx × String × Bytes)}
    (hb : ∀ x ∈ l, x.2.2.length < 2 ^ 32) (hl : (l.map fun x => x.2.2.length).sum < 2 ^ 64) :
    ∃ r, load (runsJson D0 l).1 = .ok r ∧ validAccount r.owner_id = true ∧ validAccount r.operator_id = true := by
  obtain ⟨hf, hs⟩ := sizes_le hb
  have hn := Nat.lt_of_le_of_lt hs hl
  unfold newJson at h0
  simp only [bind_ok_iff, expect_ok_iff] at h0
  obtain ⟨⟨owner, operator⟩, ha, hx⟩ := h0
  obtain ⟨y, hy, e⟩ := argsOf_ok ha
  cases e
  have hv : ∀ x ∈ readable l, x.2.valid := by
    intro x hx
    obtain ⟨z, -, hz⟩ := List.mem_filterMap.1 hx
    obtain ⟨k, hk, rfl⟩ := Option.map_eq_some_iff.1 hz
    exact (Call.read_ok hk).1
  have hf' : ∀ x ∈ readable l, Fits x.2 := by
    intro x hx
    have ht := hf x hx
    have hv := hv x hx
    obtain ⟨c, k⟩ := x
    cases k with
    | set_operator_id a | set_owner_id a => exact account_fits hv
    | _ => exact ht
  obtain ⟨D1, h1, -, log, hlog, -, h2, h3, -⟩ := C89_history (account_fits hy.1) (account_fits hy.2) hD hf' hn
  rw [hx] at h1
  cases h1
  rw [← runs_json] at h2 h3
  simp only [get_owner_id, get_operator_id, bind_ok_iff, pure_ok_iff] at h2 h3
  obtain ⟨r, hr, h2⟩ := h2
  obtain ⟨r', hr', h3⟩ := h3
  rw [hr] at hr'
  cases hr'
  have hlv : ∀ x ∈ log, x.2.valid := by
    intro x hx
    rw [hlog] at hx
    rcases accepted_mem hx with h | h
    · cases h
    · exact hv x h
  clear hlog
  refine ⟨r, hr, ?_, ?_⟩
  · rw [h2]
    clear h2 h3
    induction log with
    | nil => exact hy.1
    | cons x t ih =>
      have ih := ih fun z hz => hlv z (List.mem_cons_of_mem _ hz)
      have hx := hlv x List.mem_cons_self
      obtain ⟨c, k⟩ := x
      cases k <;> first | exact ih | exact hx
  · rw [h3]
    clear h2 h3
    induction log with
    | nil => exact hy.2
    | cons x t ih =>
      have ih := ih fun z hz => hlv z (List.mem_cons_of_mem _ hz)
      have hx := hlv x List.mem_cons_self
      obtain ⟨c, k⟩ := x
      cases k <;> first | exact ih | exact hx

/-- The owner names an operator; a name that is not a valid account id is refused. -/
def roles : List (Ctx × String × Bytes) :=
  [(⟨"own", 1⟩, "set_operator_id", MetaVote.ascii "{\"operator_id\":\"op2\"}"),
   (⟨"own", 1⟩, "set_operator_id", MetaVote.ascii "{\"operator_id\":\"Op 3\"}")]

theorem roles_run : (match newJson before newInput with
    | .error _ => none
    | .ok D0 => some ((runsJson D0 roles).2.map Except.toOption, viewAll (runsJson D0 roles).1 "get_operator_id" [])) =
    some ([some [], none], .ok (MetaVote.ascii "\"op2\"")) := by
  decide +kernel

/-- The hypotheses of the theorem are met. -/
example : Blank before ∧ (∀ x ∈ roles, x.2.2.length < 2 ^ 32) ∧ (roles.map fun x => x.2.2.length).sum < 2 ^ 64 ∧
    ∃ D0, newJson before newInput = .ok D0 ∧ (runsJson D0 roles).2.map Except.toOption = [some [], none] := by
  refine ⟨before_blank, by decide +kernel, by decide +kernel, ?_⟩
  have h := roles_run
  cases hn : newJson before newInput with
  | error e => rw [hn] at h; cases h
  | ok D0 =>
    rw [hn] at h
    simp only [Option.some.injEq, Prod.mk.injEq] at h
    exact ⟨D0, rfl, h.1⟩

end Verif.Kv.Bytes

namespace Verif.Token.Bytes

open Verif Storage Disk Borsh Serde

variable {D : Disk} {s : State} {me : AccountId}

/-- Owner and minters are valid account ids. -/
def Ids (s : State) : Prop := validAccount s.owner_id = true ∧ ∀ a ∈ s.minters, validAccount a = true

theorem ids_exec {k : Call} {c : Ctx} {s' : State} {out : List Promise} (hi : Ids s) (hv : k.valid)
    (h : Token.exec s c k = .ok (s', out)) : Ids s' := by
  cases exec_change h with
  | owner h => exact ⟨hv, hi.2⟩
  | added hd h hn =>
    refine ⟨hi.1, fun a ha => ?_⟩
    rcases List.mem_append.1 ha with ha | ha
    · exact hi.2 a ha
    · rw [List.mem_singleton.1 ha]; exact hv
  | removed hd h hn => exact ⟨hi.1, fun a ha => hi.2 a (swapRemove_mem ha)⟩
  | _ => exact hi

/-- Calls with valid account ids. -/
def InputValid : Input → Prop
  | .call c k => validAccount c.predecessor = true ∧ k.valid
  | .settle .. => True

theorem ids_runs (hme : validAccount me = true) {m : Metadata} {l : List Input} {b : BWorld} (h : Rep b.disk s m) (hi : Ids s)
    (hpf : ∀ p ∈ b.pending, validAccount p.sender = true ∧ validAccount p.receiver = true)
    (hf : ∀ x ∈ l, InputFits x) (hv : ∀ x ∈ l, InputValid x) (hn : s.minters.length + (l.map adds).sum < 2 ^ 32) :
    ∃ s', Rep (runs me b l).1.disk s' m ∧ Ids s' := by
  induction l generalizing b s with
  | nil => exact ⟨s, h, hi⟩
  | cons x t ih =>
    have hf' : ∀ x ∈ t, InputFits x := fun x hx => hf x (List.mem_cons_of_mem _ hx)
    have hv' : ∀ x ∈ t, InputValid x := fun x hx => hv x (List.mem_cons_of_mem _ hx)
    have hx := hf x List.mem_cons_self
    have hy := hv x List.mem_cons_self
    simp only [List.map_cons, List.sum_cons] at hn
    cases x with
    | call c k =>
      simp only [runs]
      by_cases hc : c.current = me ∧ c.predecessor ≠ me
      · rw [if_pos hc]
        have hroom : Room s k := by
          cases k <;> try trivial
          simp only [adds] at hn
          show s.minters.length + 1 < 2 ^ 32
          omega
        have hcall := C91_call h c (k := k) hx hroom
        cases he : Token.exec s c k with
        | error e =>
          rw [he] at hcall
          simp only [hcall]
          exact ih h hi hpf hf' hv' (by omega)
        | ok r =>
          rw [he] at hcall
          obtain ⟨D', h1, h2, h3⟩ := hcall
          simp only [h1]
          have hlen := minters_len (s' := r.1) (out := r.2) he
          refine ih (b := ⟨D', b.pending ++ notified r.2⟩) h2 (ids_exec hi hy.2 he) ?_ hf' hv' (by omega)
          intro p hp
          rcases List.mem_append.1 hp with hp | hp
          · exact hpf p hp
          · obtain ⟨msg, rfl, e, -⟩ := notified_mem (s' := r.1) he hp
            rw [e]; exact ⟨hy.1, hy.2.1⟩
      · rw [if_neg hc]
        exact ih h hi hpf hf' hv' (by omega)
    | settle i r =>
      simp only [runs]
      cases hi' : b.pending[i]? with
      | none => exact ih h hi hpf hf' hv' (by omega)
      | some p =>
        simp only
        have hp := hpf p (List.mem_of_getElem? hi')
        have hq : ∀ q ∈ b.pending.eraseIdx i, validAccount q.sender = true ∧ validAccount q.receiver = true :=
          fun q h => hpf q (List.mem_of_mem_eraseIdx h)
        have hcall := C91_call h ⟨me, me, 0, r⟩ (k := .ft_resolve_transfer p.sender p.receiver p.amount)
          ⟨account_id hme, account_id hp.1, account_id hp.2⟩ trivial
        cases he : Token.exec s ⟨me, me, 0, r⟩ (.ft_resolve_transfer p.sender p.receiver p.amount) with
        | error e =>
          rw [he] at hcall
          simp only [hcall]
          exact ih (b := ⟨b.disk, _⟩) h hi hq hf' hv' (by omega)
        | ok x =>
          rw [he] at hcall
          obtain ⟨D', h1, h2, h3⟩ := hcall
          simp only [h1]
          have hlen := minters_len (s' := x.1) (out := x.2) he
          simp only [adds] at hlen
          exact ih (b := ⟨D', _⟩) h2 (ids_exec hi (k := .ft_resolve_transfer _ _ _) hp he) hq hf' hv' (by omega)

/-- **C103.** Whatever is sent to the token in JSON by accounts that can exist, the record in storage can be read, and the owner and
the minters in it are valid account ids. -/
theorem C103_record (hD : Blank D) (hme : validAccount me = true) {name0 : String} {b0 : Bytes} {r0 : Disk × List Line}
    (h0 : initJson D name0 b0 = .ok r0) (hb : b0.length < 2 ^ 32) {l : List JInput}
    (hl : ∀ x ∈ l, Exists x) (hn : ((l.filterMap plain).map adds).sum < 2 ^ 32) :
    ∃ r, load (runsJson me ⟨r0.1, []⟩ l).1.disk = .ok r ∧ validAccount r.owner_id = true ∧
      ∀ a ∈ r.minters, validAccount a = true := by
  unfold initJson at h0
  simp only [bind_ok_iff, expect_ok_iff] at h0
  obtain ⟨⟨owner, supply, m⟩, ha, hx⟩ := h0
  obtain ⟨ho, hs, hd⟩ := initRead_ok ha
  have hv : Valid m := by
    refine Classical.byContradiction fun hv => ?_
    obtain ⟨e, he⟩ := C91_new_refused (D := D) (owner := owner) (supply := supply) (.inr hv)
    rw [hx] at he; cases he
  obtain ⟨D0, s, h1, h2, h3, h4⟩ := C91_new hD (account_id ho) (Nat.lt_succ_of_le hs) ((init_fits ha hb).ok hv hd) hv
  rw [hx] at h1
  cases h1
  rw [runs_json (w := ⟨D0, []⟩) (fun p hp => by cases hp) hl]
  have hf : ∀ x ∈ l.filterMap plain, InputFits x ∧ InputValid x := by
    intro x hx
    obtain ⟨z, hz, e⟩ := List.mem_filterMap.1 hx
    cases z with
    | call c name b =>
      obtain ⟨k, hk, rfl⟩ := Option.map_eq_some_iff.1 e
      exact ⟨fits_read hk (hl _ hz), hl _ hz, (Call.read_ok hk).2.1⟩
    | settle i r => cases e; exact ⟨trivial, trivial⟩
  have hnew := new_ok h2
  have hm : s.minters = [] := hnew.2.2.2.1
  have hown : s.owner_id = owner := hnew.2.2.1
  obtain ⟨s', h5, h6⟩ := ids_runs (b := ⟨D0, []⟩) hme h3 ⟨by rw [hown]; exact ho, by rw [hm]; simp⟩ (fun p hp => by cases hp)
    (fun x hx => (hf x hx).1) (fun x hx => (hf x hx).2) (by rw [hm]; simpa using hn)
  exact ⟨_, load_rep h5, h6⟩

/-- The owner adds a minter; a name that is not a valid account id is refused. -/
def roles : List JInput :=
  [.call ⟨"tok", "alice", 1, none⟩ "add_minter" (MetaVote.ascii "{\"account_id\":\"bob\"}"),
   .call ⟨"tok", "alice", 1, none⟩ "add_minter" (MetaVote.ascii "{\"account_id\":\"Bob \"}")]

theorem roles_run : (match initJson before "new" newInput with
    | .error _ => none
    | .ok r => some (viewAll (runsJson "tok" ⟨r.1, []⟩ roles).1.disk "get_minters" [])) = some (.ok (MetaVote.ascii "[\"bob\"]")) := by
  decide +kernel

/-- The hypotheses of the theorem are met. -/
example : Blank before ∧ validAccount "tok" = true ∧ newInput.length < 2 ^ 32 ∧ (∀ x ∈ roles, Exists x) ∧
    ((roles.filterMap plain).map adds).sum < 2 ^ 32 ∧ ∃ r, initJson before "new" newInput = .ok r ∧
      viewAll (runsJson "tok" ⟨r.1, []⟩ roles).1.disk "get_minters" [] = .ok (MetaVote.ascii "[\"bob\"]") := by
  refine ⟨before_blank, by decide +kernel, by decide +kernel, ?_, by decide +kernel, ?_⟩
  · intro x hx
    unfold roles at hx
    rcases List.mem_pair.1 hx with rfl | rfl <;> exact (by decide +kernel : validAccount "alice" = true)
  · have h := roles_run
    cases hn : initJson before "new" newInput with
    | error e => rw [hn] at h; cases h
    | ok r =>
      rw [hn] at h
      exact ⟨r, rfl, Option.some.inj h⟩

end Verif.Token.Bytes
