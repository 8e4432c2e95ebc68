import Verif.Serde.Run
import Verif.Props.WireTokens
import Verif.Props.Access
import Verif.Props.Funds

/-!
# C96: the methods of the contracts called by name with JSON input
# C97: accounts named in JSON
-/

/-! ## C96: arguments -/

namespace Verif.Serde

open Verif Storage

theorem member_perm {l l' : List (String × Val)} (h : l.Perm l') {k : String} (hk : times l k ≤ 1) :
    member l k = member l' k := by
  have hf : (l.filter fun p => p.1 = k).Perm (l'.filter fun p => p.1 = k) := h.filter _
  have hm : ∀ x : List (String × Val), member x k = ((x.filter fun p => p.1 = k).head?).map (·.2) := by
    intro x; unfold member; rw [List.head?_filter]
  unfold times at hk
  rw [hm, hm]
  cases h1 : l.filter fun p => p.1 = k with
  | nil => rw [h1] at hf; rw [hf.nil_eq]
  | cons a t =>
    rw [h1] at hf hk
    cases t with
    | nil => rw [(List.singleton_perm.1 hf)]
    | cons b t => simp at hk

/-- The order of the members does not matter. -/
theorem struct_perm {α : Type} {F : Fields α} {h : F.keys.Nodup} {l l' : List (String × Val)} (hp : l.Perm l') :
    (struct F h).read (.obj l) = (struct F h).read (.obj l') := by
  have ht : ∀ k, times l k = times l' k := fun k => (hp.filter _).length_eq
  simp only [struct]
  have e : (F.keys.all fun k => decide (times l k ≤ 1)) = F.keys.all fun k => decide (times l' k ≤ 1) := by
    congr 1; funext k; rw [ht]
  rw [← e]
  split
  · rename_i hall
    rw [List.all_eq_true] at hall
    congr 1
    refine List.map_congr_left fun k hk => member_perm hp ?_
    simpa using hall k hk
  · rfl

theorem argsOf_perm {α γ : Type} {F : Fields α} {mk : α → γ} {h : F.keys.Nodup} {b b' : Bytes} {l l' : List (String × Val)}
    (hb : parse b = some (.obj l)) (hb' : parse b' = some (.obj l')) (hp : l.Perm l') :
    argsOf F mk b h = argsOf F mk b' h := by
  unfold argsOf Ty.decode
  rw [hb, hb', Option.bind_some, Option.bind_some, struct_perm hp]

end Verif.Serde

namespace Verif.MetaVote

open Verif Storage Serde

/-- C96: every call of meta-vote with arguments of its types can be made, and is read as it was written. -/
theorem C96_written {k : Call} (hr : k.in_range = true) (hv : k.valid) :
    Call.read k.write.1 k.write.2 = some k := Call.read_write hr hv

/-- C96: whatever the input, what reaches a method has arguments of its types, and the method is the one named. -/
theorem C96_typed {name : String} {b : Bytes} {k : Call} (h : Call.read name b = some k) :
    k.in_range = true ∧ k.valid ∧ k.write.1 = name := Call.read_ok h

/-- C96: the order in which arguments are written does not matter. -/
theorem C96_order (name : String) {b b' : Bytes} {l l' : List (String × Val)} (hb : parse b = some (.obj l))
    (hb' : parse b' = some (.obj l')) (hp : l.Perm l') : Call.read name b = Call.read name b' := by
  unfold Call.read
  split <;> first | rfl | exact argsOf_perm hb hb' hp

end Verif.MetaVote

namespace Verif.Mpip

open Verif Storage Serde

/-- C96: every call of the proposal contract can be written and is read as it was written. -/
theorem C96_written {k : Call} (hr : k.in_range = true) (hv : k.valid) :
    Call.read k.write.1 k.write.2 = some k := Call.read_write hr hv

/-- C96: what reaches a method has arguments of its types. -/
theorem C96_typed {name : String} {b : Bytes} {k : Call} (h : Call.read name b = some k) :
    k.in_range = true ∧ k.valid ∧ k.write.1 = name := Call.read_ok h

/-- C96: the order of the arguments does not matter. -/
theorem C96_order (name : String) {b b' : Bytes} {l l' : List (String × Val)} (hb : parse b = some (.obj l))
    (hb' : parse b' = some (.obj l')) (hp : l.Perm l') : Call.read name b = Call.read name b' := by
  unfold Call.read
  split <;> first | rfl | exact argsOf_perm hb hb' hp

example : Call.in_range (.vote_proposal 3 .abstain "m\n") = true ∧ (Call.vote_proposal 3 .abstain "m\n").valid ∧
    Call.read "vote_proposal" (MetaVote.ascii "{\"memo\":\"m\\n\",\"vote\":\"Abstain\",\"mpip_id\":3}") =
      some (.vote_proposal 3 .abstain "m\n") ∧
    Call.read "vote_proposal" (MetaVote.ascii "{\"memo\":\"m\\n\",\"vote\":\"abstain\",\"mpip_id\":3}") = none := by
  refine ⟨by decide, trivial, by decide +kernel, by decide +kernel⟩

end Verif.Mpip

namespace Verif.Token

open Verif Storage Serde

/-- C96: every call of the token can be written and is read as it was written. -/
theorem C96_written {k : Call} (hr : k.in_range = true) (hv : k.valid) :
    Call.read k.write.1 k.write.2 = some k := Call.read_write hr hv

/-- C96: what reaches a method has arguments of its types. -/
theorem C96_typed {name : String} {b : Bytes} {k : Call} (h : Call.read name b = some k) :
    k.in_range = true ∧ k.valid ∧ k.write.1 = name := Call.read_ok h

/-- C96: the order of the arguments does not matter. -/
theorem C96_order (name : String) {b b' : Bytes} {l l' : List (String × Val)} (hb : parse b = some (.obj l))
    (hb' : parse b' = some (.obj l')) (hp : l.Perm l') : Call.read name b = Call.read name b' := by
  unfold Call.read
  split <;> first | rfl | exact argsOf_perm hb hb' hp

example : Call.in_range (.ft_transfer "bob.near" 7) = true ∧ (Call.ft_transfer "bob.near" 7).valid ∧
    Call.read "ft_transfer" (MetaVote.ascii "{\"amount\":\"7\",\"receiver_id\":\"bob.near\",\"memo\":null}") =
      some (.ft_transfer "bob.near" 7) ∧
    Call.read "ft_transfer" (MetaVote.ascii "{\"amount\":7,\"receiver_id\":\"bob.near\"}") = none := by
  refine ⟨by decide, show validAccount "bob.near" = true by decide +kernel, by decide +kernel, by decide +kernel⟩

end Verif.Token

namespace Verif.Kv

open Verif Storage Serde

/-- C96: every call of the key-value store can be written and is read as it was written. -/
theorem C96_written {k : Call} (hv : k.valid) : Call.read k.write.1 k.write.2 = some k := Call.read_write hv

/-- C96: what reaches a method has arguments of its types. -/
theorem C96_typed {name : String} {b : Bytes} {k : Call} (h : Call.read name b = some k) :
    k.valid ∧ k.write.1 = name := Call.read_ok h

/-- C96: the order of the arguments does not matter. -/
theorem C96_order (name : String) {b b' : Bytes} {l l' : List (String × Val)} (hb : parse b = some (.obj l))
    (hb' : parse b' = some (.obj l')) (hp : l.Perm l') : Call.read name b = Call.read name b' := by
  unfold Call.read
  split <;> first | rfl | exact argsOf_perm hb hb' hp

example : (Call.set_value "k" "v").valid ∧
    Call.read "set_value" (MetaVote.ascii "{\"value\":\"v\",\"key\":\"k\"}") = some (.set_value "k" "v") ∧
    Call.read "set_value" (MetaVote.ascii "{\"value\":\"v\",\"key\":\"k\",\"key\":\"k\"}") = none := by
  refine ⟨trivial, by decide +kernel, by decide +kernel⟩

end Verif.Kv

namespace Verif.MetaVote

open Verif Storage Serde

theorem callJson_ok {s : State} {c : Ctx} {name : String} {b : Bytes} {k : Call} (hb : Call.read name b = some k) :
    callJson s c name b = exec serde s c k := by
  unfold callJson
  rw [hb]
  rfl

theorem JInit.init {w : World} (h : JInit w) : Init w := by
  cases h with
  | mk b o op p q d l v m st r g ts s hb hts hn => exact .mk o op p q d l v m st r g ts s (Call.read_ok hb).1 hts hn

/-- C96: a history in JSON is a history of the model, so all its properties hold. -/
theorem C96_reach {me : AccountId} {w : World} (h : JReach me w) : Reach serde me w := by
  induction h with
  | init h => exact .init h.init
  | @step w w' h hs ih =>
    refine ih.step ?_
    cases hs with
    | call c name b k s' out hb hv hme hres hm hclock hu64 hexec =>
      rw [callJson_ok hb] at hexec
      exact .call w c k s' out hme hres hm hclock hu64 hexec
    | resolve pre post t ok ts hpend hclock hu64 =>
      have hr := C95_callback ih (t := t) (by rw [hpend]; simp)
      rw [callJson_ok hr]
      exact .resolve w pre post t ok ts hpend hclock hu64
    | tick ts hclock hu64 => exact .tick w ts hclock hu64

/-- C96: and every call of the model with arguments of its types can be made in JSON. -/
theorem C96_call {s : State} {c : Ctx} {k : Call} (hv : k.valid) {r : State × List Transfer} (hx : exec serde s c k = .ok r) :
    callJson s c k.write.1 k.write.2 = .ok r := by
  rw [callJson_ok (Call.read_write (exec_ok.1 hx).2.2.1 hv), hx]

/-! ## C97: ids -/

/-- C97: owner, operator and both tokens are always valid account ids. -/
theorem C97_accounts_partial {me : AccountId} {w : World} (h : JReach me w) : validAccount w.st.owner_id = true ∧
    validAccount w.st.operator_id = true ∧ validAccount w.st.mpdao_token_contract_address = true ∧
    validAccount w.st.stnear_token_contract_address = true := by
  have key : ∀ {c : Config} {k : Call}, k.valid → (validAccount c.owner = true ∧ validAccount c.operator = true ∧
      validAccount c.mpdao = true ∧ validAccount c.stnear = true) →
      (validAccount (configAfter c k).owner = true ∧ validAccount (configAfter c k).operator = true ∧
        validAccount (configAfter c k).mpdao = true ∧ validAccount (configAfter c k).stnear = true) := by
    intro c k hk hc
    cases k <;> first | exact hc | skip
    case set_stnear_contract => exact ⟨hc.1, hc.2.1, hc.2.2.1, hk⟩
    case set_operator_id => exact ⟨hc.1, hk, hc.2.2⟩
    case set_owner_id => exact ⟨hk, hc.2⟩
  change validAccount w.st.config.owner = true ∧ validAccount w.st.config.operator = true ∧
    validAccount w.st.config.mpdao = true ∧ validAccount w.st.config.stnear = true
  induction h with
  | init h =>
    cases h with
    | mk b o op p q d l v m st r g ts s hb hts hn =>
      obtain ⟨-, hv, -⟩ := Call.read_ok hb
      obtain ⟨-, -, rfl⟩ := new_ok hn
      exact ⟨hv.1, hv.2.1, hv.2.2.1, hv.2.2.2⟩
  | @step w w' h hs ih =>
    cases hs with
    | call c name b k s' out hb hv hme hres hm hclock hu64 hexec =>
      rw [callJson_ok hb] at hexec
      rw [(C19_step hexec).1]
      exact key (Call.read_ok hb).2.1 ih
    | resolve pre post t ok ts hpend hclock hu64 =>
      have hr := C95_callback (C96_reach h) (t := t) (by rw [hpend]; simp)
      rw [callJson_ok hr]
      cases hx : exec serde w.st ⟨me, me, 0, ts, [ok]⟩ t.callbackCall with
      | error e => exact ih
      | ok r =>
        simp only [Res.getOr]
        rw [callback_config (s' := r.1) (out := r.2) hx]
        exact ih
    | tick => exact ih

/-- What is held and owed for an id does not go down. -/
structure Stuck (s s' : State) (id : String) : Prop where
  held : (s.voterD id).held ≤ (s'.voterD id).held
  mpdao : s.get_claimable_mpdao id ≤ s'.get_claimable_mpdao id
  stnear : s.get_claimable_stnear id ≤ s'.get_claimable_stnear id

theorem Stuck.refl (s : State) (id : String) : Stuck s s id := ⟨Nat.le_refl _, Nat.le_refl _, Nat.le_refl _⟩

theorem Stuck.trans {s s1 s2 : State} {id : String} (h : Stuck s s1 id) (h' : Stuck s1 s2 id) : Stuck s s2 id :=
  ⟨h.held.trans h'.held, h.mpdao.trans h'.mpdao, h.stnear.trans h'.stnear⟩

theorem exec_stuck {J : Json} {s s' : State} {c : Ctx} {k : Call} {out : List Transfer} (hx : exec J s c k = .ok (s', out))
    {id : String} (hid : id ≠ c.predecessor) (hm : ¬ mirrored id) : Stuck s s' id := by
  rcases C20_isolation hx hid with h | h
  · refine ⟨?_, ?_, ?_⟩
    · unfold State.voterD; rw [h.record]
    · rw [h.mpdao]
    · rw [h.stnear]
  · have noM : ∀ e, id ≠ pseudo_near_address e := fun e he => hm (he ▸ mirrored_pseudo e)
    have keep : s'.voters.get id = s.voters.get id → (s.voterD id).held ≤ (s'.voterD id).held := by
      intro he; unfold State.voterD; rw [he]
    cases h with
    | deposit se a m hc hs hcl hheld hv => exact ⟨by omega, hcl.mpdao.ge, hcl.stnear.ge⟩
    | reward se a m hc hr h1 h2 => exact ⟨keep hr, h1, h2⟩
    | migration l d hc hcl hheld hv => exact ⟨hheld, hcl.mpdao.ge, hcl.stnear.ge⟩
    | mirror e l hc he hcl => exact absurd he (noM e)
    | votes e k he => exact absurd he (noM e)
    | claim e a he => exact absurd he (noM e)
    | restoreMpdao a hc hcl hv =>
      refine ⟨?_, hcl.mpdao.ge, hcl.stnear.ge⟩
      rw [hv]; unfold Voter.held Voter.inPositions; simp only; omega
    | restoreStnear a hc hr h1 h2 => exact ⟨keep hr, h1.ge, by omega⟩

/-- C97: tokens held or owed for an id that is not an account stay in the contract for ever: no call of any account lowers
them. -/
theorem C97_stuck {me : AccountId} {w w' : World} (h0 : JReach me w) (hme : validAccount me = true) (h : JSteps me w w')
    {id : String} (hid : validAccount id = false) (hm : ¬ mirrored id) : Stuck w.st w'.st id := by
  have hne : ∀ {a : String}, validAccount a = true → id ≠ a := by
    intro a ha he; rw [he, ha] at hid; cases hid
  have hr : JReach me w' ∧ Stuck w.st w'.st id := by
    induction h with
    | refl => exact ⟨h0, .refl _ _⟩
    | @step w1 w2 h hs ih =>
      refine ⟨ih.1.step hs, ih.2.trans ?_⟩
      cases hs with
      | call c name b k s' out hb hv hme hres hmm hclock hu64 hexec =>
        rw [callJson_ok hb] at hexec
        exact exec_stuck hexec (hne hv) hm
      | resolve pre post t ok ts hpend hclock hu64 =>
        have hr := C95_callback (C96_reach ih.1) (t := t) (by rw [hpend]; simp)
        rw [callJson_ok hr]
        cases hx : exec serde w1.st ⟨me, me, 0, ts, [ok]⟩ t.callbackCall with
        | error e => exact .refl _ _
        | ok r => exact exec_stuck (s' := r.1) (out := r.2) hx (hne hme) hm
      | tick => exact .refl _ _
  exact hr.2


/-- The ids for which a call brings tokens. -/
def Call.names (id : String) : Call → Prop
  | .ft_on_transfer sender _ m => (forClaims m ∧ id ∈ (claimItems serde m).map Prod.fst) ∨
      (¬ forClaims m ∧ beneficiary serde sender m = some id)
  | .migration_create_lps v _ _ => v = id
  | _ => False

theorem itemsFor_zero {id : String} {l : List (String × Nat)} (h : id ∉ l.map Prod.fst) : itemsFor id l = 0 := by
  unfold itemsFor
  refine sum_zero fun p hp => ?_
  rw [if_neg]
  intro e
  exact h (List.mem_map.2 ⟨p, hp, e⟩)

theorem logCalls_zero {g : Ctx → Call → Nat} {l : List Entry} (h : ∀ c k out, .call c k out ∈ l → g c k = 0) :
    logCalls g l = 0 := by
  unfold logCalls
  refine sum_zero fun e he => ?_
  cases e with
  | call c k out => exact h c k out he
  | resolved => rfl

/-- C97, for ids that no message named: nothing is held or owed for them. Missing: messages may name ids that are not
accounts, `C97_no_account_false`. -/
theorem C97_named_partial {me : AccountId} {w : World} (h : JReach me w) {id : String} (hm : ¬ mirrored id)
    (hn : ∀ c k out, .call c k out ∈ w.log → ¬ k.names id) : (w.st.voterD id).held = 0 ∧
      w.st.get_claimable_mpdao id = 0 ∧ w.st.get_claimable_stnear id = 0 := by
  have h1 := C68_account_mpdao (C96_reach h).loose id hm
  have h2 := C68_account_stnear (C96_reach h).loose id
  rw [logCalls_zero] at h1 h2
  · omega
  · intro c k out hk
    have := hn c k out hk
    cases k <;> try rfl
    case ft_on_transfer se a m =>
      simp only [creditStOf]
      split
      · rename_i hc
        rw [itemsFor_zero (fun hi => this (.inl ⟨hc.2, hi⟩)), Nat.zero_mul]
      · rfl
  · intro c k out hk
    have := hn c k out hk
    cases k <;> try rfl
    case ft_on_transfer se a m =>
      simp only [creditOf]
      split
      · split
        · rename_i hc
          rw [itemsFor_zero (fun hi => this (.inl ⟨hc, hi⟩)), Nat.zero_mul]
        · rename_i hc
          rw [if_neg (fun hi => this (.inr ⟨hc, hi⟩))]
      · rfl
    case migration_create_lps v l d =>
      simp only [creditOf]
      exact if_neg this

theorem exec_paid {J : Json} {s s' : State} {c : Ctx} {k : Call} {out : List Transfer} (hx : exec J s c k = .ok (s', out)) :
    ∀ t ∈ out, t.receiver = c.predecessor ∧
      (t.token = s.mpdao_token_contract_address ∨ t.token = s.stnear_token_contract_address) := by
  obtain ⟨-, -, hin, hr⟩ := exec_ok.1 hx
  cases k <;> simp only [run, quiet_ok, sends_ok] at hr
  case claim_stnear a =>
    obtain ⟨t, ht, rfl⟩ := hr
    obtain ⟨-, rfl⟩ := claim_stnear_ok ht
    simp
  case delegated_claim_stnear e a =>
    obtain ⟨t, ht, rfl⟩ := hr
    obtain ⟨-, -, rfl⟩ := delegated_claim_ok ht
    simp
  case withdraw l a =>
    obtain ⟨t, ht, rfl⟩ := hr
    obtain ⟨v, v2, -, -, -, -, -, -, rfl, -⟩ := internal_withdraw_ok ht
    simp
  case withdraw_all =>
    obtain ⟨t, ht, rfl⟩ := hr
    obtain ⟨v, -, ht⟩ := withdraw_all_ok ht
    obtain ⟨v, v2, -, -, -, -, -, -, rfl, -⟩ := internal_withdraw_ok ht
    simp
  all_goals
    obtain ⟨-, rfl⟩ := hr
    simp

/-- C97: every payment goes to an account that can exist, and the token reads it as a transfer to that account. -/
theorem C97_payment {me : AccountId} {w : World} (h : JReach me w) {t : Transfer} (ht : t ∈ w.pending) :
    validAccount t.receiver = true ∧ validAccount t.token = true ∧
      Token.Call.read t.write.1 t.write.2 = some (.ft_transfer t.receiver t.amount) := by
  have key : validAccount t.receiver = true ∧ validAccount t.token = true := by
    induction h with
    | init h => cases h; simp at ht
    | @step w w' h hs ih =>
      cases hs with
      | call c name b k s' out hb hv hme hres hm hclock hu64 hexec =>
        rw [callJson_ok hb] at hexec
        rcases List.mem_append.1 ht with ht | ht
        · exact ih ht
        · obtain ⟨h1, h2⟩ := exec_paid hexec t ht
          obtain ⟨-, -, h3, h4⟩ := C97_accounts_partial h
          refine ⟨h1 ▸ hv, ?_⟩
          rcases h2 with h2 | h2 <;> rw [h2] <;> assumption
      | resolve pre post u ok ts hpend hclock hu64 =>
        refine ih ?_
        rw [hpend]
        rcases List.mem_append.1 ht with ht | ht
        · exact List.mem_append_left _ ht
        · exact List.mem_append_right _ (List.mem_cons_of_mem _ ht)
      | tick => exact ih ht
  exact ⟨key.1, key.2, by rw [C95_payment (C96_reach h) ht, if_pos key.1]⟩

/-! ## Concrete histories -/

inductive JAct where
  | call (predecessor : AccountId) (deposit timestamp : Nat) (name : String) (b : Bytes)
  | resolve (i : Nat) (ok : Bool) (timestamp : Nat)

def jact (w : World) : JAct → Option World
  | .call p d ts name b =>
    if validAccount p = true ∧ ¬ mirrored p ∧ w.clock ≤ ts ∧ ts ≤ U64_MAX then
      match Call.read name b, callJson w.st ⟨"me", p, d, ts, []⟩ name b with
      | some k, .ok r => some ⟨r.1, w.pending ++ r.2, ts, .call ⟨"me", p, d, ts, []⟩ k r.2 :: w.log⟩
      | _, _ => none
    else none
  | .resolve i ok ts =>
    match w.pending[i]? with
    | some t =>
      if w.clock ≤ ts ∧ ts ≤ U64_MAX then
        some ⟨((callJson w.st ⟨"me", "me", 0, ts, [ok]⟩ t.callbackCall.write.1 t.callbackCall.write.2).getOr (w.st, [])).1,
          w.pending.take i ++ w.pending.drop (i + 1), ts, .resolved t ok
            (Res.isOk (callJson w.st ⟨"me", "me", 0, ts, [ok]⟩ t.callbackCall.write.1 t.callbackCall.write.2)) :: w.log⟩
      else none
    | none => none

theorem jstep_of_jact {w w' : World} {a : JAct} (h : jact w a = some w') : JStep "me" w w' := by
  cases a with
  | call p d ts name b =>
    simp only [jact] at h
    split at h
    · rename_i hc
      split at h
      · rename_i k r hk hr
        cases h
        exact .call w ⟨"me", p, d, ts, []⟩ name b k r.1 r.2 hk hc.1 rfl rfl hc.2.1 hc.2.2.1 hc.2.2.2 hr
      · cases h
    · cases h
  | resolve i ok ts =>
    simp only [jact] at h
    split at h
    · rename_i t ht
      split at h
      · rename_i hc
        cases h
        refine .resolve w _ _ t ok ts ?_ hc.1 hc.2
        obtain ⟨hi, hg⟩ := List.getElem?_eq_some_iff.1 ht
        rw [← hg, List.getElem_cons_drop, List.take_append_drop]
      · cases h
    · cases h

def jruns (w : World) : List JAct → Option World
  | [] => some w
  | a :: l => (jact w a).bind fun w' => jruns w' l

theorem jsteps_of_jruns {w0 : World} {l : List JAct} : ∀ {w w' : World}, JSteps "me" w0 w → jruns w l = some w' →
    JSteps "me" w0 w' := by
  induction l with
  | nil => intro w w' h hr; cases hr; exact h
  | cons a l ih =>
    intro w w' h hr
    simp only [jruns, Option.bind_eq_some_iff] at hr
    obtain ⟨w1, h1, h2⟩ := hr
    exact ih (h.step (jstep_of_jact h1)) h2

theorem JReach.steps {me : AccountId} {w w' : World} (h : JReach me w) (hs : JSteps me w w') : JReach me w' := by
  induction hs with
  | refl => exact h
  | step _ hs ih => exact ih.step hs

/-- The input of `new`; its members are in another order, with one unknown. -/
def newInput : Bytes := ascii "{\"owner_id\":\"owner\",\"operator_id\":\"operator\",\"note\":[null,{\"x\":-1.5e3}],\"min_unbond_period\":1,\"max_unbond_period\":300,\"min_deposit_amount\":\"1000000\",\"max_locking_positions\":3,\"max_voting_positions\":2,\"stnear_token_contract_address\":\"stnear\",\"mpdao_token_contract_address\":\"mpdao\",\"registration_cost\":\"0\",\"prev_governance_contract\":\"old-gov\"}"

theorem newInput_init : JInit demo0 :=
  .mk newInput "owner" "operator" 1 300 1000000 3 2 "mpdao" "stnear" 0 "old-gov" 0 _ (by decide +kernel) (by decide) rfl

def stuckActs : List JAct :=
  [.call "mpdao" 0 1000 "ft_on_transfer"
     (ascii "{\"sender_id\":\"alice\",\"amount\":\"60000000\",\"msg\":\"60\"}"),
   .call "mpdao" 0 2000 "ft_on_transfer"
     (ascii "{\"sender_id\":\"owner\",\"amount\":\"30000000\",\"msg\":\"[\\\"Bob\\\",30]\"}"),
   .call "mpdao" 0 4000 "ft_on_transfer"
     (ascii "{\"msg\":\"for-claims:[[\\\"alice\\\",5],[\\\"Bob\\\",7]]\",\"sender_id\":\"dist\",\"amount\":\"12000000\"}")]

/-- The owner deposits for `Bob`, and rewards are distributed to `Bob`. -/
def stuckWorld : World := (jruns demo0 stuckActs).get (by decide +kernel)

theorem stuckWorld_reach : JReach "me" stuckWorld :=
  (JReach.init newInput_init).steps (jsteps_of_jruns .refl (Option.some_get _).symm)

/-- Alice unlocks and withdraws; the payment fails, and they withdraw again. -/
def paidActs : List JAct :=
  [.call "alice" 0 5000 "unlock_position" (ascii "{\"index\":0}"),
   .call "alice" 1 (61 * DAY) "withdraw_all" (ascii "{}"), .resolve 0 false (61 * DAY),
   .call "alice" 1 (62 * DAY) "withdraw_all" (ascii "{}")]

theorem jruns_append {l l' : List JAct} : ∀ {w : World}, jruns w (l ++ l') = (jruns w l).bind fun w' => jruns w' l' := by
  induction l with
  | nil => intro w; rfl
  | cons a l ih =>
    intro w
    rw [List.cons_append, jruns, jruns, Option.bind_assoc]
    congr 1
    funext w'
    exact ih

def paidWorld : World := (jruns demo0 (stuckActs ++ paidActs)).get (by decide +kernel)

theorem paidWorld_steps : JSteps "me" stuckWorld paidWorld := by
  have h : jruns demo0 (stuckActs ++ paidActs) = some paidWorld := (Option.some_get _).symm
  rw [jruns_append, show jruns demo0 stuckActs = some stuckWorld from (Option.some_get _).symm, Option.bind_some] at h
  exact jsteps_of_jruns .refl h

/-- C97: the contract accepts deposits and rewards for an id that no account can have, and by `C97_stuck` they are never paid. -/
theorem C97_no_account_false : ∃ w, JReach "me" w ∧ ∃ id, validAccount id = false ∧ ¬ mirrored id ∧
    (w.st.voterD id).held = 30000000 ∧ w.st.get_claimable_mpdao id = 7000000 ∧
    ∀ w', JSteps "me" w w' → 30000000 ≤ (w'.st.voterD id).held ∧ 7000000 ≤ w'.st.get_claimable_mpdao id := by
  refine ⟨stuckWorld, stuckWorld_reach, "Bob", by decide +kernel, by decide +kernel, by decide +kernel, by decide +kernel, ?_⟩
  intro w' h
  have hs := C97_stuck stuckWorld_reach (by decide +kernel) h (id := "Bob") (by decide +kernel) (by decide +kernel)
  exact ⟨by have := hs.held; rwa [show (stuckWorld.st.voterD "Bob").held = 30000000 by decide +kernel] at this,
    by have := hs.mpdao; rwa [show stuckWorld.st.get_claimable_mpdao "Bob" = 7000000 by decide +kernel] at this⟩

example : JSteps "me" stuckWorld paidWorld ∧ paidWorld.pending.map (fun t => (t.receiver, t.amount)) = [("alice", 60000000)] ∧
    validAccount paidWorld.st.owner_id = true ∧ (paidWorld.st.voterD "Bob").held = 30000000 :=
  ⟨paidWorld_steps, by decide +kernel, (C97_accounts_partial (stuckWorld_reach.steps paidWorld_steps)).1, by decide +kernel⟩

/-- Two orders of the same members. -/
example : ∃ l l' : List (String × Val), parse (ascii "{\"a\":[],\"b\":null}") = some (.obj l) ∧
    parse (ascii "{\"b\":null,\"a\":[]}") = some (.obj l') ∧ l.Perm l' := by
  refine ⟨[("a", .arr []), ("b", .null)], [("b", .null), ("a", .arr [])], ?_, ?_, .swap _ _ _⟩
  · rw [show ascii "{\"a\":[],\"b\":null}" = render (.obj [("a", .arr []), ("b", .null)]) by decide +kernel]
    exact parse_render (.obj (by
      intro p hp
      simp only [List.mem_cons, List.not_mem_nil, or_false] at hp
      rcases hp with rfl | rfl <;> first | exact .null _ | exact .arr (by simp)))
  · rw [show ascii "{\"b\":null,\"a\":[]}" = render (.obj [("b", .null), ("a", .arr [])]) by decide +kernel]
    exact parse_render (.obj (by
      intro p hp
      simp only [List.mem_cons, List.not_mem_nil, or_false] at hp
      rcases hp with rfl | rfl <;> first | exact .null _ | exact .arr (by simp)))

/-- No message named `carol`. -/
example : ∀ c k out, .call c k out ∈ paidWorld.log → ¬ k.names "carol" := by
  have h : paidWorld.log.all (fun e => match e with
    | .call _ (.ft_on_transfer se _ m) _ => if forClaims m then !((claimItems serde m).map Prod.fst).contains "carol"
        else decide (beneficiary serde se m ≠ some "carol")
    | .call _ (.migration_create_lps ..) _ => false
    | _ => true) = true := by decide +kernel
  intro c k out hk hn
  have := List.all_eq_true.1 h _ hk
  cases k <;> simp [Call.names] at hn this
  grind

example : Call.in_range (.locking_position_extend_days 3 60) = true ∧ (Call.locking_position_extend_days 3 60).valid ∧
    Call.read "locking_position_extend_days" (ascii "{\"new_locking_period\":60,\"index\":3}") =
      some (.locking_position_extend_days 3 60) ∧
    Call.read "locking_position_extend_days" (ascii "{\"new_locking_period\":65536,\"index\":3}") = none ∧
    Call.read "set_owner_id" (ascii "{\"owner_id\":\"Bob\"}") = none := by
  refine ⟨by decide, trivial, by decide +kernel, by decide +kernel, by decide +kernel⟩

end Verif.MetaVote
