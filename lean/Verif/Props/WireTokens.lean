import Verif.Serde.Wire
import Verif.Props.Logs
import Verif.MetaVote.Locked
import Verif.Token.Effects

/-!
# C95: meta-vote and the token contracts understand each other's JSON
-/

namespace Verif.MetaVote

open Verif Storage Serde

/-! ## Payments -/

theorem lpending_faithful {J : Json} {me : AccountId} {w : World} (h : LReach J me w) : ∀ t ∈ w.pending, t.faithful := by
  induction h with
  | init h => cases h; simp
  | @step w w' h hs ih =>
    cases hs with
    | call c k s' out _ _ _ _ _ he =>
      intro t ht
      rcases List.mem_append.1 ht with h1 | h1
      · exact ih t h1
      · cases he with
        | exact he => exact sends_faithful (fun id => (lreach_fundOK h id).1) he t h1
        | vote => cases h1
        | mirror => cases h1
    | resolve pre post t ok ts hpend =>
      intro t ht
      refine ih t ?_
      rw [hpend]
      rcases List.mem_append.1 ht with ht | ht
      · exact List.mem_append_left _ ht
      · exact List.mem_append_right _ (List.mem_cons_of_mem _ ht)
    | tick => exact ih

theorem pending_faithful {J : Json} {me : AccountId} {w : World} (h : Reach J me w) : ∀ t ∈ w.pending, t.faithful :=
  lpending_faithful h.loose

theorem Transfer.faithful.payment {t : Transfer} (h : t.faithful) : Token.Call.read t.write.1 t.write.2 =
    if validAccount t.receiver = true then some (.ft_transfer t.receiver t.amount) else none := by
  have hle := h.1
  split
  · rename_i hv
    exact argsOf_argsTo (h' := by decide) (F := Token.Args.ft_transfer) (mk := fun a => Token.Call.ft_transfer a.1 a.2.1) (a := (t.receiver, t.amount, none))
      ⟨hv, hle, fun x hx => by cases hx⟩ (by decide)
  · rename_i hv
    cases hr : Token.Call.read t.write.1 t.write.2 with
    | none => rfl
    | some k =>
      exfalso
      obtain ⟨p, h1, -⟩ := Option.map_eq_some_iff.1 (show argsOf Token.Args.ft_transfer _ _ = some k from hr)
      obtain ⟨v, h2, h3⟩ := Option.bind_eq_some_iff.1 h1
      have hg := (struct (Fields.one "receiver_id" str ⊗ Fields.one "amount" u128 ⊗
        Fields.opt "memo" str (fun _ => by simp [str])) (by decide)).good (t.receiver, t.amount, none)
          ⟨trivial, hle, fun x hx => by cases hx⟩
      have h4 := parse_render (hg.mono (by decide : _ ≤ 128))
      have h5 : parse t.write.2 = _ := h4
      rw [h5] at h2
      cases h2
      have h6 : account.read (.str t.receiver) = none := by
        simp only [account]
        rw [if_neg hv]
      have : (struct Token.Args.ft_transfer (by decide)).read (.obj [("receiver_id", .str t.receiver),
        ("amount", u128.write t.amount), ("memo", .null)]) = none := by
        simp [struct, Token.Args.ft_transfer, Fields.and, Fields.one, member, times, h6]
      exact absurd (h3.symm.trans this) (by simp)

/-- C95: the token reads a payment of meta-vote as a transfer of that amount to that receiver, and refuses it if the receiver
is not a valid account id (voters are plain strings in meta-vote). -/
theorem C95_payment {J : Json} {me : AccountId} {w : World} (h : Reach J me w) {t : Transfer} (ht : t ∈ w.pending) :
    Token.Call.read t.write.1 t.write.2 =
      if validAccount t.receiver = true then some (.ft_transfer t.receiver t.amount) else none :=
  (pending_faithful h t ht).payment

theorem Transfer.faithful.callback {t : Transfer} (h : t.faithful) :
    Call.read t.callbackCall.write.1 t.callbackCall.write.2 = some t.callbackCall := by
  obtain ⟨h1, h2⟩ := h
  unfold Transfer.callbackCall
  revert h2
  cases t.callback <;> intro h2 <;> simp only at h2 ⊢ <;> subst h2 <;>
    exact Call.read_write (by simpa [Call.in_range] using h1) trivial

/-- C95: the callback of a payment is read as it was written, whatever the id of the voter. -/
theorem C95_callback {J : Json} {me : AccountId} {w : World} (h : Reach J me w) {t : Transfer} (ht : t ∈ w.pending) :
    Call.read t.callbackCall.write.1 t.callbackCall.write.2 = some t.callbackCall := (pending_faithful h t ht).callback

/-! ## Transfer-calls -/

/-- C95: a transfer-call made on a token by an existing account reaches meta-vote with the same sender, amount and message; the
result of an accepted deposit is read by the token as "nothing unused". -/
theorem C95_notify {s s' : Token.State} {c : Token.Ctx} {name : String} {b : Bytes} {k : Token.Call} {out : List Token.Promise}
    (hb : Token.Call.read name b = some k) (hc : validAccount c.predecessor = true) (hx : Token.exec s c k = .ok (s', out))
    {a r : String} {n : Nat} {m : List UInt8} (hm : .notify a r n m ∈ out) :
    a = c.predecessor ∧ k = .ft_transfer_call r n m ∧
      Call.read "ft_on_transfer" (Call.ft_on_transfer a n m).write.2 = some (.ft_on_transfer a n m) ∧
      Token.Call.read "ft_resolve_transfer" (Token.Call.ft_resolve_transfer a r n).write.2 = some (.ft_resolve_transfer a r n) ∧
      u128.decode onTransferResult = some 0 := by
  obtain ⟨hr, hv, -⟩ := Token.Call.read_ok hb
  have key : a = c.predecessor ∧ k = .ft_transfer_call r n m := by
    have hp : ∀ {x : Token.Promise} {i : String} {j : Nat}, x ∈ Token.pays i j → x = .pay i j := by
      intro x i j h
      unfold Token.pays at h
      split at h <;> simp at h
      exact h
    simp only [Token.exec, bind_ok_iff, require_ok_iff] at hx
    obtain ⟨-, -, -, -, hx⟩ := hx
    cases k <;> simp only [bind_ok_iff, pure_ok_iff] at hx
    case ft_transfer_call r1 n1 m1 =>
      obtain ⟨_, _, hx⟩ := hx
      cases hx
      simp only [List.mem_singleton, Token.Promise.notify.injEq] at hm
      obtain ⟨rfl, rfl, rfl, rfl⟩ := hm
      exact ⟨rfl, rfl⟩
    case ft_resolve_transfer =>
      obtain ⟨_, _, _, _, hx⟩ := hx
      cases hx
      exact absurd hm List.not_mem_nil
    all_goals
      exfalso
      obtain ⟨_, _, hx⟩ := hx
      cases hx
      first
        | exact absurd hm List.not_mem_nil
        | exact absurd (hp hm) (by simp)
  obtain ⟨rfl, rfl⟩ := key
  refine ⟨rfl, rfl, ?_, ?_, u128.decode_encode (Nat.zero_le _) (by decide)⟩
  · exact Call.read_write (k := .ft_on_transfer c.predecessor n m) hr ⟨hc, hv.2⟩
  · exact Token.Call.read_write (k := .ft_resolve_transfer c.predecessor r n) hr ⟨hc, hv.1⟩

/-! ## Messages -/

theorem list_bracket {α : Type} (T : Ty α) (l : List α) : ∃ t, (list T).encode l = 0x5B :: t := by
  cases l with
  | nil => exact ⟨[0x5D], by simp [Ty.encode, list, render]⟩
  | cons a l => exact ⟨render (T.write a) ++ renderElems (l.map T.write), by simp [Ty.encode, list, render]⟩

theorem pair_bracket {α β : Type} (S : Ty α) (T : Ty β) (p : α × β) : ∃ t, (pair S T).encode p = 0x5B :: t :=
  ⟨render (S.write p.1) ++ renderElems [T.write p.2], by simp [Ty.encode, pair, render]⟩

/-- ASCII text can be cut anywhere. -/
theorem ascii_cuts {m : Bytes} (h : ∀ b ∈ m, b < 0x80) (i : Nat) : cutsAt m i := by
  intro b hb
  have key : ∀ n < 256, UInt8.ofNat n < 0x80 → UInt8.ofNat n &&& 0xC0 ≠ 0x80 := by decide +kernel
  have := key b.toNat b.toNat_lt
  rw [UInt8.ofNat_toNat] at this
  exact this (h b (List.mem_of_getElem? hb))

theorem char_ascii {c : Char} (h : c.toNat < 128) : ∀ b ∈ String.utf8EncodeChar c, b < 0x80 := by
  have key : ∀ n < 128, ∀ b ∈ String.utf8EncodeChar (Char.ofNat n), b < 0x80 := by decide +kernel
  have := key c.toNat h
  rwa [Char.ofNat_toNat] at this

theorem account_ascii {s : String} (h : validAccount s = true) : ∀ b ∈ utf8 s, b < 0x80 := by
  have hc : ∀ (l : List Char) (sep : Bool), accountChars l sep = true → ∀ c ∈ l, c.toNat < 128 := by
    intro l
    induction l with
    | nil => intro _ _ c hc; cases hc
    | cons x l ih =>
      intro sep hs c hc
      unfold accountChars at hs
      have hx : x.toNat < 128 ∧ ∃ sep', accountChars l sep' = true := by
        split at hs
        · rename_i h1
          refine ⟨?_, _, hs⟩
          have e : ∀ y : Char, x ≤ y → x.toNat ≤ y.toNat := fun y hy => hy
          rcases h1 with h1 | h1
          · have := e _ h1.2; have : 'z'.toNat = 122 := rfl; omega
          · have := e _ h1.2; have : '9'.toNat = 57 := rfl; omega
        · split at hs
          · rename_i h1
            rw [Bool.and_eq_true] at hs
            refine ⟨?_, _, hs.2⟩
            rcases h1 with rfl | rfl | rfl <;> decide
          · cases hs
      rcases List.mem_cons.1 hc with rfl | hc
      · exact hx.1
      · exact ih _ hx.2.choose_spec c hc
  simp only [validAccount, Bool.and_eq_true] at h
  have e : utf8 s = s.toList.flatMap String.utf8EncodeChar := by rw [← utf8_ofList, String.ofList_toList]
  intro b hb
  rw [e] at hb
  obtain ⟨c, h1, h2⟩ := List.mem_flatMap.1 hb
  exact char_ascii (hc _ _ h.2 c h1) b h2

theorem quote_ascii {s : String} (h : ∀ b ∈ utf8 s, b < 0x80) : ∀ b ∈ quote s, b < 0x80 := by
  have key : ∀ n < 128, ∀ x ∈ escape (UInt8.ofNat n), x < 0x80 := by decide +kernel
  intro b hb
  unfold quote at hb
  rw [List.cons_append, List.mem_cons, List.mem_append, List.mem_singleton] at hb
  rcases hb with rfl | hb | rfl
  · decide
  · obtain ⟨x, h1, h2⟩ := List.mem_flatMap.1 hb
    have := key x.toNat (UInt8.lt_iff_toNat_lt.1 (h x h1))
    rw [UInt8.ofNat_toNat] at this
    exact this b h2
  · decide

theorem digit_ascii {b : UInt8} (h : isDigit b = true) : b < 0x80 := by
  obtain ⟨n, h1, rfl⟩ := isDigit_digit h
  have key : ∀ n < 10, digit n < 0x80 := by decide +kernel
  exact key n h1

/-- C95: the message `["voter", days]` of the owner locks the tokens for that voter and those days.  (With an id that is not an
account the message may be refused: its eleventh byte must not be inside a character.) -/
theorem C95_for_other {s : State} {c : Ctx} {v : String} {d : Nat} (n : Nat) (hv : validAccount v = true) (hd : d ≤ U16_MAX)
    (hc : c.predecessor = s.mpdao_token_contract_address) :
    s.ft_on_transfer serde c s.owner_id n ((pair str u16).encode (v, d)) = (do
      s.assert_min_deposit_amount n
      let r ← s.deposit_locking_position n d v (s.internal_get_voter v)
      pure r.1) := by
  have he : (pair str u16).encode (v, d) = 0x5B :: (quote v ++ 0x2C :: (Serde.decimal d ++ [0x5D])) := by
    simp [Ty.encode, pair, render, renderElems, str, u16, uint]
  have hasc : ∀ b ∈ (pair str u16).encode (v, d), b < 0x80 := by
    rw [he]
    intro b hb
    simp only [List.mem_cons, List.mem_append, List.not_mem_nil, or_false] at hb
    rcases hb with rfl | hb | rfl | hb | rfl
    · decide
    · exact quote_ascii (account_ascii hv) b hb
    · decide
    · exact digit_ascii (decimal_digits d b hb)
    · decide
  have h1 : has_prefix ((pair str u16).encode (v, d)) FOR_CLAIMS = .ok false := by
    rw [has_prefix_iff]
    refine ⟨ascii_cuts hasc _, ?_⟩
    simp only [Bool.false_eq_true, false_iff]
    rintro ⟨t, ht⟩
    rw [he] at ht
    simp [FOR_CLAIMS] at ht
  have h2 : has_prefix ((pair str u16).encode (v, d)) [91] = .ok true := by
    rw [has_prefix_iff]
    refine ⟨ascii_cuts hasc _, ?_⟩
    rw [he]
    exact ⟨fun _ => ⟨_, rfl⟩, fun _ => rfl⟩
  have hj : serde.parse_pair ((pair str u16).encode (v, d)) = some (v, d) := by
    unfold Json.parse_pair
    rw [show serde.pair _ = some (v, d) from (pair str u16).decode_encode ⟨trivial, hd⟩ (by decide)]
    simp only
    rw [if_pos hd]
  unfold State.ft_on_transfer State.deposit_target
  rw [h1, h2, hj, hc]
  simp [require, expect, bind, Except.bind, pure, Except.pure]

/-- C95: and nobody else can lock tokens by such a message. -/
theorem C95_only_owner {s : State} {c : Ctx} {v sender : String} {d n : Nat} (hs : sender ≠ s.owner_id) :
    (s.ft_on_transfer serde c sender n ((pair str u16).encode (v, d))).isOk = false := by
  obtain ⟨t, ht⟩ := pair_bracket str u16 (v, d)
  cases hx : s.ft_on_transfer serde c sender n ((pair str u16).encode (v, d)) with
  | error e => rfl
  | ok s' =>
    exfalso
    unfold State.ft_on_transfer State.deposit_target at hx
    simp only [bind_ok_iff] at hx
    obtain ⟨b, h1, hx⟩ := hx
    have hb : b = false := by
      rw [has_prefix_iff] at h1
      cases b with
      | false => rfl
      | true =>
        obtain ⟨u, hu⟩ := h1.2.1 rfl
        rw [ht] at hu
        simp [FOR_CLAIMS] at hu
    subst hb
    simp only [Bool.false_eq_true, if_false, bind_ok_iff] at hx
    obtain ⟨_, _, _, ⟨b, h2, hx⟩, _⟩ := hx
    have hb : b = true := (has_prefix_iff.1 h2).2.2 (by rw [ht]; exact ⟨t, rfl⟩)
    subst hb
    simp only [if_true, bind_ok_iff, require_ok_iff] at hx
    obtain ⟨_, _, _, h3, _⟩ := hx
    exact hs h3

theorem digits_undecimal : ∀ (l : Bytes) (acc : Nat), digits l acc = undecimal l acc
  | [], _ => rfl
  | b :: t, acc => by
    unfold digits undecimal
    have : isDigit b = true ↔ 48 ≤ b.toNat ∧ b.toNat ≤ 57 := by
      simp [isDigit, UInt8.le_iff_toNat_le]
    by_cases h : isDigit b = true
    · rw [if_pos h, if_pos (this.1 h), digits_undecimal t]
    · rw [if_neg h, if_neg (fun x => h (this.2 x))]

/-- C95: a decimal number as message locks the tokens for the sender, for that many days. -/
theorem C95_days {s : State} {c : Ctx} {sender : String} {d : Nat} (n : Nat) (hd : d ≤ U16_MAX)
    (hc : c.predecessor = s.mpdao_token_contract_address) :
    s.ft_on_transfer serde c sender n (Serde.decimal d) = (do
      s.assert_min_deposit_amount n
      let r ← s.deposit_locking_position n d sender (s.internal_get_voter sender)
      pure r.1) := by
  obtain ⟨x, t, hxt, -⟩ := decimal_head d
  have hdig := decimal_digits d
  have hx : isDigit x = true := hdig x (by rw [hxt]; simp)
  have hcut : ∀ i, cutsAt (Serde.decimal d) i := ascii_cuts fun b hb => digit_ascii (hdig b hb)
  have no : ∀ y ys, isDigit y = false → has_prefix (Serde.decimal d) (y :: ys) = .ok false := by
    intro y ys hy
    rw [has_prefix_iff]
    refine ⟨hcut _, ?_⟩
    simp only [Bool.false_eq_true, false_iff]
    rintro ⟨u, hu⟩
    rw [hxt] at hu
    simp only [List.cons_append, List.cons.injEq] at hu
    rw [hu.1, hx] at hy; cases hy
  have hp : parse_u16 (Serde.decimal d) = some d := by
    have h43 : ∀ u, Serde.decimal d ≠ 43 :: u := by
      intro u hu
      rw [hxt] at hu
      simp only [List.cons.injEq] at hu
      rw [hu.1] at hx; exact absurd hx (by decide)
    rw [parse_u16_iff]
    have h1 := decimal_value d
    rw [← digits_undecimal, digits_iff] at h1
    exact ⟨Serde.decimal d, by rw [hxt]; simp, .inl rfl, h1.1, h1.2, hd⟩
  unfold State.ft_on_transfer State.deposit_target
  rw [show FOR_CLAIMS = 102 :: [111, 114, 45, 99, 108, 97, 105, 109, 115, 58] from rfl, no _ _ (by decide), no _ _ (by decide), hp, hc]
  simp [require, expect, bind, Except.bind, pure, Except.pure]

/-- C95: a distribution written as JSON is distributed exactly as listed. -/
theorem C95_claims (s : State) (c : Ctx) (sender : String) (n : Nat) {l : List (String × Nat)} (hl : ∀ x ∈ l, x.2 ≤ U64_MAX) :
    s.ft_on_transfer serde c sender n (utf8 "for-claims:" ++ (list (pair str u64)).encode l) = s.distribute_for_claims c n l := by
  have hf : utf8 "for-claims:" = FOR_CLAIMS := by decide +kernel
  have hok : (list (pair str u64)).ok l := fun x hx => ⟨trivial, hl x hx⟩
  have hd := (list (pair str u64)).decode_encode hok (by decide)
  obtain ⟨t, ht⟩ := list_bracket (pair str u64) l
  have hp : has_prefix (FOR_CLAIMS ++ (list (pair str u64)).encode l) FOR_CLAIMS = .ok true := by
    refine has_prefix_eq_true ⟨_, rfl⟩ ?_
    rw [ht]; rfl
  have hj : serde.parse_claims ((list (pair str u64)).encode l) = some l := by
    unfold Json.parse_claims
    rw [show serde.claims _ = some l from hd]
    simp only
    rw [if_pos]
    rw [List.all_eq_true]
    exact fun x hx => decide_eq_true (hl x hx)
  rw [hf]
  unfold State.ft_on_transfer
  rw [hp]
  rw [show (FOR_CLAIMS ++ (list (pair str u64)).encode l).drop 11 = (list (pair str u64)).encode l from rfl, hj]
  rfl

/-! ## Examples -/

/-- Alice asks for their unlocked tokens and for stNEAR; an owner's deposit went to an id that is not an account. -/
def wirePay : World := (runs serde "me" demo0
  [.call "mpdao" 0 1000 (.ft_on_transfer "alice" 60000000 (ascii "60")),
   .call "stnear" 0 1000 (.ft_on_transfer "dist" (12 * 10 ^ 20) (ascii "for-claims:[[\"alice\",5],[\"bob\",7]]")),
   .call "alice" 0 2000 (.unlock_position 0), .call "alice" 1 (61 * DAY) .withdraw_all,
   .call "alice" 0 (61 * DAY) (.claim_stnear (5 * 10 ^ 20))]).get (by decide +kernel)

example : Reach serde "me" wirePay ∧ wirePay.pending.map (fun t => (t.token, t.receiver, t.amount)) =
      [("mpdao", "alice", 60000000), ("stnear", "alice", 5 * 10 ^ 20)] ∧
    wirePay.pending.map (fun t => Token.Call.read t.write.1 t.write.2) =
      [some (.ft_transfer "alice" 60000000), some (.ft_transfer "alice" (5 * 10 ^ 20))] :=
  ⟨reach_of_runs demo0_init (Option.some_get _).symm, by decide +kernel, by decide +kernel⟩

/-- A delegated claim is paid to an id with capitals: the token refuses. -/
example : Token.Call.read (Transfer.mk "stnear" "Bob" 5 (.after_transfer_stnear "Bob" 5)).write.1
    (Transfer.mk "stnear" "Bob" 5 (.after_transfer_stnear "Bob" 5)).write.2 = none ∧ validAccount "Bob" = false := by
  decide +kernel

/-- A transfer-call on the token. -/
example : Token.Call.read "ft_transfer_call" (ascii "{\"receiver_id\":\"meta-vote.near\",\"amount\":\"7\",\"msg\":\"30\"}") =
      some (.ft_transfer_call "meta-vote.near" 7 (ascii "30")) ∧ validAccount "alice" = true ∧
    (Token.exec ⟨(UMap.empty.insert "alice" 10).insert "meta-vote.near" 0, 10, 5, "own", []⟩ ⟨"tok", "alice", 1, none⟩
      (.ft_transfer_call "meta-vote.near" 7 (ascii "30"))).isOk = true := by
  decide +kernel

example : utf8 "for-claims:" ++ (list (pair str u64)).encode [("alice", 5), ("bob", 7)] =
    ascii "for-claims:[[\"alice\",5],[\"bob\",7]]" := by decide +kernel

example : (pair str u16).encode ("bob", 30) = ascii "[\"bob\",30]" ∧ validAccount "bob" = true ∧
    (demo0.st.ft_on_transfer serde ⟨"me", "mpdao", 0, 1000, []⟩ "owner" 30000000 ((pair str u16).encode ("bob", 30))).isOk = true ∧
    demo0.st.mpdao_token_contract_address = "mpdao" ∧ demo0.st.owner_id = "owner" := by decide +kernel

example : Serde.decimal 60 = ascii "60" ∧
    (demo0.st.ft_on_transfer serde ⟨"me", "mpdao", 0, 1000, []⟩ "alice" 30000000 (Serde.decimal 60)).isOk = true := by decide +kernel

/-- An id with other letters: byte eleven is inside a character, and the owner's message is refused. -/
example : (demo0.st.ft_on_transfer serde ⟨"me", "mpdao", 0, 1000, []⟩ "owner" 30000000
    ((pair str u16).encode ("жжжжжж", 30))).isOk = false := by decide +kernel

end Verif.MetaVote
