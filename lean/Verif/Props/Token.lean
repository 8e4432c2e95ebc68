import Verif.Token.Effects

/-!
# C64, C65, C71, C72: the fungible token
-/

namespace Verif.Token

open Verif

variable {s s' : State} {c : Ctx} {k : Call} {out : List Promise} {me : AccountId} {w w' : World}

/-! ## Invariants of executions -/

theorem new_ok {cost supply : Nat} {owner : AccountId} (h : new false true cost owner supply = .ok s) :
    s.accounts = UMap.empty.insert owner supply ∧ s.total_supply = supply ∧ s.owner_id = owner ∧ s.minters = [] ∧
      s.storage_cost = cost := by
  simp only [new, State.internal_register_account, State.internal_deposit, State.internal_unwrap_balance_of,
    bind_ok_iff, require_ok_iff, expect_ok_iff, addU128_ok_iff, pure_ok_iff] at h
  obtain ⟨-, -, -, -, s1, ⟨-, -, rfl⟩, b, hb, _, ⟨-, rfl⟩, _, ⟨-, rfl⟩, rfl⟩ := h
  simp only [UMap.get_insert, if_true, Option.some.injEq] at hb
  subst hb
  refine ⟨?_, by simp, rfl, rfl, rfl⟩
  simp [UMap.insert, insertL, UMap.empty]

/-- Supply, minters, outstanding resolutions. -/
structure Inv (w : World) : Prop where
  sound : Sound w.st
  nodup : w.st.minters.Nodup
  distinct : ∀ p ∈ w.pending, p.sender ≠ p.receiver ∧ p.amount ≤ U128_MAX

theorem Change.minters_nodup (h : Change s c k s') (hn : s.minters.Nodup) : s'.minters.Nodup := by
  cases h with
  | added hd h ha => exact List.nodup_append.2 ⟨hn, by simp, by simp; rintro x hx rfl; exact ha hx⟩
  | @removed a hd h ha =>
    exact ((swapRemove_perm _ _ (List.idxOf_lt_length_of_mem ha)).nodup_iff.1 hn |> List.nodup_cons.1).2
  | _ => exact hn

theorem notified_mem (h : exec s c k = .ok (s', out)) {p : Pending} (hp : p ∈ notified out) :
    ∃ m, k = .ft_transfer_call p.receiver p.amount m ∧ p.sender = c.predecessor ∧ notified out = [p] ∧
      s.ft_transfer c p.receiver p.amount = .ok s' := by
  simp only [exec, bind_ok_iff, require_ok_iff] at h
  obtain ⟨-, -, -, -, h⟩ := h
  cases k <;> simp only [bind_ok_iff, pure_ok_iff, Prod.mk.injEq] at h
  case ft_transfer_call r n m =>
    obtain ⟨_, h, rfl, rfl⟩ := h
    simp only [notified, List.mem_singleton] at hp
    subst hp
    exact ⟨m, rfl, rfl, rfl, h⟩
  case ft_resolve_transfer => obtain ⟨_, -, _, -, -, rfl⟩ := h; simp [notified] at hp
  case storage_deposit => obtain ⟨x, -, -, rfl⟩ := h; unfold pays at hp; split at hp <;> simp [notified] at hp
  case storage_unregister => obtain ⟨x, -, -, rfl⟩ := h; unfold pays at hp; split at hp <;> simp [notified] at hp
  all_goals (obtain ⟨_, -, -, rfl⟩ := h; simp [notified] at hp)

/-- The state after a resolution comes from an accepted call or is unchanged. -/
theorem resolve_change (s : State) (p : Pending) (r : Option Nat) :
    Change s ⟨me, me, 0, r⟩ (.ft_resolve_transfer p.sender p.receiver p.amount)
      ((exec s ⟨me, me, 0, r⟩ (.ft_resolve_transfer p.sender p.receiver p.amount)).getOr (s, [])).1 := by
  cases h : exec s ⟨me, me, 0, r⟩ (.ft_resolve_transfer p.sender p.receiver p.amount) with
  | error e => exact .same
  | ok x => exact exec_change (out := x.2) h

theorem Step.inv (h : Step me w w') (hi : Inv w) : Inv w' := by
  cases h with
  | call c k s' out hme hpr h =>
    refine ⟨(exec_change h).sound hi.sound, (exec_change h).minters_nodup hi.nodup, ?_⟩
    intro p hp
    rcases List.mem_append.1 hp with hp | hp
    · exact hi.distinct p hp
    · obtain ⟨m, -, e, -, ht⟩ := notified_mem h hp
      obtain ⟨-, h1, -, b, b', -, -, h2, -, -, h3, -⟩ := transfer_ok.1 ht
      rw [e]; exact ⟨h1, Nat.le_trans h2 h3⟩
  | resolve pre post p r hp =>
    refine ⟨(resolve_change _ p r).sound hi.sound, (resolve_change _ p r).minters_nodup hi.nodup, ?_⟩
    intro q hq
    refine hi.distinct q ?_
    rw [hp]
    rcases List.mem_append.1 hq with h | h <;> simp [h]

theorem Reach.inv (h : Reach me w) : Inv w := by
  induction h with
  | init h =>
    cases h with
    | mk cost owner supply s hs h =>
      obtain ⟨h1, h2, -, h4, -⟩ := new_ok h
      refine ⟨⟨?_, by simpa [h2] using hs⟩, by simp [h4], by simp⟩
      have := held_insert UMap.empty owner supply
      simp only [UMap.sum_empty, UMap.get_empty, Option.getD_none] at this
      simp only [held, h1, h2]; omega
  | step h hs ih => exact hs.inv ih

/-! ## C64 -/

theorem sum_cover (m : UMap AccountId Nat) : ∀ l : List AccountId, l.Nodup →
    (∀ a, (m.get a).getD 0 ≠ 0 → a ∈ l) → (l.map (fun a => (m.get a).getD 0)).sum = m.sum (fun _ n => n) := by
  intro l
  induction l generalizing m with
  | nil =>
    intro _ h
    refine (UMap.sum_eq_zero fun a n ha => ?_).symm
    have := h a
    simp only [ha, Option.getD_some, List.not_mem_nil, imp_false, not_not] at this
    exact this
  | cons x l ih =>
    intro hn h
    obtain ⟨hx, hn⟩ := List.nodup_cons.1 hn
    have e := ih (m.remove x) hn (by
      intro a ha
      rw [UMap.get_remove] at ha
      split at ha
      · simp at ha
      · rename_i hne
        rcases List.mem_cons.1 (h a ha) with rfl | h'
        · exact absurd rfl hne
        · exact h')
    have e2 : (l.map (fun a => ((m.remove x).get a).getD 0)) = l.map (fun a => (m.get a).getD 0) := by
      refine List.map_congr_left fun a ha => ?_
      have hne : x ≠ a := by rintro rfl; exact hx ha
      simp [UMap.get_remove, hne]
    have e3 := held_remove m x
    rw [e2] at e
    simp only [List.map_cons, List.sum_cons]
    omega

/-- C64: the supply is the sum of the balances of the accounts: of any duplicate-free list of accounts outside of which
all balances are 0; and it fits `u128`. -/
theorem C64_supply (h : Reach me w) (l : List AccountId) (hn : l.Nodup)
    (hl : ∀ a, w.st.ft_balance_of a ≠ 0 → a ∈ l) :
    w.st.ft_total_supply = (l.map w.st.ft_balance_of).sum ∧ w.st.ft_total_supply ≤ U128_MAX := by
  have hi := h.inv.sound
  refine ⟨?_, hi.2⟩
  have := sum_cover w.st.accounts l hn hl
  unfold State.ft_total_supply
  rw [hi.1]
  exact this.symm

/-- C64: only finitely many accounts have a balance, so such a list exists. -/
theorem C64_finite (s : State) : ∃ l : List AccountId, l.Nodup ∧ ∀ a, s.ft_balance_of a ≠ 0 → a ∈ l := by
  refine ⟨s.accounts.keys, s.accounts.nodup, fun a ha => UMap.mem_keys_iff.2 ?_⟩
  unfold State.ft_balance_of at ha
  cases h : s.accounts.get a with
  | none => simp [h] at ha
  | some n => exact ⟨n, rfl⟩

/-! ## C65 -/

/-- C65: a call that increases the supply is `ft_mint`, by a listed minter, with one yocto, and credits exactly the
increase to the caller and nothing to anybody else. -/
theorem C65_mint (h : exec s c k = .ok (s', out)) (hs : s.ft_total_supply < s'.ft_total_supply) :
    ∃ n, k = .ft_mint n ∧ c.predecessor ∈ s.get_minters ∧ c.deposit = 1 ∧
      s'.ft_total_supply = s.ft_total_supply + n ∧
      s'.ft_balance_of c.predecessor = s.ft_balance_of c.predecessor + n ∧
      ∀ a, a ≠ c.predecessor → s'.ft_balance_of a = s.ft_balance_of a := by
  have hc := exec_change h
  unfold State.ft_total_supply at *
  cases hc with
  | @minted n b hm hb h1 h2 =>
    refine ⟨n, rfl, hm, ?_, rfl, by simp [State.ft_balance_of, hb], ?_⟩
    · simp only [exec, State.ft_mint, assert_one_yocto, bind_ok_iff, require_ok_iff] at h
      obtain ⟨-, -, -, -, _, ⟨-, h, -⟩, -⟩ := h
      exact h
    · intro a ha
      simp [State.ft_balance_of, UMap.get_insert, ha.symm]
  | burned => simp only at hs; omega
  | forfeited => simp only at hs; omega
  | closed => simp only at hs; omega
  | _ => exact absurd hs (Nat.lt_irrefl _)

/-- C65: a resolution never increases the supply. -/
theorem C65_resolve (s : State) (p : Pending) (r : Option Nat) :
    ((exec s ⟨me, me, 0, r⟩ (.ft_resolve_transfer p.sender p.receiver p.amount)).getOr (s, [])).1.ft_total_supply
      ≤ s.ft_total_supply := by
  have h := resolve_change (me := me) s p r
  revert h
  generalize ((exec s ⟨me, me, 0, r⟩ (.ft_resolve_transfer p.sender p.receiver p.amount)).getOr (s, [])).1 = s'
  generalize p.sender = x
  generalize p.receiver = y
  intro h
  unfold State.ft_total_supply
  cases h with
  | forfeited => exact Nat.sub_le _ _
  | _ => exact Nat.le_refl _

/-- C65: exactly the listed minters that are registered can mint, up to the range of `u128`. -/
theorem C65_mint_accepted (h : Reach me w) (c : Ctx) (n : Nat) :
    (∃ r, exec w.st c (.ft_mint n) = .ok r) ↔ c.deposit = 1 ∧ c.predecessor ∈ w.st.get_minters ∧
      (w.st.accounts.get c.predecessor).isSome ∧ w.st.ft_total_supply + n ≤ U128_MAX := by
  have hi := h.inv.sound
  have hb := bal_le_held w.st c.predecessor
  simp only [exec, State.ft_mint, assert_one_yocto, State.assert_minter, State.internal_deposit,
      State.internal_unwrap_balance_of, bind_ok_iff, require_ok_iff, expect_ok_iff, addU128_ok_iff, pure_ok_iff,
      Call.payable, Call.in_range, decide_eq_true_eq, true_or, State.ft_total_supply, State.get_minters,
      Option.isSome_iff_exists]
  constructor
  · rintro ⟨r, -, -, -, h0, s1, ⟨-, h1, -, h2, b, hb, _, ⟨h3, rfl⟩, _, ⟨h4, rfl⟩, rfl⟩, rfl⟩
    exact ⟨h1, h2, ⟨b, hb⟩, h4⟩
  · rintro ⟨h1, h2, ⟨b, hb'⟩, h3⟩
    simp only [bal, hb', Option.getD_some] at hb
    have := hi.1
    exact ⟨_, (), trivial, (), by omega, _, ⟨(), h1, (), h2, b, hb', _, ⟨by omega, rfl⟩, _, ⟨h3, rfl⟩, rfl⟩, rfl⟩

/-- C65: the list of minters is changed only by the owner with one yocto, one minter at a time: an account is added or
removed, the others stay. -/
theorem C65_minters (hr : Reach me w) (h : exec w.st c k = .ok (s', out)) (hne : s'.get_minters ≠ w.st.get_minters) :
    c.predecessor = w.st.get_owner_id ∧ c.deposit = 1 ∧ ∃ a,
      (k = .add_minter a ∧ a ∉ w.st.get_minters ∧ ∀ b, b ∈ s'.get_minters ↔ b = a ∨ b ∈ w.st.get_minters) ∨
      (k = .remove_minter a ∧ a ∈ w.st.get_minters ∧ ∀ b, b ∈ s'.get_minters ↔ b ≠ a ∧ b ∈ w.st.get_minters) := by
  have hc := exec_change h
  have hn := hr.inv.nodup
  unfold State.get_minters at *
  cases hc with
  | @added a hd ho ha => exact ⟨ho, hd, a, .inl ⟨rfl, ha, fun b => by simp [or_comm]⟩⟩
  | @removed a hd ho ha =>
    refine ⟨ho, hd, a, .inr ⟨rfl, ha, fun b => ?_⟩⟩
    have hp := swapRemove_perm _ _ (List.idxOf_lt_length_of_mem ha)
    have hd := List.nodup_cons.1 (hp.nodup_iff.1 hn)
    have hm := hp.mem_iff (a := b)
    simp only [List.getElem_idxOf] at hd hm
    rw [hm, List.mem_cons]
    constructor
    · intro hb
      refine ⟨?_, .inr hb⟩
      rintro rfl; exact hd.1 hb
    · rintro ⟨h1, h2 | h2⟩
      · exact absurd h2 h1
      · exact h2
  | _ => exact absurd rfl hne

/-- C65: the owner changes only by their own call. -/
theorem C65_owner (h : exec s c k = .ok (s', out)) (hne : s'.get_owner_id ≠ s.get_owner_id) :
    c.predecessor = s.get_owner_id ∧ k = .set_owner_id s'.get_owner_id := by
  have hc := exec_change h
  unfold State.get_owner_id at *
  cases hc with
  | owner ho => exact ⟨ho, rfl⟩
  | _ => exact absurd rfl hne

/-- C65: `ft_burn n` destroys exactly `n` tokens of the caller and touches no other balance. -/
theorem C65_burn {n : Nat} (h : exec s c (.ft_burn n) = .ok (s', out)) :
    c.deposit = 1 ∧ n ≤ s.ft_balance_of c.predecessor ∧
      s'.ft_balance_of c.predecessor = s.ft_balance_of c.predecessor - n ∧
      s'.ft_total_supply = s.ft_total_supply - n ∧
      ∀ a, a ≠ c.predecessor → s'.ft_balance_of a = s.ft_balance_of a := by
  simp only [exec, State.ft_burn, assert_one_yocto, State.internal_withdraw, State.internal_unwrap_balance_of,
    bind_ok_iff, require_ok_iff, expect_ok_iff, subU_ok_iff, pure_ok_iff, Prod.mk.injEq] at h
  obtain ⟨-, -, -, -, _, ⟨-, h1, b, hb, _, ⟨h3, rfl⟩, _, ⟨h4, rfl⟩, rfl⟩, rfl, -⟩ := h
  refine ⟨h1, by simpa [State.ft_balance_of, hb] using h3, by simp [State.ft_balance_of, hb], rfl, ?_⟩
  intro a ha
  simp [State.ft_balance_of, UMap.get_insert, ha.symm]

/-! ## C71 -/

/-- C71: an accepted call lowers a balance only if the holder made it, with one yocto, and it is a transfer or burn of
exactly that amount or the forced closing of the account; or if the token itself settles a transfer-call to that
holder, and then by no more than its amount. -/
theorem C71_call {a : AccountId} (h : exec s c k = .ok (s', out)) (hlt : s'.ft_balance_of a < s.ft_balance_of a) :
    (c.predecessor = a ∧ c.deposit = 1 ∧
      ((∃ r n, (k = .ft_transfer r n ∨ (∃ m, k = .ft_transfer_call r n m) ∨ k = .ft_burn n) ∧
          s.ft_balance_of a = s'.ft_balance_of a + n) ∨
        k = .storage_unregister (some true))) ∨
    (c.predecessor = c.current ∧ ∃ x n, k = .ft_resolve_transfer x a n ∧
      s.ft_balance_of a ≤ s'.ft_balance_of a + n) := by
  have hc := exec_change h
  unfold State.ft_balance_of at *
  have hd1 : ∀ r n, (k = .ft_transfer r n ∨ ∃ m, k = .ft_transfer_call r n m) → c.deposit = 1 := by
    rintro r n (rfl | ⟨m, rfl⟩) <;> simp only [exec, bind_ok_iff, require_ok_iff] at h
    · obtain ⟨-, -, -, -, _, ht, -⟩ := h; exact (transfer_ok.1 ht).1
    · obtain ⟨-, -, -, -, _, ht, -⟩ := h; exact (transfer_ok.1 ht).1
  cases hc with
  | minted hm hb h1 h2 =>
    simp only [UMap.get_insert] at hlt
    split at hlt
    · rename_i e; subst e; simp only [hb, Option.getD_some] at hlt; omega
    · omega
  | @burned n b hb h1 h2 =>
    have hd := (C65_burn h).1
    simp only [UMap.get_insert] at hlt ⊢
    split at hlt
    · rename_i e; subst e
      refine .inl ⟨rfl, hd, .inl ⟨c.predecessor, n, .inr (.inr rfl), ?_⟩⟩
      simp only [hb, if_true, Option.getD_some]; omega
    · omega
  | @moved _ r n b b' hk hne hpos hb h1 h2 hr h3 =>
    simp only [UMap.get_insert] at hlt ⊢
    split at hlt
    · rename_i e; subst e; simp only [hr, Option.getD_some] at hlt; omega
    · rename_i e
      split at hlt
      · rename_i e'; subst e'
        refine .inl ⟨rfl, hd1 r n hk, .inl ⟨r, n, ?_, ?_⟩⟩
        · rcases hk with hk | hk
          · exact .inl hk
          · exact .inr (.inl hk)
        · simp only [hb, if_neg e, if_true, Option.getD_some]; omega
      · omega
  | @refunded x r n b hpr hne hpos hb h3 =>
    simp only [UMap.get_insert] at hlt ⊢
    split at hlt
    · rename_i e; subst e; simp only [hb, Option.getD_some] at hlt; omega
    · rename_i e
      split at hlt
      · rename_i e'; subst e'
        refine .inr ⟨hpr, x, n, rfl, ?_⟩
        have h1 : refundOf s r n c.result ≤ n := Nat.le_trans (Nat.min_le_right _ _) (Nat.min_le_left _ _)
        have h2 : refundOf s r n c.result ≤ bal s r := Nat.min_le_left _ _
        have h3 : bal s r = (s.accounts.get r).getD 0 := rfl
        simp only [if_neg e, if_true, Option.getD_some]; omega
      · omega
  | @self x n hpr hpos =>
    simp only [UMap.get_insert] at hlt
    split at hlt
    · rename_i e; subst e
      have h3 : bal s x = (s.accounts.get x).getD 0 := rfl
      simp only [Option.getD_some] at hlt; omega
    · omega
  | @forfeited x r n hpr hpos hb h =>
    simp only [UMap.get_insert] at hlt ⊢
    split at hlt
    · rename_i e'; subst e'
      refine .inr ⟨hpr, x, n, rfl, ?_⟩
      have h1 : refundOf s r n c.result ≤ n := Nat.le_trans (Nat.min_le_right _ _) (Nat.min_le_left _ _)
      have h2 : refundOf s r n c.result ≤ bal s r := Nat.min_le_left _ _
      have h3 : bal s r = (s.accounts.get r).getD 0 := rfl
      simp only [if_true, Option.getD_some]; omega
    · omega
  | registered hn hd =>
    simp only [UMap.get_insert] at hlt
    split at hlt
    · rename_i e; subst e; simp only [hn, Option.getD_none] at hlt; omega
    · omega
  | @closed f b hb h0 h3 =>
    simp only [UMap.get_remove] at hlt
    split at hlt
    · rename_i e; subst e
      simp only [hb, Option.getD_some, Option.getD_none] at hlt
      have hd : c.deposit = 1 := by
        simp only [exec, State.internal_storage_unregister, assert_one_yocto, bind_ok_iff, require_ok_iff] at h
        obtain ⟨-, -, -, -, _, ⟨-, h, -⟩, -⟩ := h; exact h
      refine .inl ⟨rfl, hd, .inr ?_⟩
      rcases h0 with h0 | h0
      · omega
      · rw [h0]
    · omega
  | _ => exact absurd hlt (Nat.lt_irrefl _)

/-- C71: in executions, a balance that goes down went down by a call of its holder, or by the settlement of an
outstanding transfer-call to the holder, by no more than its amount, and that transfer-call is then no longer
outstanding. -/
theorem C71_step {a : AccountId} (h : Step me w w') (hlt : w'.st.ft_balance_of a < w.st.ft_balance_of a) :
    (∃ c k out, c.predecessor = a ∧ c.deposit = 1 ∧ exec w.st c k = .ok (w'.st, out)) ∨
    (∃ pre p post, w.pending = pre ++ p :: post ∧ w'.pending = pre ++ post ∧ p.receiver = a ∧
      w.st.ft_balance_of a ≤ w'.st.ft_balance_of a + p.amount) := by
  cases h with
  | call c k s' out hme hpr h =>
    rcases C71_call h hlt with ⟨h1, h2, -⟩ | ⟨h1, -⟩
    · exact .inl ⟨c, k, out, h1, h2, h⟩
    · exact absurd (h1.trans hme) hpr
  | resolve pre post p r hp =>
    simp only at hlt ⊢
    cases he : exec w.st ⟨me, me, 0, r⟩ (.ft_resolve_transfer p.sender p.receiver p.amount) with
    | error e => rw [he] at hlt; exact absurd hlt (Nat.lt_irrefl _)
    | ok x =>
      rw [he] at hlt
      rcases C71_call (out := x.2) he hlt with ⟨-, h, -⟩ | ⟨-, y, n, hk, hle⟩
      · exact absurd h Nat.zero_ne_one
      · simp only [Call.ft_resolve_transfer.injEq] at hk
        obtain ⟨-, rfl, rfl⟩ := hk
        exact .inr ⟨pre, p, post, hp, rfl, rfl, hle⟩

/-- C71: a transfer-call becomes outstanding only when its sender has paid the receiver its amount. -/
theorem C71_outstanding (h : Step me w w') :
    (∃ pre p post, w.pending = pre ++ p :: post ∧ w'.pending = pre ++ post) ∨ w'.pending = w.pending ∨
    (∃ p, w'.pending = w.pending ++ [p] ∧ p.sender ≠ p.receiver ∧ 0 < p.amount ∧
      w'.st.ft_balance_of p.receiver = w.st.ft_balance_of p.receiver + p.amount ∧
      w'.st.ft_balance_of p.sender + p.amount = w.st.ft_balance_of p.sender ∧
      (∃ c m out, c.predecessor = p.sender ∧ c.deposit = 1 ∧
        exec w.st c (.ft_transfer_call p.receiver p.amount m) = .ok (w'.st, out))) := by
  cases h with
  | resolve pre post p r hp => exact .inl ⟨pre, p, post, hp, rfl⟩
  | call c k s' out hme hpr h =>
    right
    cases hn : notified out with
    | nil => left; simp
    | cons p l =>
      right
      obtain ⟨m, rfl, e, e2, ht⟩ := notified_mem h (p := p) (by simp [hn])
      rw [hn] at e2
      obtain ⟨h1, h2, h3, b, b', h4, h5, h6, h7, h8, h9, rfl⟩ := transfer_ok.1 ht
      refine ⟨p, by rw [e2], by rw [e]; exact h2, h3, ?_, ?_, c, m, out, e.symm, h1, h⟩
      · simp [State.ft_balance_of, h7]
      · rw [e]; simp only [State.ft_balance_of, UMap.get_insert, if_neg h2.symm, if_true, h4, Option.getD_some]; omega

/-! ## C72 -/

/-- C72: settling an outstanding transfer-call never fails. What comes back is what the receiver reports unused (all of
it, if its call failed), at most the amount and at most what the receiver still has. It goes to the sender, or, if the
sender has closed the account, it is destroyed. Nothing else changes. -/
theorem C72_settle (h : Reach me w) (p : Pending) (hp : p ∈ w.pending) (r : Option Nat) :
    ∃ s', exec w.st ⟨me, me, 0, r⟩ (.ft_resolve_transfer p.sender p.receiver p.amount) = .ok (s', []) ∧
      s'.ft_balance_of p.receiver = w.st.ft_balance_of p.receiver -
        min (w.st.ft_balance_of p.receiver) (min p.amount (r.getD p.amount)) ∧
      s'.get_minters = w.st.get_minters ∧ s'.get_owner_id = w.st.get_owner_id ∧
      (∀ a, a ≠ p.sender → a ≠ p.receiver → s'.ft_balance_of a = w.st.ft_balance_of a) ∧
      if (w.st.accounts.get p.sender).isSome then
        s'.ft_balance_of p.sender = w.st.ft_balance_of p.sender +
          min (w.st.ft_balance_of p.receiver) (min p.amount (r.getD p.amount)) ∧
        s'.ft_total_supply = w.st.ft_total_supply
      else s'.ft_balance_of p.sender = 0 ∧ s'.ft_total_supply = w.st.ft_total_supply -
        min (w.st.ft_balance_of p.receiver) (min p.amount (r.getD p.amount)) := by
  obtain ⟨hd, hn⟩ := h.inv.distinct p hp
  have hs := h.inv.sound
  obtain ⟨a, y, n⟩ := p
  simp only at hd hn ⊢
  have hsum : w.st.ft_balance_of a + w.st.ft_balance_of y ≤ U128_MAX := by
    have e1 := held_remove w.st.accounts a
    have e2 := held_remove (w.st.accounts.remove a) y
    simp only [UMap.get_remove, if_neg hd] at e2
    have := hs.1
    have := hs.2
    unfold held at *
    unfold State.ft_balance_of
    omega
  have hy : w.st.ft_balance_of y ≤ w.st.total_supply := by rw [hs.1]; exact bal_le_held _ _
  have hex : ∀ x, w.st.internal_ft_resolve_transfer ⟨me, me, 0, r⟩ a y n = .ok x →
      exec w.st ⟨me, me, 0, r⟩ (.ft_resolve_transfer a y n) = .ok (x.1, []) := by
    intro x hx
    simp [exec, require, Call.payable, Call.in_range, hn, hx, bind, Except.bind, pure, Except.pure]
  generalize hR : min (w.st.ft_balance_of y) (min n (r.getD n)) = R
  have hRy : R ≤ w.st.ft_balance_of y := by omega
  have hRn : R ≤ n := by omega
  have hf : ∀ z, (w.st.accounts.get z).getD 0 = w.st.ft_balance_of z := fun _ => rfl
  by_cases hpos : 0 < min n (r.getD n) ∧ 0 < w.st.ft_balance_of y
  · cases ha : w.st.accounts.get a with
    | some b =>
      have hb : w.st.ft_balance_of a = b := by simp [State.ft_balance_of, ha]
      refine ⟨{ w.st with accounts := (w.st.accounts.insert y (w.st.ft_balance_of y - R)).insert a (b + R) },
        hex (_, n - R) ?_, ?_, rfl, rfl, ?_, ?_⟩
      · simp only [State.internal_ft_resolve_transfer, hf, if_pos hpos, hR, UMap.get_insert, if_neg hd.symm, ha]
        simp only [bind_ok_iff, subU_ok_iff, addU128_ok_iff, pure_ok_iff]
        exact ⟨_, ⟨hRy, rfl⟩, _, ⟨by omega, rfl⟩, _, ⟨hRn, rfl⟩, rfl⟩
      · simp [State.ft_balance_of, UMap.get_insert, hd]
      · intro z h1 h2
        simp [State.ft_balance_of, UMap.get_insert, h1.symm, h2.symm]
      · simp [State.ft_balance_of, State.ft_total_supply, ha]
    | none =>
      refine ⟨{ w.st with accounts := w.st.accounts.insert y (w.st.ft_balance_of y - R)
                          total_supply := w.st.total_supply - R },
        hex (_, n) ?_, ?_, rfl, rfl, ?_, ?_⟩
      · simp only [State.internal_ft_resolve_transfer, hf, if_pos hpos, hR, UMap.get_insert, if_neg hd.symm, ha]
        simp only [bind_ok_iff, subU_ok_iff, pure_ok_iff]
        exact ⟨_, ⟨hRy, rfl⟩, _, ⟨by omega, rfl⟩, rfl⟩
      · simp [State.ft_balance_of]
      · intro z h1 h2
        simp [State.ft_balance_of, UMap.get_insert, h2.symm]
      · simp [State.ft_balance_of, State.ft_total_supply, ha, UMap.get_insert, hd.symm]
  · have hz : R = 0 := by omega
    refine ⟨w.st, hex (_, n) ?_, by omega, rfl, rfl, fun _ _ _ => rfl, ?_⟩
    · simp only [State.internal_ft_resolve_transfer, hf, if_neg hpos, pure, Except.pure]
    · cases ha : w.st.accounts.get a with
      | some b => simp [hz]
      | none => simp [hz, State.ft_balance_of, ha]

/-! ## An execution -/

/-- A run: calls (`.inl`) and resolutions of the oldest outstanding transfer-call (`.inr`). -/
def runs (me : AccountId) (w : World) : List ((Ctx × Call) ⊕ Option Nat) → Option World
  | [] => some w
  | .inl (c, k) :: l => if c.current = me ∧ c.predecessor ≠ me then
      match exec w.st c k with
      | .ok r => runs me ⟨r.1, w.pending ++ notified r.2⟩ l
      | .error _ => none
    else none
  | .inr r :: l => match w.pending with
    | [] => none
    | p :: post => runs me ⟨((exec w.st ⟨me, me, 0, r⟩
        (.ft_resolve_transfer p.sender p.receiver p.amount)).getOr (w.st, [])).1, post⟩ l

theorem reach_of_runs {l : List ((Ctx × Call) ⊕ Option Nat)} : ∀ {w w' : World}, Reach me w → runs me w l = some w' →
    Reach me w' := by
  induction l with
  | nil => intro w w' h hr; cases hr; exact h
  | cons x l ih =>
    intro w w' h hr
    rcases x with ⟨c, k⟩ | r
    · simp only [runs] at hr
      split at hr
      · rename_i hc
        split at hr
        · rename_i x he
          exact ih (h.step (.call w c k x.1 x.2 hc.1 hc.2 he)) hr
        · simp at hr
      · simp at hr
    · simp only [runs] at hr
      split at hr
      · simp at hr
      · rename_i p post hp
        exact ih (h.step (.resolve w [] post p r hp)) hr

/-- The token of `alice` with 1000 units. -/
def start : World := ⟨((new false true 5 "alice" 1000).getOr ⟨UMap.empty, 0, 0, "", []⟩), []⟩

theorem start_reach : Reach me start := .init (.mk 5 "alice" 1000 _ (by decide) (by rfl))

/-- Two users register, `alice` adds a minter that mints, a transfer-call that is refunded in part, a burn, and two
more transfer-calls; of one the sender closes their account. -/
def demo : World := (runs "tok" start
  [.inl (⟨"tok", "bob", 5, none⟩, .storage_deposit none none), .inl (⟨"tok", "bob", 9, none⟩, .storage_deposit (some "dex") none),
   .inl (⟨"tok", "alice", 1, none⟩, .add_minter "bob"), .inl (⟨"tok", "bob", 1, none⟩, .ft_mint 50),
   .inl (⟨"tok", "alice", 1, none⟩, .ft_transfer_call "dex" 100 []), .inr (some 30),
   .inl (⟨"tok", "dex", 1, none⟩, .ft_burn 20), .inl (⟨"tok", "bob", 1, none⟩, .ft_transfer_call "dex" 40 []),
   .inl (⟨"tok", "alice", 1, none⟩, .ft_transfer_call "dex" 10 []),
   .inl (⟨"tok", "bob", 1, none⟩, .storage_unregister (some true))]).get (by decide +kernel)

theorem demo_reach : Reach "tok" demo := reach_of_runs start_reach (Option.some_get _).symm

example : Reach "tok" demo ∧ demo.st.ft_balance_of "alice" = 920 ∧ demo.st.ft_balance_of "dex" = 100 ∧
    demo.st.ft_total_supply = 1020 ∧ demo.st.get_minters = ["bob"] ∧ demo.pending = [⟨"bob", "dex", 40⟩, ⟨"alice", "dex", 10⟩] ∧
    demo.st.accounts.get "bob" = none ∧ ["alice", "dex"].Nodup :=
  ⟨demo_reach, by decide +kernel, by decide +kernel, by decide +kernel, by decide +kernel, by decide +kernel,
    by decide +kernel, by decide⟩

/-- What settling the two would do: 15 units destroyed, resp. 10 returned. -/
example : ((exec demo.st ⟨"tok", "tok", 0, some 15⟩ (.ft_resolve_transfer "bob" "dex" 40)).getOr (demo.st, [])).1.ft_total_supply
      = 1005 ∧
    ((exec demo.st ⟨"tok", "tok", 0, none⟩ (.ft_resolve_transfer "alice" "dex" 10)).getOr (demo.st, [])).1.ft_balance_of "alice"
      = 930 := by
  decide +kernel

/-- Mints, changes of minters and owner, and a burn that are accepted. -/
example : (exec demo.st ⟨"tok", "alice", 1, none⟩ (.remove_minter "bob")).isOk = true ∧
    (exec demo.st ⟨"tok", "alice", 0, none⟩ (.set_owner_id "carol")).isOk = true ∧
    (exec demo.st ⟨"tok", "dex", 1, none⟩ (.ft_burn 100)).isOk = true ∧
    (exec demo.st ⟨"tok", "dex", 1, none⟩ (.ft_burn 101)).isOk = false ∧
    (exec demo.st ⟨"tok", "bob", 1, none⟩ (.ft_mint 1)).isOk = false := by
  decide +kernel

end Verif.Token
