import Verif.Base.Rel
import Verif.Token.Bytes
import Verif.Borsh.Typed
import Verif.Props.Borsh
import Verif.Props.TokenEvents

/-!
# C91: the token on bytes is the token
-/

namespace Verif.Token.Bytes

open Verif Storage Disk Borsh

/-- Account ids of NEAR have at most 64 bytes. -/
def IdFits (a : AccountId) : Prop := (utf8 a).length ≤ 64

instance (a : AccountId) : Decidable (IdFits a) := inferInstanceAs (Decidable (_ ≤ _))

/-- Account ids in the call. -/
def Fits (c : Ctx) : Call → Prop
  | .set_owner_id a | .add_minter a | .remove_minter a | .assert_minter a => IdFits c.predecessor ∧ IdFits a
  | .ft_transfer a _ | .ft_transfer_call a _ _ => IdFits c.predecessor ∧ IdFits a
  | .ft_resolve_transfer a b _ => IdFits c.predecessor ∧ IdFits a ∧ IdFits b
  | .storage_deposit a _ => IdFits c.predecessor ∧ IdFits (a.getD c.predecessor)
  | _ => IdFits c.predecessor

theorem IdFits.str {a : AccountId} (h : IdFits a) : StrFits a := Nat.lt_of_le_of_lt h (by decide)
theorem IdFits.ok {a : AccountId} (h : IdFits a) : string.ok a := str_ok.2 h.str

/-- The record of a state. -/
def recOf (s : State) : TokenRec := ⟨⟨[0]⟩, s.total_supply, 125, [1], s.owner_id, s.minters⟩

/-- Key of an account. -/
def akey (a : AccountId) : Bytes := [0] ++ string.enc a

theorem akey_inj {a b : AccountId} (ha : IdFits a) (hb : IdFits b) (h : akey a = akey b) : a = b :=
  string.enc_inj ha.ok hb.ok (List.append_cancel_left h)

theorem akey_ne_state (a : AccountId) : akey a ≠ STATE := by simp [akey, STATE]
theorem akey_ne_meta (a : AccountId) : akey a ≠ [1] := by simp [akey]

/-- The entries of the accounts. -/
structure Acc (D : Disk) (m : UMap AccountId Nat) : Prop where
  read : ∀ a, IdFits a → D (akey a) = (m.get a).map u128.enc
  ids : ∀ a n, m.get a = some n → IdFits a ∧ n < 2 ^ 128

/-- Only entries of accounts changed. -/
def Only (D D' : Disk) : Prop := ∀ x, (∀ a, x ≠ akey a) → D' x = D x

theorem Only.refl {D : Disk} : Only D D := fun _ _ => rfl
theorem Only.trans {A B C : Disk} (h : Only A B) (h' : Only B C) : Only A C := fun x hx => (h' x hx).trans (h x hx)

variable {D : Disk} {m : UMap AccountId Nat} {s : State} {c : Ctx}

theorem Acc.balance (h : Acc D s.accounts) {a : AccountId} (ha : IdFits a) :
    balance D (recOf s) a = .ok (s.accounts.get a) := by
  have h1 := h.read a ha
  show LookupH.get string u128 D ⟨[0]⟩ a = _
  unfold LookupH.get
  rw [show D ((⟨[0]⟩ : LookupH).pre ++ string.enc a) = (s.accounts.get a).map u128.enc from h1]
  cases hg : s.accounts.get a with
  | none => rfl
  | some n =>
    have := u128.read_enc (u128_ok.2 (h.ids a n hg).2)
    simp only [Option.map_some, this]
    rfl

theorem Acc.put (h : Acc D m) {a : AccountId} {n : Nat} (t : TokenRec) (ht : t.accounts = ⟨[0]⟩) (ha : IdFits a)
    (hn : n < 2 ^ 128) : Acc (put D t a n) (m.insert a n) ∧ Only D (put D t a n) := by
  have he : Bytes.put D t a n = upd D (akey a) (some (u128.enc n)) := by
    unfold Bytes.put LookupH.insert; rw [ht]; rfl
  rw [he]
  refine ⟨⟨fun b hb => ?_, fun b k hk => ?_⟩, fun x hx => upd_ne _ _ (hx a)⟩
  · rw [UMap.get_insert]
    by_cases e : a = b
    · subst e; simp
    · rw [if_neg e, upd_ne _ _ fun e' => e (akey_inj ha hb e'.symm)]; exact h.read b hb
  · rw [UMap.get_insert] at hk
    split at hk
    · rename_i e; cases hk; rw [← e]; exact ⟨ha, hn⟩
    · exact h.ids b k hk

theorem Acc.remove (h : Acc D m) {a : AccountId} (ha : IdFits a) :
    Acc (LookupH.remove string D ⟨[0]⟩ a) (m.remove a) ∧ Only D (LookupH.remove string D ⟨[0]⟩ a) := by
  show Acc (upd D (akey a) none) _ ∧ Only D (upd D (akey a) none)
  refine ⟨⟨fun b hb => ?_, fun b k hk => ?_⟩, fun x hx => upd_ne _ _ (hx a)⟩
  · rw [UMap.get_remove]
    by_cases e : a = b
    · subst e; simp
    · rw [if_neg e, upd_ne _ _ fun e' => e (akey_inj ha hb e'.symm)]; exact h.read b hb
  · rw [UMap.get_remove] at hk
    split at hk
    · cases hk
    · exact h.ids b k hk

/-- Storage and record are those of the state; only entries of accounts changed. -/
def At (D0 : Disk) (s : State) (D : Disk) (t : TokenRec) : Prop := t = recOf s ∧ Acc D s.accounts ∧ Only D0 D

theorem deposit_rel (h : Acc D s.accounts) {a : AccountId} (ha : IdFits a) (n : Nat) :
    Rel (fun s' r => At D s' r.1 r.2) (s.internal_deposit a n) (internal_deposit D (recOf s) a n) := by
  unfold internal_deposit internal_unwrap_balance_of State.internal_deposit State.internal_unwrap_balance_of
  rw [h.balance ha]
  refine Rel.step _ fun b hb => Rel.step _ fun b' hb' => Rel.step (addU128 s.total_supply n) fun t ht => ?_
  have h1 := addU128_ok_iff.1 hb'
  obtain ⟨h2, h3⟩ := h.put (recOf s) rfl ha (n := b') (by unfold U128_MAX at h1; omega)
  exact ⟨rfl, h2, h3⟩

theorem withdraw_rel (h : Acc D s.accounts) {a : AccountId} (ha : IdFits a) (n : Nat) :
    Rel (fun s' r => At D s' r.1 r.2) (s.internal_withdraw a n) (internal_withdraw D (recOf s) a n) := by
  unfold internal_withdraw internal_unwrap_balance_of State.internal_withdraw State.internal_unwrap_balance_of
  rw [h.balance ha]
  refine Rel.step _ fun b hb => Rel.step _ fun b' hb' => Rel.step (subU s.total_supply n) fun t ht => ?_
  have h1 := subU_ok_iff.1 hb'
  have h0 := (h.ids a b (expect_ok_iff.1 hb)).2
  obtain ⟨h2, h3⟩ := h.put (recOf s) rfl ha (n := b') (by omega)
  exact ⟨rfl, h2, h3⟩

theorem transfer_rel (h : Acc D s.accounts) {a : AccountId} (hc : IdFits c.predecessor) (ha : IdFits a) (n : Nat) :
    Rel (fun s' r => At D s' r.1 r.2.1 ∧ r.2.2 = [.transfer c.predecessor a n]) (s.ft_transfer c a n) (ft_transfer D (recOf s) c a n) := by
  unfold ft_transfer State.ft_transfer internal_transfer State.internal_transfer
  refine Rel.step _ fun _ _ => Rel.step _ fun _ _ => Rel.step _ fun _ _ => (withdraw_rel h hc n).bind ?_
  rintro s1 ⟨D1, t1⟩ - ⟨rfl, h1, h2⟩
  refine (deposit_rel h1 ha n).right ?_
  rintro s2 ⟨D2, t2⟩ ⟨h4, h5, h6⟩
  exact ⟨⟨h4, h5, h2.trans h6⟩, rfl⟩

theorem register_rel (h : Acc D s.accounts) {a : AccountId} (ha : IdFits a) :
    Rel (fun s' D' => At D s' D' (recOf s)) (s.internal_register_account a) (internal_register_account D (recOf s) a) := by
  unfold internal_register_account State.internal_register_account
  rw [h.balance ha]
  refine Rel.step (require (s.accounts.get a = none) _) fun _ _ => ?_
  obtain ⟨h2, h3⟩ := h.put (recOf s) rfl ha (n := 0) (by decide)
  exact ⟨rfl, h2, h3⟩

theorem resolve_rel (h : Acc D s.accounts) {a b : AccountId} (ha : IdFits a) (hb : IdFits b) (n : Nat) :
    Rel (fun x r => At D x.1 r.1 r.2.1 ∧ r.2.2 = s.resolveLines c a b n) (s.internal_ft_resolve_transfer c a b n)
      (ft_resolve_transfer D (recOf s) c a b n) := by
  unfold ft_resolve_transfer internal_ft_resolve_transfer State.internal_ft_resolve_transfer State.resolveLines
  rw [h.balance hb]
  simp only
  by_cases hu : 0 < min n (c.result.getD n)
  · by_cases hr : 0 < (s.accounts.get b).getD 0
    · have hur : 0 < min n (c.result.getD n) ∧ 0 < (s.accounts.get b).getD 0 := ⟨hu, hr⟩
      have hR0 : 0 < min ((s.accounts.get b).getD 0) (min n (c.result.getD n)) := by omega
      simp only [Bind.bind, Except.bind, if_pos hr, if_pos hu, if_pos hur, if_pos hR0]
      generalize hR : min ((s.accounts.get b).getD 0) (min n (c.result.getD n)) = R at hR0 ⊢
      have hle : R ≤ (s.accounts.get b).getD 0 := by omega
      have hlt : (s.accounts.get b).getD 0 < 2 ^ 128 := by
        cases hg : s.accounts.get b with
        | none => simp
        | some x => exact (h.ids b x hg).2
      simp only [subU, if_pos hle]
      obtain ⟨h2, h3⟩ := h.put (recOf s) rfl hb (n := (s.accounts.get b).getD 0 - R) (by omega)
      have h4 := Acc.balance (s := { s with accounts := s.accounts.insert b ((s.accounts.get b).getD 0 - R) }) h2 ha
      rw [show recOf { s with accounts := s.accounts.insert b ((s.accounts.get b).getD 0 - R) } = recOf s from rfl] at h4
      rw [h4]
      cases hg : (s.accounts.insert b ((s.accounts.get b).getD 0 - R)).get a with
      | none =>
        simp only
        by_cases ht : R ≤ s.total_supply
        · simp only [if_pos ht, show (recOf s).total_supply = s.total_supply from rfl]
          exact ⟨⟨rfl, h2, h3⟩, by simp only [if_pos hR0]⟩
        · simp only [if_neg ht, show (recOf s).total_supply = s.total_supply from rfl]
          rfl
      | some x =>
        simp only
        cases hx : addU128 x R with
        | error e => rfl
        | ok y =>
          have h1 := addU128_ok_iff.1 hx
          simp only
          have : R ≤ n := by omega
          simp only [if_pos this]
          obtain ⟨h5, h6⟩ := h2.put (recOf s) rfl ha (n := y) (by unfold U128_MAX at h1; omega)
          exact ⟨⟨rfl, h5, h3.trans h6⟩, rfl⟩
    · have hur : ¬ (0 < min n (c.result.getD n) ∧ 0 < (s.accounts.get b).getD 0) := fun e => hr e.2
      simp only [Bind.bind, Except.bind, if_neg hr, if_pos hu, if_neg hur]
      exact ⟨⟨rfl, h, Only.refl⟩, rfl⟩
  · have hur : ¬ (0 < min n (c.result.getD n) ∧ 0 < (s.accounts.get b).getD 0) := fun e => hu e.1
    simp only [if_neg hu, if_neg hur]
    exact ⟨⟨rfl, h, Only.refl⟩, rfl⟩

theorem minBalance_rec (s : State) : minBalance (recOf s) = 125 * 10 ^ 19 := by
  simp [minBalance, recOf, BYTE_COST]

theorem unregister_rel (h : Acc D s.accounts) (hc : IdFits c.predecessor) (hs : s.storage_cost = 125 * 10 ^ 19) (f : Bool) (f' : Option Bool) :
    Rel (fun x r => At D x.1 r.1 r.2.1 ∧ r.2.2 = (s.lines c (.storage_unregister f'), x.2)) (s.internal_storage_unregister c f)
      (storage_unregister D (recOf s) c f) := by
  unfold storage_unregister State.internal_storage_unregister State.lines
  rw [h.balance hc]
  refine Rel.step _ fun _ _ => ?_
  cases hg : s.accounts.get c.predecessor with
  | none => exact ⟨⟨rfl, h, Only.refl⟩, rfl⟩
  | some b =>
    simp only [Bind.bind, Except.bind]
    by_cases hb : b = 0 ∨ f = true
    · simp only [if_pos hb]
      refine Rel.step (subU s.total_supply b) fun t _ => ?_
      obtain ⟨h1, h2⟩ := h.remove hc
      exact ⟨⟨rfl, h1, h2⟩, by simp only [minBalance_rec, hs]⟩
    · simp only [if_neg hb]; rfl

theorem storage_deposit_rel (h : Acc D s.accounts) (hs : s.storage_cost = 125 * 10 ^ 19) {a : Option AccountId}
    (ha : IdFits (a.getD c.predecessor)) (o : Option Bool) :
    Rel (fun x r => At D x.1 r.1 (recOf s) ∧ r.2 = (s.lines c (.storage_deposit a o), x.2)) (s.storage_deposit c a)
      (storage_deposit D (recOf s) c a) := by
  unfold storage_deposit State.storage_deposit State.lines
  have hm : minBalance (recOf s) = s.storage_cost := by rw [hs, minBalance_rec]
  simp only [h.balance ha, hm, Bind.bind, Except.bind]
  cases hg : s.accounts.get (a.getD c.predecessor) with
  | some b => exact ⟨⟨rfl, h, Only.refl⟩, rfl⟩
  | none =>
    simp only
    refine Rel.step (require (s.storage_cost ≤ c.deposit) _) fun _ _ => (register_rel h ha).bind ?_
    rintro s1 D1 - h1
    exact ⟨h1, rfl⟩

/-! ## The whole storage -/

/-- The settings of a state are values of their types. -/
structure Good (s : State) : Prop where
  cost : s.storage_cost = 125 * 10 ^ 19
  supply : s.total_supply < 2 ^ 128
  owner : IdFits s.owner_id
  minters : s.minters.length < 2 ^ 32 ∧ ∀ a ∈ s.minters, IdFits a

/-- The storage is that of the state, with the metadata. -/
structure Rep (D : Disk) (s : State) (m : Metadata) : Prop where
  state : D STATE = some (tokenRec.enc (recOf s))
  acc : Acc D s.accounts
  good : Good s
  meta_ : D [1] = some (metadata.enc m) ∧ metadata.ok m

/-- Nothing outside the entries of the contract changed. -/
def Rest (D D' : Disk) : Prop := ∀ x, x ≠ STATE → x ≠ [1] → (∀ a, x ≠ akey a) → D' x = D x

theorem Rest.trans {A B C : Disk} (h : Rest A B) (h' : Rest B C) : Rest A C := fun x h1 h2 h3 => (h' x h1 h2 h3).trans (h x h1 h2 h3)

theorem load_rep {m : Metadata} (h : Rep D s m) : load D = .ok (recOf s) := by
  unfold load
  rw [h.state]
  show expect (tokenRec.read _) _ = _
  rw [C88_token.2 ⟨⟨by show ([0] : Bytes).length < 2 ^ 32; decide, h.good.supply, by show 125 < 2 ^ 64; decide,
    by show ([1] : Bytes).length < 2 ^ 32; decide, h.good.owner.str,
    h.good.minters.1, fun a ha => (h.good.minters.2 a ha).str⟩, rfl⟩]
  rfl

theorem save_rep {m : Metadata} (h : Rep D s m) {s' : State} {D' : Disk} (ha : Acc D' s'.accounts) (ho : Only D D') (hg : Good s') :
    Rep (save D' (recOf s')) s' m ∧ Rest D (save D' (recOf s')) := by
  refine ⟨⟨upd_self _ _ _, ⟨fun a hf => ?_, ha.ids⟩, hg, ?_, h.meta_.2⟩, fun x h1 _ h3 => ?_⟩
  · exact (upd_ne _ _ (akey_ne_state a)).trans (ha.read a hf)
  · rw [save, upd_ne _ _ (by decide), ho _ fun a => (akey_ne_meta a).symm]; exact h.meta_.1
  · rw [save, upd_ne _ _ h1]; exact ho x h3

/-- Room for one more minter. -/
def Room (s : State) : Call → Prop
  | .add_minter _ => s.minters.length + 1 < 2 ^ 32
  | _ => True

theorem swapRemove_mem {α : Type} {l : List α} {i : Nat} {x : α} (h : x ∈ swapRemove l i) : x ∈ l := by
  unfold swapRemove at h
  cases hl : l.getLast? with
  | none => rw [hl] at h; exact h
  | some y =>
    simp only [hl] at h
    rcases List.mem_or_eq_of_mem_set (List.mem_of_mem_dropLast h) with h | rfl
    · exact h
    · exact List.mem_of_getLast? hl

theorem swapRemove_length {α : Type} {l : List α} {i : Nat} : (swapRemove l i).length ≤ l.length := by
  unfold swapRemove
  cases hl : l.getLast? with
  | none => exact Nat.le_refl _
  | some y => simp

theorem good_exec {k : Call} {s' : State} {out : List Promise} (hg : Good s) (hf : Fits c k) (hr : Room s k)
    (h : Token.exec s c k = .ok (s', out)) : Good s' := by
  obtain ⟨g1, g2, g3, g4, g5⟩ := hg
  cases exec_change h with
  | same => exact ⟨g1, g2, g3, g4, g5⟩
  | owner h => exact ⟨g1, g2, hf.2, g4, g5⟩
  | added hd h hn =>
    refine ⟨g1, g2, g3, by rw [List.length_append]; exact hr, fun a ha => ?_⟩
    rcases List.mem_append.1 ha with ha | ha
    · exact g5 a ha
    · rw [List.mem_singleton.1 ha]; exact hf.2
  | removed hd h hn =>
    refine ⟨g1, g2, g3, Nat.lt_of_le_of_lt swapRemove_length g4, fun a ha => g5 a (swapRemove_mem ha)⟩
  | minted hm hb h1 h2 => exact ⟨g1, by simp only; unfold U128_MAX at h2; omega, g3, g4, g5⟩
  | burned hb h1 h2 => exact ⟨g1, Nat.lt_of_le_of_lt (Nat.sub_le _ _) g2, g3, g4, g5⟩
  | moved => exact ⟨g1, g2, g3, g4, g5⟩
  | refunded => exact ⟨g1, g2, g3, g4, g5⟩
  | self => exact ⟨g1, g2, g3, g4, g5⟩
  | forfeited => exact ⟨g1, Nat.lt_of_le_of_lt (Nat.sub_le _ _) g2, g3, g4, g5⟩
  | registered => exact ⟨g1, g2, g3, g4, g5⟩
  | closed => exact ⟨g1, Nat.lt_of_le_of_lt (Nat.sub_le _ _) g2, g3, g4, g5⟩

theorem exec_rel {m : Metadata} (h : Rep D s m) {k : Call} (hk : Fits c k) :
    Rel (fun x r => (∃ D', r.1 = save D' (recOf x.1) ∧ Acc D' x.1.accounts ∧ Only D D') ∧ r.2 = (x.2, s.lines c k))
      (Token.exec s c k) (exec D c k) := by
  unfold Token.exec exec
  refine Rel.step _ fun _ _ => Rel.step _ fun _ _ => ?_
  rw [load_rep h]
  have hid : ∃ D', save D (recOf s) = save D' (recOf s) ∧ Acc D' s.accounts ∧ Only D D' := ⟨D, rfl, h.acc, Only.refl⟩
  have hsame : save D (recOf s) = D := by
    funext x
    unfold save upd
    split
    · rename_i e; rw [e, h.state]
    · rfl
  have lift : ∀ {x : State} {r : Disk × TokenRec}, At D x r.1 r.2 →
      ∃ D', save r.1 r.2 = save D' (recOf x) ∧ Acc D' x.accounts ∧ Only D D' := by
    rintro x ⟨D1, t1⟩ ⟨e, h1, h2⟩
    cases e
    exact ⟨D1, rfl, h1, h2⟩
  cases k with
  | set_owner_id a =>
    show Rel _ (s.set_owner_id c a >>= _) (set_owner_id (recOf s) c a >>= _)
    unfold set_owner_id State.set_owner_id assert_owner_calling State.assert_owner_calling
    simp only [bind_assoc]
    refine Rel.step (require (c.predecessor = s.owner_id) _) fun _ _ => ?_
    exact ⟨⟨D, rfl, h.acc, Only.refl⟩, rfl⟩
  | add_minter a =>
    show Rel _ (s.add_minter c a >>= _) (add_minter (recOf s) c a >>= _)
    unfold add_minter State.add_minter assert_owner_calling State.assert_owner_calling
    simp only [bind_assoc]
    refine Rel.step _ fun _ _ => Rel.step (require (c.predecessor = s.owner_id) _) fun _ _ => Rel.step (require (a ∉ s.minters) _) fun _ _ => ?_
    exact ⟨⟨D, rfl, h.acc, Only.refl⟩, rfl⟩
  | remove_minter a =>
    show Rel _ (s.remove_minter c a >>= _) (remove_minter (recOf s) c a >>= _)
    unfold remove_minter State.remove_minter assert_owner_calling State.assert_owner_calling
    simp only [bind_assoc]
    refine Rel.step _ fun _ _ => Rel.step (require (c.predecessor = s.owner_id) _) fun _ _ => Rel.step (require (a ∈ s.minters) _) fun _ _ => ?_
    exact ⟨⟨D, rfl, h.acc, Only.refl⟩, rfl⟩
  | assert_minter a =>
    show Rel _ (s.assert_minter a >>= _) (assert_minter (recOf s) a >>= _)
    refine Rel.step (require (a ∈ s.minters) _) fun _ _ => ?_
    exact ⟨⟨D, hsame.symm, h.acc, Only.refl⟩, rfl⟩
  | ft_mint n =>
    show Rel _ (s.ft_mint c n >>= _) (ft_mint D (recOf s) c n >>= _)
    unfold ft_mint State.ft_mint assert_minter State.assert_minter
    simp only [bind_assoc]
    refine Rel.step _ fun _ _ => Rel.step (require (c.predecessor ∈ s.minters) _) fun _ _ => (deposit_rel h.acc hk n).bind ?_
    intro x r _ hx
    exact ⟨lift hx, rfl⟩
  | ft_burn n =>
    show Rel _ (s.ft_burn c n >>= _) (ft_burn D (recOf s) c n >>= _)
    unfold ft_burn State.ft_burn
    simp only [bind_assoc]
    refine Rel.step _ fun _ _ => (withdraw_rel h.acc hk n).bind ?_
    intro x r _ hx
    exact ⟨lift hx, rfl⟩
  | ft_transfer a n =>
    refine (transfer_rel h.acc hk.1 hk.2 n).bind ?_
    rintro x ⟨D1, t1, l⟩ _ ⟨hx, rfl⟩
    exact ⟨lift (r := (D1, t1)) hx, rfl⟩
  | ft_transfer_call a n msg =>
    refine (transfer_rel h.acc hk.1 hk.2 n).bind ?_
    rintro x ⟨D1, t1, l⟩ _ ⟨hx, rfl⟩
    exact ⟨lift (r := (D1, t1)) hx, rfl⟩
  | ft_resolve_transfer a b n =>
    refine Rel.step _ fun _ _ => (resolve_rel h.acc hk.2.1 hk.2.2 n).bind ?_
    rintro x ⟨D1, t1, l⟩ _ ⟨hx, rfl⟩
    exact ⟨lift (r := (D1, t1)) hx, rfl⟩
  | storage_deposit a o =>
    refine (storage_deposit_rel h.acc h.good.cost hk.2 o).bind ?_
    rintro x ⟨D1, t1, l⟩ _ ⟨hx, e⟩
    cases e
    exact ⟨lift (r := (D1, recOf s)) hx, rfl⟩
  | storage_withdraw a =>
    show Rel _ (s.storage_withdraw c a >>= _) (storage_withdraw D (recOf s) c a >>= _)
    unfold storage_withdraw State.storage_withdraw
    rw [h.acc.balance hk]
    simp only [bind_assoc]
    refine Rel.step _ fun _ _ => Rel.step (require ((s.accounts.get c.predecessor).isSome = true) _) fun _ _ => Rel.step _ fun _ _ => ?_
    exact ⟨⟨D, rfl, h.acc, Only.refl⟩, rfl⟩
  | storage_unregister f =>
    refine (unregister_rel h.acc hk h.good.cost (f.getD false) f).bind ?_
    rintro x ⟨D1, t1, l⟩ _ ⟨hx, e⟩
    cases e
    exact ⟨lift (r := (D1, t1)) hx, rfl⟩

/-- **C91**: a call on the storage of a state does what the model does, panic messages, promises and lines included, leaves the
storage of the resulting state, and changes nothing else. -/
theorem C91_call {m : Metadata} (h : Rep D s m) (c : Ctx) {k : Call} (hk : Fits c k) (hr : Room s k) :
    match Token.exec s c k with
    | .ok r => ∃ D', exec D c k = .ok (D', r.2, s.lines c k) ∧ Rep D' r.1 m ∧ Rest D D'
    | .error e => exec D c k = .error e := by
  have h1 := exec_rel h hk
  cases hx : Token.exec s c k <;> cases hy : exec D c k <;> rw [hx, hy] at h1
  · cases h1; rfl
  · exact h1.elim
  · exact h1.elim
  · rename_i x r
    obtain ⟨⟨D', e, h2, h3⟩, h4⟩ := h1
    obtain ⟨r1, r2⟩ := r
    simp only at e h4
    subst e h4
    obtain ⟨h5, h6⟩ := save_rep h h2 h3 (good_exec h.good hk hr hx)
    exact ⟨_, rfl, h5, h6⟩

/-- **C91**: every view on the storage of a state is that of the model; the metadata is what was stored. -/
theorem C91_views {m : Metadata} (h : Rep D s m) :
    (∀ a, IdFits a → ft_balance_of D a = .ok (s.ft_balance_of a) ∧ storage_balance_of D a = .ok (s.storage_balance_of a)) ∧
    ft_total_supply D = .ok s.ft_total_supply ∧ get_owner_id D = .ok s.get_owner_id ∧ get_minters D = .ok s.get_minters ∧
    storage_balance_bounds D = .ok s.storage_balance_bounds ∧ ft_metadata D = .ok m := by
  have hl := load_rep h
  have hm : minBalance (recOf s) = s.storage_cost := by rw [h.good.cost, minBalance_rec]
  refine ⟨fun a ha => ⟨?_, ?_⟩, ?_, ?_, ?_, ?_, ?_⟩
  · unfold ft_balance_of; rw [hl]
    show (balance D (recOf s) a >>= _) = _
    rw [h.acc.balance ha]; rfl
  · unfold storage_balance_of; rw [hl]
    show (balance D (recOf s) a >>= _) = _
    rw [h.acc.balance ha, hm]; rfl
  · unfold ft_total_supply; rw [hl]; rfl
  · unfold get_owner_id; rw [hl]; rfl
  · unfold get_minters; rw [hl]; rfl
  · unfold storage_balance_bounds; rw [hl]
    show Except.ok (minBalance (recOf s), some (minBalance (recOf s))) = _
    rw [hm]; rfl
  · unfold ft_metadata; rw [hl]
    show (match D [1] with | none => _ | some b => _) = _
    rw [h.meta_.1]
    show expect (metadata.read _) _ = _
    rw [metadata.read_enc h.meta_.2]; rfl

/-- No entry of an account and no state in storage. -/
def Blank (D : Disk) : Prop := D STATE = none ∧ ∀ a, D (akey a) = none

/-- Metadata that the standard allows. -/
def Valid (m : Metadata) : Prop :=
  m.spec = "ft-1.0.0" ∧ m.reference.isSome = m.reference_hash.isSome ∧ ∀ h, m.reference_hash = some h → h.length = 32

theorem valid_iff {m : Metadata} : m.assert_valid = .ok () ↔ Valid m := by
  unfold Metadata.assert_valid Valid
  simp only [bind_ok_iff, require_ok_iff]
  constructor
  · rintro ⟨_, h1, _, h2, h3⟩
    refine ⟨h1, h2, fun h e => ?_⟩
    rw [e] at h3
    exact require_ok_iff.1 h3
  · rintro ⟨h1, h2, h3⟩
    refine ⟨(), h1, (), h2, ?_⟩
    cases e : m.reference_hash with
    | none => rfl
    | some h => exact require_ok_iff.2 (h3 h e)

/-- The longest account id. -/
theorem longest : (utf8 (String.ofList (List.replicate 64 'a'))).length = 64 := by decide

theorem enc_length (a : AccountId) : (akey a).length = 5 + (utf8 a).length := by
  show ([0] ++ (le 4 (utf8 a).length ++ utf8 a) : Bytes).length = _
  simp only [List.length_append, le_length, List.length_cons, List.length_nil]
  omega

theorem u128_length (n : Nat) : (u128.enc n).length = 16 := le_length 16 n

theorem measure_blank (h : Blank D) (t : TokenRec) (ht : t.accounts = ⟨[0]⟩) :
    measure D t = .ok (D, { t with account_storage_usage := 125 }) := by
  generalize hid : String.ofList (List.replicate 64 'a') = id
  have hl : (utf8 id).length = 64 := by rw [← hid]; exact longest
  have hn := h.2 id
  unfold measure
  simp only [hid]
  have h1 : writeUsage D (t.accounts.pre ++ string.enc id) (u128.enc 0) = .ok 125 := by
    rw [ht]
    show writeUsage D (akey id) _ = _
    unfold writeUsage
    rw [hn]
    show Except.ok (entryUsage _ _) = _
    unfold entryUsage
    rw [enc_length, u128_length, hl]
  rw [h1]
  show Except.ok _ = Except.ok _
  congr 2
  funext x
  unfold put LookupH.remove LookupH.insert
  rw [ht]
  show upd (upd D (akey id) _) (akey id) none x = D x
  unfold upd
  split
  · rename_i e; rw [e, hn]
  · rfl

/-- **C91**: installed on storage without entries of the contract, with metadata that the standard allows: the storage is that of
the model just after its `new`, an account costs 125 bytes, and the only line is the initial mint. -/
theorem C91_new (hD : Blank D) {owner : AccountId} (ho : IdFits owner) {supply : Nat} (hs : supply < 2 ^ 128) {m : Metadata}
    (hm : metadata.ok m) (hv : Valid m) :
    ∃ D0 s, new D owner supply m = .ok (D0, newLines owner supply) ∧
      Token.new false true (125 * 10 ^ 19) owner supply = .ok s ∧ Rep D0 s m ∧ Rest D D0 := by
  unfold new
  have hb : Acc (upd D [1] (some (metadata.enc m))) (UMap.empty : UMap AccountId Nat) :=
    ⟨fun a _ => by rw [upd_ne _ _ (akey_ne_meta a), hD.2]; rfl, fun a n h => by cases h⟩
  have hr := register_rel (s := ⟨UMap.empty, 0, 125 * 10 ^ 19, owner, []⟩) hb ho
  rw [hD.1, valid_iff.2 hv]
  show ∃ D0 s, (measure D ⟨⟨[0]⟩, 0, 0, [1], owner, []⟩ >>= _) = _ ∧ _
  rw [measure_blank hD _ rfl]
  simp only [Bind.bind, Except.bind]
  cases hx : State.internal_register_account ⟨UMap.empty, 0, 125 * 10 ^ 19, owner, []⟩ owner with
  | error e => cases hx
  | ok s1 =>
    cases hy : internal_register_account (upd D [1] (some (metadata.enc m))) (recOf ⟨UMap.empty, 0, 125 * 10 ^ 19, owner, []⟩) owner with
    | error e => rw [hx, hy] at hr; exact hr.elim
    | ok D1 =>
      rw [hx, hy] at hr
      obtain ⟨hr1, hr2, hr3⟩ := hr
      have hd := deposit_rel hr2 ho supply
      simp only [State.internal_register_account, bind_ok_iff, require_ok_iff, pure_ok_iff] at hx
      obtain ⟨_, _, rfl⟩ := hx
      cases hz : State.internal_deposit ⟨UMap.empty.insert owner 0, 0, 125 * 10 ^ 19, owner, []⟩ owner supply with
      | error e =>
        exfalso
        have : ∃ s, State.internal_deposit ⟨UMap.empty.insert owner 0, 0, 125 * 10 ^ 19, owner, []⟩ owner supply = .ok s := by
          simp only [State.internal_deposit, State.internal_unwrap_balance_of, bind_ok_iff, expect_ok_iff, addU128_ok_iff, pure_ok_iff,
            UMap.get_insert, if_true]
          exact ⟨_, 0, rfl, _, ⟨by unfold U128_MAX; omega, rfl⟩, _, ⟨by unfold U128_MAX; omega, rfl⟩, rfl⟩
        obtain ⟨s, h⟩ := this
        rw [h] at hz; cases hz
      | ok s2 =>
        rw [hz] at hd
        cases hw : internal_deposit D1 (recOf ⟨UMap.empty.insert owner 0, 0, 125 * 10 ^ 19, owner, []⟩) owner supply with
        | error e => rw [hw] at hd; exact hd.elim
        | ok r =>
          rw [hw] at hd
          obtain ⟨hd1, hd2, hd3⟩ := hd
          have hnew : Token.new false true (125 * 10 ^ 19) owner supply = .ok s2 := by
            rw [← hz]; rfl
          obtain ⟨n1, n2, n3, n4, n5⟩ := new_ok hnew
          change internal_register_account (upd D [1] (some (metadata.enc m))) ⟨⟨[0]⟩, 0, 125, [1], owner, []⟩ owner = _ at hy
          change internal_deposit D1 ⟨⟨[0]⟩, 0, 125, [1], owner, []⟩ owner supply = _ at hw
          refine ⟨save r.1 r.2, s2, ?_, hnew, ⟨?_, ⟨fun a hf => ?_, hd2.ids⟩, ⟨n5, by rw [n2]; exact hs, by rw [n3]; exact ho, ?_⟩, ?_, hm⟩, ?_⟩
          · simp only [hy, hw]; rfl
          · rw [hd1]; exact upd_self _ _ _
          · exact (upd_ne _ _ (akey_ne_state a)).trans (hd2.read a hf)
          · rw [n4]; exact ⟨by decide, fun a ha => by cases ha⟩
          · rw [save, upd_ne _ _ (by decide), hd3 _ fun a => (akey_ne_meta a).symm, hr3 _ fun a => (akey_ne_meta a).symm]
            exact upd_self _ _ _
          · intro x h1 h2 h3
            rw [save, upd_ne _ _ h1, hd3 x h3, hr3 x h3, upd_ne _ _ h2]

/-- **C91**: a second installation, or one with metadata that the standard does not allow, is refused. -/
theorem C91_new_refused {owner : AccountId} {supply : Nat} {m : Metadata} (h : (D STATE).isSome ∨ ¬ Valid m) :
    ∃ e, new D owner supply m = .error e := by
  cases hn : new D owner supply m with
  | error e => exact ⟨e, rfl⟩
  | ok r =>
    simp only [new, bind_ok_iff, require_ok_iff] at hn
    obtain ⟨_, h1, _, h2, _⟩ := hn
    rcases h with h | h
    · rw [h1] at h; cases h
    · exact absurd (valid_iff.1 h2) h

/-- **C91**: what is held for an account pays for its entry. -/
theorem C91_paid {m : Metadata} (h : Rep D s m) {a : AccountId} (ha : IdFits a) {v : Bytes} (hv : D (akey a) = some v) :
    ∃ n, storage_balance_of D a = .ok (some (n, 0)) ∧ entryUsage (akey a) v * BYTE_COST ≤ n := by
  obtain ⟨h1, h2⟩ := (C91_views h).1 a ha
  have h3 := h.acc.read a ha
  rw [hv] at h3
  cases hg : s.accounts.get a with
  | none => rw [hg] at h3; cases h3
  | some b =>
    rw [hg] at h3
    simp only [Option.map_some, Option.some.injEq] at h3
    subst h3
    refine ⟨s.storage_cost, by rw [h2, State.storage_balance_of, hg]; rfl, ?_⟩
    rw [h.good.cost, entryUsage, enc_length, u128_length, BYTE_COST]
    refine Nat.mul_le_mul_right _ ?_
    unfold IdFits at ha
    omega

/-! ## Histories -/

/-- Account ids in an input. -/
def InputFits : Input → Prop
  | .call c k => Fits c k
  | .settle .. => True

/-- Minters that an input may add. -/
def adds : Input → Nat
  | .call _ (.add_minter _) => 1
  | _ => 0

theorem minters_len {k : Call} {s' : State} {out : List Promise} (h : Token.exec s c k = .ok (s', out)) :
    s'.minters.length ≤ s.minters.length + adds (.call c k) := by
  cases exec_change h <;> simp only [adds] <;> try exact Nat.le_add_right _ _
  · simp
  · exact Nat.le_trans swapRemove_length (Nat.le_add_right _ _)

theorem runs_rep {me : AccountId} (hme : IdFits me) {m : Metadata} {l : List Input} {b : BWorld} {w : World} {log : List Line}
    (hw : Writes me w log) (h : Rep b.disk w.st m) (hp : b.pending = w.pending)
    (hpf : ∀ p ∈ w.pending, IdFits p.sender ∧ IdFits p.receiver) (hf : ∀ x ∈ l, InputFits x)
    (hn : w.st.minters.length + (l.map adds).sum < 2 ^ 32) :
    ∃ w', Writes me w' (log ++ (runs me b l).2) ∧ Rep (runs me b l).1.disk w'.st m ∧ (runs me b l).1.pending = w'.pending ∧
      Rest b.disk (runs me b l).1.disk := by
  induction l generalizing b w log with
  | nil => exact ⟨w, by simpa [runs] using hw, h, hp, fun _ _ _ _ => rfl⟩
  | cons x t ih =>
    have hf' : ∀ x ∈ t, InputFits x := fun x hx => hf x (List.mem_cons_of_mem _ hx)
    have hx := hf x List.mem_cons_self
    simp only [List.map_cons, List.sum_cons] at hn
    cases x with
    | call c k =>
      simp only [runs]
      by_cases hc : c.current = me ∧ c.predecessor ≠ me
      · rw [if_pos hc]
        have hroom : Room w.st k := by
          cases k <;> try trivial
          simp only [adds] at hn
          show w.st.minters.length + 1 < 2 ^ 32
          omega
        have hcall := C91_call h c (k := k) hx hroom
        cases he : Token.exec w.st c k with
        | error e =>
          rw [he] at hcall
          simp only [hcall]
          exact ih hw h hp hpf hf' (by omega)
        | ok r =>
          rw [he] at hcall
          obtain ⟨D', h1, h2, h3⟩ := hcall
          simp only [h1]
          have hlen := minters_len (s' := r.1) (out := r.2) he
          have hw' := Writes.call hw c k r.1 r.2 hc.1 hc.2 he
          obtain ⟨w', i1, i2, i3, i4⟩ := ih (b := ⟨D', b.pending ++ notified r.2⟩) hw' h2 (by rw [hp]) (by
            intro p hp'
            rcases List.mem_append.1 hp' with hp' | hp'
            · exact hpf p hp'
            · obtain ⟨msg, rfl, e, -⟩ := notified_mem (s' := r.1) he hp'
              rw [e]; exact hx) hf' (by simp only; omega)
          rw [List.append_assoc] at i1
          exact ⟨w', i1, i2, i3, h3.trans i4⟩
      · rw [if_neg hc]
        exact ih hw h hp hpf hf' (by omega)
    | settle i r =>
      simp only [runs]
      cases hi : b.pending[i]? with
      | none => exact ih hw h hp hpf hf' (by omega)
      | some p =>
        simp only
        have hi' : w.pending[i]? = some p := by rw [← hp]; exact hi
        have hlt : i < w.pending.length := by
          rcases Nat.lt_or_ge i w.pending.length with h | h
          · exact h
          · rw [List.getElem?_eq_none h] at hi'; cases hi'
        have hsplit : w.pending = w.pending.take i ++ p :: w.pending.drop (i + 1) := by
          have : w.pending[i] = p := by rw [List.getElem?_eq_getElem hlt] at hi'; exact Option.some.inj hi'
          rw [← this, ← List.drop_eq_getElem_cons hlt, List.take_append_drop]
        have herase : b.pending.eraseIdx i = w.pending.take i ++ w.pending.drop (i + 1) := by
          rw [hp, List.eraseIdx_eq_take_drop_succ]
        have hpm : p ∈ w.pending := List.mem_of_getElem? hi'
        have hpf' : ∀ q ∈ w.pending.take i ++ w.pending.drop (i + 1), IdFits q.sender ∧ IdFits q.receiver := by
          intro q hq
          rcases List.mem_append.1 hq with hq | hq
          · exact hpf q (List.mem_of_mem_take hq)
          · exact hpf q (List.mem_of_mem_drop hq)
        have hw' := Writes.resolve hw _ _ p r hsplit
        have hcall := C91_call h ⟨me, me, 0, r⟩ (k := .ft_resolve_transfer p.sender p.receiver p.amount)
          ⟨hme, hpf p hpm⟩ trivial
        cases he : Token.exec w.st ⟨me, me, 0, r⟩ (.ft_resolve_transfer p.sender p.receiver p.amount) with
        | error e =>
          rw [he] at hcall hw'
          simp only [hcall]
          simp only [Res.getOr, Res.isOk, Bool.false_eq_true, if_false, List.append_nil] at hw'
          rw [herase]
          exact ih (b := ⟨b.disk, _⟩) hw' h rfl hpf' hf' (by simp only; omega)
        | ok x =>
          rw [he] at hcall hw'
          obtain ⟨D', h1, h2, h3⟩ := hcall
          simp only [h1]
          simp only [Res.getOr, Res.isOk, if_true] at hw'
          have hlen := minters_len (s' := x.1) (out := x.2) he
          simp only [adds] at hlen
          rw [herase]
          obtain ⟨w', i1, i2, i3, i4⟩ := ih (b := ⟨D', _⟩) hw' h2 rfl hpf' hf' (by simp only; omega)
          rw [List.append_assoc] at i1
          exact ⟨w', i1, i2, i3, h3.trans i4⟩

/-- **C91**: installed on storage without entries of the contract, after any calls and settlements, accepted or not: the views
show for every account, and for the supply, what the lines written say; the balances of all accounts add up to the supply; the
metadata and the price of an account are those of the installation; and nothing else in storage changed. -/
theorem C91_history (hD : Blank D) {me owner : AccountId} (hme : IdFits me) (ho : IdFits owner) {supply : Nat}
    (hs : supply < 2 ^ 128) {m : Metadata} (hm : metadata.ok m) (hv : Valid m) {l : List Input} (hf : ∀ x ∈ l, InputFits x)
    (hn : (l.map adds).sum < 2 ^ 32) :
    ∃ D0 log0, new D owner supply m = .ok (D0, log0) ∧ ∃ D' log, (runs me ⟨D0, []⟩ l).1.disk = D' ∧
      log0 ++ (runs me ⟨D0, []⟩ l).2 = log ∧
      (∀ a, IdFits a → ∃ n, ft_balance_of D' a = .ok n ∧
        n + (total (·.takes a) log + total (·.closes a) log) = total (·.gives a) log) ∧
      (∃ n, ft_total_supply D' = .ok n ∧ n + (total (·.destroyed) log + total (·.lost) log) = total (·.made) log) ∧
      (∃ all : List (AccountId × Nat), (all.map Prod.fst).Nodup ∧
        (∀ a n, IdFits a → 0 < n → ((a, n) ∈ all ↔ ft_balance_of D' a = .ok n)) ∧
        ft_total_supply D' = .ok (all.map Prod.snd).sum) ∧
      (∀ a v, IdFits a → D' (akey a) = some v →
        ∃ n, storage_balance_of D' a = .ok (some (n, 0)) ∧ entryUsage (akey a) v * BYTE_COST ≤ n) ∧
      storage_balance_bounds D' = .ok (125 * 10 ^ 19, some (125 * 10 ^ 19)) ∧ ft_metadata D' = .ok m ∧ Rest D D' := by
  obtain ⟨D0, s, h1, h2, h3, h4⟩ := C91_new hD ho hs hm hv
  refine ⟨D0, _, h1, _, _, rfl, rfl, ?_⟩
  have hw := Writes.init (me := me) (125 * 10 ^ 19) owner supply s (by unfold U128_MAX; omega) h2
  obtain ⟨w, w1, w2, w3, w4⟩ := runs_rep (b := ⟨D0, []⟩) hme hw h3 rfl (fun p hp => by cases hp) hf (by
    rw [(new_ok h2).2.2.2.1]; simpa using hn)
  obtain ⟨v1, v2, v3, v4, v5, v6⟩ := C91_views w2
  obtain ⟨c1, c2⟩ := C90_lines w1
  refine ⟨fun a ha => ⟨_, (v1 a ha).1, c1 a⟩, ⟨_, v2, c2⟩, ⟨w.st.accounts.entries, w.st.accounts.nodup, ?_, ?_⟩,
    fun a v ha hv => C91_paid w2 ha hv, ?_, v6, h4.trans w4⟩
  · intro a n ha hn
    rw [(v1 a ha).1, ← UMap.get_eq_some_iff, State.ft_balance_of, Except.ok.injEq]
    cases w.st.accounts.get a with
    | none => simp; omega
    | some b => simp
  · rw [v2]
    have hi := (C90_exists.2 ⟨_, w1⟩).inv.sound.1
    rw [State.ft_total_supply, hi]
    rfl
  · rw [v5, State.storage_balance_bounds, w2.good.cost]

/-! ## An execution -/

/-- The metadata of `new_default_meta` (`lib.rs:65-73`), with a shorter icon. -/
def mpdao : Metadata := ⟨"ft-1.0.0", "metapool.app DAO Governance Token", "mpDAO", some "data:image/svg+xml", none, none, 6⟩

theorem mpdao_ok : metadata.ok mpdao ∧ Valid mpdao := by
  refine ⟨⟨?_, ?_, ?_, ?_, trivial, trivial, ?_⟩, rfl, rfl, fun h e => by cases e⟩
  · exact str_ok.2 (by unfold StrFits; decide)
  · exact str_ok.2 (by unfold StrFits; decide)
  · exact str_ok.2 (by unfold StrFits; decide)
  · exact str_ok.2 (by unfold StrFits; decide)
  · exact u8_ok.2 (by decide)

/-- As `demoL`, with the real price of an account and a registration that is refused. -/
def inputs : List Input :=
  [.call ⟨"tok", "eve", 10 ^ 21, none⟩ (.storage_deposit none none),
   .call ⟨"tok", "bob", 125 * 10 ^ 19, none⟩ (.storage_deposit none none),
   .call ⟨"tok", "bob", 2 * 10 ^ 21, none⟩ (.storage_deposit (some "dex") none),
   .call ⟨"tok", "alice", 1, none⟩ (.add_minter "bob"), .call ⟨"tok", "bob", 1, none⟩ (.ft_mint 50),
   .call ⟨"tok", "alice", 1, none⟩ (.ft_transfer_call "dex" 100 []), .settle 0 (some 30),
   .call ⟨"tok", "dex", 1, none⟩ (.ft_burn 20), .call ⟨"tok", "bob", 1, none⟩ (.ft_transfer_call "dex" 40 []),
   .call ⟨"tok", "alice", 1, none⟩ (.ft_transfer_call "dex" 10 []),
   .call ⟨"tok", "bob", 1, none⟩ (.storage_unregister (some true)), .settle 1 none, .settle 0 (some 15)]

/-- Another entry is in the storage. -/
def before : Disk := upd (fun _ => none) [7] (some [1])

theorem before_blank : Blank before := ⟨upd_ne _ _ (by decide), fun a => upd_ne _ _ (by simp [akey])⟩

theorem inputs_fit : ∀ x ∈ inputs, InputFits x := by
  intro x hx
  simp only [inputs, List.mem_cons, List.not_mem_nil, or_false] at hx
  rcases hx with rfl | rfl | rfl | rfl | rfl | rfl | rfl | rfl | rfl | rfl | rfl | rfl | rfl <;>
    simp only [InputFits, Fits] <;> unfold IdFits <;> decide

/-- The hypotheses of `C91_history`, and so of `C91_call`, `C91_new`, `C91_views` and `C91_paid`. -/
example : Blank before ∧ IdFits "tok" ∧ IdFits "alice" ∧ metadata.ok mpdao ∧ Valid mpdao ∧ (∀ x ∈ inputs, InputFits x) ∧
    (inputs.map adds).sum = 1 :=
  ⟨before_blank, by decide, by decide, mpdao_ok.1, mpdao_ok.2, inputs_fit, by decide⟩

/-- What it writes, and the balances at its end. -/
example : (match new before "alice" 1000 mpdao with
    | .error _ => none
    | .ok r => let x := runs "tok" ⟨r.1, []⟩ inputs
      some (x.2, [ft_balance_of x.1.disk "alice", ft_balance_of x.1.disk "bob", ft_balance_of x.1.disk "dex",
        ft_total_supply x.1.disk], x.1.pending)) =
    some ([.mint "bob" 50, .transfer "alice" "dex" 100, .transfer "dex" "alice" 30,
    .burn "dex" 20, .transfer "bob" "dex" 40, .transfer "alice" "dex" 10, .closed "bob" 10, .transfer "dex" "alice" 10,
    .deleted, .burn "dex" 15, .burned "bob" 15], [.ok 930, .ok 0, .ok 75, .ok 1005], []) := by
  decide +kernel

end Verif.Token.Bytes
