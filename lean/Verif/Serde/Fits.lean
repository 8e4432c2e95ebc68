import Verif.Serde.Small
import Verif.Serde.Wire
import Verif.Serde.MetaVoteApi
import Verif.Serde.MpipApi
import Verif.MetaVote.BytesStep
import Verif.Mpip.BytesStep

/-!
# Inputs that are not too long have arguments that can be stored
-/

namespace Verif.Serde

open Storage

/-- What is read from a text is no larger than the text. -/
theorem decode_gives {α : Type} {T : Ty α} {P : α → Prop} {b : Bytes} {a : α} (hT : T.Gives b.length P) (h : T.decode b = some a) :
    P a := by
  obtain ⟨v, h1, h2⟩ := Option.bind_eq_some_iff.1 h
  exact hT _ _ (parse_small h1) h2

theorem valid_length {a : String} (h : validAccount a = true) : (utf8 a).length ≤ 64 := by
  unfold validAccount at h
  rw [Bool.and_eq_true, decide_eq_true_eq] at h
  exact h.1.2

theorem valid_fits {a : String} (h : validAccount a = true) : Borsh.StrFits a :=
  Nat.lt_of_le_of_lt (valid_length h) (by decide)

theorem account_gives (n : Nat) : account.Gives n Borsh.StrFits := fun v a _ h => valid_fits (account.sound v a h)

theorem fields_any {α : Type} (F : Fields α) (n : Nat) : F.Gives n fun _ => True := fun _ _ _ _ => trivial

theorem str_fits {n : Nat} (hn : n < 2 ^ 31) : str.Gives n fun s => (utf8 s).length < 2 ^ 31 :=
  fun v a hv h => Nat.lt_of_le_of_lt (str_gives n v a hv h) hn

theorem fits_of {s : String} (h : (utf8 s).length < 2 ^ 31) : Borsh.StrFits s := Nat.lt_trans h (by decide)

end Verif.Serde

namespace Verif.MetaVote.Bytes

open Verif Storage Disk Borsh Serde

/-- The voters and apps that a call names are among the names that occur. -/
def Named (N : Names) : Call → Prop
  | .vote _ a _ | .rebalance _ a _ | .unvote a _ | .vote_delegated _ _ a _ | .unvote_delegated _ a _ => N.app a
  | .migration_create_lps v _ _ | .after_transfer_mpdao_callback v _ => N.voter v
  | .operator_mirror_lps e _ => N.voter (pseudo_near_address e)
  | .ft_on_transfer se _ m => N.voter se ∧ ∀ p, serde.parse_pair m = some p → N.voter p.1
  | _ => True

theorem pseudo_fits {e : String} (h : (utf8 e).length < 2 ^ 31) : StrFits (pseudo_near_address e) := by
  unfold StrFits pseudo_near_address
  rw [show utf8 (e ++ ".evmp.near") = utf8 e ++ utf8 ".evmp.near" by simp [utf8], List.length_append,
    show (utf8 ".evmp.near").length = 10 by decide]
  omega

/-- The receivers in the message of a transfer. -/
theorem claims_fit {m : Bytes} (h : m.length < 2 ^ 31) (l : List (String × Nat)) (hl : serde.parse_claims (m.drop 11) = some l) :
    ∀ x ∈ l, StrFits x.1 := by
  have hd : (m.drop 11).length < 2 ^ 31 := by rw [List.length_drop]; omega
  unfold Json.parse_claims at hl
  split at hl
  · rename_i l' h1
    have h0 := decode_gives (list_gives (pair_gives (str_fits hd) (gives_any _ _))) h1
    split at hl
    · cases hl
      exact fun x hx => fits_of (h0.2 x hx).1
    · cases hl
  · cases hl

/-- The strings of a call are no longer than its input. -/
theorem read_fits {N : Names} {name : String} {b : Bytes} {k : Call} (h : Call.read name b = some k) (hb : b.length < 2 ^ 31)
    (hk : Named N k) : CallOK N serde k := by
  have S := fun k => Fields.Gives.one k (str_fits hb)
  have A := fun k => Fields.Gives.one k (account_gives b.length)
  have X := fun {α : Type} (F : Fields α) => fields_any F b.length
  have O := fun k hne => Fields.Gives.opt k hne (str_fits hb)
  unfold Call.read at h
  split at h
  case h_1 => obtain ⟨a, -, rfl⟩ := args_gives (X _) h; trivial
  case h_2 => cases h; trivial
  case h_3 => obtain ⟨a, ha, rfl⟩ := args_gives (A _) h; exact ha
  case h_4 => obtain ⟨a, ha, rfl⟩ := args_gives (A _) h; exact ha
  case h_5 => obtain ⟨a, ha, rfl⟩ := args_gives (A _) h; exact ha
  case h_6 => obtain ⟨a, ha, rfl⟩ := args_gives (X _) h; trivial
  case h_7 => obtain ⟨a, ha, rfl⟩ := args_gives (S _) h; exact fits_of ha
  case h_8 =>
    obtain ⟨a, ha, rfl⟩ := args_gives (.one _ (list_gives (pair_gives (str_fits hb) (str_fits hb)))) h
    exact fun x hx => ⟨fits_of (ha.2 x hx).1, fits_of (ha.2 x hx).2⟩
  case h_18 => obtain ⟨⟨a, v, o⟩, ha, rfl⟩ := args_gives (.and (X _) (.and (X _) (S _))) h; exact ⟨hk, fits_of ha.2.2⟩
  case h_19 => obtain ⟨⟨a, v, o⟩, ha, rfl⟩ := args_gives (.and (X _) (.and (X _) (S _))) h; exact ⟨hk, fits_of ha.2.2⟩
  case h_20 => obtain ⟨⟨v, o⟩, ha, rfl⟩ := args_gives (.and (X _) (S _)) h; exact ⟨hk, fits_of ha.2⟩
  case h_21 =>
    obtain ⟨⟨a, v, o⟩, ha, rfl⟩ := args_gives (.and (X _) (.and (X _) (O _ _))) h
    exact fun x hx => fits_of (ha.2.2 x hx)
  case h_24 => obtain ⟨a, ha, rfl⟩ := args_gives (S _) h; exact fits_of ha
  case h_25 =>
    obtain ⟨⟨a, v, o⟩, ha, rfl⟩ := args_gives (.and (X _) (.and (X _) (O _ _))) h
    exact ⟨hk, fun x hx => fits_of (ha.2.2 x hx)⟩
  case h_26 => obtain ⟨⟨a, v⟩, ha, rfl⟩ := args_gives (X _) h; exact hk
  case h_28 => cases h; trivial
  case h_29 => obtain ⟨⟨a, v⟩, ha, rfl⟩ := args_gives (X _) h; exact hk
  case h_30 => obtain ⟨⟨a, v⟩, ha, rfl⟩ := args_gives (.and (S _) (X _)) h; exact fits_of ha.1
  case h_31 =>
    obtain ⟨⟨a, v, m⟩, ha, rfl⟩ := args_gives (.and (X _) (.and (X _) (S _))) h
    exact ⟨hk.1, hk.2, claims_fit ha.2.2⟩
  case h_32 => obtain ⟨⟨a, v⟩, ha, rfl⟩ := args_gives (.and (S _) (S _)) h; exact ⟨fits_of ha.1, fits_of ha.2⟩
  case h_33 => obtain ⟨a, ha, rfl⟩ := args_gives (S _) h; exact fits_of ha
  case h_34 => obtain ⟨a, ha, rfl⟩ := args_gives (S _) h; exact fits_of ha
  case h_35 => obtain ⟨⟨a, v⟩, ha, rfl⟩ := args_gives (.and (S _) (X _)) h; exact pseudo_fits ha.1
  case h_36 =>
    obtain ⟨⟨a, v, x, o⟩, ha, rfl⟩ := args_gives (.and (S _) (.and (X _) (.and (X _) (S _)))) h
    exact ⟨pseudo_fits ha.1, hk, fits_of ha.2.2.2⟩
  case h_37 =>
    obtain ⟨⟨a, x, o⟩, ha, rfl⟩ := args_gives (.and (S _) (.and (X _) (S _))) h
    exact ⟨pseudo_fits ha.1, hk, fits_of ha.2.2⟩
  case h_38 => obtain ⟨a, ha, rfl⟩ := args_gives (S _) h; exact fits_of ha
  case h_39 => cases h
  all_goals
    obtain ⟨a, -, rfl⟩ := args_gives (X _) h
    trivial

/-- The previous governance contract named at the start. -/
theorem read_prev {b : Bytes} (hb : b.length < 2 ^ 31) {o op x y d l v mp st r p}
    (h : Call.read "new" b = some (.new_ o op x y d l v mp st r p)) : StrFits p := by
  have X := fun {α : Type} (F : Fields α) => fields_any F b.length
  unfold Call.read at h
  obtain ⟨⟨a1, a2, a3, a4, a5, a6, a7, a8, a9, a10, a11⟩, ha, e⟩ := args_gives (.and (X _) (.and (X _) (.and (X _) (.and (X _)
    (.and (X _) (.and (X _) (.and (X _) (.and (X _) (.and (X _) (.and (X _) (.one _ (str_fits hb)))))))))))) h
  cases e
  exact fits_of ha.2.2.2.2.2.2.2.2.2.2

end Verif.MetaVote.Bytes

namespace Verif.Mpip.Bytes

open Verif Storage Disk Borsh Serde

/-- The voters and proposals that a call names are among the names that occur. -/
def Named (N : Names) (c : Ctx) : Call → Prop
  | .vote_proposal i _ _ | .remove_vote_proposal i => N.prop i ∧ N.voter c.predecessor
  | .vote_proposal_callback i a _ _ => N.prop i ∧ N.voter a
  | _ => True

/-- The strings of a call are no longer than its input. -/
theorem read_fits {N : Names} {c : Ctx} {name : String} {b : Bytes} {k : Call} (h : Call.read name b = some k)
    (hb : b.length < 2 ^ 31) (hs : validAccount c.signer = true) (hk : Named N c k) : CallOK N c k := by
  have S := fun k => Fields.Gives.one k (str_fits hb)
  have A := fun k => Fields.Gives.one k (account_gives b.length)
  have X := fun {α : Type} (F : Fields α) => fields_any F b.length
  unfold Call.read at h
  split at h
  case h_3 => obtain ⟨a, ha, rfl⟩ := args_gives (A _) h; exact ha
  case h_4 => obtain ⟨a, ha, rfl⟩ := args_gives (A _) h; exact ha
  case h_13 =>
    obtain ⟨a, ha, rfl⟩ := args_gives (.and (S _) (.and (S _) (.and (S _) (.and (S _) (S _))))) h
    exact ⟨⟨fits_of ha.1, fits_of ha.2.1, fits_of ha.2.2.1, fits_of ha.2.2.2.1, fits_of ha.2.2.2.2⟩, valid_fits hs⟩
  case h_14 =>
    obtain ⟨a, ha, rfl⟩ := args_gives (.and (S _) (.and (S _) (.and (S _) (.and (S _) (S _))))) h
    exact ⟨⟨fits_of ha.1, fits_of ha.2.1, fits_of ha.2.2.1, fits_of ha.2.2.2.1, fits_of ha.2.2.2.2⟩, valid_fits hs⟩
  case h_16 =>
    obtain ⟨a, ha, rfl⟩ := args_gives (.and (X _) (.and (S _) (.and (S _) (.and (S _) (.and (S _) (S _)))))) h
    exact ⟨fits_of ha.2.1, fits_of ha.2.2.1, fits_of ha.2.2.2.1, fits_of ha.2.2.2.2.1, fits_of ha.2.2.2.2.2⟩
  case h_17 => obtain ⟨a, ha, rfl⟩ := args_gives (A _) h; exact ha
  case h_18 => obtain ⟨a, ha, rfl⟩ := args_gives (.and (X _) (.and (X _) (S _))) h; exact ⟨hk.1, hk.2, fits_of ha.2.2⟩
  case h_19 =>
    obtain ⟨a, ha, rfl⟩ := args_gives (.and (X _) (.and (X _) (.and (X _) (S _)))) h
    exact ⟨hk.1, hk.2, fits_of ha.2.2.2⟩
  case h_20 => obtain ⟨a, ha, rfl⟩ := args_gives (X _) h; exact hk
  case h_22 => cases h
  all_goals
    obtain ⟨a, -, rfl⟩ := args_gives (X _) h
    trivial

end Verif.Mpip.Bytes
