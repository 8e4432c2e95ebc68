import Verif.Props.Api
import Verif.Serde.ViewsFit
import Verif.Serde.MpipFit
import Verif.Serde.SmallViews
import Verif.Props.Kv
import Verif.Props.Token
import Verif.Props.MpipBytes

/-!
# C98: views as a client sees them

A client writes the arguments of a view as JSON and reads the answer as JSON.
-/

namespace Verif.MetaVote

open Verif Storage Serde

/-- C98: every question to meta-vote can be written and is read as it was written. -/
theorem C98_asked {v : View} (h : v.valid) : View.read v.write.1 v.write.2 = some v := View.read_write h

/-- C98: whatever the input, what reaches a view has arguments of its types, and the view is the one named. -/
theorem C98_typed {name : String} {b : Bytes} {v : View} (h : View.read name b = some v) : v.valid ∧ v.write.1 = name :=
  View.read_ok h

/-- C98: the order of the arguments does not matter. -/
theorem C98_order (name : String) {b b' : Bytes} {l l' : List (String × Val)} (hb : parse b = some (.obj l))
    (hb' : parse b' = some (.obj l')) (hp : l.Perm l') : View.read name b = View.read name b' := by
  unfold View.read
  split <;> first | rfl | exact argsOf_perm hb hb' hp

/-- C98: in every execution (with fewer than 2^64 voters and delegates), a client that asks a view reads exactly the value of that view, and is refused exactly when
the view refuses. -/
theorem C98_answer {J : Json} {me : AccountId} {w : World} (h : Reach J me w) (hc : w.st.Counted) (now : Nat) {v : View} (hv : v.valid) :
    (∃ e, w.st.view now v = .error e ∧ viewAll w.st now v.write.1 v.write.2 = .error e) ∨
      ∃ r b, w.st.view now v = .ok r ∧ viewAll w.st now v.write.1 v.write.2 = .ok b ∧ v.ty.decode b = some r := by
  have e0 : viewAll w.st now v.write.1 v.write.2 = (w.st.view now v >>= fun r => pure (v.ty.encode r)) := by
    unfold viewAll
    rw [View.read_write hv]
    rfl
  rw [e0]
  cases hr : w.st.view now v with
  | error e => exact .inl ⟨e, rfl, rfl⟩
  | ok r => exact .inr ⟨r, _, rfl, rfl, v.ty.decode_encode (view_ok h hc hr) v.depth⟩

/-- C98: an answer, whatever the input was, is the value of the named view for arguments of its types. -/
theorem C98_any {J : Json} {me : AccountId} {w : World} (h : Reach J me w) (hc : w.st.Counted) (now : Nat) {name : String} {b out : Bytes}
    (ho : viewAll w.st now name b = .ok out) :
    ∃ v r, v.valid ∧ v.write.1 = name ∧ w.st.view now v = .ok r ∧ v.ty.decode out = some r := by
  unfold viewAll at ho
  simp only [bind_ok_iff, expect_ok_iff, pure_ok_iff] at ho
  obtain ⟨v, hv, r, hr, rfl⟩ := ho
  exact ⟨v, r, (View.read_ok hv).1, (View.read_ok hv).2, hr, v.ty.decode_encode (view_ok h hc hr) v.depth⟩

/-- The hypotheses are met in a history of JSON calls; what a client is told of the rewards and the positions of `Bob`, and a refused
question. -/
example : Reach serde "me" paidWorld ∧ paidWorld.st.Counted ∧ (View.get_all_locking_positions "Bob").valid ∧
    viewAll paidWorld.st 0 "get_claimable_mpdao" (ascii "{\"voter_id\": \"Bob\"}") = .ok (ascii "\"7000000\"") ∧
    viewAll paidWorld.st 0 "get_all_locking_positions" (ascii "{\"voter_id\": \"Bob\"}") = .ok (ascii
      "[{\"index\":0,\"amount\":\"30000000\",\"locking_period\":30,\"voting_power\":\"15000000000000000000000000\",\"unlocking_started_at\":null,\"is_unlocked\":false,\"is_unlocking\":false,\"is_locked\":true}]") ∧
    viewAll paidWorld.st 0 "get_claimable_mpdao" (ascii "{\"voter\": \"Bob\"}") =
      .error (.assert "Failed to deserialize input from JSON.") :=
  ⟨C96_reach (stuckWorld_reach.steps paidWorld_steps), ⟨by decide +kernel, by decide +kernel⟩, trivial, by decide +kernel,
    by decide +kernel, by decide +kernel⟩

end Verif.MetaVote

namespace Verif.Mpip

open Verif Storage Serde

/-- C98: every question to mpip can be written and is read as it was written. -/
theorem C98_asked {v : View} (h : v.valid) : View.read v.write.1 v.write.2 = some v := View.read_write h

/-- C98: whatever the input, what reaches a view has arguments of its types, and the view is the one named. -/
theorem C98_typed {name : String} {b : Bytes} {v : View} (h : View.read name b = some v) : v.valid ∧ v.write.1 = name :=
  View.read_ok h

/-- C98: the order of the arguments does not matter. -/
theorem C98_order (name : String) {b b' : Bytes} {l l' : List (String × Val)} (hb : parse b = some (.obj l))
    (hb' : parse b' = some (.obj l')) (hp : l.Perm l') : View.read name b = View.read name b' := by
  unfold View.read
  split <;> first | rfl | exact argsOf_perm hb hb' hp

/-- C98: in every execution (with fewer than 2^64 voters), a client that asks a view reads exactly the value of that view, and is refused exactly when
the view refuses. -/
theorem C98_answer {J : Json} {me : AccountId} {w : World} (h : Reach J me w) (hc : w.st.voters.len ≤ U64_MAX) (c : Ctx) {v : View} (hv : v.valid) :
    (∃ e, w.st.view c v = .error e ∧ viewAll w.st c v.write.1 v.write.2 = .error e) ∨
      ∃ r b, w.st.view c v = .ok r ∧ viewAll w.st c v.write.1 v.write.2 = .ok b ∧ v.ty.decode b = some r := by
  have e0 : viewAll w.st c v.write.1 v.write.2 = (w.st.view c v >>= fun r => pure (v.ty.encode r)) := by
    unfold viewAll
    rw [View.read_write hv]
    rfl
  rw [e0]
  cases hr : w.st.view c v with
  | error e => exact .inl ⟨e, rfl, rfl⟩
  | ok r => exact .inr ⟨r, _, rfl, rfl, v.ty.decode_encode (view_ok h hc hr) v.depth⟩

/-- C98: an answer, whatever the input was, is the value of the named view for arguments of its types. -/
theorem C98_any {J : Json} {me : AccountId} {w : World} (h : Reach J me w) (hc : w.st.voters.len ≤ U64_MAX) (c : Ctx) {name : String} {b out : Bytes}
    (ho : viewAll w.st c name b = .ok out) :
    ∃ v r, v.valid ∧ v.write.1 = name ∧ w.st.view c v = .ok r ∧ v.ty.decode out = some r := by
  unfold viewAll at ho
  simp only [bind_ok_iff, expect_ok_iff, pure_ok_iff] at ho
  obtain ⟨v, hv, r, hr, rfl⟩ := ho
  exact ⟨v, r, (View.read_ok hv).1, (View.read_ok hv).2, hr, v.ty.decode_encode (view_ok h hc hr) v.depth⟩

/-- The hypotheses are met after two proposals and two votes; what a client is told. -/
example : Reach demoJ "me" demo ∧ demo.st.voters.len ≤ U64_MAX ∧ (View.get_my_vote "bob" 0).valid ∧
    viewAll demo.st ⟨"me", "bob", "bob", 0, 0, []⟩ "get_my_vote" (MetaVote.ascii "{\"voter_id\":\"bob\",\"mpip_id\":0}") =
      .ok (MetaVote.ascii "{\"mpip_id\":0,\"voter_id\":\"bob\",\"vote_type\":\"Against\",\"voting_power\":\"1025\",\"memo\":\"no\"}") ∧
    viewAll demo.st ⟨"me", "bob", "bob", 0, 0, []⟩ "get_proposal_votes" (MetaVote.ascii "{\"mpip_id\":0}") =
      .ok (MetaVote.ascii "{\"for_votes\":\"2048\",\"against_votes\":\"1025\",\"abstain_votes\":\"0\",\"has_voted\":[{\"mpip_id\":0,\"voter_id\":\"alice\",\"vote_type\":\"For\",\"voting_power\":\"2048\",\"memo\":\"yes\"},{\"mpip_id\":0,\"voter_id\":\"bob\",\"vote_type\":\"Against\",\"voting_power\":\"1025\",\"memo\":\"no\"}]}") :=
  ⟨demo_reach, by decide +kernel, ⟨by decide +kernel, by decide⟩, by decide +kernel, by decide +kernel⟩

end Verif.Mpip

namespace Verif.Kv

open Verif Storage Serde

theorem view_ok {s : State} (hc : s.associated_user_data.len ≤ U64_MAX) {v : View} {r : v.Out} (hr : s.view v = .ok r) :
    v.ty.ok r := by
  cases v with
  | get_value => exact fun _ _ => trivial
  | get_values => exact fun _ _ => ⟨trivial, trivial⟩
  | get_owner_id | get_operator_id => exact trivial
  | get_kv_count => cases hr; exact hc

/-- C98: every question to the key-value store can be written and is read as it was written. -/
theorem C98_asked {v : View} (h : v.valid) : View.read v.write.1 v.write.2 = some v := View.read_write h

/-- C98: whatever the input, what reaches a view has arguments of its types, and the view is the one named. -/
theorem C98_typed {name : String} {b : Bytes} {v : View} (h : View.read name b = some v) : v.valid ∧ v.write.1 = name :=
  View.read_ok h

/-- C98: the order of the arguments does not matter. -/
theorem C98_order (name : String) {b b' : Bytes} {l l' : List (String × Val)} (hb : parse b = some (.obj l))
    (hb' : parse b' = some (.obj l')) (hp : l.Perm l') : View.read name b = View.read name b' := by
  unfold View.read
  split <;> first | rfl | exact argsOf_perm hb hb' hp

/-- C98: in every execution (with fewer than 2^64 keys), a client that asks a view reads exactly the value of that view, and is refused exactly when
the view refuses. -/
theorem C98_answer {s : State} (hc : s.associated_user_data.len ≤ U64_MAX) {v : View} (hv : v.valid) :
    (∃ e, s.view v = .error e ∧ viewAll s v.write.1 v.write.2 = .error e) ∨
      ∃ r b, s.view v = .ok r ∧ viewAll s v.write.1 v.write.2 = .ok b ∧ v.ty.decode b = some r := by
  have e0 : viewAll s v.write.1 v.write.2 = (s.view v >>= fun r => pure (v.ty.encode r)) := by
    unfold viewAll
    rw [View.read_write hv]
    rfl
  rw [e0]
  cases hr : s.view v with
  | error e => exact .inl ⟨e, rfl, rfl⟩
  | ok r => exact .inr ⟨r, _, rfl, rfl, v.ty.decode_encode (view_ok hc hr) v.depth⟩

/-- C98: an answer, whatever the input was, is the value of the named view for arguments of its types. -/
theorem C98_any {s : State} (hc : s.associated_user_data.len ≤ U64_MAX) {name : String} {b out : Bytes}
    (ho : viewAll s name b = .ok out) :
    ∃ v r, v.valid ∧ v.write.1 = name ∧ s.view v = .ok r ∧ v.ty.decode out = some r := by
  unfold viewAll at ho
  simp only [bind_ok_iff, expect_ok_iff, pure_ok_iff] at ho
  obtain ⟨v, hv, r, hr, rfl⟩ := ho
  exact ⟨v, r, (View.read_ok hv).1, (View.read_ok hv).2, hr, v.ty.decode_encode (view_ok hc hr) v.depth⟩

example : demo.st.associated_user_data.len ≤ U64_MAX ∧ (View.get_values 1 5).valid ∧
    viewAll demo.st "get_values" (MetaVote.ascii "{\"from_index\":1,\"limit\":5}") =
      .ok (MetaVote.ascii "[[\"b\",\"4\"],[\"d\",\"5\"]]") :=
  ⟨by decide +kernel, ⟨by decide, by decide⟩, by decide +kernel⟩

/-- The same arguments in the other order. -/
example : viewAll demo.st "get_values" (MetaVote.ascii "{ \"limit\": 5, \"from_index\": 1 }") =
      .ok (MetaVote.ascii "[[\"b\",\"4\"],[\"d\",\"5\"]]") := by
  decide +kernel

end Verif.Kv

namespace Verif.Token

open Verif Storage Serde

theorem view_ok {me : AccountId} {w : World} (h : Reach me w) (hc : w.st.storage_cost ≤ U128_MAX) {v : View} {r : v.Out}
    (hr : w.st.view v = .ok r) : v.ty.ok r := by
  have hs := h.inv.sound
  cases v with
  | get_owner_id => exact trivial
  | get_minters => exact fun _ _ => trivial
  | ft_total_supply => cases hr; exact hs.2
  | ft_balance_of a => cases hr; exact (bal_le_held w.st a).trans (hs.1 ▸ hs.2)
  | storage_balance_bounds =>
    cases hr
    exact ⟨hc, fun x hx => by cases hx; exact hc⟩
  | storage_balance_of a =>
    cases hr
    intro x hx
    obtain ⟨y, -, rfl⟩ := Option.map_eq_some_iff.1 hx
    exact ⟨hc, Nat.zero_le _⟩

/-- C98: every question to the token can be written and is read as it was written. -/
theorem C98_asked {v : View} (h : v.valid) : View.read v.write.1 v.write.2 = some v := View.read_write h

/-- C98: whatever the input, what reaches a view has arguments of its types, and the view is the one named. -/
theorem C98_typed {name : String} {b : Bytes} {v : View} (h : View.read name b = some v) : v.valid ∧ v.write.1 = name :=
  View.read_ok h

/-- C98: the order of the arguments does not matter. -/
theorem C98_order (name : String) {b b' : Bytes} {l l' : List (String × Val)} (hb : parse b = some (.obj l))
    (hb' : parse b' = some (.obj l')) (hp : l.Perm l') : View.read name b = View.read name b' := by
  unfold View.read
  split <;> first | rfl | exact argsOf_perm hb hb' hp

/-- C98: in every execution (with a price of storage below 2^128), a client that asks a view reads exactly the value of that view, and is refused exactly when
the view refuses. -/
theorem C98_answer {me : AccountId} {w : World} (h : Reach me w) (hc : w.st.storage_cost ≤ U128_MAX) {v : View} (hv : v.valid) :
    (∃ e, w.st.view v = .error e ∧ viewAll w.st v.write.1 v.write.2 = .error e) ∨
      ∃ r b, w.st.view v = .ok r ∧ viewAll w.st v.write.1 v.write.2 = .ok b ∧ v.ty.decode b = some r := by
  have e0 : viewAll w.st v.write.1 v.write.2 = (w.st.view v >>= fun r => pure (v.ty.encode r)) := by
    unfold viewAll
    rw [View.read_write hv]
    rfl
  rw [e0]
  cases hr : w.st.view v with
  | error e => exact .inl ⟨e, rfl, rfl⟩
  | ok r => exact .inr ⟨r, _, rfl, rfl, v.ty.decode_encode (view_ok h hc hr) v.depth⟩

/-- C98: an answer, whatever the input was, is the value of the named view for arguments of its types. -/
theorem C98_any {me : AccountId} {w : World} (h : Reach me w) (hc : w.st.storage_cost ≤ U128_MAX) {name : String} {b out : Bytes}
    (ho : viewAll w.st name b = .ok out) :
    ∃ v r, v.valid ∧ v.write.1 = name ∧ w.st.view v = .ok r ∧ v.ty.decode out = some r := by
  unfold viewAll at ho
  simp only [bind_ok_iff, expect_ok_iff, pure_ok_iff] at ho
  obtain ⟨v, hv, r, hr, rfl⟩ := ho
  exact ⟨v, r, (View.read_ok hv).1, (View.read_ok hv).2, hr, v.ty.decode_encode (view_ok h hc hr) v.depth⟩

example : Reach "tok" demo ∧ demo.st.storage_cost ≤ U128_MAX ∧ (View.ft_balance_of "alice").valid ∧
    viewAll demo.st "ft_balance_of" (MetaVote.ascii "{\"account_id\":\"alice\"}") = .ok (MetaVote.ascii "\"920\"") ∧
    viewAll demo.st "storage_balance_of" (MetaVote.ascii "{\"account_id\":\"dex\"}") =
      .ok (MetaVote.ascii "{\"total\":\"5\",\"available\":\"0\"}") :=
  ⟨demo_reach, by decide +kernel, show validAccount "alice" = true by decide +kernel, by decide +kernel, by decide +kernel⟩

end Verif.Token
