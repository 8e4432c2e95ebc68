import Verif.Joint.TokenBytes
import Verif.Props.Solvency
import Verif.Props.Deposits

/-!
# C105: proof of reserves by what the contracts answer, in JSON on bytes
-/

namespace Verif.UMap

variable {K V : Type} [DecidableEq K]

theorem sum_at_le {l : List K} (m : UMap K V) (f : K → V → Nat) (h : l.Nodup) : (l.map (m.at' f)).sum ≤ m.sum f := by
  induction l generalizing m with
  | nil => simp
  | cons k l ih =>
    rw [List.nodup_cons] at h
    have h1 := sum_remove m f k
    have h2 := ih (m.remove k) h.2
    have h3 : l.map ((m.remove k).at' f) = l.map (m.at' f) := by
      refine List.map_congr_left fun i hi => ?_
      unfold at'
      rw [get_remove_ne m (k := k) (k' := i) fun e => h.1 (e ▸ hi)]
    rw [h3] at h2
    simp only [List.map_cons, List.sum_cons]
    omega

theorem sum_at_keys (m : UMap K V) (f : K → V → Nat) : (m.keys.map (m.at' f)).sum = m.sum f := by
  unfold sum keys
  rw [List.map_map]
  congr 1
  refine List.map_congr_left fun p hp => ?_
  exact at_of_some (get_eq_some_iff.2 hp)

end Verif.UMap

namespace Verif.Solvency.Bytes

open Verif Storage Disk Borsh Serde
open Verif.MetaVote (serde)

variable {X : Net} {j : World}

/-- What any client that asks meta-vote in JSON for a view is answered. -/
def VoteSays (X : Net) (j : World) (now : Nat) (v : MetaVote.View) (r : v.Out) : Prop :=
  ∃ out, JsonText.IsJson out (v.answer r) ∧ v.ty.decode out = some r ∧
    ∀ b, MetaVote.View.read v.write.1 b = some v → MetaVote.Bytes.viewAll X.H j.mv.D now v.write.1 b = .ok out

/-- What any client that asks a token in JSON for a view is answered. -/
def TokenSays (D : Disk) (v : Token.View) (r : v.Out) : Prop :=
  ∃ out, JsonText.IsJson out (v.answer r) ∧ v.ty.decode out = some r ∧
    ∀ b, Token.View.read v.write.1 b = some v → Token.Bytes.viewAll D v.write.1 b = .ok out

theorem vote_says (hX : X.OK) {S : SState} {f : Nat} (h : MetaVote.Bytes.Stored X.H X.N f S j.mv.D) (now : Nat) {v : MetaVote.View}
    {r : v.Out} (ha : MetaVote.Bytes.asked X.N v) (hr : S.view now v = .ok r) : VoteSays X j now v r := by
  refine ⟨v.ty.encode r, MetaVote.View.parse_answer (h.view_ok ha hr), v.ty.decode_encode (h.view_ok ha hr) v.depth, fun b hb => ?_⟩
  unfold MetaVote.Bytes.viewAll
  rw [hb]
  change (MetaVote.Bytes.answer X.H j.mv.D now v >>= _) = _
  rw [MetaVote.Bytes.answer_stored hX.names h now (MetaVote.View.read_ok hb).1 ha, hr]
  rfl

theorem token_says {D : Disk} {s : Token.State} {m : Token.Bytes.Metadata} {me : String} {p : List Token.Pending} (h : Token.Bytes.Rep D s m)
    (hs : Token.Reach me ⟨s, p⟩) {v : Token.View} {r : v.Out} (hr : s.view v = .ok r) : TokenSays D v r := by
  have hc : s.storage_cost ≤ U128_MAX := by rw [h.good.cost]; decide
  have hk : v.ty.ok r := Token.view_ok hs hc hr
  refine ⟨v.ty.encode r, Token.View.parse_answer hk, v.ty.decode_encode hk v.depth, fun b hb => ?_⟩
  have hne : v.write.1 ≠ "ft_metadata" := by cases v <;> simp [Token.View.write]
  unfold Token.Bytes.viewAll
  rw [if_neg hne, hb]
  change (Token.Bytes.answer D v >>= _) = _
  rw [Token.Bytes.answer_eq h (Token.View.read_ok hb).1, hr]
  rfl

theorem TokenSays.one {D : Disk} {v : Token.View} {r r' : v.Out} (hv : v.valid) (h : TokenSays D v r) (h' : TokenSays D v r') : r = r' := by
  obtain ⟨o, -, h1, h2⟩ := h
  obtain ⟨o', -, h1', h2'⟩ := h'
  have e := (h2 _ (Token.View.read_write hv)).symm.trans (h2' _ (Token.View.read_write hv))
  cases e
  exact Option.some.inj (h1.symm.trans h1')

/-- The mpDAO of the transfer-calls to meta-vote that it refused and that the token has yet to take back. -/
def toReturn (X : Net) (tk : String) (l : List (Note × Option Bytes)) : Nat :=
  (l.map fun x => if x.1.token = tk ∧ x.1.receiver = X.me ∧ x.2 = none then x.1.amount else 0).sum

/-- **C105.** Meta-vote answers a transfer-call with a panic or with the bytes of zero. -/
theorem C105_answers (h : Reach X j) : ∀ x ∈ j.results, x.1.receiver = X.me → x.2 = some MetaVote.onTransferResult ∨ x.2 = none := by
  induction h with
  | init => intro x hx; cases hx
  | @step j j' _ hs ih =>
    cases hs with
    | accept pre post q c D' out =>
      intro x hx hm
      rcases List.mem_append.1 hx with hx | hx
      · exact ih x hx hm
      · simp only [List.mem_singleton] at hx; rw [hx]; exact .inl rfl
    | reject pre post q hq hr =>
      intro x hx hm
      rcases List.mem_append.1 hx with hx | hx
      · exact ih x hx hm
      · simp only [List.mem_singleton] at hx; rw [hx]; exact .inr rfl
    | other pre post q r hq hr =>
      intro x hx hm
      rcases List.mem_append.1 hx with hx | hx
      · exact ih x hx hm
      · simp only [List.mem_singleton] at hx; rw [hx] at hm; exact absurd hm hr
    | settle pre post q r hq =>
      intro x hx hm
      refine ih x ?_ hm
      rw [hq]; simp only [List.mem_append, List.mem_cons] at *; tauto
    | _ => exact ih

theorem toReturn_eq {l : List (Note × Option Bytes)}
    (h : ∀ x ∈ l, x.1.receiver = X.me → x.2 = some MetaVote.onTransferResult ∨ x.2 = none) (tk : String) :
    refunds X.me tk (l.map heard) = toReturn X tk l := by
  unfold refunds toReturn
  rw [List.map_map]
  congr 1
  refine List.map_congr_left fun x hx => ?_
  obtain ⟨q, r⟩ := x
  simp only [Function.comp]
  by_cases hq : q.token = tk ∧ q.receiver = X.me
  · rcases h _ hx hq.2 with e | e
    · simp only at e
      subst e
      rw [heard_accepted]
      simp
    · simp only at e
      subst e
      simp [heard, hq]
  · have hq' : ¬ (q.token = tk ∧ q.receiver = X.me ∧ r = none) := fun e => hq ⟨e.1, e.2.1⟩
    rw [if_neg hq', if_neg]
    exact hq

theorem held_told {S : SState} {f : Nat} (hX : X.OK) (h2 : MetaVote.Bytes.Stored X.H X.N f S j.mv.D) (now : Nat) {i : String}
    (hm : ¬ MetaVote.mirrored i) (hi : StrFits i) (hb : MetaVote.heldSum S.st ≤ U128_MAX) :
    ∃ b k w : Nat, VoteSays X j now (.get_balance i) b ∧ VoteSays X j now (.get_locked_balance i) k ∧
      VoteSays X j now (.get_unlocking_balance i) w ∧ b + k + w = (S.st.voterD i).held := by
  have hle : (S.st.voterD i).held ≤ U128_MAX := by
    have := MetaVote.heldN_le S.st i
    unfold MetaVote.heldN at this
    rw [if_neg hm] at this
    omega
  obtain ⟨b, k, w, h3, h4, h5, h6⟩ := MetaVote.C41_partition S.st now i hle
  exact ⟨b, k, w, vote_says hX h2 now hi h3, vote_says hX h2 now hi h4, vote_says hX h2 now hi h5, h6⟩

/-- What an id holds. -/
theorem at_held {s : MetaVote.State} {i : String} (hm : ¬ MetaVote.mirrored i) :
    s.voters.at' (fun id v => if MetaVote.mirrored id then 0 else v.held) i = (s.voterD i).held := by
  unfold MetaVote.State.voterD
  cases hv : s.voters.get i with
  | none => rw [UMap.at_of_none hv]; simp [MetaVote.Voter.held, MetaVote.Voter.inPositions, MetaVote.posSum]
  | some v => rw [UMap.at_of_some hv, if_neg hm]; rfl

/-- **C105.** Whatever happened: the mpDAO balance of meta-vote that the token answers covers the balances that meta-vote answers for any
voters (that are not mirrored from another chain), the unclaimed mpDAO that it answers, and every payment and deposit that is on its way. -/
theorem C105_reserves (hX : X.OK) (h : Reach X j) (hV : j.V < 2 ^ 32) (hK : j.K < 2 ^ 32) :
    ∃ n u : Nat, TokenSays (j.tok X.A) (.ft_balance_of X.me) n ∧ (∀ now, VoteSays X j now .get_total_unclaimed_mpdao u) ∧
      ∀ now (l : List String), l.Nodup → (∀ i ∈ l, ¬ MetaVote.mirrored i ∧ StrFits i) →
        ∃ b k w : String → Nat, (∀ i ∈ l, VoteSays X j now (.get_balance i) (b i) ∧ VoteSays X j now (.get_locked_balance i) (k i) ∧
            VoteSays X j now (.get_unlocking_balance i) (w i)) ∧
          (l.map fun i => b i + k i + w i).sum + u + MetaVote.amounts (fun t => decide (t.token = X.A)) j.sent + executed X.A false j.done
            + incoming X.me X.A j.notes + toReturn X X.A j.results ≤ n := by
  obtain ⟨-, S, tk, m, hs⟩ := h.sim hX hV hK
  have hc := C66_covered hs.joint
  obtain ⟨p, hp, -⟩ := hs.joint.inv.tok X.A (.inl rfl)
  have hfit := hs.joint.inv.fits (.inl rfl : X.A = X.A ∨ X.A = X.B)
  have hr := toReturn_eq (C105_answers h) X.A
  refine ⟨_, _, token_says (hs.rep X.A (.inl rfl)) hp (v := .ft_balance_of X.me) rfl,
    fun now => vote_says hX hs.stored now (v := .get_total_unclaimed_mpdao) trivial rfl, fun now l hl hn => ?_⟩
  simp only [abs] at hc hfit
  have hb : MetaVote.heldSum S.st ≤ U128_MAX := by omega
  have key : ∀ i, ∃ x : Nat × Nat × Nat, i ∈ l → VoteSays X j now (.get_balance i) x.1 ∧ VoteSays X j now (.get_locked_balance i) x.2.1 ∧
      VoteSays X j now (.get_unlocking_balance i) x.2.2 ∧ x.1 + x.2.1 + x.2.2 = (S.st.voterD i).held := by
    intro i
    by_cases hi : i ∈ l
    · obtain ⟨b, k, w, h1, h2, h3, h4⟩ := held_told (j := j) hX hs.stored now (hn i hi).1 (hn i hi).2 hb
      exact ⟨(b, k, w), fun _ => ⟨h1, h2, h3, h4⟩⟩
    · exact ⟨(0, 0, 0), fun e => absurd e hi⟩
  obtain ⟨g, hg⟩ := Classical.skolem.1 key
  refine ⟨fun i => (g i).1, fun i => (g i).2.1, fun i => (g i).2.2, fun i hi => ⟨(hg i hi).1, (hg i hi).2.1, (hg i hi).2.2.1⟩, ?_⟩
  have e1 : l.map (fun i => (g i).1 + (g i).2.1 + (g i).2.2) =
      l.map (S.st.voters.at' (fun id v => if MetaVote.mirrored id then 0 else v.held)) :=
    List.map_congr_left fun i hi => by rw [(hg i hi).2.2.2, at_held (hn i hi).1]
  have e2 := UMap.sum_at_le S.st.voters (fun id v => if MetaVote.mirrored id then 0 else v.held) hl
  rw [e1, ← hr]
  unfold MetaVote.heldSum at hc
  exact Nat.le_trans (by omega) hc

/-- **C105.** The exact account: there is a list of voters, none of them mirrored, outside of which every such voter is answered to have
nothing, and with it the mpDAO of meta-vote and what was migrated are the balances answered, the unclaimed mpDAO, everything on its
way, the deposits made for mirrored accounts, and what meta-vote was given without a call. -/
theorem C105_exact (hX : X.OK) (h : Reach X j) (hV : j.V < 2 ^ 32) (hK : j.K < 2 ^ 32) (now : Nat) :
    ∃ (n u : Nat) (l : List String) (b k w : String → Nat), TokenSays (j.tok X.A) (.ft_balance_of X.me) n ∧
      VoteSays X j now .get_total_unclaimed_mpdao u ∧ l.Nodup ∧ (∀ i ∈ l, ¬ MetaVote.mirrored i) ∧
      (∀ i, ¬ MetaVote.mirrored i → StrFits i → VoteSays X j now (.get_balance i) (b i) ∧ VoteSays X j now (.get_locked_balance i) (k i) ∧
        VoteSays X j now (.get_unlocking_balance i) (w i)) ∧
      (∀ i, ¬ MetaVote.mirrored i → i ∉ l → b i + k i + w i = 0) ∧
      n + MetaVote.logCalls (fun _ => MetaVote.migratedBy) j.mv.log =
        (l.map fun i => b i + k i + w i).sum + u + MetaVote.amounts (fun t => decide (t.token = X.A)) j.sent + executed X.A false j.done
          + incoming X.me X.A j.notes + toReturn X X.A j.results + MetaVote.logCalls (mirroredBy serde X.A) j.mv.log + j.gifts X.A := by
  obtain ⟨-, S, tk, m, hs⟩ := h.sim hX hV hK
  have hx := C66_mpdao hs.joint
  have hc := C66_covered hs.joint
  obtain ⟨p, hp, -⟩ := hs.joint.inv.tok X.A (.inl rfl)
  have hfit := hs.joint.inv.fits (.inl rfl : X.A = X.A ∨ X.A = X.B)
  have hr := toReturn_eq (C105_answers h) X.A
  simp only [abs] at hc hfit
  have hb : MetaVote.heldSum S.st ≤ U128_MAX := by omega
  have key : ∀ i, ∃ x : Nat × Nat × Nat, (¬ MetaVote.mirrored i → StrFits i → VoteSays X j now (.get_balance i) x.1 ∧
      VoteSays X j now (.get_locked_balance i) x.2.1 ∧ VoteSays X j now (.get_unlocking_balance i) x.2.2) ∧
      (¬ MetaVote.mirrored i → x.1 + x.2.1 + x.2.2 = (S.st.voterD i).held) := by
    intro i
    by_cases hi : ¬ MetaVote.mirrored i ∧ StrFits i
    · obtain ⟨b, k, w, h1, h2, h3, h4⟩ := held_told (j := j) hX hs.stored now hi.1 hi.2 hb
      exact ⟨(b, k, w), fun _ _ => ⟨h1, h2, h3⟩, fun _ => h4⟩
    · exact ⟨((S.st.voterD i).held, 0, 0), fun e1 e2 => absurd ⟨e1, e2⟩ hi, fun _ => rfl⟩
  obtain ⟨g, hg⟩ := Classical.skolem.1 key
  refine ⟨_, _, S.st.voters.keys.filter (fun i => ¬ MetaVote.mirrored i), fun i => (g i).1, fun i => (g i).2.1, fun i => (g i).2.2,
    token_says (hs.rep X.A (.inl rfl)) hp (v := .ft_balance_of X.me) rfl,
    vote_says hX hs.stored now (v := .get_total_unclaimed_mpdao) trivial rfl, S.st.voters.nodup.filter _, ?_, fun i => (hg i).1, ?_, ?_⟩
  · intro i hi
    simpa using (List.mem_filter.1 hi).2
  · intro i hm hi
    rw [(hg i).2 hm]
    have : S.st.voters.get i = none := by
      cases hv : S.st.voters.get i with
      | none => rfl
      | some v => exact absurd (List.mem_filter.2 ⟨UMap.mem_keys_iff.2 ⟨v, hv⟩, by simpa using hm⟩) hi
    unfold MetaVote.State.voterD
    rw [this]
    rfl
  · have e : ((S.st.voters.keys.filter (fun i => ¬ MetaVote.mirrored i)).map fun i => (g i).1 + (g i).2.1 + (g i).2.2).sum
        = MetaVote.heldSum S.st := by
      unfold MetaVote.heldSum
      rw [← UMap.sum_at_keys]
      generalize S.st.voters.keys = l
      induction l with
      | nil => rfl
      | cons i l ih =>
        by_cases hm : MetaVote.mirrored i
        · rw [List.filter_cons_of_neg (by simpa using hm), ih, List.map_cons, List.sum_cons]
          have : S.st.voters.at' (fun id v => if MetaVote.mirrored id then 0 else v.held) i = 0 := by
            unfold UMap.at'
            cases S.st.voters.get i <;> simp [hm]
          omega
        · rw [List.filter_cons_of_pos (by simpa using hm), List.map_cons, List.sum_cons, ih, List.map_cons, List.sum_cons,
            at_held hm, (hg i).2 hm]
    rw [e, ← hr]
    exact hx

/-- **C105.** The stNEAR balance of meta-vote that the token answers is exactly what meta-vote answers as unclaimed, the payments and
deposits on their way, and what it was given without a call. -/
theorem C105_stnear (hX : X.OK) (h : Reach X j) (hV : j.V < 2 ^ 32) (hK : j.K < 2 ^ 32) :
    ∃ (n : Nat) (i : MetaVote.State.ContractInfoJson), TokenSays (j.tok X.B) (.ft_balance_of X.me) n ∧
      (∀ now, VoteSays X j now .get_contract_info i) ∧
      n = i.total_unclaimed_stnear + MetaVote.amounts (fun t => decide (t.token = X.B)) j.sent + executed X.B false j.done
        + incoming X.me X.B j.notes + toReturn X X.B j.results + j.gifts X.B := by
  obtain ⟨-, S, tk, m, hs⟩ := h.sim hX hV hK
  have hc := C66_stnear hs.joint
  obtain ⟨p, hp, -⟩ := hs.joint.inv.tok X.B (.inr rfl)
  refine ⟨_, _, token_says (hs.rep X.B (.inr rfl)) hp (v := .ft_balance_of X.me) rfl,
    fun now => vote_says hX hs.stored now (v := .get_contract_info) trivial rfl, ?_⟩
  rw [← toReturn_eq (C105_answers h) X.B]
  exact hc

/-- **C105.** A payment of meta-vote never fails for lack of funds: the token accepts the bytes that meta-vote wrote if and only if the
receiver is an account, not meta-vote, for which the token answers that it is registered, and the amount is not 0. -/
theorem C105_payment (hX : X.OK) (h : Reach X j) (hV : j.V < 2 ^ 32) (hK : j.K < 2 ^ 32) {t : MetaVote.Transfer} (ht : t ∈ j.sent) :
    Res.isOk (paying X j t) = true ↔ validAccount t.receiver = true ∧ t.receiver ≠ X.me ∧ 0 < t.amount ∧
      ∃ z : Nat × Nat, TokenSays (j.tok t.token) (.storage_balance_of t.receiver) (some z) := by
  obtain ⟨-, S, tk, m, hs⟩ := h.sim hX hV hK
  have hi := hs.joint.inv
  have htp : t ∈ j.mv.pending := hi.pend.symm.subset (List.mem_append_left _ ht)
  have htk := (hi.toks t htp).mem
  obtain ⟨p, hp, -⟩ := hi.tok t.token htk
  have hread := (MetaVote.lpending_faithful hs.mv.loose t htp).payment
  have hpay := C66_payment hs.joint ht
  have hreg : TokenSays (j.tok t.token) (.storage_balance_of t.receiver) ((tk t.token).storage_balance_of t.receiver) :=
    token_says (hs.rep t.token htk) hp (v := .storage_balance_of t.receiver) rfl
  have hsome : (∃ z, (tk t.token).storage_balance_of t.receiver = some z) ↔ ((tk t.token).accounts.get t.receiver).isSome := by
    unfold Token.State.storage_balance_of
    cases (tk t.token).accounts.get t.receiver <;> simp
  by_cases hv : validAccount t.receiver = true
  · rw [if_pos hv] at hread
    obtain ⟨-, h4⟩ := Token.Bytes.tok_call (hs.rep t.token htk) (c := ⟨t.token, X.me, 1, none⟩) hX.me hread trivial
    have e : Res.isOk (paying X j t) = _ := h4
    rw [e, show Token.exec (tk t.token) = Token.exec ((abs j S.st tk).tok t.token) from rfl, hpay]
    simp only [hv, true_and]
    constructor
    · rintro ⟨h1, h2, h3⟩
      obtain ⟨z, hz⟩ := hsome.2 h1
      refine ⟨h2, h3, z, ?_⟩
      rw [hz] at hreg
      exact hreg
    · rintro ⟨h2, h3, z, hz⟩
      exact ⟨hsome.1 ⟨z, TokenSays.one (v := .storage_balance_of t.receiver) hv hreg hz⟩, h2, h3⟩
  · rw [if_neg hv] at hread
    have he : paying X j t = .error (.assert "Failed to deserialize input from JSON.") :=
      (Token.Bytes.C99_call (hs.rep t.token htk) hX.me).1 hread
    rw [he]
    simp [Res.isOk, hv]

/-- **C105.** The token settles a transfer-call to meta-vote: it takes from meta-vote exactly what was sent if meta-vote panicked and
nothing if it accepted, and gives it back to the sender if they are still registered. -/
theorem C105_refund (hX : X.OK) (h : Reach X j) (hV : j.V < 2 ^ 32) (hK : j.K < 2 ^ 32) {q : Note} {r : Option Bytes}
    (hq : (q, r) ∈ j.results) (hm : q.receiver = X.me) :
    ∃ D' lines, settling j q r = .ok (D', [], lines) ∧ ∃ n n' s s' : Nat,
      TokenSays (j.tok q.token) (.ft_balance_of X.me) n ∧ TokenSays D' (.ft_balance_of X.me) n' ∧
      TokenSays (j.tok q.token) (.ft_balance_of q.sender) s ∧ TokenSays D' (.ft_balance_of q.sender) s' ∧
      n' + (if r = none then q.amount else 0) = n ∧
      ((∃ z : Nat × Nat, TokenSays (j.tok q.token) (.storage_balance_of q.sender) (some z)) →
        s' = s + (if r = none then q.amount else 0)) := by
  obtain ⟨-, S, tk, m, hs⟩ := h.sim hX hV hK
  have hi := hs.joint.inv
  have hqm := List.mem_map_of_mem (f := heard) hq
  have hf := hs.results _ hq
  have htk := (hi.results _ hqm).2
  obtain ⟨p, hp, -⟩ := hi.tok q.token htk
  obtain ⟨s1, e1, e2, e3⟩ := C66_refund hs.joint (q := q) (r := r.bind Serde.u128.decode) hqm hm
  have h0 := (Token.Bytes.C99_call (hs.rep q.token htk) (c := ⟨q.token, q.token, 0, r.bind Serde.u128.decode⟩) (hX.tok _ htk)).2 _
    hf.resolve trivial
  rw [show Token.exec (tk q.token) = Token.exec ((abs j S.st tk).tok q.token) from rfl, e1] at h0
  obtain ⟨D', h1, h2, -⟩ := h0
  obtain ⟨a, b, ea⟩ := List.append_of_mem hqm
  obtain ⟨p', hp', -⟩ := (hs.joint.step (.settle (abs j S.st tk) a b q (r.bind Serde.u128.decode) ea)).inv.tok q.token htk
  simp only [setAt_self, e1, Res.getOr] at hp'
  have hmin : min q.amount ((r.bind Serde.u128.decode).getD q.amount) = if r = none then q.amount else 0 := by
    rcases C105_answers h _ hq hm with e | e
    · simp only at e
      subst e
      have := heard_accepted q
      simp only [heard, Prod.mk.injEq, true_and] at this
      rw [this]
      simp
    · simp only at e
      subst e
      simp
  rw [hmin] at e2 e3
  refine ⟨D', _, h1, _, _, _, _, token_says (hs.rep q.token htk) hp (v := .ft_balance_of X.me) rfl,
    token_says h2 hp' (v := .ft_balance_of X.me) rfl, token_says (hs.rep q.token htk) hp (v := .ft_balance_of q.sender) rfl,
    token_says h2 hp' (v := .ft_balance_of q.sender) rfl, e2, ?_⟩
  rintro ⟨z, hz⟩
  refine e3 ?_
  have := TokenSays.one (v := .storage_balance_of q.sender) hf.1
    (token_says (hs.rep q.token htk) hp (v := .storage_balance_of q.sender) rfl) hz
  change (tk q.token).storage_balance_of q.sender = some z at this
  unfold Token.State.storage_balance_of at this
  change ((tk q.token).accounts.get q.sender).isSome = true
  cases hg : (tk q.token).accounts.get q.sender with
  | none => rw [hg] at this; cases this
  | some x => rfl

/-- **C105.** Every payment that fails is given back: no callback of one fails. -/
theorem C105_nothing_stranded (hX : X.OK) (h : Reach X j) (hV : j.V < 2 ^ 32) (hK : j.K < 2 ^ 32) :
    MetaVote.logStranded (fun _ => true) j.mv.log = 0 := by
  obtain ⟨-, S, tk, m, hs⟩ := h.sim hX hV hK
  exact C66_nothing_stranded hs.joint


/-! ## A case -/

/-- The mpDAO token before meta-vote: installed, meta-vote and eve registered, eve paid. -/
def tokenUses : List Token.Bytes.JInput :=
  [.call ⟨"mpdao", "alice", 125 * 10 ^ 19, none⟩ "storage_deposit" (MetaVote.ascii "{\"account_id\":\"me\"}"),
   .call ⟨"mpdao", "eve", 125 * 10 ^ 19, none⟩ "storage_deposit" (MetaVote.ascii "{}"),
   .call ⟨"mpdao", "alice", 1, none⟩ "ft_transfer" (MetaVote.ascii "{\"receiver_id\":\"eve\",\"amount\":\"70000000\"}")]

def tokenNew : Bytes := MetaVote.ascii "{\"owner_id\":\"alice\",\"total_supply\":\"900000000\"}"

/-- Both tokens just installed. -/
def fresh : Disk := ((Token.Bytes.initJson Token.Bytes.before "new_default_meta" tokenNew).getOr (Token.Bytes.before, [])).1

def mpdaoDisk : Disk := (Token.Bytes.runsJson "mpdao" ⟨fresh, []⟩ tokenUses).1.disk

def caseNet : Net := ⟨Disk.firstByte, MetaVote.Bytes.few, "me", "mpdao", "stnear"⟩

/-- Eve deposits by a transfer-call. -/
def evePays : Bytes := MetaVote.ascii "{\"receiver_id\":\"me\",\"amount\":\"50000000\",\"msg\":\"60\"}"

def eveNote : Note := ⟨"mpdao", "eve", "me", 50000000, MetaVote.ascii "60"⟩

/-- What withdraws eve's deposit. -/
def eveOut : MetaVote.Transfer := ⟨"mpdao", "eve", 50000000, .after_transfer_mpdao "eve" 50000000⟩

/-- Eve's transfer-call on the bytes of the token. -/
def tokenStory : Res (Disk × List Token.Promise × List Token.Line) :=
  Token.Bytes.callJson mpdaoDisk ⟨"mpdao", "eve", 1, none⟩ "ft_transfer_call" evePays

/-- Meta-vote accepts the deposit; eve unlocks and withdraws. -/
def voteStory : Res ((Disk × List MetaVote.Transfer) × (Disk × List MetaVote.Transfer) × (Disk × List MetaVote.Transfer)) := do
  let a ← MetaVote.Bytes.callJson Disk.firstByte MetaVote.Bytes.installedJ ⟨"me", "mpdao", 0, 1000, []⟩
    (MetaVote.Call.ft_on_transfer eveNote.sender eveNote.amount eveNote.msg).write.1
    (MetaVote.Call.ft_on_transfer eveNote.sender eveNote.amount eveNote.msg).write.2
  let b ← MetaVote.Bytes.callJson Disk.firstByte a.1 ⟨"me", "eve", 0, 5000, []⟩ "unlock_position" (MetaVote.ascii "{\"index\":0}")
  let c ← MetaVote.Bytes.callJson Disk.firstByte b.1 ⟨"me", "eve", 1, 61 * MetaVote.DAY, []⟩ "withdraw_all" (MetaVote.ascii "{}")
  pure (a, b, c)

theorem token_run : (match tokenStory with
    | .ok r => some (r.2.1, Token.Bytes.viewAll r.1 "ft_balance_of" (MetaVote.ascii "{\"account_id\":\"me\"}"))
    | .error _ => none) = some ([.notify "eve" "me" 50000000 (MetaVote.ascii "60")], .ok (MetaVote.ascii "\"50000000\"")) := by
  decide +kernel

theorem vote_run : (match voteStory with
    | .ok r => some (r.1.2, r.2.1.2, r.2.2.2)
    | .error _ => none) = some ([], [], [eveOut]) := by
  decide +kernel

theorem fresh_new : ∃ lines, Token.Bytes.initJson Token.Bytes.before "new_default_meta" tokenNew = .ok (fresh, lines) := by
  have h : Res.isOk (Token.Bytes.initJson Token.Bytes.before "new_default_meta" tokenNew) = true := by decide +kernel
  unfold fresh
  cases hx : Token.Bytes.initJson Token.Bytes.before "new_default_meta" tokenNew with
  | error e => rw [hx] at h; cases h
  | ok r => exact ⟨r.2, rfl⟩

theorem uses_done : (Token.Bytes.runsJson "mpdao" ⟨fresh, []⟩ tokenUses).1.pending = [] := by decide +kernel

theorem case_ok : caseNet.OK where
  names := MetaVote.Bytes.few_ok
  me := by decide +kernel
  tok := by
    intro tk h
    simp only [caseNet] at h
    rcases h with rfl | rfl <;> decide +kernel
  ne := by decide
  meA := by decide
  meB := by decide

/-- The disks of the two tokens. -/
def caseDisks (a : String) : Disk := if a = "mpdao" then mpdaoDisk else fresh

theorem mpdao_eq : (Token.Bytes.runsJson "mpdao" ⟨fresh, []⟩ tokenUses).1 = ⟨mpdaoDisk, []⟩ := by
  have h1 := uses_done
  unfold mpdaoDisk
  generalize (Token.Bytes.runsJson "mpdao" ⟨fresh, []⟩ tokenUses).1 = w at h1
  obtain ⟨d, p⟩ := w
  cases h1
  rfl

theorem uses_exist : ∀ x ∈ tokenUses, Token.Bytes.Exists x := by
  intro x hx
  simp only [tokenUses, List.mem_cons, List.not_mem_nil, or_false] at hx
  rcases hx with rfl | rfl | rfl <;> simp only [Token.Bytes.Exists] <;> decide +kernel

theorem uses_few : ((tokenUses.filterMap Token.Bytes.plain).map Token.Bytes.adds).sum < 2 ^ 32 := by decide +kernel

theorem tokenNew_short : tokenNew.length < 2 ^ 32 := by decide +kernel

theorem runs_none (tk : String) (w : Token.Bytes.BWorld) : (Token.Bytes.runsJson tk w []).1 = w := rfl

theorem inUse_of {tk name : String} {D0 D D' : Disk} {b : Bytes} {lines : List Token.Line} {l : List Token.Bytes.JInput}
    (h0 : Token.Bytes.Blank D0) (h1 : Token.Bytes.initJson D0 name b = .ok (D, lines)) (h2 : b.length < 2 ^ 32)
    (h3 : ∀ x ∈ l, Token.Bytes.Exists x) (h4 : ((l.filterMap Token.Bytes.plain).map Token.Bytes.adds).sum < 2 ^ 32)
    (h5 : (Token.Bytes.runsJson tk ⟨D, []⟩ l).1 = ⟨D', []⟩) : InUse tk D' :=
  ⟨D0, name, b, (D, lines), l, h0, h1, h2, h3, h4, h5⟩

theorem mpdao_used : InUse "mpdao" mpdaoDisk := by
  obtain ⟨lines, hn⟩ := fresh_new
  exact inUse_of Token.Bytes.before_blank hn tokenNew_short uses_exist uses_few mpdao_eq

theorem fresh_used : InUse "stnear" fresh := by
  obtain ⟨lines, hn⟩ := fresh_new
  exact inUse_of (l := []) Token.Bytes.before_blank hn tokenNew_short (fun x hx => by cases hx) (by decide) (runs_none _ _)

theorem mpdao_minters : Token.Bytes.get_minters mpdaoDisk = .ok [] := by decide +kernel

theorem fresh_minters : Token.Bytes.get_minters fresh = .ok [] := by decide +kernel

theorem mpdao_me : Token.Bytes.ft_balance_of mpdaoDisk "me" = .ok 0 := by decide +kernel

theorem fresh_me : Token.Bytes.ft_balance_of fresh "me" = .ok 0 := by decide +kernel

theorem disks_mpdao : caseDisks "mpdao" = mpdaoDisk := if_pos rfl

theorem disks_stnear : caseDisks "stnear" = fresh := if_neg (by decide)

theorem case_named : MetaVote.Bytes.Named caseNet.N (.ft_on_transfer eveNote.sender eveNote.amount eveNote.msg) :=
  MetaVote.Bytes.few_said (v := "eve") (by simp [MetaVote.Bytes.few])

theorem case_start : Start caseNet MetaVote.Bytes.other ⟨"me", "deployer", 0, 0, []⟩ MetaVote.newInput MetaVote.Bytes.installedJ 0 caseDisks
    (fun _ => 0) where
  blank := MetaVote.Bytes.other_blank
  time := Nat.zero_le _
  read := ⟨_, _, _, _, _, _, _, _, _, MetaVote.Bytes.new_read⟩
  short := MetaVote.Bytes.new_short
  exec := MetaVote.Bytes.installedJ_run
  used := by
    intro tk h
    rcases h with h | h <;> cases h
    · rw [show caseNet.A = "mpdao" from rfl, disks_mpdao]; exact mpdao_used
    · rw [show caseNet.B = "stnear" from rfl, disks_stnear]; exact fresh_used
  minters := by
    intro tk h
    rcases h with h | h <;> cases h
    · rw [show caseNet.A = "mpdao" from rfl, disks_mpdao]; exact ⟨_, mpdao_minters, Nat.le_refl _⟩
    · rw [show caseNet.B = "stnear" from rfl, disks_stnear]; exact ⟨_, fresh_minters, Nat.le_refl _⟩
  gifts := by
    intro tk h
    rcases h with h | h <;> cases h
    · rw [show caseNet.A = "mpdao" from rfl, disks_mpdao]; exact mpdao_me
    · rw [show caseNet.B = "stnear" from rfl, disks_stnear]; exact fresh_me

theorem Reach.and {j j' : World} (h : Reach X j) (hs : Step X j j') : Reach X j ∧ Step X j j' := ⟨h, hs⟩

/-- Eve deposits by a transfer-call, meta-vote accepts, and before the token has settled it eve has withdrawn and the payment is on its
way: the hypotheses of the theorems are met, with a transfer-call to settle and a payment to make, and what the token answers. -/
theorem case_last : ∃ e d i j, (Reach caseNet e ∧ Step caseNet e d ∧
    d.mv.log = .call ⟨"me", "mpdao", 0, 1000, []⟩ (.ft_on_transfer eveNote.sender eveNote.amount eveNote.msg) [] :: e.mv.log ∧
    d.V < 2 ^ 31 ∧ d.K < 2 ^ 32) ∧ Reach caseNet i ∧ Step caseNet i j ∧
    j.mv.log = .call ⟨"me", "eve", 1, 61 * MetaVote.DAY, []⟩ .withdraw_all [eveOut] :: i.mv.log ∧ Reach caseNet j ∧
    j.V < 2 ^ 31 ∧ j.K < 2 ^ 32 ∧ j.sent = [eveOut] ∧ j.done = [] ∧ j.results = [(eveNote, some MetaVote.onTransferResult)] ∧
    Token.Bytes.viewAll (j.tok "mpdao") "ft_balance_of" (MetaVote.ascii "{\"account_id\":\"me\"}") = .ok (MetaVote.ascii "\"50000000\"") := by
  have ht := token_run
  have hv := vote_run
  cases hx : tokenStory with
  | error e => rw [hx] at ht; cases ht
  | ok r =>
  rw [hx] at ht
  simp only [Option.some.injEq, Prod.mk.injEq] at ht
  obtain ⟨D', out, lines⟩ := r
  simp only at ht
  obtain ⟨rfl, ht⟩ := ht
  cases hy : voteStory with
  | error e => rw [hy] at hv; cases hv
  | ok r =>
  rw [hy] at hv
  obtain ⟨⟨D1, o1⟩, ⟨D2, o2⟩, ⟨D3, o3⟩⟩ := r
  simp only [Option.some.injEq, Prod.mk.injEq] at hv
  obtain ⟨rfl, rfl, rfl⟩ := hv
  simp only [voteStory, bind_ok_iff, pure_ok_iff] at hy
  obtain ⟨a, h1, b, h2, c, h3, e⟩ := hy
  cases e
  have s0 := Reach.init _ _ _ _ _ _ _ case_start
  have s1 := s0.step (.token _ "mpdao" (.inl rfl) ⟨"mpdao", "eve", 1, none⟩ "ft_transfer_call" evePays
    (.ft_transfer_call "me" 50000000 (MetaVote.ascii "60")) D' _ lines (by decide +kernel) (by decide +kernel) rfl (by decide) (by decide)
    (by simp only [caseDisks, if_pos]; exact hx))
  have t2 := s1.and (.accept _ [] [] eveNote ⟨"me", "mpdao", 0, 1000, []⟩ D1 [] rfl rfl rfl rfl rfl (by decide +kernel) (Nat.zero_le _)
    (by decide +kernel) (by decide +kernel) case_named (by dsimp only [caseNet]; exact h1))
  have s3 := (s1.step t2.2).step (.call _ _ _ _ _ [] (.call ⟨"me", "eve", 0, 5000, []⟩ "unlock_position" (MetaVote.ascii "{\"index\":0}") (.unlock_position 0)
    D2 [] (by decide +kernel) (by decide +kernel) rfl rfl (by decide +kernel) (show (1000 : Nat) ≤ 5000 by decide) (by decide +kernel) (by decide +kernel) trivial h2) rfl
    (by decide) (by decide) (by intro a; simp) (Nat.le_trans (Nat.le_of_eq (show _ = 0 from rfl)) (Nat.zero_le _)))
  have t4 := s3.and (.call _ _ _ _ _ [eveOut] (.call ⟨"me", "eve", 1, 61 * MetaVote.DAY, []⟩ "withdraw_all" (MetaVote.ascii "{}") .withdraw_all
    D3 [eveOut] (by decide +kernel) (by decide +kernel) rfl rfl (by decide +kernel) (show (5000 : Nat) ≤ 61 * MetaVote.DAY by decide +kernel) (by decide +kernel) (by decide +kernel) trivial h3) rfl
    (by decide) (by decide) (by intro a; simp) (Nat.le_trans (Nat.le_of_eq (show _ = 0 from rfl)) (Nat.zero_le _)))
  exact ⟨_, _, _, _, ⟨s1, t2.2, rfl, by simp only; decide +kernel, by simp only; decide +kernel⟩, s3, t4.2, rfl, s3.step t4.2, by simp only; decide +kernel, by simp only; decide +kernel, rfl, rfl, rfl, ht⟩

theorem case_run : ∃ j, Reach caseNet j ∧ j.V < 2 ^ 31 ∧ j.K < 2 ^ 32 ∧ j.sent = [eveOut] ∧ j.done = [] ∧
    j.results = [(eveNote, some MetaVote.onTransferResult)] ∧
    Token.Bytes.viewAll (j.tok "mpdao") "ft_balance_of" (MetaVote.ascii "{\"account_id\":\"me\"}") = .ok (MetaVote.ascii "\"50000000\"") := by
  obtain ⟨_, _, _, j, -, -, -, -, h⟩ := case_last
  exact ⟨j, h⟩

theorem case_reach : ∃ j, Reach caseNet j ∧ j.V < 2 ^ 32 ∧ j.K < 2 ^ 32 ∧ j.sent = [eveOut] ∧
    j.results = [(eveNote, some MetaVote.onTransferResult)] ∧
    Token.Bytes.viewAll (j.tok "mpdao") "ft_balance_of" (MetaVote.ascii "{\"account_id\":\"me\"}") = .ok (MetaVote.ascii "\"50000000\"") := by
  obtain ⟨j, h, hV, hK, hs, -, hr⟩ := case_run
  exact ⟨j, h, Nat.lt_of_lt_of_le hV (by decide), hK, hs, hr⟩

/-- So the payment is accepted by the token, unless eve unregisters from it first. -/
example : ∃ j, Reach caseNet j ∧ ∃ t ∈ j.sent, (Res.isOk (paying caseNet j t) = true ↔
    ∃ z : Nat × Nat, TokenSays (j.tok "mpdao") (.storage_balance_of "eve") (some z)) := by
  obtain ⟨j, h, hV, hK, hs, -⟩ := case_reach
  refine ⟨j, h, eveOut, by rw [hs]; simp, ?_⟩
  rw [C105_payment case_ok h hV hK (t := eveOut) (by rw [hs]; simp)]
  have h1 : validAccount eveOut.receiver = true := by decide +kernel
  have h2 : eveOut.receiver ≠ caseNet.me := by decide
  have h3 : 0 < eveOut.amount := by decide
  simp only [h1, h2, h3, ne_eq, not_false_eq_true, true_and]
  rfl

end Verif.Solvency.Bytes
