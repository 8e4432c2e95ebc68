import Verif.Storage.Power
import Verif.Props.StorageVotes
import Verif.Props.Funds
import Verif.Props.Positions
import Verif.Props.Power
import Verif.Props.Transfers
import Verif.Props.Access
import Verif.Props.Delegation

/-!
# Funds, positions, configuration, delegation and power over storage

What holds in every execution over storage, also in those in which vote maps are stale or shared
(`Verif/Props/StorageVotes.lean`).
-/

namespace Verif.Storage

open Verif MetaVote

variable {J : Json} {me : AccountId} {w : SWorld}

/-! ## Funds -/

/-- **C06** over storage. -/
theorem C06_storage_conservation (h : SReach J me w) :
    heldSum w.S.st + w.S.st.get_total_unclaimed_mpdao + amounts (·.isMpdao) w.pending
      + logPaid (·.isMpdao) w.log + logStranded (·.isMpdao) w.log
    = logCalls (receivedBy J w.S.st.mpdao_token_contract_address) w.log + logCalls (fun _ => migratedBy) w.log :=
  C06_conservation h.loose

/-- **C06** over storage. -/
theorem C06_storage_nothing_stranded (h : SReach J me w) (hb : netFits J w.S.st.mpdao_token_contract_address w.log) :
    logStranded (·.isMpdao) w.log = 0 := C06_nothing_stranded h.loose hb

/-- **C06** over storage. -/
theorem C06_storage_transfers (h : SReach J me w) {t : Transfer} (ht : t ∈ w.pending) (hm : t.isMpdao = true) :
    t.token = w.S.st.mpdao_token_contract_address ∧ t.source = t.receiver ∧ ¬ mirrored t.receiver :=
  C06_transfers h.loose ht hm

/-- **C07** over storage. -/
theorem C07_storage_conservation (h : SReach J me w) :
    w.S.st.get_contract_info.total_unclaimed_stnear + amounts (fun t => !t.isMpdao) w.pending
      + logPaid (fun t => !t.isMpdao) w.log + logStranded (fun t => !t.isMpdao) w.log
    = logCalls (receivedStBy w.S.st.mpdao_token_contract_address) w.log := C07_conservation h.loose

/-- **C07** over storage. -/
theorem C07_storage_nothing_stranded (h : SReach J me w) (hb : netFitsSt w.S.st.mpdao_token_contract_address w.log) :
    logStranded (fun t => !t.isMpdao) w.log = 0 := C07_nothing_stranded h.loose hb

/-- **C08** over storage. -/
theorem C08_storage_mpdao (h : SReach J me w) {n : Nat} (hn : w.S.st.claimable_mpdao.len ≤ n) :
    ∃ l, w.S.st.get_claims 0 n = .ok l ∧ (l.map Prod.snd).sum = w.S.st.get_total_unclaimed_mpdao ∧
      (∀ p ∈ l, 0 < p.2 ∧ w.S.st.get_claimable_mpdao p.1 = p.2) ∧ (l.map Prod.fst).Nodup ∧
      (∀ id, id ∉ l.map Prod.fst → w.S.st.get_claimable_mpdao id = 0) := C08_mpdao h.loose hn

/-- **C08** over storage. -/
theorem C08_storage_stnear (h : SReach J me w) {n : Nat} (hn : w.S.st.claimable_stnear.len ≤ n) :
    ∃ l, w.S.st.get_stnear_claims 0 n = .ok l ∧
      (l.map Prod.snd).sum = w.S.st.get_contract_info.total_unclaimed_stnear ∧
      (∀ p ∈ l, 0 < p.2 ∧ w.S.st.get_claimable_stnear p.1 = p.2) ∧ (l.map Prod.fst).Nodup ∧
      (∀ id, id ∉ l.map Prod.fst → w.S.st.get_claimable_stnear id = 0) := C08_stnear h.loose hn

/-- **C68** over storage. -/
theorem C68_storage_mpdao (h : SReach J me w) (id : String) (hid : ¬ mirrored id) :
    (w.S.st.voterD id).held + w.S.st.get_claimable_mpdao id + amounts (mpOf id) w.pending
      + logPaid (mpOf id) w.log + logStranded (mpOf id) w.log
    = logCalls (creditOf J w.S.st.mpdao_token_contract_address id) w.log := C68_account_mpdao h.loose id hid

/-- **C68** over storage. -/
theorem C68_storage_stnear (h : SReach J me w) (id : String) :
    w.S.st.get_claimable_stnear id + amounts (stOf id) w.pending + logPaid (stOf id) w.log
      + logStranded (stOf id) w.log
    = logCalls (creditStOf J w.S.st.mpdao_token_contract_address id) w.log := C68_account_stnear h.loose id

/-- Also after the votes went wrong: eve deposited twice, withdrew once, and bob deposited. -/
example : heldSum reuseW.S.st = 120000000 ∧ logPaid (·.isMpdao) reuseW.log = 60000000 ∧
    logCalls (receivedBy demoJ "mpdao") reuseW.log = 180000000 ∧
    (reuseW.S.st.voterD "eve").held = 60000000 ∧ logPaid (mpOf "eve") reuseW.log = 60000000 ∧
    logCalls (creditOf demoJ "mpdao" "eve") reuseW.log = 120000000 := by decide +kernel

/-! ## Calls that do not vote -/

/-- **C73** (part): a call that does not vote is accepted over storage exactly when the model accepts it, does the same, and
leaves the stored votes alone. -/
theorem C73_other_partial {S : SState} {c : Ctx} {k : Call} (hk : k.votes = false) (s' : State) (out : List Transfer) :
    exec J S.st c k = .ok (s', out) ↔ ∃ S', sexec J S c k = .ok (S', out) ∧ S'.st = s' ∧ S'.mem = S.mem :=
  sexec_other hk s' out

/-- **C73** (part): a voting call changes the votes and, of everything else, at most the available voting power of the voter
it acts on: the caller, or a mirrored account of which the caller is the delegate. -/
theorem C73_vote_partial {S S' : SState} {c : Ctx} {k : Call} {out : List Transfer} (hk : k.votes = true)
    (hm : k.isMirror = false) (hx : sexec J S c k = .ok (S', out)) :
    out = [] ∧ ∃ id, ActsOn S.st c id ∧ Touched S.st S'.st id := sexec_touched hk hm hx

/-- **C23** over storage: a failed withdrawal in flight is given back, exactly, whatever the votes look like. -/
theorem C23_storage (h : SReach J me w) {pre post : List Transfer} {t : Transfer} (hp : w.pending = pre ++ t :: post)
    (hm : t.isMpdao = true) {ts : Nat} (hc : w.clock ≤ ts) (hu : ts ≤ U64_MAX)
    (hb : heldSum w.S.st + amounts (·.isMpdao) w.pending ≤ U128_MAX) :
    ∃ w', SStep J me w w' ∧ w'.log = .resolved t false true :: w.log ∧ w'.pending = pre ++ post ∧ w'.S.mem = w.S.mem ∧
      (∀ id, w'.S.st.voterD id = if id = t.receiver then { w.S.st.voterD id with
        balance := (w.S.st.voterD id).balance + t.amount } else w.S.st.voterD id) := by
  have hx := (C23_restore h.loose (w := w.core) (by rw [show w.core.pending = w.pending from rfl, hp]; simp) hm ts hb).1
  obtain ⟨S', h1, h2, h3⟩ := (sexec_other (J := J) (S := w.S) (callback_not_vote t) _ _).1 hx
  refine ⟨_, SStep.resolve w pre post t false ts hp hc hu, ?_, rfl, ?_, ?_⟩
  · rw [h1]; rfl
  · rw [h1]; exact h3
  · intro id
    rw [h1]
    simp only [Res.getOr, h2, State.voterD, UMap.get_insert, SWorld.core]
    by_cases hid : id = t.receiver
    · subst hid; simp
    · simp [hid, Ne.symm hid]

/-- **C40** over storage. -/
theorem C40_storage (h : SReach J me w) (c : Ctx) (a : Nat) (hdep : c.deposit = 0) (ha : a ≤ U128_MAX) :
    (∀ S' out, sexec J w.S c (.claim_stnear a) = .ok (S', out) →
      ClaimsSt w.S.st S'.st c.predecessor c.predecessor a out ∧ S'.mem = w.S.mem) ∧
    (Res.isOk (sexec J w.S c (.claim_stnear a)) = true ↔ a ≤ w.S.st.get_claimable_stnear c.predecessor) := by
  obtain ⟨h1, h2⟩ := C40_claim h.loose c a hdep ha
  refine ⟨fun S' out hx => ⟨h1 S'.st out ((sexec_ran hx).exec rfl), ?_⟩, ?_⟩
  · obtain ⟨S2, h3, -, h4⟩ := (sexec_other (k := .claim_stnear a) rfl S'.st out).1 ((sexec_ran hx).exec rfl)
    rw [hx] at h3; cases h3; exact h4
  · rw [(callback_core (S := w.S) (k := .claim_stnear a) rfl).2]; exact h2

/-! ## Positions -/

/-- What can happen over storage from `w0` while `P` holds. -/
inductive SWhile (J : Json) (me : AccountId) (P : World → Prop) (w0 : SWorld) : SWorld → Prop
  | start (h : P w0.core) : SWhile J me P w0 w0
  | step {w w' : SWorld} (h : SWhile J me P w0 w) (hs : SStep J me w w') (hp : P w'.core) : SWhile J me P w0 w'

theorem SWhile.loose {P : World → Prop} {w0 w : SWorld} (h : SWhile J me P w0 w) : While J me P w0.core w.core := by
  induction h with
  | start h => exact .start h
  | step h hs hp ih => exact .step ih hs.loose hp

/-- **C10** over storage. -/
theorem C10_storage {w0 : SWorld} (h0 : SReach J me w0) {id : String} (hid : ¬ mirrored id) {D : Nat}
    (hlock : ∀ p ∈ (w0.S.st.voterD id).locking_positions, p.unlocking_started_at = none → D ≤ p.locking_period)
    (h : SWhile J me (inWindow D w0.core) w0 w) :
    taken id w.core + (w.S.st.voterD id).withdrawable (w0.clock / 1000000 + D * 86400000)
        ≤ taken id w0.core + (w0.S.st.voterD id).withdrawable (w0.clock / 1000000 + D * 86400000) :=
  C10_unbonding h0.loose hid hlock h.loose

/-- **C11** over storage. -/
theorem C11_storage (h : SReach J me w) (id : String) (now : Nat) :
    (w.S.st.get_all_locking_positions now id).length ≤ w.S.st.get_contract_info.max_locking_positions ∧
    (w.S.st.get_all_locking_positions now id).length < 256 := C11_locking_positions h.loose id now

/-- **C30** (part) over storage. -/
theorem C30_storage_below_partial (h : SReach J me w) (id : String) :
    ∀ p ∈ (w.S.st.voterD id).locking_positions, p.locking_period < 3600 := C30_below_partial h.loose id

/-! ## Configuration and delegation -/

/-- **C19** over storage. -/
theorem C19_storage {w' : SWorld} (h : SSteps J me w w') :
    ∃ l, w'.log = l ++ w.log ∧ w'.S.st.config = (acceptedCalls l).foldr (fun k cf => configAfter cf k) w.S.st.config :=
  C19_history h.loose

/-- **C21** over storage. -/
theorem C21_storage (h : SReach J me w) :
    (∀ e a, w.S.st.get_delegate e = some a ↔ e ∈ w.S.st.get_delegating_evm_addresses a) ∧
    (∀ a, (w.S.st.get_delegating_evm_addresses a).Nodup) ∧
    (∀ e a b, e ∈ w.S.st.get_delegating_evm_addresses a → e ∈ w.S.st.get_delegating_evm_addresses b → a = b) :=
  C21_consistent h.loose

/-- **C22** over storage. -/
theorem C22_storage_confirmed (h : SReach J me w) {e a : String} (hd : w.S.st.get_delegate e = some a) :
    ∃ l1 c out l2, w.log = l1 ++ .call c (.operator_confirm_delegated_evm_address e) out :: l2 ∧
      AskedIn e a l2 ∧
      ∀ x ∈ l1, ∀ c' o, x ≠ .call c' (.remove_delegated_evm_address e) o := C22_confirmed h.loose hd

/-- **C22** over storage: a delegated vote is accepted exactly when the caller is the delegate and the same vote of the pseudo
account would be, and then does exactly the same. -/
theorem C22_storage_vote (h : SReach J me w) (c : Ctx) (e : String) (n : Nat) (a o : String) (r : SState × List Transfer) :
    sexec J w.S c (.vote_delegated e n a o) = .ok r ↔
      w.S.st.get_delegate e = some c.predecessor ∧
      sexec J w.S { c with predecessor := pseudo_near_address e } (.vote n a o) = .ok r := by
  have hi := reach_dinv h.loose
  rw [show w.S.st = w.core.st from rfl, hi.agree]
  simp only [sexec, srun, SState.quiet, State.verify_delegate, bind_ok_iff, require_ok_iff, pure_ok_iff,
    Call.payable, Call.is_private, Call.in_range, State.get_delegating_evm_addresses]
  constructor
  · rintro ⟨u1, h1, u2, -, u3, h3, S1, ⟨p, ⟨u4, h4, rfl⟩, h5⟩, h6⟩
    exact ⟨h4, u1, h1, u2, by simp, u3, h3, S1, h5, h6⟩
  · rintro ⟨h4, u1, h1, u2, -, u3, h3, S1, h5, h6⟩
    exact ⟨u1, h1, u2, by simp, u3, h3, S1, ⟨_, ⟨(), h4, rfl⟩, h5⟩, h6⟩

/-- **C22** over storage: the same for taking a vote back. -/
theorem C22_storage_unvote (h : SReach J me w) (c : Ctx) (e : String) (a o : String) (r : SState × List Transfer) :
    sexec J w.S c (.unvote_delegated e a o) = .ok r ↔
      w.S.st.get_delegate e = some c.predecessor ∧
      sexec J w.S { c with predecessor := pseudo_near_address e } (.unvote a o) = .ok r := by
  have hi := reach_dinv h.loose
  rw [show w.S.st = w.core.st from rfl, hi.agree]
  simp only [sexec, srun, SState.quiet, State.verify_delegate, bind_ok_iff, require_ok_iff, pure_ok_iff,
    Call.payable, Call.is_private, Call.in_range, State.get_delegating_evm_addresses]
  constructor
  · rintro ⟨u1, h1, u2, -, u3, h3, S1, ⟨p, ⟨u4, h4, rfl⟩, h5⟩, h6⟩
    exact ⟨h4, u1, h1, u2, by simp, u3, h3, S1, h5, h6⟩
  · rintro ⟨h4, u1, h1, u2, -, u3, h3, S1, h5, h6⟩
    exact ⟨u1, h1, u2, by simp, u3, h3, S1, ⟨_, ⟨(), h4, rfl⟩, h5⟩, h6⟩

/-! ## Voting power -/

theorem sum_le_vsum (m : VMap) : ∀ l : List (String × String), l.Nodup → (l.map (fun x => vget m x.1 x.2)).sum ≤ vsum m
  | [], _ => Nat.zero_le _
  | x :: l, hn => by
    obtain ⟨hx, hl⟩ := List.nodup_cons.1 hn
    have h1 := sum_le_vsum (vdel m x.1 x.2) l hl
    have h2 := vsum_vdel m x.1 x.2
    have h3 : l.map (fun y => vget (vdel m x.1 x.2) y.1 y.2) = l.map (fun y => vget m y.1 y.2) := by
      refine List.map_congr_left (fun y hy => ?_)
      rw [vget_vdel, if_neg]
      rintro ⟨e1, e2⟩
      exact hx (Prod.ext e1 e2 ▸ hy)
    rw [h3] at h1
    simp only [List.map_cons, List.sum_cons]
    omega

/-- **C05** (part) over storage: the totals of every app and object can be read, and together with the available power of all
voters the votes counted never exceed the total voting power.  (With stale or shared vote maps the voters' own votes may
differ from the votes counted, `C02_storage_false`.) -/
theorem C05_storage_partial (h : SReach J me w) :
    ∃ tot : String → String → Nat, (∀ a o, w.S.get_total_votes a o = .ok (tot a o)) ∧
      ∀ l : List (String × String), l.Nodup →
        sumVoters w.S.st (fun id => w.S.st.get_available_voting_power id) + (l.map (fun x => tot x.1 x.2)).sum
          ≤ w.S.st.get_total_voting_power := by
  obtain ⟨tot, hb⟩ := sreach_backed h
  refine ⟨fun a o => vget tot a o, fun a o => ?_, fun l hl => ?_⟩
  · unfold SState.get_total_votes
    rw [hb.totals.vt, UMap.get_mapV, hb.totals.cv]
    unfold inner vget
    cases ht : tot.get a with
    | none => simp only [ht]; rfl
    | some m => simp [ht, Cells.get_of, bind, Except.bind, pure, Except.pure]
  · have h1 := sum_le_vsum tot l hl
    have h2 := hb.power
    have h3 : sumVoters w.S.st (fun id => w.S.st.get_available_voting_power id) = availSum w.S.st :=
      sumVoters_eq w.S.st Voter.available_voting_power
    rw [h3]
    simp only [State.get_total_voting_power]
    omega

/-- **C35** over storage. -/
theorem C35_storage_unlock (h : SReach J me w) {c : Ctx} {i : Nat} {S' : SState} {out : List Transfer}
    (hx : sexec J w.S c (.unlock_position i) = .ok (S', out)) {p : LockingPosition}
    (hp : (w.S.st.voterD c.predecessor).locking_positions[i]? = some p) :
    out = [] ∧ Unlocked w.S.st S'.st c i p := by
  obtain ⟨tot, hb⟩ := sreach_backed h
  exact unlocked (hb.avail _) ((sexec_ran hx).exec rfl) hp

/-- **C35** over storage. -/
theorem C35_storage_partial_unlock (h : SReach J me w) {c : Ctx} {i amount : Nat} {S' : SState} {out : List Transfer}
    (hx : sexec J w.S c (.unlock_partial_position i amount) = .ok (S', out)) {p : LockingPosition}
    (hp : (w.S.st.voterD c.predecessor).locking_positions[i]? = some p) (hne : amount ≠ p.amount) :
    out = [] ∧ ∃ vp, PartUnlocked w.S.st S'.st c i amount p vp := by
  obtain ⟨tot, hb⟩ := sreach_backed h
  exact part_unlocked (hb.avail _) ((sexec_ran hx).exec rfl) hp hne

/-- **C38** over storage. -/
theorem C38_storage_accepted (h : SReach J me w) {c : Ctx} {se : String}
    {a d : Nat} {m : List UInt8} (hm : isDays m d) (hc : c.predecessor = w.S.st.mpdao_token_contract_address)
    (hdep : c.deposit = 0) (hmin : w.S.st.min_deposit_amount ≤ a) (h1 : w.S.st.min_unbond_period ≤ d)
    (h2 : d ≤ w.S.st.max_unbond_period) (h3600 : d < 3600)
    (hroom : (w.S.st.voterD se).locking_positions.length < w.S.st.max_locking_positions ∨
      ∃ p ∈ (w.S.st.voterD se).locking_positions, isLockedFor d p = true)
    (hfit : (w.S.st.voterD se).inPositions + a ≤ U128_MAX) (ha : a * 10 ^ 18 < 2 ^ 128)
    (hvp : (w.S.st.voterD se).lockedVp + a * 10 ^ 18 * d / 60 ≤ U128_MAX)
    (htot : w.S.st.total_voting_power + a * 10 ^ 18 * d / 60 ≤ U128_MAX) :
    ∃ S', sexec J w.S c (.ft_on_transfer se a m) = .ok (S', []) ∧ S'.mem = w.S.mem := by
  obtain ⟨tot, hb⟩ := sreach_backed h
  obtain ⟨s', hs⟩ := deposit_accepted (J := J) (lreach_count h.loose se) (hb.avail se) hm hc hdep hmin h1 h2 h3600 hroom
    hfit ha hvp htot
  obtain ⟨S', h3, -, h4⟩ := (sexec_other (k := .ft_on_transfer se a m) rfl s' []).1 hs
  exact ⟨S', h3, h4⟩

/-! ## Other accounts -/

/-- The world in which eve has one vote for `("x-app", "o")`. -/
def oneVote : SWorld := (sruns demoJ "me" sdemo0 (shared.take 5)).get (by decide +kernel)

theorem oneVote_reach : SReach demoJ "me" oneVote := sreach_of_sruns sdemo0_reach (Option.some_get _).symm

/-- **C20** is false of the contract with its storage: a vote of `eve-x` for another app changes the votes of `eve`. -/
theorem C20_storage_false : ∃ S', sexec demoJ oneVote.S ⟨"me", "eve-x", 0, 0, []⟩
      (.vote 50000000000000000000000000 "app" "q") = .ok (S', []) ∧
    oneVote.S.get_votes_for_object "eve" "x-app" "o" = .ok 1 ∧
    S'.get_votes_for_object "eve" "x-app" "o" = .ok 50000000000000000000000000 := by
  have h : Res.isOk (sexec demoJ oneVote.S ⟨"me", "eve-x", 0, 0, []⟩
      (.vote 50000000000000000000000000 "app" "q")) = true := by decide +kernel
  have h2 : ((sexec demoJ oneVote.S ⟨"me", "eve-x", 0, 0, []⟩ (.vote 50000000000000000000000000 "app" "q")).getOr
      (oneVote.S, [])).1.get_votes_for_object "eve" "x-app" "o" = .ok 50000000000000000000000000 := by decide +kernel
  cases hx : sexec demoJ oneVote.S ⟨"me", "eve-x", 0, 0, []⟩ (.vote 50000000000000000000000000 "app" "q") with
  | error e => rw [hx] at h; cases h
  | ok r =>
    rw [hx] at h2
    obtain ⟨S', out⟩ := r
    have := (sexec_touched (k := .vote 50000000000000000000000000 "app" "q") rfl rfl hx).1
    subst this
    exact ⟨S', rfl, by decide +kernel, h2⟩

/-- **C20** (partial) over storage: an accepted call of one account leaves balance, positions, voting power and claims of every
other account unchanged, except in the ways listed in `ByOther`.  Missing: the votes, for which it is false. -/
theorem C20_storage_partial {S S' : SState} {c : Ctx} {k : Call} {out : List Transfer}
    (hx : sexec J S c k = .ok (S', out)) {id : String} (hid : id ≠ c.predecessor) :
    Kept S.st S'.st id ∨ ByOther S.st S'.st c id k := by
  cases hk : k.votes with
  | false => exact C20_isolation ((sexec_ran hx).exec hk) hid
  | true =>
    have hr := sexec_ran hx
    have h : srun J S c k = .ok (S', out) := by
      simp only [sexec, bind_ok_iff] at hx
      obtain ⟨_, _, _, _, _, _, h⟩ := hx
      exact h
    cases k <;> (first | (simp [Call.votes] at hk; done) | skip) <;>
      simp only [srun, SState.quiet, bind_ok_iff, pure_ok_iff, Prod.mk.injEq] at h
    case vote => obtain ⟨_, h, rfl, rfl⟩ := h; exact .inl ((internal_vote_touched h).frame.kept hid)
    case rebalance => obtain ⟨_, h, rfl, rfl⟩ := h; exact .inl ((rebalance_touched h).frame.kept hid)
    case unvote => obtain ⟨_, h, rfl, rfl⟩ := h; exact .inl ((internal_unvote_touched h).frame.kept hid)
    case vote_delegated e n a o =>
      obtain ⟨_, ⟨p, hp, h⟩, rfl, rfl⟩ := h
      obtain ⟨he, rfl⟩ := verify_delegate_ok hp
      have ht := internal_vote_touched h
      by_cases hi : id = pseudo_near_address e
      · subst hi
        exact .inr (.votes e _ rfl he (.inl ⟨n, a, o, rfl⟩) ht.frame.keptClaims ht.balance ht.positions)
      · exact .inl (ht.frame.kept hi)
    case unvote_delegated e a o =>
      obtain ⟨_, ⟨p, hp, h⟩, rfl, rfl⟩ := h
      obtain ⟨he, rfl⟩ := verify_delegate_ok hp
      have ht := internal_unvote_touched h
      by_cases hi : id = pseudo_near_address e
      · subst hi
        exact .inr (.votes e _ rfl he (.inr ⟨a, o, rfl⟩) ht.frame.keptClaims ht.balance ht.positions)
      · exact .inl (ht.frame.kept hi)
    case operator_mirror_lps e l =>
      cases hr with
      | mirror hc hf _ _ _ =>
        by_cases hi : id = pseudo_near_address e
        · exact .inr (.mirror e l hc.symm hi hf.keptClaims)
        · exact .inl (hf.kept hi)
      | exact hx => exact C20_isolation hx hid
      | vote _ _ hm => simp [Call.isMirror] at hm

/-! ## Concrete cases -/

/-- Eve's withdrawal is in flight while her vote map is still stored. -/
def leaving : SWorld := (sruns demoJ "me" sdemo0 (reuse.take 4)).get (by decide +kernel)

theorem leaving_reach : SReach demoJ "me" leaving := sreach_of_sruns sdemo0_reach (Option.some_get _).symm

example : SReach demoJ "me" leaving ∧
    leaving.pending.map (fun t => (t.isMpdao, t.receiver, t.amount)) = [(true, "eve", 60000000)] ∧
    heldSum leaving.S.st + amounts (·.isMpdao) leaving.pending ≤ U128_MAX ∧
    leaving.S.st.voters.get "eve" = none := ⟨leaving_reach, by decide +kernel, by decide +kernel, by decide +kernel⟩

/-- With too much power because of a shared map (`C03_storage_false`), eve can still unlock, and the total loses exactly the
power of the position. -/
example : Res.isOk (sexec demoJ sharedW.S ⟨"me", "eve", 0, 0, []⟩ (.unlock_position 0)) = true ∧
    Res.isOk (sexec demoJ sharedW.S ⟨"me", "eve", 0, 0, []⟩ (.unlock_partial_position 0 20000000)) = true ∧
    sharedW.S.st.get_total_voting_power = 180000000000000000000000000 ∧
    sharedW.S.get_total_votes "x-app" "o" = .ok 10000000000000000000000001 ∧
    sharedW.S.get_total_votes "app" "q" = .ok 50000000000000000000000000 ∧
    sharedW.S.st.get_available_voting_power "eve" = 109999999999999999999999999 :=
  ⟨by decide +kernel, by decide +kernel, by decide +kernel, by decide +kernel, by decide +kernel, by decide +kernel⟩

/-- Eve unlocks in a world whose votes are inconsistent: nothing can be withdrawn within a day. -/
example : ∃ w, SWhile demoJ "me" (inWindow 1 sharedW.core) sharedW w ∧
    (∀ p ∈ (sharedW.S.st.voterD "eve").locking_positions, p.unlocking_started_at = none → 1 ≤ p.locking_period) ∧
    (w.S.st.voterD "eve").locking_positions.map (·.unlocking_started_at) = [some 0] := by
  refine ⟨(sact demoJ "me" sharedW (.call "eve" 0 0 (.unlock_position 0))).get (by decide +kernel),
    .step (.start (by decide +kernel)) (sstep_of_sact (Option.some_get _).symm) (by decide +kernel), by decide +kernel,
    by decide +kernel⟩

/-- A deposit is accepted in a world whose votes are inconsistent. -/
example : isDays (ascii "60") 60 ∧ sharedW.S.st.min_deposit_amount ≤ 30000000 ∧ sharedW.S.st.min_unbond_period ≤ 60 ∧
    60 ≤ sharedW.S.st.max_unbond_period ∧
    (sharedW.S.st.voterD "eve").locking_positions.length < sharedW.S.st.max_locking_positions ∧
    (sharedW.S.st.voterD "eve").lockedVp + 30000000 * 10 ^ 18 * 60 / 60 ≤ U128_MAX ∧
    Res.isOk (sexec demoJ sharedW.S ⟨"me", "mpdao", 0, 0, []⟩ (.ft_on_transfer "eve" 30000000 (ascii "60"))) = true :=
  ⟨⟨ascii "60", by decide, .inl rfl, by decide, by decide, by decide⟩, by decide +kernel, by decide +kernel, by decide +kernel, by decide +kernel, by decide +kernel,
    by decide +kernel⟩

end Verif.Storage
