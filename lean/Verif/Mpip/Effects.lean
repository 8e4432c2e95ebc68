import Verif.Spec.Mpip

/-!
# mpip contract: what each accepted call does

`Change J s c k s'` lists the possible effects of an accepted call; `exec_change` is the case analysis over
all entry points that the proofs use.
-/

namespace Verif.Mpip

open Verif

variable {J : Json} {s s' : State} {c : Ctx} {k : Call} {out : List Promise} {me : AccountId}

theorem quiet_ok {r : Res State} : quiet r = .ok (s', out) ↔ r = .ok s' ∧ out = [] := by
  cases r <;> simp [quiet, bind, Except.bind, pure, Except.pure, eq_comm]

theorem sends_ok {p : Promise} {r : Res State} : sends p r = .ok (s', out) ↔ r = .ok s' ∧ out = [p] := by
  cases r <;> simp [sends, bind, Except.bind, pure, Except.pure, eq_comm]

theorem exec_ok : exec J s c k = .ok (s', out) ↔
    (k.payable = true ∨ c.deposit = 0) ∧ (k.is_private = true → c.predecessor = c.current) ∧
      k.in_range = true ∧ run J s c k = .ok (s', out) := by
  simp only [exec, bind_ok_iff, require_ok_iff]
  constructor
  · rintro ⟨-, h1, -, h2, -, h3, h4⟩; exact ⟨h1, h2, h3, h4⟩
  · rintro ⟨h1, h2, h3, h4⟩; exact ⟨(), h1, (), h2, (), h3, h4⟩

theorem foldl_sum_locked {l : List MetaVote.LockingPositionJSON} : ∀ {a n : Nat}, a ≤ U128_MAX →
    (l.foldlM State.sum_locked_power a = .ok n ↔ n = a + lockedSum l ∧ n ≤ U128_MAX) := by
  induction l with
  | nil =>
    intro a n ha
    simp only [List.foldlM_nil, pure_ok_iff, lockedSum, List.map_nil, List.sum_nil]
    omega
  | cons p t ih =>
    intro a n ha
    simp only [List.foldlM_cons, bind_ok_iff, State.sum_locked_power]
    by_cases hp : p.is_locked = true
    · simp only [hp, if_true, addU128_ok_iff, lockedSum, List.map_cons, List.sum_cons]
      constructor
      · rintro ⟨m, ⟨h1, rfl⟩, h2⟩
        obtain ⟨h3, h4⟩ := (ih h1).1 h2
        simp only [lockedSum] at h3
        exact ⟨by omega, h4⟩
      · rintro ⟨rfl, h2⟩
        have h1 : a + p.voting_power ≤ U128_MAX := by omega
        exact ⟨_, ⟨h1, rfl⟩, (ih h1).2 ⟨by simp only [lockedSum]; omega, h2⟩⟩
    · simp only [hp, lockedSum, List.map_cons, List.sum_cons]
      simp [ih ha, lockedSum]

/-- The results of a callback are those of its reply. -/
theorem the_reply_ok {b : List UInt8} : State.the_reply c = .ok b ↔ c.results = [.successful b] := by
  unfold State.the_reply
  split <;> simp_all

theorem user_power_ok {n : Nat} : State.internal_get_user_total_voting_power_from_promise J c = .ok n ↔
    ∃ b l, c.results = [.successful b] ∧ J.read_positions b = some l ∧ n = lockedSum l ∧ n ≤ U128_MAX := by
  simp only [State.internal_get_user_total_voting_power_from_promise, bind_ok_iff, the_reply_ok, expect_ok_iff,
    foldl_sum_locked (Nat.zero_le _), Nat.zero_add]
  constructor
  · rintro ⟨b, h1, l, h2, h3⟩; exact ⟨b, l, h1, h2, h3⟩
  · rintro ⟨b, l, h1, h2, h3⟩; exact ⟨b, h1, l, h2, h3⟩

theorem total_power_ok {n : Nat} : State.internal_get_total_voting_power_from_promise J c = .ok n ↔
    ∃ b, c.results = [.successful b] ∧ J.read_total b = some n := by
  simp only [State.internal_get_total_voting_power_from_promise, bind_ok_iff, the_reply_ok, expect_ok_iff]

theorem get_proposal_ok {i : Nat} {p : Proposal} : s.internal_get_proposal i = .ok p ↔ s.proposals.get i = some p := by
  simp [State.internal_get_proposal]

theorem active_or_draft_ok {i : Nat} {u : Unit} : s.assert_proposal_is_active_or_draft c i = .ok u ↔
    ∃ p, s.proposals.get i = some p ∧ Editable p c.now := by
  simp only [State.assert_proposal_is_active_or_draft, State.internal_proposal_is_active_or_draft, bind_ok_iff,
    get_proposal_ok, pure_ok_iff, require_ok_iff]
  constructor
  · rintro ⟨b, ⟨p, hp, hb⟩, rfl⟩
    refine ⟨p, hp, ?_⟩
    unfold Editable
    cases h : p.vote_start_timestamp with
    | none => simp only [h] at hb; simpa using hb
    | some t => simp only [h] at hb; simp at hb; simpa [and_assoc] using hb
  · rintro ⟨p, hp, h1, h2, h3⟩
    refine ⟨_, ⟨p, hp, rfl⟩, ?_⟩
    cases h : p.vote_start_timestamp with
    | none => simp [h2, h3]
    | some t => simp [h2, h3, h1 t h]

theorem on_voting_true {i : Nat} {now : Nat} : s.internal_proposal_is_on_voting now i = .ok true ↔
    ∃ p, s.proposals.get i = some p ∧ OnVoting p now := by
  simp only [State.internal_proposal_is_on_voting, bind_ok_iff, get_proposal_ok]
  constructor
  · rintro ⟨p, hp, h⟩
    refine ⟨p, hp, ?_⟩
    cases ht : p.vote_start_timestamp with
    | none => simp [ht] at h
    | some t =>
      simp only [ht] at h
      split at h
      · rename_i hle
        simp only [bind_ok_iff, expect_ok_iff, pure_ok_iff] at h
        obtain ⟨e, he, h⟩ := h
        simp at h
        exact ⟨t, e, ht, he, hle, h.1.1.1, h.1.1.2, h.1.2, h.2⟩
      · simp at h
  · rintro ⟨p, hp, t, e, ht, he, h1, h2, h3, h4, h5⟩
    refine ⟨p, hp, ?_⟩
    simp [ht, he, h1, h2, h3, h4, h5, expect, bind, Except.bind, pure, Except.pure]

theorem assert_on_voting_ok {i : Nat} {u : Unit} : s.assert_proposal_is_on_voting c i = .ok u ↔
    ∃ p, s.proposals.get i = some p ∧ OnVoting p c.now := by
  simp only [State.assert_proposal_is_on_voting, bind_ok_iff, require_ok_iff]
  rw [← on_voting_true]
  constructor
  · rintro ⟨b, h, rfl⟩; exact h
  · intro h; exact ⟨_, h, rfl⟩

theorem operator_or_creator_ok {i : Nat} {u : Unit} : s.assert_only_operator_or_creator c i = .ok u ↔
    ∃ p, s.proposals.get i = some p ∧ (s.operator_id = c.signer ∨ p.creator_id = c.signer) := by
  simp [State.assert_only_operator_or_creator, get_proposal_ok]

theorem creator_ok {i : Nat} {u : Unit} : s.assert_only_creator c i = .ok u ↔
    ∃ p, s.proposals.get i = some p ∧ p.creator_id = c.signer := by
  simp [State.assert_only_creator, get_proposal_ok]

/-- With the tally of `t` replaced. -/
def ProposalVote.setTally (pv : ProposalVote) (t : VoteType) (n : Nat) : ProposalVote :=
  match t with
  | .for_ => { pv with for_votes := n }
  | .against => { pv with against_votes := n }
  | .abstain => { pv with abstain_votes := n }

@[simp] theorem tally_setTally (pv : ProposalVote) (t t' : VoteType) (n : Nat) :
    (pv.setTally t n).tally t' = if t = t' then n else pv.tally t' := by
  cases t <;> cases t' <;> simp [ProposalVote.tally, ProposalVote.setTally]

@[simp] theorem setTally_has_voted (pv : ProposalVote) (t : VoteType) (n : Nat) :
    (pv.setTally t n).has_voted = pv.has_voted := by cases t <;> rfl

theorem add_tally_ok {pv pv' : ProposalVote} {t : VoteType} {n : Nat} :
    State.add_tally pv t n = .ok pv' ↔ pv.tally t + n ≤ U128_MAX ∧ pv' = pv.setTally t (pv.tally t + n) := by
  cases t <;> simp only [State.add_tally, bind_ok_iff, addU128_ok_iff, pure_ok_iff, ProposalVote.tally,
    ProposalVote.setTally] <;> constructor
  all_goals first
    | (rintro ⟨_, ⟨h, rfl⟩, rfl⟩; exact ⟨h, rfl⟩)
    | (rintro ⟨h, rfl⟩; exact ⟨_, ⟨h, rfl⟩, rfl⟩)

theorem sub_tally_ok {pv pv' : ProposalVote} {t : VoteType} {n : Nat} :
    State.sub_tally pv t n = .ok pv' ↔ n ≤ pv.tally t ∧ pv' = pv.setTally t (pv.tally t - n) := by
  cases t <;> simp only [State.sub_tally, bind_ok_iff, subU_ok_iff, pure_ok_iff, ProposalVote.tally,
    ProposalVote.setTally] <;> constructor
  all_goals first
    | (rintro ⟨_, ⟨h, rfl⟩, rfl⟩; exact ⟨h, rfl⟩)
    | (rintro ⟨h, rfl⟩; exact ⟨_, ⟨h, rfl⟩, rfl⟩)

/-- The record of a voter's vote on a proposal, on the voter's side. -/
def State.record (s : State) (i : Nat) (v : AccountId) : Option Vote := (s.voters.get v).bind (·.votes.get i)

theorem has_voted_eq {i : Nat} {v : AccountId} : s.internal_has_voted i v = (s.record i v).isSome := by
  unfold State.internal_has_voted State.record
  cases s.voters.get v <;> simp

/-- The voting side after a counted vote (`lib.rs:419-436`). -/
def State.counted (s : State) (i : Nat) (v : AccountId) (x : Vote) : State := { s with
  votes := s.votes.insert i (({ s.internal_get_proposal_vote i with
      has_voted := (s.internal_get_proposal_vote i).has_voted.insert v x } : ProposalVote).setTally x.vote_type
        ((s.internal_get_proposal_vote i).tally x.vote_type + x.voting_power))
  voters := s.voters.insert v ⟨(s.internal_get_voter v).votes.insert i x⟩ }

/-- The voting side after a removed vote (`lib.rs:447-466`). -/
def State.uncounted (s : State) (i : Nat) (v : AccountId) (x : Vote) : State := { s with
  votes := s.votes.insert i { (s.internal_get_proposal_vote i).setTally x.vote_type
      ((s.internal_get_proposal_vote i).tally x.vote_type - x.voting_power) with
        has_voted := (s.internal_get_proposal_vote i).has_voted.remove v }
  voters := if ((s.internal_get_voter v).votes.remove i).isEmpty then s.voters.remove v
    else s.voters.insert v ⟨(s.internal_get_voter v).votes.remove i⟩ }

/-- Effects of an accepted call. -/
inductive Change (J : Json) (s : State) (c : Ctx) : Call → State → Prop
  /-- proposals and votes stay -/
  | config {k : Call} {s' : State} (hp : s'.proposals = s.proposals) (hv : s'.votes = s.votes)
      (hr : s'.voters = s.voters) (hc : s'.proposers = s.proposers)
      (hq : s.quorum_floor ≤ 10000 → s'.quorum_floor ≤ 10000) : Change J s c k s'
  | started {i : Nat} {b : List UInt8} {total : Nat} {p : Proposal} (hb : c.results = [.successful b])
      (ht : J.read_total b = some total) (hp : s.proposals.get i = some p)
      (he : c.now + s.voting_period ≤ U64_MAX) (hq : total * s.quorum_floor ≤ U128_MAX) :
      Change J s c (.start_voting_period_callback i) { s with proposals := s.proposals.insert i { p with
        vote_start_timestamp := some c.now, vote_end_timestamp := some (c.now + s.voting_period),
        draft := false, v_power_quorum_to_reach := some (total * s.quorum_floor / 100 / 100) } }
  | created {t : Content} {b : List UInt8} {l : List MetaVote.LockingPositionJSON}
      (hb : c.results = [.successful b]) (hl : J.read_positions b = some l) (hmax : lockedSum l ≤ U128_MAX)
      (hth : s.min_voting_power_amount ≤ lockedSum l) :
      Change J s c (.create_proposal_callback t) { s with
        proposals := s.proposals.insert (s.proposals.len % 4294967296)
          ⟨s.proposals.len % 4294967296, t, c.signer, none, none, true, false, false, none⟩
        proposers := s.proposers.insert c.signer
          ((s.proposers.get c.signer).getD [] ++ [s.proposals.len % 4294967296]) }
  | canceled {i : Nat} {p : Proposal} (hp : s.proposals.get i = some p) (he : Editable p c.now)
      (hs : s.operator_id = c.signer ∨ p.creator_id = c.signer) :
      Change J s c (.cancel_proposal i) { s with proposals := s.proposals.insert i { p with canceled := true } }
  | edited {i : Nat} {t : Content} {p : Proposal} (hp : s.proposals.get i = some p) (he : Editable p c.now)
      (hs : p.creator_id = c.signer) :
      Change J s c (.update_proposal i t) { s with proposals := s.proposals.insert i { p with content := t } }
  | voted {i : Nat} {v : AccountId} {t : VoteType} {m : String} {b : List UInt8}
      {l : List MetaVote.LockingPositionJSON} (hb : c.results = [.successful b])
      (hl : J.read_positions b = some l) (hmax : lockedSum l ≤ U128_MAX) (hpos : 0 < lockedSum l)
      (hfit : (s.internal_get_proposal_vote i).tally t + lockedSum l ≤ U128_MAX) :
      Change J s c (.vote_proposal_callback i v t m) (s.counted i v ⟨i, t, lockedSum l, m⟩)
  | unvoted {i : Nat} {p : Proposal} {x : Vote} (hp : s.proposals.get i = some p) (ho : OnVoting p c.now)
      (hvd : (s.record i c.predecessor).isSome)
      (hx : (s.internal_get_proposal_vote i).has_voted.get c.predecessor = some x)
      (hle : x.voting_power ≤ (s.internal_get_proposal_vote i).tally x.vote_type) :
      Change J s c (.remove_vote_proposal i) (s.uncounted i c.predecessor x)
  | executed {i : Nat} {p : Proposal} {q : Nat} (hp : s.proposals.get i = some p) (ho : OnVoting p c.now)
      (he : p.vote_end_timestamp = some c.now) (hq : p.v_power_quorum_to_reach = some q)
      (hfit : (s.internal_get_proposal_vote i).for_votes + (s.internal_get_proposal_vote i).abstain_votes ≤ U128_MAX)
      (hr : q ≤ (s.internal_get_proposal_vote i).for_votes + (s.internal_get_proposal_vote i).abstain_votes)
      (hs : s.admin_id = c.signer ∨ s.operator_id = c.signer) :
      Change J s c (.process_voting_status i) { s with proposals := s.proposals.insert i { p with executed := true } }

theorem exec_change (h : exec J s c k = .ok (s', out)) : Change J s c k s' := by
  obtain ⟨-, -, -, hr⟩ := exec_ok.1 h
  cases k <;> simp only [run, quiet_ok, sends_ok] at hr
  case new_ => simp [new] at hr
  case start_voting_period_callback i =>
    obtain ⟨hr, -⟩ := hr
    simp only [State.start_voting_period_callback, bind_ok_iff, total_power_ok, get_proposal_ok, addU64_ok_iff,
      State.internal_get_quorum, mulU128_ok_iff, pure_ok_iff] at hr
    obtain ⟨n, ⟨b, hb, hn⟩, p, hp, e, ⟨he, rfl⟩, q, ⟨x, ⟨hx, rfl⟩, rfl⟩, rfl⟩ := hr
    exact .started hb hn hp he hx
  case create_proposal_callback t =>
    obtain ⟨hr, -⟩ := hr
    simp only [State.create_proposal_callback, bind_ok_iff, user_power_ok, State.assert_proposal_threshold,
      State.internal_check_proposal_threshold, require_ok_iff, decide_eq_true_eq, pure_ok_iff] at hr
    obtain ⟨n, ⟨b, l, hb, hl, rfl, hmax⟩, -, hth, rfl⟩ := hr
    exact .created hb hl hmax hth
  case cancel_proposal i =>
    obtain ⟨hr, -⟩ := hr
    simp only [State.cancel_proposal, bind_ok_iff, operator_or_creator_ok, active_or_draft_ok, get_proposal_ok,
      pure_ok_iff] at hr
    obtain ⟨-, ⟨p, hp, hs⟩, -, ⟨p1, hp1, he⟩, p2, hp2, rfl⟩ := hr
    rw [hp] at hp1 hp2; cases hp1; cases hp2
    exact .canceled hp he hs
  case update_proposal i t =>
    obtain ⟨hr, -⟩ := hr
    simp only [State.update_proposal, bind_ok_iff, creator_ok, active_or_draft_ok, get_proposal_ok,
      pure_ok_iff] at hr
    obtain ⟨-, ⟨p, hp, hs⟩, -, ⟨p1, hp1, he⟩, p2, hp2, rfl⟩ := hr
    rw [hp] at hp1 hp2; cases hp1; cases hp2
    exact .edited hp he hs
  case vote_proposal_callback i v t m =>
    obtain ⟨hr, -⟩ := hr
    simp only [State.vote_proposal_callback, bind_ok_iff, user_power_ok, require_ok_iff, add_tally_ok,
      pure_ok_iff] at hr
    obtain ⟨n, ⟨b, l, hb, hl, rfl, hmax⟩, -, hpos, pv, ⟨hfit, rfl⟩, rfl⟩ := hr
    have : (ProposalVote.tally { s.internal_get_proposal_vote i with
        has_voted := (s.internal_get_proposal_vote i).has_voted.insert v ⟨i, t, lockedSum l, m⟩ } t) =
        (s.internal_get_proposal_vote i).tally t := by cases t <;> rfl
    rw [this] at hfit ⊢
    exact .voted hb hl hmax hpos hfit
  case remove_vote_proposal i =>
    obtain ⟨hr, -⟩ := hr
    simp only [State.remove_vote_proposal, bind_ok_iff, assert_on_voting_ok, State.assert_has_voted, require_ok_iff,
      expect_ok_iff, sub_tally_ok, pure_ok_iff, has_voted_eq] at hr
    obtain ⟨-, ⟨p, hp, ho⟩, -, hvd, x, hx, pv, ⟨hle, rfl⟩, rfl⟩ := hr
    simp only [setTally_has_voted]
    exact .unvoted hp ho hvd hx hle
  case process_voting_status i =>
    obtain ⟨hr, -⟩ := hr
    simp only [State.process_voting_status, bind_ok_iff, State.assert_only_operator, require_ok_iff] at hr
    obtain ⟨-, hs, b, hb, hr⟩ := hr
    split at hr
    · cases hr; exact .config rfl rfl rfl rfl id
    · rename_i hbt
      simp only [Bool.not_eq_false] at hbt
      subst hbt
      obtain ⟨p, hp, ho⟩ := on_voting_true.1 hb
      simp only [bind_ok_iff, get_proposal_ok, expect_ok_iff] at hr
      obtain ⟨p1, hp1, e, he, hr⟩ := hr
      rw [hp] at hp1; cases hp1
      split at hr
      · rename_i hle
        simp only [bind_ok_iff, State.internal_is_quorum_reached, get_proposal_ok, expect_ok_iff, addU128_ok_iff,
          pure_ok_iff] at hr
        obtain ⟨b, ⟨p2, hp2, q, hq, n, ⟨hn, rfl⟩, rfl⟩, hr⟩ := hr
        rw [hp] at hp2; cases hp2
        split at hr
        · rename_i hqr
          cases hr
          have : e = c.now := by
            obtain ⟨t, e', -, he', -, hle', -⟩ := ho
            rw [he] at he'; cases he'
            omega
          subst this
          exact .executed hp ho he hq hn (by simpa using hqr) hs
        · cases hr; exact .config rfl rfl rfl rfl id
      · cases hr; exact .config rfl rfl rfl rfl id
  case update_quorum_floor n =>
    obtain ⟨hr, -⟩ := hr
    simp only [State.update_quorum_floor, bind_ok_iff, require_ok_iff, pure_ok_iff] at hr
    obtain ⟨-, -, -, hn, rfl⟩ := hr
    exact .config rfl rfl rfl rfl (fun _ => hn)
  all_goals
    obtain ⟨hr, -⟩ := hr
    simp only [State.update_open_for_new_mpips, State.update_operator_role, State.update_admin_role,
      State.pay_to_account, State.update_voting_period, State.update_min_meta_amount,
      State.update_min_voting_power_amount, State.update_mpip_storage_near, State.start_voting_period,
      State.create_proposal, State.update_meta_vote_contract_address, State.vote_proposal, bind_ok_iff,
      pure_ok_iff] at hr
    repeat (obtain ⟨_, _, hr⟩ := hr)
    exact .config rfl rfl rfl rfl id

/-- A step leaves the state alone, or is an accepted call, or an accepted callback. -/
theorem Step.cases_change {w w' : World} (h : Step J me w w') :
    w'.st = w.st ∨
    (∃ c k out, c.current = me ∧ c.results = [] ∧ w.clock ≤ c.timestamp ∧ w'.clock = c.timestamp ∧
      exec J w.st c k = .ok (w'.st, out) ∧ w'.log = .call c k out :: w.log) ∨
    (∃ p ts r out, p ∈ w.pending ∧ w.clock ≤ ts ∧ w'.clock = ts ∧
      exec J w.st (replyCtx me p ts r) p.callback = .ok (w'.st, out) ∧
      w'.log = .replied p ts r true :: w.log) := by
  cases h with
  | call c k s' out hme hres hclock hu64 hexec => exact .inr (.inl ⟨c, k, out, hme, hres, hclock, rfl, hexec, rfl⟩)
  | reply pre post p r ts hpend hclock hu64 =>
    cases hx : exec J w.st (replyCtx me p ts r) p.callback with
    | error e => exact .inl (by simp [Res.getOr])
    | ok x =>
      exact .inr (.inr ⟨p, ts, r, x.2, by simp [hpend], hclock, rfl, by simp [hx, Res.getOr], by
        simp [Res.isOk]⟩)
  | tick ts => exact .inl rfl

/-- An invariant of the state follows from `new` and every `Change`. -/
theorem Reach.state_inv (P : State → Prop) (hinit : ∀ w, Init w → P w.st)
    (hstep : ∀ s c k s', P s → Change J s c k s' → P s') {w : World} (h : Reach J me w) : P w.st := by
  induction h with
  | init h => exact hinit _ h
  | step h hs ih =>
    rcases hs.cases_change with h | ⟨c, k, out, -, -, -, -, h, -⟩ | ⟨p, ts, r, out, -, -, -, h, -⟩
    · rw [h]; exact ih
    · exact hstep _ _ _ _ ih (exec_change h)
    · exact hstep _ _ _ _ ih (exec_change h)

theorem new_ok {a o t v : AccountId} {p m st q : Nat} (h : new false a o t v p m st q = .ok s) :
    q ≤ 10000 ∧ s = ⟨a, o, t, v, UMap.empty, UMap.empty, UMap.empty, UMap.empty, p, 0, 0, m, 0, st, true, q⟩ := by
  simp only [new, bind_ok_iff, require_ok_iff, pure_ok_iff] at h
  obtain ⟨-, -, -, hq, rfl⟩ := h
  exact ⟨hq, rfl⟩

/-- What `Init` says about the state. -/
theorem Init.empty {w : World} (h : Init w) : w.st.proposals = UMap.empty ∧ w.st.votes = UMap.empty ∧
    w.st.voters = UMap.empty ∧ w.st.proposers = UMap.empty ∧ w.st.quorum_floor ≤ 10000 ∧ w.pending = [] ∧
    w.log = [] := by
  cases h with
  | mk a o t v p m st q ts s hr hts hn =>
    obtain ⟨hq, rfl⟩ := new_ok hn
    exact ⟨rfl, rfl, rfl, rfl, hq, rfl, rfl⟩

end Verif.Mpip
