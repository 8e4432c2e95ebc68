import Verif.Props.MpipProposals
import Verif.Spec.MpipReplay

/-!
# C80: settings and proposals of the mpip contract are those that the history says
-/

namespace Verif.Mpip

open Verif

variable {J : Json} {s s' : State} {c : Ctx} {k : Call} {out : List Promise} {me : AccountId}

/-- C80: the initialization sets the settings to its arguments, and there is nothing else. -/
theorem C80_init {a o t v : AccountId} {p m st q : Nat} (h : new false a o t v p m st q = .ok s) :
    s.settings = ⟨a, o, t, v, p, 0, 0, m, 0, st, true, q⟩ ∧ s.get_last_proposal_id = .ok none ∧
      (∀ i, s.get_proposal_votes i = ⟨0, 0, 0, []⟩) ∧ s.get_total_voters = 0 ∧ ∀ b, s.get_my_proposals b = [] := by
  simp only [new, bind_ok_iff, require_ok_iff, pure_ok_iff] at h
  obtain ⟨-, -, -, -, rfl⟩ := h
  exact ⟨rfl, rfl, fun _ => rfl, rfl, fun _ => rfl⟩

/-- C80: an accepted call sets exactly the setting it names, and starts exactly the promises it stands for.  If it
sets a setting, nothing else changes. -/
theorem C80_settings (h : exec J s c k = .ok (s', out)) :
    s'.settings = settingsAfter s.settings k ∧ out = promisesOf s.settings c k ∧
    (s'.settings ≠ s.settings → s'.proposals = s.proposals ∧ s'.votes = s.votes ∧ s'.voters = s.voters ∧
      s'.proposers = s.proposers) := by
  obtain ⟨-, -, -, hr⟩ := exec_ok.1 h
  cases k <;> simp only [run, quiet_ok, sends_ok] at hr <;> obtain ⟨hr, rfl⟩ := hr
  case new_ => simp [new] at hr
  case start_voting_period_callback i =>
    simp only [State.start_voting_period_callback, bind_ok_iff, pure_ok_iff] at hr
    obtain ⟨-, -, -, -, -, -, -, -, rfl⟩ := hr
    exact ⟨rfl, rfl, fun hne => absurd rfl hne⟩
  case create_proposal_callback t =>
    simp only [State.create_proposal_callback, bind_ok_iff, pure_ok_iff] at hr
    obtain ⟨-, -, -, -, rfl⟩ := hr
    exact ⟨rfl, rfl, fun hne => absurd rfl hne⟩
  case cancel_proposal i =>
    simp only [State.cancel_proposal, bind_ok_iff, pure_ok_iff] at hr
    obtain ⟨-, -, -, -, -, -, rfl⟩ := hr
    exact ⟨rfl, rfl, fun hne => absurd rfl hne⟩
  case update_proposal i t =>
    simp only [State.update_proposal, bind_ok_iff, pure_ok_iff] at hr
    obtain ⟨-, -, -, -, -, -, rfl⟩ := hr
    exact ⟨rfl, rfl, fun hne => absurd rfl hne⟩
  case vote_proposal_callback i v t m =>
    simp only [State.vote_proposal_callback, bind_ok_iff, pure_ok_iff] at hr
    obtain ⟨-, -, -, -, -, -, rfl⟩ := hr
    exact ⟨rfl, rfl, fun hne => absurd rfl hne⟩
  case remove_vote_proposal i =>
    simp only [State.remove_vote_proposal, bind_ok_iff, pure_ok_iff] at hr
    obtain ⟨-, -, -, -, -, -, -, -, rfl⟩ := hr
    exact ⟨rfl, rfl, fun hne => absurd rfl hne⟩
  case process_voting_status i =>
    simp only [State.process_voting_status, bind_ok_iff] at hr
    obtain ⟨_, _, _, _, hr⟩ := hr
    split at hr
    · cases hr; exact ⟨rfl, rfl, fun hne => absurd rfl hne⟩
    · simp only [bind_ok_iff] at hr
      obtain ⟨_, _, _, _, hr⟩ := hr
      split at hr
      · simp only [bind_ok_iff] at hr
        obtain ⟨_, _, hr⟩ := hr
        split at hr <;> cases hr <;> exact ⟨rfl, rfl, fun hne => absurd rfl hne⟩
      · cases hr; exact ⟨rfl, rfl, fun hne => absurd rfl hne⟩
  case update_quorum_floor n =>
    simp only [State.update_quorum_floor, bind_ok_iff, pure_ok_iff] at hr
    obtain ⟨-, -, -, -, rfl⟩ := hr
    exact ⟨rfl, rfl, fun _ => ⟨rfl, rfl, rfl, rfl⟩⟩
  case start_voting_period =>
    simp only [State.start_voting_period, bind_ok_iff, pure_ok_iff] at hr
    obtain ⟨-, -, -, -, rfl⟩ := hr
    exact ⟨rfl, rfl, fun _ => ⟨rfl, rfl, rfl, rfl⟩⟩
  case create_proposal =>
    simp only [State.create_proposal, bind_ok_iff, pure_ok_iff] at hr
    obtain ⟨-, -, -, -, rfl⟩ := hr
    exact ⟨rfl, rfl, fun _ => ⟨rfl, rfl, rfl, rfl⟩⟩
  case vote_proposal =>
    simp only [State.vote_proposal, bind_ok_iff, pure_ok_iff] at hr
    obtain ⟨-, -, -, -, rfl⟩ := hr
    exact ⟨rfl, rfl, fun _ => ⟨rfl, rfl, rfl, rfl⟩⟩
  all_goals
    simp only [State.update_open_for_new_mpips, State.update_operator_role, State.update_admin_role,
      State.pay_to_account, State.update_voting_period, State.update_min_meta_amount,
      State.update_min_voting_power_amount, State.update_mpip_storage_near,
      State.update_meta_vote_contract_address, bind_ok_iff, pure_ok_iff] at hr
    obtain ⟨-, -, rfl⟩ := hr
    exact ⟨rfl, rfl, fun _ => ⟨rfl, rfl, rfl, rfl⟩⟩

/-- The proposals of a state, as a list in the order of the ids. -/
def Books (s : State) (l : List Proposal) : Prop :=
  s.proposals.len = l.length ∧ ∀ i, s.proposals.get i = l[i]?

theorem Books.replace {l : List Proposal} {i : Nat} {p : Proposal} {f : Proposal → Proposal} (hb : Books s l)
    (hp : s.proposals.get i = some p) {s2 : State} (hs : s2.proposals = s.proposals.insert i (f p)) :
    Books s2 (l.modify i f) := by
  refine ⟨by rw [hs, (replace_keys hp).2, List.length_modify]; exact hb.1, fun j => ?_⟩
  rw [hs, UMap.get_insert, List.getElem?_modify, ← hb.2 j]
  by_cases hij : i = j
  · subst hij; simp [hp]
  · simp [hij]

theorem modify_same {l : List Proposal} {i : Nat} {p : Proposal} {f : Proposal → Proposal} (hp : l[i]? = some p)
    (hf : f p = p) : l.modify i f = l := by
  apply List.ext_getElem?
  intro j
  rw [List.getElem?_modify]
  by_cases hij : i = j
  · subst hij; simp [hp, hf]
  · simp [hij]

theorem executes_iff {p : Proposal} {n m now : Nat} : executes p n m now = true ↔ OnVoting p now ∧
    p.vote_end_timestamp = some now ∧ ∃ q, p.v_power_quorum_to_reach = some q ∧ q ≤ n + m := by
  unfold executes OnVoting
  cases h1 : p.vote_start_timestamp <;> cases h2 : p.vote_end_timestamp <;>
    cases h3 : p.v_power_quorum_to_reach <;> simp
  constructor
  · rintro ⟨⟨⟨⟨a, rfl, b⟩, c⟩, d⟩, e⟩; exact ⟨⟨a, Nat.le_refl _, c, d, e⟩, rfl, b⟩
  · rintro ⟨⟨a, -, c, d, e⟩, rfl, b⟩; exact ⟨⟨⟨⟨a, rfl, b⟩, c⟩, d⟩, e⟩

/-- What a call that is not a callback does to the proposals. -/
theorem Books.call {l : List Proposal} (hb : Books s l) (h : exec J s c k = .ok (s', out)) (hres : c.results = [])
    {x : Settings} {log : List Entry} (hl : l = proposalsOf J x log)
    (ht : ∀ i t, s.tally i t = tallyOf J log i t) : Books s' (proposalsOf J x (.call c k out :: log)) := by
  have h0 := h
  obtain ⟨-, -, -, hr⟩ := exec_ok.1 h
  have hch := exec_change h
  subst hl
  cases k with
  | cancel_proposal i =>
    simp only [run, quiet_ok, State.cancel_proposal, bind_ok_iff, get_proposal_ok, pure_ok_iff] at hr
    obtain ⟨⟨-, -, -, -, p, hp, rfl⟩, -⟩ := hr
    exact hb.replace hp rfl
  | update_proposal i t =>
    simp only [run, quiet_ok, State.update_proposal, bind_ok_iff, get_proposal_ok, pure_ok_iff] at hr
    obtain ⟨⟨-, -, -, -, p, hp, rfl⟩, -⟩ := hr
    exact hb.replace hp rfl
  | process_voting_status i =>
    simp only [run, quiet_ok, State.process_voting_status, bind_ok_iff] at hr
    obtain ⟨⟨-, -, b, hon, hr⟩, -⟩ := hr
    simp only [proposalsOf]
    have hpe : ∃ p, s.proposals.get i = some p := by
      simp only [State.internal_proposal_is_on_voting, bind_ok_iff, get_proposal_ok] at hon
      obtain ⟨p, hp, -⟩ := hon
      exact ⟨p, hp⟩
    obtain ⟨p, hp⟩ := hpe
    have hpl := hp; rw [hb.2] at hpl
    split at hr
    · cases hr
      rename_i hbf
      subst hbf
      rw [modify_same hpl]
      · exact hb
      · rw [if_neg]
        intro hx
        have h1 := (executes_iff.1 hx).1
        have := on_voting_true.2 ⟨p, hp, h1⟩
        rw [hon] at this; simp at this
    · rename_i hbt
      simp only [Bool.not_eq_false] at hbt
      subst hbt
      obtain ⟨p1, hp1, ho⟩ := on_voting_true.1 hon
      rw [hp] at hp1; cases hp1
      simp only [bind_ok_iff, get_proposal_ok, expect_ok_iff] at hr
      obtain ⟨p1, hp1, e, he, hr⟩ := hr
      rw [hp] at hp1; cases hp1
      have hele : c.now ≤ e := by
        obtain ⟨t, e', -, he', -, hle', -⟩ := ho
        rw [he] at he'; cases he'
        exact hle'
      split at hr
      · rename_i hle
        have : e = c.now := by omega
        subst this
        simp only [bind_ok_iff, State.internal_is_quorum_reached, get_proposal_ok, expect_ok_iff, addU128_ok_iff,
          pure_ok_iff] at hr
        obtain ⟨b, ⟨p2, hp2, q, hq, n, ⟨hn, rfl⟩, rfl⟩, hr⟩ := hr
        rw [hp] at hp2; cases hp2
        have hf : (s.internal_get_proposal_vote i).for_votes = tallyOf J log i .for_ := ht i .for_
        have ha : (s.internal_get_proposal_vote i).abstain_votes = tallyOf J log i .abstain := ht i .abstain
        rw [hf, ha] at hr
        split at hr
        · rename_i hqr
          cases hr
          refine hb.replace (f := fun p => if executes p (tallyOf J log i .for_) (tallyOf J log i .abstain) c.now then
            { p with executed := true } else p) hp ?_
          have : executes p (tallyOf J log i .for_) (tallyOf J log i .abstain) c.now = true :=
            executes_iff.2 ⟨ho, he, q, hq, by simpa using hqr⟩
          simp only [this, if_true]
        · rename_i hqr
          cases hr
          rw [modify_same hpl]
          · exact hb
          · rw [if_neg]
            intro hx
            obtain ⟨-, -, q', hq', h1⟩ := executes_iff.1 hx
            rw [hq] at hq'; cases hq'
            exact hqr (by simpa using h1)
      · rename_i hle
        cases hr
        rw [modify_same hpl]
        · exact hb
        · rw [if_neg]
          intro hx
          obtain ⟨-, he', -⟩ := executes_iff.1 hx
          rw [he] at he'; cases he'
          exact hle (Nat.le_refl _)
  | start_voting_period_callback i =>
    simp only [run, quiet_ok, State.start_voting_period_callback, bind_ok_iff, total_power_ok, hres] at hr
    obtain ⟨⟨_, ⟨_, h1, _⟩, _⟩, _⟩ := hr
    simp at h1
  | create_proposal_callback t =>
    simp only [run, quiet_ok, State.create_proposal_callback, bind_ok_iff, user_power_ok, hres] at hr
    obtain ⟨⟨_, ⟨_, _, h1, _⟩, _⟩, _⟩ := hr
    simp at h1
  | _ =>
    have hpr : s'.proposals = s.proposals := by cases hch <;> first | assumption | rfl
    exact ⟨by rw [hpr]; exact hb.1, fun i => by rw [hpr]; exact hb.2 i⟩

/-- What a callback does to the proposals. -/
theorem Books.reply {x : Settings} {log : List Entry} {q : Pending} {ts : Nat} {r : Reply}
    (hb : Books s (proposalsOf J x log)) (hcap : s.proposals.len < CAP) (hset : s.settings = settingsOf x log)
    (hpriv : q.callback.is_private = true)
    (h : exec J s (replyCtx me q ts r) q.callback = .ok (s', out)) :
    Books s' (proposalsOf J x (.replied q ts r true :: log)) := by
  obtain ⟨-, -, -, hr⟩ := exec_ok.1 h
  have hch := exec_change h
  simp only [proposalsOf]
  cases hk : q.callback with
  | start_voting_period_callback i =>
    rw [hk] at hr hch
    simp only [run, quiet_ok, State.start_voting_period_callback, bind_ok_iff, total_power_ok, get_proposal_ok,
      addU64_ok_iff, State.internal_get_quorum, mulU128_ok_iff, pure_ok_iff] at hr
    obtain ⟨⟨n, ⟨b, hb', hn⟩, p, hp, e, ⟨he, rfl⟩, y, ⟨z, ⟨hz, rfl⟩, rfl⟩, rfl⟩, -⟩ := hr
    simp only [replyCtx, List.cons.injEq, and_true] at hb'
    subst hb'
    refine hb.replace hp ?_
    have h1 : s.voting_period = (settingsOf x log).period := congrArg Settings.period hset
    have h2 : s.quorum_floor = (settingsOf x log).floor := congrArg Settings.floor hset
    simp only [Ctx.now, replyCtx, hn, Option.map_some, h1, h2, Nat.div_div_eq_div_mul]
  | create_proposal_callback t =>
    rw [hk] at hr
    simp only [run, quiet_ok, State.create_proposal_callback, bind_ok_iff, pure_ok_iff] at hr
    obtain ⟨⟨-, -, -, -, rfl⟩, -⟩ := hr
    have hm : s.proposals.len % 4294967296 = (proposalsOf J x log).length := by
      rw [Nat.mod_eq_of_lt (show s.proposals.len < 4294967296 from hcap)]; exact hb.1
    have hnone : s.proposals.get (proposalsOf J x log).length = none := by rw [hb.2]; simp
    have key : ∀ s2 : State, s2.proposals = s.proposals.insert (proposalsOf J x log).length
        ⟨(proposalsOf J x log).length, t, q.signer, none, none, true, false, false, none⟩ → Books s2
        (proposalsOf J x log ++ [⟨(proposalsOf J x log).length, t, q.signer, none, none, true, false, false, none⟩]) := by
      intro s2 hs2
      unfold Books
      rw [hs2]
      refine ⟨?_, fun i => ?_⟩
      · simp only [UMap.len_insert, hnone, hb.1, List.length_append, List.length_singleton]; rfl
      · simp only [UMap.get_insert]
        by_cases hi : (proposalsOf J x log).length = i
        · subst hi; simp
        · rw [if_neg hi, hb.2]
          rcases Nat.lt_or_gt_of_ne hi with h1 | h1
          · simp [List.getElem?_append, List.getElem?_eq_none (show (proposalsOf J x log).length ≤ i by omega)]
            omega
          · rw [List.getElem?_append_left h1]
    refine key _ ?_
    simp only [hm]
    rfl
  | vote_proposal_callback i v t m =>
    rw [hk] at hch
    have hpr : s'.proposals = s.proposals := by cases hch <;> first | assumption | rfl
    exact ⟨by rw [hpr]; exact hb.1, fun i => by rw [hpr]; exact hb.2 i⟩
  | _ => rw [hk] at hpriv; simp [Call.is_private] at hpriv

theorem tally_of {w : World} (h : Reach J me w) (i : Nat) (t : VoteType) : w.st.tally i t = tallyOf J w.log i t := by
  have := C46_exact h i t
  rw [tally_view] at this
  unfold tallyOf
  omega

/-- C80: settings and proposals after any history are those computed from the accepted calls and replies: each
setting has the value given by the last accepted call that set it, and each proposal has the texts of its last
edit, the creator who asked for it, the window and the quorum of its last start, and the marks of the accepted
cancellation and execution (below `2^32` proposals). -/
theorem C80_replay {w0 w : World} (hi : Init w0) (h : Steps J me w0 w) (hcap : w.st.proposals.len < 2 ^ 32) :
    w.st.settings = settingsOf w0.st.settings w.log ∧
    ∀ i p, w.st.get_proposal i = .ok p ↔ (proposalsOf J w0.st.settings w.log)[i]? = some p := by
  have key : w.st.settings = settingsOf w0.st.settings w.log ∧
      Books w.st (proposalsOf J w0.st.settings w.log) := by
    induction h with
    | refl =>
      have he := hi.empty.1
      cases hi
      refine ⟨rfl, ?_⟩
      unfold Books
      rw [he]
      exact ⟨rfl, fun i => rfl⟩
    | @step w1 w2 h1 hs ih =>
      have hr1 : Reach J me w1 := (Reach.init hi).steps h1
      have hle := hs.len_le hr1
      have hlt : w1.st.proposals.len < CAP := by unfold CAP; omega
      obtain ⟨ih1, ih2⟩ := ih (by omega)
      cases hs with
      | call c k s' out hme hres hclock hu64 hexec =>
        refine ⟨?_, ih2.call hexec hres rfl (tally_of hr1)⟩
        simp only [settingsOf, ← ih1]
        exact (C80_settings hexec).1
      | reply pre post p r ts hpend hclock hu64 =>
        have hpriv : p.callback.is_private = true := pending_private hr1 (by simp [hpend])
        cases hx : exec J w1.st (replyCtx me p ts r) p.callback with
        | error e => exact ⟨by simp only [Res.getOr, settingsOf]; exact ih1, by simp only [Res.getOr]; exact ih2⟩
        | ok z =>
          simp only [Res.getOr, Res.isOk, settingsOf]
          refine ⟨?_, ih2.reply hlt ih1 hpriv (out := z.2) hx⟩
          rw [← ih1, (C80_settings (out := z.2) hx).1]
          cases hk : p.callback <;> first | rfl | (rw [hk] at hpriv; simp [Call.is_private] at hpriv)
      | tick ts hclock hu64 => exact ⟨ih1, ih2⟩
  refine ⟨key.1, fun i p => ?_⟩
  simp only [State.get_proposal, get_proposal_ok, key.2.2 i]

/-- C80: the views of the settings show the settings. -/
theorem C80_views {w0 w : World} (hi : Init w0) (h : Steps J me w0 w) (hcap : w.st.proposals.len < 2 ^ 32) :
    w.st.get_quorum_floor = (settingsOf w0.st.settings w.log).floor ∧
    w.st.get_proposal_threshold = (settingsOf w0.st.settings w.log).minPower ∧
    w.st.get_mpip_storage_near = (settingsOf w0.st.settings w.log).storage ∧
    ∀ n, w.st.check_proposal_threshold n = true ↔ (settingsOf w0.st.settings w.log).minPower ≤ n := by
  rw [← (C80_replay hi h hcap).1]
  exact ⟨rfl, rfl, rfl, fun n => by simp [State.check_proposal_threshold, State.internal_check_proposal_threshold,
    State.settings]⟩

/-- New settings, an edit and a cancellation after the demo. -/
def settled : World := (runs demoJ "me" demo [.call "admin" "admin" 0 (11 * MS) (.update_admin_role "boss"),
  .call "boss" "boss" 0 (12 * MS) (.update_quorum_floor 5000),
  .call "alice" "alice" 0 (13 * MS) (.update_proposal 1 ⟨"t3", "s3", "b3", "d3", "e3"⟩),
  .call "operator" "operator" 0 (14 * MS) (.cancel_proposal 1)]).get (by decide +kernel)

theorem settled_steps : Steps demoJ "me" demo0 settled :=
  Steps.trans (b := demo) (steps_of_runs (Option.some_get _).symm) (steps_of_runs (Option.some_get _).symm)

/-- The hypotheses hold of a history with two proposals, two votes, new settings, an edit and a cancellation. -/
example : Init demo0 ∧ Steps demoJ "me" demo0 settled ∧ settled.st.proposals.len < 2 ^ 32 ∧
    settled.st.settings = { demo0.st.settings with admin := "boss", floor := 5000 } ∧
    (proposalsOf demoJ demo0.st.settings settled.log).map (fun p => (p.content.title, p.canceled, p.draft)) =
      [("t", false, false), ("t3", true, true)] :=
  ⟨demo0_init, settled_steps, by decide +kernel, by decide +kernel, by decide +kernel⟩

/-- The quorum of the first proposal: 30 % of the reported total. -/
example : (proposalsOf demoJ demo0.st.settings demo.log).map (fun p => (p.vote_end_timestamp, p.v_power_quorum_to_reach)) =
    [(some 300006, some 3072), (none, none)] := by decide +kernel

end Verif.Mpip
