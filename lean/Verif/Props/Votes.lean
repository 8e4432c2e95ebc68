import Verif.MetaVote.VoteEffects
import Verif.MetaVote.Guard
import Mathlib.Data.List.Dedup

/-!
# Votes: C12, C13, C14, C15, C16, C17
-/

namespace Verif.MetaVote

open Verif

/-- The apps a voter has votes in, as listed by `get_voter_info`. -/
def votedApps (s : State) (now : Nat) (id : String) : List String :=
  ((s.get_voter_info now id).vote_positions.map (·.votable_address)).dedup

/-! ## C12 -/

/-- Alice votes in three apps while the maximum is two. -/
def threeApps : List Action :=
  [ .call "mpdao" 0 1000 (.ft_on_transfer "alice" 60000000 (ascii "60")),
    .call "alice" 0 6000 (.vote 1 "app1" "o"),
    .call "alice" 0 6000 (.vote 1 "app2" "o"),
    .call "alice" 0 6000 (.vote 1 "app3" "o") ]

def threeAppsW : World := (runs demoJ "me" demo0 threeApps).get (by decide +kernel)

/-- **C12** is false of the code: a voter can have votes in `max_voting_positions + 1` apps. -/
theorem C12_false : ¬ ∀ (J : Json) (me : AccountId) (w : World), Reach J me w → ∀ id now,
    (votedApps w.st now id).length ≤ w.st.get_contract_info.max_voting_positions := by
  intro h
  have := h demoJ "me" threeAppsW (reach_of_runs demo0_init (Option.some_get _).symm) "alice" 0
  revert this
  decide +kernel

theorem votedApps_le (s : State) (now : Nat) (id : String) :
    (votedApps s now id).length ≤ (s.voterD id).vote_positions.len := by
  have hsub : ∀ a ∈ votedApps s now id, a ∈ (s.voterD id).vote_positions.keys := by
    intro a ha
    simp only [votedApps, List.mem_dedup, List.mem_map] at ha
    obtain ⟨p, hp, rfl⟩ := ha
    simp only [State.get_voter_info] at hp
    cases hv : s.voters.get id with
    | none => simp [hv] at hp
    | some v =>
      simp only [hv, Voter.to_json, List.mem_flatMap, List.mem_map] at hp
      obtain ⟨x, hx, y, hy, rfl⟩ := hp
      rw [show s.voterD id = v by simp [State.voterD, hv]]
      exact List.mem_map.2 ⟨x, hx, rfl⟩
  have h1 := (List.subperm_of_subset (List.nodup_dedup _) hsub).length_le
  exact h1.trans (le_of_eq (List.length_map _))

/-- **C12** (partial): the number of apps is at most one more than the configured maximum. -/
theorem C12_apps_partial {J : Json} {me : AccountId} {w : World} (h : Reach J me w) (id : String)
    (now : Nat) :
    (votedApps w.st now id).length ≤ w.st.get_contract_info.max_voting_positions + 1 :=
  (votedApps_le _ _ _).trans (reach_votes_len h id)

example : (votedApps demo.st 0 "alice").length = 1 := by decide +kernel

/-! ## C13 -/

/-- The vote on `(app, obj)` is locked in at time `now`: the filter is set for `app`, its end is in the
future and `obj` contains `" #<n> "`. -/
def lockedIn (s : State) (now : Nat) (app obj : String) : Prop :=
  s.get_lock_in_vote_filters.2.1 = some app ∧ now < s.get_lock_in_vote_filters.1 ∧
  ∃ pre post : List Char,
    obj.toList = pre ++ (" #" ++ toString s.get_lock_in_vote_filters.2.2 ++ " ").toList ++ post

theorem lockedIn_iff (s : State) (now : Nat) (app obj : String) :
    lockedIn s now app obj ↔ s.is_vote_locked now app obj = true := by
  unfold lockedIn State.is_vote_locked State.get_lock_in_vote_filters matches_filter
  cases h : s.lock_votes_in_address with
  | none => simp
  | some a =>
    simp only [Option.some.injEq, Bool.and_eq_true, decide_eq_true_eq]
    constructor
    · rintro ⟨rfl, h2, pre, post, h3⟩; exact ⟨⟨h2, rfl⟩, pre, post, h3.symm⟩
    · rintro ⟨⟨h2, rfl⟩, pre, post, h3⟩; exact ⟨rfl, h2, pre, post, h3.symm⟩

/-- Alice has votes on a locked-in object. -/
def lockedVote : List Action :=
  [ .call "mpdao" 0 1000 (.ft_on_transfer "alice" 60000000 (ascii "60")),
    .call "alice" 0 6000 (.vote 10 "app" "grant #7 x"),
    .call "operator" 0 6000 (.set_lock_in_vote_filters 1000 7 (some "app")) ]

def lockedVoteW : World := (runs demoJ "me" demo0 lockedVote).get (by decide +kernel)

/-- **C13** is false of the code: a rebalance reduces a locked-in vote (here to 1). -/
theorem C13_false : ¬ ∀ (J : Json) (me : AccountId) (w : World), Reach J me w → ∀ c k s' out,
    c.predecessor ≠ w.st.get_operator_id → exec J w.st c k = .ok (s', out) → ∀ id app obj,
    lockedIn w.st c.now app obj →
    w.st.get_votes_for_object id app obj ≤ s'.get_votes_for_object id app obj := by
  intro h
  have hx : (exec demoJ lockedVoteW.st ⟨"me", "alice", 0, 6000, []⟩ (.rebalance 1 "app" "grant #7 x")).isOk
      = true := by decide +kernel
  obtain ⟨⟨s', out⟩, hs⟩ := Res.isOk_iff.1 hx
  have h1 := h demoJ "me" lockedVoteW (reach_of_runs demo0_init (Option.some_get _).symm)
    _ _ s' out (by decide) hs "alice" "app" "grant #7 x"
    ((lockedIn_iff _ _ _ _).2 (by decide +kernel))
  have h2 : ((exec demoJ lockedVoteW.st ⟨"me", "alice", 0, 6000, []⟩
      (.rebalance 1 "app" "grant #7 x")).getOr (lockedVoteW.st, [])).1.get_votes_for_object
        "alice" "app" "grant #7 x" = 1 := by decide +kernel
  rw [hs] at h2
  have h3 : lockedVoteW.st.get_votes_for_object "alice" "app" "grant #7 x" = 10 := by decide +kernel
  simp only [Res.getOr] at h2
  omega

/-- **C13** (partial): while the lock-in is active, only a rebalance of the voter to a smaller non-zero
value and an operator mirroring reduce a locked-in vote. -/
theorem C13_locked_in_partial {J : Json} {me : AccountId} {w : World} (h : Reach J me w) {c : Ctx}
    {k : Call} {s' : State} {out : List Transfer} (hx : exec J w.st c k = .ok (s', out))
    {app obj : String} (hl : lockedIn w.st c.now app obj) (id : String)
    (hk1 : ∀ n, 0 < n → k ≠ .rebalance n app obj) (hk2 : ∀ e l, k ≠ .operator_mirror_lps e l) :
    w.st.get_votes_for_object id app obj ≤ s'.get_votes_for_object id app obj := by
  rw [get_votes_for_object_eq, get_votes_for_object_eq]
  have hv := exec_votes hx id
  rw [lockedIn_iff] at hl
  unfold Voter.votesOf at *
  generalize (s'.voterD id).vote_positions = m' at hv ⊢
  cases hv with
  | same k => exact le_refl _
  | vote k n a o hk hav hlen =>
    rw [vget_vset]; split
    · rename_i he; obtain ⟨rfl, rfl⟩ := he; exact Nat.le_add_right _ _
    · exact le_refl _
  | unvote k a o hk hl' hpres =>
    rw [vget_vdel]; split
    · rename_i he; obtain ⟨rfl, rfl⟩ := he; rw [hl] at hl'; simp at hl'
    · exact le_refl _
  | rebalance n a o hid hn hpres =>
    rw [vget_vset]; split
    · rename_i he; obtain ⟨rfl, rfl⟩ := he; exact absurd rfl (hk1 n (Nat.pos_of_ne_zero hn))
    · exact le_refl _
  | mirror e l m hid ht => exact absurd rfl (hk2 e l)
  | gone k hk hid hl0 =>
    have h1 := ((reach_vinv h).voterOK id).power
    have h2 := vget_le_vsum (w.st.voterD id).vote_positions app obj
    simp only [Voter.power, Voter.used] at h1
    omega

example : lockedIn lockedVoteW.st 0 "app" "grant #7 x" ∧
    Res.isOk (exec demoJ lockedVoteW.st ⟨"me", "alice", 0, 6000, []⟩ (.vote 1 "app" "grant #7 x")) = true ∧
    Res.isOk (exec demoJ lockedVoteW.st ⟨"me", "alice", 0, 6000, []⟩ (.unvote "app" "grant #7 x")) = false :=
  ⟨(lockedIn_iff _ _ _ _).2 (by decide +kernel), by decide +kernel, by decide +kernel⟩

/-! ## C14 -/

/-- A call changed nothing but the vote of `id` on `(app, obj)` and its available power: the other
voters are the same, the balance and positions of `id` are the same, and so is everything else. -/
structure OnlyVote (s s' : State) (id app obj : String) : Prop where
  others : ∀ i, i ≠ id → s'.voters.get i = s.voters.get i
  balance : (s'.voterD id).balance = (s.voterD id).balance
  positions : (s'.voterD id).locking_positions = (s.voterD id).locking_positions
  votes : ∀ a o, ¬ (a = app ∧ o = obj) →
    s'.get_votes_for_object id a o = s.get_votes_for_object id a o
  totals : ∀ a o, ¬ (a = app ∧ o = obj) → s'.get_total_votes a o = s.get_total_votes a o
  rest : s' = { s with voters := s'.voters, votes := s'.votes }

/-- **C14** (map level): the effect of an accepted vote. -/
theorem C14_vote_effect_partial {J : Json} {s s' : State} {c : Ctx} {p : Nat} {app obj : String}
    {out : List Transfer} (hx : exec J s c (.vote p app obj) = .ok (s', out)) :
    out = [] ∧
    s'.get_available_voting_power c.predecessor + p = s.get_available_voting_power c.predecessor ∧
    s'.get_votes_for_object c.predecessor app obj
      = s.get_votes_for_object c.predecessor app obj + p ∧
    s'.get_total_votes app obj = s.get_total_votes app obj + p ∧
    OnlyVote s s' c.predecessor app obj := by
  obtain ⟨-, -, -, hr⟩ := exec_ok.1 hx
  simp only [run, quiet_ok] at hr
  obtain ⟨hr, rfl⟩ := hr
  obtain ⟨hv, hav, -, -, -, hs⟩ := internal_vote_ok hr
  have hd := voterD_insert (s := s) (s' := s') (id := c.predecessor) (by rw [hs])
  have hd' := hd c.predecessor
  rw [if_pos rfl] at hd'
  have hvotes : ∀ a o, s'.totalVotes a o = vget (vset s.votes app obj (s.totalVotes app obj + p)) a o := by
    intro a o; rw [hs]; rfl
  simp only [get_votes_for_object_eq, get_total_votes_eq, get_available_eq, hvotes, hd', Voter.votesOf,
    vget_vset]
  refine ⟨trivial, by omega, by simp, by simp, ⟨?_, by rw [hd'], by rw [hd'], ?_, ?_, by rw [hs]⟩⟩
  · intro i hi; rw [hs]; exact UMap.get_insert_ne _ _ hi
  · intro a o h; simp only [get_votes_for_object_eq, hd', Voter.votesOf, vget_vset, if_neg h]
  · intro a o h; simp only [get_total_votes_eq, hvotes, vget_vset, if_neg h]; rfl

/-- **C14** (map level): in a reachable state a vote is accepted exactly when no deposit is attached, the
caller is a known voter, has that much available power and does not vote in more apps than the maximum
(the counters never overflow). -/
theorem C14_vote_accepted_partial {J : Json} {me : AccountId} {w : World} (h : Reach J me w) (c : Ctx)
    (p : Nat) (app obj : String) :
    (∃ r, exec J w.st c (.vote p app obj) = .ok r) ↔
      c.deposit = 0 ∧ c.predecessor ∈ w.st.voters.keys ∧
      p ≤ w.st.get_available_voting_power c.predecessor ∧
      (w.st.voterD c.predecessor).vote_positions.len ≤ w.st.get_contract_info.max_voting_positions := by
  constructor
  · rintro ⟨⟨s', out⟩, hx⟩
    obtain ⟨hp, -, -, hr⟩ := exec_ok.1 hx
    simp only [run, quiet_ok] at hr
    obtain ⟨hv, hav, hlen, -, -, hs⟩ := internal_vote_ok hr.1
    exact ⟨by simpa [Call.payable] using hp, UMap.mem_keys_iff.2 ⟨_, hv⟩, hav, hlen⟩
  · rintro ⟨hd, hk, hav, hlen⟩
    obtain ⟨v, hv⟩ := UMap.mem_keys_iff.1 hk
    have hvd := voterD_of_get hv
    rw [get_available_eq] at hav
    rw [hvd] at hav hlen
    have hpow := (reach_vinv h).power_le_total c.predecessor
    have htot := reach_total h
    have hle := vget_le_vsum v.vote_positions app obj
    have hall : w.st.totalVotes app obj + p ≤ U128_MAX := by
      rw [(reach_vinv h).votes]
      have h1 : w.st.voters.sum (fun _ v => v.votesOf app obj) + (w.st.voterD c.predecessor).available_voting_power
          ≤ w.st.voters.sum (fun _ v => v.power) := by
        have h2 := UMap.sum_add w.st.voters (fun _ v => v.votesOf app obj) (fun k v => if k = c.predecessor then v.available_voting_power else 0)
        have h3 : (w.st.voterD c.predecessor).available_voting_power ≤ w.st.voters.sum (fun k v => if k = c.predecessor then v.available_voting_power else 0) := by
          have := UMap.le_sum_of_get (f := fun k v => if k = c.predecessor then v.available_voting_power else 0) hv
          simpa [hvd] using this
        have h4 : w.st.voters.sum (fun k v => v.votesOf app obj + if k = c.predecessor then v.available_voting_power else 0)
            ≤ w.st.voters.sum (fun _ v => v.power) := by
          apply UMap.sum_le
          intro k x _
          have := vget_le_vsum x.vote_positions app obj
          simp only [Voter.power, Voter.used, Voter.votesOf]
          split <;> omega
        omega
      have h5 := (reach_vinv h).total
      rw [hvd] at h1
      omega
    have hrun : ∃ s', w.st.vote c p app obj = .ok s' := by
      simp only [State.vote, State.internal_vote, State.internal_create_voting_position,
        State.internal_increase_total_votes, State.internal_get_voter_or_panic, bind_ok_iff,
        pure_ok_iff, require_ok_iff, expect_ok_iff, subU_ok_iff, addU128_ok_iff]
      have e1 : ((v.get_vote_position_for_address app).get obj).getD 0 = vget v.vote_positions app obj := by
        rw [vget_eq]; rfl
      have e2 : ((w.st.internal_get_total_votes_for_address app).get obj).getD 0 = w.st.totalVotes app obj := by
        rw [State.totalVotes, vget_eq]; rfl
      rw [hvd] at hpow
      simp only [Voter.power, Voter.used] at hpow
      exact ⟨_, v, hv, _, ⟨(), hav, (), hlen, _, ⟨hav, rfl⟩, _, ⟨by rw [e1]; omega, rfl⟩, _,
        ⟨_, ⟨by rw [e2]; exact hall, rfl⟩, rfl⟩, rfl⟩, rfl⟩
    obtain ⟨s', hs'⟩ := hrun
    refine ⟨(s', []), exec_ok.2 ⟨by simp [hd], by simp [Call.is_private], ?_, ?_⟩⟩
    · simp only [Call.in_range, decide_eq_true_eq]
      rw [hvd] at hpow
      simp only [Voter.power] at hpow
      omega
    · simp only [run, quiet_ok]; exact ⟨hs', trivial⟩

example : Res.isOk (exec demoJ demo.st ⟨"me", "alice", 0, 12000, []⟩ (.vote 7 "app" "obj2")) = true := by
  decide +kernel

/-! ## C15 -/

/-- **C15** (map level): the effect of an accepted unvote. -/
theorem C15_unvote_effect_partial {J : Json} {s s' : State} {c : Ctx} {app obj : String}
    {out : List Transfer} (hx : exec J s c (.unvote app obj) = .ok (s', out)) :
    out = [] ∧
    s'.get_available_voting_power c.predecessor = s.get_available_voting_power c.predecessor
      + s.get_votes_for_object c.predecessor app obj ∧
    s'.get_votes_for_object c.predecessor app obj = 0 ∧
    s'.get_total_votes app obj + s.get_votes_for_object c.predecessor app obj
      = s.get_total_votes app obj ∧
    OnlyVote s s' c.predecessor app obj := by
  obtain ⟨-, -, -, hr⟩ := exec_ok.1 hx
  simp only [run, quiet_ok] at hr
  obtain ⟨hr, rfl⟩ := hr
  obtain ⟨hl, hv, hpres, -, hle, hs⟩ := internal_unvote_ok hr
  have hd := voterD_insert (s := s) (s' := s') (id := c.predecessor) (by rw [hs])
  have hd' := hd c.predecessor
  rw [if_pos rfl] at hd'
  have hvotes : ∀ a o, s'.totalVotes a o = if a = app ∧ o = obj then
      s.totalVotes app obj - (s.voterD c.predecessor).votesOf app obj else s.totalVotes a o := by
    intro a o; rw [hs]; exact decreased_vget _ _ _ _ _ _
  simp only [Voter.votesOf] at hle hvotes
  simp only [get_votes_for_object_eq, get_total_votes_eq, get_available_eq, hvotes, hd', Voter.votesOf,
    vget_vdel]
  refine ⟨trivial, trivial, by simp, by simp; omega, ⟨?_, by rw [hd'], by rw [hd'], ?_, ?_, by rw [hs]⟩⟩
  · intro i hi; rw [hs]; exact UMap.get_insert_ne _ _ hi
  · intro a o h; simp only [get_votes_for_object_eq, hd', Voter.votesOf, vget_vdel, if_neg h]
  · intro a o h; simp only [get_total_votes_eq, hvotes, if_neg h]

example : Res.isOk (exec demoJ demo.st ⟨"me", "alice", 0, 12000, []⟩ (.unvote "app" "obj2")) = true := by
  decide +kernel

/-- **C15** (map level): voting for an object on which the caller had no votes and then unvoting restores
the available power, every vote and every total. -/
theorem C15_vote_unvote_partial {J : Json} {s s1 s2 : State} {c c' : Ctx} {p : Nat} {app obj : String}
    {o1 o2 : List Transfer} (hc : c'.predecessor = c.predecessor)
    (h0 : s.get_votes_for_object c.predecessor app obj = 0)
    (h1 : exec J s c (.vote p app obj) = .ok (s1, o1))
    (h2 : exec J s1 c' (.unvote app obj) = .ok (s2, o2)) :
    (∀ id, s2.get_available_voting_power id = s.get_available_voting_power id) ∧
    (∀ id a o, s2.get_votes_for_object id a o = s.get_votes_for_object id a o) ∧
    (∀ a o, s2.get_total_votes a o = s.get_total_votes a o) ∧
    s2.get_total_voting_power = s.get_total_voting_power := by
  obtain ⟨-, a1, b1, c1, f1⟩ := C14_vote_effect_partial h1
  obtain ⟨-, a2, b2, c2, f2⟩ := C15_unvote_effect_partial h2
  rw [hc] at a2 b2 c2 f2
  have hoth : ∀ i, i ≠ c.predecessor → s2.voterD i = s.voterD i := by
    intro i hi
    rw [State.voterD, f2.others i hi, f1.others i hi, State.voterD]
  refine ⟨?_, ?_, ?_, ?_⟩
  · intro i
    by_cases hi : i = c.predecessor
    · subst hi; omega
    · rw [get_available_eq, get_available_eq, hoth i hi]
  · intro i a o
    by_cases hi : i = c.predecessor
    · subst hi
      by_cases he : a = app ∧ o = obj
      · obtain ⟨rfl, rfl⟩ := he; omega
      · rw [f2.votes a o he, f1.votes a o he]
    · rw [get_votes_for_object_eq, get_votes_for_object_eq, hoth i hi]
  · intro a o
    by_cases he : a = app ∧ o = obj
    · obtain ⟨rfl, rfl⟩ := he; omega
    · rw [f2.totals a o he, f1.totals a o he]
  · show s2.total_voting_power = s.total_voting_power
    rw [f2.rest, f1.rest]

example : ∃ s1 o1, exec demoJ demo.st ⟨"me", "alice", 0, 12000, []⟩ (.vote 7 "app2" "x") = .ok (s1, o1) ∧
    Res.isOk (exec demoJ s1 ⟨"me", "alice", 0, 12000, []⟩ (.unvote "app2" "x")) = true := by
  have h : (match exec demoJ demo.st ⟨"me", "alice", 0, 12000, []⟩ (.vote 7 "app2" "x") with
    | .ok r => Res.isOk (exec demoJ r.1 ⟨"me", "alice", 0, 12000, []⟩ (.unvote "app2" "x"))
    | .error _ => false) = true := by decide +kernel
  split at h
  · rename_i r hr; exact ⟨r.1, r.2, hr, h⟩
  · simp at h

/-! ## C16 -/

/-- **C16** (map level): the effect of an accepted rebalance. -/
theorem C16_rebalance_effect_partial {J : Json} {s s' : State} {c : Ctx} {p : Nat} {app obj : String}
    {out : List Transfer} (hx : exec J s c (.rebalance p app obj) = .ok (s', out)) :
    out = [] ∧
    s'.get_votes_for_object c.predecessor app obj = p ∧
    s'.get_available_voting_power c.predecessor + p = s.get_available_voting_power c.predecessor
      + s.get_votes_for_object c.predecessor app obj ∧
    s'.get_total_votes app obj + s.get_votes_for_object c.predecessor app obj
      = s.get_total_votes app obj + p ∧
    (s'.voterD c.predecessor).power = (s.voterD c.predecessor).power ∧
    OnlyVote s s' c.predecessor app obj := by
  obtain ⟨hp, -, hin, hr⟩ := exec_ok.1 hx
  simp only [run, quiet_ok] at hr
  obtain ⟨hr, rfl⟩ := hr
  obtain ⟨hpres, hv, hne, ⟨rfl, hu⟩ | ⟨hn, hle, hle2, vs, hs, hvs⟩⟩ := rebalance_ok hr
  · have hx' : exec J s c (.unvote app obj) = .ok (s', []) :=
      exec_ok.2 ⟨by simpa [Call.payable] using hp, by simp [Call.is_private], rfl, by
        simp only [run, quiet_ok]; exact ⟨hu, trivial⟩⟩
    obtain ⟨-, a2, b2, c2, f2⟩ := C15_unvote_effect_partial hx'
    refine ⟨rfl, b2, by omega, by omega, ?_, f2⟩
    obtain ⟨-, -, -, -, -, hs⟩ := internal_unvote_ok hu
    have hd' := voterD_insert (s := s) (s' := s') (id := c.predecessor) (by rw [hs]) c.predecessor
    rw [if_pos rfl] at hd'
    have := vsum_vdel (s.voterD c.predecessor).vote_positions app obj
    rw [hd']
    simp only [Voter.power, Voter.used, Voter.votesOf]
    omega
  · have hd := voterD_insert (s := s) (s' := s') (id := c.predecessor) (by rw [hs])
    have hd' := hd c.predecessor
    rw [if_pos rfl] at hd'
    have hvotes : ∀ a o, s'.totalVotes a o = if a = app ∧ o = obj then
        s.totalVotes app obj + p - (s.voterD c.predecessor).votesOf app obj else s.totalVotes a o := by
      intro a o; rw [← hvs, hs]; rfl
    have hsum := vsum_vset (s.voterD c.predecessor).vote_positions app obj p
    simp only [Voter.votesOf] at hle hle2 hvotes
    simp only [get_votes_for_object_eq, get_total_votes_eq, get_available_eq, hvotes, hd', Voter.votesOf,
      vget_vset, Voter.power, Voter.used]
    refine ⟨trivial, by simp, by omega, by simp; omega, by omega,
      ⟨?_, by rw [hd'], by rw [hd'], ?_, ?_, by rw [hs]⟩⟩
    · intro i hi; rw [hs]; exact UMap.get_insert_ne _ _ hi
    · intro a o h; simp only [get_votes_for_object_eq, hd', Voter.votesOf, vget_vset, if_neg h]
    · intro a o h; simp only [get_total_votes_eq, hvotes, if_neg h]

example : Res.isOk (exec demoJ demo.st ⟨"me", "alice", 0, 12000, []⟩ (.rebalance 7 "app" "obj2")) = true ∧
    Res.isOk (exec demoJ demo.st ⟨"me", "alice", 0, 12000, []⟩ (.rebalance 0 "app" "obj2")) = true ∧
    Res.isOk (exec demoJ demo.st ⟨"me", "alice", 0, 12000, []⟩
      (.rebalance 5000000000000000000000001 "app" "obj2")) = true := by decide +kernel

/-! ## C17 -/

/-- Alice votes with power 0; Bob votes for the same object and unvotes. -/
def zeroVote : List Action :=
  [ .call "mpdao" 0 1000 (.ft_on_transfer "alice" 60000000 (ascii "60")),
    .call "mpdao" 0 1000 (.ft_on_transfer "bob" 60000000 (ascii "60")),
    .call "alice" 0 6000 (.vote 0 "app" "o"),
    .call "bob" 0 6000 (.vote 5 "app" "o"),
    .call "bob" 0 6000 (.unvote "app" "o") ]

def zeroVoteW : World := (runs demoJ "me" demo0 zeroVote).get (by decide +kernel)

/-- **C17** is false of the code: a recorded vote of power 0 can become impossible to remove. -/
theorem C17_false : ¬ ∀ (J : Json) (me : AccountId) (w : World), Reach J me w → ∀ (c : Ctx) app obj n,
    c.deposit = 0 → ⟨app, obj, n⟩ ∈ (w.st.get_voter_info c.now c.predecessor).vote_positions →
    ¬ lockedIn w.st c.now app obj → ∃ r, exec J w.st c (.unvote app obj) = .ok r := by
  intro h
  obtain ⟨r, hr⟩ := h demoJ "me" zeroVoteW (reach_of_runs demo0_init (Option.some_get _).symm)
    ⟨"me", "alice", 0, 6000, []⟩ "app" "o" 0 rfl (by decide +kernel)
    (by rw [lockedIn_iff]; decide +kernel)
  have hf : Res.isOk (exec demoJ zeroVoteW.st ⟨"me", "alice", 0, 6000, []⟩ (.unvote "app" "o")) = false := by
    decide +kernel
  rw [hr] at hf
  simp [Res.isOk] at hf

/-- **C17** (partial, map level): every non-zero vote that is not locked in can be withdrawn. -/
theorem C17_unvote_possible_partial {J : Json} {me : AccountId} {w : World} (h : Reach J me w) (c : Ctx)
    {app obj : String} (hdep : c.deposit = 0)
    (hv : w.st.get_votes_for_object c.predecessor app obj ≠ 0)
    (hl : ¬ lockedIn w.st c.now app obj) : ∃ r, exec J w.st c (.unvote app obj) = .ok r := by
  rw [get_votes_for_object_eq] at hv
  rw [lockedIn_iff, Bool.not_eq_true] at hl
  cases hg : w.st.voters.get c.predecessor with
  | none =>
    rw [State.voterD, hg] at hv
    exact absurd rfl hv
  | some v =>
    have hvd := voterD_of_get hg
    rw [hvd] at hv
    have hpow := (reach_vinv h).power_le_total c.predecessor
    have htot := reach_total h
    have hle := vget_le_vsum v.vote_positions app obj
    have hsum : v.votesOf app obj ≤ w.st.totalVotes app obj := by
      rw [(reach_vinv h).votes]
      exact UMap.le_sum_of_get (f := fun _ (v : Voter) => v.votesOf app obj) hg
    rw [hvd] at hpow
    simp only [Voter.power, Voter.used] at hpow
    have e1 : (v.get_vote_position_for_address app).get obj = some (v.votesOf app obj) := by
      have := vget_eq v.vote_positions app obj
      simp only [Voter.votesOf, Voter.get_vote_position_for_address] at *
      cases hh : ((v.vote_positions.get app).getD UMap.empty).get obj with
      | none => rw [hh] at this; exact absurd this hv
      | some n => rw [hh] at this; simp [this]
    have e2 : (w.st.internal_get_total_votes_for_address app).get obj = some (w.st.totalVotes app obj) := by
      have := vget_eq w.st.votes app obj
      simp only [State.totalVotes, State.internal_get_total_votes_for_address] at *
      cases hh : ((w.st.votes.get app).getD UMap.empty).get obj with
      | none => rw [hh] at this; simp at this; omega
      | some n => rw [hh] at this; simp [this]
    have hdec : ∃ s1, w.st.state_internal_decrease_total_votes_for_address (v.votesOf app obj) app obj
        = .ok s1 := by
      simp only [State.state_internal_decrease_total_votes_for_address, bind_ok_iff, require_ok_iff,
        expect_ok_iff, subU_ok_iff, e2]
      by_cases hem : (if w.st.totalVotes app obj - v.votesOf app obj = 0 then
            (w.st.internal_get_total_votes_for_address app).remove obj else
            (w.st.internal_get_total_votes_for_address app).insert obj
              (w.st.totalVotes app obj - v.votesOf app obj)).isEmpty = true
      · exact ⟨_, _, rfl, (), hsum, _, ⟨hsum, rfl⟩, by rw [if_pos hem]; rfl⟩
      · exact ⟨_, _, rfl, (), hsum, _, ⟨hsum, rfl⟩, by rw [if_neg hem]; rfl⟩
    obtain ⟨s1, hs1⟩ := hdec
    have hrun : ∃ s', w.st.unvote c app obj = .ok s' := by
      simp only [State.unvote, State.internal_unvote, State.internal_remove_voting_position,
        State.internal_get_voter_or_panic,
        bind_ok_iff, pure_ok_iff, require_ok_iff, expect_ok_iff, addU128_ok_iff]
      simp only [Voter.votesOf] at e1 hs1
      exact ⟨_, (), hl, v, hg, _, ⟨_, e1, _, ⟨by omega, rfl⟩, s1, hs1, rfl⟩, rfl⟩
    obtain ⟨s', hs'⟩ := hrun
    exact ⟨(s', []), exec_ok.2 ⟨by simp [hdep], by simp [Call.is_private], rfl, by
      simp only [run, quiet_ok]; exact ⟨hs', trivial⟩⟩⟩

example : demo.st.get_votes_for_object "alice" "app" "obj2" ≠ 0 ∧ ¬ lockedIn demo.st 11 "app" "obj2" :=
  ⟨by decide +kernel, by rw [lockedIn_iff]; decide +kernel⟩

end Verif.MetaVote
