import Verif.Props.StorageFunds
import Verif.Props.StorageAccepted

/-!
# C14, C15, C16 and C76 over storage: what is false

Two voters whose names overlap share the votes for an app: voting, unvoting and rebalancing of one change the votes of the
other.  A voter who left with votes of power zero and came back cannot vote, although all conditions are met.
-/

namespace Verif.Storage

open Verif MetaVote

/-- The world in which eve and eve-x have voted. -/
def bothVoted : SWorld := (sruns demoJ "me" sdemo0 (shared.take 6)).get (by decide +kernel)

theorem bothVoted_reach : SReach demoJ "me" bothVoted := sreach_of_sruns sdemo0_reach (Option.some_get _).symm

/-- **C14** is false of the contract with its storage: the vote of one changes the votes of another. -/
theorem C14_storage_false : ∃ w c S' out, SReach demoJ "me" w ∧
    sexec demoJ w.S c (.vote 50000000000000000000000000 "app" "q") = .ok (S', out) ∧
    ¬ SOnly w.S S' c.predecessor "app" "q" := by
  obtain ⟨S', h1, h2, h3⟩ := C20_storage_false
  refine ⟨oneVote, _, S', [], oneVote_reach, h1, fun h => ?_⟩
  have := h.votes "eve" "x-app" "o" (by decide)
  rw [h2, h3] at this
  exact absurd (Except.ok.inj this) (by decide)

/-- **C15** is false of the contract with its storage: after one has unvoted, the votes of another cannot be read. -/
theorem C15_storage_false : ∃ w c S' out, SReach demoJ "me" w ∧
    sexec demoJ w.S c (.unvote "app" "q") = .ok (S', out) ∧ ¬ SOnly w.S S' c.predecessor "app" "q" := by
  have h : Res.isOk (sexec demoJ bothVoted.S ⟨"me", "eve-x", 0, 0, []⟩ (.unvote "app" "q")) = true := by decide +kernel
  have h2 : Res.isOk (((sexec demoJ bothVoted.S ⟨"me", "eve-x", 0, 0, []⟩ (.unvote "app" "q")).getOr
      (bothVoted.S, [])).1.get_votes_for_object "eve" "x-app" "o") = false := by decide +kernel
  have h3 : Res.isOk (bothVoted.S.get_votes_for_object "eve" "x-app" "o") = true := by decide +kernel
  cases hx : sexec demoJ bothVoted.S ⟨"me", "eve-x", 0, 0, []⟩ (.unvote "app" "q") with
  | error e => rw [hx] at h; cases h
  | ok r =>
    rw [hx] at h2
    refine ⟨bothVoted, _, r.1, r.2, bothVoted_reach, hx, fun hs => ?_⟩
    have := hs.votes "eve" "x-app" "o" (by decide)
    change Res.isOk (r.1.get_votes_for_object "eve" "x-app" "o") = false at h2
    rw [this, h3] at h2
    cases h2

/-- **C16** is false of the contract with its storage: the rebalance of one changes the votes of another. -/
theorem C16_storage_false : ∃ w c S' out, SReach demoJ "me" w ∧
    sexec demoJ w.S c (.rebalance 40000000000000000000000000 "app" "q") = .ok (S', out) ∧
    ¬ SOnly w.S S' c.predecessor "app" "q" := by
  have h : Res.isOk (sexec demoJ bothVoted.S ⟨"me", "eve-x", 0, 0, []⟩
      (.rebalance 40000000000000000000000000 "app" "q")) = true := by decide +kernel
  have h2 : ((sexec demoJ bothVoted.S ⟨"me", "eve-x", 0, 0, []⟩ (.rebalance 40000000000000000000000000 "app" "q")).getOr
      (bothVoted.S, [])).1.get_votes_for_object "eve" "x-app" "o" = .ok 40000000000000000000000000 := by decide +kernel
  have h3 : bothVoted.S.get_votes_for_object "eve" "x-app" "o" = .ok 50000000000000000000000000 := by decide +kernel
  cases hx : sexec demoJ bothVoted.S ⟨"me", "eve-x", 0, 0, []⟩ (.rebalance 40000000000000000000000000 "app" "q") with
  | error e => rw [hx] at h; cases h
  | ok r =>
    rw [hx] at h2
    refine ⟨bothVoted, _, r.1, r.2, bothVoted_reach, hx, fun hs => ?_⟩
    have := hs.votes "eve" "x-app" "o" (by decide)
    change r.1.get_votes_for_object "eve" "x-app" "o" = .ok 40000000000000000000000000 at h2
    rw [this, h3] at h2
    exact absurd (Except.ok.inj h2) (by decide)

/-- **C76** is false of the contract with its storage: a vote is refused although every condition on the caller, the deposit,
the amount and the records is met (whatever plain maps `s` one takes for the stored votes). -/
theorem C76_storage_false : ∃ w c, SReach demoJ "me" w ∧ Res.isOk (sexec demoJ w.S c (.vote 5 "B" "o")) = false ∧
    ∀ s, SameButVotes w.S s → (s.voterD "eve").vote_positions.len = w.S.vlen "eve" →
      MayCall demoJ s c (.vote 5 "B" "o") := by
  refine ⟨reuseW, ⟨"me", "eve", 0, 61 * DAY, []⟩, reuseW_reach, by decide +kernel, fun s hs hlen => ?_⟩
  have hst : reuseW.S.st = s.bare := hs
  have hv : (s.voterD "eve").bare = reuseW.S.st.voterD "eve" := by
    rw [← internal_get_voter_eq, ← internal_get_voter_eq, hst, get_voter_bare]
  have hav : (s.voterD "eve").available_voting_power = (reuseW.S.st.voterD "eve").available_voting_power := by
    rw [← hv]; rfl
  have hmax : s.max_voting_positions = reuseW.S.st.max_voting_positions := by rw [hst]; rfl
  refine ⟨rfl, ?_, ?_, ?_⟩
  · have : reuseW.S.st.voters.get "eve" ≠ none := by decide +kernel
    rw [hst] at this
    intro h
    exact this (by simp only [State.bare, UMap.get_mapV, h, Option.map_none])
  · rw [hav]; decide +kernel
  · rw [hlen, hmax]; decide +kernel

end Verif.Storage
