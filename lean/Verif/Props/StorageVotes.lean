import Verif.Storage.Trace

/-!
# Votes as they are stored: C73, and C02, C17, C34 over storage
-/

namespace Verif.Storage

open Verif MetaVote

/-- Nanoseconds of a day. -/
def DAY : Nat := 86400000000000

/-- Eve votes with power 0 for `("A", "o")` and withdraws everything, which leaves the storage of the vote map behind.  Bob
votes for `("A", "o")`.  Eve comes back, votes for `("B", "o")`, and unvotes `("A", "o")`. -/
def reuse : List Action :=
  [ .call "mpdao" 0 0 (.ft_on_transfer "eve" 60000000 (ascii "60")),
    .call "eve" 0 0 (.vote 0 "A" "o"),
    .call "eve" 0 0 (.unlock_position 0),
    .call "eve" 1 (61 * DAY) .withdraw_all,
    .resolve 0 true (61 * DAY),
    .call "mpdao" 0 (61 * DAY) (.ft_on_transfer "bob" 60000000 (ascii "60")),
    .call "bob" 0 (61 * DAY) (.vote 60000000000000000000000000 "A" "o"),
    .call "mpdao" 0 (61 * DAY) (.ft_on_transfer "eve" 60000000 (ascii "60")),
    .call "eve" 0 (61 * DAY) (.vote 40000000000000000000000000 "B" "o"),
    .call "eve" 0 (61 * DAY) (.unvote "A" "o") ]

def reuseW : SWorld := (sruns demoJ "me" sdemo0 reuse).get (by decide +kernel)

theorem reuseW_reach : SReach demoJ "me" reuseW := sreach_of_sruns sdemo0_reach (Option.some_get _).symm

/-- The world before the last call. -/
def beforeW : SWorld := (sruns demoJ "me" sdemo0 reuse.dropLast).get (by decide +kernel)

theorem beforeW_reach : SReach demoJ "me" beforeW := sreach_of_sruns sdemo0_reach (Option.some_get _).symm

/-- **C02** is false of the contract with its storage: the total for an object is less than the votes of one voter for it,
and the total for another object counts votes that nobody has. -/
theorem C02_storage_false : ∃ w, SReach demoJ "me" w ∧
    w.S.get_total_votes "A" "o" = .ok 20000000000000000000000000 ∧
    w.S.get_votes_for_object "bob" "A" "o" = .ok 60000000000000000000000000 ∧
    w.S.get_total_votes "B" "o" = .ok 40000000000000000000000000 ∧
    w.S.st.voters.keys = ["bob", "eve"] ∧ w.S.get_votes_for_object "bob" "B" "o" = .ok 0 ∧
    (w.S.st.voterD "eve").available_voting_power = 60000000000000000000000000 :=
  ⟨reuseW, reuseW_reach, by decide +kernel, by decide +kernel, by decide +kernel, by decide +kernel, by decide +kernel,
    by decide +kernel⟩

/-- **C73** is false of the code: a voter who withdrew everything and came back takes votes of another voter away with an
`unvote` of an app for which the voter has not voted since. -/
theorem C73_false : ∃ w c S' out, SReach demoJ "me" w ∧ c.predecessor = "eve" ∧
    sexec demoJ w.S c (.unvote "A" "o") = .ok (S', out) ∧
    w.S.get_votes_for_object "eve" "B" "o" = .ok 40000000000000000000000000 ∧ w.S.vlen "eve" = 1 ∧
    w.S.get_total_votes "A" "o" = .ok 60000000000000000000000000 ∧
    w.S.get_votes_for_object "bob" "A" "o" = .ok 60000000000000000000000000 ∧
    S'.get_total_votes "A" "o" = .ok 20000000000000000000000000 := by
  obtain ⟨⟨S', out⟩, hs⟩ := Res.isOk_iff.1 (show Res.isOk (sexec demoJ beforeW.S ⟨"me", "eve", 0, 61 * DAY, []⟩
    (.unvote "A" "o")) = true by decide +kernel)
  refine ⟨beforeW, ⟨"me", "eve", 0, 61 * DAY, []⟩, S', out, beforeW_reach, rfl, hs, by decide +kernel, by decide +kernel,
    by decide +kernel, by decide +kernel, ?_⟩
  have h : ((sexec demoJ beforeW.S ⟨"me", "eve", 0, 61 * DAY, []⟩ (.unvote "A" "o")).getOr (beforeW.S, [])).1.get_total_votes
      "A" "o" = .ok 20000000000000000000000000 := by decide +kernel
  rw [hs] at h
  exact h

/-- **C17** is false of the contract with its storage: a voter with votes that are not locked in cannot remove them. -/
theorem C17_storage_false : ∃ w, SReach demoJ "me" w ∧ w.S.st.get_lock_in_vote_filters.2.1 = none ∧
    w.S.get_votes_for_object "bob" "A" "o" = .ok 60000000000000000000000000 ∧
    Res.isOk (sexec demoJ w.S ⟨"me", "bob", 0, 61 * DAY, []⟩ (.unvote "A" "o")) = false :=
  ⟨reuseW, reuseW_reach, by decide +kernel, by decide +kernel, by decide +kernel⟩

/-- **C17**: nor can the voter who came back use the app voted for before. -/
theorem C17_panics : ∃ w, SReach demoJ "me" w ∧
    Res.isOk (w.S.get_votes_for_object "eve" "B" "o") = false ∧
    Res.isOk (sexec demoJ w.S ⟨"me", "eve", 0, 61 * DAY, []⟩ (.vote 5 "B" "o")) = false :=
  ⟨reuseW, reuseW_reach, by decide +kernel, by decide +kernel⟩

/-- An account and an app whose names join to the same id as another pair: the second voter writes into the votes of the
first one. -/
def shared : List Action :=
  [ .call "mpdao" 0 0 (.ft_on_transfer "eve" 60000000 (ascii "60")),
    .call "mpdao" 0 0 (.ft_on_transfer "eve-x" 60000000 (ascii "60")),
    .call "mpdao" 0 0 (.ft_on_transfer "bob" 60000000 (ascii "60")),
    .call "bob" 0 0 (.vote 60000000000000000000000000 "x-app" "o"),
    .call "eve" 0 0 (.vote 1 "x-app" "o"),
    .call "eve-x" 0 0 (.vote 50000000000000000000000000 "app" "q"),
    .call "eve" 0 0 (.unvote "x-app" "o") ]

def sharedW : SWorld := (sruns demoJ "me" sdemo0 shared).get (by decide +kernel)

theorem sharedW_reach : SReach demoJ "me" sharedW := sreach_of_sruns sdemo0_reach (Option.some_get _).symm

/-- **C03** is false of the contract with its storage: a voter has more available power than the positions give. -/
theorem C03_storage_false : ∃ w, SReach demoJ "me" w ∧
    ((w.S.st.voterD "eve").locking_positions.map (·.voting_power)).sum = 60000000000000000000000000 ∧
    (w.S.st.voterD "eve").available_voting_power = 109999999999999999999999999 :=
  ⟨sharedW, sharedW_reach, by decide +kernel, by decide +kernel⟩

end Verif.Storage
