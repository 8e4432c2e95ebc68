import Verif.Props.Book
import Verif.Props.StorageRefines
import Verif.Props.StorageVotes
import Verif.Storage.Views

/-!
# C82 over storage
-/

namespace Verif.Storage

open Verif MetaVote

/-- **C82** (partial, over storage): in the executions of `C73_refines_partial`, everything the contract keeps is what
replaying its history on the books of a fresh contract gives: the records as they are stored, the votes as the views
report them. -/
theorem C82_storage_partial {J : Json} {me : AccountId} {A : String → String → Prop} {W : SWorld} (hj : Joins A)
    (h : SReachC J me A W) : ∃ w0 s, Init w0 ∧ SameButVotes W.S s ∧
    s.book = Book.replay J (Book.fresh w0.st.config) W.log ∧
    (∀ v c o, W.S.get_votes_for_object v c o = .ok ((s.book.acct v).votesOf c o)) ∧
    (∀ c o, W.S.get_total_votes c o = .ok ((s.book.votes c o).getD 0)) := by
  obtain ⟨w, hw, -, -, hl, hs, hv, ht, -⟩ := C73_refines_partial hj h
  obtain ⟨w0, h0, hb⟩ := C82_history hw
  refine ⟨w0, w.st, h0, hs, by rw [hl]; exact hb, fun v c o => ?_, fun c o => ?_⟩
  · rw [hv, book_acct, ← internal_get_voter_eq]
    unfold Voter.votesOf State.get_votes_for_object
    rw [vget_eq]
    cases ((w.st.internal_get_voter v).vote_positions.get c) <;> rfl
  · rw [ht]
    show _ = Except.ok (((w.st.votes.get c).bind (·.get o)).getD 0)
    unfold State.get_total_votes
    cases w.st.votes.get c <;> rfl

/-- **C82** is false of the contract with its storage: replaying the history leaves the votes of bob, over storage they
are gone. -/
theorem C82_storage_false : ∃ W, SReach demoJ "me" W ∧ W.log.length = 10 ∧
    (((Book.replay demoJ (Book.fresh demo0.st.config) W.log).votes "A" "o").getD 0) = 60000000000000000000000000 ∧
    W.S.get_total_votes "A" "o" = .ok 20000000000000000000000000 :=
  ⟨reuseW, reuseW_reach, by decide +kernel, by decide +kernel, by decide +kernel⟩

/-- The same deposits and votes as in `reuse`, without the first visit of eve. -/
def fresh : List Action :=
  [ .call "mpdao" 0 (61 * DAY) (.ft_on_transfer "bob" 60000000 (ascii "60")),
    .call "bob" 0 (61 * DAY) (.vote 60000000000000000000000000 "A" "o"),
    .call "mpdao" 0 (61 * DAY) (.ft_on_transfer "eve" 60000000 (ascii "60")),
    .call "eve" 0 (61 * DAY) (.vote 40000000000000000000000000 "B" "o")]

def freshW : SWorld := (sruns demoJ "me" sdemo0 fresh).get (by decide +kernel)

/-- **C83** is false of the contract with its storage: two contracts with the same voters, the same totals and the same
lists of votes, of which only one accepts a call. -/
theorem C83_storage_false : ∃ W W', SReach demoJ "me" W ∧ SReach demoJ "me" W' ∧
    W.S.st.voters = W'.S.st.voters ∧ W.S.st.total_voting_power = W'.S.st.total_voting_power ∧
    (∀ v ∈ ["bob", "eve"], W.S.get_votes_by_voter v = W'.S.get_votes_by_voter v) ∧
    (∀ a ∈ ["A", "B"], W.S.get_votes_by_app a = W'.S.get_votes_by_app a) ∧
    Res.isOk (sexec demoJ W.S ⟨"me", "eve", 0, 61 * DAY, []⟩ (.unvote "A" "o")) = true ∧
    Res.isOk (sexec demoJ W'.S ⟨"me", "eve", 0, 61 * DAY, []⟩ (.unvote "A" "o")) = false :=
  ⟨beforeW, freshW, beforeW_reach, sreach_of_sruns sdemo0_reach (Option.some_get _).symm, by decide +kernel,
    by decide +kernel, by decide +kernel, by decide +kernel, by decide +kernel, by decide +kernel⟩

/-- `tidyW` is such a world. -/
example : Joins (fun _ c => '-' ∉ c.toList) ∧ SReachC demoJ "me" (fun _ c => '-' ∉ c.toList) tidyW :=
  ⟨joins_names.1, tidyW_reach⟩

end Verif.Storage
