import Verif.Props.Accepted
import Verif.Props.StorageRefines

/-!
# C76 over storage
-/

namespace Verif.Storage

open Verif MetaVote

/-- **C76** (partial, over storage): in the executions of `C73_refines_partial`, a call is accepted exactly when the
conditions hold of the records of the contract, with the votes that the views report. -/
theorem C76_storage_partial {J : Json} {me : AccountId} {A : String → String → Prop} {W : SWorld} (hj : Joins A)
    (h : SReachC J me A W) : ∃ s : State, SameButVotes W.S s ∧
    (∀ v c o, W.S.get_votes_for_object v c o = .ok (s.get_votes_for_object v c o)) ∧
    (∀ c o, W.S.get_total_votes c o = .ok (s.get_total_votes c o)) ∧
    ∀ x k, Allowed A x k → ((∃ r, sexec J W.S x k = .ok r) ↔ MayCall J s x k) := by
  obtain ⟨w, hw, -, -, -, hs, hv, ht, hx⟩ := C73_refines_partial hj h
  refine ⟨w.st, hs, hv, ht, fun x k ha => ?_⟩
  rw [← C76_accepted hw]
  obtain ⟨h1, h2⟩ := hx x k ha
  constructor
  · rintro ⟨⟨S', out⟩, hr⟩
    obtain ⟨s', hs', -⟩ := h2 S' out hr
    exact ⟨_, hs'⟩
  · rintro ⟨r, hr⟩
    cases hy : sexec J W.S x k with
    | ok R => exact ⟨R, rfl⟩
    | error e =>
      have := (h1 e).1 hy
      rw [hr] at this
      cases this

/-- `tidyW` is such a world. -/
example : Joins (fun _ c => '-' ∉ c.toList) ∧ SReachC demoJ "me" (fun _ c => '-' ∉ c.toList) tidyW :=
  ⟨joins_names.1, tidyW_reach⟩

end Verif.Storage
