import Verif.Storage.Loose

/-!
# The number of apps in the stored map of a voter
-/

namespace Verif.Storage

open Verif MetaVote

/-- The number of voting positions of every voter is at most one more than the maximum. -/
def Short (S : SState) : Prop := ∀ id, S.vlen id ≤ S.st.max_voting_positions + 1

theorem Cells.insert_len {K V : Type} [DecidableEq K] {m : Cells K V} {len : Nat} {k : K} {v : V} {r : Cells K V × Nat}
    (h : m.insert len k v = .ok r) : r.2 ≤ len + 1 ∧ (∀ i, m.index k = some i → r.2 = len) := by
  unfold Cells.insert at h
  cases hi : m.index k with
  | none => rw [hi] at h; simp only [pure_ok_iff] at h; subst h; simp
  | some i =>
    rw [hi] at h
    simp only [bind_ok_iff, pure_ok_iff] at h
    obtain ⟨_, -, rfl⟩ := h
    simp

theorem Cells.remove_len {K V : Type} [DecidableEq K] {m : Cells K V} {len : Nat} {k : K} {r : Cells K V × Nat}
    (h : m.remove len k = .ok r) : r.2 ≤ len := by
  unfold Cells.remove at h
  cases hi : m.index k with
  | none => rw [hi] at h; simp only [pure_ok_iff] at h; subst h; simp
  | some i =>
    rw [hi] at h
    simp only [bind_ok_iff, pure_ok_iff] at h
    obtain ⟨_, -, _, -, _, -, rfl⟩ := h
    simp

/-- A vote that can be read is in a map that is registered for the voter. -/
theorem position_some {m : Mem} {id a o : String} {vlen n : Nat} {h : Handle} (hp : m.position id vlen a = .ok h)
    (hv : m.voteIn h o = .ok (some n)) : ∃ i, (m.vp id).index a = some i := by
  cases hi : (m.vp id).index a with
  | some i => exact ⟨i, rfl⟩
  | none =>
    simp only [Mem.position, Cells.get, hi, bind_ok_iff, pure_ok_iff] at hp
    obtain ⟨_, rfl, rfl⟩ := hp
    simp only [Mem.voteIn, Cells.get, Option.getD_none] at hv
    split at hv
    · simp [pure_ok_iff] at hv
    · simp [vecGet, inconsistent] at hv

theorem setVote_len {m : Mem} {id a o : String} {vlen n : Nat} {h : Handle} {r : Mem × Nat}
    (hs : m.setVote id vlen a h o n = .ok r) : r.2 ≤ vlen + 1 ∧ (∀ i, (m.vp id).index a = some i → r.2 = vlen) := by
  simp only [Mem.setVote, bind_ok_iff, pure_ok_iff] at hs
  obtain ⟨_, -, q, hq, rfl⟩ := hs
  exact Cells.insert_len hq

theorem delVote_len {m : Mem} {id a o : String} {vlen i : Nat} {h : Handle} {r : Mem × Nat}
    (hi : (m.vp id).index a = some i) (hs : m.delVote id vlen a h o = .ok r) : r.2 ≤ vlen := by
  simp only [Mem.delVote, bind_ok_iff, pure_ok_iff] at hs
  obtain ⟨_, -, q, hq, rfl⟩ := hs
  split at hq
  · exact Cells.remove_len hq
  · exact Nat.le_of_eq ((Cells.insert_len hq).2 i hi)

theorem remove_voting_len {S : SState} {id : String} {v : Voter} {vlen : Nat} {a o : String} {r : SState × Voter × Nat}
    (h : S.internal_remove_voting_position id v vlen a o = .ok r) : r.2.2 ≤ vlen ∧ r.1.vlen = S.vlen := by
  simp only [SState.internal_remove_voting_position, bind_ok_iff, pure_ok_iff, expect_ok_iff] at h
  obtain ⟨hd, hp, _, hv, n, rfl, _, -, q, hq, _, -, rfl⟩ := h
  obtain ⟨i, hi⟩ := position_some hp hv
  exact ⟨delVote_len hi hq, rfl⟩

theorem mirror_remove_len {id : String} {n : Nat} : ∀ {fuel : Nat} {S : SState} {v : Voter} {vlen u : Nat}
    {r : SState × Voter × Nat × Nat}, SState.mirror_remove_votes id n fuel S v vlen u = .ok r →
    r.2.2.1 ≤ vlen ∧ r.1.vlen = S.vlen
  | fuel, S, v, vlen, u, r, h => by
    unfold SState.mirror_remove_votes at h
    split at h
    · cases fuel with
      | zero => simp at h
      | succ fuel =>
        simp only [bind_ok_iff] at h
        obtain ⟨_, _, _, _, _, _, _, _, _, _, _, _, _, _, _, _, r1, hr, _, _, h⟩ := h
        obtain ⟨h1, h2⟩ := remove_voting_len hr
        obtain ⟨h3, h4⟩ := mirror_remove_len h
        exact ⟨h3.trans h1, h4.trans h2⟩
    · simp only [pure_ok_iff] at h; rw [← h]; exact ⟨Nat.le_refl _, rfl⟩

theorem upd_le {f : String → Nat} {N n : Nat} {a : String} (hf : ∀ x, f x ≤ N) (hn : n ≤ N) (x : String) :
    upd f a n x ≤ N := by
  unfold upd; split
  · exact hn
  · exact hf x

theorem total_vp {m m' : Mem} {n : Nat} {a o : String}
    (h : m.increaseTotal n a o = .ok m' ∨ m.decreaseTotal n a o = .ok m') : m'.vp = m.vp := by
  rcases h with h | h
  · simp only [Mem.increaseTotal, bind_ok_iff, pure_ok_iff] at h
    obtain ⟨_, -, _, -, _, -, rfl⟩ := h
    rfl
  · simp only [Mem.decreaseTotal, bind_ok_iff, pure_ok_iff] at h
    obtain ⟨_, -, _, -, _, -, _, -, _, -, rfl⟩ := h
    rfl

theorem internal_vote_short {S S' : SState} {id : String} {n : Nat} {a o : String} (hs : Short S)
    (h : S.internal_vote id n a o = .ok S') : Short S' := by
  simp only [SState.internal_vote, SState.internal_create_voting_position, bind_ok_iff, pure_ok_iff, require_ok_iff] at h
  obtain ⟨v, hv, r, ⟨-, -, -, hlen, _, -, _, -, _, -, _, -, q, hq, _, -, rfl⟩, rfl⟩ := h
  have := (setVote_len hq).1
  exact fun x => upd_le (N := S.st.max_voting_positions + 1) hs (show q.2 ≤ _ by omega) x

theorem internal_unvote_short {S S' : SState} {c : Ctx} {id : String} {a o : String} (hs : Short S)
    (h : S.internal_unvote c id a o = .ok S') : Short S' := by
  have ht := internal_unvote_touched h
  simp only [SState.internal_unvote, bind_ok_iff, pure_ok_iff] at h
  obtain ⟨-, -, v, hv, r, hr, rfl⟩ := h
  obtain ⟨h1, h2⟩ := remove_voting_len hr
  intro x
  have hm : (r.1.save id r.2.1 r.2.2).st.max_voting_positions = S.st.max_voting_positions := by
    rw [ht.state]
  rw [hm]
  refine upd_le ?_ (h1.trans (hs id)) x
  rw [h2]; exact hs

theorem rebalance_short {S S' : SState} {c : Ctx} {n : Nat} {a o : String} (hs : Short S)
    (h : S.rebalance c n a o = .ok S') : Short S' := by
  simp only [SState.rebalance, bind_ok_iff, expect_ok_iff] at h
  obtain ⟨v, hv, hd, hp, _, hvo, x, rfl, _, _, h⟩ := h
  obtain ⟨i, hi⟩ := position_some hp hvo
  split at h
  · exact internal_unvote_short hs h
  · simp only [bind_ok_iff, pure_ok_iff] at h
    obtain ⟨r, hr, q, hq, rfl⟩ := h
    have hvp : r.1.vp = S.mem.vp := by
      split at hr
      · simp only [bind_ok_iff, pure_ok_iff] at hr
        obtain ⟨_, _, _, _, _, _, _, _, m, hm, rfl⟩ := hr
        exact total_vp (.inl hm)
      · simp only [bind_ok_iff, pure_ok_iff] at hr
        obtain ⟨_, _, _, _, _, _, m, hm, rfl⟩ := hr
        exact total_vp (.inr hm)
    have := (setVote_len hq).2 i (by rw [hvp]; exact hi)
    refine fun x => upd_le (N := S.st.max_voting_positions + 1) hs ?_ x
    rw [this]; exact hs _

theorem mirror_short {S S' : SState} {c : Ctx} {e : String} {l : List (Nat × Nat)} (hs : Short S)
    (h : S.operator_mirror_lps c e l = .ok S') : Short S' := by
  have hm : S'.st.max_voting_positions = S.st.max_voting_positions := by
    cases mirror_ran (J := ⟨fun _ => none, fun _ => none⟩) h with
    | exact h => exact (exec_max h).1
    | vote _ _ hm => simp [Call.isMirror] at hm
    | mirror _ hf => rw [hf.state]
  simp only [SState.operator_mirror_lps, bind_ok_iff, pure_ok_iff] at h
  obtain ⟨_, _, _, _, _, _, _, _, _, _, _, _, r, hr, sv, hsv, n, _, t, _, rfl⟩ := h
  obtain ⟨h1, h2⟩ := mirror_remove_len hr
  intro x
  rw [hm]
  refine upd_le ?_ (h1.trans (hs _)) x
  rw [h2]; exact hs

theorem sexec_short {J : Json} {S S' : SState} {c : Ctx} {k : Call} {out : List Transfer} (hs : Short S)
    (h : sexec J S c k = .ok (S', out)) : Short S' := by
  cases hk : k.votes with
  | true =>
    have hs' : srun J S c k = .ok (S', out) := by
      simp only [sexec, bind_ok_iff] at h
      obtain ⟨_, _, _, _, _, _, h⟩ := h
      exact h
    cases k <;> (first | (simp [Call.votes] at hk; done) | skip) <;>
      simp only [srun, SState.quiet, bind_ok_iff, pure_ok_iff, Prod.mk.injEq] at hs'
    case vote => obtain ⟨_, h2, rfl, rfl⟩ := hs'; exact internal_vote_short hs h2
    case rebalance => obtain ⟨_, h2, rfl, rfl⟩ := hs'; exact rebalance_short hs h2
    case unvote => obtain ⟨_, h2, rfl, rfl⟩ := hs'; exact internal_unvote_short hs h2
    case vote_delegated => obtain ⟨_, ⟨p, hp, h2⟩, rfl, rfl⟩ := hs'; exact internal_vote_short hs h2
    case unvote_delegated => obtain ⟨_, ⟨p, hp, h2⟩, rfl, rfl⟩ := hs'; exact internal_unvote_short hs h2
    case operator_mirror_lps => obtain ⟨_, h2, rfl, rfl⟩ := hs'; exact mirror_short hs h2
  | false =>
    have hm := (exec_max ((sexec_ran h).exec hk)).1
    have hr : srun J S c k = S.other J c k := by cases k <;> first | rfl | simp [Call.votes] at hk
    simp only [sexec, hr, bind_ok_iff, require_ok_iff, SState.other, pure_ok_iff, Prod.mk.injEq] at h
    obtain ⟨-, h1, -, h2, -, h3, r, hr, rfl, rfl⟩ := h
    intro id
    rw [hm]
    simp only
    split
    · exact hs id
    · exact Nat.zero_le _

theorem sreach_short {J : Json} {me : AccountId} {w : SWorld} (h : SReach J me w) : Short w.S := by
  induction h with
  | init h => cases h with | mk w h => exact fun _ => Nat.zero_le _
  | step h hs ih =>
    cases hs with
    | call c k S' out hme hres hm hclock hu64 hexec => exact sexec_short ih hexec
    | resolve pre post t ok ts hpend hclock hu64 =>
      cases hx : sexec J _ ⟨me, me, 0, ts, [ok]⟩ t.callbackCall with
      | ok r => exact sexec_short (out := r.2) ih hx
      | error e => exact ih
    | tick ts hclock hu64 => exact ih

end Verif.Storage
