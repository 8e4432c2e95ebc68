import Verif.Props.VoterVotes
import Verif.Props.EndToEnd

/-!
# C102 on bytes and in JSON

The votes of one voter as the bytes of the storage hold them, and as a client who asks in JSON is told them.
-/

namespace Verif.MetaVote.Bytes

open Verif Storage Borsh Disk Serde

variable {H : Hash} {N : Names} {J : Json} {me : AccountId} {G : Disk → Disk → Ctx → Call → Prop} {id : String}

/-- **C102** on bytes: the votes read from the bytes are those that the accepted calls gave; votes and available power never
exceed the power of the locked positions. -/
theorem C102_bytes (hN : N.OK H) (hme : StrFits me) {W : Nat} {w : BWorld} (h : BReach H N J me G W w) (hW : W < 2 ^ 32)
    (hu : Undisturbed id w.log) (hid : N.voter id) {app obj : String} (happ : N.app app) (ho : StrFits obj) :
    (NotMirrored id w.log →
      view w.D (fun r => get_votes_for_object H w.D r id app obj) = .ok (tally id app obj w.log)) ∧
    ∃ n av, view w.D (fun r => get_votes_for_object H w.D r id app obj) = .ok n ∧ n ≤ tally id app obj w.log ∧
      view w.D (fun r => get_available_voting_power H w.D r id) = .ok av ∧ ∀ now, ∃ l,
        view w.D (fun r => get_all_locking_positions H w.D r now id) = .ok l ∧ av + n ≤ lockedPower l := by
  obtain ⟨S, h1, h2, -⟩ := C92_reach hN hme h hW
  obtain ⟨v1, -⟩ := C92_views_votes hN h2 hid happ ho 0
  refine ⟨fun hn => v1.trans (C102_votes h1 hu hn app obj), ?_⟩
  obtain ⟨n, hn, hle⟩ := C102_bound h1 hu app obj
  refine ⟨n, _, v1.trans hn, hle, (C92_views_voter h2 (hN.voter _ hid) 0).2.2.2.1, fun now => ⟨_,
    (C92_views_voter h2 (hN.voter _ hid) now).2.2.2.2.1, ?_⟩⟩
  exact (C102_power h1 hu now).1 app obj n hn

/-- **C102** in JSON: a client who asks for the votes of such a voter is told what the accepted calls gave, whatever was sent to
the contract by anybody. -/
theorem C102_json (hN : N.OK H) (hme : validAccount me = true) {W : Nat} {w : BWorld} (h : JReach H N me G W w)
    (hW : W < 2 ^ 32) (hu : Undisturbed id w.log) (hn : NotMirrored id w.log) (hid : N.voter id) {app obj : String}
    (happ : N.app app) (ho : StrFits obj) {b : Bytes}
    (hb : View.read "get_votes_for_object" b = some (.get_votes_for_object id app obj)) (now : Nat) :
    ∃ out, viewAll H w.D now "get_votes_for_object" b = .ok out ∧
      JsonText.IsJson out (.str (toString (tally id app obj w.log))) := by
  obtain ⟨S, h1, h2⟩ := C99_client hN hme h hW
  have hv : S.view now (.get_votes_for_object id app obj) = .ok (tally id app obj w.log) := C102_votes h1 hu hn app obj
  rcases (h2 now "get_votes_for_object" b).2 _ hb ⟨hid, happ, ho⟩ with ⟨e, he, -⟩ | ⟨r, out, hr, ho, hj, -⟩
  · rw [hv] at he; cases he
  · rw [hv] at hr
    cases hr
    exact ⟨out, ho, hj⟩

/-! ## Cases -/

def reuseB : BWorld := (bruns Disk.firstByte demoJ "me" ⟨installed, [], 0, []⟩ reuse).get (by decide +kernel)

theorem reuse_ok : ∀ a ∈ reuse, ActOK few demoJ a := by
  intro a ha
  simp only [reuse, List.mem_cons, List.not_mem_nil, or_false] at ha
  rcases ha with rfl | rfl | rfl | rfl | rfl | rfl | rfl | rfl | rfl | rfl <;>
    first
    | trivial
    | refine ⟨by unfold StrFits; decide +kernel, few_msg ?_⟩; simp [few]
    | refine ⟨by unfold StrFits; decide +kernel, ?_, by unfold StrFits; decide +kernel⟩; simp [few]
    | exact ⟨by unfold StrFits; decide +kernel, trivial⟩

theorem reuseB_reach : BReach Disk.firstByte few demoJ "me" (fun D D' c k => (fun _ _ _ _ => true) D D' c k = true)
    (0 + (reuse.map (actWeight demoJ)).sum) reuseB := by
  refine reach_bruns (.init other installed ⟨"me", "deployer", 0, 0, []⟩ "owner" "operator" 1 300 1000000 3 2 "mpdao" "stnear" 0 "old-gov"
    other_blank (by decide) ?_ ?_ ?_ ?_ ?_ ?_) reuse_ok (by decide +kernel) (Option.some_get _).symm
  all_goals first | (unfold StrFits; decide +kernel) | skip
  exact ok_of_getOr (by decide +kernel) (by decide +kernel)

/-- On the bytes where the total of ("A", "o") is wrong, bob's votes are as given. -/
example : few.OK Disk.firstByte ∧ StrFits "me" ∧ Undisturbed "bob" reuseB.log ∧ NotMirrored "bob" reuseB.log ∧
    few.voter "bob" ∧ few.app "A" ∧ 0 + (reuse.map (actWeight demoJ)).sum < 2 ^ 32 ∧
    view reuseB.D (fun r => get_votes_for_object Disk.firstByte reuseB.D r "bob" "A" "o") = .ok 60000000000000000000000000 ∧
    view reuseB.D (fun r => get_total_votes reuseB.D r "A" "o") = .ok 20000000000000000000000000 :=
  ⟨few_ok, by unfold StrFits; decide +kernel, undisturbed_of (by decide +kernel), notMirrored_of (by decide +kernel),
    by simp [few], by simp [few], by decide +kernel, by decide +kernel, by decide +kernel⟩

/-- A question. -/
example : View.read "get_votes_for_object"
    (ascii "{\"voter_id\":\"bob\",\"contract_address\":\"A\",\"votable_object_id\":\"o\"}") =
    some (.get_votes_for_object "bob" "A" "o") := by
  rw [show ascii "{\"voter_id\":\"bob\",\"contract_address\":\"A\",\"votable_object_id\":\"o\"}" =
    (View.get_votes_for_object "bob" "A" "o").write.2 by decide +kernel]
  exact View.read_write (v := .get_votes_for_object "bob" "A" "o") trivial

/-- The JSON history `talk` of `C99_client`. -/
example : ∃ x : Nat × BWorld, JReach Disk.firstByte few "me" (fun D D' c k => keeps D D' c k = true) x.1 x.2 ∧ x.1 < 2 ^ 32 ∧
    Undisturbed "bob" x.2.log ∧ NotMirrored "bob" x.2.log ∧ tally "bob" "A" "o" x.2.log = 60000000000000000000000000 := by
  have h : ((jruns Disk.firstByte (0, ⟨installedJ, [], 0, []⟩) talk).map (fun x => (decide (x.1 < 2 ^ 32),
      undisturbedB "bob" x.2.log, notMirroredB "bob" x.2.log, tally "bob" "A" "o" x.2.log))) =
    some (true, true, true, 60000000000000000000000000) := by decide +kernel
  cases hx : jruns Disk.firstByte (0, ⟨installedJ, [], 0, []⟩) talk with
  | none => rw [hx] at h; cases h
  | some x =>
    rw [hx] at h
    simp only [Option.map_some, Option.some.injEq, Prod.mk.injEq] at h
    exact ⟨x, reach_jruns installedJ_reach talk_ok hx, of_decide_eq_true h.1, undisturbed_of h.2.1, notMirrored_of h.2.2.1,
      h.2.2.2⟩

end Verif.MetaVote.Bytes
