import Verif.Storage.Keys

/-!
# Storage keys: C43, C44
-/

namespace Verif.Storage

open Verif

/-! ## C43 -/

/-- The hash does not confuse two given ids.  (No hash of 32 bytes is injective, so the theorems ask for it only on the ids
at hand.) -/
def Hash.Apart (H : Hash) (i j : Option String) : Prop := i.map H.fn = j.map H.fn → i = j

theorem Coll.eq_of {c d : Coll} (h : c.tag = d.tag) (hi : c.id = d.id) : c = d := by
  cases c <;> cases d <;> first | rfl | (simp [Coll.tag] at h; done) | (simp only [Coll.id, Option.some.injEq] at hi; rw [hi])

theorem MpipColl.eq_of {c d : MpipColl} (h : c.tag = d.tag) (hi : c.id = d.id) : c = d := by
  cases c <;> cases d <;> first | rfl | (simp [MpipColl.tag] at h; done) | (simp only [MpipColl.id, Option.some.injEq] at hi; rw [hi])

/-- Variants with the same byte either both have an id or both have none. -/
theorem Coll.id_isSome {c d : Coll} (h : c.tag = d.tag) : c.id.isSome = d.id.isSome := by
  cases c <;> cases d <;> first | rfl | simp [Coll.tag] at h

theorem MpipColl.id_isSome {c d : MpipColl} (h : c.tag = d.tag) : c.id.isSome = d.id.isSome := by
  cases c <;> cases d <;> first | rfl | simp [MpipColl.tag] at h

theorem Coll.kind_eq {c d : Coll} (h : c.tag = d.tag) : c.kind = d.kind := by
  cases c <;> cases d <;> first | rfl | simp [Coll.tag] at h

theorem prefixOf_append {H : Hash} {t u : UInt8} {i j : Option String} (hf : H.Apart i j) (hs : t = u → i.isSome = j.isSome)
    {x y : Bytes} (h : prefixOf H t i ++ x = prefixOf H u j ++ y) : t = u ∧ i = j ∧ x = y := by
  simp only [prefixOf, List.cons_append, List.cons.injEq] at h
  obtain ⟨rfl, h⟩ := h
  have := hs rfl
  cases i <;> cases j <;> simp at this
  · exact ⟨rfl, rfl, h⟩
  · obtain ⟨h1, h2⟩ := List.append_inj h (by rw [H.length, H.length])
    exact ⟨rfl, hf (by simp [h1]), h2⟩

/-- **C43**: the prefix of a collection of meta-vote is not a prefix of that of another one. -/
theorem C43_prefix {H : Hash} {c d : Coll} (hf : H.Apart c.id d.id) (h : prefixOf H c.tag c.id <+: prefixOf H d.tag d.id) :
    c = d := by
  obtain ⟨x, hx⟩ := h
  obtain ⟨h1, h2, -⟩ := prefixOf_append hf Coll.id_isSome (y := []) (hx.trans (List.append_nil _).symm)
  exact Coll.eq_of h1 h2

/-- **C43**: the same for mpip. -/
theorem C43_prefix_mpip {H : Hash} {c d : MpipColl} (hf : H.Apart c.id d.id) (h : prefixOf H c.tag c.id <+: prefixOf H d.tag d.id) :
    c = d := by
  obtain ⟨x, hx⟩ := h
  obtain ⟨h1, h2, -⟩ := prefixOf_append hf MpipColl.id_isSome (y := []) (hx.trans (List.append_nil _).symm)
  exact MpipColl.eq_of h1 h2

/-- **C43**: different elements of collections of meta-vote are stored under different keys, none of which is the key of
the contract state. -/
theorem C43_keys {H : Hash} {c d : Coll} (hf : H.Apart c.id d.id) {e e' : Elem} (he : e.of c.kind) (he' : e'.of d.kind) :
    (c.key H e = d.key H e' → c = d ∧ e = e') ∧ c.key H e ≠ STATE := by
  constructor
  · intro h
    obtain ⟨h1, h2, h3⟩ := prefixOf_append hf Coll.id_isSome h
    refine ⟨Coll.eq_of h1 h2, bytes_inj he ?_ h3⟩
    rw [Coll.kind_eq h1]; exact he'
  · intro h
    have : c.tag = 83 := (List.cons.inj h).1
    cases c <;> simp [Coll.tag] at this

/-- **C43**: the same for mpip. -/
theorem C43_keys_mpip {H : Hash} {c d : MpipColl} (hf : H.Apart c.id d.id) {e e' : Elem} (he : e.of .map) (he' : e'.of .map) :
    (c.key H e = d.key H e' → c = d ∧ e = e') ∧ c.key H e ≠ STATE := by
  constructor
  · intro h
    obtain ⟨h1, h2, h3⟩ := prefixOf_append hf MpipColl.id_isSome h
    exact ⟨MpipColl.eq_of h1 h2, bytes_inj he he' h3⟩
  · intro h
    have : c.tag = 83 := (List.cons.inj h).1
    cases c <;> simp [MpipColl.tag] at this

/-- Without assuming anything about the hash: two elements share a key only if they are the same element of collections of
the same variant whose ids have the same hash.  In particular collections of different variants never interfere. -/
theorem C43_any_hash {H : Hash} {c d : Coll} {e e' : Elem} (he : e.of c.kind) (he' : e'.of d.kind)
    (h : c.key H e = d.key H e') : c.tag = d.tag ∧ c.id.map H.fn = d.id.map H.fn ∧ e = e' := by
  unfold Coll.key at h
  simp only [prefixOf, List.cons_append, List.cons.injEq] at h
  obtain ⟨ht, h⟩ := h
  have hk := Coll.kind_eq ht
  have hs := Coll.id_isSome ht
  generalize c.id = i at *
  generalize d.id = j at *
  refine ⟨ht, ?_⟩
  cases i <;> cases j <;> simp at hs
  · exact ⟨rfl, bytes_inj he (hk ▸ he') h⟩
  · obtain ⟨h1, h2⟩ := List.append_inj h (by rw [H.length, H.length])
    exact ⟨by simp [h1], bytes_inj he (hk ▸ he') h2⟩

/-- A hash: the zeros. -/
def zeros : Hash := ⟨fun _ => List.replicate 32 0, fun _ => List.length_replicate⟩

example : (Coll.voters).key zeros (.posOf (borshString "a")) = [2, 105, 1, 0, 0, 0, 97] := by decide +kernel

example : (Coll.votePosition "a").key zeros (.keyAt 258) =
    1 :: List.replicate 32 0 ++ [107, 2, 1, 0, 0, 0, 0, 0, 0] := by decide +kernel

/-- The last conclusion needs the hash: with a hash that collides, two voters share their vote maps. -/
example : (Coll.votePosition "a").key zeros (.keyAt 0) = (Coll.votePosition "b").key zeros (.keyAt 0) := rfl

/-- A hash that tells `"a"` and `"b"` apart. -/
def firstByte : Hash := ⟨fun s => (utf8 s).headD 0 :: List.replicate 31 0, fun _ => by simp⟩

example : firstByte.Apart (Coll.votePosition "a").id (Coll.votePosition "b").id :=
  fun h => absurd h (by decide +kernel)

example : Elem.of (Coll.lockingPosition "a").kind (.elemAt 3) ∧ Elem.of Coll.voters.kind (.posOf [1]) := by
  simp [Elem.of, Coll.kind]

/-! ## C44 -/

theorem join_toList (v a : String) : (join v a).toList = v.toList ++ '-' :: a.toList := by
  simp [join, String.toList_append]

/-- **C44** is false of the code: different pairs have the same id, hence the same storage for any hash. -/
theorem C44_false : ∃ v a v' a' : String, (v, a) ≠ (v', a') ∧ join v a = join v' a' ∧
    ∀ H e, (Coll.voterVotes (join v a)).key H e = (Coll.voterVotes (join v' a')).key H e :=
  ⟨"eve", "x-app", "eve-x", "app", by decide, by decide, fun _ _ => by
    rw [show join "eve" "x-app" = join "eve-x" "app" by decide]⟩

theorem split_first {a b c d : List Char} (ha : '-' ∉ a) (hc : '-' ∉ c) (h : a ++ '-' :: b = c ++ '-' :: d) :
    a = c ∧ b = d := by
  induction a generalizing c with
  | nil =>
    cases c with
    | nil => simpa using h
    | cons x t =>
      simp only [List.nil_append, List.cons_append, List.cons.injEq] at h
      rw [← h.1] at hc
      exact absurd (List.mem_cons_self) hc
  | cons x t ih =>
    cases c with
    | nil =>
      simp only [List.nil_append, List.cons_append, List.cons.injEq] at h
      rw [h.1] at ha
      exact absurd (List.mem_cons_self) ha
    | cons y u =>
      simp only [List.cons_append, List.cons.injEq] at h
      obtain ⟨h1, h2⟩ := ih (fun e => ha (List.mem_cons_of_mem _ e)) (fun e => hc (List.mem_cons_of_mem _ e)) h.2
      exact ⟨by rw [h.1, h1], h2⟩

/-- **C44** (partial): the ids differ when the names of the apps have no `-`, or those of the voters have none.  The full
statement, for all names, is false. -/
theorem C44_names_partial {v a v' a' : String}
    (hn : ('-' ∉ a.toList ∧ '-' ∉ a'.toList) ∨ ('-' ∉ v.toList ∧ '-' ∉ v'.toList)) (h : join v a = join v' a') :
    v = v' ∧ a = a' := by
  have h1 := congrArg String.toList h
  rw [join_toList, join_toList] at h1
  rcases hn with ⟨ha, ha'⟩ | ⟨hv, hv'⟩
  · have h2 := congrArg List.reverse h1
    simp only [List.reverse_append, List.reverse_cons, List.append_assoc, List.singleton_append] at h2
    obtain ⟨e1, e2⟩ := split_first (by simpa using ha) (by simpa using ha') h2
    exact ⟨String.toList_inj.1 (List.reverse_inj.1 e2), String.toList_inj.1 (List.reverse_inj.1 e1)⟩
  · obtain ⟨e1, e2⟩ := split_first hv hv' h1
    exact ⟨String.toList_inj.1 e1, String.toList_inj.1 e2⟩

/-- **C44** (partial): pairs with the same voter have different ids, whatever the names. -/
theorem C44_voter_partial {v a a' : String} (h : join v a = join v a') : a = a' := by
  have h1 := congrArg String.toList h
  rw [join_toList, join_toList] at h1
  exact String.toList_inj.1 (by simpa using h1)

/-- **C44** (partial): two different pairs have the same id only if one voter name is the other one extended by `-`. -/
theorem C44_overlap_partial {v a v' a' : String} (h : join v a = join v' a') (hne : v ≠ v') :
    (v.toList ++ ['-'] <+: v'.toList) ∨ (v'.toList ++ ['-'] <+: v.toList) := by
  have h1 := congrArg String.toList h
  rw [join_toList, join_toList] at h1
  have hne' : v.toList ≠ v'.toList := fun e => hne (String.toList_inj.1 e)
  generalize v.toList = x at *
  generalize v'.toList = y at *
  rcases List.append_eq_append_iff.1 h1 with ⟨t, ht, ht'⟩ | ⟨t, ht, ht'⟩
  · left
    cases t with
    | nil => simp at ht; exact absurd ht.symm hne'
    | cons c t =>
      simp only [List.cons_append, List.cons.injEq] at ht'
      refine ⟨t, ?_⟩
      rw [ht, ← ht'.1]; simp
  · right
    cases t with
    | nil => simp at ht; exact absurd ht hne'
    | cons c t =>
      simp only [List.cons_append, List.cons.injEq] at ht'
      refine ⟨t, ?_⟩
      rw [ht, ← ht'.1]; simp

example : join "alice.near" "app" ≠ join "bob.near" "app" := by decide

example : '-' ∉ "app".toList ∧ '-' ∉ "validators".toList := by decide

end Verif.Storage
