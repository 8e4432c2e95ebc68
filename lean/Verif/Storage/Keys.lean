import Verif.Base.Res

/-!
# Storage keys

The bytes of the keys under which the collections of the three contracts store their elements.  A collection prepends
its prefix: the Borsh encoding of a variant of `StorageKey`, i.e. the number of the variant in one byte, followed by the
32 bytes of `hash_id` if the variant has one.  The element keys are those of near-sdk 4 (`Vector`: prefix and index as
little-endian `u64`; `UnorderedMap`: prefix, one of the letters `i`, `k`, `v`, and the encoded key or the index;
`LookupMap`: prefix and encoded key).  The state of a contract itself is under the key `STATE`.

The hash is a parameter: nothing about it is used except that it has 32 bytes.
-/

namespace Verif.Storage

open Verif

abbrev Bytes := List UInt8

/-- Little-endian encoding in `n` bytes. -/
def le : Nat → Nat → Bytes
  | 0, _ => []
  | n + 1, x => UInt8.ofNat (x % 256) :: le n (x / 256)

/-- UTF-8 bytes of a string. -/
def utf8 (s : String) : Bytes := s.toByteArray.data.toList

/-- Borsh encoding of a string: length as `u32`, then the bytes. -/
def borshString (s : String) : Bytes := le 4 (utf8 s).length ++ utf8 s

/-- A hash function with 32 bytes (`utils.rs:25-27`, `env::keccak256_array`). -/
structure Hash where
  fn : String → Bytes
  length : ∀ s, (fn s).length = 32

/-- Collections of the meta-vote contract, in the order of the variants (`constants.rs:13-26`). -/
inductive Coll where
  | lockingPosition (id : String)
  | votePosition (id : String)
  | voters
  | votes
  | contractVotes (id : String)
  | voterVotes (id : String)
  | claimable
  | claimableStNear
  | airdropData
  | evmDelegates
  | evmDelegationSignatures
  | evmPreDelegation
  deriving DecidableEq

/-- The byte of the variant. -/
def Coll.tag : Coll → UInt8
  | lockingPosition _ => 0 | votePosition _ => 1 | voters => 2 | votes => 3 | contractVotes _ => 4 | voterVotes _ => 5
  | claimable => 6 | claimableStNear => 7 | airdropData => 8 | evmDelegates => 9 | evmDelegationSignatures => 10
  | evmPreDelegation => 11

/-- The string that is hashed, if there is one. -/
def Coll.id : Coll → Option String
  | lockingPosition i | votePosition i | contractVotes i | voterVotes i => some i
  | _ => none

/-- Collections of the mpip contract (`mpip-contract/src/constants.rs:13-20`). -/
inductive MpipColl where
  | mpips
  | hasVoted (id : String)
  | mpipVotes
  | voters
  | proposers
  | votes (id : String)
  deriving DecidableEq

/-- The byte of the variant. -/
def MpipColl.tag : MpipColl → UInt8
  | mpips => 0 | hasVoted _ => 1 | mpipVotes => 2 | voters => 3 | proposers => 4 | votes _ => 5

/-- The string that is hashed, if there is one. -/
def MpipColl.id : MpipColl → Option String
  | hasVoted i | votes i => some i
  | _ => none

/-- The prefix of a collection: variant, and hash if there is one. -/
def prefixOf (H : Hash) (tag : UInt8) (id : Option String) : Bytes :=
  tag :: (match id with
    | some i => H.fn i
    | none => [])

/-- An element of a collection; `k` is the encoded key of a map. -/
inductive Elem where
  /-- `Vector`: element at an index -/
  | elemAt (i : Nat)
  /-- `UnorderedMap`: position of a key -/
  | posOf (k : Bytes)
  /-- `UnorderedMap`: key at a position -/
  | keyAt (i : Nat)
  /-- `UnorderedMap`: value at a position -/
  | valAt (i : Nat)
  /-- `LookupMap`: value of a key -/
  | valOf (k : Bytes)
  deriving DecidableEq

/-- The part of the storage key after the prefix. -/
def Elem.bytes : Elem → Bytes
  | elemAt i => le 8 i
  | posOf k => 105 :: k
  | keyAt i => 107 :: le 8 i
  | valAt i => 118 :: le 8 i
  | valOf k => k

/-- Kinds of collections. -/
inductive Kind where
  | vector | map | lookup
  deriving DecidableEq

/-- Elements belong to a kind of collection; positions are `u64`. -/
def Elem.of : Kind → Elem → Prop
  | .vector, .elemAt i => i < 2 ^ 64
  | .map, .posOf _ => True
  | .map, .keyAt i => i < 2 ^ 64
  | .map, .valAt i => i < 2 ^ 64
  | .lookup, .valOf _ => True
  | _, _ => False

/-- Kinds of the collections of meta-vote (`lib.rs:31,33,44,50,56,60-62`, `voter.rs:18,20`). -/
def Coll.kind : Coll → Kind
  | lockingPosition _ => .vector
  | evmDelegationSignatures | evmPreDelegation => .lookup
  | _ => .map

/-- The storage key of an element of a collection of meta-vote. -/
def Coll.key (H : Hash) (c : Coll) (e : Elem) : Bytes := prefixOf H c.tag c.id ++ e.bytes

/-- The storage key of an element of a collection of mpip (all are `UnorderedMap`s). -/
def MpipColl.key (H : Hash) (c : MpipColl) (e : Elem) : Bytes := prefixOf H c.tag c.id ++ e.bytes

/-- The key of the contract state, `"STATE"`. -/
def STATE : Bytes := [83, 84, 65, 84, 69]

/-- The id that is hashed for the votes of a voter in an app, `format!("{}-{}", voter_id, contract_address)`
(`voter.rs:105`). -/
def join (voter app : String) : String := voter ++ "-" ++ app

/-! ## Encodings are injective -/

theorem le_length (n x : Nat) : (le n x).length = n := by
  induction n generalizing x with
  | zero => rfl
  | succ n ih => simp [le, ih]

theorem le_inj {n x y : Nat} (hx : x < 256 ^ n) (hy : y < 256 ^ n) (h : le n x = le n y) : x = y := by
  induction n generalizing x y with
  | zero => simp at hx hy; omega
  | succ n ih =>
    simp only [le, List.cons.injEq] at h
    have h1 : x % 256 = y % 256 := by
      have := congrArg UInt8.toNat h.1
      simp only [UInt8.toNat_ofNat'] at this
      omega
    have h2 := ih (x := x / 256) (y := y / 256) (by rw [Nat.pow_succ] at hx; omega) (by rw [Nat.pow_succ] at hy; omega) h.2
    omega

theorem utf8_inj {s t : String} (h : utf8 s = utf8 t) : s = t := by
  unfold utf8 at h
  exact String.toByteArray_inj.1 (ByteArray.ext (Array.toList_inj.1 h))

/-- Distinct strings have distinct encodings (strings of contracts are shorter than 2^32). -/
theorem borshString_inj {s t : String} (h : borshString s = borshString t) : s = t := by
  unfold borshString at h
  exact utf8_inj (List.append_inj h (by rw [le_length, le_length])).2

theorem bytes_inj {k : Kind} {e e' : Elem} (he : e.of k) (he' : e'.of k) (h : e.bytes = e'.bytes) : e = e' := by
  have hl : ∀ {i j : Nat}, i < 2 ^ 64 → j < 2 ^ 64 → le 8 i = le 8 j → i = j :=
    fun hi hj => le_inj (n := 8) (Nat.lt_of_lt_of_eq hi (by decide)) (Nat.lt_of_lt_of_eq hj (by decide))
  cases k <;> cases e <;> simp only [Elem.of] at he <;> cases e' <;> simp only [Elem.of] at he' <;>
    simp only [Elem.bytes, List.cons.injEq, true_and] at h
  · rw [hl he he' h]
  · rw [h]
  · exact absurd h.1 (by decide)
  · exact absurd h.1 (by decide)
  · exact absurd h.1 (by decide)
  · rw [hl he he' h]
  · exact absurd h.1 (by decide)
  · exact absurd h.1 (by decide)
  · exact absurd h.1 (by decide)
  · rw [hl he he' h]
  · rw [h]

end Verif.Storage
