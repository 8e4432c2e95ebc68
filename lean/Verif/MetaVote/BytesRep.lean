import Verif.MetaVote.Bytes
import Verif.Borsh.Vec
import Verif.Storage.Contract
import Verif.Props.Borsh
import Verif.Props.Disk

/-!
# How the bytes of storage stand for a state of meta-vote

`Names` are the ids of voters and of apps that occur; their hashes do not collide.  `Tab` are the tables of the state, each
of which is one collection of the storage (`TabOK`); `f` is what may still be added to each without its length going over
`2 ^ 32`.
-/

namespace Verif

/-- Values translated, with their keys. -/
def UMap.mapE {K V W : Type} [DecidableEq K] (m : UMap K V) (g : K → V → W) : UMap K W :=
  ⟨m.entries.map (fun p => (p.1, g p.1 p.2)), by rw [List.map_map]; exact m.nodup⟩

namespace UMap

variable {K V W : Type} [DecidableEq K]

theorem findL_mapE (l : List (K × V)) (g : K → V → W) (k : K) :
    findL (l.map (fun p => (p.1, g p.1 p.2))) k = (findL l k).map (g k) := by
  induction l with
  | nil => rfl
  | cons p t ih =>
    obtain ⟨a, v⟩ := p
    simp only [List.map_cons, findL]
    by_cases e : a = k
    · subst e; simp
    · rw [if_neg e, if_neg e, ih]

theorem mapE_get (m : UMap K V) (g : K → V → W) (k : K) : (m.mapE g).get k = (m.get k).map (g k) :=
  findL_mapE m.entries g k

theorem mapE_len (m : UMap K V) (g : K → V → W) : (m.mapE g).len = m.len := by simp [mapE, len]

theorem insertL_mapE (l : List (K × V)) (hn : (l.map Prod.fst).Nodup) {g g' : K → V → W} {k : K}
    (hg : ∀ a, a ≠ k → g' a = g a) (v : V) :
    insertL (l.map (fun p => (p.1, g p.1 p.2))) k (g' k v) = (insertL l k v).map (fun p => (p.1, g' p.1 p.2)) := by
  induction l with
  | nil => rfl
  | cons p t ih =>
    obtain ⟨a, x⟩ := p
    simp only [List.map_cons, List.nodup_cons] at hn
    simp only [List.map_cons, insertL]
    by_cases e : a = k
    · subst e
      rw [if_pos rfl, if_pos rfl, List.map_cons]
      congr 1
      refine List.map_congr_left fun q hq => ?_
      rw [hg q.1 fun e => hn.1 (e ▸ List.mem_map_of_mem hq)]
    · rw [if_neg e, if_neg e, List.map_cons, ih hn.2, hg a e]

theorem mapE_insert (m : UMap K V) {g g' : K → V → W} {k : K} (hg : ∀ a, a ≠ k → g' a = g a) (v : V) :
    (m.mapE g).insert k (g' k v) = (m.insert k v).mapE g' := UMap.ext' (insertL_mapE m.entries m.nodup hg v)

theorem indexL_mapE (l : List (K × V)) (g : K → V → W) (k : K) :
    indexL (l.map (fun p => (p.1, g p.1 p.2))) k = indexL l k := by
  induction l with
  | nil => rfl
  | cons p t ih => simp only [List.map_cons, indexL, ih]

theorem mapE_remove (m : UMap K V) (g : K → V → W) (k : K) : (m.mapE g).remove k = (m.remove k).mapE g := by
  refine UMap.ext' ?_
  show removeL (m.entries.map (fun p => (p.1, g p.1 p.2))) k = (removeL m.entries k).map (fun p => (p.1, g p.1 p.2))
  unfold removeL
  rw [List.map_map, show (Prod.fst ∘ fun p : K × V => (p.1, g p.1 p.2)) = Prod.fst from rfl, indexL_mapE]
  split
  · exact Borsh.swapRemove_map _ _ _
  · rfl

theorem mapE_congr (m : UMap K V) {g g' : K → V → W} (h : ∀ k v, m.get k = some v → g k v = g' k v) :
    m.mapE g = m.mapE g' := by
  refine UMap.ext' (List.map_congr_left fun p hp => ?_)
  rw [h p.1 p.2 (UMap.get_eq_some_iff.2 hp)]

theorem len_insert_le (m : UMap K V) (k : K) (v : V) : (m.insert k v).len ≤ m.len + 1 := by
  rw [len_insert]; split <;> omega

theorem len_remove_le (m : UMap K V) (k : K) : (m.remove k).len ≤ m.len := by
  rw [len_remove]; split <;> omega

end UMap

end Verif

namespace Verif.MetaVote.Bytes

open Verif Storage Disk Borsh

/-- Ids of voters and of apps, and what is in storage under keys that are not of the contract. -/
structure Names where
  voter : String → Prop
  app : String → Prop
  rest : Disk

/-- The collections that occur. -/
def Names.U (N : Names) : Coll → Prop
  | .lockingPosition i | .votePosition i => N.voter i
  | .contractVotes a => N.app a
  | .voterVotes x => ∃ v a, N.voter v ∧ N.app a ∧ x = join v a
  | _ => True

/-- The hashes do not collide, and the ids can be strings of the contract. -/
structure Names.OK (H : Hash) (N : Names) : Prop where
  clear : Clear H Coll.id N.U
  voter : ∀ i, N.voter i → StrFits i
  app : ∀ a, N.app a → StrFits a

/-- A key that is not of the contract. -/
def Names.Foreign (H : Hash) (N : Names) (x : Bytes) : Prop :=
  x ≠ STATE ∧ ∀ c, N.U c → ∀ e : Elem, e.of c.kind → x ≠ pre H c ++ e.bytes

/-- The tables of a state. -/
structure Tab where
  voters : UMap String Voter
  /-- number of apps a voter votes for -/
  vl : String → Nat
  /-- positions of a voter -/
  lp : String → List LockingPosition
  mem : Mem
  mpdao : UMap String Nat
  stnear : UMap String Nat
  data : UMap String String
  dele : UMap String (List String)
  sigs : UMap String (String × String)
  pres : UMap String (String × String)

/-- Maps keep room for `f` more. -/
def Room (f n : Nat) : Prop := n + f < 2 ^ 32

theorem Room.mono {f f' n : Nat} (h : Room f n) (hf : f' ≤ f) : Room f' n := by unfold Room at *; omega

theorem Room.lt {f n : Nat} (h : Room f n) : n < 2 ^ 64 := by unfold Room at h; omega

section
variable (H : Hash) (N : Names)

/-- The stored record of a voter. -/
def recOf (id : String) (v : Voter) (n : Nat) : VoterRec :=
  ⟨v.balance, ⟨v.locking_positions.length, pre H (.lockingPosition id)⟩, v.available_voting_power,
    .at (pre H (.votePosition id)) n⟩

/-- How the handles in `vote_positions` are coded. -/
def handles (f : Nat) : Typ String Handle where
  W := MapH
  kc := string
  vc := mapH
  f h := .at (pre H (.voterVotes h.region)) h.len
  KO a := N.app a ∧ StrFits a
  VO h := N.U (.voterVotes h.region) ∧ Room f h.len
  kok a h := str_ok.2 h.2
  vok h hh := mapH_ok.2 (mapAt_fits (by simp [pre, prefixOf, Coll.id, H.length]) hh.2.lt)

/-- How votes are coded. -/
def amounts : Typ String Nat where
  W := Nat
  kc := string
  vc := u128
  f n := n
  KO := StrFits
  VO n := n < 2 ^ 128
  kok _ h := str_ok.2 h
  vok _ h := u128_ok.2 h

/-- One collection of the storage is its table. -/
def TabOK (f : Nat) (t : Tab) (D : Disk) : Coll → Prop
  | .lockingPosition id => IsVec lockingPosition D (pre H (.lockingPosition id)) (t.lp id) ∧ Room f (t.lp id).length
  | .votePosition id => TLike (handles H N f) D (pre H (.votePosition id)) (t.mem.vp id)
  | .voters => IsMap string voterRec D (pre H .voters) (.at (pre H .voters) t.voters.len)
      (t.voters.mapE fun id v => recOf H id v (t.vl id)) ∧ Room f t.voters.len ∧
      ∀ id v, t.voters.get id = some v → N.voter id ∧ Room f (t.vl id)
  | .votes => IsMap string mapH D (pre H .votes) (.at (pre H .votes) t.mem.vt.len)
      (t.mem.vt.mapE fun a n => .at (pre H (.contractVotes a)) n) ∧ Room f t.mem.vt.len ∧
      ∀ a n, t.mem.vt.get a = some n → N.app a ∧ Room f n
  | .contractVotes a => TLike amounts D (pre H (.contractVotes a)) (t.mem.cv a)
  | .voterVotes x => TLike amounts D (pre H (.voterVotes x)) (t.mem.vv x)
  | .claimable => IsMap string u128 D (pre H .claimable) (.at (pre H .claimable) t.mpdao.len) t.mpdao ∧ Room f t.mpdao.len
  | .claimableStNear => IsMap string u128 D (pre H .claimableStNear) (.at (pre H .claimableStNear) t.stnear.len) t.stnear ∧
      Room f t.stnear.len
  | .airdropData => IsMap string string D (pre H .airdropData) (.at (pre H .airdropData) t.data.len) t.data ∧ Room f t.data.len
  | .evmDelegates => IsMap string addresses D (pre H .evmDelegates) (.at (pre H .evmDelegates) t.dele.len) t.dele ∧
      Room f t.dele.len ∧ ∀ k l, t.dele.get k = some l → Room f l.length
  | .evmDelegationSignatures => IsLook string delegation D (pre H .evmDelegationSignatures) t.sigs
  | .evmPreDelegation => IsLook string delegation D (pre H .evmPreDelegation) t.pres

/-- The storage is the tables, and the rest. -/
structure At (f : Nat) (t : Tab) (D : Disk) : Prop where
  coll : ∀ c, N.U c → TabOK H N f t D c
  rest : ∀ x, N.Foreign H x → D x = N.rest x

instance (f : Nat) (t : Tab) (D : Disk) : CoeFun (At H N f t D) fun _ => ∀ c, N.U c → TabOK H N f t D c := ⟨At.coll⟩

end

variable {H : Hash} {N : Names} {f f' : Nat} {t t' : Tab} {D D' : Disk}

theorem TabOK.frame {c : Coll} (h : TabOK H N f t D c)
    (hf : ∀ e : Elem, e.of c.kind → D' (pre H c ++ e.bytes) = D (pre H c ++ e.bytes)) : TabOK H N f t D' c := by
  cases c with
  | lockingPosition id => exact ⟨IsVec.frame h.1 hf, h.2⟩
  | votePosition id => exact TLike.frame h hf
  | voters => exact ⟨IsMap.frame h.1 hf, h.2⟩
  | votes => exact ⟨IsMap.frame h.1 hf, h.2⟩
  | contractVotes a => exact TLike.frame (T := amounts) h hf
  | voterVotes x => exact TLike.frame (T := amounts) h hf
  | claimable => exact ⟨IsMap.frame h.1 hf, h.2⟩
  | claimableStNear => exact ⟨IsMap.frame h.1 hf, h.2⟩
  | airdropData => exact ⟨IsMap.frame h.1 hf, h.2⟩
  | evmDelegates => exact ⟨IsMap.frame h.1 hf, h.2⟩
  | evmDelegationSignatures => exact IsLook.frame h hf
  | evmPreDelegation => exact IsLook.frame h hf

theorem handles_mono {p : Bytes} {C : Cells String Handle} (h : TLike (handles H N f) D p C) (hf : f' ≤ f) :
    TLike (handles H N f') D p C :=
  ⟨h.index, h.small, h.keys, h.vals, h.kok, fun i v hv => ⟨(h.vok i v hv).1, (h.vok i v hv).2.mono hf⟩⟩

theorem TabOK.mono {c : Coll} (h : TabOK H N f t D c) (hf : f' ≤ f) : TabOK H N f' t D c := by
  cases c with
  | lockingPosition id => exact ⟨h.1, h.2.mono hf⟩
  | votePosition id => exact handles_mono h hf
  | voters => exact ⟨h.1, h.2.1.mono hf, fun id v hv => ⟨(h.2.2 id v hv).1, (h.2.2 id v hv).2.mono hf⟩⟩
  | votes => exact ⟨h.1, h.2.1.mono hf, fun id v hv => ⟨(h.2.2 id v hv).1, (h.2.2 id v hv).2.mono hf⟩⟩
  | contractVotes a => exact h
  | voterVotes x => exact h
  | claimable => exact ⟨h.1, h.2.mono hf⟩
  | claimableStNear => exact ⟨h.1, h.2.mono hf⟩
  | airdropData => exact ⟨h.1, h.2.mono hf⟩
  | evmDelegates => exact ⟨h.1, h.2.1.mono hf, fun k l hl => (h.2.2 k l hl).mono hf⟩
  | evmDelegationSignatures => exact h
  | evmPreDelegation => exact h

theorem At.mono (h : At H N f t D) (hf : f' ≤ f) : At H N f' t D := ⟨fun c hc => (h c hc).mono hf, h.rest⟩

/-- One collection changes. -/
theorem At.change (hN : N.OK H) (h : At H N f t D) {c : Coll} (hc : N.U c) (fr : Frame c.kind (pre H c) D D') (hf : f' ≤ f)
    (h0 : TabOK H N f' t' D' c) (same : ∀ d, d ≠ c → TabOK H N f' t D' d → TabOK H N f' t' D' d) : At H N f' t' D' := by
  refine ⟨fun d hd => ?_, fun x hx => (fr x (hx.2 c hc)).trans (h.rest x hx)⟩
  by_cases e : d = c
  · subst e; exact h0
  · refine same d e (((h d hd).mono hf).frame fun el hel => fr _ fun el' hel' he => e ?_)
    exact (C87_meta hN.clear).1 d c hd hc el el' hel hel' he

/-- The contract state is no element of a collection. -/
theorem At.state (h : At H N f t D) (b : Option Bytes) : At H N f t (upd D STATE b) := by
  refine ⟨fun c hc => ?_, fun x hx => (upd_ne _ _ hx.1).trans (h.rest x hx)⟩
  refine (h c hc).frame fun e he => upd_ne _ _ fun e' => ?_
  exact (C43_keys (H := H) (c := c) (d := c) (fun _ => rfl) he he).2 e'

end Verif.MetaVote.Bytes
