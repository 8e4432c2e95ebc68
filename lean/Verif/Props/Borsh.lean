import Verif.Spec.Borsh
import Verif.MetaVote.Ranges
import Verif.MetaVote.Trace

/-!
# C88: what is written to storage is what is read
-/

namespace Verif.Borsh

open Verif Storage

theorem str_ok {s : String} : string.ok s ↔ StrFits s := by
  rw [StrFits, show 2 ^ 32 = 256 ^ 4 from rfl]; exact Iff.rfl

theorem bytes_ok {b : Bytes} : bytes.ok b ↔ b.length < 2 ^ 32 := by
  show (_ < 256 ^ 4 ∧ ∀ a ∈ b, True) ↔ _
  simp

theorem u8_ok {n : Nat} : u8.ok n ↔ n < 2 ^ 8 := by rw [show 2 ^ 8 = 256 ^ 1 from rfl]; exact Iff.rfl
theorem u16_ok {n : Nat} : u16.ok n ↔ n < 2 ^ 16 := by rw [show 2 ^ 16 = 256 ^ 2 from rfl]; exact Iff.rfl
theorem u32_ok {n : Nat} : u32.ok n ↔ n < 2 ^ 32 := by rw [show 2 ^ 32 = 256 ^ 4 from rfl]; exact Iff.rfl
theorem u64_ok {n : Nat} : u64.ok n ↔ n < 2 ^ 64 := by rw [show 2 ^ 64 = 256 ^ 8 from rfl]; exact Iff.rfl
theorem u128_ok {n : Nat} : u128.ok n ↔ n < 2 ^ 128 := by rw [show 2 ^ 128 = 256 ^ 16 from rfl]; exact Iff.rfl

theorem option_ok {α : Type} {c : Codec α} {x : Option α} : (option c).ok x ↔ ∀ a, x = some a → c.ok a := by
  cases x <;> simp [option]

theorem vecH_ok {h : VecH} : vecH.ok h ↔ h.Fits := and_congr u64_ok bytes_ok

theorem mapH_ok {h : MapH} : mapH.ok h ↔ h.Fits := and_congr bytes_ok (and_congr vecH_ok vecH_ok)

theorem lookupH_ok {h : LookupH} : lookupH.ok h ↔ h.Fits := bytes_ok

/-- **C88**: a stored position reads as the position that was written, and as nothing else. -/
theorem C88_position {p : MetaVote.LockingPosition} {b : Bytes} :
    lockingPosition.read b = some p ↔ PositionFits p ∧ b = lockingPosition.enc p := by
  rw [Codec.read_iff]
  refine and_congr_left fun _ => ?_
  exact and_congr u128_ok (and_congr u16_ok (and_congr u128_ok (option_ok.trans (by simp only [u64_ok]))))

/-- 5 mpDAO for 60 days at power 5, unlocking since the millisecond 258. -/
example : lockingPosition.enc ⟨5000000, 60, 5 * 10 ^ 24, some 258⟩ =
    [64, 75, 76, 0, 0, 0, 0, 0, 0, 0, 0, 0, 0, 0, 0, 0, 60, 0,
      0, 0, 0, 37, 164, 0, 10, 139, 202, 34, 4, 0, 0, 0, 0, 0, 1, 2, 1, 0, 0, 0, 0, 0, 0] := by decide +kernel

example : lockingPosition.read (lockingPosition.enc ⟨5000000, 60, 5 * 10 ^ 24, some 258⟩) =
    some ⟨5000000, 60, 5 * 10 ^ 24, some 258⟩ :=
  C88_position.2 ⟨⟨by decide, by decide, by decide, by rintro t ⟨⟩; decide⟩, rfl⟩

/-- A byte left over, a missing byte or a wrong variant byte is refused. -/
example : lockingPosition.read (lockingPosition.enc ⟨1, 2, 3, none⟩ ++ [0]) = none ∧
    lockingPosition.read ((lockingPosition.enc ⟨1, 2, 3, none⟩).dropLast) = none ∧
    lockingPosition.read ((lockingPosition.enc ⟨1, 2, 3, none⟩).dropLast ++ [2]) = none := by decide +kernel

/-- **C88**: the same for the record of a voter. -/
theorem C88_voter {v : VoterRec} {b : Bytes} : voterRec.read b = some v ↔ v.Fits ∧ b = voterRec.enc v := by
  rw [Codec.read_iff]
  exact and_congr_left fun _ => and_congr u128_ok (and_congr vecH_ok (and_congr u128_ok mapH_ok))

/-- A voter with balance 7, one position stored under `P`, power 9 and two apps under `V`. -/
def sampleVoter : VoterRec := ⟨7, ⟨1, [80]⟩, 9, .at [86] 2⟩

example : voterRec.enc sampleVoter =
    [7, 0, 0, 0, 0, 0, 0, 0, 0, 0, 0, 0, 0, 0, 0, 0, 1, 0, 0, 0, 0, 0, 0, 0, 1, 0, 0, 0, 80,
      9, 0, 0, 0, 0, 0, 0, 0, 0, 0, 0, 0, 0, 0, 0, 0, 2, 0, 0, 0, 86, 105,
      2, 0, 0, 0, 0, 0, 0, 0, 2, 0, 0, 0, 86, 107, 2, 0, 0, 0, 0, 0, 0, 0, 2, 0, 0, 0, 86, 118] := by decide +kernel

example : voterRec.read (voterRec.enc sampleVoter) = some sampleVoter :=
  C88_voter.2 ⟨⟨by decide, ⟨by decide, by decide⟩, by decide, by decide, ⟨by decide, by decide⟩, by decide, by decide⟩, rfl⟩

theorem oldRec_ok {s : OldRec} : oldRec.ok s ↔ s.Fits := by
  refine and_congr str_ok <| and_congr str_ok <| and_congr mapH_ok <| and_congr mapH_ok <| and_congr u16_ok <|
    and_congr u16_ok <| and_congr u128_ok <| and_congr u8_ok <| and_congr u8_ok <| and_congr str_ok <| and_congr u128_ok <|
    and_congr mapH_ok <| and_congr u128_ok <| and_congr u128_ok <| and_congr str_ok <| and_congr mapH_ok <|
    and_congr u128_ok <| and_congr u128_ok <| and_congr u128_ok <| and_congr mapH_ok <| and_congr str_ok <|
    and_congr mapH_ok <| and_congr lookupH_ok lookupH_ok

theorem stateRec_ok {s : StateRec} : stateRec.ok s ↔ s.Fits := by
  have h : stateRec.ok s ↔ oldRec.ok s.old ∧ u64.ok s.lock_votes_in_end_timestamp_ms ∧
      (option string).ok s.lock_votes_in_address ∧ u16.ok s.lock_votes_in_numeric_id := by
    simp only [stateRec, oldRec, iso, pair, StateRec.old, and_assoc]
  rw [h, oldRec_ok, u64_ok, option_ok, u16_ok]
  simp only [str_ok]
  rfl

/-- **C88**: the same for the state of meta-vote. -/
theorem C88_state {s : StateRec} {b : Bytes} : stateRec.read b = some s ↔ s.Fits ∧ b = stateRec.enc s := by
  rw [Codec.read_iff, stateRec_ok]

/-- **C88**: the same for its state before the migration. -/
theorem C88_old {s : OldRec} {b : Bytes} : oldRec.read b = some s ↔ s.Fits ∧ b = oldRec.enc s := by
  rw [Codec.read_iff, oldRec_ok]

/-- The part of the stored state that the old layout does not have. -/
def tail (s : StateRec) : Bytes :=
  u64.enc s.lock_votes_in_end_timestamp_ms ++ ((option string).enc s.lock_votes_in_address ++ u16.enc s.lock_votes_in_numeric_id)

theorem enc_old (s : StateRec) : stateRec.enc s = oldRec.enc s.old ++ tail s := by
  simp only [stateRec, oldRec, iso, pair, StateRec.old, tail, List.append_assoc]

theorem tail_ne (s : StateRec) : tail s ≠ [] := by
  intro h
  have := congrArg List.length h
  simp [tail, uint, le_length] at this

/-- **C88**: the migration of a stored old state writes a state with the same values in every field and the lock-in filter
off. -/
theorem C88_migrate {o : OldRec} (h : o.Fits) :
    ∃ b s, migrateRec (oldRec.enc o) = .ok b ∧ stateRec.read b = some s ∧ s.old = o ∧ s.lock_votes_in_end_timestamp_ms = 0 ∧
      s.lock_votes_in_address = none ∧ s.lock_votes_in_numeric_id = 0 := by
  have hr := C88_old.2 ⟨h, rfl⟩
  refine ⟨_, _, by unfold migrateRec; rw [hr]; rfl, C88_state.2 ⟨?_, rfl⟩, rfl, rfl, rfl, rfl⟩
  exact ⟨h, Nat.two_pow_pos 64, (fun _ h => by cases h), Nat.two_pow_pos 16⟩

/-- **C88**: a state of the current layout cannot be migrated again, and the old layout cannot be used without migration. -/
theorem C88_once {s : StateRec} (h : s.Fits) {o : OldRec} (ho : o.Fits) :
    migrateRec (stateRec.enc s) = .error (.assert "failed") ∧ stateRec.read (oldRec.enc o) = none := by
  have hd : ∀ r, oldRec.dec (oldRec.enc o ++ r) = some (o, r) := oldRec.dec_enc (oldRec_ok.2 ho)
  constructor
  · have hr : oldRec.read (stateRec.enc s) = none := by
      unfold Codec.read
      rw [enc_old, oldRec.dec_enc (oldRec_ok.2 h.1)]
      cases ht : tail s with
      | nil => exact absurd ht (tail_ne s)
      | cons _ _ => rfl
    unfold migrateRec
    rw [hr]
    rfl
  · cases hr : stateRec.read (oldRec.enc o) with
    | none => rfl
    | some t =>
      obtain ⟨ht, he⟩ := C88_state.1 hr
      have h1 := hd []
      rw [List.append_nil, he, enc_old, oldRec.dec_enc (oldRec_ok.2 ht.1)] at h1
      exact absurd (congrArg Prod.snd (Option.some.inj h1)) (tail_ne t)

/-- An old state with different values in the fields of the same type. -/
def sampleOld : OldRec :=
  ⟨"o", "p", .at [1] 11, .at [2] 12, 0x0102, 0x0304, 0x05, 6, 7, "m", 0x08, .at [3] 13, 0x09, 0x0a, "s", .at [4] 14, 0x0b, 0x0c,
    0x0d, .at [5] 15, "g", .at [6] 16, ⟨[7]⟩, ⟨[8]⟩⟩

theorem mapAt_fits {p : Bytes} {n : Nat} (hp : p.length < 2 ^ 31) (hn : n < 2 ^ 64) : (MapH.at p n).Fits := by
  have : ∀ x, (p ++ [x]).length < 2 ^ 32 := fun x => by rw [List.length_append, List.length_singleton]; omega
  exact ⟨this _, ⟨hn, this _⟩, ⟨hn, this _⟩⟩

theorem sampleOld_fits : sampleOld.Fits := by
  have m : ∀ x : UInt8, ∀ n : Nat, n < 2 ^ 64 → (MapH.at [x] n).Fits := fun x n => mapAt_fits (by simp)
  refine ⟨?_, ?_, m _ _ (by decide), m _ _ (by decide), ?_, ?_, ?_, ?_, ?_, ?_, ?_, m _ _ (by decide), ?_, ?_, ?_,
    m _ _ (by decide), ?_, ?_, ?_, m _ _ (by decide), ?_, m _ _ (by decide), ?_, ?_⟩ <;>
    first | decide | (unfold StrFits; decide +kernel) | (unfold LookupH.Fits; decide)

/-- The migrated bytes: the old ones, then an end of 0, no app and the number 0. -/
example : (migrateRec (oldRec.enc sampleOld)).getOr [] =
    oldRec.enc sampleOld ++ [0, 0, 0, 0, 0, 0, 0, 0, 0, 0, 0] := by decide +kernel

example : ∃ b s, migrateRec (oldRec.enc sampleOld) = .ok b ∧ stateRec.read b = some s ∧ s.old = sampleOld ∧
    migrateRec b = .error (.assert "failed") := by
  obtain ⟨b, s, h1, h2, h3, -⟩ := C88_migrate sampleOld_fits
  obtain ⟨h4, rfl⟩ := C88_state.1 h2
  exact ⟨_, s, h1, h2, h3, (C88_once h4 sampleOld_fits).1⟩

/-- The settings in the middle of the record. -/
example : ((oldRec.enc sampleOld).drop (5 + 5 + 34 + 34)).take 43 =
    [2, 1, 4, 3, 5, 0, 0, 0, 0, 0, 0, 0, 0, 0, 0, 0, 0, 0, 0, 0, 6, 7, 1, 0, 0, 0, 109, 8, 0, 0, 0, 0, 0, 0, 0, 0, 0, 0, 0, 0, 0, 0, 0] :=
  by decide +kernel

/-- **C88**: the same for a vote of mpip. -/
theorem C88_vote {v : Mpip.Vote} {b : Bytes} : vote.read b = some v ↔ VoteFits v ∧ b = vote.enc v := by
  rw [Codec.read_iff]
  refine and_congr_left fun _ => and_congr u32_ok ?_
  exact (and_iff_right trivial).trans (and_congr u128_ok str_ok)

example : vote.enc ⟨3, .abstain, 258, "é"⟩ =
    [3, 0, 0, 0, 2, 2, 1, 0, 0, 0, 0, 0, 0, 0, 0, 0, 0, 0, 0, 0, 0, 2, 0, 0, 0, 0xc3, 0xa9] := by decide +kernel

example : vote.read (vote.enc ⟨3, .for_, 258, "é"⟩) = some ⟨3, .for_, 258, "é"⟩ :=
  C88_vote.2 ⟨⟨by decide, by decide, by unfold StrFits; decide +kernel⟩, rfl⟩

/-- **C88**: the same for a proposal. -/
theorem C88_proposal {p : Mpip.Proposal} {b : Bytes} : proposal.read b = some p ↔ ProposalFits p ∧ b = proposal.enc p := by
  rw [Codec.read_iff]
  refine and_congr_left fun _ => ?_
  refine and_congr u32_ok <| and_congr str_ok <| and_congr str_ok <| and_congr str_ok <| and_congr str_ok <|
    and_congr str_ok <| and_congr str_ok <| and_congr (option_ok.trans (by simp only [u64_ok])) <|
    and_congr (option_ok.trans (by simp only [u64_ok])) ?_
  refine (and_iff_right trivial).trans <| (and_iff_right trivial).trans <| (and_iff_right trivial).trans ?_
  exact option_ok.trans (by simp only [u128_ok])

/-- A proposal whose voting has been scheduled. -/
def sampleProposal : Mpip.Proposal :=
  ⟨1, ⟨"t", "s", "b", "d", "e"⟩, "c", some 2, some 3, true, false, true, some 4⟩

example : proposal.enc sampleProposal =
    [1, 0, 0, 0, 1, 0, 0, 0, 116, 1, 0, 0, 0, 115, 1, 0, 0, 0, 98, 1, 0, 0, 0, 100, 1, 0, 0, 0, 101, 1, 0, 0, 0, 99,
      1, 2, 0, 0, 0, 0, 0, 0, 0, 1, 3, 0, 0, 0, 0, 0, 0, 0, 1, 0, 1,
      1, 4, 0, 0, 0, 0, 0, 0, 0, 0, 0, 0, 0, 0, 0, 0, 0] := by decide +kernel

example : proposal.read (proposal.enc sampleProposal) = some sampleProposal := by
  refine C88_proposal.2 ⟨⟨by decide, ?_, ?_, ?_, ?_, ?_, ?_, ?_, ?_, ?_⟩, rfl⟩ <;>
    first | (unfold StrFits; decide +kernel) | (rintro t ⟨⟩; decide)

/-- **C88**: the same for the tally of a proposal and the record of a voter of mpip. -/
theorem C88_tally {t : TallyRec} {v : MpipVoterRec} {b : Bytes} :
    (tallyRec.read b = some t ↔ t.Fits ∧ b = tallyRec.enc t) ∧
    (mpipVoterRec.read b = some v ↔ v.Fits ∧ b = mpipVoterRec.enc v) := by
  rw [Codec.read_iff, Codec.read_iff]
  exact ⟨and_congr_left fun _ => and_congr u128_ok (and_congr u128_ok (and_congr u128_ok mapH_ok)),
    and_congr_left fun _ => mapH_ok⟩

example : ∃ t : TallyRec, t.for_votes = 5 ∧ t.against_votes = 6 ∧ t.abstain_votes = 7 ∧ tallyRec.read (tallyRec.enc t) = some t :=
  ⟨⟨5, 6, 7, .at [4] 2⟩, rfl, rfl, rfl,
    (C88_tally (v := ⟨.at [] 0⟩)).1.2 ⟨⟨by decide, by decide, by decide, mapAt_fits (by decide) (by decide)⟩, rfl⟩⟩

example : (tallyRec.enc ⟨5, 6, 7, .at [4] 2⟩).take 48 = le 16 5 ++ le 16 6 ++ le 16 7 := by decide +kernel

/-- **C88**: the same for the state of mpip. -/
theorem C88_mpip {s : MpipRec} {b : Bytes} : mpipRec.read b = some s ↔ s.Fits ∧ b = mpipRec.enc s := by
  rw [Codec.read_iff]
  refine and_congr_left fun _ => ?_
  refine and_congr str_ok <| and_congr str_ok <| and_congr str_ok <| and_congr str_ok <| and_congr mapH_ok <|
    and_congr mapH_ok <| and_congr mapH_ok <| and_congr mapH_ok <| and_congr u64_ok <| and_congr u128_ok <|
    and_congr u128_ok <| and_congr u128_ok <| and_congr u128_ok <| and_congr u128_ok ?_
  exact (and_iff_right trivial).trans u16_ok

/-- A state of mpip with different values in the fields of the same type. -/
def sampleMpip : MpipRec :=
  ⟨"a", "o", "t", "v", .at [1] 1, .at [2] 2, .at [3] 3, .at [4] 4, 5, 6, 7, 8, 9, 10, true, 11⟩

example : mpipRec.read (mpipRec.enc sampleMpip) = some sampleMpip := by
  have m : ∀ x : UInt8, ∀ n : Nat, n < 2 ^ 64 → (MapH.at [x] n).Fits := fun x n => mapAt_fits (by simp)
  refine C88_mpip.2 ⟨⟨?_, ?_, ?_, ?_, m _ _ (by decide), m _ _ (by decide), m _ _ (by decide), m _ _ (by decide), ?_, ?_, ?_, ?_,
    ?_, ?_, ?_⟩, rfl⟩ <;> first | decide | (unfold StrFits; decide +kernel)

example : mpipRec.enc sampleMpip =
    [1, 0, 0, 0, 97, 1, 0, 0, 0, 111, 1, 0, 0, 0, 116, 1, 0, 0, 0, 118] ++
    (mapH.enc (.at [1] 1) ++ mapH.enc (.at [2] 2) ++ mapH.enc (.at [3] 3) ++ mapH.enc (.at [4] 4)) ++
    [5, 0, 0, 0, 0, 0, 0, 0] ++ (le 16 6 ++ le 16 7 ++ le 16 8 ++ le 16 9 ++ le 16 10) ++ [1, 11, 0] := by decide +kernel

/-- **C88**: the same for the state of the key-value store. -/
theorem C88_kv {s : KvRec} {b : Bytes} : kvRec.read b = some s ↔ s.Fits ∧ b = kvRec.enc s := by
  rw [Codec.read_iff]
  exact and_congr_left fun _ => and_congr str_ok (and_congr str_ok mapH_ok)

example : kvRec.read (kvRec.enc ⟨"o", "p", .at [100] 1⟩) = some ⟨"o", "p", .at [100] 1⟩ :=
  C88_kv.2 ⟨⟨by unfold StrFits; decide +kernel, by unfold StrFits; decide +kernel, mapAt_fits (by decide) (by decide)⟩, rfl⟩

example : (kvRec.enc ⟨"o", "p", .at [100] 1⟩).take 10 = [1, 0, 0, 0, 111, 1, 0, 0, 0, 112] := by decide +kernel

/-- **C88**: the same for the state of the token. -/
theorem C88_token {s : TokenRec} {b : Bytes} : tokenRec.read b = some s ↔ s.Fits ∧ b = tokenRec.enc s := by
  rw [Codec.read_iff]
  refine and_congr_left fun _ => ?_
  refine and_congr lookupH_ok <| and_congr u128_ok <| and_congr u64_ok <| and_congr bytes_ok <| and_congr str_ok ?_
  refine and_congr (by rw [show 2 ^ 32 = 256 ^ 4 from rfl]) ?_
  simp only [str_ok]

example : tokenRec.read (tokenRec.enc ⟨⟨[0]⟩, 5, 6, [1], "o", ["m", "n"]⟩) = some ⟨⟨[0]⟩, 5, 6, [1], "o", ["m", "n"]⟩ := by
  refine C88_token.2 ⟨⟨by unfold LookupH.Fits; decide, by decide, by decide, by decide, by unfold StrFits; decide +kernel, by decide,
    ?_⟩, rfl⟩
  intro m hm
  rcases List.mem_pair.1 hm with rfl | rfl <;> (unfold StrFits; decide +kernel)

example : tokenRec.enc ⟨⟨[0]⟩, 5, 6, [1], "o", ["m", "n"]⟩ =
    [1, 0, 0, 0, 0] ++ le 16 5 ++ le 8 6 ++ [1, 0, 0, 0, 1, 1, 0, 0, 0, 111, 2, 0, 0, 0, 1, 0, 0, 0, 109, 1, 0, 0, 0, 110] := by
  decide +kernel

/-- **C88**: the same for values that are strings, lists of strings or ids, pairs of strings and amounts, and for keys. -/
theorem C88_values {s : String} {l : List String} {n : List Nat} {p : String × String} {a k : Nat} {b : Bytes} :
    (string.read b = some s ↔ StrFits s ∧ b = borshString s) ∧
    ((list string).read b = some l ↔ (l.length < 2 ^ 32 ∧ ∀ s ∈ l, StrFits s) ∧ b = le 4 l.length ++ l.flatMap borshString) ∧
    ((list u32).read b = some n ↔ (n.length < 2 ^ 32 ∧ ∀ k ∈ n, k < 2 ^ 32) ∧ b = le 4 n.length ++ n.flatMap (le 4)) ∧
    ((pair string string).read b = some p ↔ (StrFits p.1 ∧ StrFits p.2) ∧ b = borshString p.1 ++ borshString p.2) ∧
    (u128.read b = some a ↔ a < 2 ^ 128 ∧ b = le 16 a) ∧ (u32.read b = some k ↔ k < 2 ^ 32 ∧ b = le 4 k) := by
  refine ⟨?_, ?_, ?_, ?_, ?_, ?_⟩
  · rw [Codec.read_iff, str_ok]; rfl
  · rw [Codec.read_iff]
    refine and_congr (and_congr (by rw [show 2 ^ 32 = 256 ^ 4 from rfl]) ?_) Iff.rfl
    simp only [str_ok]
  · rw [Codec.read_iff]
    refine and_congr (and_congr (by rw [show 2 ^ 32 = 256 ^ 4 from rfl]) ?_) Iff.rfl
    simp only [u32_ok]
  · rw [Codec.read_iff]; exact and_congr (and_congr str_ok str_ok) Iff.rfl
  · rw [Codec.read_iff, u128_ok]; rfl
  · rw [Codec.read_iff, u32_ok]; rfl

example : (list string).enc ["ab", "c"] = [2, 0, 0, 0, 2, 0, 0, 0, 97, 98, 1, 0, 0, 0, 99] := by decide +kernel

example : (list string).read [2, 0, 0, 0, 2, 0, 0, 0, 97, 98, 1, 0, 0, 0, 99] = some ["ab", "c"] := by
  refine (C88_values (n := []) (p := ("", "")) (s := "") (a := 0) (k := 0)).2.1.2 ⟨⟨by decide, ?_⟩, by decide +kernel⟩
  intro m hm
  rcases List.mem_pair.1 hm with rfl | rfl <;> (unfold StrFits; decide +kernel)

/-- **C88**: every number of a reachable state of meta-vote is a number of its type, so it is stored and read as it is. -/
theorem C88_numbers {J : MetaVote.Json} {me : MetaVote.AccountId} {w : MetaVote.World} (h : MetaVote.Reach J me w) :
    Numbers w.st := by
  have e8 : ∀ {n}, n ≤ U8_MAX → n < 2 ^ 8 := fun h => Nat.lt_succ_of_le h
  have e16 : ∀ {n}, n ≤ U16_MAX → n < 2 ^ 16 := fun h => Nat.lt_succ_of_le h
  have e64 : ∀ {n}, n ≤ U64_MAX → n < 2 ^ 64 := fun h => Nat.lt_succ_of_le h
  have e128 : ∀ {n}, n ≤ U128_MAX → n < 2 ^ 128 := fun h => Nat.lt_succ_of_le h
  have hs := MetaVote.reach_sound h
  obtain ⟨h1, h2, h3, h4, h5, h6, h7, h8⟩ := MetaVote.reach_configOK h
  have hg := MetaVote.reach_given h
  refine ⟨e16 h1, e16 h2, e128 h3, e8 h4, e8 h5, e128 hs.total, e128 hg.1, e128 hs.fits.1, e128 hg.2, e128 hs.fits.2,
    e128 h6, e64 h7, e16 h8, ?_, ?_, ?_, ?_, ?_, ?_, ?_⟩
  · intro id v hv
    rw [← MetaVote.voterD_of_get hv]
    exact e128 (hs.balance id)
  · intro id v hv
    rw [← MetaVote.voterD_of_get hv]
    exact e128 ((hs.available id).trans hs.total)
  · intro id v hv p hp
    rw [← MetaVote.voterD_of_get hv] at hp
    obtain ⟨p1, p2, p3⟩ := MetaVote.reach_posOK h id p hp
    refine ⟨e128 p1, e16 p2, e128 p3, fun t ht => e64 ?_⟩
    exact ((MetaVote.reach_fundOK h id).2 p hp t ht).trans ((Nat.div_le_self _ _).trans (MetaVote.reach_clock h))
  · intro id v a m o n hv ha ho
    have := hs.votes_le id a o
    rw [MetaVote.voterD_of_get hv] at this
    have hn : v.votesOf a o = n := by simp [MetaVote.Voter.votesOf, MetaVote.vget, ha, ho]
    have ht := hs.total
    exact e128 (by omega)
  · intro a m o n ha ho
    have := hs.total_votes a o ""
    have hn : w.st.totalVotes a o = n := by simp [MetaVote.State.totalVotes, MetaVote.vget, ha, ho]
    have ht := hs.total
    exact e128 (by omega)
  · intro id n hn
    have := UMap.le_sum_of_get (f := fun _ n => n) hn
    rw [← hs.cinv.mpdao] at this
    exact e128 (this.trans hs.fits.1)
  · intro id n hn
    have := UMap.le_sum_of_get (f := fun _ n => n) hn
    rw [← hs.cinv.stnear] at this
    exact e128 (this.trans hs.fits.2)

/-- The numbers of the demo world. -/
example : Numbers MetaVote.demo.st ∧ 0 < MetaVote.demo.st.total_voting_power :=
  ⟨C88_numbers MetaVote.demo_reach, by decide +kernel⟩

end Verif.Borsh
