import Verif.MetaVote.Strand
import Verif.MetaVote.Clear
import Verif.MetaVote.Page
import Verif.MetaVote.Trace
import Mathlib.Data.List.Infix

/-!
# Funds: C06, C07, C08, C09, C23, C24, C25, C26, C38, C39, C40, C41, C68
-/

namespace Verif.MetaVote

open Verif

/-- A longer run: `demo`, then a withdrawal that fails and one that is in flight, and a claim of stNEAR. -/
def fundsActs : List Action :=
  [ .call "alice" 1 (11 * DAY) (.withdraw [1] 4000000),
    .resolve 0 false (11 * DAY + 1),
    .call "alice" 1 (11 * DAY + 2) (.withdraw [] 6000000),
    .call "bob" 0 (11 * DAY + 3) (.claim_stnear 300000000000000000000),
    .call "alice" 0 (11 * DAY + 4) (.claim_and_lock 2000000 30),
    .resolve 1 true (11 * DAY + 5) ]

def funds : World := (runs demoJ "me" demo fundsActs).get (by decide +kernel)

theorem funds_reach : Reach demoJ "me" funds :=
  demo_reach.steps (steps_of_runs (Option.some_get _).symm)

/-! ## C06 -/

/-- **C06**: in every reachable world, what the contract holds for its voters, plus the unclaimed mpDAO,
plus transfers in flight, plus what was paid, plus what was stranded by a failed callback, is exactly what
was received plus what was migrated. -/
theorem C06_conservation {J : Json} {me : AccountId} {w : World} (h : LReach J me w) :
    heldSum w.st + w.st.get_total_unclaimed_mpdao + amounts (·.isMpdao) w.pending
      + logPaid (·.isMpdao) w.log + logStranded (·.isMpdao) w.log
    = logCalls (receivedBy J w.st.mpdao_token_contract_address) w.log + logCalls (fun _ => migratedBy) w.log :=
  (lreach_ledger h).mpAll

/-- **C06**: nothing is stranded while the net receipts fit a `u128` (the type of the token's supply). -/
theorem C06_nothing_stranded {J : Json} {me : AccountId} {w : World} (h : LReach J me w)
    (hb : netFits J w.st.mpdao_token_contract_address w.log) :
    logStranded (·.isMpdao) w.log = 0 := lreach_stranded_mp h hb

/-- **C06**: liabilities are covered: they never exceed receipts and migrations minus payments. -/
theorem C06_solvent {J : Json} {me : AccountId} {w : World} (h : LReach J me w) :
    heldSum w.st + w.st.get_total_unclaimed_mpdao
      ≤ logCalls (receivedBy J w.st.mpdao_token_contract_address) w.log
        + logCalls (fun _ => migratedBy) w.log - logPaid (·.isMpdao) w.log
        - amounts (·.isMpdao) w.pending := by
  have := C06_conservation h; omega

/-- **C06**: all mpDAO transfers go to the account that was debited, are in mpDAO, and never debit a
mirrored account. -/
theorem C06_transfers {J : Json} {me : AccountId} {w : World} (h : LReach J me w) {t : Transfer}
    (ht : t ∈ w.pending) (hm : t.isMpdao = true) :
    t.token = w.st.mpdao_token_contract_address ∧ t.source = t.receiver ∧ ¬ mirrored t.receiver := by
  obtain ⟨h1, h2, h3⟩ := ((lreach_ledger h).pending t ht).mpdao hm
  exact ⟨h1, by unfold Transfer.source; rw [h2], h3⟩

example : heldSum funds.st = 96000000 ∧ funds.st.get_total_unclaimed_mpdao = 10000000 ∧
    amounts (·.isMpdao) funds.pending = 6000000 ∧ logPaid (·.isMpdao) funds.log = 0 ∧
    logStranded (·.isMpdao) funds.log = 0 ∧
    logCalls (receivedBy demoJ "mpdao") funds.log = 112000000 := by decide +kernel

/-! ## C68: the ledger of one account -/

/-- **C68**: what an account (not mirrored) is owed in mpDAO, plus what it has in flight, was paid, or lost
by a failed callback, is exactly what was credited to it. -/
theorem C68_account_mpdao {J : Json} {me : AccountId} {w : World} (h : LReach J me w) (id : String)
    (hid : ¬ mirrored id) :
    (w.st.voterD id).held + w.st.get_claimable_mpdao id + amounts (mpOf id) w.pending
      + logPaid (mpOf id) w.log + logStranded (mpOf id) w.log
    = logCalls (creditOf J w.st.mpdao_token_contract_address id) w.log := (lreach_ledger h).mp id hid

/-- **C68**: the same for stNEAR, for every account (mirrored ones included). -/
theorem C68_account_stnear {J : Json} {me : AccountId} {w : World} (h : LReach J me w) (id : String) :
    w.st.get_claimable_stnear id + amounts (stOf id) w.pending + logPaid (stOf id) w.log
      + logStranded (stOf id) w.log
    = logCalls (creditStOf J w.st.mpdao_token_contract_address id) w.log := (lreach_ledger h).st id

example : (funds.st.voterD "alice").held = 66000000 ∧ funds.st.get_claimable_mpdao "alice" = 3000000 ∧
    amounts (mpOf "alice") funds.pending = 6000000 ∧
    logCalls (creditOf demoJ "mpdao" "alice") funds.log = 75000000 ∧
    logPaid (stOf "bob") funds.log = 300000000000000000000 ∧
    funds.st.get_claimable_stnear "bob" = 400000000000000000000 ∧
    logCalls (creditStOf demoJ "mpdao" "bob") funds.log = 700000000000000000000 := by decide +kernel

/-! ## C07 -/

/-- **C07**: unclaimed stNEAR, plus claims in flight, paid or stranded, is exactly the stNEAR received. -/
theorem C07_conservation {J : Json} {me : AccountId} {w : World} (h : LReach J me w) :
    w.st.get_contract_info.total_unclaimed_stnear + amounts (fun t => !t.isMpdao) w.pending
      + logPaid (fun t => !t.isMpdao) w.log + logStranded (fun t => !t.isMpdao) w.log
    = logCalls (receivedStBy w.st.mpdao_token_contract_address) w.log := (lreach_ledger h).stAll

/-- **C07**: nothing is stranded while the net receipts fit a `u128`. -/
theorem C07_nothing_stranded {J : Json} {me : AccountId} {w : World} (h : LReach J me w)
    (hb : netFitsSt w.st.mpdao_token_contract_address w.log) :
    logStranded (fun t => !t.isMpdao) w.log = 0 := lreach_stranded_st h hb

/-- **C07**: in a history that never replaced the stNEAR token, every receipt came from that token and every
payment is made in it. -/
theorem C07_token {J : Json} {me : AccountId} {w : World} (h : LReach J me w) (hf : stnearFixed w.log) :
    (∀ t ∈ w.pending, t.isMpdao = false → t.token = w.st.stnear_token_contract_address) ∧
    (∀ t a b, Entry.resolved t a b ∈ w.log → t.isMpdao = false →
      t.token = w.st.stnear_token_contract_address) ∧
    (∀ c k o, Entry.call c k o ∈ w.log → receivedStBy w.st.mpdao_token_contract_address c k ≠ 0 →
      c.predecessor = w.st.stnear_token_contract_address) := lreach_stnear_token h hf

/-- The hypotheses hold in `funds`, where stNEAR was received and paid. -/
example : stnearFixed funds.log ∧ logCalls (receivedStBy "mpdao") funds.log = 1200000000000000000000 ∧
    logPaid (fun t => !t.isMpdao) funds.log = 300000000000000000000 ∧
    funds.st.get_contract_info.total_unclaimed_stnear = 900000000000000000000 := by
  refine ⟨?_, by decide +kernel, by decide +kernel, by decide +kernel⟩
  have hd : funds.log.all (fun e => match e with
      | .call _ (.set_stnear_contract _) _ => false | _ => true) = true := by decide +kernel
  intro c a o hm
  have := List.all_eq_true.1 hd _ hm
  simp at this

/-- The histories of the examples satisfy the `u128` hypotheses. -/
example : netFits demoJ "mpdao" funds.log ∧ netFitsSt "mpdao" funds.log := by
  have h1 : funds.log.tails.all (fun l => decide (logCalls (receivedBy demoJ "mpdao") l
      + logCalls (fun _ => migratedBy) l ≤ U128_MAX + logPaid (·.isMpdao) l)) = true := by decide +kernel
  have h2 : funds.log.tails.all (fun l => decide (logCalls (receivedStBy "mpdao") l
      ≤ U128_MAX + logPaid (fun t => !t.isMpdao) l)) = true := by decide +kernel
  exact ⟨fun l hl => of_decide_eq_true (List.all_eq_true.1 h1 l ((List.mem_tails l _).2 hl)),
    fun l hl => of_decide_eq_true (List.all_eq_true.1 h2 l ((List.mem_tails l _).2 hl))⟩

/-! ## C08 -/

theorem listed_all {V R : Type} (m : UMap String V) (f : String → V → R) {n : Nat} (hn : m.len ≤ n) :
    page m f 0 n = .ok (m.entries.map (fun e => f e.1 e.2)) := by
  rw [page_eq, List.drop_zero, List.take_of_length_le hn]

/-- **C08**: listing all the mpDAO claims gives positive amounts, those of `get_claimable_mpdao`, that add up
to `get_total_unclaimed_mpdao`; an account that is not listed has no claim. -/
theorem C08_mpdao {J : Json} {me : AccountId} {w : World} (h : LReach J me w) {n : Nat}
    (hn : w.st.claimable_mpdao.len ≤ n) :
    ∃ l, w.st.get_claims 0 n = .ok l ∧ (l.map Prod.snd).sum = w.st.get_total_unclaimed_mpdao ∧
      (∀ p ∈ l, 0 < p.2 ∧ w.st.get_claimable_mpdao p.1 = p.2) ∧ (l.map Prod.fst).Nodup ∧
      (∀ id, id ∉ l.map Prod.fst → w.st.get_claimable_mpdao id = 0) := by
  have hc := lreach_cinv h
  refine ⟨_, listed_all _ _ hn, ?_, ?_, ?_, ?_⟩
  · rw [show w.st.get_total_unclaimed_mpdao = w.st.total_unclaimed_mpdao from rfl, hc.mpdao]
    simp [UMap.sum]
  · intro p hp
    simp only [List.map_id'] at hp
    have := UMap.get_eq_some_iff.2 hp
    exact ⟨hc.mpdao_pos _ _ this, by simp [State.get_claimable_mpdao, this]⟩
  · simpa using w.st.claimable_mpdao.nodup
  · intro id hid
    simp only [List.map_id'] at hid
    have : w.st.claimable_mpdao.get id = none := UMap.get_eq_none_iff.2 hid
    simp [State.get_claimable_mpdao, this]

/-- **C08**: the same for stNEAR. -/
theorem C08_stnear {J : Json} {me : AccountId} {w : World} (h : LReach J me w) {n : Nat}
    (hn : w.st.claimable_stnear.len ≤ n) :
    ∃ l, w.st.get_stnear_claims 0 n = .ok l ∧
      (l.map Prod.snd).sum = w.st.get_contract_info.total_unclaimed_stnear ∧
      (∀ p ∈ l, 0 < p.2 ∧ w.st.get_claimable_stnear p.1 = p.2) ∧ (l.map Prod.fst).Nodup ∧
      (∀ id, id ∉ l.map Prod.fst → w.st.get_claimable_stnear id = 0) := by
  have hc := lreach_cinv h
  refine ⟨_, listed_all _ _ hn, ?_, ?_, ?_, ?_⟩
  · rw [show w.st.get_contract_info.total_unclaimed_stnear = w.st.total_unclaimed_stnear from rfl, hc.stnear]
    simp [UMap.sum]
  · intro p hp
    simp only [List.map_id'] at hp
    have := UMap.get_eq_some_iff.2 hp
    exact ⟨hc.stnear_pos _ _ this, by simp [State.get_claimable_stnear, this]⟩
  · simpa using w.st.claimable_stnear.nodup
  · intro id hid
    simp only [List.map_id'] at hid
    have : w.st.claimable_stnear.get id = none := UMap.get_eq_none_iff.2 hid
    simp [State.get_claimable_stnear, this]

example : Reach demoJ "me" funds ∧ funds.st.claimable_mpdao.len ≤ 10 ∧
    (funds.st.get_claims 0 10).getOr [] = [("alice", 3000000), ("bob", 7000000)] :=
  ⟨funds_reach, by decide +kernel, by decide +kernel⟩

end Verif.MetaVote
