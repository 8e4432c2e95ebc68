import Verif.MetaVote.BytesRest

/-!
# Settings and delegation, in bytes and in the state
-/

namespace Verif.MetaVote.Bytes

open Verif Storage Disk Borsh

variable {H : Hash} {N : Names} {f f' : Nat} {vl : String → Nat} {m : Mem} {s : State} {D : Disk} {id : String} {v : Voter}
  {n : Nat}

/-- Results of methods that only write the record. -/
def RR (H : Hash) (N : Names) (f : Nat) (vl : String → Nat) (m : Mem) (D : Disk) (s : State) (r : StateRec) : Prop :=
  RS H N f vl m s (D, r)

theorem Rep.set_stnear_contract (h : Rep H N f vl m s D) (c : Ctx) {a : String} (ha : StrFits a) :
    Rel (RR H N f vl m D) (s.set_stnear_contract c a) (set_stnear_contract (rootOf H s m) c a) := by
  unfold State.set_stnear_contract Bytes.set_stnear_contract
  refine Rel.step _ fun _ _ => ?_
  refine Rel.step _ fun _ _ => ?_
  exact ⟨rfl, h.tabs, { h.fit with stnear := ha }⟩

theorem Rep.set_operator_id (h : Rep H N f vl m s D) (c : Ctx) {a : String} (ha : StrFits a) :
    Rel (RR H N f vl m D) (s.set_operator_id c a) (set_operator_id (rootOf H s m) c a) := by
  unfold State.set_operator_id Bytes.set_operator_id
  refine Rel.step _ fun _ _ => ?_
  refine Rel.step _ fun _ _ => ?_
  exact ⟨rfl, h.tabs, { h.fit with operator_id := ha }⟩

theorem Rep.set_owner_id (h : Rep H N f vl m s D) (c : Ctx) {a : String} (ha : StrFits a) :
    Rel (RR H N f vl m D) (s.set_owner_id c a) (set_owner_id (rootOf H s m) c a) := by
  unfold State.set_owner_id Bytes.set_owner_id
  refine Rel.step _ fun _ _ => ?_
  refine Rel.step _ fun _ _ => ?_
  exact ⟨rfl, h.tabs, { h.fit with owner_id := ha }⟩

theorem Rep.update_registration_cost (h : Rep H N f vl m s D) (c : Ctx) {a : Nat} (ha : a < 2 ^ 128) :
    Rel (RR H N f vl m D) (s.update_registration_cost c a) (update_registration_cost (rootOf H s m) c a) := by
  unfold State.update_registration_cost Bytes.update_registration_cost
  refine Rel.step _ fun _ _ => ?_
  exact ⟨rfl, h.tabs, { h.fit with registration_cost := ha }⟩

theorem Rep.update_min_unbond_period (h : Rep H N f vl m s D) (c : Ctx) {a : Nat} (ha : a < 2 ^ 16) :
    Rel (RR H N f vl m D) (s.update_min_unbond_period c a) (update_min_unbond_period (rootOf H s m) c a) := by
  unfold State.update_min_unbond_period Bytes.update_min_unbond_period
  refine Rel.step _ fun _ _ => ?_
  refine Rel.step _ fun _ _ => ?_
  exact ⟨rfl, h.tabs, { h.fit with min_unbond_period := ha }⟩

theorem Rep.update_max_unbond_period (h : Rep H N f vl m s D) (c : Ctx) {a : Nat} (ha : a < 2 ^ 16) :
    Rel (RR H N f vl m D) (s.update_max_unbond_period c a) (update_max_unbond_period (rootOf H s m) c a) := by
  unfold State.update_max_unbond_period Bytes.update_max_unbond_period
  refine Rel.step _ fun _ _ => ?_
  refine Rel.step _ fun _ _ => ?_
  exact ⟨rfl, h.tabs, { h.fit with max_unbond_period := ha }⟩

theorem Rep.set_prev_gov_contract (h : Rep H N f vl m s D) (c : Ctx) {a : String} (ha : StrFits a) :
    Rel (RR H N f vl m D) (s.set_prev_gov_contract c a) (set_prev_gov_contract (rootOf H s m) c a) := by
  unfold State.set_prev_gov_contract Bytes.set_prev_gov_contract
  refine Rel.step _ fun _ _ => ?_
  refine Rel.step _ fun _ _ => ?_
  exact ⟨rfl, h.tabs, { h.fit with prev_gov := ha }⟩

theorem Rep.set_filters (h : Rep H N f vl m s D) (c : Ctx) {t n : Nat} {a : Option String} (ht : t < 2 ^ 64) (hn : n < 2 ^ 16)
    (ha : ∀ x, a = some x → StrFits x) :
    Rel (RR H N f vl m D) (s.set_lock_in_vote_filters c t n a) (set_lock_in_vote_filters (rootOf H s m) c t n a) := by
  unfold State.set_lock_in_vote_filters set_lock_in_vote_filters
  refine Rel.step _ fun _ _ => ?_
  exact ⟨rfl, h.tabs, { h.fit with lock_end := ht, lock_id := hn, lock_address := ha }⟩

/-! ## Delegation -/

theorem Rep.pre_delegate (hN : N.OK H) (h : Rep H N f vl m s D) (c : Ctx) (hc : StrFits c.predecessor) {e g : String}
    (he : StrFits e) (hg : StrFits g) :
    Rel (RS H N f vl m) (s.pre_delegate_evm_address c e g) (pre_delegate_evm_address D (rootOf H s m) c e g) := by
  unfold State.pre_delegate_evm_address pre_delegate_evm_address
  refine Rel.step _ fun _ _ => ?_
  refine Rel.step _ fun _ _ => ?_
  exact ⟨rfl, h.tabs.insertPres hN he (x := (c.predecessor, g)) hc hg, { h.fit with }⟩

theorem Rep.remove_pre (hN : N.OK H) (h : Rep H N f vl m s D) (c : Ctx) {e : String} (he : StrFits e) :
    Rel (RS H N f vl m) (s.operator_remove_pre_delegate_evm_address c e)
      (operator_remove_pre_delegate_evm_address D (rootOf H s m) c e) := by
  unfold State.operator_remove_pre_delegate_evm_address operator_remove_pre_delegate_evm_address
  refine Rel.step _ fun _ _ => ?_
  refine Rel.step _ fun _ _ => ?_
  exact ⟨rfl, h.tabs.removePres hN he, { h.fit with }⟩

theorem Rep.drop_previous (hN : N.OK H) (h : Rep H N (f + 1) vl m s D) (e : String) {p : String} (hp : StrFits p) :
    Rel (RS H N f vl m) (s.drop_previous_delegate e p) (drop_previous_delegate D (rootOf H s m) e p) := by
  unfold State.drop_previous_delegate drop_previous_delegate
  refine Rel.ok (h.tabs.getDele hp) ?_
  refine Rel.step _ fun l hl => ?_
  have hl := h.tabs.deleFits (expect_ok_iff.1 hl)
  by_cases hz : (l.filter (fun x => x ≠ e)).length = 0
  · obtain ⟨D2, x, e2, ht⟩ := (h.tabs.mono (Nat.le_succ f)).removeDele hN hp
    simp only [if_pos hz]
    refine Rel.ok (c := (D2, (rootOf H { s with evm_delegates := s.evm_delegates.remove p } m).evm_delegates)) (by
      rw [show MapH.remove string addresses D (rootOf H s m).evm_delegates p = _ from e2]; rfl) ?_
    exact ⟨rfl, ht, { h.fit with }⟩
  · have hlen : Room f (l.filter (fun x => x ≠ e)).length := by
      have := List.length_filter_le (fun x => decide (x ≠ e)) l
      have h2 := hl.1
      unfold Room at *; omega
    obtain ⟨D2, e2, ht⟩ := h.tabs.insertDele hN hp hlen (fun a ha => hl.2 a (List.mem_filter.1 ha).1)
    simp only [if_neg hz]
    refine Rel.ok e2 ?_
    exact ⟨rfl, ht, { h.fit with }⟩

theorem Rep.add_delegate (hN : N.OK H) (h : Rep H N (f + 1) vl m s D) {e a g : String} (he : StrFits e) (ha : StrFits a)
    (hg : StrFits g) :
    Rel (RS H N f vl m) (pure (s.add_delegate e a g)) (add_delegate D (rootOf H s m) e a g) := by
  unfold State.add_delegate Bytes.add_delegate
  refine Rel.ok (h.tabs.getDele ha) ?_
  have hl : Room f ((s.evm_delegates.get a).getD [] ++ [e]).length ∧ ∀ x ∈ (s.evm_delegates.get a).getD [] ++ [e], StrFits x := by
    cases q : s.evm_delegates.get a with
    | none =>
      have := (h.mono (Nat.le_refl _)).room0
      refine ⟨by unfold Room at *; simp; omega, by simpa using he⟩
    | some l =>
      have := h.tabs.deleFits q
      refine ⟨?_, ?_⟩
      · have h1 := this.1
        unfold Room at *; simp; omega
      · intro x hx
        rcases List.mem_append.1 hx with hx | hx
        · exact this.2 x hx
        · rw [List.mem_singleton.1 hx]; exact he
  obtain ⟨D2, e2, ht⟩ := h.tabs.insertDele hN ha hl.1 hl.2
  refine Rel.ok e2 ?_
  exact ⟨rfl, ht.insertSigs hN he (x := (a, g)) ha hg, { h.fit with }⟩

theorem Rep.confirm (hN : N.OK H) (h : Rep H N (f + 2) vl m s D) (c : Ctx) {e : String} (he : StrFits e) :
    Rel (RS H N f vl m) (s.operator_confirm_delegated_evm_address c e)
      (operator_confirm_delegated_evm_address D (rootOf H s m) c e) := by
  unfold State.operator_confirm_delegated_evm_address operator_confirm_delegated_evm_address
  refine Rel.step _ fun _ _ => ?_
  refine Rel.step _ fun _ _ => ?_
  refine Rel.ok (h.tabs.getPres he) ?_
  show Rel _ (match s.evm_pre_delegation.get e with | none => _ | some pre => _)
    (match s.evm_pre_delegation.get e with | none => _ | some p => _)
  cases q : s.evm_pre_delegation.get e with
  | none => exact ⟨rfl, h.mono (by omega)⟩
  | some p =>
    have hp := h.tabs.presFits q
    have h1 : Rep H N (f + 2) vl m { s with evm_pre_delegation := s.evm_pre_delegation.remove e }
        (LookupH.remove string D (rootOf H s m).evm_pre_delegation e) := ⟨h.tabs.removePres hN he, { h.fit with }⟩
    refine Rel.ok (h1.tabs.getSigs he) ?_
    show Rel _ (match s.evm_delegation_signatures.get e with | some x => _ | none => _)
      (match s.evm_delegation_signatures.get e with | some x => _ | none => _)
    cases q2 : s.evm_delegation_signatures.get e with
    | none => exact (h1.mono (Nat.le_succ _)).add_delegate hN he hp.1 hp.2
    | some x =>
      have hx := h.tabs.sigsFits q2
      by_cases hz : x.1 = p.1
      · simp only [if_pos hz]
        exact ⟨rfl, h1.mono (by omega)⟩
      · simp only [if_neg hz]
        refine (h1.drop_previous hN e hx.1).bind ?_
        rintro s' ⟨D', r'⟩ - ⟨h2, h3⟩
        simp only at h2 h3
        subst h2
        exact h3.add_delegate hN he hp.1 hp.2

theorem Rep.verify (h : Rep H N f vl m s D) (c : Ctx) (hc : StrFits c.predecessor) (e : String) :
    verify_delegate D (rootOf H s m) c e = s.verify_delegate c e := by
  unfold State.verify_delegate verify_delegate
  rw [show MapH.get string addresses D (rootOf H s m).evm_delegates c.predecessor = _ from h.tabs.getDele hc]
  rfl

theorem verified {c : Ctx} {e a : String} (h : s.verify_delegate c e = .ok a) : a = pseudo_near_address e := by
  simp only [State.verify_delegate, bind_ok_iff, require_ok_iff, pure_ok_iff] at h
  obtain ⟨-, -, rfl⟩ := h
  rfl

theorem Rep.delegated_claim (hN : N.OK H) (h : Rep H N (f + 1) vl m s D) (c : Ctx) (hc : StrFits c.predecessor) {e : String}
    (he : StrFits (pseudo_near_address e)) (a : Nat) :
    Rel (RT H N f vl m) (s.delegated_claim_stnear c e a) (delegated_claim_stnear D (rootOf H s m) c e a) := by
  unfold State.delegated_claim_stnear delegated_claim_stnear
  rw [h.verify c hc e]
  refine Rel.step _ fun p hp => ?_
  obtain rfl := verified hp
  refine (h.removeStnear hN he a).bind ?_
  rintro s' ⟨D', r'⟩ - ⟨h1, h2⟩
  simp only at h1 h2
  subst h1
  exact ⟨⟨rfl, h2⟩, rfl⟩

theorem Rep.remove_delegated (hN : N.OK H) (h : Rep H N (f + 1) vl m s D) (c : Ctx) (hc : StrFits c.predecessor) {e : String}
    (he : StrFits e) :
    Rel (RS H N f vl m) (s.remove_delegated_evm_address c e) (remove_delegated_evm_address D (rootOf H s m) c e) := by
  unfold State.remove_delegated_evm_address remove_delegated_evm_address
  refine Rel.step _ fun _ _ => ?_
  refine Rel.ok (h.tabs.getSigs he) ?_
  refine Rel.step _ fun x hx => ?_
  refine Rel.step _ fun _ _ => ?_
  have h1 := h.tabs.removeSigs hN he
  refine Rel.ok (h1.getDele hc) ?_
  refine Rel.step _ fun l hl => ?_
  have hl := h.tabs.deleFits (expect_ok_iff.1 hl)
  have hlen : Room f (l.filter (fun x => x ≠ e)).length := by
    have := List.length_filter_le (fun x => decide (x ≠ e)) l
    have h2 := hl.1
    unfold Room at *; omega
  obtain ⟨D2, e2, ht⟩ := h1.insertDele hN hc hlen (fun a ha => hl.2 a (List.mem_filter.1 ha).1)
  refine Rel.ok e2 ?_
  exact ⟨rfl, ht, { h.fit with }⟩

end Verif.MetaVote.Bytes
