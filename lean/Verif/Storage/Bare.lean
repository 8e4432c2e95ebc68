import Verif.MetaVote.Loose

/-!
# Calls that do not vote do not look at the vote maps

`bare s` is `s` without the vote maps.  A call other than the voting calls does the same to `s` and to `bare s`.
-/

namespace Verif

namespace UMap

variable {K V W : Type} [DecidableEq K]

/-- Apply a function to the values. -/
def mapV (f : K → V → W) (m : UMap K V) : UMap K W :=
  ⟨m.entries.map (fun p => (p.1, f p.1 p.2)), by
    have : (m.entries.map (fun p => (p.1, f p.1 p.2))).map Prod.fst = m.entries.map Prod.fst := by
      rw [List.map_map]; rfl
    rw [this]; exact m.nodup⟩

theorem findL_map (f : K → V → W) (l : List (K × V)) (k : K) :
    findL (l.map (fun p => (p.1, f p.1 p.2))) k = (findL l k).map (f k) := by
  induction l with
  | nil => rfl
  | cons p t ih =>
    obtain ⟨k', v⟩ := p
    simp only [List.map_cons, findL]
    by_cases e : k' = k
    · subst e; simp
    · simp [e, ih]

theorem insertL_map (f : K → V → W) (l : List (K × V)) (k : K) (v : V) :
    insertL (l.map (fun p => (p.1, f p.1 p.2))) k (f k v) = (insertL l k v).map (fun p => (p.1, f p.1 p.2)) := by
  induction l with
  | nil => rfl
  | cons p t ih =>
    obtain ⟨k', w⟩ := p
    simp only [List.map_cons, insertL]
    by_cases e : k' = k
    · subst e; simp
    · simp [e, ih]

theorem indexL_map (f : K → V → W) (l : List (K × V)) (k : K) :
    indexL (l.map (fun p => (p.1, f p.1 p.2))) k = indexL l k := by
  induction l with
  | nil => rfl
  | cons p t ih =>
    obtain ⟨k', w⟩ := p
    simp only [List.map_cons, indexL, ih]

theorem swapRemove_map {α β : Type} (f : α → β) (l : List α) (i : Nat) :
    swapRemove (l.map f) i = (swapRemove l i).map f := by
  unfold swapRemove
  rw [List.getLast?_map]
  cases l.getLast? with
  | none => rfl
  | some x => simp [List.map_dropLast, List.map_set]

@[simp] theorem get_mapV (f : K → V → W) (m : UMap K V) (k : K) : (m.mapV f).get k = (m.get k).map (f k) :=
  findL_map f m.entries k

theorem mapV_insert (f : K → V → W) (m : UMap K V) (k : K) (v : V) :
    (m.insert k v).mapV f = (m.mapV f).insert k (f k v) :=
  UMap.ext' (insertL_map f m.entries k v).symm

theorem keys_mapV (f : K → V → W) (m : UMap K V) : (m.mapV f).keys = m.keys := by
  simp only [keys, mapV, List.map_map]; rfl

theorem mapV_remove (f : K → V → W) (m : UMap K V) (k : K) : (m.remove k).mapV f = (m.mapV f).remove k := by
  apply UMap.ext'
  show (removeL m.entries k).map _ = removeL (m.entries.map _) k
  have hk : (m.entries.map (fun p => (p.1, f p.1 p.2))).map Prod.fst = m.entries.map Prod.fst := by
    rw [List.map_map]; rfl
  unfold removeL
  by_cases h : k ∈ m.entries.map Prod.fst
  · rw [if_pos h, if_pos (by rw [hk]; exact h), indexL_map, swapRemove_map]
  · rw [if_neg h, if_neg (by rw [hk]; exact h)]

theorem len_mapV (f : K → V → W) (m : UMap K V) : (m.mapV f).len = m.len := by
  simp [len, mapV]

theorem isEmpty_mapV (f : K → V → W) (m : UMap K V) : (m.mapV f).isEmpty = m.isEmpty := by
  simp [isEmpty, mapV]

theorem values_mapV (f : K → V → W) (m : UMap K V) : (m.mapV f).values = m.entries.map (fun p => f p.1 p.2) := by
  simp [values, mapV, Function.comp_def]

@[simp] theorem mapV_empty (f : K → V → W) : (empty : UMap K V).mapV f = empty := rfl

end UMap

namespace MetaVote

/-- The voter without votes. -/
def Voter.bare (v : Voter) : Voter := { v with vote_positions := UMap.empty }

/-- The state without votes. -/
def State.bare (s : State) : State := { s with votes := UMap.empty, voters := s.voters.mapV (fun _ v => v.bare) }

/-- State and voter without votes. -/
def bare2 (p : State × Voter) : State × Voter := (p.1.bare, p.2.bare)

/-- Result without votes. -/
def bareT {α : Type} (p : State × α) : State × α := (p.1.bare, p.2)

section
variable {α β γ : Type}

theorem map_bind (f : β → γ) (x : Res α) (g : α → Res β) :
    Except.map f (x >>= g) = x >>= fun a => Except.map f (g a) := by cases x <;> rfl

theorem bind_map (f : α → β) (x : Res α) (g : β → Res γ) : (Except.map f x >>= g) = x >>= fun a => g (f a) := by
  cases x <;> rfl

theorem map_pure (f : α → β) (a : α) : Except.map f (pure a : Res α) = pure (f a) := rfl

theorem map_error (f : α → β) (e : Panic) : Except.map f (.error e : Res α) = .error e := rfl

theorem expect_map (f : α → β) (o : Option α) (m : String) : expect (o.map f) m = Except.map f (expect o m) := by
  cases o <;> rfl

theorem map_ite (c : Prop) [Decidable c] (f : α → β) (x y : Res α) :
    Except.map f (if c then x else y) = if c then Except.map f x else Except.map f y := by split <;> rfl

theorem foldlM_map (f : β → γ) (g : β → α → Res β) (g' : γ → α → Res γ) (h : ∀ b a, g' (f b) a = Except.map f (g b a))
    (l : List α) (b : β) : l.foldlM g' (f b) = Except.map f (l.foldlM g b) := by
  induction l generalizing b with
  | nil => rfl
  | cons a t ih =>
    rw [List.foldlM_cons, List.foldlM_cons, h, bind_map, map_bind]
    congr 1
    funext b'
    exact ih b'

end

theorem get_or_panic_bare (s : State) (id : String) :
    s.bare.internal_get_voter_or_panic id = Except.map Voter.bare (s.internal_get_voter_or_panic id) := by
  unfold State.internal_get_voter_or_panic
  rw [← expect_map]
  simp [State.bare]

theorem get_voter_bare (s : State) (id : String) : s.bare.internal_get_voter id = (s.internal_get_voter id).bare := by
  unfold State.internal_get_voter
  simp only [State.bare, UMap.get_mapV]
  cases s.voters.get id <;> rfl

theorem insert_bare (s : State) (id : String) (v : Voter) :
    (s.voters.mapV (fun _ v => v.bare)).insert id v.bare = (s.voters.insert id v).mapV (fun _ v => v.bare) :=
  (UMap.mapV_insert _ _ _ _).symm

theorem clear_one_bare (now : Nat) (v : Voter) (i : Nat) :
    Voter.clear_one now v.bare i = Except.map Voter.bare (Voter.clear_one now v i) := by
  unfold Voter.clear_one
  rw [map_bind]
  congr 1
  funext p
  rw [map_ite]
  split
  · rw [map_bind]; rfl
  · rfl

theorem clear_bare (now : Nat) (v : Voter) (l : List Nat) :
    v.bare.clear_fully_unlocked_positions now l = Except.map Voter.bare (v.clear_fully_unlocked_positions now l) :=
  foldlM_map Voter.bare _ _ (clear_one_bare now) _ v

theorem increase_bare (s : State) (v : Voter) (i a d : Nat) :
    s.bare.increase_locking_position v.bare i a d = Except.map bare2 (s.increase_locking_position v i a d) := by
  unfold State.increase_locking_position
  simp only [map_bind]
  rfl

theorem create_bare (s : State) (v : Voter) (a d : Nat) :
    s.bare.internal_create_locking_position v.bare a d = Except.map bare2 (s.internal_create_locking_position v a d) := by
  unfold State.internal_create_locking_position
  simp only [map_bind]
  rfl

theorem deposit_bare (s : State) (a d : Nat) (id : String) (v : Voter) :
    s.bare.deposit_locking_position a d id v.bare = Except.map bare2 (s.deposit_locking_position a d id v) := by
  unfold State.deposit_locking_position
  simp only [map_bind]
  congr 1
  funext _
  have hf : v.bare.find_locked_position d = v.find_locked_position d := rfl
  rw [hf]
  cases v.find_locked_position d with
  | none =>
    simp only
    rw [create_bare, bind_map]
    congr 1
    funext r
    simp only [map_pure, bare2, State.bare, UMap.mapV_insert]
  | some i =>
    simp only
    rw [increase_bare, bind_map]
    congr 1
    funext r
    simp only [map_pure, bare2, State.bare, UMap.mapV_insert]

theorem unlock_bare (s : State) (c : Ctx) (i : Nat) :
    s.bare.unlock_position c i = Except.map State.bare (s.unlock_position c i) := by
  unfold State.unlock_position
  simp only [get_or_panic_bare, bind_map, map_bind, map_pure]
  congr 1; funext v
  congr 1; funext p
  congr 1; funext _
  congr 1; funext avp
  simp only [State.bare, UMap.mapV_insert]
  rfl

theorem unlock_partial_bare (s : State) (c : Ctx) (i a : Nat) :
    s.bare.unlock_partial_position c i a = Except.map State.bare (s.unlock_partial_position c i a) := by
  unfold State.unlock_partial_position
  simp only [get_or_panic_bare, bind_map, map_bind, map_pure, map_ite, unlock_bare]
  congr 1; funext v
  congr 1; funext p
  split
  · rfl
  simp only [State.create_unlocking_position, bind_assoc, pure_bind]
  congr 1; funext _
  congr 1; funext _
  congr 1; funext _
  congr 1; funext _
  congr 1; funext _
  congr 1; funext _
  congr 1; funext _
  congr 1; funext _
  congr 1; funext _
  congr 1; funext _
  congr 1; funext _
  congr 1; funext _
  simp only [State.bare, UMap.mapV_insert]
  rfl

theorem extend_bare (s : State) (c : Ctx) (i d : Nat) :
    s.bare.locking_position_extend_days c i d = Except.map State.bare (s.locking_position_extend_days c i d) := by
  unfold State.locking_position_extend_days
  simp only [get_or_panic_bare, bind_map, map_bind, map_pure]
  congr 1; funext v
  congr 1; funext p
  congr 1; funext _
  congr 1; funext _
  congr 1; funext _
  congr 1; funext _
  congr 1; funext _
  congr 1; funext _
  simp only [State.bare, UMap.mapV_insert]
  rfl

theorem bare_balance (v : Voter) (b : Nat) : { v.bare with balance := b } = ({ v with balance := b } : Voter).bare := rfl

theorem bare_remove (v : Voter) (i : Nat) : v.bare.remove_position i = (v.remove_position i).bare := rfl

theorem bare_replace (v : Voter) (i : Nat) (p : LockingPosition) :
    v.bare.replace_position i p = (v.replace_position i p).bare := rfl

theorem relock_bare (s : State) (c : Ctx) (i d a : Nat) :
    s.bare.relock_position c i d a = Except.map State.bare (s.relock_position c i d a) := by
  unfold State.relock_position
  simp only [get_or_panic_bare, bind_map, map_bind, map_pure, bare_remove, bare_balance, deposit_bare]
  rfl

theorem relock_partial_bare (s : State) (c : Ctx) (i a d b : Nat) :
    s.bare.relock_partial_position c i a d b = Except.map State.bare (s.relock_partial_position c i a d b) := by
  unfold State.relock_partial_position
  simp only [get_or_panic_bare, bind_map, map_bind, map_pure]
  refine bind_congr fun v => ?_
  refine bind_congr fun p => ?_
  refine bind_congr fun _ => ?_
  refine bind_congr fun _ => ?_
  refine bind_congr fun _ => ?_
  refine bind_congr fun _ => ?_
  refine bind_congr fun st => ?_
  split
  · simp only [bind_assoc, pure_bind]
    refine bind_congr fun _ => ?_
    refine bind_congr fun _ => ?_
    refine bind_congr fun _ => ?_
    refine bind_congr fun _ => ?_
    refine bind_congr fun _ => ?_
    simp only [bare_replace, bare_balance, deposit_bare, bind_map]
    rfl
  · simp only [bind_assoc, pure_bind]
    refine bind_congr fun _ => ?_
    refine bind_congr fun _ => ?_
    simp only [bare_balance, bare_remove, deposit_bare, bind_map]
    rfl

theorem relock_from_balance_bare (s : State) (c : Ctx) (d b : Nat) :
    s.bare.relock_from_balance c d b = Except.map State.bare (s.relock_from_balance c d b) := by
  unfold State.relock_from_balance
  simp only [get_or_panic_bare, bind_map, map_bind, map_pure, bare_balance, deposit_bare]
  rfl

theorem clear_locking_bare (s : State) (c : Ctx) (l : List Nat) :
    s.bare.clear_locking_position c l = Except.map State.bare (s.clear_locking_position c l) := by
  unfold State.clear_locking_position
  simp only [get_or_panic_bare, bind_map, map_bind, map_pure, clear_bare]
  congr 1; funext _
  congr 1; funext _
  congr 1; funext _
  simp only [State.bare, UMap.mapV_insert]

theorem add_claimable_mpdao_bare (s : State) (a : String) (n : Nat) :
    s.bare.add_claimable_mpdao a n = Except.map State.bare (s.add_claimable_mpdao a n) := by
  unfold State.add_claimable_mpdao
  simp only [map_bind, map_pure]
  rfl

theorem add_claimable_stnear_bare (s : State) (a : String) (n : Nat) :
    s.bare.add_claimable_stnear a n = Except.map State.bare (s.add_claimable_stnear a n) := by
  unfold State.add_claimable_stnear
  simp only [map_bind, map_pure]
  rfl

theorem remove_claimable_mpdao_bare (s : State) (a : String) (n : Nat) :
    s.bare.remove_claimable_mpdao a n = Except.map State.bare (s.remove_claimable_mpdao a n) := by
  unfold State.remove_claimable_mpdao
  simp only [map_bind, map_pure]
  rfl

theorem remove_claimable_stnear_bare (s : State) (a : String) (n : Nat) :
    s.bare.remove_claimable_stnear a n = Except.map State.bare (s.remove_claimable_stnear a n) := by
  unfold State.remove_claimable_stnear
  simp only [map_bind, map_pure]
  rfl

theorem claim_and_lock_bare (s : State) (c : Ctx) (a d : Nat) :
    s.bare.claim_and_lock c a d = Except.map State.bare (s.claim_and_lock c a d) := by
  unfold State.claim_and_lock
  simp only [remove_claimable_mpdao_bare, get_or_panic_bare, bind_map, map_bind, map_pure, deposit_bare]
  rfl

theorem claim_stnear_bare (s : State) (c : Ctx) (a : Nat) :
    s.bare.claim_stnear c a = Except.map bareT (s.claim_stnear c a) := by
  unfold State.claim_stnear
  simp only [remove_claimable_stnear_bare, bind_map, map_bind, map_pure]
  rfl

theorem delegated_claim_stnear_bare (s : State) (c : Ctx) (e : String) (a : Nat) :
    s.bare.delegated_claim_stnear c e a = Except.map bareT (s.delegated_claim_stnear c e a) := by
  unfold State.delegated_claim_stnear
  simp only [remove_claimable_stnear_bare, bind_map, map_bind, map_pure]
  rfl

theorem withdraw_bare (s : State) (c : Ctx) (id : String) (l : List Nat) (a : Option Nat) :
    s.bare.internal_withdraw c id l a = Except.map bareT (s.internal_withdraw c id l a) := by
  unfold State.internal_withdraw
  simp only [get_or_panic_bare, bind_map, map_bind, map_pure]
  congr 1; funext _
  congr 1; funext v
  have hk : ∀ v : Voter, (do
        require (0 < a.getD v.bare.balance) "Nothing to withdraw."
        require (a.getD v.bare.balance ≤ v.bare.balance) "Not enough balance."
        let balance ← subU v.bare.balance (a.getD v.bare.balance)
        pure ((if ({ v.bare with balance := balance } : Voter).is_empty then { s.bare with voters := s.bare.voters.remove id }
          else { s.bare with voters := s.bare.voters.insert id { v.bare with balance := balance } }),
          (if ({ v.bare with balance := balance } : Voter).is_empty then { s.bare with voters := s.bare.voters.remove id }
          else { s.bare with voters := s.bare.voters.insert id { v.bare with balance := balance } }).transfer_mpdao_to_voter id (a.getD v.bare.balance)) : Res (State × Transfer))
      = (do
        require (0 < a.getD v.balance) "Nothing to withdraw."
        require (a.getD v.balance ≤ v.balance) "Not enough balance."
        let balance ← subU v.balance (a.getD v.balance)
        pure (bareT ((if ({ v with balance := balance } : Voter).is_empty then { s with voters := s.voters.remove id }
          else { s with voters := s.voters.insert id { v with balance := balance } }),
          (if ({ v with balance := balance } : Voter).is_empty then { s with voters := s.voters.remove id }
          else { s with voters := s.voters.insert id { v with balance := balance } }).transfer_mpdao_to_voter id (a.getD v.balance)))) := by
    intro v
    congr 1; funext _
    congr 1; funext _
    congr 1; funext b
    have he : ({ v.bare with balance := b } : Voter).is_empty = ({ v with balance := b } : Voter).is_empty := rfl
    rw [he]
    cases ({ v with balance := b } : Voter).is_empty
    · simp only [bareT, State.bare, Bool.false_eq_true, if_false, UMap.mapV_insert]; rfl
    · simp only [bareT, State.bare, if_true, UMap.mapV_remove]; rfl
  split
  · rw [clear_bare, bind_map]
    congr 1; funext v
    exact hk v
  · simp only [pure_bind]
    exact hk v

theorem withdraw_all_bare (s : State) (c : Ctx) :
    s.bare.withdraw_all c = Except.map bareT (s.withdraw_all c) := by
  unfold State.withdraw_all
  simp only [get_or_panic_bare, bind_map, map_bind, withdraw_bare]
  rfl

theorem after_mpdao_bare (s : State) (c : Ctx) (id : String) (a : Nat) :
    s.bare.after_transfer_mpdao_callback c id a = Except.map State.bare (s.after_transfer_mpdao_callback c id a) := by
  unfold State.after_transfer_mpdao_callback State.restore_transfer_to_mpdao
  simp only [get_voter_bare, map_bind, map_pure, map_ite]
  congr 1; funext ok
  split
  · rfl
  · congr 1; funext b
    simp only [State.bare, UMap.mapV_insert]
    rfl

theorem after_stnear_bare (s : State) (c : Ctx) (id : String) (a : Nat) :
    s.bare.after_transfer_stnear_callback c id a = Except.map State.bare (s.after_transfer_stnear_callback c id a) := by
  unfold State.after_transfer_stnear_callback
  simp only [map_bind, map_pure, map_ite, add_claimable_stnear_bare]

theorem migration_bare (s : State) (c : Ctx) (id : String) (l : List (Nat × Nat)) (d : Option String) :
    s.bare.migration_create_lps c id l d = Except.map State.bare (s.migration_create_lps c id l d) := by
  unfold State.migration_create_lps
  rw [get_voter_bare]
  have hf := foldlM_map bare2 (State.migration_step id) (State.migration_step id)
    (fun sv lp => deposit_bare sv.1 _ _ id sv.2) l (s, s.internal_get_voter id)
  simp only [bare2] at hf
  rw [hf]
  simp only [map_bind, bind_map]
  congr 1; funext _
  congr 1; funext r
  cases d with
  | none => rfl
  | some d =>
    simp only
    rw [map_ite]
    rfl

theorem distribute_bare (s : State) (c : Ctx) (a : Nat) (l : List (String × Nat)) :
    s.bare.distribute_for_claims c a l = Except.map State.bare (s.distribute_for_claims c a l) := by
  unfold State.distribute_for_claims
  have h1 := foldlM_map bareT State.distribute_mpdao_step State.distribute_mpdao_step (fun b x => by
    unfold State.distribute_mpdao_step
    simp only [bareT, add_claimable_mpdao_bare, map_bind, bind_map, map_pure]) l (s, 0)
  have h2 := foldlM_map bareT State.distribute_stnear_step State.distribute_stnear_step (fun b x => by
    unfold State.distribute_stnear_step
    simp only [bareT, add_claimable_stnear_bare, map_bind, bind_map, map_pure]) l (s, 0)
  simp only [bareT] at h1 h2
  simp only [map_bind]
  have hm : s.bare.mpdao_token_contract_address = s.mpdao_token_contract_address := rfl
  have hs : s.bare.stnear_token_contract_address = s.stnear_token_contract_address := rfl
  rw [hm, hs]
  split
  · rw [h1]
    simp only [bind_map, bind_assoc, pure_bind]
    rfl
  · split
    · rw [h2]
      simp only [bind_map, bind_assoc, pure_bind]
      rfl
    · rfl

theorem ft_on_transfer_bare (J : Json) (s : State) (c : Ctx) (se : String) (a : Nat) (m : List UInt8) :
    s.bare.ft_on_transfer J c se a m = Except.map State.bare (s.ft_on_transfer J c se a m) := by
  unfold State.ft_on_transfer
  simp only [map_bind, map_ite, distribute_bare, get_voter_bare, deposit_bare, bind_map, map_pure]
  rfl

theorem drop_previous_bare (s : State) (e p : String) :
    s.bare.drop_previous_delegate e p = Except.map State.bare (s.drop_previous_delegate e p) := by
  unfold State.drop_previous_delegate
  simp only [map_bind, map_pure]
  rfl

theorem confirm_bare (s : State) (c : Ctx) (e : String) :
    s.bare.operator_confirm_delegated_evm_address c e = Except.map State.bare (s.operator_confirm_delegated_evm_address c e) := by
  unfold State.operator_confirm_delegated_evm_address
  simp only [map_bind]
  congr 1; funext _
  congr 1; funext _
  have h1 : s.bare.evm_pre_delegation.get e = s.evm_pre_delegation.get e := rfl
  have h2 : s.bare.evm_delegation_signatures.get e = s.evm_delegation_signatures.get e := rfl
  rw [h1]
  cases s.evm_pre_delegation.get e with
  | none => rfl
  | some pre =>
    simp only
    rw [h2]
    cases s.evm_delegation_signatures.get e with
    | none => rfl
    | some ex =>
      simp only
      rw [map_ite]
      split
      · rfl
      · have := drop_previous_bare { s with evm_pre_delegation := s.evm_pre_delegation.remove e } e ex.1
        rw [map_bind]
        refine (congrArg (· >>= _) this).trans ?_
        rw [bind_map]
        rfl

theorem quiet_map {f : State → State} (r : Res State) :
    quiet (Except.map f r) = Except.map (fun p : State × List Transfer => (f p.1, p.2)) (quiet r) := by
  cases r <;> rfl

theorem sends_map (r : Res (State × Transfer)) :
    sends (Except.map bareT r) = Except.map bareT (sends r) := by
  cases r <;> rfl

/-- A call that does not use the vote maps does the same without them. -/
theorem run_bare (J : Json) (s : State) (c : Ctx) (k : Call) (hk : k.votes = false) :
    run J s.bare c k = Except.map bareT (run J s c k) := by
  cases k <;> simp only [Call.votes, Bool.true_eq_false] at hk <;> simp only [run]
  case new_ => rfl
  case migrate => 
    unfold migrate
    simp only [quiet]
    cases require (c.predecessor = c.current) "Method migrate is private" <;> rfl
  case claim_and_lock => rw [claim_and_lock_bare, quiet_map]; rfl
  case claim_stnear => rw [claim_stnear_bare, sends_map]
  case unlock_position => rw [unlock_bare, quiet_map]; rfl
  case unlock_partial_position => rw [unlock_partial_bare, quiet_map]; rfl
  case locking_position_extend_days => rw [extend_bare, quiet_map]; rfl
  case relock_position => rw [relock_bare, quiet_map]; rfl
  case relock_partial_position => rw [relock_partial_bare, quiet_map]; rfl
  case relock_from_balance => rw [relock_from_balance_bare, quiet_map]; rfl
  case clear_locking_position => rw [clear_locking_bare, quiet_map]; rfl
  case migration_create_lps => rw [migration_bare, quiet_map]; rfl
  case withdraw => unfold State.withdraw; rw [withdraw_bare, sends_map]
  case withdraw_all => rw [withdraw_all_bare, sends_map]
  case after_transfer_mpdao_callback => rw [after_mpdao_bare, quiet_map]; rfl
  case after_transfer_stnear_callback => rw [after_stnear_bare, quiet_map]; rfl
  case ft_on_transfer => rw [ft_on_transfer_bare, quiet_map]; rfl
  case operator_confirm_delegated_evm_address => rw [confirm_bare, quiet_map]; rfl
  case delegated_claim_stnear => rw [delegated_claim_stnear_bare, sends_map]
  all_goals
    (try unfold State.set_stnear_contract); (try unfold State.set_operator_id); (try unfold State.set_owner_id)
    (try unfold State.update_registration_cost); (try unfold State.update_airdrop_user_data)
    (try unfold State.operator_multi_set_airdrop_data); (try unfold State.set_lock_in_vote_filters)
    (try unfold State.update_min_unbond_period); (try unfold State.update_max_unbond_period)
    (try unfold State.set_prev_gov_contract); (try unfold State.pre_delegate_evm_address)
    (try unfold State.operator_remove_pre_delegate_evm_address); (try unfold State.remove_delegated_evm_address)
    simp only [quiet, map_bind, map_pure, bind_assoc, pure_bind]
    rfl

end MetaVote

end Verif
