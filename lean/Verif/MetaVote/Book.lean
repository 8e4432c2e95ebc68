import Verif.MetaVote.AcceptIff
import Verif.Props.MirrorOrder
import Verif.Spec.Book

/-!
# The books of the contract after each method
-/

namespace Verif.MetaVote

open Verif

theorem get_insert_upd {V : Type} (m : UMap String V) (k : String) (v : V) : (m.insert k v).get = upd m.get k (some v) := by
  funext i
  rw [UMap.get_insert, upd]
  by_cases h : k = i
  · subst h; simp
  · simp [h, Ne.symm h]

theorem get_remove_upd {V : Type} (m : UMap String V) (k : String) : (m.remove k).get = upd m.get k none := by
  funext i
  rw [UMap.get_remove, upd]
  by_cases h : k = i
  · subst h; simp
  · simp [h, Ne.symm h]

theorem book_put (s : State) (id : String) (v : Voter) :
    ({ s with voters := s.voters.insert id v }).book = s.book.put id v := by
  refine Book.ext ?_ ?_ rfl rfl rfl rfl rfl rfl rfl rfl rfl rfl rfl rfl rfl rfl
  · exact get_insert_upd _ _ _
  · show (s.voters.insert id v).len = if s.voters.get id = none then _ else _
    rw [UMap.len_insert]
    cases s.voters.get id <;> rfl

theorem book_erase (s : State) (id : String) : ({ s with voters := s.voters.remove id }).book = s.book.erase id := by
  refine Book.ext ?_ ?_ rfl rfl rfl rfl rfl rfl rfl rfl rfl rfl rfl rfl rfl rfl
  · exact get_remove_upd _ _
  · show (s.voters.remove id).len = if s.voters.get id = none then _ else _
    rw [UMap.len_remove]
    cases s.voters.get id <;> rfl

theorem book_putList (s : State) (id : String) (l : List String) :
    ({ s with evm_delegates := s.evm_delegates.insert id l }).book = s.book.putList id l := by
  refine Book.ext rfl rfl rfl rfl rfl rfl rfl rfl rfl rfl rfl rfl rfl ?_ ?_ rfl
  · exact get_insert_upd _ _ _
  · show (s.evm_delegates.insert id l).len = if s.evm_delegates.get id = none then _ else _
    rw [UMap.len_insert]
    cases s.evm_delegates.get id <;> rfl

theorem book_eraseList (s : State) (id : String) :
    ({ s with evm_delegates := s.evm_delegates.remove id }).book = s.book.eraseList id := by
  refine Book.ext rfl rfl rfl rfl rfl rfl rfl rfl rfl rfl rfl rfl rfl ?_ ?_ rfl
  · exact get_remove_upd _ _
  · show (s.evm_delegates.remove id).len = if s.evm_delegates.get id = none then _ else _
    rw [UMap.len_remove]
    cases s.evm_delegates.get id <;> rfl

theorem book_put_power (s : State) (t : Nat) (id : String) (v : Voter) :
    ({ s with total_voting_power := t, voters := s.voters.insert id v }).book =
      ({ s.book with power := t }).put id v := book_put { s with total_voting_power := t } id v

theorem book_power (s : State) : s.book.power = s.total_voting_power := rfl

theorem book_acct (s : State) (id : String) : s.book.acct id = s.voterD id := rfl

theorem bind_get_vset (m : UMap String (UMap String Nat)) (a o : String) (n : Nat) (a' o' : String) :
    ((vset m a o n).get a').bind (·.get o') = if a' = a ∧ o' = o then some n else (m.get a').bind (·.get o') := by
  unfold vset
  rw [UMap.get_insert]
  by_cases h : a = a'
  · subst h
    simp only [if_true, Option.bind_some, true_and, UMap.get_insert]
    by_cases h' : o = o'
    · subst h'; simp
    · rw [if_neg h', if_neg (Ne.symm h')]
      cases m.get a <;> simp
  · rw [if_neg h, if_neg (fun x => h x.1.symm)]

theorem bind_get_vdel (m : UMap String (UMap String Nat)) (a o : String) (a' o' : String) :
    ((vdel m a o).get a').bind (·.get o') = if a' = a ∧ o' = o then none else (m.get a').bind (·.get o') := by
  have key : ∀ o', (((m.get a).getD UMap.empty).remove o).get o' =
      if o' = o then none else (m.get a).bind (·.get o') := by
    intro o'
    rw [UMap.get_remove]
    by_cases h' : o = o'
    · subst h'; simp
    · rw [if_neg h', if_neg (Ne.symm h')]
      cases m.get a <;> simp
  unfold vdel
  split
  · rename_i he
    rw [UMap.get_remove]
    by_cases h : a = a'
    · subst h
      have := UMap.isEmpty_iff_get.1 he o'
      rw [key] at this
      simp only [if_true, Option.bind_none, true_and]
      exact this.symm
    · rw [if_neg h, if_neg (fun x => h x.1.symm)]
  · rw [UMap.get_insert]
    by_cases h : a = a'
    · subst h
      simp only [if_true, Option.bind_some, true_and]
      exact key o'
    · rw [if_neg h, if_neg (fun x => h x.1.symm)]

theorem upd_upd_apply (f : String → String → Option Nat) (a o : String) (x : Option Nat) (a' o' : String) :
    upd f a (upd (f a) o x) a' o' = if a' = a ∧ o' = o then x else f a' o' := by
  unfold upd
  by_cases h : a' = a
  · subst h
    by_cases h' : o' = o
    · simp [h']
    · simp [h']
  · simp [h]

theorem book_win (s : State) (a o : String) (n : Nat) :
    ({ s with votes := vset s.votes a o (s.totalVotes a o + n) }).book = s.book.winVotes a o n := by
  refine Book.ext rfl rfl rfl ?_ rfl rfl rfl rfl rfl rfl rfl rfl rfl rfl rfl rfl
  funext a' o'
  show ((vset s.votes a o _).get a').bind (·.get o') = _
  rw [bind_get_vset]
  exact (upd_upd_apply s.book.votes a o (some (s.totalVotes a o + n)) a' o').symm

theorem book_lose (s : State) (a o : String) (n : Nat) :
    ({ s with votes := if s.totalVotes a o - n = 0 then vdel s.votes a o
      else vset s.votes a o (s.totalVotes a o - n) }).book = s.book.loseVotes a o n := by
  refine Book.ext rfl rfl rfl ?_ rfl rfl rfl rfl rfl rfl rfl rfl rfl rfl rfl rfl
  funext a' o'
  show ((if s.totalVotes a o - n = 0 then vdel s.votes a o else _).get a').bind (·.get o') = _
  refine Eq.trans ?_ (upd_upd_apply s.book.votes a o _ a' o').symm
  have e : (s.book.votes a o).getD 0 = s.totalVotes a o := rfl
  rw [e]
  split
  · rw [bind_get_vdel]; rfl
  · rw [bind_get_vset]; rfl

theorem drop_eq (m : UMap String (UMap String Nat)) (a o : String) : dropVote m a o = vdel m a o := by
  unfold dropVote vdel
  by_cases h : (((m.get a).getD UMap.empty).remove o).isEmpty = true
  · rw [if_pos h, if_pos (UMap.eq_empty_of_isEmpty h)]
  · rw [if_neg h, if_neg]
    intro he
    rw [he] at h
    exact h rfl

theorem take_upd (m : UMap String Nat) (id : String) (n : Nat) :
    (fun i => ((take m id n).get i).getD 0) = upd (fun i => (m.get i).getD 0) id ((m.get id).getD 0 - n) := by
  funext i
  unfold take upd
  split
  · rename_i h
    rw [UMap.get_remove]
    by_cases hi : id = i
    · subst hi; simp [h]
    · simp [hi, Ne.symm hi]
  · rw [UMap.get_insert]
    by_cases hi : id = i
    · subst hi; simp
    · simp [hi, Ne.symm hi]

theorem book_deposit {s s' : State} {v v' : Voter} {a d : Nat} {id : String}
    (h : s.deposit_locking_position a d id v = .ok (s', v')) :
    s'.book = s.book.lock id v a d ∧ s'.voterD id = v' := by
  obtain ⟨vp, ps, hvp, -, -, -, hps, rfl, rfl⟩ := deposit_ok h
  obtain ⟨-, -, -, rfl⟩ := (calc_iff _ _ _).1 hvp
  rw [deposited_lockOn hps]
  exact ⟨by rw [book_put_power]; unfold Book.lock; rw [book_power], by simp [State.voterD]⟩

theorem book_vote {s s' : State} {id : String} {n : Nat} {a o : String} (h : s.internal_vote id n a o = .ok s') :
    s'.book = s.book.cast id n a o := by
  simp only [State.internal_vote, bind_ok_iff, pure_ok_iff] at h
  obtain ⟨v, hv, ⟨s1, v1⟩, hr, rfl⟩ := h
  obtain ⟨-, rfl⟩ := get_voter_ok hv
  obtain ⟨-, -, -, -, rfl, rfl⟩ := create_voting_ok hr
  exact (book_put { s with votes := vset s.votes a o (s.totalVotes a o + n) } id _).trans (by rw [book_win]; rfl)

theorem book_unvote {s s' : State} {x : Ctx} {id a o : String} (h : s.internal_unvote x id a o = .ok s') :
    s'.book = s.book.uncast id a o := by
  simp only [State.internal_unvote, bind_ok_iff, require_ok_iff, pure_ok_iff] at h
  obtain ⟨-, -, v, hv, ⟨s1, v1⟩, hr, rfl⟩ := h
  obtain ⟨-, rfl⟩ := get_voter_ok hv
  obtain ⟨-, -, -, rfl, rfl⟩ := remove_voting_ok hr
  refine (book_put ({ s with votes := (if s.totalVotes a o - (s.voterD id).votesOf a o = 0 then vdel s.votes a o
      else vset s.votes a o (s.totalVotes a o - (s.voterD id).votesOf a o)) }) id _).trans ?_
  rw [book_lose, Book.uncast, book_acct, drop_eq]

theorem book_rebalance {s s' : State} {x : Ctx} {n : Nat} {a o : String} (h : s.rebalance x n a o = .ok s') :
    s'.book = s.book.recast x.predecessor n a o := by
  simp only [State.rebalance, bind_ok_iff, expect_ok_iff, require_ok_iff] at h
  obtain ⟨v, hv, k, hk, -, hne, h⟩ := h
  obtain ⟨-, rfl⟩ := get_voter_ok hv
  have hk' : (s.voterD x.predecessor).votesOf a o = k := by
    rw [Voter.votesOf, vget_eq]; simp only [Voter.get_vote_position_for_address] at hk; rw [hk]; rfl
  subst hk'
  unfold Book.recast
  rw [book_acct]
  split at h
  · rename_i h0; rw [if_pos h0]; exact book_unvote h
  · rename_i h0
    rw [if_neg h0]
    simp only [bind_ok_iff, pure_ok_iff] at h
    obtain ⟨r, hr, rfl⟩ := h
    split at hr
    · rename_i hlt
      rw [if_pos hlt]
      simp only [bind_ok_iff, require_ok_iff, subU_ok_iff, addU128_ok_iff, pure_ok_iff] at hr
      obtain ⟨ad, ⟨-, rfl⟩, -, hav, av, ⟨-, rfl⟩, vo, ⟨-, rfl⟩, s1, hs1, rfl⟩ := hr
      obtain ⟨-, rfl⟩ := increase_total_ok hs1
      refine (book_put { s with votes := vset s.votes a o (s.totalVotes a o +
        (n - (s.voterD x.predecessor).votesOf a o)) } x.predecessor _).trans ?_
      rw [book_win]
      congr 2
      · simp only; omega
      · show _ = giveVote _ _ _ _
        unfold giveVote Voter.get_vote_position_for_address
        rw [show (s.voterD x.predecessor).votesOf a o + (n - (s.voterD x.predecessor).votesOf a o) = n by omega]
    · rename_i hlt
      rw [if_neg hlt]
      simp only [bind_ok_iff, subU_ok_iff, addU128_ok_iff, pure_ok_iff] at hr
      obtain ⟨ad, ⟨-, rfl⟩, av, ⟨-, rfl⟩, vo, ⟨-, rfl⟩, s1, hs1, rfl⟩ := hr
      obtain ⟨-, -, rfl⟩ := decrease_total_ok hs1
      refine (book_put ({ s with votes := (if s.totalVotes a o - ((s.voterD x.predecessor).votesOf a o - n) = 0 then
          vdel s.votes a o else vset s.votes a o (s.totalVotes a o -
          ((s.voterD x.predecessor).votesOf a o - n))) }) x.predecessor _).trans ?_
      rw [book_lose]
      congr 2
      · simp only; omega
      · show _ = giveVote _ _ _ _
        unfold giveVote Voter.get_vote_position_for_address
        rw [show (s.voterD x.predecessor).votesOf a o - ((s.voterD x.predecessor).votesOf a o - n) = n by omega]

theorem book_unlock {s s' : State} {c : Ctx} {i : Nat} (h : s.unlock_position c i = .ok s') :
    ∃ p, s.book.position c i = some p ∧ s'.book = s.book.unlock c.predecessor c.now i p := by
  simp only [State.unlock_position, bind_ok_iff, get_position_ok, require_ok_iff, subU_ok_iff, pure_ok_iff] at h
  obtain ⟨v, hv, p, hp, -, hle, x, ⟨-, rfl⟩, rfl⟩ := h
  obtain ⟨-, rfl⟩ := get_voter_ok hv
  refine ⟨p, hp, ?_⟩
  rw [book_put_power]
  rfl

theorem book_unlock_partial {s s' : State} {c : Ctx} {i a : Nat} (h : s.unlock_partial_position c i a = .ok s') :
    ∃ p, s.book.position c i = some p ∧ s'.book = if a = p.amount then s.book.unlock c.predecessor c.now i p
      else s.book.split c.predecessor c.now i a p := by
  simp only [State.unlock_partial_position, bind_ok_iff, get_position_ok] at h
  obtain ⟨v, hv, p, hp, h⟩ := h
  obtain ⟨-, rfl⟩ := get_voter_ok hv
  refine ⟨p, hp, ?_⟩
  split at h
  · rename_i ha
    obtain ⟨q, hq, e⟩ := book_unlock h
    rw [show s.book.position c i = some p from hp] at hq
    cases hq
    rw [if_pos ha, e]
  · rename_i ha
    simp only [bind_ok_iff, require_ok_iff, subU_ok_iff, pure_ok_iff, State.create_unlocking_position, calc_iff] at h
    obtain ⟨-, hlt, r, ⟨-, rfl⟩, -, -, -, -, vp, ⟨-, -, -, rfl⟩, -, hvp, -, hav, v2, ⟨-, hlen, rfl⟩, y, ⟨-, rfl⟩,
      z, ⟨-, rfl⟩, -, -, w, ⟨-, rfl⟩, rfl⟩ := h
    rw [if_neg ha]
    rw [book_put_power]
    unfold Book.split
    simp only [Voter.replace_position, book_acct, book_power]
    rw [List.set_append_left _ _ (List.getElem?_eq_some_iff.1 hp).1]

theorem book_extend {s s' : State} {c : Ctx} {i d : Nat} (h : s.locking_position_extend_days c i d = .ok s') :
    ∃ p, s.book.position c i = some p ∧ s'.book = s.book.extend c.predecessor i d p := by
  simp only [State.locking_position_extend_days, bind_ok_iff, get_position_ok, require_ok_iff,
    subU_ok_iff, addU128_ok_iff, pure_ok_iff, calc_iff] at h
  obtain ⟨v, hv, p, hp, -, hl, -, -, vp, ⟨-, -, -, rfl⟩, de, ⟨hle, rfl⟩, t, ⟨-, rfl⟩, av, ⟨-, rfl⟩, rfl⟩ := h
  obtain ⟨-, rfl⟩ := get_voter_ok hv
  refine ⟨p, hp, ?_⟩
  rw [book_put_power]
  unfold Book.extend
  simp only [Voter.replace_position, book_acct, book_power]

theorem book_relock {s s' : State} {c : Ctx} {i d x : Nat} (h : s.relock_position c i d x = .ok s') :
    ∃ p, s.book.position c i = some p ∧ s'.book = s.book.lock c.predecessor { s.book.acct c.predecessor with
        balance := (s.book.acct c.predecessor).balance - x
        locking_positions := swapRemove (s.book.acct c.predecessor).locking_positions i } (p.amount + x) d := by
  simp only [State.relock_position, bind_ok_iff, get_position_ok, require_ok_iff, expect_ok_iff,
    subU_ok_iff, addU128_ok_iff, pure_ok_iff] at h
  obtain ⟨v, hv, p, hp, -, -, t, ht, -, -, a, ⟨-, rfl⟩, y, ⟨-, rfl⟩, r, hr, rfl⟩ := h
  obtain ⟨-, rfl⟩ := get_voter_ok hv
  exact ⟨p, hp, (book_deposit (s' := r.1) (v' := r.2) hr).1⟩

theorem book_relock_partial {s s' : State} {c : Ctx} {i a d x : Nat}
    (h : s.relock_partial_position c i a d x = .ok s') :
    ∃ p, s.book.position c i = some p ∧ s'.book =
      if 0 < leftOf p (p.unlocking_started_at.getD 0) c.now then
        s.book.lock c.predecessor { s.book.acct c.predecessor with
          balance := (s.book.acct c.predecessor).balance - x
          locking_positions := (s.book.acct c.predecessor).locking_positions.set i { p with
            amount := p.amount - a, voting_power := powerOf (p.amount - a) p.locking_period } } (x + a) d
      else s.book.lock c.predecessor { s.book.acct c.predecessor with
          balance := (s.book.acct c.predecessor).balance + (p.amount - a) - x
          locking_positions := swapRemove (s.book.acct c.predecessor).locking_positions i } (x + a) d := by
  simp only [State.relock_partial_position, bind_ok_iff, get_position_ok, require_ok_iff,
    expect_ok_iff, subU_ok_iff, addU128_ok_iff, pure_ok_iff, left_pos, left_eq, millis_eq] at h
  obtain ⟨v, hv, p, hp, -, -, -, -, am, ⟨-, rfl⟩, -, -, t, ht, v2, hv2, y, ⟨-, rfl⟩, r, hr, rfl⟩ := h
  obtain ⟨-, rfl⟩ := get_voter_ok hv
  refine ⟨p, hp, ?_⟩
  rw [show p.unlocking_started_at.getD 0 = t by rw [ht]; rfl]
  split at hv2
  · rename_i hlt
    rw [if_pos hlt]
    simp only [bind_ok_iff, require_ok_iff, subU_ok_iff, pure_ok_iff, calc_iff] at hv2
    obtain ⟨-, -, n, ⟨-, rfl⟩, -, -, -, -, vp, ⟨-, -, -, rfl⟩, rfl⟩ := hv2
    exact (book_deposit (s' := r.1) (v' := r.2) hr).1
  · rename_i hlt
    rw [if_neg hlt]
    simp only [bind_ok_iff, subU_ok_iff, addU128_ok_iff, pure_ok_iff] at hv2
    obtain ⟨n, ⟨-, rfl⟩, z, ⟨-, rfl⟩, rfl⟩ := hv2
    exact (book_deposit (s' := r.1) (v' := r.2) hr).1

theorem book_relock_balance {s s' : State} {c : Ctx} {d x : Nat} (h : s.relock_from_balance c d x = .ok s') :
    s'.book = s.book.lock c.predecessor { s.book.acct c.predecessor with
      balance := (s.book.acct c.predecessor).balance - x } x d := by
  simp only [State.relock_from_balance, bind_ok_iff, require_ok_iff, subU_ok_iff, pure_ok_iff] at h
  obtain ⟨v, hv, -, hb, -, -, y, ⟨-, rfl⟩, r, hr, rfl⟩ := h
  obtain ⟨-, rfl⟩ := get_voter_ok hv
  exact (book_deposit (s' := r.1) (v' := r.2) hr).1

/-! ## Clearing and withdrawing -/

theorem clear_fold {now : Nat} : ∀ {r : List Nat} {v v' : Voter}, r.foldlM (Voter.clear_one now) v = .ok v' →
    v' = { v with
      balance := (cleared now (v.balance, v.locking_positions) r).1
      locking_positions := (cleared now (v.balance, v.locking_positions) r).2 }
  | [], v, v', h => by rw [foldlM_ok_nil] at h; subst h; rfl
  | i :: r, v, v', h => by
    rw [foldlM_ok_cons] at h
    obtain ⟨v1, h1, h2⟩ := h
    simp only [Voter.clear_one, bind_ok_iff, get_position_ok] at h1
    obtain ⟨p, hp, h1⟩ := h1
    simp only [cleared, hp]
    split at h1
    · rename_i hu
      simp only [bind_ok_iff, addU128_ok_iff, pure_ok_iff] at h1
      obtain ⟨b, ⟨-, rfl⟩, rfl⟩ := h1
      rw [if_pos ((is_unlocked_iff _ _).1 hu), clear_fold h2]
      rfl
    · rename_i hu
      simp only [pure_ok_iff] at h1
      subst h1
      rw [if_neg (fun hm => hu ((is_unlocked_iff _ _).2 hm)), clear_fold h2]

theorem sortDesc_highest (l : List Nat) : Voter.sortDesc l = highestFirst l := by
  have h1 : (highestFirst l).Perm l := List.mergeSort_perm _ _
  have h2 : (highestFirst l).Pairwise (fun a b => decide (b ≤ a) = true) :=
    List.pairwise_mergeSort (by intro a b c; simp only [decide_eq_true_eq]; omega)
      (by intro a b; simp only [Bool.or_eq_true, decide_eq_true_eq]; omega) l
  refine List.Perm.eq_of_pairwise (le := (· ≥ ·)) (fun a b _ _ h h' => Nat.le_antisymm h' h) (sortDesc_ge l)
    (h2.imp (by intro a b h; simpa using h)) ((List.perm_insertionSort _ _).trans h1.symm)

theorem clear_book {now : Nat} {l : List Nat} {v v' : Voter} (h : v.clear_fully_unlocked_positions now l = .ok v') :
    v' = v.clearedAt now l := by
  unfold Voter.clear_fully_unlocked_positions at h
  rw [sortDesc_highest] at h
  exact clear_fold h

theorem clearedAt_nil (v : Voter) (now : Nat) : v.clearedAt now [] = v := by
  unfold Voter.clearedAt
  rw [show highestFirst [] = [] from List.mergeSort_nil]
  rfl

theorem book_withdraw {s s' : State} {x : Ctx} {id : String} {l : List Nat} {a : Nat} {t : Transfer}
    (h : s.internal_withdraw x id l (if a = 0 then none else some a) = .ok (s', t)) :
    s'.book = s.book.pay id x.now l a ∧ t = ⟨s.mpdao_token_contract_address, id, s.book.withdrawn id x.now l a,
      .after_transfer_mpdao id (s.book.withdrawn id x.now l a)⟩ := by
  obtain ⟨v, v2, -, rfl, -, h1, h2, -, rfl, -, hle, rfl⟩ := internal_withdraw_ok h
  have e : v2 = (s.voterD id).clearedAt x.now l := by
    by_cases hl : l = []
    · subst hl; rw [h1 rfl, clearedAt_nil]
    · exact clear_book (h2 hl)
  have ew : (if a = 0 then none else some a).getD v2.balance = s.book.withdrawn id x.now l a := by
    rw [e]
    unfold Book.withdrawn
    split <;> rfl
  rw [ew] at hle ⊢
  refine ⟨?_, rfl⟩
  unfold Book.pay
  rw [book_acct, ← e]
  split
  · rename_i hz
    rw [if_pos ⟨by omega, hz.2⟩]
    exact book_erase s id
  · rename_i hz
    rw [if_neg (fun hh => hz ⟨by omega, hh.2⟩)]
    exact book_put s id _

theorem indexes_matured (v : Voter) (now : Nat) : v.get_unlocked_position_indexes now = maturedAt now v.locking_positions := by
  unfold Voter.get_unlocked_position_indexes maturedAt
  congr 1
  funext i
  cases v.locking_positions[i]? with
  | none => rfl
  | some p => exact Bool.eq_iff_iff.2 ((is_unlocked_iff _ _).trans decide_eq_true_iff.symm)

theorem book_withdraw_all {s s' : State} {x : Ctx} {t : Transfer} (h : s.withdraw_all x = .ok (s', t)) :
    s'.book = s.book.pay x.predecessor x.now (maturedAt x.now (s.book.acct x.predecessor).locking_positions) 0 ∧
    t = ⟨s.mpdao_token_contract_address, x.predecessor, (s.book.acct x.predecessor).withdrawable x.now,
      .after_transfer_mpdao x.predecessor ((s.book.acct x.predecessor).withdrawable x.now)⟩ := by
  obtain ⟨v, hv, ht⟩ := withdraw_all_ok h
  rw [← voterD_of_get hv, indexes_matured] at ht
  obtain ⟨h1, h2⟩ := book_withdraw (a := 0) ht
  refine ⟨h1, ?_⟩
  have e : s.book.withdrawn x.predecessor x.now
      (maturedAt x.now (s.voterD x.predecessor).locking_positions) 0 = (s.voterD x.predecessor).withdrawable x.now := by
    obtain ⟨v, v2, -, rfl, -, h1, h2, -, -⟩ := internal_withdraw_ok ht
    unfold Book.withdrawn
    rw [if_pos rfl, book_acct, ← indexes_matured]
    by_cases hl : (s.voterD x.predecessor).get_unlocked_position_indexes x.now = []
    · rw [hl, clearedAt_nil, withdrawable_none (indexes_nil hl)]
    · rw [← indexes_matured] at h2
      have := h2 hl
      rw [← clear_book this]
      rw [← (clear_took this).withdrawable, withdrawable_none (clear_all this)]
  rw [h2]
  exact congr (congrArg _ e) (congrArg _ e)

/-! ## Claims -/

theorem book_claim {s s' : State} {id : String} {n : Nat} (h : s.remove_claimable_stnear id n = .ok s') :
    s'.book = s.book.claim id n := by
  obtain ⟨-, -, rfl⟩ := remove_claimable_stnear_ok h
  exact Book.ext rfl rfl rfl rfl rfl rfl rfl (take_upd _ _ _) rfl rfl rfl rfl rfl rfl rfl rfl

theorem book_claim_mpdao {s s' : State} {id : String} {n : Nat} (h : s.remove_claimable_mpdao id n = .ok s') :
    s'.book = { s.book with
      mpdao := upd s.book.mpdao id (s.book.mpdao id - n), mpdaoOwed := s.book.mpdaoOwed - n } := by
  obtain ⟨-, -, rfl⟩ := remove_claimable_mpdao_ok h
  exact Book.ext rfl rfl rfl rfl (take_upd _ _ _) rfl rfl rfl rfl rfl rfl rfl rfl rfl rfl rfl

theorem book_claim_and_lock {s s' : State} {c : Ctx} {a d : Nat} (h : s.claim_and_lock c a d = .ok s') :
    s'.book = ({ s.book with
      mpdao := upd s.book.mpdao c.predecessor (s.book.mpdao c.predecessor - a)
      mpdaoOwed := s.book.mpdaoOwed - a }).lock c.predecessor (s.book.acct c.predecessor) a d := by
  obtain ⟨-, s1, v, h1, hv, v', h2⟩ := claim_and_lock_ok h
  rw [(book_deposit h2).1, book_claim_mpdao h1, book_acct, voterD_of_get hv]

theorem insert_upd (m : UMap String Nat) (id : String) (x : Nat) :
    (fun i => ((m.insert id x).get i).getD 0) = upd (fun i => (m.get i).getD 0) id x := by
  funext i
  rw [UMap.get_insert, upd]
  by_cases h : id = i
  · subst h; simp
  · simp [h, Ne.symm h]

theorem book_restore_stnear {s s' : State} {id : String} {n : Nat} (h : s.add_claimable_stnear id n = .ok s') :
    s'.book = { s.book with
      stnear := upd s.book.stnear id (s.book.stnear id + n), stnearOwed := s.book.stnearOwed + n } := by
  obtain ⟨-, -, rfl⟩ := add_claimable_stnear_ok h
  exact Book.ext rfl rfl rfl rfl rfl rfl rfl (insert_upd _ _ _) rfl rfl rfl rfl rfl rfl rfl rfl

theorem book_restore_mpdao {s s' : State} {id : String} {n : Nat} (h : s.restore_transfer_to_mpdao n id = .ok s') :
    s'.book = s.book.put id { s.book.acct id with balance := (s.book.acct id).balance + n } := by
  simp only [State.restore_transfer_to_mpdao, bind_ok_iff, addU128_ok_iff, pure_ok_iff, internal_get_voter_eq] at h
  obtain ⟨x, ⟨-, rfl⟩, rfl⟩ := h
  exact book_put s id _

/-! ## Migration and mirroring -/

theorem book_migration_fold {id : String} : ∀ {l : List (Nat × Nat)} {s : State} {r : State × Voter},
    l.foldlM (State.migration_step id) (s, s.voterD id) = .ok r →
    r.1.book = l.foldl (fun b x => b.lock id (b.acct id) (x.1 / 10 ^ 18) x.2) s.book
  | [], s, r, h => by rw [foldlM_ok_nil] at h; subst h; rfl
  | x :: l, s, r, h => by
    rw [foldlM_ok_cons] at h
    obtain ⟨⟨s1, v1⟩, h1, h2⟩ := h
    obtain ⟨e1, e2⟩ := book_deposit h1
    rw [← e2] at h2
    rw [book_migration_fold h2, e1, List.foldl_cons]
    rfl

theorem book_migration {s s' : State} {J : Json} {c : Ctx} {id : String} {l : List (Nat × Nat)} {d : Option String}
    (h : s.migration_create_lps c id l d = .ok s') :
    s'.book = s.book.change J c (.migration_create_lps id l d) := by
  obtain ⟨-, r, hr, hs⟩ := migration_ok h
  rw [hs]
  simp only [Book.change]
  rw [← book_migration_fold hr]
  refine Book.ext rfl rfl rfl rfl rfl rfl rfl rfl rfl rfl ?_ rfl rfl rfl rfl rfl
  simp only [State.book]
  cases d with
  | none => rfl
  | some x =>
    cases hd : s.associated_user_data.get c.predecessor with
    | none => simp only [if_true]; exact get_insert_upd _ _ _
    | some y => rfl

theorem book_mirror_loop {n : Nat} : ∀ (fuel : Nat) (s : State) (v : Voter) (used : Nat) (r : State × Voter × Nat),
    State.mirror_remove_votes n fuel s v used = .ok r →
    r.1.book = s.book.loseAll (takenBack n (takenVotes v.vote_positions) used) ∧
    r.2.1.vote_positions = dropAll v.vote_positions (takenBack n (takenVotes v.vote_positions) used) ∧
    r.2.1.balance = v.balance ∧ r.1.voters = s.voters ∧ r.1.total_voting_power = s.total_voting_power ∧
    r.2.2 = used - powerIn (takenBack n (takenVotes v.vote_positions) used)
  | fuel, s, v, used, r, hx => by
    unfold State.mirror_remove_votes at hx
    split at hx
    · rename_i hlt
      cases fuel with
      | zero => simp at hx
      | succ fuel =>
        simp only [bind_ok_iff, expect_ok_iff, subU_ok_iff] at hx
        obtain ⟨app, happ, obj, hobj, ⟨s1, v1⟩, hr, u, ⟨hle, rfl⟩, hx⟩ := hx
        obtain ⟨-, -, -, rfl, rfl⟩ := remove_voting_ok hr
        have hof : v.votesOf app.1 obj.1 = obj.2 := by
          rw [Voter.votesOf, vget_eq, head_get happ, Option.getD_some, head_get hobj, Option.getD_some]
        obtain ⟨i1, i2, i3, i4, i5, i6⟩ := book_mirror_loop fuel _ _ _ r hx
        rw [takenVotes_vdel happ hobj, takenBack, if_pos hlt]
        rw [book_lose, hof] at i1
        refine ⟨i1, ?_, i3, i4, i5, ?_⟩
        · rw [i2, dropAll, drop_eq]
        · rw [i6]
          simp only [powerIn, List.map_cons, List.sum_cons]
          omega
    · rename_i hlt
      simp only [pure_ok_iff] at hx
      subst hx
      have e : takenBack n (takenVotes v.vote_positions) used = [] := by
        cases takenVotes v.vote_positions with
        | nil => rfl
        | cons x l => rw [takenBack, if_neg hlt]
      rw [e]
      exact ⟨rfl, rfl, rfl, rfl, rfl, rfl⟩

theorem loseAll_voter : ∀ (l : List (String × String × Nat)) (b : Book), (b.loseAll l).voter = b.voter ∧
    (b.loseAll l).voters = b.voters
  | [], _ => ⟨rfl, rfl⟩
  | x :: l, b => loseAll_voter l (b.loseVotes x.1 x.2.1 x.2.2)

theorem book_mirror {s s' : State} {c : Ctx} {e : String} {l : List (Nat × Nat)}
    (hr : s.operator_mirror_lps c e l = .ok s') : s'.book = s.book.mirror (e ++ ".evmp.near") l := by
  have hid : pseudo_near_address e = e ++ ".evmp.near" := rfl
  generalize e ++ ".evmp.near" = id at hid ⊢
  simp only [State.operator_mirror_lps, State.assert_operator, require_ok_iff, bind_ok_iff,
    addU128_ok_iff, subU_ok_iff, pure_ok_iff, internal_get_voter_eq, sumU128_ok_iff, hid] at hr
  obtain ⟨-, hop, u, hu, prev, ⟨-, rfl⟩, vps, hvps, nvp, ⟨-, rfl⟩, ⟨s1, v1, u1⟩, hloop, ⟨s2, v2⟩, hcr, av,
    ⟨hav, rfl⟩, tot, ⟨htot, rfl⟩, rfl⟩ := hr
  have hu' := sum_used_votes_ok hu
  subst hu'
  obtain ⟨e1, e2⟩ := mirror_create_exact hcr
  simp only at e1 e2
  subst e1 e2
  rw [mirror_powers hvps] at hloop
  obtain ⟨i1, i2, i3, i4, i5, i6⟩ := book_mirror_loop _ _ _ _ _ hloop
  simp only at i1 i2 i3 i4 i5 i6
  refine (book_put_power s1 _ id _).trans ?_
  unfold Book.mirror Book.excess
  rw [book_acct, i1, i2, i3, i5, i6, book_power]
  simp only [List.nil_append, Nat.zero_add]
  rfl

/-! ## Deposits, distributions and delegations -/

theorem digits_value : ∀ {l : List UInt8} {n d : Nat}, digits l n = some d →
    d = l.foldl (fun v (x : UInt8) => v * 10 + (x.toNat - 48)) n
  | [], n, d, h => by cases h; rfl
  | x :: l, n, d, h => by
    rw [digits] at h
    split at h
    · exact digits_value (l := l) h
    · cases h

theorem digits_parsed {ds : List UInt8} {d : Nat} (h : (if ds = [] then none else match digits ds 0 with
      | some n => if n ≤ U16_MAX then some n else none
      | none => none) = some d) : d = ds.foldl (fun v (x : UInt8) => v * 10 + (x.toNat - 48)) 0 := by
  split at h
  · cases h
  · split at h
    · rename_i n hn
      split at h
      · cases h; exact digits_value hn
      · cases h
    · cases h

theorem parse_decimal {m : List UInt8} {d : Nat} (h : parse_u16 m = some d) : d = decimal m := by
  unfold parse_u16 at h
  rw [digits_parsed h]
  unfold decimal
  split
  · rfl
  · rename_i hm
    split
    · exact absurd rfl (hm _)
    · rfl

theorem book_distribute {s s' : State} {J : Json} {c : Ctx} {a : Nat} {se : String} {m : List UInt8}
    {info : List (String × Nat)} (hm : forClaims m) (hi : J.parse_claims (m.drop 11) = some info)
    (h : s.distribute_for_claims c a info = .ok s') : s'.book = s.book.receive J c se a m := by
  have hci : claimItems J m = info := by unfold claimItems; rw [hi]; rfl
  unfold Book.receive
  rw [if_pos hm, hci]
  simp only [State.distribute_for_claims, bind_ok_iff, require_ok_iff, pure_ok_iff] at h
  obtain ⟨⟨s1, t1⟩, hr, -, hta, rfl⟩ := h
  simp only at hta
  split at hr
  · rename_i hp
    rw [if_pos (show c.predecessor = s.book.config.mpdao from hp)]
    simp only [bind_ok_iff, addU128_ok_iff, pure_ok_iff, Prod.mk.injEq] at hr
    obtain ⟨⟨s2, t2⟩, hf, acc, ⟨-, rfl⟩, rfl, rfl⟩ := hr
    obtain ⟨-, h2, h3, h4, -⟩ := dist_mpdao_ok hf
    simp only [Nat.zero_add] at h2 h3 h4 hta
    subst h2
    rw [h3, hta]
    rw [← E6_eq]
    refine Book.ext rfl rfl rfl rfl ?_ rfl rfl rfl rfl rfl rfl rfl rfl rfl rfl rfl
    funext id
    exact h4 id
  · split at hr
    · rename_i hp hp2
      rw [if_neg (show ¬ c.predecessor = s.book.config.mpdao from hp)]
      simp only [bind_ok_iff, addU128_ok_iff, pure_ok_iff, Prod.mk.injEq] at hr
      obtain ⟨⟨s2, t2⟩, hf, acc, ⟨-, rfl⟩, rfl, rfl⟩ := hr
      obtain ⟨-, h2, h3, h4, -⟩ := dist_stnear_ok hf
      simp only [Nat.zero_add] at h2 h3 h4 hta
      subst h2
      rw [h3, hta]
      rw [show (10 : Nat) ^ 20 = E20 by unfold E20; norm_num]
      refine Book.ext rfl rfl rfl rfl rfl rfl rfl ?_ rfl rfl rfl rfl rfl rfl rfl rfl
      funext id
      exact h4 id
    · cases hr

theorem book_receive {s s' : State} {J : Json} {c : Ctx} {a : Nat} {se : String} {m : List UInt8}
    (h : s.ft_on_transfer J c se a m = .ok s') : s'.book = s.book.receive J c se a m := by
  rcases ft_on_transfer_ok h with ⟨info, hm, hi, hd⟩ | ⟨t, v', hm, hp, ht, hmin, hd⟩
  · exact book_distribute (has_prefix_true hm) hi hd
  · unfold Book.receive
    rw [if_neg (show ¬ forClaims m from has_prefix_false hm), (book_deposit hd).1]
    rcases deposit_target_ok ht with ⟨h1, h2, -⟩ | ⟨h1, h2, h3⟩
    · rw [if_pos h1, h2]; rfl
    · rw [if_neg h1, ← h2, ← parse_decimal h3]; rfl

theorem book_add_delegate (s : State) (e id sig : String) : (s.add_delegate e id sig).book = s.book.grant e id sig := by
  unfold State.add_delegate Book.grant
  rw [← book_putList]
  exact Book.ext rfl rfl rfl rfl rfl rfl rfl rfl rfl rfl rfl rfl (get_insert_upd _ _ _) rfl rfl rfl

theorem book_drop_delegate {s s' : State} {e id : String} (h : s.drop_previous_delegate e id = .ok s') :
    s'.book = s.book.revoke e id := by
  simp only [State.drop_previous_delegate, bind_ok_iff, expect_ok_iff, pure_ok_iff] at h
  obtain ⟨l, hl, rfl⟩ := h
  unfold Book.revoke
  rw [show s.book.delegated id = some l from hl, Option.getD_some]
  simp only [List.length_eq_zero_iff]
  split
  · exact book_eraseList s id
  · exact book_putList s id _

theorem book_unask (s : State) (e : String) : ({ s with evm_pre_delegation := s.evm_pre_delegation.remove e }).book =
    { s.book with asked := upd s.book.asked e none } :=
  Book.ext rfl rfl rfl rfl rfl rfl rfl rfl rfl rfl rfl (get_remove_upd _ _) rfl rfl rfl rfl

theorem book_confirm {s s' : State} {c : Ctx} {e : String} (h : s.operator_confirm_delegated_evm_address c e = .ok s') :
    s'.book = s.book.confirm e := by
  simp only [State.operator_confirm_delegated_evm_address, assert_one_yocto, State.assert_operator, bind_ok_iff,
    require_ok_iff] at h
  obtain ⟨-, -, -, -, h⟩ := h
  unfold Book.confirm
  rw [show s.book.asked e = s.evm_pre_delegation.get e from rfl,
    show s.book.granted e = s.evm_delegation_signatures.get e from rfl]
  cases hp : s.evm_pre_delegation.get e with
  | none => rw [hp] at h; simp only [pure_ok_iff] at h; rw [h]
  | some x =>
    rw [hp] at h
    simp only at h
    cases hg : s.evm_delegation_signatures.get e with
    | none =>
      rw [hg] at h
      simp only [pure_ok_iff] at h
      subst h
      rw [book_add_delegate, book_unask]
    | some y =>
      rw [hg] at h
      simp only at h ⊢
      split at h
      · rename_i hy
        rw [if_pos hy]
        simp only [pure_ok_iff] at h
        subst h
        exact book_unask s e
      · rename_i hy
        rw [if_neg hy]
        simp only [bind_ok_iff, pure_ok_iff] at h
        obtain ⟨s1, h1, rfl⟩ := h
        rw [book_add_delegate, book_drop_delegate h1, book_unask]

theorem book_remove_delegate {s s' : State} {c : Ctx} {e : String} (h : s.remove_delegated_evm_address c e = .ok s') :
    s'.book = { s.book.putList c.predecessor (((s.book.delegated c.predecessor).getD []).filter (fun x => x ≠ e)) with
      granted := upd s.book.granted e none } := by
  simp only [State.remove_delegated_evm_address, assert_one_yocto, bind_ok_iff, require_ok_iff, expect_ok_iff,
    pure_ok_iff] at h
  obtain ⟨-, -, y, hy, -, -, l, hl, rfl⟩ := h
  rw [show s.book.delegated c.predecessor = some l from hl, Option.getD_some, ← book_putList]
  exact Book.ext rfl rfl rfl rfl rfl rfl rfl rfl rfl rfl rfl rfl (get_remove_upd _ _) rfl rfl rfl

theorem book_data_fold : ∀ (l : List (String × String)) (m : UMap String String),
    (l.foldl (fun m d => m.insert d.1 d.2) m).get = l.foldl (fun f x => upd f x.1 (some x.2)) m.get
  | [], _ => rfl
  | x :: l, m => by
    rw [List.foldl_cons, List.foldl_cons, book_data_fold l, get_insert_upd]

end Verif.MetaVote
