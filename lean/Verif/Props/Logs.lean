import Verif.MetaVote.LogText
import Verif.MetaVote.LogRead
import Verif.Props.Book

/-!
# C84: the log tells the votes and the payments
-/

namespace Verif.MetaVote

open Verif

/-! ## Votes in the books -/

/-- Votes of the books. -/
def Book.given (b : Book) : Votes := fun v a o => ((b.acct v).vote_positions.get a).bind (·.get o)

/-- The table after the news of a line. -/
def told (f : Votes) (l : Line) : Votes := match l.news with
  | some n => n.apply f
  | none => f

theorem given_congr {b b' : Book} (h : b'.voter = b.voter) : b'.given = b.given := by
  unfold Book.given Book.acct
  rw [h]

theorem acct_put (b : Book) (id : String) (r : Voter) (v : String) :
    (b.put id r).acct v = if v = id then r else b.acct v := by
  unfold Book.acct Book.put upd
  simp only
  split <;> rfl

theorem given_put_same {b : Book} {id : String} {r : Voter} (h : r.vote_positions = (b.acct id).vote_positions) :
    (b.put id r).given = b.given := by
  funext v a o
  unfold Book.given
  rw [acct_put]
  split
  · rename_i e; rw [e, h]
  · rfl

theorem given_put_keep {b b' : Book} {id : String} {r : Voter} (hb : b'.voter = b.voter)
    (h : r.vote_positions = (b.acct id).vote_positions) : (b'.put id r).given = b.given := by
  rw [given_put_same, given_congr hb]
  rw [h, Book.acct, Book.acct, hb]

theorem given_lock {b : Book} {id : String} {r : Voter} {a d : Nat}
    (h : r.vote_positions = (b.acct id).vote_positions) : (b.lock id r a d).given = b.given := by
  unfold Book.lock
  generalize powerOf a d = n
  exact given_put_keep rfl h

theorem given_give {b b' : Book} (id a o : String) (n : Nat) (r : Voter) (hb : b'.voter = b.voter)
    (h : r.vote_positions = giveVote (b.acct id).vote_positions a o n) :
    (b'.put id r).given = (News.now id a o n).apply b.given := by
  funext v a' o'
  show (((b'.put id r).acct v).vote_positions.get a').bind (·.get o') =
    if v = id ∧ a' = a ∧ o' = o then some n else ((b.acct v).vote_positions.get a').bind (·.get o')
  rw [acct_put]
  by_cases e : v = id
  · subst e
    simp only [if_true, true_and, h]
    exact bind_get_vset _ a o n a' o'
  · rw [if_neg e, if_neg (fun h => e h.1), Book.acct, Book.acct, hb]

theorem given_drop {b b' : Book} (id a o : String) (r : Voter) (hb : b'.voter = b.voter)
    (h : r.vote_positions = dropVote (b.acct id).vote_positions a o) :
    (b'.put id r).given = (News.none id a o).apply b.given := by
  funext v a' o'
  show (((b'.put id r).acct v).vote_positions.get a').bind (·.get o') =
    if v = id ∧ a' = a ∧ o' = o then none else ((b.acct v).vote_positions.get a').bind (·.get o')
  rw [acct_put]
  by_cases e : v = id
  · subst e
    simp only [if_true, true_and, h, drop_eq]
    exact bind_get_vdel _ a o a' o'
  · rw [if_neg e, if_neg (fun h => e h.1), Book.acct, Book.acct, hb]

theorem given_erase (b : Book) (id : String) : (b.erase id).given = (News.gone id).apply b.given := by
  funext v a' o'
  unfold Book.given News.apply Book.acct Book.erase upd
  simp only
  split <;> rfl

theorem given_dropAll {b b' : Book} (id : String) (hb : b'.voter = b.voter) : ∀ (l : List (String × String × Nat))
    (m : UMap String (UMap String Nat)) (f : Votes) (r : Voter), r.vote_positions = dropAll m l →
    (∀ v a o, f v a o = if v = id then (m.get a).bind (·.get o) else b.given v a o) →
    (b'.put id r).given = (l.map fun x => Line.unvoted id x.2.1 x.1).foldl told f
  | [], m, f, r, h, hf => by
    funext v a o
    rw [List.map_nil, List.foldl_nil, hf]
    unfold Book.given
    rw [acct_put]
    split
    · rw [h]; rfl
    · rw [Book.acct, Book.acct, hb]
  | x :: l, m, f, r, h, hf => by
    rw [List.map_cons, List.foldl_cons]
    refine given_dropAll id hb l (dropVote m x.1 x.2.1) _ r h fun v a o => ?_
    show (if v = id ∧ a = x.1 ∧ o = x.2.1 then none else f v a o) = _
    rw [hf, drop_eq, bind_get_vdel]
    by_cases e : v = id
    · simp only [e, true_and, if_true]
    · simp only [e, false_and, if_false]

/-! ## Lines and books -/

theorem mirror_lines_taken {id : String} {n : Nat} : ∀ (fuel : Nat) (s : State) (v : Voter) (used : Nat)
    (r : State × Voter × Nat), State.mirror_remove_votes n fuel s v used = .ok r →
    State.mirror_removed_lines id n fuel s v used =
      (takenBack n (takenVotes v.vote_positions) used).map fun x => Line.unvoted id x.2.1 x.1
  | fuel, s, v, used, r, hx => by
    unfold State.mirror_remove_votes at hx
    unfold State.mirror_removed_lines
    split at hx
    · rename_i hlt
      cases fuel with
      | zero => simp at hx
      | succ fuel =>
        simp only [bind_ok_iff, expect_ok_iff, subU_ok_iff] at hx
        obtain ⟨app, happ, obj, hobj, ⟨s1, v1⟩, hr, u, ⟨hle, rfl⟩, hx⟩ := hx
        simp only [if_pos hlt, happ, hobj, hr]
        rw [mirror_lines_taken fuel _ _ _ r hx]
        obtain ⟨-, -, -, rfl, rfl⟩ := remove_voting_ok hr
        rw [takenVotes_vdel happ hobj, takenBack, if_pos hlt]
        rfl
    · rename_i hlt
      have e : takenBack n (takenVotes v.vote_positions) used = [] := by
        cases takenVotes v.vote_positions with
        | nil => rfl
        | cons x l => rw [takenBack, if_neg hlt]
      rw [e, if_neg hlt]
      rfl

theorem mirror_lines_eq {s s' : State} {c : Ctx} {e : String} {l : List (Nat × Nat)}
    (hr : s.operator_mirror_lps c e l = .ok s') : s.mirror_lines e l =
    .mirror (s.voterD (e ++ ".evmp.near")).power (mirrorPower l) (s.voterD (e ++ ".evmp.near")).used ::
      (s.book.excess (e ++ ".evmp.near") l).map fun x => Line.unvoted (e ++ ".evmp.near") x.2.1 x.1 := by
  have hid : pseudo_near_address e = e ++ ".evmp.near" := rfl
  unfold State.mirror_lines
  generalize e ++ ".evmp.near" = id at hid ⊢
  simp only [State.operator_mirror_lps, State.assert_operator, require_ok_iff, bind_ok_iff,
    addU128_ok_iff, subU_ok_iff, pure_ok_iff, internal_get_voter_eq, sumU128_ok_iff, hid] at hr
  obtain ⟨-, hop, u, hu, prev, ⟨-, rfl⟩, vps, hvps, nvp, ⟨-, rfl⟩, ⟨s1, v1, u1⟩, hloop, -⟩ := hr
  have hu' := sum_used_votes_ok hu
  subst hu'
  rw [mirror_powers hvps] at hloop
  simp only [hid, internal_get_voter_eq, hu, hvps, Res.getOr, mirror_powers hvps]
  rw [mirror_lines_taken _ _ _ _ _ hloop]
  rfl

theorem withdraw_lines_eq {s s' : State} {x : Ctx} {id : String} {l : List Nat} {a : Nat} {t : Transfer}
    (h : s.internal_withdraw x id l (if a = 0 then none else some a) = .ok (s', t)) :
    s.withdraw_lines x id l (if a = 0 then none else some a) =
      if ((s.book.acct id).clearedAt x.now l).balance = s.book.withdrawn id x.now l a ∧
        ((s.book.acct id).clearedAt x.now l).locking_positions = [] then [Line.godspeed id] else [] := by
  obtain ⟨v, v2, -, rfl, -, h1, h2, -, -, -, hle, -⟩ := internal_withdraw_ok h
  have e : v2 = (s.voterD id).clearedAt x.now l := by
    by_cases hl : l = []
    · subst hl; rw [h1 rfl, clearedAt_nil]
    · exact clear_book (h2 hl)
  have ew : (if a = 0 then none else some a).getD v2.balance = s.book.withdrawn id x.now l a := by
    rw [e]
    unfold Book.withdrawn
    split <;> rfl
  have ev : (if l ≠ [] then ((s.voterD id).clear_fully_unlocked_positions x.now l).getOr (s.voterD id)
      else s.voterD id) = v2 := by
    by_cases hl : l = []
    · subst hl; rw [if_neg (by simp), h1 rfl]
    · rw [if_pos hl, h2 hl]; rfl
  unfold State.withdraw_lines
  simp only [internal_get_voter_eq, ev, ew]
  rw [ew] at hle
  rw [book_acct, ← e]
  simp only [Voter.is_empty, Bool.and_eq_true, beq_iff_eq, List.isEmpty_iff]
  by_cases hz : v2.balance = s.book.withdrawn id x.now l a ∧ v2.locking_positions = []
  · rw [if_pos hz, if_pos ⟨by omega, hz.2⟩]
  · rw [if_neg hz, if_neg (fun hh => hz ⟨by omega, hh.2⟩)]

theorem given_pay (b : Book) (id : String) (now : Nat) (is : List Nat) (a : Nat) : (b.pay id now is a).given =
    (if ((b.acct id).clearedAt now is).balance = b.withdrawn id now is a ∧
      ((b.acct id).clearedAt now is).locking_positions = [] then [Line.godspeed id] else []).foldl told b.given := by
  unfold Book.pay
  split
  · exact given_erase b id
  · exact given_put_same rfl

theorem given_cast (b : Book) (id : String) (n : Nat) (a o : String) :
    (b.cast id n a o).given = told b.given (.gave id n o a) := by
  unfold Book.cast
  refine (given_give (b := b) id a o ((b.acct id).votesOf a o + n) _ rfl rfl).trans ?_
  show News.apply _ (.now id a o _) = News.apply _ (.more id a o n)
  unfold News.apply
  simp only
  have : (b.acct id).votesOf a o = (b.given id a o).getD 0 := by
    rw [Voter.votesOf, vget_eq]
    unfold Book.given
    cases (b.acct id).vote_positions.get a <;> rfl
  rw [this]

theorem given_uncast (b : Book) (id a o : String) : (b.uncast id a o).given = told b.given (.unvoted id o a) :=
  given_drop (b := b) id a o _ rfl rfl

theorem given_recast (b : Book) (id : String) (n : Nat) (a o : String) : (b.recast id n a o).given =
    told b.given (if n = 0 then .unvoted id o a else if (b.acct id).votesOf a o < n then .increased id n o a
      else .decreased id n o a) := by
  unfold Book.recast
  by_cases h0 : n = 0
  · rw [if_pos h0, if_pos h0]; exact given_uncast b id a o
  · rw [if_neg h0, if_neg h0]
    by_cases h1 : (b.acct id).votesOf a o < n
    · rw [if_pos h1, if_pos h1]
      exact given_give (b := b) id a o n _ rfl rfl
    · rw [if_neg h1, if_neg h1]
      exact given_give (b := b) id a o n _ rfl rfl

theorem given_unlock (b : Book) (id : String) (now i : Nat) (p : LockingPosition) :
    (b.unlock id now i p).given = b.given := by
  unfold Book.unlock
  exact given_put_keep rfl rfl

theorem given_split (b : Book) (id : String) (now i a : Nat) (p : LockingPosition) :
    (b.split id now i a p).given = b.given := by
  unfold Book.split
  generalize powerOf a p.locking_period = n
  exact given_put_keep rfl rfl

theorem given_extend (b : Book) (id : String) (i d : Nat) (p : LockingPosition) :
    (b.extend id i d p).given = b.given := by
  unfold Book.extend
  generalize powerOf p.amount d = n
  exact given_put_keep rfl rfl

theorem given_migrate (id : String) : ∀ (l : List (Nat × Nat)) (b : Book),
    (l.foldl (fun b x => b.lock id (b.acct id) (x.1 / 10 ^ 18) x.2) b).given = b.given
  | [], _ => rfl
  | x :: l, b => by rw [List.foldl_cons, given_migrate id l, given_lock rfl]

theorem votes_told {J : Json} {s s' : State} {c : Ctx} {k : Call} {out : List Transfer}
    (hx : exec J s c k = .ok (s', out)) : s'.book.given = (s.lines J c k).foldl told s.book.given := by
  have hb := (C82_call hx).1
  have hg : s'.book.given = (s.book.change J c k).given := by rw [hb]; exact given_congr rfl
  rw [hg]
  obtain ⟨-, -, -, hr⟩ := exec_ok.1 hx
  cases k <;> simp only [run, quiet_ok, sends_ok] at hr
  case new_ => simp [new] at hr
  case migrate => simp [migrate, expect, bind_ok_iff] at hr
  case vote => exact given_cast _ _ _ _ _
  case vote_delegated => exact given_cast _ _ _ _ _
  case unvote => exact given_uncast _ _ _ _
  case unvote_delegated => exact given_uncast _ _ _ _
  case rebalance n a o =>
    show (s.book.recast c.predecessor n a o).given = (s.rebalance_lines c.predecessor n a o).foldl told _
    rw [given_recast, book_acct]
    have : (((s.internal_get_voter c.predecessor).get_vote_position_for_address a).get o).getD 0
        = (s.voterD c.predecessor).votesOf a o := by
      rw [Voter.votesOf, vget_eq, internal_get_voter_eq]; rfl
    unfold State.rebalance_lines
    simp only [this]
    split
    · rfl
    · split <;> rfl
  case operator_mirror_lps e l =>
    show (s.book.mirror (e ++ ".evmp.near") l).given = (s.mirror_lines e l).foldl told _
    rw [mirror_lines_eq hr.1, List.foldl_cons]
    unfold Book.mirror
    refine given_dropAll _ (loseAll_voter _ _).1 _ (s.book.acct (e ++ ".evmp.near")).vote_positions _ _ rfl fun v a o => ?_
    show s.book.given v a o = _
    split
    · rename_i ee; rw [ee]; rfl
    · rfl
  case withdraw l a =>
    obtain ⟨t, ht, rfl⟩ := hr
    show (s.book.pay c.predecessor c.now l a).given = (s.withdraw_lines c c.predecessor l _).foldl told _
    rw [withdraw_lines_eq ht]
    exact given_pay _ _ _ _ _
  case withdraw_all =>
    obtain ⟨t, ht, rfl⟩ := hr
    obtain ⟨v, hv, ht⟩ := withdraw_all_ok ht
    show (s.book.pay c.predecessor c.now _ 0).given = (s.withdraw_lines c c.predecessor
      ((s.internal_get_voter c.predecessor).get_unlocked_position_indexes c.now) (if 0 = 0 then none else some 0)).foldl told _
    rw [← voterD_of_get hv] at ht
    rw [internal_get_voter_eq, withdraw_lines_eq (a := 0) ht, indexes_matured]
    exact given_pay _ _ _ _ _
  case ft_on_transfer se a m =>
    show (s.book.receive J c se a m).given = (s.on_transfer_lines J se a m).foldl told _
    have h1 : (s.on_transfer_lines J se a m).foldl told s.book.given = s.book.given := by
      unfold State.on_transfer_lines
      split
      · split <;> rfl
      · rfl
    rw [h1]
    unfold Book.receive
    split
    · split <;> exact given_congr rfl
    · split
      · split
        · exact given_lock rfl
        · rfl
      · exact given_lock rfl
  case after_transfer_mpdao_callback id a =>
    simp only [Book.change, State.lines]
    have h1 : (if c.promise_results.head? = some true then [Line.withdrawn a id] else [Line.failed_mpdao a id]).foldl
        told s.book.given = s.book.given := by split <;> rfl
    rw [h1]
    split
    · exact given_put_same rfl
    · rfl
  case after_transfer_stnear_callback id a =>
    simp only [Book.change, State.lines]
    have h1 : (if c.promise_results.head? = some true then [Line.withdrawn_stnear id a]
        else [Line.failed_stnear a id]).foldl told s.book.given = s.book.given := by split <;> rfl
    rw [h1]
    split <;> exact given_congr rfl
  case migration_create_lps id l d =>
    exact (given_congr rfl).trans (given_migrate id l s.book)
  case claim_and_lock => exact given_lock rfl
  case unlock_position =>
    simp only [Book.change]
    split
    · exact given_unlock _ _ _ _ _
    · rfl
  case unlock_partial_position i a =>
    have h1 : (s.unlock_partial_lines c.predecessor i a).foldl told s.book.given = s.book.given := by
      unfold State.unlock_partial_lines
      split
      · split <;> rfl
      · rfl
    show _ = (s.unlock_partial_lines c.predecessor i a).foldl told s.book.given
    rw [h1]
    simp only [Book.change]
    split
    · split
      · exact given_unlock _ _ _ _ _
      · exact given_split _ _ _ _ _ _
    · rfl
  case locking_position_extend_days =>
    simp only [Book.change]
    split
    · exact given_extend _ _ _ _ _
    · rfl
  case relock_position =>
    simp only [Book.change]
    split
    · exact given_lock rfl
    · rfl
  case relock_partial_position =>
    simp only [Book.change]
    split
    · split <;> exact given_lock rfl
    · rfl
  case relock_from_balance => exact given_lock rfl
  case clear_locking_position => exact given_put_same rfl
  case operator_confirm_delegated_evm_address e =>
    simp only [Book.change]
    refine given_congr ?_
    unfold Book.confirm
    split
    · rfl
    · split
      · rfl
      · split
        · rfl
        · unfold Book.grant Book.revoke
          simp only
          split <;> rfl
  all_goals exact given_congr rfl

/-- **C84**: in every execution the votes of every voter are those that the lines tell. -/
theorem C84_votes {J : Json} {me : AccountId} {w : World} {L : List Line} (h : Logged J me w L) :
    w.st.book.given = L.foldr (fun l f => told f l) (fun _ _ _ => none) := by
  induction h with
  | init h =>
    cases h with
    | mk o op a b d l v m st r p ts s hr hts h =>
      simp only [new, bind_ok_iff, require_ok_iff, pure_ok_iff] at h
      obtain ⟨-, -, -, -, rfl⟩ := h
      rfl
  | call c k s' out _ hme hres hm hclock hu64 hexec ih =>
    rw [List.foldr_append, List.foldr_reverse, ← ih]
    exact votes_told hexec
  | @resolve w L pre post t ok ts _ hpend hclock hu64 ih =>
    cases hx : exec J w.st ⟨me, me, 0, ts, [ok]⟩ t.callbackCall with
    | error p =>
      simp only [Res.getOr, Res.isOk, Bool.false_eq_true, if_false, List.nil_append]
      exact ih
    | ok r =>
      obtain ⟨s', out⟩ := r
      simp only [Res.getOr, Res.isOk, if_true]
      rw [List.foldr_append, List.foldr_reverse, ← ih]
      exact votes_told hx
  | tick ts _ hclock hu64 ih => exact ih

/-- **C84** (partial): a reader who only sees the text of the lines knows the votes of everybody, if the voters and
apps in them have no space in their names. -/
theorem C84_text_partial {J : Json} {me : AccountId} {w : World} {L : List Line} (h : Logged J me w L)
    (ht : ∀ l ∈ L, l.tidy) (v a o : String) :
    votesRead (L.map Line.text) v a o = ((w.st.voterD v).vote_positions.get a).bind (·.get o) ∧
    w.st.get_votes_for_object v a o = (votesRead (L.map Line.text) v a o).getD 0 := by
  have key : ∀ L : List Line, (∀ l ∈ L, l.tidy) →
      votesRead (L.map Line.text) = L.foldr (fun l f => told f l) (fun _ _ _ => none) := by
    intro L
    induction L with
    | nil => intro _; rfl
    | cons l L ih =>
      intro ht
      rw [List.map_cons, votesRead, read_text l (ht l List.mem_cons_self), List.foldr_cons,
        ← ih fun x hx => ht x (List.mem_cons_of_mem _ hx)]
      unfold told
      cases l.news <;> rfl
  have e : votesRead (L.map Line.text) v a o = ((w.st.voterD v).vote_positions.get a).bind (·.get o) := by
    rw [key L ht, ← C84_votes h]; rfl
  refine ⟨e, ?_⟩
  rw [e]
  unfold State.get_votes_for_object
  rw [internal_get_voter_eq]
  cases (w.st.voterD v).vote_positions.get a <;> rfl

/-- **C84** (partial): the same text, the same votes. -/
theorem C84_same_partial {J J' : Json} {me me' : AccountId} {w w' : World} {L L' : List Line} (h : Logged J me w L)
    (h' : Logged J' me' w' L') (ht : ∀ l ∈ L, l.tidy) (ht' : ∀ l ∈ L', l.tidy)
    (e : L.map Line.text = L'.map Line.text) (v a o : String) :
    w.st.get_votes_for_object v a o = w'.st.get_votes_for_object v a o := by
  rw [(C84_text_partial h ht v a o).2, (C84_text_partial h' ht' v a o).2, e]

/-! ## Payments and deposits -/

theorem mirror_lines_only {id : String} {n : Nat} : ∀ (fuel : Nat) (s : State) (v : Voter) (used : Nat),
    ∀ l ∈ State.mirror_removed_lines id n fuel s v used, ∃ o a, l = .unvoted id o a
  | fuel, s, v, used, l, hl => by
    unfold State.mirror_removed_lines at hl
    split at hl
    · split at hl
      · simp at hl
      · split at hl
        · simp at hl
        · split at hl
          · simp at hl
          · split at hl
            · simp at hl
            · rcases List.mem_cons.1 hl with rfl | hl
              · exact ⟨_, _, rfl⟩
              · exact mirror_lines_only _ _ _ _ _ hl
    · simp at hl

/-- Lines about payments are written by the callbacks only. -/
theorem lines_no_payment {J : Json} {s : State} {c : Ctx} {k : Call} (h1 : ∀ v a, k ≠ .after_transfer_mpdao_callback v a)
    (h2 : ∀ v a, k ≠ .after_transfer_stnear_callback v a) : ∀ l ∈ s.lines J c k,
    (∀ n v, l ≠ .withdrawn n v) ∧ ∀ v n, l ≠ .withdrawn_stnear v n := by
  intro l hl
  cases k <;> simp only [State.lines] at hl
  case after_transfer_mpdao_callback v a => exact absurd rfl (h1 v a)
  case after_transfer_stnear_callback v a => exact absurd rfl (h2 v a)
  case operator_mirror_lps e q =>
    unfold State.mirror_lines at hl
    rcases List.mem_cons.1 hl with rfl | hl
    · exact ⟨fun _ _ => by simp, fun _ _ => by simp⟩
    · obtain ⟨o, a, rfl⟩ := mirror_lines_only _ _ _ _ _ hl
      exact ⟨fun _ _ => by simp, fun _ _ => by simp⟩
  case rebalance n a o =>
    unfold State.rebalance_lines at hl
    simp only at hl
    split at hl
    · simp only [List.mem_singleton] at hl; subst hl; exact ⟨fun _ _ => by simp, fun _ _ => by simp⟩
    · split at hl
      all_goals simp only [List.mem_singleton] at hl; subst hl; exact ⟨fun _ _ => by simp, fun _ _ => by simp⟩
  case unlock_partial_position i a =>
    unfold State.unlock_partial_lines at hl
    split at hl
    · split at hl
      all_goals simp only [List.mem_singleton] at hl; subst hl; exact ⟨fun _ _ => by simp, fun _ _ => by simp⟩
    · simp at hl
  case ft_on_transfer se a m =>
    unfold State.on_transfer_lines at hl
    split at hl
    · split at hl
      · simp only [List.mem_singleton] at hl; subst hl; exact ⟨fun _ _ => by simp, fun _ _ => by simp⟩
      · simp at hl
    · simp at hl
  case withdraw q a =>
    unfold State.withdraw_lines at hl
    simp only [List.mem_ite_nil_right, List.mem_singleton] at hl
    obtain ⟨-, rfl⟩ := hl
    exact ⟨fun _ _ => by simp, fun _ _ => by simp⟩
  case withdraw_all =>
    unfold State.withdraw_lines at hl
    simp only [List.mem_ite_nil_right, List.mem_singleton] at hl
    obtain ⟨-, rfl⟩ := hl
    exact ⟨fun _ _ => by simp, fun _ _ => by simp⟩
  all_goals first
    | (simp only [List.mem_singleton] at hl; subst hl; exact ⟨fun _ _ => by simp, fun _ _ => by simp⟩)
    | simp at hl

theorem sum_zero {α : Type} {f : α → Nat} : ∀ {l : List α}, (∀ x ∈ l, f x = 0) → (l.map f).sum = 0
  | [], _ => rfl
  | x :: l, h => by
    rw [List.map_cons, List.sum_cons, h x List.mem_cons_self, sum_zero fun y hy => h y (List.mem_cons_of_mem _ hy)]

theorem paidLines_app (id : String) (l L : List Line) : paidLines id (l.reverse ++ L) = paidLines id l + paidLines id L := by
  unfold paidLines
  rw [List.map_append, List.sum_append, List.map_reverse, List.sum_reverse]

theorem paidStLines_app (id : String) (l L : List Line) :
    paidStLines id (l.reverse ++ L) = paidStLines id l + paidStLines id L := by
  unfold paidStLines
  rw [List.map_append, List.sum_append, List.map_reverse, List.sum_reverse]

/-- The amount that the callback gives back is the amount of the transfer, and fits a `u128`. -/
def Transfer.faithful (t : Transfer) : Prop := t.amount ≤ U128_MAX ∧ match t.callback with
  | .after_transfer_mpdao _ a => a = t.amount
  | .after_transfer_stnear _ a => a = t.amount

theorem withdraw_fits {s s' : State} {c : Ctx} {id : String} {l : List Nat} {am : Option Nat} {t : Transfer}
    (hfit : (s.voterD id).balance ≤ U128_MAX) (hw : s.internal_withdraw c id l am = .ok (s', t)) : t.faithful := by
  obtain ⟨v, v2, -, rfl, -, hl0, hl1, -, rfl, -, hle, -⟩ := internal_withdraw_ok hw
  refine ⟨?_, rfl⟩
  simp only
  refine hle.trans ?_
  by_cases hl : l = []
  · rw [hl0 hl]; exact hfit
  · exact (clear_edits (k := .withdraw_all) (s := s) (id := id) (hl1 hl)).fits hfit

theorem sends_faithful {J : Json} {s s' : State} {c : Ctx} {k : Call} {out : List Transfer}
    (hfit : ∀ id, (s.voterD id).balance ≤ U128_MAX) (hx : exec J s c k = .ok (s', out)) : ∀ t ∈ out, t.faithful := by
  obtain ⟨-, -, hin, hr⟩ := exec_ok.1 hx
  cases k <;> simp only [run, quiet_ok, sends_ok] at hr
  case claim_stnear a =>
    obtain ⟨t, ht, rfl⟩ := hr
    obtain ⟨-, rfl⟩ := claim_stnear_ok ht
    simp only [Call.in_range, decide_eq_true_eq] at hin
    simp only [List.mem_singleton, forall_eq]
    exact ⟨hin, rfl⟩
  case delegated_claim_stnear e a =>
    obtain ⟨t, ht, rfl⟩ := hr
    obtain ⟨-, -, rfl⟩ := delegated_claim_ok ht
    simp only [Call.in_range, decide_eq_true_eq] at hin
    simp only [List.mem_singleton, forall_eq]
    exact ⟨hin, rfl⟩
  case withdraw l a =>
    obtain ⟨t, ht, rfl⟩ := hr
    simp only [List.mem_singleton, forall_eq]
    exact withdraw_fits (hfit _) ht
  case withdraw_all =>
    obtain ⟨t, ht, rfl⟩ := hr
    simp only [State.withdraw_all, bind_ok_iff] at ht
    obtain ⟨v, -, hw⟩ := ht
    simp only [List.mem_singleton, forall_eq]
    exact withdraw_fits (hfit _) hw
  all_goals
    obtain ⟨-, rfl⟩ := hr
    simp

/-- **C84**: the lines about payments are the payments: for every account, the mpDAO and the stNEAR that the lines
report as paid are those of the transfers that were executed. -/
theorem C84_paid {J : Json} {me : AccountId} {w : World} {L : List Line} (h : Logged J me w L) (id : String) :
    paidLines id L = logPaid (mpOf id) w.log ∧ paidStLines id L = logPaid (stOf id) w.log := by
  suffices hs : (paidLines id L = logPaid (mpOf id) w.log ∧ paidStLines id L = logPaid (stOf id) w.log) ∧
      ∀ t ∈ w.pending, t.faithful from hs.1
  induction h with
  | init h => cases h; exact ⟨⟨rfl, rfl⟩, fun t ht => by simp at ht⟩
  | @call w L c k s' out hw hme hres hm hclock hu64 hexec ih =>
    obtain ⟨⟨i1, i2⟩, i3⟩ := ih
    have hreach := hw.reach
    have hk : (∀ v a, k ≠ .after_transfer_mpdao_callback v a) ∧ ∀ v a, k ≠ .after_transfer_stnear_callback v a := by
      obtain ⟨-, -, -, hr⟩ := exec_ok.1 hexec
      constructor
      all_goals
        rintro v a rfl
        simp only [run, quiet_ok, State.after_transfer_mpdao_callback, State.after_transfer_stnear_callback, hres,
          List.head?_nil, bind_ok_iff, expect_ok_iff] at hr
        obtain ⟨⟨x, hx, -⟩, -⟩ := hr
        simp at hx
    have hl := lines_no_payment (J := J) (s := w.st) (c := c) hk.1 hk.2
    have z1 : paidLines id (w.st.lines J c k) = 0 := by
      refine sum_zero fun x hx => ?_
      obtain ⟨h1, -⟩ := hl x hx
      cases x <;> first | rfl | exact absurd rfl (h1 _ _)
    have z2 : paidStLines id (w.st.lines J c k) = 0 := by
      refine sum_zero fun x hx => ?_
      obtain ⟨-, h1⟩ := hl x hx
      cases x <;> first | rfl | exact absurd rfl (h1 _ _)
    refine ⟨⟨?_, ?_⟩, fun t ht => ?_⟩
    · rw [paidLines_app, z1, Nat.zero_add, i1]
      unfold logPaid
      rw [List.map_cons, List.sum_cons, Nat.zero_add]
    · rw [paidStLines_app, z2, Nat.zero_add, i2]
      unfold logPaid
      rw [List.map_cons, List.sum_cons, Nat.zero_add]
    · rcases List.mem_append.1 ht with ht | ht
      · exact i3 t ht
      · exact sends_faithful (fun id => (reach_fundOK hreach id).1) hexec t ht
  | @resolve w L pre post t ok ts _ hpend hclock hu64 ih =>
    obtain ⟨⟨i1, i2⟩, i3⟩ := ih
    have hf : t.faithful := i3 t (by rw [hpend]; simp)
    refine ⟨?_, fun x hx => i3 x (by
      rw [hpend]
      rcases List.mem_append.1 hx with hx | hx
      · exact List.mem_append_left _ hx
      · exact List.mem_append_right _ (List.mem_cons_of_mem _ hx))⟩
    obtain ⟨tok, rec, am, cb⟩ := t
    cases ok with
    | false =>
      have z : ∀ l ∈ (if Res.isOk (exec J w.st ⟨me, me, 0, ts, [false]⟩ (Transfer.callbackCall ⟨tok, rec, am, cb⟩)) then
          (w.st.lines J ⟨me, me, 0, ts, [false]⟩ (Transfer.callbackCall ⟨tok, rec, am, cb⟩)).reverse else []),
          (∃ n v, l = .failed_mpdao n v) ∨ ∃ n v, l = .failed_stnear n v := by
        intro l hl
        split at hl
        · cases cb with
          | after_transfer_mpdao v a =>
            simp only [Transfer.callbackCall, State.lines, List.head?_cons, Option.some.injEq, Bool.false_eq_true,
              if_false, List.reverse_cons, List.reverse_nil, List.nil_append, List.mem_singleton] at hl
            exact .inl ⟨_, _, hl⟩
          | after_transfer_stnear v a =>
            simp only [Transfer.callbackCall, State.lines, List.head?_cons, Option.some.injEq, Bool.false_eq_true,
              if_false, List.reverse_cons, List.reverse_nil, List.nil_append, List.mem_singleton] at hl
            exact .inr ⟨_, _, hl⟩
        · simp at hl
      constructor
      · unfold paidLines logPaid at *
        rw [List.map_append, List.sum_append, i1, sum_zero, List.map_cons, List.sum_cons]
        intro x hx
        rcases z x hx with ⟨n, v, rfl⟩ | ⟨n, v, rfl⟩ <;> rfl
      · unfold paidStLines logPaid at *
        rw [List.map_append, List.sum_append, i2, sum_zero, List.map_cons, List.sum_cons]
        intro x hx
        rcases z x hx with ⟨n, v, rfl⟩ | ⟨n, v, rfl⟩ <;> rfl
    | true =>
      cases cb with
      | after_transfer_mpdao v a =>
        obtain ⟨hle, rfl⟩ : am ≤ U128_MAX ∧ a = am := hf
        have hok : Res.isOk (exec J w.st ⟨me, me, 0, ts, [true]⟩ (Transfer.callbackCall
            ⟨tok, rec, a, .after_transfer_mpdao v a⟩)) = true := by
          simp [exec, Transfer.callbackCall, run, quiet, Call.is_private, Call.in_range, hle, require, expect,
            State.after_transfer_mpdao_callback, bind, Except.bind, pure, Except.pure, Res.isOk]
        rw [hok]
        simp only [Transfer.callbackCall, State.lines, List.head?_cons, if_true, List.reverse_cons, List.reverse_nil,
          List.nil_append, List.cons_append]
        unfold paidLines paidStLines logPaid at *
        simp only [List.map_cons, List.sum_cons, i1, i2]
        by_cases hv : v = id <;> simp [mpOf, stOf, Transfer.isMpdao, Transfer.source, hv]
      | after_transfer_stnear v a =>
        obtain ⟨hle, rfl⟩ : am ≤ U128_MAX ∧ a = am := hf
        have hok : Res.isOk (exec J w.st ⟨me, me, 0, ts, [true]⟩ (Transfer.callbackCall
            ⟨tok, rec, a, .after_transfer_stnear v a⟩)) = true := by
          simp [exec, Transfer.callbackCall, run, quiet, Call.is_private, Call.in_range, hle, require, expect,
            State.after_transfer_stnear_callback, bind, Except.bind, pure, Except.pure, Res.isOk]
        rw [hok]
        simp only [Transfer.callbackCall, State.lines, List.head?_cons, if_true, List.reverse_cons, List.reverse_nil,
          List.nil_append, List.cons_append]
        unfold paidLines paidStLines logPaid at *
        simp only [List.map_cons, List.sum_cons, i1, i2]
        by_cases hv : v = id <;> simp [mpOf, stOf, Transfer.isMpdao, Transfer.source, hv]
  | tick ts _ hclock hu64 ih => exact ih

/-- **C84** (partial): the text of the lines says all that the lines say, payments, deposits, failures and positions included,
if the accounts and apps in them have no space in their names: a reader gets every line back. -/
theorem C84_text_lines_partial {L : List Line} (h : ∀ l ∈ L, l.plain) : (L.map Line.text).filterMap readAll = L ∧
    ∀ {L' : List Line}, (∀ l ∈ L', l.plain) → L.map Line.text = L'.map Line.text → L = L' := by
  have key : ∀ {L : List Line}, (∀ l ∈ L, l.plain) → (L.map Line.text).filterMap readAll = L := by
    intro L
    induction L with
    | nil => intro _; rfl
    | cons l L ih =>
      intro h
      rw [List.map_cons, List.filterMap_cons, readAll_text l (h l List.mem_cons_self)]
      simp only
      rw [ih fun x hx => h x (List.mem_cons_of_mem _ hx)]
  exact ⟨key h, fun h' e => by rw [← key h, e, key h']⟩

/-- **C84** (partial): who reads the text knows what was paid to whom. -/
theorem C84_text_paid_partial {J : Json} {me : AccountId} {w : World} {L : List Line} (h : Logged J me w L)
    (hp : ∀ l ∈ L, l.plain) (id : String) : paidLines id ((L.map Line.text).filterMap readAll) = logPaid (mpOf id) w.log ∧
    paidStLines id ((L.map Line.text).filterMap readAll) = logPaid (stOf id) w.log := by
  rw [(C84_text_lines_partial hp).1]
  exact C84_paid h id

/-- **C84**: a deposit reports the account it is for and its amount: the mpDAO held for every account grows by the
deposits that the lines report for it. -/
theorem C84_deposits {J : Json} {s s' : State} {c : Ctx} {se : String} {a : Nat} {m : List UInt8} {out : List Transfer}
    (hm : ¬ forClaims m) (hx : exec J s c (.ft_on_transfer se a m) = .ok (s', out)) (id : String) :
    (s'.voterD id).held = (s.voterD id).held + depositLines id (s.lines J c (.ft_on_transfer se a m)) := by
  obtain ⟨-, -, rfl, hf⟩ := ft_call_ok hx
  rcases ft_on_transfer_ok hf with ⟨info, hp, -⟩ | ⟨t, v', hp, -, ht, hmin, hd⟩
  · exact absurd (has_prefix_true hp) hm
  · have hl : s.lines J c (.ft_on_transfer se a m) = [.deposit a t.1] := by
      simp only [State.lines, State.on_transfer_lines, hp, ht]
    have hfr := deposit_veffect (o := 0) hd rfl _ rfl (Nat.zero_le _)
    rw [hl]
    unfold depositLines
    simp only [List.map_cons, List.map_nil, List.sum_cons, List.sum_nil, Nat.add_zero]
    by_cases hv : t.1 = id
    · subst hv
      rw [if_pos rfl]
      have := hfr.held; omega
    · rw [if_neg hv, Nat.add_zero]
      unfold State.voterD
      rw [hfr.toVFrame.others id fun h => hv h.symm]

/-- **C84**: the lines of an accepted mirroring report the voting power before and after, the votes in use, and one
line for every vote that is taken back, in the order in which they are taken. -/
theorem C84_mirror {J : Json} {s s' : State} {c : Ctx} {e : String} {l : List (Nat × Nat)} {out : List Transfer}
    (hx : exec J s c (.operator_mirror_lps e l) = .ok (s', out)) :
    s.lines J c (.operator_mirror_lps e l) =
    .mirror (s.voterD (e ++ ".evmp.near")).power (mirrorPower l) (s.voterD (e ++ ".evmp.near")).used ::
      (s.book.excess (e ++ ".evmp.near") l).map fun x => Line.unvoted (e ++ ".evmp.near") x.2.1 x.1 := by
  obtain ⟨-, -, -, hr⟩ := exec_ok.1 hx
  simp only [run, quiet_ok] at hr
  exact mirror_lines_eq hr.1

example : Res.isOk (exec demoJ demo.st ⟨"me", "operator", 0, 12000, []⟩ (.operator_mirror_lps "0xee" [(60, 1000000)])) = true ∧
    demo.st.lines demoJ ⟨"me", "operator", 0, 12000, []⟩ (.operator_mirror_lps "0xee" [(60, 1000000)]) =
      [.mirror 8000000000000000000000000 1000000000000000000000000 3000000000000000000000000,
        .unvoted "0xee.evmp.near" "obj2" "app"] := by decide +kernel

/-! ## Examples -/

/-- The lines that an action adds, newest first. -/
def newLines (J : Json) (me : AccountId) (w : World) : Action → List Line
  | .call p d ts k => (w.st.lines J ⟨me, p, d, ts, []⟩ k).reverse
  | .resolve i ok ts => match w.pending[i]? with
    | some t => if Res.isOk (exec J w.st ⟨me, me, 0, ts, [ok]⟩ t.callbackCall) then
        (w.st.lines J ⟨me, me, 0, ts, [ok]⟩ t.callbackCall).reverse else []
    | none => []
  | .tick _ => []

/-- Execute a list of actions and collect the lines. -/
def lruns (J : Json) (me : AccountId) (w : World) (L : List Line) : List Action → Option (World × List Line)
  | [] => some (w, L)
  | a :: l => match act J me w a with
    | some w' => lruns J me w' (newLines J me w a ++ L) l
    | none => none

theorem logged_of_act {J : Json} {me : AccountId} {w w' : World} {L : List Line} {a : Action} (h : Logged J me w L)
    (ha : act J me w a = some w') : Logged J me w' (newLines J me w a ++ L) := by
  cases a with
  | call p d ts k =>
    simp only [act] at ha
    split at ha
    · rename_i hc
      split at ha
      · rename_i r hr
        cases ha
        exact .call ⟨me, p, d, ts, []⟩ k r.1 r.2 h rfl rfl hc.1 hc.2.1 hc.2.2 hr
      · simp at ha
    · simp at ha
  | resolve i ok ts =>
    simp only [act] at ha
    split at ha
    · rename_i t ht
      split at ha
      · rename_i hc
        cases ha
        simp only [newLines, ht]
        refine .resolve _ _ t ok ts h ?_ hc.1 hc.2
        obtain ⟨hi, rfl⟩ := List.getElem?_eq_some_iff.1 ht
        rw [← List.drop_eq_getElem_cons hi, List.take_append_drop]
      · simp at ha
    · simp at ha
  | tick ts =>
    simp only [act] at ha
    split at ha
    · rename_i hc
      cases ha
      exact .tick ts h hc.1 hc.2
    · simp at ha

theorem logged_of_lruns {J : Json} {me : AccountId} : ∀ {l : List Action} {w : World} {L : List Line}
    {r : World × List Line}, Logged J me w L → lruns J me w L l = some r → Logged J me r.1 r.2
  | [], w, L, r, h, e => by cases e; exact h
  | a :: l, w, L, r, h, e => by
    simp only [lruns] at e
    split at e
    · rename_i w1 hw1
      exact logged_of_lruns (logged_of_act h hw1) e
    · simp at e

/-- The run of the examples with a withdrawal that is paid, and the lines of everything. -/
def talked : World × List Line := (lruns demoJ "me" demo0 [] (demoActs ++
  [ .call "alice" 1 (11 * DAY) (.withdraw_all), .resolve 0 true (11 * DAY),
    .call "alice" 0 (12 * DAY) (.rebalance 7000000000000000000000000 "app" "obj2"),
    .call "alice" 0 (12 * DAY) (.unvote "app" "obj #1 x") ])).get (by decide +kernel)

theorem talked_logged : Logged demoJ "me" talked.1 talked.2 :=
  logged_of_lruns (.init demo0_init) (Option.some_get _).symm

instance (l : Line) : Decidable l.tidy := by
  cases l <;> unfold Line.tidy <;> infer_instance

theorem talked_tidy : ∀ l ∈ talked.2, l.tidy := by decide +kernel

instance (l : Line) : Decidable l.plain := by
  cases l <;> unfold Line.plain <;> infer_instance

theorem talked_plain : ∀ l ∈ talked.2, l.plain := by decide +kernel

example : paidLines "alice" ((talked.2.map Line.text).filterMap readAll) = 10000000 := by
  rw [(C84_text_lines_partial talked_plain).1]
  decide +kernel

example : talked.2.length = 12 ∧ talked.2.take 3 = [.unvoted "alice" "obj #1 x" "app",
      .increased "alice" 7000000000000000000000000 "obj2" "app", .withdrawn 10000000 "alice"] ∧
    paidLines "alice" talked.2 = 10000000 ∧ logPaid (mpOf "alice") talked.1.log = 10000000 := by
  decide +kernel

example : votesRead (talked.2.map Line.text) "alice" "app" "obj2" = some 7000000000000000000000000 ∧
    votesRead (talked.2.map Line.text) "alice" "app" "obj #1 x" = none ∧
    votesRead (talked.2.map Line.text) "bob" "app" "obj #1 x" = some 15000000000000000000000000 := by
  refine ⟨?_, ?_, ?_⟩
  all_goals
    rw [(C84_text_partial talked_logged talked_tidy _ _ _).1]
    decide +kernel

example : ¬ forClaims (ascii "60") ∧ depositLines "alice" (demo0.st.lines demoJ ⟨"me", "mpdao", 0, 1000, []⟩
      (.ft_on_transfer "alice" 60000000 (ascii "60"))) = 60000000 ∧
    depositLines "bob" (demo0.st.lines demoJ ⟨"me", "mpdao", 0, 2000, []⟩ (.ft_on_transfer "owner" 30000000 [91, 49]))
      = 30000000 := by decide +kernel

/-- Alice votes for an object of an app. -/
def saying (a o : String) : Option (World × List Line) := lruns demoJ "me" demo0 []
  [ .call "mpdao" 0 1000 (.ft_on_transfer "alice" 60000000 (ascii "60")),
    .call "alice" 0 6000 (.vote 20000000000000000000000000 a o) ]

/-- Two ballots that read the same. -/
def said1 : World × List Line := (saying "x at address y" "o").get (by decide +kernel)
/-- Two ballots that read the same. -/
def said2 : World × List Line := (saying "y" "o at address x").get (by decide +kernel)

/-- **C84** is false of names with spaces: two executions with the same text and different votes.  Apps are any strings. -/
theorem C84_text_false : ∃ (w w' : World) (L L' : List Line), Logged demoJ "me" w L ∧ Logged demoJ "me" w' L' ∧
    L.map Line.text = L'.map Line.text ∧ w.st.get_votes_for_object "alice" "y" "o at address x" = 0 ∧
    w'.st.get_votes_for_object "alice" "y" "o at address x" = 20000000000000000000000000 :=
  ⟨said1.1, said2.1, said1.2, said2.2, logged_of_lruns (.init demo0_init) (Option.some_get _).symm,
    logged_of_lruns (.init demo0_init) (Option.some_get _).symm, by
      have e1 : said1.2 = [.gave "alice" 20000000000000000000000000 "o" "x at address y", .deposit 60000000 "alice"] := by
        decide +kernel
      have e2 : said2.2 = [.gave "alice" 20000000000000000000000000 "o at address x" "y", .deposit 60000000 "alice"] := by
        decide +kernel
      rw [e1, e2]
      have e : ∀ l o sep x y m : String, l ++ o ++ sep ++ (x ++ sep ++ y) ++ m = l ++ (o ++ sep ++ x) ++ sep ++ y ++ m := by
        intro l o sep x y m
        simp only [String.append_assoc]
      have l1 : "x at address y" = "x" ++ " at address " ++ "y" := by decide +kernel
      have l2 : "o at address x" = "o" ++ " at address " ++ "x" := by decide +kernel
      rw [List.map_cons, List.map_cons]
      refine congrArg (· :: _) ?_
      rw [l1, l2]
      exact e _ _ _ _ _ _, by decide +kernel, by decide +kernel⟩

end Verif.MetaVote
