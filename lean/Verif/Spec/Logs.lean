import Verif.Spec.Book
import Verif.MetaVote.Logs

/-!
# A reader of the log

Someone who sees the text of the lines only, splits it at the spaces and keeps a table of votes.
-/

namespace Verif.MetaVote

open Verif

/-- The words of a text, with one space between two words. -/
def words : List Char → List (List Char)
  | [] => [[]]
  | c :: l => if c = ' ' then [] :: words l else match words l with
    | [] => [[c]]
    | w :: r => (c :: w) :: r

/-- Words joined with one space. -/
def unwords : List (List Char) → List Char
  | [] => []
  | [w] => w
  | w :: r => w ++ ' ' :: unwords r

/-- What a line says about votes. -/
inductive News where
  /-- `n` more votes -/
  | more (voter app obj : String) (n : Nat)
  /-- now `n` votes -/
  | now (voter app obj : String) (n : Nat)
  /-- no vote any more -/
  | none (voter app obj : String)
  /-- no votes of this voter any more -/
  | gone (voter : String)
  deriving DecidableEq

/-- Votes of a voter for an object of an app, with `none` when there is no entry. -/
abbrev Votes := String → String → String → Option Nat

/-- The table after the news. -/
def News.apply (f : Votes) : News → Votes
  | more v a o n => fun v' a' o' => if v' = v ∧ a' = a ∧ o' = o then some ((f v a o).getD 0 + n) else f v' a' o'
  | now v a o n => fun v' a' o' => if v' = v ∧ a' = a ∧ o' = o then some n else f v' a' o'
  | none v a o => fun v' a' o' => if v' = v ∧ a' = a ∧ o' = o then Option.none else f v' a' o'
  | gone v => fun v' a' o' => if v' = v then Option.none else f v' a' o'

/-- Object and app at the end of a line: `… at address app.` -/
def place (r : List (List Char)) : Option (String × String) :=
  match r.reverse with
  | a :: x :: y :: o => if x = "address".toList ∧ y = "at".toList ∧ a.getLast? = some '.' then
      some (String.ofList (unwords o.reverse), String.ofList a.dropLast) else Option.none
  | _ => Option.none

/-- What the reader understands. -/
def readLine (t : String) : Option News :=
  match words t.toList with
  | x :: v :: y :: r =>
    if x = "UNVOTE:".toList ∧ y = "unvoted".toList ∧ r.take 1 = ["object".toList] then
      (place (r.drop 1)).map fun p => .none (String.ofList v) p.2 p.1
    else if x = "VOTE:".toList ∧ y = "gave".toList ∧
        (r.drop 1).take 3 = ["votes".toList, "for".toList, "object".toList] then
      (place (r.drop 4)).map fun p => .more (String.ofList v) p.2 p.1 (Nat.ofDigitChars 10 (r.headD []) 0)
    else if x = "VOTE:".toList ∧ (y = "increased".toList ∨ y = "decreased".toList) ∧
        (r.drop 2).take 3 = ["votes".toList, "for".toList, "object".toList] then
      (place (r.drop 5)).map fun p => .now (String.ofList v) p.2 p.1 (Nat.ofDigitChars 10 ((r.drop 1).headD []) 0)
    else if x = "GODSPEED:".toList ∧ y = "is".toList ∧ r.length = 6 then some (.gone (String.ofList v))
    else Option.none
  | _ => Option.none

/-- The table after the lines, the newest first. -/
def votesRead : List String → Votes
  | [] => fun _ _ _ => Option.none
  | t :: l => match readLine t with
    | some n => n.apply (votesRead l)
    | Option.none => votesRead l

/-- The names in the line that come before or after the object have no space. -/
def Line.tidy : Line → Prop
  | gave v _ _ a | increased v _ _ a | decreased v _ _ a | unvoted v _ a => ' ' ∉ v.toList ∧ ' ' ∉ a.toList
  | godspeed v | withdrawn_stnear v _ => ' ' ∉ v.toList
  | _ => True

/-- What a line tells about votes. -/
def Line.news : Line → Option News
  | .gave v n o a => some (.more v a o n)
  | .increased v n o a => some (.now v a o n)
  | .decreased v n o a => some (.now v a o n)
  | .unvoted v o a => some (.none v a o)
  | .godspeed v => some (.gone v)
  | _ => Option.none

/-- The number written in a word. -/
def number (w : List Char) : Nat := Nat.ofDigitChars 10 w 0

/-- What the reader understands of lines that are not about votes. -/
def readOther (t : String) : Option Line :=
  match words t.toList with
  | [x, y, z, u] =>
    if y = "WITHDRAW".toList ∧ u = "stNEAR".toList then some (.withdrawn_stnear (String.ofList x) (number z))
    else if x = "RELOCK:".toList ∧ z = "relocked".toList ∧ u = "position.".toList then some (.relocked_balance (String.ofList y))
    else none
  | [x, v, y, z, i] =>
    if x = "UNLOCK:".toList ∧ y = "unlocked".toList ∧ z = "position".toList then some (.unlocked (String.ofList v) (number i.dropLast))
    else if x = "RELOCK:".toList ∧ y = "relocked".toList ∧ z = "position".toList then
      some (.relocked (String.ofList v) (number i.dropLast))
    else none
  | [x, v, y, z, u, i] =>
    if x = "UNLOCK:".toList ∧ y = "partially".toList ∧ z = "unlocked".toList ∧ u = "position".toList then
      some (.partially_unlocked (String.ofList v) (number i.dropLast))
    else if x = "RELOCK:".toList ∧ y = "partially".toList ∧ z = "relocked".toList ∧ u = "position".toList then
      some (.partially_relocked (String.ofList v) (number i.dropLast))
    else if x = "EXTEND-TIME:".toList ∧ y = "position".toList ∧ i = "days".toList then
      some (.extended (String.ofList v) (number (z.drop 1)) (number u))
    else if x = "DEPOSIT:".toList ∧ y = "mpDAO".toList ∧ z = "deposited".toList ∧ u = "from".toList then
      some (.deposit (number v) (String.ofList i))
    else if x = "WITHDRAW:".toList ∧ y = "mpDAO".toList ∧ z = "transfer".toList ∧ u = "to".toList then
      some (.withdrawn (number v) (String.ofList i))
    else none
  | [x, y, p, z, n, u, i] =>
    if x = "MIRROR:".toList ∧ y = "prev_vp".toList ∧ z = "new_vp".toList ∧ u = "used_vp".toList then
      some (.mirror (number p) (number n) (number i.dropLast))
    else none
  | [x, n, y, _, _, z, v, u] =>
    if x = "FAILED:".toList ∧ y = "mpDAO".toList ∧ z = "Recovering".toList ∧ u = "state.".toList then
      some (.failed_mpdao (number n) (String.ofList v))
    else if x = "FAILED:".toList ∧ y = "stNEAR".toList ∧ z = "Recovering".toList ∧ u = "state.".toList then
      some (.failed_stnear (number n) (String.ofList v))
    else none
  | _ => none

/-- What the reader understands of a line. -/
def readAll (t : String) : Option Line :=
  match readLine t with
  | some (.more v a o n) => some (.gave v n o a)
  | some (.now v a o n) =>
    if (words t.toList)[2]? = some "increased".toList then some (.increased v n o a) else some (.decreased v n o a)
  | some (.none v a o) => some (.unvoted v o a)
  | some (.gone v) => some (.godspeed v)
  | Option.none => readOther t

/-- The account of a line, and the app, have no space in their names. -/
def Line.plain : Line → Prop
  | gave v _ _ a | increased v _ _ a | decreased v _ _ a | unvoted v _ a => ' ' ∉ v.toList ∧ ' ' ∉ a.toList
  | unlocked v _ | partially_unlocked v _ | extended v _ _ | relocked v _ | partially_relocked v _ | relocked_balance v
  | deposit _ v | godspeed v | withdrawn _ v | failed_mpdao _ v | withdrawn_stnear v _ | failed_stnear _ v => ' ' ∉ v.toList
  | mirror .. => True

/-- mpDAO that the lines report as paid to `id`. -/
def paidLines (id : String) (L : List Line) : Nat :=
  (L.map fun l => match l with | .withdrawn n v => if v = id then n else 0 | _ => 0).sum

/-- stNEAR that the lines report as paid for `id`. -/
def paidStLines (id : String) (L : List Line) : Nat :=
  (L.map fun l => match l with | .withdrawn_stnear v n => if v = id then n else 0 | _ => 0).sum

/-- mpDAO that the lines report as deposited for `id`. -/
def depositLines (id : String) (L : List Line) : Nat :=
  (L.map fun l => match l with | .deposit n v => if v = id then n else 0 | _ => 0).sum

/-- What a line says of the books before and after the call that writes it, votes apart. -/
def Line.holds (now : Nat) (b b' : Book) : Line → Prop
  | unlocked v i => ∃ p, (b.acct v).locking_positions[i]? = some p ∧
      (b'.acct v).locking_positions = (b.acct v).locking_positions.set i { p with unlocking_started_at := some now }
  | partially_unlocked v i => ∃ p a, (b.acct v).locking_positions[i]? = some p ∧ a < p.amount ∧
      (b'.acct v).locking_positions = (b.acct v).locking_positions.set i { p with
        voting_power := p.voting_power - powerOf a p.locking_period, amount := p.amount - a } ++
        [⟨a, p.locking_period, powerOf a p.locking_period, some now⟩]
  | extended v i d => ∃ p, (b.acct v).locking_positions[i]? = some p ∧ p.locking_period ≤ d ∧
      (b'.acct v).locking_positions = (b.acct v).locking_positions.set i { p with
        locking_period := d, voting_power := powerOf p.amount d }
  | relocked v i => ∃ p d x, (b.acct v).locking_positions[i]? = some p ∧ p.unlocking_started_at ≠ none ∧
      x ≤ (b.acct v).balance ∧ (b'.acct v).balance = (b.acct v).balance - x ∧
      (b'.acct v).locking_positions = lockOn (p.amount + x) d (swapRemove (b.acct v).locking_positions i)
  | partially_relocked v i => ∃ p a d x, (b.acct v).locking_positions[i]? = some p ∧ p.unlocking_started_at ≠ none ∧
      a ≤ p.amount ∧ x ≤ (b.acct v).balance ∧
      (b'.acct v).locking_positions ∈ [lockOn (x + a) d (swapRemove (b.acct v).locking_positions i),
        lockOn (x + a) d ((b.acct v).locking_positions.set i { p with
          amount := p.amount - a, voting_power := powerOf (p.amount - a) p.locking_period })]
  | relocked_balance v => ∃ d x, x ≤ (b.acct v).balance ∧ (b'.acct v).balance = (b.acct v).balance - x ∧
      (b'.acct v).locking_positions = lockOn x d (b.acct v).locking_positions
  | godspeed v => b.voter v ≠ Option.none ∧ b'.voter v = Option.none
  | deposit n v => (b'.acct v).held = (b.acct v).held + n
  | withdrawn .. | withdrawn_stnear .. => b' = b
  | failed_mpdao n v => (b'.acct v).balance = (b.acct v).balance + n
  | failed_stnear n v => b'.stnear v = b.stnear v + n
  | _ => True

/-- Number of lines of an accepted call that is no mirroring; `gone`: the call deletes the record of the caller. -/
def Call.lineCount (gone : Bool) : Call → Nat
  | .unlock_position _ | .unlock_partial_position .. | .locking_position_extend_days .. | .relock_position ..
  | .relock_partial_position .. | .relock_from_balance .. | .vote .. | .vote_delegated .. | .rebalance .. | .unvote ..
  | .unvote_delegated .. | .after_transfer_mpdao_callback .. | .after_transfer_stnear_callback .. => 1
  | .withdraw .. | .withdraw_all => if gone then 1 else 0
  | .ft_on_transfer _ _ m => if forClaims m then 0 else 1
  | _ => 0

end Verif.MetaVote
