import Verif.Joint.Bytes
import Verif.Joint.Tokens
import Verif.Props.EndToEnd
import Verif.Props.SmallEndToEnd

/-!
# Meta-vote and its two token contracts as deployed: JSON calls, state in bytes, JSON between them

As `Verif.Joint.Tokens`, with the state of every contract in the bytes of its storage and every call, also those between the
contracts, by name and input bytes.  Nothing is in flight when meta-vote is installed.
-/

namespace Verif.MetaVote.Bytes

open Verif Storage Disk Borsh Serde

variable {H : Hash} {N : Names} {me : AccountId}

/-- A step on bytes is a step of the model over storage. -/
theorem JStep.follow (hN : N.OK H) (hme : validAccount me = true) {V V' : Nat} {w w' : BWorld} (hj : JReach H N me anyCall V w)
    (hs : JStep H N me V w V' w') (hV : V' < 2 ^ 32) {S : SState} (h1 : SReach serde me ⟨S, w.pending, w.clock, w.log⟩)
    (h2 : Stored H N (2 ^ 32 - 1 - V) S w.D) :
    ∃ S', SStep serde me ⟨S, w.pending, w.clock, w.log⟩ ⟨S', w'.pending, w'.clock, w'.log⟩ ∧
      Stored H N (2 ^ 32 - 1 - V') S' w'.D := by
  cases hs with
  | call c name b k D' out hr hv hme' hres hm hclock hu64 hlen hk hexec =>
    rcases (C99_call (f := 2 ^ 32 - 1 - (V + weight serde k)) hN h2 hv hu64 hlen).2 k hr hk (by omega) with
      ⟨e, -, he⟩ | ⟨S', D1, out1, hx, he, hst, -⟩
    · rw [hexec] at he; cases he
    · rw [hexec] at he
      cases he
      exact ⟨S', .call ⟨S, w.pending, w.clock, w.log⟩ c k S' out hme' hres hm hclock hu64 hx, hst⟩
  | resolve pre post t ok ts hpend hclock hu64 =>
    have ht : t ∈ w.pending := by rw [hpend]; simp
    obtain ⟨-, -, -, h3⟩ := (C99_reach hN hme hj (by omega)).inv hN (validAccount_fits hme) (by omega)
    have e := callJson_eq (H := H) (D := w.D) (c := ⟨me, me, 0, ts, [ok]⟩) (lpending_faithful h1.loose t ht).callback
    have h0 := h2.exec (J := serde) (c := ⟨me, me, 0, ts, [ok]⟩) (f := 2 ^ 32 - 1 - (V + 3)) hN (k := t.callbackCall)
      (by rw [weight_callback]; omega) (validAccount_fits hme) hu64 (h3 t ht)
    refine ⟨((sexec serde S ⟨me, me, 0, ts, [ok]⟩ t.callbackCall).getOr (S, [])).1, ?_, ?_⟩
    · simp only
      rw [e, ← isOk_rel h0]
      exact .resolve ⟨S, w.pending, w.clock, w.log⟩ pre post t ok ts hpend hclock hu64
    · simp only
      rw [e]
      generalize sexec serde S ⟨me, me, 0, ts, [ok]⟩ t.callbackCall = x at h0
      generalize exec H serde w.D ⟨me, me, 0, ts, [ok]⟩ t.callbackCall = y at h0
      cases x <;> cases y
      · exact h2.mono (by omega)
      · exact h0.elim
      · exact h0.elim
      · exact h0.2
  | tick ts hclock hu64 => exact ⟨S, .tick ⟨S, w.pending, w.clock, w.log⟩ ts hclock hu64, h2⟩

/-- What is installed. -/
theorem new_stored {D D' : Disk} {c : Ctx} {b : Bytes} {o op : AccountId} {x y d l v : Nat} {mp st : AccountId} {r : Nat} {p : String}
    (hb : Blank H N D) (hu64 : c.timestamp ≤ U64_MAX) (hr : Call.read "new" b = some (.new_ o op x y d l v mp st r p))
    (hlen : b.length < 2 ^ 31) (hexec : callJson H D c "new" b = .ok (D', [])) :
    ∃ s, Init ⟨s, [], c.timestamp, []⟩ ∧ s.mpdao_token_contract_address = mp ∧ s.stnear_token_contract_address = st ∧
      Stored H N (2 ^ 32 - 1 - 0) ⟨s, fun _ => 0, Mem.empty⟩ D' := by
  rw [callJson_eq hr] at hexec
  obtain ⟨-, hv, hn⟩ := Call.read_ok hr
  have h0 := hb.new (J := serde) (c := c) (f := 2 ^ 32 - 1 - 0) (by omega) (validAccount_fits hv.1) (validAccount_fits hv.2.1)
    (validAccount_fits hv.2.2.1) (validAccount_fits hv.2.2.2) (read_prev hlen hr) (a := x) (b := y) (d := d) (l := l) (v := v) (r := r)
  rw [hexec] at h0
  generalize hx : (do
      require (c.deposit = 0) "Method doesn't accept deposit"
      require ((Call.new_ o op x y d l v mp st r p).in_range = true) "Failed to deserialize input from JSON."
      MetaVote.new false o op x y d l v mp st r p : Res State) = z at h0
  cases z with
  | error e => exact h0.elim
  | ok s =>
    simp only [bind_ok_iff, require_ok_iff] at hx
    obtain ⟨-, -, -, hr, hnew⟩ := hx
    refine ⟨s, .mk o op x y d l v mp st r p c.timestamp s hr hu64 hnew, ?_, ?_, h0.2⟩
    all_goals
      unfold MetaVote.new at hnew
      simp only [bind_ok_iff, require_ok_iff, pure_ok_iff] at hnew
      obtain ⟨_, _, _, _, rfl⟩ := hnew
      rfl

end Verif.MetaVote.Bytes

namespace Verif.Token.Bytes

open Verif Storage Disk Borsh Serde

/-- A JSON call, accepted or not. -/
theorem tok_call {D : Disk} {s : State} {m : Metadata} (h : Rep D s m) {c : Ctx} (hc : validAccount c.predecessor = true)
    {name : String} {b : Bytes} {k : Call} (hr : Call.read name b = some k) (hk : Room s k) :
    Rep ((callJson D c name b).getOr (D, [], [])).1 ((Token.exec s c k).getOr (s, [])).1 m ∧
      Res.isOk (callJson D c name b) = Res.isOk (Token.exec s c k) := by
  have h0 := (C99_call h hc (name := name) (b := b)).2 k hr hk
  cases hx : Token.exec s c k with
  | error e => rw [hx] at h0; simp only at h0; rw [h0]; exact ⟨h, rfl⟩
  | ok r => rw [hx] at h0; obtain ⟨D', h1, h2, -⟩ := h0; rw [h1]; exact ⟨h2, rfl⟩

/-- A token that was installed and used. -/
theorem used {me : AccountId} {D : Disk} (hD : Blank D) (hme : validAccount me = true) {name0 : String} {b0 : Bytes} {r0 : Disk × List Line}
    (h0 : initJson D name0 b0 = .ok r0) (hb : b0.length < 2 ^ 32) {l : List JInput}
    (hl : ∀ x ∈ l, Exists x) (hn : ((l.filterMap plain).map adds).sum < 2 ^ 32) :
    ∃ w m, Reach me w ∧ Rep (runsJson me ⟨r0.1, []⟩ l).1.disk w.st m ∧ (runsJson me ⟨r0.1, []⟩ l).1.pending = w.pending := by
  unfold initJson at h0
  simp only [bind_ok_iff, expect_ok_iff] at h0
  obtain ⟨⟨owner, supply, m⟩, ha, hx⟩ := h0
  obtain ⟨ho, hs, hd⟩ := initRead_ok ha
  have hv : Valid m := by
    refine Classical.byContradiction fun hv => ?_
    obtain ⟨e, he⟩ := C91_new_refused (D := D) (owner := owner) (supply := supply) (.inr hv)
    rw [hx] at he; cases he
  obtain ⟨D0, s, h1, h2, h3, h4⟩ := C91_new hD (account_id ho) (Nat.lt_succ_of_le hs) ((init_fits ha hb).ok hv hd) hv
  rw [hx] at h1
  cases h1
  rw [runs_json (w := ⟨D0, []⟩) (fun p hp => by cases hp) hl]
  have hf : ∀ x ∈ l.filterMap plain, InputFits x := by
    intro x hx
    obtain ⟨z, hz, e⟩ := List.mem_filterMap.1 hx
    cases z with
    | call c name b =>
      obtain ⟨k, hk, rfl⟩ := Option.map_eq_some_iff.1 e
      exact fits_read hk (hl _ hz)
    | settle i r => cases e; trivial
  have hw := Writes.init (me := me) (125 * 10 ^ 19) owner supply s hs h2
  obtain ⟨w, w1, w2, w3, w4⟩ := runs_rep (b := ⟨D0, []⟩) (account_id hme) hw h3 rfl (fun p hp => by cases hp) hf (by
    rw [(new_ok h2).2.2.2.1]; simpa using hn)
  exact ⟨w, m, C90_exists.2 ⟨_, w1⟩, w2, w3⟩

end Verif.Token.Bytes

namespace Verif.Solvency.Bytes

open Verif Storage Disk Borsh Serde
open Verif.MetaVote (serde)

/-- The hash used for storage keys of meta-vote, the names whose keys do not collide, and the ids of meta-vote, of the mpDAO token
and of the stNEAR token. -/
structure Net where
  H : Hash
  N : MetaVote.Bytes.Names
  me : String
  A : String
  B : String

/-- No collisions among the names, and three different accounts. -/
structure Net.OK (X : Net) : Prop where
  names : X.N.OK X.H
  me : validAccount X.me = true
  tok : ∀ tk, tk = X.A ∨ tk = X.B → validAccount tk = true
  ne : X.A ≠ X.B
  meA : X.me ≠ X.A
  meB : X.me ≠ X.B

/-- The three contracts and the receipts between them.  `V` bounds the entries that were added to a collection of meta-vote and `K`
the minters of a token. -/
structure World where
  V : Nat
  mv : MetaVote.Bytes.BWorld
  K : Nat
  tok : String → Disk
  /-- payments of meta-vote that the token has not executed -/
  sent : List MetaVote.Transfer
  /-- payments executed (`true`) or failed, whose callback has not run -/
  done : List (MetaVote.Transfer × Bool)
  /-- transfer-calls of which the receiver has not been notified -/
  notes : List Note
  /-- transfer-calls with the bytes that the receiver returned (`none`: it failed), not settled -/
  results : List (Note × Option Bytes)
  /-- tokens that meta-vote had at the beginning or got by plain transfers -/
  gifts : String → Nat

/-- The token executes a payment of meta-vote: the bytes that meta-vote wrote (`ft_transfer` with one yocto,
`meta-vote-contract/src/withdraw.rs:66-70,113-117`, `interface.rs:14`). -/
def paying (X : Net) (j : World) (t : MetaVote.Transfer) : Res (Disk × List Token.Promise × List Token.Line) :=
  Token.Bytes.callJson (j.tok t.token) ⟨t.token, X.me, 1, none⟩ t.write.1 t.write.2

/-- The token settles a transfer-call: the bytes that it wrote for itself, and the bytes that the receiver returned. -/
def settling (j : World) (q : Note) (r : Option Bytes) : Res (Disk × List Token.Promise × List Token.Line) :=
  Token.Bytes.callJson (j.tok q.token) ⟨q.token, q.token, 0, r.bind Serde.u128.decode⟩
    (Token.Call.ft_resolve_transfer q.sender q.receiver q.amount).write.1
    (Token.Call.ft_resolve_transfer q.sender q.receiver q.amount).write.2

/-- One thing that happens. -/
inductive Step (X : Net) : World → World → Prop
  /-- a JSON call to meta-vote, not by a token contract, is accepted -/
  | call (j : World) (V' : Nat) (v' : MetaVote.Bytes.BWorld) (c : MetaVote.Ctx) (k : MetaVote.Call) (out : List MetaVote.Transfer)
      (h : MetaVote.Bytes.JStep X.H X.N X.me j.V j.mv V' v') (hlog : v'.log = .call c k out :: j.mv.log)
      (hA : c.predecessor ≠ X.A) (hB : c.predecessor ≠ X.B) (hk : ∀ a, k ≠ .set_stnear_contract a)
      (hm : MetaVote.logCalls (fun _ => MetaVote.migratedBy) v'.log ≤ j.gifts X.A) :
      Step X j { j with V := V', mv := v', sent := j.sent ++ out }
  /-- time passes -/
  | tick (j : World) (V' : Nat) (v' : MetaVote.Bytes.BWorld) (h : MetaVote.Bytes.JStep X.H X.N X.me j.V j.mv V' v')
      (hlog : v'.log = j.mv.log) : Step X j { j with V := V', mv := v' }
  /-- a JSON call to a token by an account is accepted -/
  | token (j : World) (tk : String) (htk : tk = X.A ∨ tk = X.B) (c : Token.Ctx) (name : String) (b : Bytes) (k : Token.Call)
      (D' : Disk) (out : List Token.Promise) (lines : List Token.Line) (hr : Token.Call.read name b = some k)
      (hv : validAccount c.predecessor = true) (hc : c.current = tk) (hme : c.predecessor ≠ X.me) (hself : c.predecessor ≠ tk)
      (h : Token.Bytes.callJson (j.tok tk) c name b = .ok (D', out, lines)) :
      Step X j { j with
        tok := setAt j.tok tk D'
        K := j.K + Token.Bytes.adds (.call c k)
        notes := j.notes ++ notesOf tk out
        gifts := setAt j.gifts tk (j.gifts tk + giftOf X.me k) }
  /-- meta-vote accepts the `ft_on_transfer` that the token wrote, and returns the bytes of 0 (`deposit.rs:63`) -/
  | accept (j : World) (pre post : List Note) (q : Note) (c : MetaVote.Ctx) (D' : Disk) (out : List MetaVote.Transfer)
      (hq : j.notes = pre ++ q :: post) (hr : q.receiver = X.me) (hc : c.predecessor = q.token)
      (hme : c.current = X.me) (hres : c.promise_results = []) (hm : ¬ MetaVote.mirrored c.predecessor)
      (hclock : j.mv.clock ≤ c.timestamp) (hu64 : c.timestamp ≤ U64_MAX)
      (hlen : (MetaVote.Call.ft_on_transfer q.sender q.amount q.msg).write.2.length < 2 ^ 31)
      (hk : MetaVote.Bytes.Named X.N (.ft_on_transfer q.sender q.amount q.msg))
      (hexec : MetaVote.Bytes.callJson X.H j.mv.D c (MetaVote.Call.ft_on_transfer q.sender q.amount q.msg).write.1
        (MetaVote.Call.ft_on_transfer q.sender q.amount q.msg).write.2 = .ok (D', out)) :
      Step X j { j with
        V := j.V + MetaVote.Bytes.weight serde (.ft_on_transfer q.sender q.amount q.msg)
        mv := ⟨D', j.mv.pending ++ out, c.timestamp, .call c (.ft_on_transfer q.sender q.amount q.msg) out :: j.mv.log⟩
        sent := j.sent ++ out
        notes := pre ++ post
        results := j.results ++ [(q, some MetaVote.onTransferResult)] }
  /-- it panics -/
  | reject (j : World) (pre post : List Note) (q : Note) (hq : j.notes = pre ++ q :: post) (hr : q.receiver = X.me) :
      Step X j { j with notes := pre ++ post, results := j.results ++ [(q, none)] }
  /-- another receiver is notified and returns any bytes, or panics -/
  | other (j : World) (pre post : List Note) (q : Note) (r : Option Bytes) (hq : j.notes = pre ++ q :: post)
      (hr : q.receiver ≠ X.me) :
      Step X j { j with notes := pre ++ post, results := j.results ++ [(q, r)] }
  /-- the token settles a transfer-call -/
  | settle (j : World) (pre post : List (Note × Option Bytes)) (q : Note) (r : Option Bytes)
      (hq : j.results = pre ++ (q, r) :: post) :
      Step X j { j with
        results := pre ++ post
        tok := setAt j.tok q.token ((settling j q r).getOr (j.tok q.token, [], [])).1 }
  /-- the token executes a payment of meta-vote, or panics -/
  | pay (j : World) (pre post : List MetaVote.Transfer) (t : MetaVote.Transfer) (hq : j.sent = pre ++ t :: post) :
      Step X j { j with
        sent := pre ++ post
        done := j.done ++ [(t, Res.isOk (paying X j t))]
        tok := setAt j.tok t.token ((paying X j t).getOr (j.tok t.token, [], [])).1 }
  /-- it fails for another reason (gas) -/
  | lost (j : World) (pre post : List MetaVote.Transfer) (t : MetaVote.Transfer) (hq : j.sent = pre ++ t :: post) :
      Step X j { j with sent := pre ++ post, done := j.done ++ [(t, false)] }
  /-- the callback of a payment runs -/
  | callback (j : World) (pre post : List (MetaVote.Transfer × Bool)) (t : MetaVote.Transfer) (ok b : Bool) (V' : Nat)
      (v' : MetaVote.Bytes.BWorld) (hq : j.done = pre ++ (t, ok) :: post)
      (h : MetaVote.Bytes.JStep X.H X.N X.me j.V j.mv V' v') (hlog : v'.log = .resolved t ok b :: j.mv.log) :
      Step X j { j with V := V', mv := v', done := pre ++ post }

/-- A token was installed in JSON on storage without entries of it and has been used by accounts; no transfer-call is in flight. -/
def InUse (tk : String) (D : Disk) : Prop :=
  ∃ D0 name b r l, Token.Bytes.Blank D0 ∧ Token.Bytes.initJson D0 name b = .ok r ∧ b.length < 2 ^ 32 ∧
    (∀ x ∈ l, Token.Bytes.Exists x) ∧ ((l.filterMap Token.Bytes.plain).map Token.Bytes.adds).sum < 2 ^ 32 ∧
    (Token.Bytes.runsJson tk ⟨r.1, []⟩ l).1 = ⟨D, []⟩

/-- Meta-vote has just been installed in JSON, with two tokens in use. -/
structure Start (X : Net) (D0 : Disk) (c : MetaVote.Ctx) (b : Bytes) (D : Disk) (K : Nat) (tok : String → Disk) (gifts : String → Nat) :
    Prop where
  blank : MetaVote.Bytes.Blank X.H X.N D0
  time : c.timestamp ≤ U64_MAX
  read : ∃ o op x y d l v r p, MetaVote.Call.read "new" b = some (.new_ o op x y d l v X.A X.B r p)
  short : b.length < 2 ^ 31
  exec : MetaVote.Bytes.callJson X.H D0 c "new" b = .ok (D, [])
  used : ∀ tk, tk = X.A ∨ tk = X.B → InUse tk (tok tk)
  minters : ∀ tk, tk = X.A ∨ tk = X.B → ∃ l, Token.Bytes.get_minters (tok tk) = .ok l ∧ l.length ≤ K
  gifts : ∀ tk, tk = X.A ∨ tk = X.B → Token.Bytes.ft_balance_of (tok tk) X.me = .ok (gifts tk)

inductive Reach (X : Net) : World → Prop
  | init (D0 : Disk) (c : MetaVote.Ctx) (b : Bytes) (D : Disk) (K : Nat) (tok : String → Disk) (gifts : String → Nat)
      (h : Start X D0 c b D K tok gifts) : Reach X ⟨0, ⟨D, [], c.timestamp, []⟩, K, tok, [], [], [], [], gifts⟩
  | step {j j' : World} (h : Reach X j) (hs : Step X j j') : Reach X j'

/-! ## The model that it follows -/

variable {X : Net}

/-- The answer of a receiver as the token reads it. -/
def heard (x : Note × Option Bytes) : Note × Option Nat := (x.1, x.2.bind Serde.u128.decode)

/-- The world of the model. -/
def abs (j : World) (s : MetaVote.State) (tk : String → Token.State) : Solvency.World :=
  ⟨⟨s, j.mv.pending, j.mv.clock, j.mv.log⟩, tk, j.sent, j.done, j.notes, j.results.map heard, j.gifts⟩

/-- A transfer-call that can be written and read back. -/
def Fine (q : Note) : Prop :=
  validAccount q.sender = true ∧ validAccount q.receiver = true ∧ q.amount ≤ U128_MAX ∧ utf8 (MetaVote.textOf q.msg) = q.msg

/-- The bytes hold the states of the model. -/
structure Sim (X : Net) (j : World) (S : SState) (tk : String → Token.State) (m : String → Token.Bytes.Metadata) : Prop where
  mv : SReach serde X.me ⟨S, j.mv.pending, j.mv.clock, j.mv.log⟩
  stored : MetaVote.Bytes.Stored X.H X.N (2 ^ 32 - 1 - j.V) S j.mv.D
  rep : ∀ a, a = X.A ∨ a = X.B → Token.Bytes.Rep (j.tok a) (tk a) (m a)
  minters : ∀ a, a = X.A ∨ a = X.B → (tk a).minters.length ≤ j.K
  notes : ∀ q ∈ j.notes, Fine q
  results : ∀ x ∈ j.results, Fine x.1
  joint : Solvency.Reach serde X.me X.A X.B (abs j S.st tk)

theorem heard_accepted (q : Note) : heard (q, some MetaVote.onTransferResult) = (q, some 0) := by
  unfold heard
  simp only [Option.bind_some]
  rw [show Serde.u128.decode MetaVote.onTransferResult = some 0 from u128.decode_encode (Nat.zero_le _) (by decide)]

theorem Fine.notify {q : Note} (h : Fine q) :
    MetaVote.Call.read (MetaVote.Call.ft_on_transfer q.sender q.amount q.msg).write.1
      (MetaVote.Call.ft_on_transfer q.sender q.amount q.msg).write.2 = some (.ft_on_transfer q.sender q.amount q.msg) :=
  MetaVote.Call.read_write (k := .ft_on_transfer q.sender q.amount q.msg) (decide_eq_true h.2.2.1) ⟨h.1, h.2.2.2⟩

theorem Fine.resolve {q : Note} (h : Fine q) :
    Token.Call.read (Token.Call.ft_resolve_transfer q.sender q.receiver q.amount).write.1
      (Token.Call.ft_resolve_transfer q.sender q.receiver q.amount).write.2 = some (.ft_resolve_transfer q.sender q.receiver q.amount) :=
  Token.Call.read_write (k := .ft_resolve_transfer q.sender q.receiver q.amount) (decide_eq_true h.2.2.1) ⟨h.1, h.2.1⟩

theorem fine_notes {s s' : Token.State} {c : Token.Ctx} {name : String} {b : Bytes} {k : Token.Call} {out : List Token.Promise} {tk : String}
    (hr : Token.Call.read name b = some k) (hc : validAccount c.predecessor = true) (hx : Token.exec s c k = .ok (s', out)) :
    ∀ q ∈ notesOf tk out, Fine q := by
  rw [exec_notes tk hx]
  obtain ⟨h1, h2, -⟩ := Token.Call.read_ok hr
  cases k with
  | ft_transfer_call r n msg =>
    intro q hq
    simp only [noteOf, List.mem_singleton] at hq
    subst hq
    exact ⟨hc, h2.1, of_decide_eq_true h1, h2.2⟩
  | _ => intro q hq; simp [noteOf] at hq

theorem exec_minters {s : Token.State} {c : Token.Ctx} {k : Token.Call} :
    ((Token.exec s c k).getOr (s, [])).1.minters.length ≤ s.minters.length + Token.Bytes.adds (.call c k) := by
  cases hx : Token.exec s c k with
  | error e => exact Nat.le_add_right _ _
  | ok r => exact Token.Bytes.minters_len (s' := r.1) (out := r.2) hx

theorem Step.le {j j' : World} (h : Step X j j') : j.V ≤ j'.V ∧ j.K ≤ j'.K := by
  have hj : ∀ {V V' : Nat} {v v' : MetaVote.Bytes.BWorld}, MetaVote.Bytes.JStep X.H X.N X.me V v V' v' → V ≤ V' := by
    intro V V' v v' h
    cases h <;> omega
  cases h with
  | call V' v' c k out h => exact ⟨hj h, Nat.le_refl _⟩
  | tick V' v' h => exact ⟨hj h, Nat.le_refl _⟩
  | callback pre post t ok b V' v' hq h => exact ⟨hj h, Nat.le_refl _⟩
  | token | accept | reject | other | settle | pay | lost => simp

theorem setAt_same {α : Type} (f : String → α) (k : String) : setAt f k (f k) = f := by
  funext x
  unfold setAt
  split
  · rename_i h; rw [h]
  · rfl

/-- The bytes after a step hold states that the model reaches by a step. -/
structure Follows (X : Net) (j j' : World) (S S' : SState) (tk tk' : String → Token.State) (m : String → Token.Bytes.Metadata) : Prop where
  mv : SReach serde X.me ⟨S', j'.mv.pending, j'.mv.clock, j'.mv.log⟩
  stored : MetaVote.Bytes.Stored X.H X.N (2 ^ 32 - 1 - j'.V) S' j'.mv.D
  rep : ∀ a, a = X.A ∨ a = X.B → Token.Bytes.Rep (j'.tok a) (tk' a) (m a)
  minters : ∀ a, a = X.A ∨ a = X.B → (tk' a).minters.length ≤ j'.K
  notes : ∀ q ∈ j'.notes, Fine q
  results : ∀ x ∈ j'.results, Fine x.1
  joint : Solvency.Step serde X.me X.A X.B (abs j S.st tk) (abs j' S'.st tk')

theorem stp {v v' : Solvency.World} (h : Solvency.Step serde X.me X.A X.B v v') : Solvency.Step serde X.me X.A X.B v v' := h

theorem Sim.follow {j j' : World} {S : SState} {tk : String → Token.State} {m : String → Token.Bytes.Metadata} (hX : X.OK)
    (hj : MetaVote.Bytes.JReach X.H X.N X.me MetaVote.Bytes.anyCall j.V j.mv) (h : Sim X j S tk m) (hs : Step X j j')
    (hV : j'.V < 2 ^ 32) (hK : j'.K < 2 ^ 32) :
    MetaVote.Bytes.JReach X.H X.N X.me MetaVote.Bytes.anyCall j'.V j'.mv ∧ ∃ S' tk', Follows X j j' S S' tk tk' m := by
  have hi := h.joint.inv
  cases hs with
  | call V' v' c k out hc hlog hA hB hk hm =>
    obtain ⟨S', h1, h2⟩ := hc.follow hX.names hX.me hj hV h.mv h.stored
    exact ⟨hj.next hc, S', tk, h.mv.step h1, h2, h.rep, h.minters, h.notes, h.results,
      stp (X := X) (.call (abs j S.st tk) ⟨S'.st, v'.pending, v'.clock, v'.log⟩ c k out h1.loose hlog hA hB hk hm)⟩
  | tick V' v' hc hlog =>
    obtain ⟨S', h1, h2⟩ := hc.follow hX.names hX.me hj hV h.mv h.stored
    exact ⟨hj.next hc, S', tk, h.mv.step h1, h2, h.rep, h.minters, h.notes, h.results,
      stp (X := X) (.tick (abs j S.st tk) ⟨S'.st, v'.pending, v'.clock, v'.log⟩ h1.loose hlog)⟩
  | token a ha c name b k D' out lines hr hv hc hme hself hx =>
    have hroom : Token.Bytes.Room (tk a) k := by
      cases k with
      | add_minter x =>
        have := h.minters a ha
        simp only [Token.Bytes.adds] at hK
        show (tk a).minters.length + 1 < 2 ^ 32
        omega
      | _ => trivial
    have h0 := (Token.Bytes.C99_call (h.rep a ha) hv (name := name) (b := b)).2 k hr hroom
    cases he : Token.exec (tk a) c k with
    | error e => rw [he] at h0; simp only at h0; rw [hx] at h0; cases h0
    | ok r =>
      rw [he] at h0
      obtain ⟨D1, h1, h2, -⟩ := h0
      rw [hx] at h1
      cases h1
      have hlen := Token.Bytes.minters_len (s' := r.1) (out := r.2) he
      refine ⟨hj, S, setAt tk a r.1, h.mv, h.stored, fun x hm => ?_, fun x hm => ?_, fun q hq => ?_, h.results, ?_⟩
      · by_cases e : x = a
        · subst e; simp only [setAt_self]; exact h2
        · simp only [setAt_ne _ _ e]; exact h.rep x hm
      · have := h.minters x hm
        by_cases e : x = a
        · subst e; simp only [setAt_self]; omega
        · simp only [setAt_ne _ _ e]; omega
      · rcases List.mem_append.1 hq with hq | hq
        · exact h.notes q hq
        · exact fine_notes (s' := r.1) hr hv he q hq
      · exact stp (X := X) (.token (abs j S.st tk) a ha c k r.1 r.2 hc hme hself he)
  | accept pre post q c D' out hq hr hc hme hres hm hclock hu64 hlen hk hexec =>
    have hqm : q ∈ j.notes := by rw [hq]; simp
    have hf := h.notes q hqm
    have hv : validAccount c.predecessor = true := by rw [hc]; exact hX.tok _ (hi.notes q hqm).2
    have hstep := MetaVote.Bytes.JStep.call (N := X.N) (W := j.V) c _ _ _ D' out hf.notify hv hme hres hm hclock hu64 hlen hk hexec
    obtain ⟨S', h1, h2⟩ := hstep.follow hX.names hX.me hj hV h.mv h.stored
    refine ⟨hj.next hstep, S', tk, h.mv.step h1, h2, h.rep, h.minters, fun x hx => h.notes x ?_, fun x hx => ?_, ?_⟩
    · rw [hq]; simp only [List.mem_append, List.mem_cons] at *; tauto
    · rcases List.mem_append.1 hx with hx | hx
      · exact h.results x hx
      · simp only [List.mem_singleton] at hx; rw [hx]; exact hf
    · have := stp (X := X) (.accept (abs j S.st tk) pre post q
        ⟨S'.st, j.mv.pending ++ out, c.timestamp, .call c (.ft_on_transfer q.sender q.amount q.msg) out :: j.mv.log⟩ c out hq hr h1.loose rfl hc)
      simpa only [abs, List.map_append, List.map_cons, List.map_nil, heard_accepted] using this
  | reject pre post q hq hr =>
    refine ⟨hj, S, tk, h.mv, h.stored, h.rep, h.minters, fun x hx => h.notes x ?_, fun x hx => ?_, ?_⟩
    · rw [hq]; simp only [List.mem_append, List.mem_cons] at *; tauto
    · rcases List.mem_append.1 hx with hx | hx
      · exact h.results x hx
      · simp only [List.mem_singleton] at hx; rw [hx]; exact h.notes q (by rw [hq]; simp)
    · have := stp (X := X) (.reject (abs j S.st tk) pre post q hq hr)
      unfold abs
      rw [List.map_append]
      exact this
  | other pre post q r hq hr =>
    refine ⟨hj, S, tk, h.mv, h.stored, h.rep, h.minters, fun x hx => h.notes x ?_, fun x hx => ?_, ?_⟩
    · rw [hq]; simp only [List.mem_append, List.mem_cons] at *; tauto
    · rcases List.mem_append.1 hx with hx | hx
      · exact h.results x hx
      · simp only [List.mem_singleton] at hx; rw [hx]; exact h.notes q (by rw [hq]; simp)
    · have := stp (X := X) (.other (abs j S.st tk) pre post q (r.bind Serde.u128.decode) hq hr)
      unfold abs
      rw [List.map_append]
      exact this
  | settle pre post q r hq =>
    have hqm : (q, r) ∈ j.results := by rw [hq]; simp
    have hf := h.results _ hqm
    have htk := (hi.results _ (List.mem_map_of_mem (f := heard) hqm)).2
    obtain ⟨h1, -⟩ := Token.Bytes.tok_call (h.rep q.token htk) (c := ⟨q.token, q.token, 0, r.bind Serde.u128.decode⟩)
      (hX.tok _ htk) hf.resolve trivial
    refine ⟨hj, S, setAt tk q.token ((Token.exec (tk q.token) ⟨q.token, q.token, 0, r.bind Serde.u128.decode⟩
      (.ft_resolve_transfer q.sender q.receiver q.amount)).getOr (tk q.token, [])).1, h.mv, h.stored, fun x hx => ?_, fun x hx => ?_, h.notes, fun x hx => h.results x ?_, ?_⟩
    rotate_left 3
    · have := stp (X := X) (.settle (abs j S.st tk) (pre.map heard) (post.map heard) q (r.bind Serde.u128.decode)
        (by simp only [abs, hq, List.map_append, List.map_cons]; rfl))
      rw [← List.map_append] at this
      exact this
    · by_cases e : x = q.token
      · subst e; simp only [setAt_self]; exact h1
      · simp only [setAt_ne _ _ e]; exact h.rep x hx
    · by_cases e : x = q.token
      · subst e
        simp only [setAt_self]
        have h2 := h.minters _ hx
        have h3 := exec_minters (s := tk q.token) (c := ⟨q.token, q.token, 0, r.bind Serde.u128.decode⟩)
          (k := .ft_resolve_transfer q.sender q.receiver q.amount)
        simp only [Token.Bytes.adds] at h3
        exact Nat.le_trans h3 h2
      · simp only [setAt_ne _ _ e]; exact h.minters x hx
    · rw [hq]; simp only [List.mem_append, List.mem_cons] at *; tauto
  | pay pre post t hq =>
    have htm : t ∈ j.sent := by rw [hq]; simp
    have htp : t ∈ j.mv.pending := hi.pend.symm.subset (List.mem_append_left _ htm)
    have htk := (hi.toks t htp).mem
    have hread := (MetaVote.lpending_faithful h.mv.loose t htp).payment
    by_cases hv : validAccount t.receiver = true
    · rw [if_pos hv] at hread
      obtain ⟨h1, h4⟩ := Token.Bytes.tok_call (h.rep t.token htk) (c := ⟨t.token, X.me, 1, none⟩) hX.me hread trivial
      refine ⟨hj, S, setAt tk t.token ((Token.exec (tk t.token) ⟨t.token, X.me, 1, none⟩
        (.ft_transfer t.receiver t.amount)).getOr (tk t.token, [])).1, h.mv, h.stored, fun x hx => ?_, fun x hx => ?_, h.notes, h.results, ?_⟩
      rotate_left 2
      · have := stp (X := X) (.pay (abs j S.st tk) pre post t hq)
        simp only [abs] at this ⊢
        unfold paying
        rw [h4]
        exact this
      · by_cases e : x = t.token
        · subst e; simp only [setAt_self]; exact h1
        · simp only [setAt_ne _ _ e]; exact h.rep x hx
      · by_cases e : x = t.token
        · subst e
          simp only [setAt_self]
          have h2 := h.minters _ hx
          have h3 := exec_minters (s := tk t.token) (c := ⟨t.token, X.me, 1, none⟩) (k := .ft_transfer t.receiver t.amount)
          simp only [Token.Bytes.adds] at h3
          exact Nat.le_trans h3 h2
        · simp only [setAt_ne _ _ e]; exact h.minters x hx
    · rw [if_neg hv] at hread
      have he : paying X j t = .error (.assert "Failed to deserialize input from JSON.") :=
        (Token.Bytes.C99_call (h.rep t.token htk) hX.me).1 hread
      rw [he]
      simp only [Res.getOr, Res.isOk, setAt_same]
      exact ⟨hj, S, tk, h.mv, h.stored, h.rep, h.minters, h.notes, h.results, stp (X := X) (.lost (abs j S.st tk) pre post t hq)⟩
  | lost pre post t hq =>
    exact ⟨hj, S, tk, h.mv, h.stored, h.rep, h.minters, h.notes, h.results, stp (X := X) (.lost (abs j S.st tk) pre post t hq)⟩
  | callback pre post t ok b V' v' hq hc hlog =>
    obtain ⟨S', h1, h2⟩ := hc.follow hX.names hX.me hj hV h.mv h.stored
    exact ⟨hj.next hc, S', tk, h.mv.step h1, h2, h.rep, h.minters, h.notes, h.results,
      stp (X := X) (.callback (abs j S.st tk) pre post t ok b ⟨S'.st, v'.pending, v'.clock, v'.log⟩ hq h1.loose hlog)⟩

theorem Sim.step {j j' : World} {S : SState} {tk : String → Token.State} {m : String → Token.Bytes.Metadata} (hX : X.OK)
    (hj : MetaVote.Bytes.JReach X.H X.N X.me MetaVote.Bytes.anyCall j.V j.mv) (h : Sim X j S tk m) (hs : Step X j j')
    (hV : j'.V < 2 ^ 32) (hK : j'.K < 2 ^ 32) :
    MetaVote.Bytes.JReach X.H X.N X.me MetaVote.Bytes.anyCall j'.V j'.mv ∧ ∃ S' tk', Sim X j' S' tk' m := by
  obtain ⟨h1, S', tk', h2⟩ := h.follow hX hj hs hV hK
  exact ⟨h1, S', tk', h2.mv, h2.stored, h2.rep, h2.minters, h2.notes, h2.results, h.joint.step h2.joint⟩

theorem Start.sim {D0 : Disk} {c : MetaVote.Ctx} {b : Bytes} {D : Disk} {K : Nat} {tok : String → Disk} {gifts : String → Nat}
    (hX : X.OK) (h : Start X D0 c b D K tok gifts) :
    ∃ S tk m, Sim X ⟨0, ⟨D, [], c.timestamp, []⟩, K, tok, [], [], [], [], gifts⟩ S tk m := by
  obtain ⟨o, op, x, y, d, l, v, r, p, hr⟩ := h.read
  obtain ⟨s, h1, h2, h3, h4⟩ := MetaVote.Bytes.new_stored h.blank h.time hr h.short h.exec
  have key : ∀ a, ∃ (t : Token.State) (m : Token.Bytes.Metadata), a = X.A ∨ a = X.B →
      Token.Reach a ⟨t, []⟩ ∧ Token.Bytes.Rep (tok a) t m := by
    have one : ∀ a, a = X.A ∨ a = X.B → ∃ (t : Token.State) (m : Token.Bytes.Metadata),
        Token.Reach a ⟨t, []⟩ ∧ Token.Bytes.Rep (tok a) t m := by
      intro a ha
      obtain ⟨E, name, b0, r0, ins, e1, e2, e3, e4, e5, e6⟩ := h.used a ha
      obtain ⟨⟨t, pend⟩, m, w1, w2, w3⟩ := Token.Bytes.used e1 (hX.tok a ha) e2 e3 e4 e5
      rw [e6] at w2 w3
      simp only at w2 w3
      subst w3
      exact ⟨t, m, w1, w2⟩
    intro a
    by_cases ha : a = X.A ∨ a = X.B
    · obtain ⟨t, m, h⟩ := one a ha
      exact ⟨t, m, fun _ => h⟩
    · obtain ⟨t, m, -⟩ := one X.A (.inl rfl)
      exact ⟨t, m, fun h => absurd h ha⟩
  obtain ⟨tk, hk⟩ := Classical.skolem.1 key
  obtain ⟨m, hk⟩ := Classical.skolem.1 hk
  refine ⟨⟨s, fun _ => 0, Mem.empty⟩, tk, m, .init (.mk ⟨s, [], c.timestamp, []⟩ h1), h4, fun a ha => (hk a ha).2, fun a ha => ?_,
    (fun _ hq => by cases hq), (fun _ hq => by cases hq), .init ⟨h1, h2, h3, hX.ne, hX.meA, hX.meB, fun a ha => ⟨[], (hk a ha).1, ?_⟩, rfl, rfl,
      (fun _ hq => by cases hq), (fun _ hq => by cases hq), fun a ha => ?_⟩⟩
  · obtain ⟨l, e1, e2⟩ := h.minters a ha
    rw [(Token.Bytes.C91_views (hk a ha).2).2.2.2.1] at e1
    cases e1
    exact e2
  · exact .refl _
  · have e := h.gifts a ha
    rw [((Token.Bytes.C91_views (hk a ha).2).1 X.me (Token.Bytes.account_id hX.me)).1] at e
    exact (Except.ok.inj e).symm

/-- Whatever is sent to the three contracts, what happens is an execution of the model of the three contracts. -/
theorem Reach.sim {j : World} (hX : X.OK) (h : Reach X j) (hV : j.V < 2 ^ 32) (hK : j.K < 2 ^ 32) :
    MetaVote.Bytes.JReach X.H X.N X.me MetaVote.Bytes.anyCall j.V j.mv ∧ ∃ S tk m, Sim X j S tk m := by
  induction h with
  | init D0 c b D K tok gifts h =>
    obtain ⟨o, op, x, y, d, l, v, r, p, hr⟩ := h.read
    exact ⟨.init D0 D c b _ h.blank h.time hr h.short h.exec, h.sim hX⟩
  | step h hs ih =>
    obtain ⟨l1, l2⟩ := hs.le
    obtain ⟨h1, S, tk, m, h2⟩ := ih (Nat.lt_of_le_of_lt l1 hV) (Nat.lt_of_le_of_lt l2 hK)
    obtain ⟨h3, S', tk', h4⟩ := h2.step hX h1 hs hV hK
    exact ⟨h3, S', tk', m, h4⟩

end Verif.Solvency.Bytes
