/-!
# Panics and checked machine arithmetic

Rust panics are `Except.error`.  The workspace is compiled with `overflow-checks = true`
(`/repo/Cargo.toml`, `[profile.release]`), so every `+ - *` on a machine integer panics on overflow.
-/

namespace Verif

/-- Why a call panicked.  `assert m` is a failed `require!`/`assert!`/`expect`/`unwrap`,
`overflow` an arithmetic overflow or underflow. -/
inductive Panic where
  | overflow
  | assert (msg : String)
  deriving DecidableEq, Repr

/-- Result of running contract code: a value or a panic. -/
abbrev Res (α : Type) := Except Panic α

/-- `require!(p, msg)` / `assert!(p, msg)`. -/
def require (p : Prop) [Decidable p] (msg : String) : Res Unit :=
  if p then .ok () else .error (.assert msg)

/-- `opt.expect(msg)` / `opt.unwrap()`. -/
def expect {α : Type} (o : Option α) (msg : String) : Res α :=
  match o with
  | some a => .ok a
  | none => .error (.assert msg)

/-- Largest `u128`. -/
def U128_MAX : Nat := 2 ^ 128 - 1
/-- Largest `u64`. -/
def U64_MAX : Nat := 2 ^ 64 - 1
/-- Largest `u32`. -/
def U32_MAX : Nat := 2 ^ 32 - 1
/-- Largest `u16`. -/
def U16_MAX : Nat := 2 ^ 16 - 1
/-- Largest `u8`. -/
def U8_MAX : Nat := 2 ^ 8 - 1

/-- Addition checked against the largest value `max` of the machine type. -/
def addMax (max a b : Nat) : Res Nat :=
  if a + b ≤ max then .ok (a + b) else .error .overflow

/-- Multiplication checked against the largest value `max` of the machine type. -/
def mulMax (max a b : Nat) : Res Nat :=
  if a * b ≤ max then .ok (a * b) else .error .overflow

/-- `a + b` on `u128`. -/
def addU128 (a b : Nat) : Res Nat := addMax U128_MAX a b
/-- `a + b` on `u64`. -/
def addU64 (a b : Nat) : Res Nat := addMax U64_MAX a b
/-- `a + b` on `u32`. -/
def addU32 (a b : Nat) : Res Nat := addMax U32_MAX a b
/-- `a * b` on `u128`. -/
def mulU128 (a b : Nat) : Res Nat := mulMax U128_MAX a b
/-- `a - b` on any unsigned type. -/
def subU (a b : Nat) : Res Nat :=
  if b ≤ a then .ok (a - b) else .error .overflow

/-! ## Inversion lemmas -/

@[simp] theorem bind_ok_iff {α β : Type} {m : Res α} {f : α → Res β} {b : β} :
    (m >>= f) = .ok b ↔ ∃ a, m = .ok a ∧ f a = .ok b := by
  cases m <;> simp [bind, Except.bind]

@[simp] theorem pure_ok_iff {α : Type} {a b : α} : (pure a : Res α) = .ok b ↔ a = b := by
  simp [pure, Except.pure]

@[simp] theorem require_ok_iff {p : Prop} [Decidable p] {msg : String} {u : Unit} :
    require p msg = .ok u ↔ p := by
  unfold require; split <;> simp_all

@[simp] theorem expect_ok_iff {α : Type} {o : Option α} {msg : String} {a : α} :
    expect o msg = .ok a ↔ o = some a := by
  cases o <;> simp [expect]

@[simp] theorem addU128_ok_iff {a b c : Nat} :
    addU128 a b = .ok c ↔ a + b ≤ U128_MAX ∧ c = a + b := by
  unfold addU128 addMax; split <;> simp_all [eq_comm] <;> omega

@[simp] theorem addU64_ok_iff {a b c : Nat} :
    addU64 a b = .ok c ↔ a + b ≤ U64_MAX ∧ c = a + b := by
  unfold addU64 addMax; split <;> simp_all [eq_comm] <;> omega

@[simp] theorem addU32_ok_iff {a b c : Nat} :
    addU32 a b = .ok c ↔ a + b ≤ U32_MAX ∧ c = a + b := by
  unfold addU32 addMax; split <;> simp_all [eq_comm] <;> omega

@[simp] theorem mulU128_ok_iff {a b c : Nat} :
    mulU128 a b = .ok c ↔ a * b ≤ U128_MAX ∧ c = a * b := by
  unfold mulU128 mulMax; split <;> simp_all [eq_comm] <;> omega

@[simp] theorem subU_ok_iff {a b c : Nat} :
    subU a b = .ok c ↔ b ≤ a ∧ c = a - b := by
  unfold subU; split <;> simp_all [eq_comm] <;> omega

@[simp] theorem error_ne_ok {α : Type} {e : Panic} {a : α} :
    ((Except.error e : Res α) = .ok a) ↔ False := by simp

@[simp] theorem throw_ne_ok {α : Type} {e : Panic} {a : α} :
    ((throw e : Res α) = .ok a) ↔ False := by simp [throw, throwThe, MonadExceptOf.throw]

@[simp] theorem ok_ok_iff {α : Type} {a b : α} :
    ((Except.ok a : Res α) = .ok b) ↔ a = b := by simp

/-- A call either keeps the old state (panic) or installs the new one. -/
def Res.getOr {α : Type} (r : Res α) (d : α) : α :=
  match r with
  | .ok a => a
  | .error _ => d

/-- `true` when the call did not panic. -/
def Res.isOk {α : Type} (r : Res α) : Bool :=
  match r with
  | .ok _ => true
  | .error _ => false

@[simp] theorem Res.isOk_iff {α : Type} {r : Res α} : Res.isOk r = true ↔ ∃ a, r = .ok a := by
  cases r <;> simp [Res.isOk]

end Verif
