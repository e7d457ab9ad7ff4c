/-
Outcomes of C++ code: a value, or one of the things a correct program never does.
-/

namespace H264

/-- Ways a C++ execution can leave defined behaviour (or abort).  These are distinct outcomes of the
model, never assumed away. -/
inductive Bad where
  /-- access outside an array -/
  | oob
  /-- shift by at least the width of the type -/
  | shift
  /-- signed integer overflow -/
  | overflow
  /-- null pointer dereference -/
  | nullDeref
  /-- a failed `assert` (`RTC_DCHECK` / `RTC_CHECK`) -/
  | assertFail
  /-- read of an uninitialised variable -/
  | uninit
  /-- the loop bound of the model was exhausted (the C++ loop would still be running) -/
  | fuel
  /-- an exception leaves a `noexcept` function: `std::terminate` -/
  | terminate
  deriving DecidableEq, Repr

/-- Result of a C++ call: a value, or a bad outcome. -/
inductive Res (α : Type) where
  | val (a : α)
  | bad (e : Bad)
  deriving DecidableEq, Repr

namespace Res

/-- Sequencing: a bad outcome ends the execution. -/
def bind {α β : Type} (x : Res α) (f : α → Res β) : Res β :=
  match x with
  | .val a => f a
  | .bad e => .bad e

instance : Monad Res where
  pure := Res.val
  bind := Res.bind

@[simp] theorem pure_eq {α} (a : α) : (pure a : Res α) = .val a := rfl
@[simp] theorem val_bind {α β} (a : α) (f : α → Res β) : (Res.val a >>= f) = f a := rfl
@[simp] theorem bad_bind {α β} (e : Bad) (f : α → Res β) : ((Res.bad e : Res α) >>= f) = .bad e := rfl

instance : LawfulMonad Res := LawfulMonad.mk'
  (id_map := by intro α x; cases x <;> rfl)
  (pure_bind := by intros; rfl)
  (bind_assoc := by intro α β γ x f g; cases x <;> rfl)

/-- The call returns, and what it returns passes the test (used in examples). -/
def passes {α : Type} (x : Res α) (t : α → Bool) : Bool :=
  match x with
  | .val a => t a
  | .bad _ => false

theorem exists_of_passes {α : Type} {x : Res α} {t : α → Bool} (h : x.passes t = true) : ∃ a, x = .val a ∧ t a = true := by
  cases x with
  | val a => exact ⟨a, rfl, h⟩
  | bad e => cases h

/-- `assert(c)`: a failing assertion is a bad outcome.  (Under `NDEBUG` the check is compiled out and the
execution continues with its precondition violated; the model is conservative and flags it in both modes.) -/
def check (c : Bool) : Res Unit := if c then .val () else .bad .assertFail

@[simp] theorem check_true : check true = .val () := rfl
@[simp] theorem check_false : check false = .bad .assertFail := rfl

end Res

/-- Load the byte at index `i`; outside the array this is undefined behaviour. -/
def load (bs : List UInt8) (i : Nat) : Res Nat :=
  match bs[i]? with
  | some b => .val b.toNat
  | none => .bad .oob

/-! Unsigned machine arithmetic (wraps). -/

/-- `a - b` on `uint64_t`/`size_t`. -/
def sub64 (a b : Nat) : Nat := (a + 2 ^ 64 - b) % 2 ^ 64
/-- `a + b` on `uint64_t`/`size_t`. -/
def add64 (a b : Nat) : Nat := (a + b) % 2 ^ 64
/-- `a * b` on `uint64_t`/`size_t`. -/
def mul64 (a b : Nat) : Nat := (a * b) % 2 ^ 64
/-- `a - b` on `uint32_t`. -/
def sub32 (a b : Nat) : Nat := (a + 2 ^ 32 - b) % 2 ^ 32
/-- `a + b` on `uint32_t`. -/
def add32 (a b : Nat) : Nat := (a + b) % 2 ^ 32
/-- `a * b` on `uint32_t`. -/
def mul32 (a b : Nat) : Nat := (a * b) % 2 ^ 32

/-- `static_cast<int32_t>` of a `uint32_t` value (two's complement). -/
def toI32 (n : Nat) : Int := if n < 2 ^ 31 then (n : Int) else (n : Int) - 2 ^ 32

/-- Does an `int` hold this value? -/
def fitsI32 (x : Int) : Bool := decide (-(2 ^ 31) ≤ x) && decide (x < 2 ^ 31)

/-- A signed `int` result: undefined behaviour when it does not fit. -/
def sint (x : Int) : Res Int := if fitsI32 x then .val x else .bad .overflow

theorem sub64_eq {a b : Nat} (h : b ≤ a) (ha : a < 2 ^ 64) : sub64 a b = a - b := by
  unfold sub64; omega
theorem add64_eq {a b : Nat} (h : a + b < 2 ^ 64) : add64 a b = a + b := by
  unfold add64; omega
theorem mul64_eq {a b : Nat} (h : a * b < 2 ^ 64) : mul64 a b = a * b := by
  unfold mul64; exact Nat.mod_eq_of_lt h
theorem sub32_eq {a b : Nat} (h : b ≤ a) (ha : a < 2 ^ 32) : sub32 a b = a - b := by
  unfold sub32; omega
theorem add32_eq {a b : Nat} (h : a + b < 2 ^ 32) : add32 a b = a + b := by
  unfold add32; omega
theorem mul32_eq {a b : Nat} (h : a * b < 2 ^ 32) : mul32 a b = a * b := by
  unfold mul32; exact Nat.mod_eq_of_lt h

theorem load_eq {bs : List UInt8} {i : Nat} (h : i < bs.length) : load bs i = .val (bs[i]).toNat := by
  simp [load, List.getElem?_eq_getElem h]

theorem sint_eq {x : Int} (h1 : -(2 ^ 31) ≤ x) (h2 : x < 2 ^ 31) : sint x = .val x := by
  simp [sint, fitsI32]; omega

theorem toI32_eq {n : Nat} (h : n < 2 ^ 31) : toI32 n = n := by
  simp [toI32]; omega

-- Keep the elaborator from unfolding 64-bit arithmetic to unary numbers; use the lemmas above.
attribute [irreducible] sub64 add64 mul64 sub32 add32 mul32 toI32 fitsI32

end H264
