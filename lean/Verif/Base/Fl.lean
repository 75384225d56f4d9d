import Mathlib.Analysis.SpecialFunctions.Exp

/-!
# Number model

`Fl` models an IEEE-754 `double` without rounding: a NaN, the two infinities and exact reals.
There is a single zero, which behaves like `+0` as a divisor.
-/

namespace Ndt

noncomputable section

/-- A `double` with exact finite arithmetic (no rounding, no signed zero). -/
inductive Fl where
  | nan
  | pinf
  | ninf
  | fin (x : ℝ)

namespace Fl

/-- IEEE addition on special values, exact on finite ones. -/
def add : Fl → Fl → Fl
  | nan, _ => nan
  | _, nan => nan
  | fin a, fin b => fin (a + b)
  | pinf, ninf => nan
  | ninf, pinf => nan
  | pinf, _ => pinf
  | _, pinf => pinf
  | ninf, _ => ninf
  | _, ninf => ninf

/-- IEEE negation. -/
def neg : Fl → Fl
  | nan => nan
  | pinf => ninf
  | ninf => pinf
  | fin a => fin (-a)

/-- Product of `+inf` (`s = true`) or `-inf` (`s = false`) with a finite number. -/
def infMul (s : Bool) (a : ℝ) : Fl :=
  if a = 0 then nan else if (0 < a) = s then pinf else ninf

/-- IEEE multiplication on special values (`inf * 0 = NaN`), exact on finite ones. -/
def mul : Fl → Fl → Fl
  | nan, _ => nan
  | _, nan => nan
  | fin a, fin b => fin (a * b)
  | pinf, fin b => infMul true b
  | ninf, fin b => infMul false b
  | fin a, pinf => infMul true a
  | fin a, ninf => infMul false a
  | pinf, pinf => pinf
  | ninf, ninf => pinf
  | pinf, ninf => ninf
  | ninf, pinf => ninf

/-- IEEE division on special values (`x / 0 = ±inf`, `0 / 0 = NaN`), exact otherwise. -/
def div : Fl → Fl → Fl
  | nan, _ => nan
  | _, nan => nan
  | fin a, fin b =>
      if b = 0 then (if a = 0 then nan else if 0 < a then pinf else ninf) else fin (a / b)
  | fin _, pinf => fin 0
  | fin _, ninf => fin 0
  | pinf, fin b => if 0 ≤ b then pinf else ninf
  | ninf, fin b => if 0 ≤ b then ninf else pinf
  | pinf, pinf => nan
  | pinf, ninf => nan
  | ninf, pinf => nan
  | ninf, ninf => nan

/-- IEEE `<`: false whenever a NaN is involved. -/
def lt : Fl → Fl → Prop
  | nan, _ => False
  | _, nan => False
  | fin a, fin b => a < b
  | ninf, ninf => False
  | ninf, _ => True
  | _, ninf => False
  | pinf, _ => False
  | fin _, pinf => True

/-- `std::exp`. -/
def exp : Fl → Fl
  | nan => nan
  | pinf => pinf
  | ninf => fin 0
  | fin a => fin (Real.exp a)

/-- `std::isfinite`. -/
def isFinite : Fl → Prop
  | fin _ => True
  | _ => False

/-- `std::isnan`. -/
def isNan : Fl → Prop
  | nan => True
  | _ => False

instance : Add Fl := ⟨add⟩
instance : Neg Fl := ⟨neg⟩
instance : Sub Fl := ⟨fun a b => add a (neg b)⟩
instance : Mul Fl := ⟨mul⟩
instance : Div Fl := ⟨div⟩
instance : LT Fl := ⟨lt⟩
instance : Inhabited Fl := ⟨fin 0⟩
instance : Coe ℝ Fl := ⟨fin⟩

instance (a b : Fl) : Decidable (a < b) := Classical.propDecidable _
instance (a : Fl) : Decidable a.isFinite := Classical.propDecidable _
instance (a : Fl) : Decidable a.isNan := Classical.propDecidable _

@[simp] theorem fin_add (a b : ℝ) : (fin a + fin b : Fl) = fin (a + b) := rfl
@[simp] theorem fin_neg (a : ℝ) : (-fin a : Fl) = fin (-a) := rfl
@[simp] theorem fin_sub (a b : ℝ) : (fin a - fin b : Fl) = fin (a - b) := rfl
@[simp] theorem fin_mul (a b : ℝ) : (fin a * fin b : Fl) = fin (a * b) := rfl
@[simp] theorem fin_lt (a b : ℝ) : (fin a < fin b) ↔ a < b := Iff.rfl
@[simp] theorem exp_fin (a : ℝ) : (fin a).exp = fin (Real.exp a) := rfl
@[simp] theorem fin_div {a b : ℝ} (h : b ≠ 0) : (fin a / fin b : Fl) = fin (a / b) := by
  show div (fin a) (fin b) = _
  simp [div, h]
@[simp] theorem zero_div_zero : (fin 0 / fin 0 : Fl) = nan := by
  show div (fin 0) (fin 0) = _
  simp [div]
theorem pos_div_zero {a : ℝ} (h : 0 < a) : (fin a / fin 0 : Fl) = pinf := by
  show div (fin a) (fin 0) = _
  simp [div, h, h.ne']

@[simp] theorem nan_add (a : Fl) : (nan + a : Fl) = nan := by cases a <;> rfl
@[simp] theorem add_nan (a : Fl) : (a + nan : Fl) = nan := by cases a <;> rfl
@[simp] theorem nan_mul (a : Fl) : (nan * a : Fl) = nan := by cases a <;> rfl
@[simp] theorem mul_nan (a : Fl) : (a * nan : Fl) = nan := by cases a <;> rfl
@[simp] theorem nan_div (a : Fl) : (nan / a : Fl) = nan := by cases a <;> rfl
@[simp] theorem div_nan (a : Fl) : (a / nan : Fl) = nan := by cases a <;> rfl
@[simp] theorem neg_nan : (-nan : Fl) = nan := rfl
@[simp] theorem exp_nan : (nan : Fl).exp = nan := rfl
@[simp] theorem nan_lt (a : Fl) : ¬ (nan < a) := by cases a <;> exact id
@[simp] theorem lt_nan (a : Fl) : ¬ (a < nan) := by cases a <;> exact id
@[simp] theorem isFinite_fin (a : ℝ) : (fin a).isFinite := trivial
@[simp] theorem not_isFinite_nan : ¬ (nan).isFinite := id
@[simp] theorem not_isFinite_pinf : ¬ (pinf).isFinite := id
@[simp] theorem not_isFinite_ninf : ¬ (ninf).isFinite := id
@[simp] theorem isNan_nan : (nan).isNan := trivial
@[simp] theorem not_isNan_fin (a : ℝ) : ¬ (fin a).isNan := id
@[simp] theorem not_isNan_pinf : ¬ (pinf).isNan := id
@[simp] theorem not_isNan_ninf : ¬ (ninf).isNan := id
@[simp] theorem pinf_mul_zero : (pinf * fin 0 : Fl) = nan := by
  show mul pinf (fin 0) = _
  simp [mul, infMul]
@[simp] theorem zero_mul_pinf : (fin 0 * pinf : Fl) = nan := by
  show mul (fin 0) pinf = _
  simp [mul, infMul]

theorem isFinite_iff (a : Fl) : a.isFinite ↔ ∃ r, a = fin r := by
  cases a <;> simp

end Fl

/-! ### Faults: undefined behaviour as an outcome -/

/-- The kinds of undefined behaviour the model can exhibit. -/
inductive Fault where
  /-- floating-point to integer conversion of a value that does not fit -/
  | conversion
  /-- vector access outside its bounds -/
  | outOfBounds
  /-- use of a null smart pointer -/
  | nullPointer
  /-- iterator arithmetic leaving the vector -/
  | iterator
  /-- signed integer overflow -/
  | overflow
  /-- not undefined: the library aborts the process -/
  | abort
  /-- not undefined: an exception leaves the function -/
  | exception
  /-- a loop does not come to an end -/
  | hang
  /-- outside of what is modelled (only: laser messages that give points with NaN or infinite coordinates, in Mapper) -/
  | unmodelled
  deriving DecidableEq, Repr

/-- Result of code that may run into undefined behaviour. -/
abbrev Res (α : Type) := Except Fault α

/-- C++ truncation of a floating-point value toward zero. -/
def truncZ (x : ℝ) : ℤ := if 0 ≤ x then ⌊x⌋ else ⌈x⌉

/-- `double → unsigned int`: undefined if the truncated value does not fit 32 bits. -/
def toU32 (x : ℝ) : Res ℕ :=
  if 0 ≤ truncZ x ∧ truncZ x < 2 ^ 32 then .ok (truncZ x).toNat else .error .conversion

/-- `double → size_t`: undefined if the truncated value does not fit 64 bits. -/
def toU64 (x : ℝ) : Res ℕ :=
  if 0 ≤ truncZ x ∧ truncZ x < 2 ^ 64 then .ok (truncZ x).toNat else .error .conversion

/-- `double → int`: undefined if the truncated value does not fit 32 signed bits. -/
def toI32 (x : ℝ) : Res ℤ :=
  if -2 ^ 31 ≤ truncZ x ∧ truncZ x < 2 ^ 31 then .ok (truncZ x) else .error .conversion

/-- `double → unsigned int` for a value that may be NaN or infinite (then undefined). -/
def toU32F : Fl → Res ℕ
  | .fin x => toU32 x
  | _ => .error .conversion

/-- `double → size_t` for a value that may be NaN or infinite (then undefined). -/
def toU64F : Fl → Res ℕ
  | .fin x => toU64 x
  | _ => .error .conversion

/-- `double → int` for a value that may be NaN or infinite (then undefined). -/
def toI32F : Fl → Res ℤ
  | .fin x => toI32 x
  | _ => .error .conversion

/-- Result of an `int` computation: undefined if it does not fit 32 signed bits. -/
def int32 (z : ℤ) : Res ℤ := if -2 ^ 31 ≤ z ∧ z < 2 ^ 31 then .ok z else .error .overflow

/-- `size_t → int`: reduction modulo 2^32 into the signed range (two's complement). -/
def wrapI32 (n : ℕ) : ℤ :=
  if n % 2 ^ 32 < 2 ^ 31 then ((n % 2 ^ 32 : ℕ) : ℤ) else ((n % 2 ^ 32 : ℕ) : ℤ) - 2 ^ 32

@[simp] theorem Res.ok_bind {α β : Type} (a : α) (f : α → Res β) : ((.ok a : Res α) >>= f) = f a := rfl
@[simp] theorem Res.error_bind {α β : Type} (e : Fault) (f : α → Res β) :
    ((.error e : Res α) >>= f) = .error e := rfl
@[simp] theorem Res.pure_eq {α : Type} (a : α) : (pure a : Res α) = .ok a := rfl

theorem wrapI32_of_lt {n : ℕ} (h : n < 2 ^ 31) : wrapI32 n = n := by
  unfold wrapI32
  have : n % 2 ^ 32 = n := Nat.mod_eq_of_lt (by omega)
  rw [this, if_pos h]

theorem wrapI32_toNat_le {n : ℕ} (h : 0 ≤ wrapI32 n) : (wrapI32 n).toNat ≤ n := by
  unfold wrapI32 at *
  split at h
  · rename_i h1
    rw [if_pos h1]
    have := Nat.mod_le n (2 ^ 32)
    omega
  · rename_i h1
    have : n % 2 ^ 32 < 2 ^ 32 := Nat.mod_lt _ (by norm_num)
    omega

theorem truncZ_of_nonneg {x : ℝ} (h : 0 ≤ x) : truncZ x = ⌊x⌋ := if_pos h

theorem truncZ_nonneg {x : ℝ} (h : 0 ≤ x) : 0 ≤ truncZ x := by
  rw [truncZ_of_nonneg h]; exact Int.floor_nonneg.mpr h

theorem truncZ_intCast (z : ℤ) : truncZ (z : ℝ) = z := by
  unfold truncZ; split <;> simp

theorem toU64_of_nonneg {x : ℝ} (h : 0 ≤ x) (h2 : x < 2 ^ 64) : toU64 x = .ok ⌊x⌋.toNat := by
  have h3 : ⌊x⌋ < 2 ^ 64 := by
    rw [Int.floor_lt]; push_cast; linarith
  simp only [toU64, truncZ_of_nonneg h]
  rw [if_pos ⟨Int.floor_nonneg.mpr h, h3⟩]

theorem toU32_of_nonneg {x : ℝ} (h : 0 ≤ x) (h2 : x < 2 ^ 32) : toU32 x = .ok ⌊x⌋.toNat := by
  have h3 : ⌊x⌋ < 2 ^ 32 := by
    rw [Int.floor_lt]; push_cast; linarith
  simp only [toU32, truncZ_of_nonneg h]
  rw [if_pos ⟨Int.floor_nonneg.mpr h, h3⟩]

end

end Ndt
