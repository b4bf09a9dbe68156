import Mathlib.Analysis.SpecialFunctions.Pow.Real

/-!
# Floats with exact finite values

IEEE special values over exact reals, for the numpy code whose behaviour depends on them: `inf`,
`-inf` and NaN are kept, rounding, overflow and the sign of zero are not.  No Kats code is modelled
in this file.
-/

namespace Kats

/-- A float: a finite (exact) value, an infinity or NaN. -/
inductive Fl where
  | fin (x : ℝ)
  | pinf
  | ninf
  | nan

namespace Fl

noncomputable section
open Classical

/-- `sign(x) * inf`, NaN for zero. -/
def infOf (x : ℝ) : Fl := if 0 < x then pinf else if x < 0 then ninf else nan

def neg : Fl → Fl
  | fin x => fin (-x)
  | pinf => ninf
  | ninf => pinf
  | nan => nan

def add : Fl → Fl → Fl
  | fin x, fin y => fin (x + y)
  | nan, _ => nan
  | _, nan => nan
  | pinf, ninf => nan
  | ninf, pinf => nan
  | pinf, _ => pinf
  | _, pinf => pinf
  | ninf, _ => ninf
  | _, ninf => ninf

def mul : Fl → Fl → Fl
  | fin x, fin y => fin (x * y)
  | nan, _ => nan
  | _, nan => nan
  | fin x, pinf => infOf x
  | fin x, ninf => infOf (-x)
  | pinf, fin y => infOf y
  | ninf, fin y => infOf (-y)
  | pinf, pinf => pinf
  | ninf, ninf => pinf
  | pinf, ninf => ninf
  | ninf, pinf => ninf

/-- numpy division; a zero denominator counts as positive zero. -/
def div : Fl → Fl → Fl
  | fin x, fin y => if y = 0 then infOf x else fin (x / y)
  | nan, _ => nan
  | _, nan => nan
  | fin _, _ => fin 0
  | pinf, fin y => if y < 0 then ninf else pinf
  | ninf, fin y => if y < 0 then pinf else ninf
  | _, _ => nan

def sqrt : Fl → Fl
  | fin x => if x < 0 then nan else fin (Real.sqrt x)
  | pinf => pinf
  | _ => nan

def abs : Fl → Fl
  | fin x => fin |x|
  | pinf => pinf
  | ninf => pinf
  | nan => nan

/-- `a < b`; every comparison with NaN is false. -/
def lt : Fl → Fl → Bool
  | fin x, fin y => decide (x < y)
  | nan, _ => false
  | _, nan => false
  | ninf, ninf => false
  | ninf, _ => true
  | _, ninf => false
  | pinf, _ => false
  | fin _, pinf => true

instance : Add Fl := ⟨add⟩
instance : Neg Fl := ⟨neg⟩
instance : Sub Fl := ⟨fun a b => add a (neg b)⟩
instance : Mul Fl := ⟨mul⟩
instance : Div Fl := ⟨div⟩

@[simp] theorem fin_add (x y : ℝ) : fin x + fin y = fin (x + y) := rfl
@[simp] theorem fin_sub (x y : ℝ) : fin x - fin y = fin (x - y) := by
  show fin (x + -y) = _
  rw [sub_eq_add_neg]
@[simp] theorem fin_mul (x y : ℝ) : fin x * fin y = fin (x * y) := rfl
theorem fin_div (x y : ℝ) (h : y ≠ 0) : fin x / fin y = fin (x / y) := by
  show (if y = 0 then infOf x else fin (x / y)) = _
  rw [if_neg h]
theorem fin_div_zero (x : ℝ) : fin x / fin 0 = infOf x := by
  show (if (0 : ℝ) = 0 then infOf x else fin (x / 0)) = _
  rw [if_pos rfl]
@[simp] theorem abs_fin (x : ℝ) : abs (fin x) = fin |x| := rfl
theorem sqrt_fin (x : ℝ) (h : 0 ≤ x) : sqrt (fin x) = fin (Real.sqrt x) := by
  show (if x < 0 then nan else fin (Real.sqrt x)) = _
  rw [if_neg (not_lt.2 h)]
@[simp] theorem lt_fin (x y : ℝ) : lt (fin x) (fin y) = true ↔ x < y := by
  show decide (x < y) = true ↔ _
  exact decide_eq_true_iff
@[simp] theorem nan_add (a : Fl) : nan + a = nan := by cases a <;> rfl
@[simp] theorem add_nan (a : Fl) : a + nan = nan := by cases a <;> rfl
@[simp] theorem nan_sub (a : Fl) : nan - a = nan := by cases a <;> rfl
@[simp] theorem sub_nan (a : Fl) : a - nan = nan := by cases a <;> rfl
@[simp] theorem nan_mul (a : Fl) : nan * a = nan := by cases a <;> rfl
@[simp] theorem mul_nan (a : Fl) : a * nan = nan := by cases a <;> rfl
@[simp] theorem nan_div (a : Fl) : nan / a = nan := by cases a <;> rfl
@[simp] theorem div_nan (a : Fl) : a / nan = nan := by cases a <;> rfl
@[simp] theorem lt_nan (a : Fl) : lt a nan = false := by cases a <;> rfl
@[simp] theorem nan_lt (a : Fl) : lt nan a = false := by cases a <;> rfl

end

end Fl

end Kats
