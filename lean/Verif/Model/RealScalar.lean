import Verif.Model.Scalar
import Mathlib.Analysis.Real.Sqrt

/-! # The exact-arithmetic reading of the model: real numbers -/

namespace Posidonius

noncomputable instance : FOps ℝ where
  lit q := (q : ℝ)
  sqrt := Real.sqrt
  abs x := |x|
  floor x := (⌊x⌋ : ℤ)
  ltb a b := decide (a < b)
  leb a b := decide (a ≤ b)
  eqb a b := decide (a = b)

@[simp] theorem lit_real (q : ℚ) : (lit q : ℝ) = (q : ℝ) := rfl
@[simp] theorem sqrt_real (x : ℝ) : (FOps.sqrt x : ℝ) = Real.sqrt x := rfl
@[simp] theorem abs_real (x : ℝ) : (FOps.abs x : ℝ) = |x| := rfl
@[simp] theorem floor_real (x : ℝ) : (FOps.floor x : ℝ) = (⌊x⌋ : ℤ) := rfl
@[simp] theorem ltb_real (a b : ℝ) : (ltb a b = true) ↔ a < b := by
  simp [ltb]
@[simp] theorem leb_real (a b : ℝ) : (leb a b = true) ↔ a ≤ b := by
  simp [leb]
@[simp] theorem eqb_real (a b : ℝ) : (eqb a b = true) ↔ a = b := by
  simp [eqb]
@[simp] theorem ltb_real_false (a b : ℝ) : (ltb a b = false) ↔ b ≤ a := by
  simp [ltb]
@[simp] theorem leb_real_false (a b : ℝ) : (leb a b = false) ↔ b < a := by
  simp [leb]
@[simp] theorem eqb_real_false (a b : ℝ) : (eqb a b = false) ↔ a ≠ b := by
  simp [eqb]

end Posidonius
