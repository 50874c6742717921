import Verif.Model.RealScalar
import Mathlib.Analysis.SpecialFunctions.Pow.Real
import Mathlib.Analysis.SpecialFunctions.Trigonometric.Inverse
import Mathlib.Analysis.SpecialFunctions.Complex.Arg
import Mathlib.Analysis.Complex.Trigonometric

/-! # The exact-arithmetic reading of the elementary functions -/

namespace Posidonius

noncomputable instance : FPow ℝ := ⟨fun x y => x ^ y⟩

noncomputable instance : FTrig ℝ where
  sin := Real.sin
  cos := Real.cos
  acos := Real.arccos
  atan2 y x := Complex.arg ⟨x, y⟩
  sinh := Real.sinh
  cosh := Real.cosh
  exp := Real.exp
  ln := Real.log
  pi := Real.pi

@[simp] theorem powf_real (x y : ℝ) : (FPow.powf x y : ℝ) = x ^ y := rfl
@[simp] theorem sin_real (x : ℝ) : (FTrig.sin x : ℝ) = Real.sin x := rfl
@[simp] theorem cos_real (x : ℝ) : (FTrig.cos x : ℝ) = Real.cos x := rfl
@[simp] theorem acos_real (x : ℝ) : (FTrig.acos x : ℝ) = Real.arccos x := rfl
@[simp] theorem atan2_real (y x : ℝ) : (FTrig.atan2 y x : ℝ) = Complex.arg ⟨x, y⟩ := rfl
@[simp] theorem sinh_real (x : ℝ) : (FTrig.sinh x : ℝ) = Real.sinh x := rfl
@[simp] theorem cosh_real (x : ℝ) : (FTrig.cosh x : ℝ) = Real.cosh x := rfl
@[simp] theorem exp_real (x : ℝ) : (FTrig.exp x : ℝ) = Real.exp x := rfl
@[simp] theorem ln_real (x : ℝ) : (FTrig.ln x : ℝ) = Real.log x := rfl
@[simp] theorem pi_real : (FTrig.pi : ℝ) = Real.pi := rfl

end Posidonius
