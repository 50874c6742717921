import Verif.Model.Kaula
import Verif.Model.RealTrig
import Verif.Spec.Inclination
import Verif.Lemmas.Univ
import Mathlib.Tactic.LinearCombination
import Mathlib.Tactic.FieldSimp
import Mathlib.Tactic.NormNum

/-! # C84: the inclination functions of the Kaula model -/

namespace Posidonius.Kaula
open Posidonius Inclination Polynomial

theorem square2 : ((X ^ 2 - 1) ^ 2 : ℝ[X]) = X ^ 4 - C 2 * X ^ 2 + C 1 := by
  rw [show (C 2 : ℝ[X]) = 2 from rfl, C_1]
  ring

theorem square3 : ((X ^ 2 - 1) ^ 3 : ℝ[X]) = X ^ 6 - C 3 * X ^ 4 + C 3 * X ^ 2 - C 1 := by
  rw [show (C 3 : ℝ[X]) = 3 from rfl, C_1]
  ring

theorem legendre_20 (x : ℝ) : legendre 2 0 x = (3 * x ^ 2 - 1) / 2 := by
  rw [legendre, square2]
  simp only [Function.iterate_succ, Function.comp, Function.iterate_zero, id, derivative_sub, derivative_add,
    derivative_C_mul, derivative_X_pow, derivative_C, eval_sub, eval_add, eval_mul, eval_C, eval_X, eval_pow, Nat.factorial]
  norm_num
  ring

theorem legendre_21 (x : ℝ) : legendre 2 1 x = 3 * x := by
  rw [legendre, square2]
  simp only [Function.iterate_succ, Function.comp, Function.iterate_zero, id, derivative_sub, derivative_add,
    derivative_C_mul, derivative_X_pow, derivative_C, eval_sub, eval_add, eval_mul, eval_C, eval_X, eval_pow, Nat.factorial]
  norm_num
  ring

theorem legendre_22 (x : ℝ) : legendre 2 2 x = 3 := by
  rw [legendre, square2]
  simp only [Function.iterate_succ, Function.comp, Function.iterate_zero, id, derivative_sub, derivative_add,
    derivative_C_mul, derivative_X_pow, derivative_C, eval_sub, eval_add, eval_mul, eval_C, eval_X, eval_pow, Nat.factorial]
  norm_num

theorem legendre_30 (x : ℝ) : legendre 3 0 x = (5 * x ^ 3 - 3 * x) / 2 := by
  rw [legendre, square3]
  simp only [Function.iterate_succ, Function.comp, Function.iterate_zero, id, derivative_sub, derivative_add,
    derivative_C_mul, derivative_X_pow, derivative_C, eval_sub, eval_add, eval_mul, eval_C, eval_X, eval_pow, Nat.factorial]
  norm_num
  ring

theorem legendre_31 (x : ℝ) : legendre 3 1 x = (15 * x ^ 2 - 3) / 2 := by
  rw [legendre, square3]
  simp only [Function.iterate_succ, Function.comp, Function.iterate_zero, id, derivative_sub, derivative_add,
    derivative_C_mul, derivative_X_pow, derivative_C, eval_sub, eval_add, eval_mul, eval_C, eval_X, eval_pow, Nat.factorial]
  norm_num
  ring

theorem legendre_32 (x : ℝ) : legendre 3 2 x = 15 * x := by
  rw [legendre, square3]
  simp only [Function.iterate_succ, Function.comp, Function.iterate_zero, id, derivative_sub, derivative_add,
    derivative_C_mul, derivative_X_pow, derivative_C, eval_sub, eval_add, eval_mul, eval_C, eval_X, eval_pow, Nat.factorial]
  norm_num
  ring

theorem legendre_33 (x : ℝ) : legendre 3 3 x = 15 := by
  rw [legendre, square3]
  simp only [Function.iterate_succ, Function.comp, Function.iterate_zero, id, derivative_sub, derivative_add,
    derivative_C_mul, derivative_X_pow, derivative_C, eval_sub, eval_add, eval_mul, eval_C, eval_X, eval_pow, Nat.factorial]
  norm_num

/-- The quantities of the definition in terms of z = exp(iu), c = cos i and t = -i sin i. -/
theorem frame (i u : ℝ) : ∃ z t : ℂ, z ≠ 0 ∧ (∀ n : ℤ, Complex.exp (Complex.I * (n : ℤ) * u) = z ^ n)
    ∧ -Complex.I * (Real.sin i : ℂ) = t ∧ ((Real.sin i * Real.sin u : ℝ) : ℂ) = t * (z - z⁻¹) / 2
    ∧ place i u = (1 + (Real.cos i : ℂ)) / 2 * z + (1 - (Real.cos i : ℂ)) / 2 * z⁻¹
    ∧ ((Real.sin i : ℝ) : ℂ) ^ 2 = 1 - (Real.cos i : ℂ) ^ 2 ∧ t ^ 2 = (Real.cos i : ℂ) ^ 2 - 1 := by
  have hz : Complex.exp (u * Complex.I) = Complex.cos u + Complex.sin u * Complex.I := Complex.exp_mul_I _
  have hz' : (Complex.exp (u * Complex.I))⁻¹ = Complex.cos u - Complex.sin u * Complex.I := by
    rw [← Complex.exp_neg, ← neg_mul, Complex.exp_mul_I, Complex.cos_neg, Complex.sin_neg]
    ring
  have h1 : ((Real.sin i : ℝ) : ℂ) ^ 2 = 1 - (Real.cos i : ℂ) ^ 2 := by
    rw [← Complex.ofReal_pow, Real.sin_sq]
    push_cast
    rfl
  refine ⟨Complex.exp (u * Complex.I), -Complex.I * (Real.sin i : ℂ), Complex.exp_ne_zero _, fun n => ?_, rfl, ?_, ?_,
    h1, ?_⟩
  · rw [← Complex.exp_int_mul]
    congr 1
    ring
  · rw [hz', hz]
    push_cast
    linear_combination (Complex.sin i * Complex.sin u) * Complex.I_sq
  · rw [hz', hz]
    apply Complex.ext
    · simp [place, ← Complex.ofReal_sin, ← Complex.ofReal_cos]
      ring
    · simp [place, ← Complex.ofReal_sin, ← Complex.ofReal_cos]
      ring
  · rw [mul_pow, h1, neg_sq, Complex.I_sq]
    ring

/-- **C84**: the functions F_20p are those of Kaula. -/
theorem C84_f20 : Inclines 2 0 (f20 (F := ℝ)) := by
  intro i u
  obtain ⟨z, t, hz, he, ht, hx, hp, hs, htt⟩ := frame i u
  rw [legendre_20, Complex.ofReal_div, Complex.ofReal_sub, Complex.ofReal_mul, Complex.ofReal_pow, hx, hp]
  simp only [he, Finset.sum_range_succ, Finset.sum_range_zero]
  simp [f20, -Complex.ofReal_sin, -Complex.ofReal_cos, ← pow_two, hs, htt, mul_pow, div_pow]
  generalize ((Real.cos i : ℝ) : ℂ) = c
  field_simp
  ring

/-- **C84**: the functions F_21p are those of Kaula. -/
theorem C84_f21 : Inclines 2 1 (f21 (F := ℝ)) := by
  intro i u
  obtain ⟨z, t, hz, he, ht, hx, hp, hs, htt⟩ := frame i u
  rw [legendre_21, Complex.ofReal_mul, hx, hp]
  simp only [he, Finset.sum_range_succ, Finset.sum_range_zero]
  simp [f21, -Complex.ofReal_sin, -Complex.ofReal_cos, ← ht]
  generalize ((Real.cos i : ℝ) : ℂ) = c
  field_simp
  ring

/-- **C84**: the functions F_22p are those of Kaula. -/
theorem C84_f22 : Inclines 2 2 (f22 (F := ℝ)) := by
  intro i u
  obtain ⟨z, t, hz, he, ht, hx, hp, hs, htt⟩ := frame i u
  rw [legendre_22, hp]
  simp only [he, Finset.sum_range_succ, Finset.sum_range_zero]
  simp [f22, ipow, -Complex.ofReal_sin, -Complex.ofReal_cos, ← pow_two, hs]
  generalize ((Real.cos i : ℝ) : ℂ) = c
  field_simp
  ring

/-- The functions F_30p, F_31p, F_32p and F_33p of Kaula. -/
noncomputable def f30Right (i : ℝ) : List ℝ :=
  let s := Real.sin i
  [-(5 / 16) * s ^ 3, 15 / 16 * s ^ 3 - 3 / 4 * s, -(15 / 16) * s ^ 3 + 3 / 4 * s, 5 / 16 * s ^ 3]

noncomputable def f31Right (i : ℝ) : List ℝ :=
  let s := Real.sin i
  let c := Real.cos i
  [-(15 / 16) * s ^ 2 * (1 + c), 15 / 16 * s ^ 2 * (1 + 3 * c) - 3 / 4 * (1 + c),
    15 / 16 * s ^ 2 * (1 - 3 * c) - 3 / 4 * (1 - c), -(15 / 16) * s ^ 2 * (1 - c)]

noncomputable def f32Right (i : ℝ) : List ℝ :=
  let s := Real.sin i
  let c := Real.cos i
  [15 / 8 * s * (1 + c) ^ 2, 15 / 8 * s * (1 - 2 * c - 3 * c ^ 2), -(15 / 8) * s * (1 + 2 * c - 3 * c ^ 2),
    -(15 / 8) * s * (1 - c) ^ 2]

noncomputable def f33Right (i : ℝ) : List ℝ :=
  let s := Real.sin i
  let c := Real.cos i
  [15 / 8 * (1 + c) ^ 3, 45 / 8 * s ^ 2 * (1 + c), 45 / 8 * s ^ 2 * (1 - c), 15 / 8 * (1 - c) ^ 3]

theorem inclines_30 : Inclines 3 0 f30Right := by
  intro i u
  obtain ⟨z, t, hz, he, ht, hx, hp, hs, htt⟩ := frame i u
  rw [legendre_30, Complex.ofReal_div, Complex.ofReal_sub, Complex.ofReal_mul, Complex.ofReal_mul, Complex.ofReal_pow, hx, hp]
  simp only [he, Finset.sum_range_succ, Finset.sum_range_zero]
  have h3 : ((Real.sin i : ℝ) : ℂ) ^ 3 = (1 - (Real.cos i : ℂ) ^ 2) * Real.sin i := by
    rw [← hs]; ring
  have h4 : t ^ 3 = ((Real.cos i : ℂ) ^ 2 - 1) * t := by
    rw [← htt]; ring
  simp [f30Right, show ¬ Even 3 by decide, -Complex.ofReal_sin, -Complex.ofReal_cos, h3, h4, mul_pow, div_pow]
  rw [← ht]
  generalize ((Real.cos i : ℝ) : ℂ) = c
  field_simp
  ring

theorem inclines_31 : Inclines 3 1 f31Right := by
  intro i u
  obtain ⟨z, t, hz, he, ht, hx, hp, hs, htt⟩ := frame i u
  rw [legendre_31, Complex.ofReal_div, Complex.ofReal_sub, Complex.ofReal_mul, Complex.ofReal_pow, hx, hp]
  simp only [he, Finset.sum_range_succ, Finset.sum_range_zero]
  simp [f31Right, -Complex.ofReal_sin, -Complex.ofReal_cos, hs, htt, mul_pow, div_pow]
  generalize ((Real.cos i : ℝ) : ℂ) = c
  field_simp
  ring

theorem inclines_32 : Inclines 3 2 f32Right := by
  intro i u
  obtain ⟨z, t, hz, he, ht, hx, hp, hs, htt⟩ := frame i u
  rw [legendre_32, Complex.ofReal_mul, hx, hp]
  simp only [he, Finset.sum_range_succ, Finset.sum_range_zero]
  simp [f32Right, -Complex.ofReal_sin, -Complex.ofReal_cos, ← ht]
  generalize ((Real.cos i : ℝ) : ℂ) = c
  field_simp
  ring

theorem inclines_33 : Inclines 3 3 f33Right := by
  intro i u
  obtain ⟨z, t, hz, he, ht, hx, hp, hs, htt⟩ := frame i u
  rw [legendre_33, hp]
  simp only [he, Finset.sum_range_succ, Finset.sum_range_zero]
  simp [f33Right, -Complex.ofReal_sin, -Complex.ofReal_cos, hs]
  generalize ((Real.cos i : ℝ) : ℂ) = c
  field_simp
  ring

theorem same {l m : ℕ} {i : ℝ} {f g : List ℝ} (hf : InclinesAt l m i f) (hg : InclinesAt l m i g) (u : ℝ) :
    ∑ p ∈ Finset.range (l + 1), f.getD p 0 * Real.cos (((l : ℤ) - 2 * (p : ℤ) : ℤ) * u)
        = ∑ p ∈ Finset.range (l + 1), g.getD p 0 * Real.cos (((l : ℤ) - 2 * (p : ℤ) : ℤ) * u)
      ∧ ∑ p ∈ Finset.range (l + 1), f.getD p 0 * Real.sin (((l : ℤ) - 2 * (p : ℤ) : ℤ) * u)
        = ∑ p ∈ Finset.range (l + 1), g.getD p 0 * Real.sin (((l : ℤ) - 2 * (p : ℤ) : ℤ) * u) := by
  have tone (x : ℝ) (n : ℤ) : (x : ℂ) * Complex.exp (Complex.I * n * u)
      = ⟨x * Real.cos (n * u), x * Real.sin (n * u)⟩ := by
    rw [show Complex.I * n * (u : ℂ) = ((n * u : ℝ) : ℂ) * Complex.I by push_cast; ring, Complex.exp_mul_I,
      ← Complex.ofReal_cos, ← Complex.ofReal_sin]
    apply Complex.ext <;> simp [-Complex.ofReal_cos, -Complex.ofReal_sin, -Complex.ofReal_mul]
  have h := (hf u).symm.trans (hg u)
  have hc : (if Even (l - m) then 1 else -Complex.I) ≠ 0 := by split <;> simp
  have h := mul_left_cancel₀ hc h
  simp only [tone] at h
  constructor
  · simpa using congrArg Complex.re h
  · simpa using congrArg Complex.im h

/-- **C84**, degree three, order zero: the functions are those of Kaula only for orbits in the equator. -/
theorem C84_violated_f30 (i : ℝ) : InclinesAt 3 0 i (f30 i) ↔ Real.sin i = 0 := by
  constructor
  · intro h
    have h := (same h (inclines_30 i) (Real.pi / 2)).2
    have e : 3 * (Real.pi / 2) = Real.pi / 2 + Real.pi := by ring
    have e1 : Real.sin (3 * (Real.pi / 2)) = -1 := by rw [e, Real.sin_add_pi, Real.sin_pi_div_two]
    simp [Finset.sum_range_succ, f30, f30Right, ipow, e1] at h
    have e2 : Real.sin ((3 - 2) * (Real.pi / 2)) = 1 := by norm_num
    have e3 : Real.sin ((3 - 2 * 2) * (Real.pi / 2)) = -(1) := by norm_num [neg_div]
    have e4 : Real.sin ((3 - 2 * 3) * (Real.pi / 2)) = -(-1) := by
      rw [show (3 - 2 * 3) * (Real.pi / 2) = -(3 * (Real.pi / 2)) by ring, Real.sin_neg, e1]
    rw [e2, e3, e4] at h
    have : Real.sin i ^ 3 = 0 := by linarith
    exact pow_eq_zero_iff (by norm_num) |>.mp this
  · intro h
    have := inclines_30 i
    rwa [show f30 i = f30Right i by simp [f30, f30Right, h]]

/-- **C84**, degree three, order one: only for polar orbits. -/
theorem C84_violated_f31 (i : ℝ) : InclinesAt 3 1 i (f31 i) ↔ Real.cos i = 0 := by
  constructor
  · intro h
    have h := (same h (inclines_31 i) (Real.pi / 6)).2
    have e1 : Real.sin (3 * (Real.pi / 6)) = 1 := by
      rw [show 3 * (Real.pi / 6) = Real.pi / 2 by ring, Real.sin_pi_div_two]
    simp [Finset.sum_range_succ, f31, f31Right, ipow, e1] at h
    have e2 : Real.sin ((3 - 2) * (Real.pi / 6)) = 1 / 2 := by norm_num
    have e3 : Real.sin ((3 - 2 * 2) * (Real.pi / 6)) = -(1 / 2) := by norm_num [neg_div]
    have e4 : Real.sin ((3 - 2 * 3) * (Real.pi / 6)) = -(1) := by
      rw [show (3 - 2 * 3) * (Real.pi / 6) = -(3 * (Real.pi / 6)) by ring, Real.sin_neg, e1]
    rw [e2, e3, e4] at h
    have : Real.cos i * (15 / 8 * Real.sin i ^ 2 * 2 + 3 / 2) = 0 := by linarith
    rcases mul_eq_zero.mp this with h | h
    · exact h
    · nlinarith [sq_nonneg (Real.sin i)]
  · intro h
    have := inclines_31 i
    rwa [show f31 i = f31Right i by simp [f31, f31Right, h, pow_two]]

/-- **C84**, degree three, order two: only for orbits in the equator and for inclinations of a right angle. -/
theorem C84_violated_f32 (i : ℝ) : InclinesAt 3 2 i (f32 i) ↔ Real.sin i = 0 ∨ Real.sin i = 1 := by
  constructor
  · intro h
    have h := (same h (inclines_32 i) (Real.pi / 4)).2
    have e1 : Real.sin (3 * (Real.pi / 4)) = √2 / 2 := by
      rw [show 3 * (Real.pi / 4) = Real.pi - Real.pi / 4 by ring, Real.sin_pi_sub, Real.sin_pi_div_four]
    simp [Finset.sum_range_succ, f32, f32Right, ipow, e1] at h
    have e2 : Real.sin ((3 - 2) * (Real.pi / 4)) = √2 / 2 := by norm_num
    have e3 : Real.sin ((3 - 2 * 2) * (Real.pi / 4)) = -(√2 / 2) := by norm_num [neg_div]
    have e4 : Real.sin ((3 - 2 * 3) * (Real.pi / 4)) = -(√2 / 2) := by
      rw [show (3 - 2 * 3) * (Real.pi / 4) = -(3 * (Real.pi / 4)) by ring, Real.sin_neg, e1]
    rw [e2, e3, e4] at h
    have hc := Real.sin_sq_add_cos_sq i
    have : Real.sin i ^ 3 * (Real.sin i - 1) * √2 = 0 := by
      linear_combination (4 / 15) * h + (Real.sin i * (Real.sin i - 1) * √2) * hc
    have h2 : √2 ≠ 0 := by positivity
    rcases mul_eq_zero.mp this with h | h
    · rcases mul_eq_zero.mp h with h | h
      · exact Or.inl (pow_eq_zero_iff (by norm_num) |>.mp h)
      · exact Or.inr (by linarith)
    · exact absurd h h2
  · intro h
    have := inclines_32 i
    rwa [show f32 i = f32Right i by rcases h with h | h <;> simp [f32, f32Right, h, pow_two]]

/-- **C84**, degree three, order three: only for orbits in the equator. -/
theorem C84_violated_f33 (i : ℝ) : InclinesAt 3 3 i (f33 i) ↔ Real.sin i = 0 := by
  constructor
  · intro h
    have h := (same h (inclines_33 i) 0).1
    simp [Finset.sum_range_succ, f33, f33Right, ipow] at h
    have : Real.sin i ^ 2 = 0 := by linarith
    exact pow_eq_zero_iff (by norm_num) |>.mp this
  · intro h
    have := inclines_33 i
    rwa [show f33 i = f33Right i by simp [f33, f33Right, h]]

end Posidonius.Kaula
