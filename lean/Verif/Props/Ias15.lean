import Verif.Spec.Ias15
import Verif.Spec.Rounded

/-! # C46, C47, C50: predictor, integration and compensated sums of IAS15 -/

namespace Posidonius.Ias15
open Posidonius MeasureTheory

/-! ### C46 -/

/-- **C46, continuation**: for every ratio up to 20 the coefficients `e` describe the same acceleration as the
coefficients of the finished step, from its end on and in units of the next step. -/
theorem C46_continuation (s : Series ℝ) (ratio : ℝ) (h : ratio ≤ 20) (a0 τ : ℝ) :
    poly (poly a0 s.br 1) (s.next ratio).e τ = poly a0 s.br (1 + ratio * τ) := by
  have : ¬ (20 : ℝ) < ratio := not_lt.2 h
  simp only [Series.next, lit_real, ltb_real, poly]
  norm_num [this]
  ring

/-- **C46, correction**: the predicted `b` is this continuation plus the error of the previous prediction. -/
theorem C46_correction (s : Series ℝ) (ratio : ℝ) (h : ratio ≤ 20) (a0 τ : ℝ) :
    poly a0 (s.next ratio).b τ
      = poly a0 (s.next ratio).e τ + (poly a0 s.br τ - poly a0 s.er τ) := by
  have : ¬ (20 : ℝ) < ratio := not_lt.2 h
  simp only [Series.next, lit_real, ltb_real, poly]
  norm_num [this]
  ring

/-- **C46, exact**: if the acceleration was predicted exactly last time, the next prediction continues it exactly,
and nothing is predicted after an increase of more than 20. -/
theorem C46_exact (s : Series ℝ) (ratio : ℝ) (h : s.br = s.er) (a0 τ : ℝ) :
    (ratio ≤ 20 → poly (poly a0 s.br 1) (s.next ratio).b τ = poly a0 s.br (1 + ratio * τ))
    ∧ (20 < ratio → poly (poly a0 s.br 1) (s.next ratio).b τ = poly a0 s.br 1) := by
  constructor
  · intro hr
    rw [C46_correction s ratio hr, C46_continuation s ratio hr, h]
    ring
  · intro hr
    simp only [Series.next, lit_real, ltb_real, poly, Seven.zero]
    norm_num [hr]

/-! ### C47 -/

/-- The antiderivative of the acceleration polynomial. -/
noncomputable def prim1 (a0 : ℝ) (b : Seven ℝ) (dt t : ℝ) : ℝ :=
  a0 * t + b.c0 * t ^ 2 / (2 * dt) + b.c1 * t ^ 3 / (3 * dt ^ 2) + b.c2 * t ^ 4 / (4 * dt ^ 3) + b.c3 * t ^ 5 / (5 * dt ^ 4)
    + b.c4 * t ^ 6 / (6 * dt ^ 5) + b.c5 * t ^ 7 / (7 * dt ^ 6) + b.c6 * t ^ 8 / (8 * dt ^ 7)

/-- The second antiderivative. -/
noncomputable def prim2 (a0 : ℝ) (b : Seven ℝ) (dt t : ℝ) : ℝ :=
  a0 * t ^ 2 / 2 + b.c0 * t ^ 3 / (6 * dt) + b.c1 * t ^ 4 / (12 * dt ^ 2) + b.c2 * t ^ 5 / (20 * dt ^ 3)
    + b.c3 * t ^ 6 / (30 * dt ^ 4) + b.c4 * t ^ 7 / (42 * dt ^ 5) + b.c5 * t ^ 8 / (56 * dt ^ 6) + b.c6 * t ^ 9 / (72 * dt ^ 7)

theorem integral_at (s : Series ℝ) {dt : ℝ} (hdt : dt ≠ 0) (t : ℝ) :
    ∫ u in (0 : ℝ)..t, s.at dt u = prim1 s.a0 s.b dt t := by
  have hd : ∀ u ∈ Set.uIcc 0 t, HasDerivAt (prim1 s.a0 s.b dt) (s.at dt u) u := by
    intro u _
    have e : ∀ (k : ℕ) (c : ℝ), HasDerivAt (fun u : ℝ => c * u ^ k) (c * (k * u ^ (k - 1))) u := fun k c =>
      (hasDerivAt_pow k u).const_mul c
    have h : prim1 s.a0 s.b dt = fun u => s.a0 * u ^ 1 + s.b.c0 / (2 * dt) * u ^ 2 + s.b.c1 / (3 * dt ^ 2) * u ^ 3
        + s.b.c2 / (4 * dt ^ 3) * u ^ 4 + s.b.c3 / (5 * dt ^ 4) * u ^ 5 + s.b.c4 / (6 * dt ^ 5) * u ^ 6
        + s.b.c5 / (7 * dt ^ 6) * u ^ 7 + s.b.c6 / (8 * dt ^ 7) * u ^ 8 := by
      funext u; simp only [prim1]; ring
    rw [h]
    have := ((((((((e 1 s.a0).add (e 2 (s.b.c0 / (2 * dt)))).add (e 3 (s.b.c1 / (3 * dt ^ 2)))).add
      (e 4 (s.b.c2 / (4 * dt ^ 3)))).add (e 5 (s.b.c3 / (5 * dt ^ 4)))).add (e 6 (s.b.c4 / (6 * dt ^ 5)))).add
      (e 7 (s.b.c5 / (7 * dt ^ 6)))).add (e 8 (s.b.c6 / (8 * dt ^ 7))))
    refine this.congr_deriv ?_
    simp only [Series.at, poly]
    push_cast
    field_simp
  rw [intervalIntegral.integral_eq_sub_of_hasDerivAt hd]
  · simp [prim1]
  · apply Continuous.intervalIntegrable
    unfold Series.at poly
    fun_prop

theorem integral_prim1 (a0 : ℝ) (b : Seven ℝ) {dt : ℝ} (hdt : dt ≠ 0) (v0 t : ℝ) :
    ∫ u in (0 : ℝ)..t, (v0 + prim1 a0 b dt u) = v0 * t + prim2 a0 b dt t := by
  have hd : ∀ u ∈ Set.uIcc 0 t, HasDerivAt (fun u => v0 * u + prim2 a0 b dt u) (v0 + prim1 a0 b dt u) u := by
    intro u _
    have e : ∀ (k : ℕ) (c : ℝ), HasDerivAt (fun u : ℝ => c * u ^ k) (c * (k * u ^ (k - 1))) u := fun k c =>
      (hasDerivAt_pow k u).const_mul c
    have h : (fun u => v0 * u + prim2 a0 b dt u) = fun u => v0 * u ^ 1 + a0 / 2 * u ^ 2 + b.c0 / (6 * dt) * u ^ 3
        + b.c1 / (12 * dt ^ 2) * u ^ 4 + b.c2 / (20 * dt ^ 3) * u ^ 5 + b.c3 / (30 * dt ^ 4) * u ^ 6
        + b.c4 / (42 * dt ^ 5) * u ^ 7 + b.c5 / (56 * dt ^ 6) * u ^ 8 + b.c6 / (72 * dt ^ 7) * u ^ 9 := by
      funext u; simp only [prim2]; ring
    rw [h]
    have := (((((((((e 1 v0).add (e 2 (a0 / 2))).add (e 3 (b.c0 / (6 * dt)))).add (e 4 (b.c1 / (12 * dt ^ 2)))).add
      (e 5 (b.c2 / (20 * dt ^ 3)))).add (e 6 (b.c3 / (30 * dt ^ 4)))).add (e 7 (b.c4 / (42 * dt ^ 5)))).add
      (e 8 (b.c5 / (56 * dt ^ 6)))).add (e 9 (b.c6 / (72 * dt ^ 7))))
    refine this.congr_deriv ?_
    simp only [prim1]
    push_cast
    field_simp
    ring
  rw [intervalIntegral.integral_eq_sub_of_hasDerivAt hd]
  · simp [prim2]
  · apply Continuous.intervalIntegrable
    unfold prim1
    fun_prop

/-- **C47, sub-steps**: the velocity and the angular momentum predicted at the fraction `h` of the step are the exact
integrals of the polynomials of acceleration and torque (from the compensated value at the beginning on). -/
theorem C47_velocity (dt h cs v0 : ℝ) (s : Series ℝ) (hdt : dt ≠ 0) :
    predictVelocity dt h cs v0 s = v0 - cs + ∫ t in (0 : ℝ)..dt * h, s.at dt t := by
  rw [integral_at s hdt]
  simp only [predictVelocity, prim1, lit_real]
  push_cast
  field_simp
  ring

/-- **C47, sub-steps**: the position predicted at the fraction `h` of the step is the exact integral of the
velocity that integrates the acceleration polynomial. -/
theorem C47_position (dt h : ℝ) (p : Comp ℝ) (hdt : dt ≠ 0) :
    p.predictPosition dt h = p.x0 - p.csx + ∫ t in (0 : ℝ)..dt * h, (p.v0 + ∫ u in (0 : ℝ)..t, p.acc.at dt u) := by
  simp only [integral_at _ hdt]
  rw [integral_prim1 _ _ hdt]
  simp only [Comp.predictPosition, prim2, lit_real]
  push_cast
  field_simp
  ring

theorem addCs_real (p c i : ℝ) : addCs p c i = (p + (i - c), 0) := by
  simp [addCs]

/-- **C47, end of the step**: position, velocity and angular momentum at the end of the step are the exact integrals
over the whole step, and the compensations are zero. -/
theorem C47_end (dt : ℝ) (p : Comp ℝ) (spin : Bool) (hdt : dt ≠ 0) :
    (p.finish spin dt).x
      = p.x0 - p.csx + ∫ t in (0 : ℝ)..dt, (p.v0 + ∫ u in (0 : ℝ)..t, p.acc.at dt u)
    ∧ (p.finish spin dt).v = p.v0 - p.csv + ∫ t in (0 : ℝ)..dt, p.acc.at dt t
    ∧ (spin = true → (p.finish spin dt).l = p.l0 - p.css + ∫ t in (0 : ℝ)..dt, p.tor.at dt t)
    ∧ (p.finish spin dt).csx = 0 ∧ (p.finish spin dt).csv = 0 ∧ (spin = true → (p.finish spin dt).css = 0) := by
  simp only [integral_at _ hdt]
  rw [integral_prim1 _ _ hdt]
  simp only [Comp.finish, finishPosition, finishVelocity, addCs_real, prim1, prim2, lit_real]
  push_cast
  refine ⟨?_, ?_, ?_, trivial, trivial, ?_⟩
  · field_simp; ring
  · field_simp; ring
  · intro h; rw [if_pos h]; field_simp; ring
  · intro h; rw [if_pos h]

/-! ### C50 -/

/-- **C50, one addition**: however the sum is rounded, value minus compensation advances by exactly the increment. -/
theorem C50_add {rnd : ℝ → ℝ} (p c i : Rounded rnd) :
    (addCs p c i).1.val - (addCs p c i).2.val = p.val - c.val + i.val := by
  show (addCs p c i).1.val - ((addCs p c i).1.val - p.val - (i.val - c.val)) = _
  ring

/-- **C50, exact arithmetic**: the sum loses nothing. -/
theorem C50_add_exact (p c i : ℝ) : addCs p c i = (p + i - c, 0) := by
  rw [addCs_real]; ring_nf

/-- **C50, many additions**: after any number of compensated additions value minus compensation has advanced by the
exact sum of the increments. -/
theorem C50_sum {rnd : ℝ → ℝ} (l : List (Rounded rnd)) (p c : Rounded rnd) :
    (l.foldl (fun s i => addCs s.1 s.2 i) (p, c)).1.val - (l.foldl (fun s i => addCs s.1 s.2 i) (p, c)).2.val
      = p.val - c.val + (l.map Rounded.val).sum := by
  induction l generalizing p c with
  | nil => simp
  | cons i l ih =>
    rw [List.foldl_cons, ih, List.map_cons, List.sum_cons, C50_add]
    ring

/-- **C50, end of the step**: velocity (angular momentum) minus compensation advances by exactly the increment of the
series, whatever the rounding of the sums. -/
theorem C50_velocity {rnd : ℝ → ℝ} (dt v cs : Rounded rnd) (s : Series (Rounded rnd)) :
    (finishVelocity dt v cs s).1.val - (finishVelocity dt v cs s).2.val
      = v.val - cs.val + (s.a0.val + s.b.c0.val / 2 + s.b.c1.val / 3 + s.b.c2.val / 4 + s.b.c3.val / 5 + s.b.c4.val / 6
        + s.b.c5.val / 7 + s.b.c6.val / 8) * dt.val := by
  simp only [finishVelocity, C50_add, Rounded.mul_val, Rounded.div_val, Rounded.lit_val, lit_real]
  push_cast
  ring

/-- **C50, end of the step**: the same for the position. -/
theorem C50_position {rnd : ℝ → ℝ} (dt : Rounded rnd) (p : Comp (Rounded rnd)) :
    (finishPosition dt p).1.val - (finishPosition dt p).2.val
      = p.x0.val - p.csx.val + p.v0.val * dt.val + (p.acc.a0.val / 2 + p.acc.b.c0.val / 6 + p.acc.b.c1.val / 12
        + p.acc.b.c2.val / 20 + p.acc.b.c3.val / 30 + p.acc.b.c4.val / 42 + p.acc.b.c5.val / 56 + p.acc.b.c6.val / 72)
        * dt.val ^ 2 := by
  simp only [finishPosition, C50_add, Rounded.mul_val, Rounded.div_val, Rounded.lit_val, lit_real]
  push_cast
  ring

/-- The compensation works: with sums rounded down to integers, adding 1/3 three times to 0 gives 1 with
compensation 0, not 0. -/
example : ([1 / 3, 1 / 3, 1 / 3].foldl (fun s (i : ℝ) => addCs (F := Rounded fun x => (⌊x⌋ : ℤ)) s.1 s.2 ⟨i⟩)
    (⟨0⟩, ⟨0⟩)) = (⟨1⟩, ⟨0⟩) := by
  have a : ∀ p c i : ℝ, addCs (F := Rounded fun x => (⌊x⌋ : ℤ)) ⟨p⟩ ⟨c⟩ ⟨i⟩
      = (⟨(⌊p + (i - c)⌋ : ℤ)⟩, ⟨(⌊p + (i - c)⌋ : ℤ) - p - (i - c)⟩) := fun _ _ _ => rfl
  have e1 : ⌊(0 : ℝ) + (1 / 3 - 0)⌋ = 0 := by rw [Int.floor_eq_iff]; norm_num
  have e2 : ⌊(0 : ℝ) + (1 / 3 - (0 - 0 - (1 / 3 - 0)))⌋ = 0 := by rw [Int.floor_eq_iff]; norm_num
  have e3 : ⌊(0 : ℝ) + (1 / 3 - (0 - 0 - (1 / 3 - (0 - 0 - (1 / 3 - 0)))))⌋ = 1 := by rw [Int.floor_eq_iff]; norm_num
  simp only [List.foldl_cons, List.foldl_nil, a, e1, e2, e3, Int.cast_zero, Int.cast_one, Prod.mk.injEq,
    Rounded.mk.injEq, true_and]
  norm_num

end Posidonius.Ias15
