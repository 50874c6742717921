import Verif.Model.Kaula
import Verif.Model.RealScalar
import Verif.Model.RealTrig
import Verif.Lemmas.Univ
import Mathlib.Tactic.Ring
import Mathlib.Tactic.FieldSimp
import Mathlib.Tactic.Linarith
import Mathlib.Tactic.LinearCombination
import Mathlib.Topology.Instances.Real.Lemmas
import Mathlib.Analysis.SpecialFunctions.Pow.Continuity

/-!
# The tidal force after Kaula

C53, C85, C86, C87.
-/

namespace Posidonius.Kaula
open Posidonius.Univ

/-! ## Sums -/

theorem sumOver_eq {α : Type} (l : List α) (f : ℕ → α → ℝ) :
    sumOver l f = (l.zipIdx.map fun a => f a.2 a.1).sum := by
  have h (l : List (α × ℕ)) : ∀ s : ℝ, l.foldl (fun s a => s + f a.2 a.1) s = s + (l.map fun a => f a.2 a.1).sum := by
    induction l with
    | nil => intro s; simp
    | cons a l ih => intro s; rw [List.foldl_cons, ih, List.map_cons, List.sum_cons]; ring
  rw [sumOver, h]
  simp

theorem sumOver_add {α : Type} (l : List α) (f g : ℕ → α → ℝ) :
    sumOver l (fun i a => f i a + g i a) = sumOver l f + sumOver l g := by
  simp only [sumOver_eq, List.sum_map_add]

theorem sumOver_mul {α : Type} (l : List α) (c : ℝ) (f : ℕ → α → ℝ) :
    sumOver l (fun i a => c * f i a) = c * sumOver l f := by
  simp only [sumOver_eq, List.sum_map_mul_left]

theorem series_add (n : ℕ) (f : List ℝ) (g : List (List ℝ)) (s t : ℝ → ℝ → ℝ) :
    series n f g (fun p q => s p q + t p q) = series n f g s + series n f g t := by
  simp only [series, mul_add, sumOver_add]

theorem series_mul (n : ℕ) (f : List ℝ) (g : List (List ℝ)) (c : ℝ) (s : ℝ → ℝ → ℝ) :
    series n f g (fun p q => c * s p q) = c * series n f g s := by
  simp only [series, mul_left_comm _ c, sumOver_mul]

/-! ## C53: the circular orbit -/

theorem order_small (e : ℝ) (h : e ≤ 1 / 10) : order e = 2 := by
  have h' : ¬ (3 / 10 : ℝ) < e ∧ ¬ (25 / 100 : ℝ) < e ∧ ¬ (2 / 10 : ℝ) < e ∧ ¬ (15 / 100 : ℝ) < e
      ∧ ¬ (1 / 10 : ℝ) < e := by
    refine ⟨?_, ?_, ?_, ?_, ?_⟩ <;> intro h' <;> norm_num at h' h <;> linarith
  obtain ⟨h1, h2, h3, h4, h5⟩ := h'
  norm_num at h1 h2 h3 h4 h5 h
  norm_num [order, h1, h2, h3, h4, h5, h, not_lt.mpr]

theorem limit_of {f : ℝ → ℝ} {x y : ℝ} (hc : ContinuousAt f y) (h : f y = x) : Filter.Tendsto f (nhds y) (nhds x) :=
  h ▸ hc.tendsto

/-- **C53**, the orthogonal component: the circular branch is the limit of the eccentric one, full and secular. -/
theorem C53_orthogonal (love : ℝ → ℝ × ℝ) (o : Orbit ℝ) :
    Filter.Tendsto (fun e => (orthogonalEccentric love { o with eccentricity := e }).1) (nhdsWithin 0 (Set.Ioi 0))
        (nhds (3 / 2 * orthogonalCircular love o))
      ∧ Filter.Tendsto (fun e => (orthogonalEccentric love { o with eccentricity := e }).2) (nhdsWithin 0 (Set.Ioi 0))
        (nhds (3 / 2 * orthogonalCircular love o)) := by
  have hev : ∀ᶠ e : ℝ in nhdsWithin 0 (Set.Ioi 0), order e = 2 := by
    filter_upwards [Ioo_mem_nhdsGT (show (0 : ℝ) < 1 / 10 by norm_num)] with e he using order_small e he.2.le
  constructor
  · refine Filter.Tendsto.congr' (f₁ := fun e => sumOver (window 2 (g20 e)) fun q g => g * (3 / 2) *
        sumOver (window 2 (g20 e)) fun j h =>
          h * (Real.sin (alpha 0 (shift q 2) 0 (shift j 2) o.meanAnomaly o.argumentPerihelion)
              * (love (sigma 2 0 (shift q 2) o.spin o.frequency)).1
            + Real.cos (alpha 0 (shift q 2) 0 (shift j 2) o.meanAnomaly o.argumentPerihelion)
              * (love (sigma 2 0 (shift q 2) o.spin o.frequency)).2)) ?_ ?_
    · filter_upwards [hev] with e he
      simp [orthogonalEccentric, he]
    · refine Filter.Tendsto.mono_left ?_ nhdsWithin_le_nhds
      refine limit_of ?_ ?_
      · simp [sumOver, window, g20, List.zipIdx]
        fun_prop
      · simp [sumOver, window, g20, List.zipIdx, orthogonalCircular, shift, alpha]
  · refine Filter.Tendsto.congr' (f₁ := fun e => sumOver (window 2 (g20 e)) fun q g => g * (3 / 2) *
        (g * (love (sigma 2 0 (shift q 2) o.spin o.frequency)).2)) ?_ ?_
    · filter_upwards [hev] with e he
      simp [orthogonalEccentric, he]
    · refine Filter.Tendsto.mono_left ?_ nhdsWithin_le_nhds
      refine limit_of ?_ ?_
      · simp [sumOver, window, g20, List.zipIdx]
        fun_prop
      · simp [sumOver, window, g20, List.zipIdx, orthogonalCircular, shift]

/-- The limit of the radial sum for small eccentricities. -/
theorem radial_limit (love : ℝ → ℝ × ℝ) (o : Orbit ℝ) :
    Filter.Tendsto (fun e => (radialEccentric love { o with eccentricity := e }).1) (nhdsWithin 0 (Set.Ioi 0))
        (nhds (3 / 4 * (love 0).1 + 9 / 4 * (love (2 * o.frequency - 2 * o.spin)).1)) := by
  have hev : ∀ᶠ e : ℝ in nhdsWithin 0 (Set.Ioi 0), order e = 2 := by
    filter_upwards [Ioo_mem_nhdsGT (show (0 : ℝ) < 1 / 10 by norm_num)] with e he using order_small e he.2.le
  refine Filter.Tendsto.congr' (f₁ := fun e => sumOver (window 2 ((g20 e).zip (g21 e))) fun q g =>
        3 / 4 * g.2 * (sumOver (window 2 ((g20 e).zip (g21 e))) fun j h =>
          h.2 * (Real.cos (alpha 0 (shift q 2) 0 (shift j 2) o.meanAnomaly o.argumentPerihelion)
              * (love (sigma 0 1 (shift q 2) o.spin o.frequency)).1
            - Real.sin (alpha 0 (shift q 2) 0 (shift j 2) o.meanAnomaly o.argumentPerihelion)
              * (love (sigma 0 1 (shift q 2) o.spin o.frequency)).2))
        + 9 / 4 * g.1 * (sumOver (window 2 ((g20 e).zip (g21 e))) fun j h =>
          h.1 * (Real.cos (alpha 0 (shift q 2) 0 (shift j 2) o.meanAnomaly o.argumentPerihelion)
              * (love (sigma 2 0 (shift q 2) o.spin o.frequency)).1
            - Real.sin (alpha 0 (shift q 2) 0 (shift j 2) o.meanAnomaly o.argumentPerihelion)
              * (love (sigma 2 0 (shift q 2) o.spin o.frequency)).2))) ?_ ?_
  · filter_upwards [hev] with e he
    simp [radialEccentric, he]
  · refine Filter.Tendsto.mono_left ?_ nhdsWithin_le_nhds
    have hp : ContinuousAt (fun e : ℝ => (1 - e * e) ^ (-3 / 2 : ℝ)) 0 :=
      ContinuousAt.rpow_const (by fun_prop) (Or.inl (by norm_num))
    refine limit_of ?_ ?_
    · simp [sumOver, window, g20, g21, List.zipIdx]
      fun_prop
    · simp [sumOver, window, g20, g21, List.zipIdx, shift, alpha, sigma]

/-- **C53** fails for the radial component: the circular branch takes the imaginary part of the Love number at the
frequency 2n - 2w where the limit of the eccentric orbits has the real part.  The two agree only if the parts do. -/
theorem C53_violated_radial (love : ℝ → ℝ × ℝ) (o : Orbit ℝ) :
    Filter.Tendsto (fun e => (radialEccentric love { o with eccentricity := e }).1) (nhdsWithin 0 (Set.Ioi 0))
        (nhds (radialCircular love o))
      ↔ (love (2 * o.frequency - 2 * o.spin)).1 = (love (2 * o.frequency - 2 * o.spin)).2 := by
  have e1 : radialCircular love o = 3 / 4 * (love 0).1 + 9 / 4 * (love (2 * o.frequency - 2 * o.spin)).2 := by
    simp [radialCircular, sigma]
  have h := radial_limit love o
  constructor
  · intro h'
    have := tendsto_nhds_unique h h'
    linarith
  · intro h'
    rw [e1, ← h']
    exact h

/-- A body of Love number 1/2 without dissipation. -/
example : ¬ Filter.Tendsto
    (fun e => (radialEccentric (fun _ => ((-1 / 2 : ℝ), 0)) { (⟨1, 2, 0, 3, 4, 5⟩ : Orbit ℝ) with eccentricity := e }).1)
      (nhdsWithin 0 (Set.Ioi 0)) (nhds (radialCircular (fun _ => (-1 / 2, 0)) ⟨1, 2, 0, 3, 4, 5⟩)) := by
  rw [C53_violated_radial]
  norm_num

/-- The orthogonal component of the planar case: one factor times the circular or the eccentric sum. -/
theorem orthogonal_planar (k : Consts ℝ) (love : ℝ → ℝ × ℝ) (host p : Particle ℝ) (el : Tools.Elements ℝ) (c : Bool)
    (h : obliquity host p c ≤ 1 / 10 ^ 8) : ∃ A : ℝ,
      A = -(k.g * (if c then p.mass else host.mass) ^ 2 * (if c then host.radius else p.radius) ^ 5)
        / (el.semiMajorAxis ^ 6 * signedRadius host p c * sinTheta (mover host p c))
      ∧ ∀ e, (orthogonal k love host p { el with eccentricity := e } c).1 = A * (if e = 0
        then 3 / 2 * orthogonalCircular love (orbit el p)
        else (orthogonalEccentric love { orbit el p with eccentricity := e }).1) := by
  have hl : leb (obliquity host p c) (lit (1 / 10 ^ 8)) = true := by
    rw [leb_real, lit_real]
    push_cast
    exact h
  refine ⟨_, rfl, fun e => ?_⟩
  rw [← ipow_real, ← ipow_real, ← ipow_real]
  simp only [orthogonal, hl, if_true]
  by_cases he : e = 0
  · rw [if_pos (by simp [he]), if_pos he]
    simp only [lit_real]
    push_cast
    rw [mul_assoc]
    rfl
  · rw [if_neg (by simp [he]), if_neg he]
    rfl

/-- **C53** for the force: in the planar case the orthogonal component is continuous at the circular orbit. -/
theorem C53_orthogonal_force (k : Consts ℝ) (love : ℝ → ℝ × ℝ) (host p : Particle ℝ) (el : Tools.Elements ℝ) (c : Bool)
    (h : obliquity host p c ≤ 1 / 10 ^ 8) :
    Filter.Tendsto (fun e : ℝ => (orthogonal k love host p { el with eccentricity := e } c).1)
      (nhdsWithin 0 (Set.Ioi 0)) (nhds (orthogonal k love host p { el with eccentricity := 0 } c).1) := by
  obtain ⟨A, -, hA⟩ := orthogonal_planar k love host p el c h
  have h' := ((C53_orthogonal love (orbit el p)).1).const_mul A
  simp only [hA, if_true]
  refine Filter.Tendsto.congr' ?_ h'
  filter_upwards [self_mem_nhdsWithin] with e he
  rw [if_neg (ne_of_gt he)]

/-! ## C85: the elastic body -/

theorem double_cos {α : Type} (l : List α) (f φ : ℕ → α → ℝ) :
    sumOver l (fun q a => f q a * sumOver l fun j b => f j b * Real.cos (φ j b - φ q a))
      = (sumOver l fun q a => f q a * Real.cos (φ q a)) ^ 2 + (sumOver l fun q a => f q a * Real.sin (φ q a)) ^ 2 := by
  generalize hC : (sumOver l fun q a => f q a * Real.cos (φ q a)) = C
  generalize hS : (sumOver l fun q a => f q a * Real.sin (φ q a)) = S
  have inner (t : ℝ) : (sumOver l fun j b => f j b * Real.cos (φ j b - t)) = C * Real.cos t + S * Real.sin t := by
    rw [← hC, ← hS, mul_comm _ (Real.cos t), mul_comm _ (Real.sin t), ← sumOver_mul, ← sumOver_mul, ← sumOver_add]
    congr 1
    funext j b
    rw [Real.cos_sub]
    ring
  simp only [inner]
  have : (fun q a => f q a * (C * Real.cos (φ q a) + S * Real.sin (φ q a)))
      = fun q a => C * (f q a * Real.cos (φ q a)) + S * (f q a * Real.sin (φ q a)) := by
    funext q a
    ring
  rw [this, sumOver_add, sumOver_mul, sumOver_mul, hC, hS]
  ring

theorem double_sin {α : Type} (l : List α) (f φ : ℕ → α → ℝ) :
    sumOver l (fun q a => f q a * sumOver l fun j b => f j b * Real.sin (φ j b - φ q a)) = 0 := by
  generalize hC : (sumOver l fun q a => f q a * Real.cos (φ q a)) = C
  generalize hS : (sumOver l fun q a => f q a * Real.sin (φ q a)) = S
  have inner (t : ℝ) : (sumOver l fun j b => f j b * Real.sin (φ j b - t)) = S * Real.cos t + -C * Real.sin t := by
    rw [← hC, ← hS, neg_mul, mul_comm _ (Real.cos t), mul_comm _ (Real.sin t), ← neg_mul, ← sumOver_mul, ← sumOver_mul,
      ← sumOver_add]
    congr 1
    funext j b
    rw [Real.sin_sub]
    ring
  simp only [inner]
  have : (fun q a => f q a * (S * Real.cos (φ q a) + -C * Real.sin (φ q a)))
      = fun q a => S * (f q a * Real.cos (φ q a)) + -C * (f q a * Real.sin (φ q a)) := by
    funext q a
    ring
  rw [this, sumOver_add, sumOver_mul, sumOver_mul, hC, hS]
  ring

/-- The Love number of an elastic body as `calculate_kaula_numbers` returns it: minus the real part, and no imaginary
part. -/
def elastic (κ : ℝ) : ℝ → ℝ × ℝ := fun _ => (-κ, 0)

theorem orthogonal_sum (love : ℝ → ℝ × ℝ) (o : Orbit ℝ) : (orthogonalEccentric love o).1
    = 3 / 2 * sumOver (window (order o.eccentricity) (g20 o.eccentricity)) fun q g =>
        g * sumOver (window (order o.eccentricity) (g20 o.eccentricity)) fun j h =>
          h * (Real.sin (shift j (order o.eccentricity) * o.meanAnomaly - shift q (order o.eccentricity) * o.meanAnomaly)
              * (love (sigma 2 0 (shift q (order o.eccentricity)) o.spin o.frequency)).1
            + Real.cos (shift j (order o.eccentricity) * o.meanAnomaly - shift q (order o.eccentricity) * o.meanAnomaly)
              * (love (sigma 2 0 (shift q (order o.eccentricity)) o.spin o.frequency)).2) := by
  rw [← sumOver_mul]
  simp only [orthogonalEccentric, if_true, alpha]
  congr 1
  funext q g
  rw [← mul_assoc, mul_comm g]
  simp [sub_mul]

theorem radial_sum (love : ℝ → ℝ × ℝ) (o : Orbit ℝ) : (radialEccentric love o).1
    = (3 / 4 * sumOver (window (order o.eccentricity) ((g20 o.eccentricity).zip (g21 o.eccentricity))) fun q g =>
        g.2 * sumOver (window (order o.eccentricity) ((g20 o.eccentricity).zip (g21 o.eccentricity))) fun j h =>
          h.2 * (Real.cos (shift j (order o.eccentricity) * o.meanAnomaly - shift q (order o.eccentricity) * o.meanAnomaly)
              * (love (sigma 0 1 (shift q (order o.eccentricity)) o.spin o.frequency)).1
            - Real.sin (shift j (order o.eccentricity) * o.meanAnomaly - shift q (order o.eccentricity) * o.meanAnomaly)
              * (love (sigma 0 1 (shift q (order o.eccentricity)) o.spin o.frequency)).2))
      + 9 / 4 * sumOver (window (order o.eccentricity) ((g20 o.eccentricity).zip (g21 o.eccentricity))) fun q g =>
        g.1 * sumOver (window (order o.eccentricity) ((g20 o.eccentricity).zip (g21 o.eccentricity))) fun j h =>
          h.1 * (Real.cos (shift j (order o.eccentricity) * o.meanAnomaly - shift q (order o.eccentricity) * o.meanAnomaly)
              * (love (sigma 2 0 (shift q (order o.eccentricity)) o.spin o.frequency)).1
            - Real.sin (shift j (order o.eccentricity) * o.meanAnomaly - shift q (order o.eccentricity) * o.meanAnomaly)
              * (love (sigma 2 0 (shift q (order o.eccentricity)) o.spin o.frequency)).2) := by
  rw [← sumOver_mul, ← sumOver_mul, ← sumOver_add]
  simp only [radialEccentric, if_true, alpha]
  congr 1
  funext q g
  rw [← mul_assoc, ← mul_assoc]
  simp [sub_mul]

theorem orthogonalEccentric_elastic (κ : ℝ) (o : Orbit ℝ) : orthogonalEccentric (elastic κ) o = (0, 0) := by
  refine Prod.ext ?_ ?_
  · rw [orthogonal_sum]
    simp only [elastic, mul_zero, add_zero]
    simp only [mul_comm _ (-κ), mul_left_comm _ (-κ), sumOver_mul]
    rw [double_sin (window (order o.eccentricity) (g20 o.eccentricity)) (fun _ g => g)
      (fun q _ => shift q (order o.eccentricity) * o.meanAnomaly)]
    simp
  · simp [orthogonalEccentric, elastic, sumOver_eq]

theorem collect (κ a b c d : ℝ) : -κ * (3 / 4 * (a ^ 2 + b ^ 2)) + -κ * (9 / 4 * (c ^ 2 + d ^ 2))
    = -κ * (3 / 4 * (a ^ 2 + b ^ 2) + 9 / 4 * (c ^ 2 + d ^ 2)) := by ring

theorem radialEccentric_elastic (κ : ℝ) (o : Orbit ℝ) :
    ∃ s t u v : ℝ, (radialEccentric (elastic κ) o).1 = -κ * (3 / 4 * (s ^ 2 + t ^ 2) + 9 / 4 * (u ^ 2 + v ^ 2)) := by
  rw [radial_sum]
  simp only [elastic, mul_zero, sub_zero]
  simp only [mul_comm _ (-κ), mul_left_comm _ (-κ), sumOver_mul]
  rw [double_cos (window (order o.eccentricity) ((g20 o.eccentricity).zip (g21 o.eccentricity))) (fun _ g => g.2)
      (fun q _ => shift q (order o.eccentricity) * o.meanAnomaly),
    double_cos (window (order o.eccentricity) ((g20 o.eccentricity).zip (g21 o.eccentricity))) (fun _ g => g.1)
      (fun q _ => shift q (order o.eccentricity) * o.meanAnomaly)]
  exact ⟨_, _, _, _, collect _ _ _ _ _⟩

theorem series_cos (n : ℕ) (f : List ℝ) (g : List (List ℝ)) (φ : ℝ → ℝ → ℝ) :
    series n f g (fun p q => series n f g fun k j => Real.cos (φ k j - φ p q))
      = (series n f g fun p q => Real.cos (φ p q)) ^ 2 + (series n f g fun p q => Real.sin (φ p q)) ^ 2 := by
  generalize hC : (series n f g fun p q => Real.cos (φ p q)) = C
  generalize hS : (series n f g fun p q => Real.sin (φ p q)) = S
  have inner (t : ℝ) : (series n f g fun k j => Real.cos (φ k j - t)) = Real.cos t * C + Real.sin t * S := by
    rw [← hC, ← hS, ← series_mul, ← series_mul, ← series_add]
    congr 1
    funext k j
    rw [Real.cos_sub]
    ring
  simp only [inner]
  rw [series_add]
  simp only [mul_comm _ C, mul_comm _ S, series_mul]
  rw [hC, hS]
  ring

theorem radialInclined_elastic (κ : ℝ) (o : Orbit ℝ) (i : ℝ) :
    ∃ s t u v w x : ℝ, (radialInclined (elastic κ) o i).1
      = -κ * (s ^ 2 + t ^ 2 + 1 / 3 * (u ^ 2 + v ^ 2) + 1 / 12 * (w ^ 2 + x ^ 2)) := by
  have h (f : List ℝ) : (series (order o.eccentricity) f (g2 o.eccentricity) fun p q =>
      series (order o.eccentricity) f (g2 o.eccentricity) fun k j =>
        FTrig.cos (alpha p q k j o.meanAnomaly o.argumentPerihelion) * -κ
          - FTrig.sin (alpha p q k j o.meanAnomaly o.argumentPerihelion) * 0)
      = -κ * ((series (order o.eccentricity) f (g2 o.eccentricity) fun p q =>
            Real.cos ((q - 2 * p) * o.meanAnomaly - 2 * p * o.argumentPerihelion)) ^ 2
          + (series (order o.eccentricity) f (g2 o.eccentricity) fun p q =>
            Real.sin ((q - 2 * p) * o.meanAnomaly - 2 * p * o.argumentPerihelion)) ^ 2) := by
    rw [← series_cos, ← series_mul]
    congr 1
    funext p q
    rw [← series_mul]
    congr 1
    funext k j
    simp only [alpha, lit_real, cos_real]
    push_cast
    rw [mul_zero, sub_zero, mul_comm]
    congr 2
    ring
  simp only [radialInclined, elastic]
  rw [h, h, h]
  generalize (series (order o.eccentricity) (f20 i) (g2 o.eccentricity) fun p q =>
    Real.cos ((q - 2 * p) * o.meanAnomaly - 2 * p * o.argumentPerihelion)) = a1
  generalize (series (order o.eccentricity) (f20 i) (g2 o.eccentricity) fun p q =>
    Real.sin ((q - 2 * p) * o.meanAnomaly - 2 * p * o.argumentPerihelion)) = a2
  generalize (series (order o.eccentricity) (f21 i) (g2 o.eccentricity) fun p q =>
    Real.cos ((q - 2 * p) * o.meanAnomaly - 2 * p * o.argumentPerihelion)) = a3
  generalize (series (order o.eccentricity) (f21 i) (g2 o.eccentricity) fun p q =>
    Real.sin ((q - 2 * p) * o.meanAnomaly - 2 * p * o.argumentPerihelion)) = a4
  generalize (series (order o.eccentricity) (f22 i) (g2 o.eccentricity) fun p q =>
    Real.cos ((q - 2 * p) * o.meanAnomaly - 2 * p * o.argumentPerihelion)) = a5
  generalize (series (order o.eccentricity) (f22 i) (g2 o.eccentricity) fun p q =>
    Real.sin ((q - 2 * p) * o.meanAnomaly - 2 * p * o.argumentPerihelion)) = a6
  refine ⟨a1, a2, a3, a4, a5, a6, ?_⟩
  simp only [lit_real]
  push_cast
  ring

/-- The elastic body, planar orbit: no force along the orbit. -/
theorem C85_orthogonal (k : Consts ℝ) (κ : ℝ) (host p : Particle ℝ) (el : Tools.Elements ℝ) (c : Bool)
    (h : obliquity host p c ≤ 1 / 10 ^ 8) : (orthogonal k (elastic κ) host p el c).1 = 0 := by
  obtain ⟨A, -, hA⟩ := orthogonal_planar k (elastic κ) host p el c h
  have := hA el.eccentricity
  rw [this]
  split
  · simp [orthogonalCircular, elastic]
  · rw [orthogonalEccentric_elastic]
    simp

/-- **C85** holds for inclined orbits: the tide that the star raises in an elastic planet pulls the planet towards the
star. -/
theorem C85_inclined (k : Consts ℝ) (κ : ℝ) (host p : Particle ℝ) (el : Tools.Elements ℝ)
    (hg : 0 ≤ k.g) (hκ : 0 ≤ κ) (hr : 0 ≤ p.radius) (hd : 0 ≤ p.heliocentricDistance)
    (h : 1 / 10 ^ 8 < obliquity host p false) : (radial k (elastic κ) host p el false).1 ≤ 0 := by
  have hl : ¬ leb (obliquity host p false) (lit (1 / 10 ^ 8)) = true := by
    rw [leb_real, lit_real]
    push_cast
    linarith
  obtain ⟨s, t, u, v, w, x, hs⟩ := radialInclined_elastic κ (orbit el p) (obliquity host p false)
  simp only [radial, if_neg hl, hs]
  simp only [ipow_real, lit_real]
  have : 0 ≤ k.g * host.mass ^ 2 * p.radius ^ 5 * ((3 : ℚ) : ℝ) / (el.semiMajorAxis ^ 6 * p.heliocentricDistance) := by
    have : (0 : ℝ) ≤ ((3 : ℚ) : ℝ) := by norm_num
    have := sq_nonneg host.mass
    positivity
  refine mul_nonpos_of_nonpos_of_nonneg ?_ (by simpa using this)
  have : 0 ≤ s ^ 2 + t ^ 2 + 1 / 3 * (u ^ 2 + v ^ 2) + 1 / 12 * (w ^ 2 + x ^ 2) := by positivity
  nlinarith

/-- **C85** fails for planar orbits: there the tide pushes the elastic planet away from the star. -/
theorem C85_violated_planar (k : Consts ℝ) (κ : ℝ) (host p : Particle ℝ) (el : Tools.Elements ℝ)
    (hg : 0 < k.g) (hκ : 0 < κ) (hm : 0 < host.mass) (hr : 0 < p.radius) (hd : 0 < p.heliocentricDistance)
    (ha : 0 < el.semiMajorAxis) (h : obliquity host p false ≤ 1 / 10 ^ 8) :
    0 ≤ (radial k (elastic κ) host p el false).1 ∧ (el.eccentricity = 0 → 0 < (radial k (elastic κ) host p el false).1) := by
  have hl : leb (obliquity host p false) (lit (1 / 10 ^ 8)) = true := by
    rw [leb_real, lit_real]
    push_cast
    exact h
  have hc : -(k.g * host.mass ^ 2 * p.radius ^ 5) / (el.semiMajorAxis ^ 6 * p.heliocentricDistance) < 0 := by
    rw [neg_div]
    have : 0 < k.g * host.mass ^ 2 * p.radius ^ 5 / (el.semiMajorAxis ^ 6 * p.heliocentricDistance) := by positivity
    linarith
  by_cases he : el.eccentricity = 0
  · have : 0 < (radial k (elastic κ) host p el false).1 := by
      simp only [radial, if_pos hl]
      rw [if_pos (by simp [he])]
      simp only [ipow_real, signedRadius]
      refine mul_pos_of_neg_of_neg (by simpa using hc) ?_
      simp [radialCircular, elastic, hκ]
    exact ⟨this.le, fun _ => this⟩
  · refine ⟨?_, fun h => absurd h he⟩
    obtain ⟨s, t, u, v, hs⟩ := radialEccentric_elastic κ (orbit el p)
    simp only [radial, if_pos hl]
    rw [if_neg (by simp [he])]
    simp only [hs, ipow_real, signedRadius]
    refine mul_nonneg_of_nonpos_of_nonpos (by simpa using hc.le) ?_
    have : 0 ≤ 3 / 4 * (s ^ 2 + t ^ 2) + 9 / 4 * (u ^ 2 + v ^ 2) := by positivity
    nlinarith

/-- A star, and a planet on a circular orbit in its own equator. -/
noncomputable def star : Particle ℝ := { blank ℝ with mass := 9 / 10, radius := 1 / 100 }

noncomputable def planet : Particle ℝ :=
  { blank ℝ with
    mass := 1 / 10
    radius := 1 / 1000
    heliocentricPosition := ⟨1, 0, 0⟩
    heliocentricVelocity := ⟨0, 1, 0⟩
    heliocentricDistance := 1
    spin := ⟨0, 0, 2⟩
    normSpin2 := 4 }

theorem planet_obliquity : obliquity star planet false = 0 := by
  have h : √((2 : ℝ) * 2) = 2 := Real.sqrt_mul_self (by norm_num)
  simp [obliquity, mover, planet, Tools.inclinationOrbitalEquatorial, h, Tools.clamp]
  norm_num

example (k : Consts ℝ) (hk : k.g = 1) (el : Tools.Elements ℝ) (ha : el.semiMajorAxis = 1) (he : el.eccentricity = 0) :
    0 < (radial k (elastic (3 / 10)) star planet el false).1 :=
  (C85_violated_planar k _ star planet el (by simp [hk]) (by norm_num) (by norm_num [star]) (by norm_num [planet])
    (by norm_num [planet]) (by simp [ha]) (by rw [planet_obliquity]; norm_num)).2 he

/-! ## C86: masses and radii -/

/-- **C86** for the tide in a planet: all components go with the square of the mass of the star. -/
theorem C86_planet_mass (k : Consts ℝ) (love : ℝ → ℝ × ℝ) (host p : Particle ℝ) (el : Tools.Elements ℝ) (s : ℝ) :
    (radial k love { host with mass := s * host.mass } p el false).1 = s ^ 2 * (radial k love host p el false).1
    ∧ (normal k love { host with mass := s * host.mass } p el false).1 = s ^ 2 * (normal k love host p el false).1
    ∧ (orthogonal k love { host with mass := s * host.mass } p el false).1
      = s ^ 2 * (orthogonal k love host p el false).1 := by
  have h : obliquity { host with mass := s * host.mass } p false = obliquity host p false := rfl
  refine ⟨?_, ?_, ?_⟩
  · simp only [radial, h, signedRadius, ipow_real, Bool.false_eq_true, if_false, if_true]
    split_ifs <;> simp <;> ring
  · simp only [normal, h, ipow_real, Bool.false_eq_true, if_false, if_true]
    split_ifs <;> simp <;> ring
  · simp only [orthogonal, h, signedRadius, ipow_real, mover, Bool.false_eq_true, if_false, if_true]
    split_ifs <;> simp <;> ring

/-- **C86** for the tide in a planet: all components go with the fifth power of the radius of the planet. -/
theorem C86_planet_radius (k : Consts ℝ) (love : ℝ → ℝ × ℝ) (host p : Particle ℝ) (el : Tools.Elements ℝ) (s : ℝ) :
    (radial k love host { p with radius := s * p.radius } el false).1 = s ^ 5 * (radial k love host p el false).1
    ∧ (normal k love host { p with radius := s * p.radius } el false).1 = s ^ 5 * (normal k love host p el false).1
    ∧ (orthogonal k love host { p with radius := s * p.radius } el false).1
      = s ^ 5 * (orthogonal k love host p el false).1 := by
  have h : obliquity host { p with radius := s * p.radius } false = obliquity host p false := rfl
  have h' : orbit el { p with radius := s * p.radius } = orbit el p := rfl
  refine ⟨?_, ?_, ?_⟩
  · simp only [radial, h, h', signedRadius, ipow_real, Bool.false_eq_true, if_false, if_true]
    split_ifs <;> simp <;> ring
  · simp only [normal, h, h', ipow_real, Bool.false_eq_true, if_false, if_true]
    split_ifs <;> simp <;> ring
  · simp only [orthogonal, h, h', signedRadius, ipow_real, mover, sinTheta, Bool.false_eq_true, if_false, if_true]
    split_ifs <;> simp <;> ring

/-- **C86** fails for the tide in the star: the component along the orbit does not depend on the mass of the planet that
raises the tide, nor on the radius of the star; it goes with the square of the mass of the star and with the fifth power
of the radius of the planet.  (`host` is the planet here and `p` the star.) -/
theorem C86_violated_star (k : Consts ℝ) (love : ℝ → ℝ × ℝ) (host p : Particle ℝ) (el : Tools.Elements ℝ) (s : ℝ) :
    orthogonal k love { host with mass := s } p el true = orthogonal k love host p el true
    ∧ orthogonal k love host { p with radius := s } el true = orthogonal k love host p el true
    ∧ (orthogonal k love host { p with mass := s * p.mass } el true).1 = s ^ 2 * (orthogonal k love host p el true).1
    ∧ (orthogonal k love { host with radius := s * host.radius } p el true).1
      = s ^ 5 * (orthogonal k love host p el true).1
    ∧ normal k love { host with mass := s } p el true = normal k love host p el true
    ∧ normal k love host { p with radius := s } el true = normal k love host p el true := by
  refine ⟨rfl, rfl, ?_, ?_, rfl, rfl⟩
  · have h : obliquity host { p with mass := s * p.mass } true = obliquity host p true := rfl
    have h' : orbit el { p with mass := s * p.mass } = orbit el p := rfl
    simp only [orthogonal, h, h', signedRadius, ipow_real, mover, Bool.false_eq_true, if_false, if_true]
    split_ifs <;> simp <;> ring
  · have h : obliquity { host with radius := s * host.radius } p true = obliquity host p true := rfl
    simp only [orthogonal, h, signedRadius, ipow_real, mover, sinTheta, Bool.false_eq_true, if_false, if_true]
    split_ifs <;> simp <;> ring

/-- The radial component of the planar case has the right masses and radii, that of the inclined case has the mass of
the star. -/
theorem C86_star_radial (k : Consts ℝ) (love : ℝ → ℝ × ℝ) (host p : Particle ℝ) (el : Tools.Elements ℝ) (s : ℝ) :
    (obliquity host p true ≤ 1 / 10 ^ 8 →
      (radial k love { host with mass := s * host.mass } p el true).1 = s ^ 2 * (radial k love host p el true).1)
    ∧ (1 / 10 ^ 8 < obliquity host p true →
      radial k love { host with mass := s } p el true = radial k love host p el true) := by
  have h : obliquity { host with mass := s * host.mass } p true = obliquity host p true := rfl
  have h2 : obliquity { host with mass := s } p true = obliquity host p true := rfl
  constructor
  · intro hl
    have hl : leb (obliquity host p true) (lit (1 / 10 ^ 8)) = true := by
      rw [leb_real, lit_real]
      push_cast
      exact hl
    simp only [radial, h, if_pos hl, signedRadius, ipow_real, Bool.false_eq_true, if_false, if_true]
    split_ifs <;> simp <;> ring
  · intro hl
    have hl : ¬ leb (obliquity host p true) (lit (1 / 10 ^ 8)) = true := by
      rw [leb_real, lit_real]
      push_cast
      linarith
    simp only [radial, h2, if_neg hl]
    rfl

/-- The tide that the planet raises in a star, with a force that is not zero. -/
example (k : Consts ℝ) (hk : k.g = 1) (el : Tools.Elements ℝ) (ha : el.semiMajorAxis = 1) (he : el.eccentricity = 0) :
    (orthogonal k (fun _ => (0, 1)) { planet with tides := { planet.tides with position := ⟨1, 0, 0⟩ } }
      { star with spin := ⟨0, 0, 2⟩ } el true).1 ≠ 0 := by
  have h2 : √((2 : ℝ) * 2) = 2 := Real.sqrt_mul_self (by norm_num)
  have h : obliquity { planet with tides := { planet.tides with position := ⟨1, 0, 0⟩ } }
      { star with spin := ⟨0, 0, 2⟩ } true = 0 := by
    simp [obliquity, mover, planet, Tools.inclinationOrbitalEquatorial, h2, Tools.clamp]
    norm_num
  obtain ⟨A, hA, hB⟩ := orthogonal_planar k (fun _ => (0, 1))
    { planet with tides := { planet.tides with position := ⟨1, 0, 0⟩ } } { star with spin := ⟨0, 0, 2⟩ } el true
    (by rw [h]; norm_num)
  have := hB el.eccentricity
  rw [this, if_pos he]
  have : A ≠ 0 := by
    rw [hA]
    simp [hk, ha, signedRadius, mover, sinTheta, star, planet]
  simpa [orthogonalCircular] using this

/-! ## C87: components, torque and the exchange of angular momentum -/

/-- The vectors of the theorem are written out: scalar product with the position, and vertical component of the
torque. -/
theorem C87_components (k : Consts ℝ) (love : ℝ → ℝ × ℝ) (host p : Particle ℝ) (c : Bool)
    (hd : (mover host p c).tides.distance = √((mover host p c).tides.position.x ^ 2
      + (mover host p c).tides.position.y ^ 2 + (mover host p c).tides.position.z ^ 2))
    (hp : 0 < (mover host p c).tides.position.x ^ 2 + (mover host p c).tides.position.y ^ 2) :
    let x := (mover host p c).tides.position
    let f := (force k love host p c).1
    let el := elements k host p c
    x.x * f.x + x.y * f.y + x.z * f.z = (mover host p c).tides.distance * (radial k love host p el c).1
    ∧ x.x * f.y - x.y * f.x = √(x.x ^ 2 + x.y ^ 2) * (orthogonal k love host p el c).1
    ∧ f.x ^ 2 + f.y ^ 2 + f.z ^ 2 = (radial k love host p el c).1 ^ 2 + (normal k love host p el c).1 ^ 2
      + (orthogonal k love host p el c).1 ^ 2 := by
  simp only [force]
  generalize (radial k love host p (elements k host p c) c).1 = R
  generalize (normal k love host p (elements k host p c) c).1 = N
  generalize (orthogonal k love host p (elements k host p c) c).1 = O
  generalize (radial k love host p (elements k host p c) c).2 = R'
  generalize (normal k love host p (elements k host p c) c).2 = N'
  generalize (orthogonal k love host p (elements k host p c) c).2 = O'
  rw [hd]
  generalize (mover host p c).tides.position = x at hp ⊢
  simp only [project, ipow_real, sqrt_real]
  have h1 : √(x.x ^ 2 + x.y ^ 2) ^ 2 = x.x ^ 2 + x.y ^ 2 := Real.sq_sqrt hp.le
  have h2 : √(x.x ^ 2 + x.y ^ 2 + x.z ^ 2) ^ 2 = x.x ^ 2 + x.y ^ 2 + x.z ^ 2 := Real.sq_sqrt (by positivity)
  have p1 : 0 < √(x.x ^ 2 + x.y ^ 2) := Real.sqrt_pos.mpr hp
  have p2 : 0 < √(x.x ^ 2 + x.y ^ 2 + x.z ^ 2) := Real.sqrt_pos.mpr (by positivity)
  generalize √(x.x ^ 2 + x.y ^ 2) = s at h1 p1 ⊢
  generalize √(x.x ^ 2 + x.y ^ 2 + x.z ^ 2) = r at h2 p2 ⊢
  obtain ⟨a, ha⟩ : ∃ a, x.x / s = a := ⟨_, rfl⟩
  obtain ⟨b, hb⟩ : ∃ b, x.y / s = b := ⟨_, rfl⟩
  obtain ⟨u, hu⟩ : ∃ u, s / r = u := ⟨_, rfl⟩
  obtain ⟨v, hv⟩ : ∃ v, x.z / r = v := ⟨_, rfl⟩
  have ex : x.x = s * a := by rw [← ha]; field_simp
  have ey : x.y = s * b := by rw [← hb]; field_simp
  have ez : x.z = r * v := by rw [← hv]; field_simp
  have es : s = r * u := by rw [← hu]; field_simp
  have hab : a ^ 2 + b ^ 2 = 1 := by
    rw [← ha, ← hb]
    field_simp
    exact h1.symm
  have huv : u ^ 2 + v ^ 2 = 1 := by
    rw [← hu, ← hv]
    field_simp
    rw [h1, h2]
  rw [ha, hb, hu, hv]
  refine ⟨?_, ?_, ?_⟩
  · rw [ex, ey, ez, es]
    linear_combination (r * u ^ 2 * R + r * u * v * N) * hab + r * R * huv
  · rw [ex, ey]
    linear_combination s * O * hab
  · linear_combination ((R * u + N * v) ^ 2 + O ^ 2) * hab + (R ^ 2 + N ^ 2) * huv

/-- The moment of a force. -/
def moment (x f : Axes ℝ) : Axes ℝ := ⟨x.y * f.z - x.z * f.y, x.z * f.x - x.x * f.z, x.x * f.y - x.y * f.x⟩

/-- The torque on the spin of a planet (minus the moment of the stored force) and the moment of the force on its orbit
add up to zero when the orbit is circular and in the equator of the planet. -/
theorem C87_exchange_partial (k : Consts ℝ) (love : ℝ → ℝ × ℝ) (host p : Particle ℝ)
    (h : obliquity host p false ≤ 1 / 10 ^ 8) (he : (elements k host p false).eccentricity = 0) :
    torque (force k love host p false).2.1 p false = moment p.tides.position (force k love host p false).1 := by
  have hl : leb (obliquity host p false) (lit (1 / 10 ^ 8)) = true := by
    rw [leb_real, lit_real]
    push_cast
    exact h
  have he : eqb (elements k host p false).eccentricity (lit 0) = true := by simp [he]
  simp only [torque, force, radial, normal, orthogonal, if_pos hl, if_pos he, moment, Bool.false_eq_true, if_false]

/-- For eccentric orbits the two differ: the spin gets the moment of the mean force, the orbit the force itself.  Here
for a body with Im k = 1 at all frequencies, at the perihelion of an orbit of eccentricity 1/10. -/
theorem C87_violated_exchange (o : Orbit ℝ) (he : o.eccentricity = 1 / 10) (hM : o.meanAnomaly = 0) :
    (orthogonalEccentric (fun _ => (0, 1)) o).2 + 1 < (orthogonalEccentric (fun _ => (0, 1)) o).1 := by
  simp only [orthogonalEccentric, he, order_small (1 / 10) (le_refl _), hM]
  simp [sumOver, window, g20, alpha, List.zipIdx]
  norm_num

theorem C87_star_one (k : Consts ℝ) (love : ℝ → ℝ × ℝ) (st p : Particle ℝ) (stored : Axes ℝ) :
    starTorque k love st stored [p] = moment p.tides.position (force k love p st true).2.1 := by
  simp only [starTorque, List.foldl_cons, List.foldl_nil, torque, moment]
  generalize (force k love p st true).2.1 = f
  ext <;> simp [Axes.zero] <;> ring

/-- **C87** fails for two companions: the torque on the star is the sum of the moments of the two forces only if the
force of the second has about the first companion the moment of the force of the first. -/
theorem C87_violated_star (k : Consts ℝ) (love : ℝ → ℝ × ℝ) (st p q : Particle ℝ) (stored : Axes ℝ) :
    starTorque k love st stored [p, q]
        = moment p.tides.position (force k love p st true).2.1 + moment q.tides.position (force k love q st true).2.1
      ↔ moment p.tides.position (force k love p st true).2.1 = moment p.tides.position (force k love q st true).2.1 := by
  have h : starTorque k love st stored [p, q] = moment p.tides.position (force k love q st true).2.1
      + moment q.tides.position (force k love q st true).2.1 := by
    simp only [starTorque, List.foldl_cons, List.foldl_nil, torque, moment]
    generalize (force k love q st true).2.1 = f
    ext <;> simp [Axes.zero] <;> ring
  rw [h, add_left_inj, eq_comm]

/-- A planet at (s, 0, 0) on a circular orbit about a star of mass 9/10. -/
noncomputable def planetAt (s : ℝ) : Particle ℝ :=
  { planet with
    heliocentricPosition := ⟨s, 0, 0⟩
    heliocentricVelocity := ⟨0, s, 0⟩
    tides := { planet.tides with position := ⟨s, 0, 0⟩, distance := 1 } }

noncomputable def spinningStar : Particle ℝ := { star with spin := ⟨0, 0, 2⟩ }

theorem force_planetAt (k : Consts ℝ) (hk : k.g = 1) (s : ℝ) (hs : s * s = 1) :
    (force k (fun _ => (0, 1)) (planetAt s) spinningStar true).2.1.y = s * (3 / 2 * (9 / 10) ^ 2 * (1 / 1000) ^ 5) := by
  have h2 : √((2 : ℝ) * 2) = 2 := Real.sqrt_mul_self (by norm_num)
  have hs2 : s ^ 2 = 1 := by rw [pow_two, hs]
  have h : obliquity (planetAt s) spinningStar true = 0 := by
    simp [obliquity, mover, planetAt, planet, spinningStar, star, Tools.inclinationOrbitalEquatorial, h2, Tools.clamp, hs]
    norm_num
  have hl : leb (obliquity (planetAt s) spinningStar true) (lit (1 / 10 ^ 8)) = true := by
    rw [leb_real, lit_real, h]
    norm_num
  have he : (elements k (planetAt s) spinningStar true).eccentricity = 0 := by
    simp [elements, mover, planetAt, planet, spinningStar, star, Tools.keplerianElements, hs, hk]
    norm_num
  have ha : (elements k (planetAt s) spinningStar true).semiMajorAxis = 1 := by
    simp [elements, mover, planetAt, planet, spinningStar, star, Tools.keplerianElements, hs, hk]
    norm_num
  have he' : eqb (elements k (planetAt s) spinningStar true).eccentricity (lit 0) = true := by simp [he]
  simp only [force, radial, normal, orthogonal, if_pos hl, if_pos he', ha, if_true, project]
  simp [mover, signedRadius, sinTheta, planetAt, planet, spinningStar, star, hs2, hk, orthogonalCircular]
  norm_num
  ring

/-- Two planets on opposite sides of the star. -/
theorem C87_violated_star_witness (k : Consts ℝ) (hk : k.g = 1) (stored : Axes ℝ) :
    starTorque k (fun _ => (0, 1)) spinningStar stored [planetAt 1, planetAt (-1)]
      ≠ moment (planetAt 1).tides.position (force k (fun _ => (0, 1)) (planetAt 1) spinningStar true).2.1
        + moment (planetAt (-1)).tides.position (force k (fun _ => (0, 1)) (planetAt (-1)) spinningStar true).2.1 := by
  rw [Ne, C87_violated_star]
  intro h
  have h := congrArg Axes.z h
  simp only [moment, force_planetAt k hk 1 (by norm_num), force_planetAt k hk (-1) (by norm_num)] at h
  norm_num [planetAt] at h

end Posidonius.Kaula
