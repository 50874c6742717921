import Verif.Props.Analysis
import Verif.Props.AnalysisElements
import Mathlib.Analysis.Real.Pi.Irrational

/-! # C130: the quantities explored from a history -/

namespace Posidonius.Analysis
open Kepler (len)
open Univ (orbitRate orbitRate_pos)
open Tools (meanOf totalMass)
open Tools.Py (Body)

/-! ## Angles -/

theorem dot_le_len (a b : Axes ℝ) : |a.dot b| ≤ len a * len b := by
  have h : (a.dot b) ^ 2 ≤ (len a * len b) ^ 2 := by
    rw [mul_pow, len, len, Real.sq_sqrt (Axes.dot_self_nonneg _), Real.sq_sqrt (Axes.dot_self_nonneg _)]
    simp only [Axes.dot]
    nlinarith [sq_nonneg (a.x * b.y - a.y * b.x), sq_nonneg (a.y * b.z - a.z * b.y), sq_nonneg (a.z * b.x - a.x * b.z)]
  exact abs_le_of_sq_le_sq h (mul_nonneg (Real.sqrt_nonneg _) (Real.sqrt_nonneg _))

theorem degrees_range (c : ℝ) : 0 ≤ degrees c ∧ degrees c ≤ 180 := by
  unfold degrees
  split
  · simp only [acos_real, Tools.pi, pi_real, lit_real]
    have h1 := Real.arccos_nonneg c
    have h2 := Real.arccos_le_pi c
    have h3 := Real.pi_pos
    constructor
    · push_cast; positivity
    · rw [div_le_iff₀ h3]; push_cast; nlinarith
  · simp only [lit_real]; norm_num

/-- **C130**: the obliquity is the angle between the rotation axis and the normal of the orbit, in degrees. -/
theorem C130_obliquity (r v spin : Axes ℝ) (hl : 0 < len (r.cross v)) (hs : 0 < len spin) :
    Real.cos (obliquity r v spin * Real.pi / 180) = (r.cross v).dot spin / (len (r.cross v) * len spin)
      ∧ 0 ≤ obliquity r v spin ∧ obliquity r v spin ≤ 180 := by
  refine ⟨?_, degrees_range _⟩
  have h := cos_obliquity r v spin hl
  rw [eq_div_iff (by positivity)]
  rw [eq_div_iff hl.ne'] at h
  linarith

theorem sin_ninety : Real.sin 90 < 1 := by
  refine lt_of_le_of_ne (Real.sin_le_one _) fun h => ?_
  obtain ⟨k, hk⟩ := Real.sin_eq_one_iff.1 h
  have hk0 : (1 / 2 + 2 * (k : ℝ)) ≠ 0 := by
    intro h0
    have : (1 : ℝ) + 4 * k = 0 := by linarith
    have : (1 : ℤ) + 4 * k = 0 := by exact_mod_cast this
    omega
  refine irrational_pi ⟨90 / (1 / 2 + 2 * k), ?_⟩
  push_cast
  rw [div_eq_iff hk0]
  linarith

theorem sin_ninety_pos : 0 < Real.sin 90 := by
  have h1 := Real.pi_gt_d2
  have h2 := Real.pi_lt_d2
  have h := Real.sin_pos_of_pos_of_lt_pi (x := 90 - 14 * (2 * Real.pi)) (by linarith) (by linarith)
  have e := Real.sin_sub_nat_mul_two_pi 90 14
  push_cast at e
  rwa [e] at h

/-- **C130 is violated** by the precession angle, which should be the angle between the planet and the rotation axis in the plane
of the orbit: the obliquity is already in degrees when its sine is taken.  For every rotation axis in the plane of the orbit, not
at right angles to the planet and not too close to it, the angle is wrong. -/
theorem C130_violated_precession (r v spin : Axes ℝ) (hr : 0 < len r) (hl : 0 < len (r.cross v)) (hs : 0 < len spin)
    (hplane : (r.cross v).dot spin = 0) (h0 : 0 < r.dot spin) (h1 : r.dot spin ≤ 9 / 10 * (len r * len spin)) :
    Real.cos (precessionAngle r v spin * Real.pi / 180) ≠ r.dot spin / (len r * len spin) := by
  obtain ⟨c1, c2, c3⟩ := C130_obliquity r v spin hl hs
  have hpi := Real.pi_pos
  have ho : obliquity r v spin = 90 := by
    rw [hplane, zero_div, ← Real.cos_pi_div_two] at c1
    have := Real.injOn_cos (x₁ := obliquity r v spin * Real.pi / 180) ⟨by positivity, by
      rw [div_le_iff₀ (by norm_num)]; nlinarith⟩ ⟨by positivity, by linarith⟩ c1
    have h2 : obliquity r v spin * Real.pi = 90 * Real.pi := by linarith
    exact mul_right_cancel₀ hpi.ne' h2
  have hc0 : 0 < r.dot spin / (len r * len spin) := by positivity
  have hc1 : r.dot spin / (len r * len spin) ≤ 9 / 10 := by rw [div_le_iff₀ (by positivity)]; exact h1
  have hd : (1 / Real.sin 90 * (r.x * spin.x + r.y * spin.y + r.z * spin.z) / (len r * len spin))
      = r.dot spin / (len r * len spin) / Real.sin 90 := by
    simp only [Axes.dot]; ring
  unfold precessionAngle
  simp only [ho, npNorm_real, sin_real, lit_real, Rat.cast_one, hd]
  generalize r.dot spin / (len r * len spin) = c at *
  have hs1 := sin_ninety
  have hs0 := sin_ninety_pos
  generalize Real.sin 90 = s at *
  have hlt : c < c / s := by rw [lt_div_iff₀ hs0]; nlinarith
  unfold degrees
  by_cases hle : c / s ≤ 1
  · rw [if_pos (by simpa using hle)]
    simp only [acos_real, Tools.pi, pi_real, lit_real]
    push_cast
    rw [show Real.arccos (c / s) * 180 / Real.pi * Real.pi / 180 = Real.arccos (c / s) by field_simp,
      Real.cos_arccos (by linarith) hle]
    exact hlt.ne'
  · rw [if_neg (by simpa using hle)]
    simp only [lit_real]
    have h3 := Real.one_sub_sq_div_two_le_cos (x := ((1 / 1000000 : ℚ) : ℝ) * Real.pi / 180)
    have h4 : (((1 / 1000000 : ℚ) : ℝ) * Real.pi / 180) ^ 2 ≤ 1 / 10 := by
      have := Real.pi_lt_d2
      have h5 : ((1 / 1000000 : ℚ) : ℝ) * Real.pi / 180 ≤ 1 / 10 := by
        push_cast
        nlinarith
      have h6 : 0 ≤ ((1 / 1000000 : ℚ) : ℝ) * Real.pi / 180 := by positivity
      nlinarith
    intro h
    linarith

/-! ## Radii and periods -/

/-- **C130**: a planet at the corotation radius moves as fast as the star turns. -/
theorem C130_corotation (k : Si ℝ) (ms mp : ℝ) (spin : Axes ℝ) (hg : 0 < k.g) (hsun : 0 < k.mSun) (hau : 0 < k.au)
    (hday : 0 < k.day) (hms : 0 < ms) (hmp : 0 ≤ mp) (hs : 0 < len spin) :
    orbitRate (k.g * (ms * k.mSun + mp * k.mSun)) (corotationRadius k ms mp spin * k.au) = len spin / k.day := by
  have hM : 0 < k.g * k.mSun * (ms + mp) := mul_pos (mul_pos hg hsun) (by linarith)
  have hw : 0 < len spin / k.day := div_pos hs hday
  have e1 : corotationRadius k ms mp spin * k.au
      = (k.g * k.mSun * (ms + mp)) ^ ((1 : ℝ) / 3) * (len spin / k.day) ^ (-(2 : ℝ) / 3) := by
    simp only [corotationRadius, npNorm_real, powf_real, lit_real]
    push_cast
    field_simp
  have e2 : (corotationRadius k ms mp spin * k.au) ^ 3 = k.g * k.mSun * (ms + mp) / (len spin / k.day) ^ 2 := by
    rw [e1, mul_pow]
    generalize k.g * k.mSun * (ms + mp) = x at *
    generalize len spin / k.day = w at *
    rw [← Real.rpow_natCast, ← Real.rpow_natCast, ← Real.rpow_mul hM.le, ← Real.rpow_mul hw.le]
    norm_num
    rw [div_eq_mul_inv]
  rw [orbitRate, e2, show k.g * (ms * k.mSun + mp * k.mSun) = k.g * k.mSun * (ms + mp) by ring, div_div_eq_mul_div,
    mul_div_cancel_left₀ _ hM.ne', Real.sqrt_sq hw.le]

/-- **C130**: the orbital period is that of the orbit. -/
theorem C130_period (k : Si ℝ) (ms mp a : ℝ) (hg : 0 < k.g) (hsun : 0 < k.mSun) (hau : 0 < k.au)
    (hday : 0 < k.day) (hms : 0 < ms) (hmp : 0 ≤ mp) (ha : 0 < a) :
    orbitalPeriod k ms mp a * k.day = 2 * Real.pi / orbitRate (k.g * (ms * k.mSun + mp * k.mSun)) (a * k.au) := by
  have hM : 0 < k.g * k.mSun * (ms + mp) := mul_pos (mul_pos hg hsun) (by linarith)
  have e1 : npow (a * k.au) 3 = (a * k.au) ^ 3 := by
    have := npow_nat (a * k.au) 3
    simpa using this
  simp only [orbitalPeriod, e1, Tools.pi, pi_real, lit_real, sqrt_real]
  rw [orbitRate, show k.g * (ms * k.mSun + mp * k.mSun) = k.g * k.mSun * (ms + mp) by ring, ← inv_div ((a * k.au) ^ 3),
    Real.sqrt_inv, div_inv_eq_mul]
  push_cast
  field_simp

/-- **C130 is violated** by the period of pseudo-synchronization: there is none for any eccentric orbit. -/
theorem C130_violated_pseudo (k : Si ℝ) (ms mp a e : ℝ) (he : e ≠ 0) : pseudoSynchronizationPeriod k ms mp a e = none := by
  simp [pseudoSynchronizationPeriod, he]

/-- **C130** for circles: pseudo-synchronization is synchronization. -/
theorem C130_pseudo_partial (k : Si ℝ) (ms mp a : ℝ) (hg : 0 < k.g) (hsun : 0 < k.mSun) (hau : 0 < k.au)
    (hday : 0 < k.day) (hms : 0 < ms) (hmp : 0 ≤ mp) (ha : 0 < a) :
    pseudoSynchronizationPeriod k ms mp a 0 = some (orbitalPeriod k ms mp a) := by
  have hM : 0 < k.g * k.mSun * (ms + mp) := mul_pos (mul_pos hg hsun) (by linarith)
  have hA : 0 < a * k.au := by positivity
  have e1 : npow (a * k.au) 3 = (a * k.au) ^ 3 := by
    have := npow_nat (a * k.au) 3
    simpa using this
  have e2 : (a * k.au) ^ (-(3 : ℝ) / 2) = (Real.sqrt ((a * k.au) ^ 3))⁻¹ := by
    generalize a * k.au = x at *
    rw [Real.sqrt_eq_rpow, ← Real.rpow_natCast, ← Real.rpow_mul hA.le, ← Real.rpow_neg hA.le]
    norm_num
  simp only [pseudoSynchronizationPeriod, eqb_real, lit_real, Rat.cast_zero, if_true, orbitalPeriod, e1, Tools.pi, pi_real,
    sqrt_real, powf_real]
  push_cast
  rw [e2, Real.sqrt_div (by positivity)]
  congr 1
  have h1 : 0 < Real.sqrt ((a * k.au) ^ 3) := Real.sqrt_pos.2 (by positivity)
  have h2 : 0 < Real.sqrt (k.g * k.mSun * (ms + mp)) := Real.sqrt_pos.2 hM
  field_simp

/-! ## Tidal flux -/

/-- **C130 is violated** by the mean tidal flux: it is zero whatever the tidal model and its dissipation, as the scale factor is
looked for one level above the place where the front end puts it.  By `C128_zero` planets on eccentric orbits are heated. -/
theorem C130_violated_flux (k : Si ℝ) (real : Json.Val → ℝ) (h0 : real (.f64 0) = 0) {F : Type} (b : F → Output.F64)
    (tables : CaseJson.KaulaTables F) (effect : Univ.TidesEffect F) (a e spin obl mp ms rp : ℝ)
    (hg : 0 < k.g) (hsun : 0 < k.mSun) (hau : 0 < k.au) (hday : 0 < k.day) (ha : 0 < a) (hmp : 0 < mp) (hms : 0 < ms)
    (hrp : 0 < rp) (he0 : 0 < e) (he1 : e < 1) (hspin : 0 ≤ spin) :
    meanTidalFlux k real (CaseJson.pyTidesEffect b tables effect) a e spin obl mp ms rp = 0 ∧
    0 < energydot (a * k.au) e (spin / k.day) (obl * Real.pi / 180) k.g (mp * k.mSun) (ms * k.mSun) (rp * k.au)
      (0.002465278 * k.day) := by
  have hk : 0 < 0.002465278 * k.day := by positivity
  refine ⟨?_, lt_of_le_of_ne (C128_nonneg hg (by positivity) (by positivity) (by positivity) (by positivity) he0.le he1 hk.le)
    fun h => he0.ne' ((C128_zero hg (by positivity) (by positivity) (by positivity) (by positivity) he0.le he1 hk
      (by positivity)).1 h.symm).1⟩
  have h : dissipationScale (CaseJson.pyTidesEffect b tables effect) = .f64 0 := by
    cases effect <;> rfl
  rw [meanTidalFlux, h, h0, mul_zero]

/-! ## Angular momentum -/

theorem foldl_sub (l : List (Axes ℝ × Axes ℝ)) (r v : Axes ℝ) :
    l.foldl (fun p t => (p.1.sub t.1, p.2.sub t.2)) (r, v) = (r - (l.map Prod.fst).sum, v - (l.map Prod.snd).sum) := by
  induction l generalizing r v with
  | nil => simp
  | cons t l ih =>
    rw [List.foldl_cons, ih, List.map_cons, List.map_cons, List.sum_cons, List.sum_cons]
    simp only [sub_real, sub_sub]

theorem jacobi_loop (planets : List (Body ℝ)) (hp : ∀ b ∈ planets, 0 < b.mass) (m : ℝ) (hm : 0 < m)
    (terms : List (Axes ℝ × Axes ℝ)) (L : Axes ℝ) :
    ∃ terms' : List (Axes ℝ × Axes ℝ), ∃ L', planets.foldl jacobiStep (m, terms, L) = (m + totalMass planets, terms', L') ∧
      (m + totalMass planets) • (terms'.map Prod.fst).sum
        = m • (terms.map Prod.fst).sum + (planets.map fun b : Body ℝ => b.mass • b.position).sum ∧
      (m + totalMass planets) • (terms'.map Prod.snd).sum
        = m • (terms.map Prod.snd).sum + (planets.map fun b : Body ℝ => b.mass • b.velocity).sum ∧
      L' + (m + totalMass planets) • (terms'.map Prod.fst).sum.cross (terms'.map Prod.snd).sum
        = L + m • (terms.map Prod.fst).sum.cross (terms.map Prod.snd).sum
          + (planets.map fun b : Body ℝ => b.mass • b.position.cross b.velocity).sum := by
  induction planets generalizing m terms L with
  | nil => exact ⟨terms, L, by simp [totalMass], by simp [totalMass], by simp [totalMass], by simp [totalMass]⟩
  | cons b l ih =>
    have hb : 0 < b.mass := hp b (by simp)
    have hmb : 0 < m + b.mass := by linarith
    rw [List.foldl_cons]
    set X := (terms.map Prod.fst).sum
    set V := (terms.map Prod.snd).sum
    have hstep : jacobiStep (m, terms, L) b = (m + b.mass,
        terms ++ [((b.mass / (m + b.mass)) • (b.position - X), (b.mass / (m + b.mass)) • (b.velocity - V))],
        L + (m * b.mass / (m + b.mass)) • (b.position - X).cross (b.velocity - V)) := by
      simp only [jacobiStep, foldl_sub]
      rfl
    rw [hstep]
    obtain ⟨t', L', h1, h2, h3, h4⟩ := ih (fun b hb => hp b (by simp [hb])) (m + b.mass) hmb
      (terms ++ [((b.mass / (m + b.mass)) • (b.position - X), (b.mass / (m + b.mass)) • (b.velocity - V))])
      (L + (m * b.mass / (m + b.mass)) • (b.position - X).cross (b.velocity - V))
    have ht : m + totalMass (b :: l) = m + b.mass + totalMass l := by simp [totalMass]; ring
    simp only [List.map_append, List.sum_append, List.map_cons, List.map_nil, List.sum_cons, List.sum_nil, add_zero] at h2 h3 h4
    change _ = (m + b.mass) • (X + _) + _ at h2
    change _ = (m + b.mass) • (V + _) + _ at h3
    change _ = _ + (m + b.mass) • (X + _).cross (V + _) + _ at h4
    refine ⟨t', L', by rw [h1, ht], ?_, ?_, ?_⟩
    · rw [ht, h2, List.map_cons, List.sum_cons, ← add_assoc]
      congr 1
      ext <;> simp <;> field_simp <;> ring
    · rw [ht, h3, List.map_cons, List.sum_cons, ← add_assoc]
      congr 1
      ext <;> simp <;> field_simp <;> ring
    · rw [ht, h4, List.map_cons, List.sum_cons, ← add_assoc]
      congr 1
      ext <;> simp [Axes.cross] <;> field_simp <;> ring

/-- The angular momentum of bodies about their centre of mass, by the textbook. -/
noncomputable def angularMomentum (bodies : List (Body ℝ)) : Axes ℝ :=
  (bodies.map fun b : Body ℝ => b.mass • (b.position - meanOf (·.position) bodies).cross (b.velocity - meanOf (·.velocity) bodies)).sum

theorem sum_cross (l : List (Body ℝ)) (X V : Axes ℝ) :
    (l.map fun b : Body ℝ => b.mass • (b.position - X).cross (b.velocity - V)).sum
      = (l.map fun b : Body ℝ => b.mass • b.position.cross b.velocity).sum - (l.map fun b : Body ℝ => b.mass • b.position).sum.cross V
        - X.cross (l.map fun b : Body ℝ => b.mass • b.velocity).sum + totalMass l • X.cross V := by
  induction l with
  | nil => ext <;> simp [totalMass, Axes.cross]
  | cons b l ih =>
    simp only [List.map_cons, List.sum_cons, ih, totalMass]
    ext <;> simp [Axes.cross] <;> ring

theorem sum_relative (l : List (Body ℝ)) (star : Body ℝ) :
    totalMass (l.map (relativeTo star)) = totalMass l ∧
    ((l.map (relativeTo star)).map fun b : Body ℝ => b.mass • b.position).sum
      = (l.map fun b : Body ℝ => b.mass • b.position).sum - totalMass l • star.position ∧
    ((l.map (relativeTo star)).map fun b : Body ℝ => b.mass • b.velocity).sum
      = (l.map fun b : Body ℝ => b.mass • b.velocity).sum - totalMass l • star.velocity ∧
    ((l.map (relativeTo star)).map fun b : Body ℝ => b.mass • b.position.cross b.velocity).sum
      = (l.map fun b : Body ℝ => b.mass • b.position.cross b.velocity).sum
        - (l.map fun b : Body ℝ => b.mass • b.position).sum.cross star.velocity
        - star.position.cross (l.map fun b : Body ℝ => b.mass • b.velocity).sum
        + totalMass l • star.position.cross star.velocity := by
  refine ⟨?_, ?_, ?_, ?_⟩
  · simp [totalMass, relativeTo, Function.comp_def]
  · induction l with
    | nil => simp [totalMass]
    | cons b l ih =>
      simp only [List.map_cons, List.sum_cons, ih, totalMass, relativeTo, sub_real]
      ext <;> simp <;> ring
  · induction l with
    | nil => simp [totalMass]
    | cons b l ih =>
      simp only [List.map_cons, List.sum_cons, ih, totalMass, relativeTo, sub_real]
      ext <;> simp <;> ring
  · rw [← sum_cross, List.map_map]
    rfl

/-- **C130**: the orbital angular momentum is that of star and planets about their centre of mass, in the inertial frame. -/
theorem C130_momentum (star : Body ℝ) (planets : List (Body ℝ)) (hs : 0 < star.mass) (hp : ∀ b ∈ planets, 0 < b.mass) :
    orbitalAngularMomentum star.mass (planets.map (relativeTo star)) = angularMomentum (star :: planets) := by
  obtain ⟨t, L, h1, h2, h3, h4⟩ := jacobi_loop (planets.map (relativeTo star))
    (by simpa [relativeTo] using hp) star.mass hs [] Axes.zero
  obtain ⟨r1, r2, r3, r4⟩ := sum_relative planets star
  rw [r1, r2] at h2
  rw [r1, r3] at h3
  rw [r1, r4] at h4
  have hz : (Axes.zero : Axes ℝ) = 0 := by ext <;> simp [Axes.zero]
  have hL : orbitalAngularMomentum star.mass (planets.map (relativeTo star)) = L := by rw [orbitalAngularMomentum, h1]
  have hT : 0 < star.mass + totalMass planets := by
    have := Tools.totalMass_nonneg planets hp
    linarith
  rw [hL, angularMomentum, sum_cross]
  have ht : totalMass (star :: planets) = star.mass + totalMass planets := by simp [totalMass]
  simp only [meanOf, ht, List.map_cons, List.sum_cons]
  simp only [List.map_nil, List.sum_nil, smul_zero, zero_add, hz] at h2 h3 h4
  generalize (t.map Prod.fst).sum = X at *
  generalize (t.map Prod.snd).sum = V at *
  generalize totalMass planets = m at *
  generalize (planets.map fun b : Body ℝ => b.mass • b.position).sum = A at *
  generalize (planets.map fun b : Body ℝ => b.mass • b.velocity).sum = B at *
  generalize (planets.map fun b : Body ℝ => b.mass • b.position.cross b.velocity).sum = C at *
  have hX : X = (star.mass + m)⁻¹ • (A - m • star.position) := by rw [← h2, inv_smul_smul₀ hT.ne']
  have hV : V = (star.mass + m)⁻¹ • (B - m • star.velocity) := by rw [← h3, inv_smul_smul₀ hT.ne']
  rw [eq_sub_of_add_eq h4, hX, hV]
  ext <;> simp [Axes.cross] <;> field_simp <;> ring

/-! ## Examples -/

theorem len_of_sq {a : Axes ℝ} {l : ℝ} (h0 : 0 ≤ l) (h : a.dot a = l ^ 2) : len a = l := by rw [len, h, Real.sqrt_sq h0]

/-- Tilted by 60 degrees. -/
example : Real.cos (obliquity (⟨1, 0, 0⟩ : Axes ℝ) ⟨0, 2, 0⟩ ⟨Real.sqrt 3 / 2, 0, 1 / 2⟩ * Real.pi / 180) = 1 / 2 := by
  have h3 := Real.sq_sqrt (show (0 : ℝ) ≤ 3 by norm_num)
  have hl : len ((⟨1, 0, 0⟩ : Axes ℝ).cross ⟨0, 2, 0⟩) = 2 := len_of_sq (by norm_num) (by simp [Axes.cross, Axes.dot]; norm_num)
  have hs : len (⟨Real.sqrt 3 / 2, 0, 1 / 2⟩ : Axes ℝ) = 1 := len_of_sq (by norm_num) (by simp [Axes.dot]; nlinarith)
  rw [(C130_obliquity _ _ _ (by rw [hl]; norm_num) (by rw [hs]; norm_num)).1, hl, hs]
  simp [Axes.cross, Axes.dot]

example : Real.cos (precessionAngle (⟨1, 0, 0⟩ : Axes ℝ) ⟨0, 2, 0⟩ ⟨3 / 5, 4 / 5, 0⟩ * Real.pi / 180) ≠ 3 / 5 := by
  have hr : len (⟨1, 0, 0⟩ : Axes ℝ) = 1 := len_of_sq (by norm_num) (by simp [Axes.dot])
  have hl : len ((⟨1, 0, 0⟩ : Axes ℝ).cross ⟨0, 2, 0⟩) = 2 := len_of_sq (by norm_num) (by simp [Axes.cross, Axes.dot]; norm_num)
  have hs : len (⟨3 / 5, 4 / 5, 0⟩ : Axes ℝ) = 1 := len_of_sq (by norm_num) (by simp [Axes.dot]; norm_num)
  have h := C130_violated_precession ⟨1, 0, 0⟩ ⟨0, 2, 0⟩ ⟨3 / 5, 4 / 5, 0⟩ (by rw [hr]; norm_num) (by rw [hl]; norm_num)
    (by rw [hs]; norm_num) (by simp [Axes.cross, Axes.dot]) (by simp [Axes.dot]) (by rw [hr, hs]; simp [Axes.dot]; norm_num)
  rw [hr, hs] at h
  simpa [Axes.dot] using h

example : orbitRate (1 * (2 * 1 + 1 * 1)) (corotationRadius (⟨1, 1, 1, 2⟩ : Si ℝ) 2 1 ⟨0, 0, 1⟩ * 1)
    = len (⟨0, 0, 1⟩ : Axes ℝ) / 2 :=
  C130_corotation ⟨1, 1, 1, 2⟩ 2 1 ⟨0, 0, 1⟩ (by norm_num) (by norm_num) (by norm_num) (by norm_num) (by norm_num) (by norm_num)
    (by rw [len_of_sq (l := 1) (by norm_num) (by simp [Axes.dot])]; norm_num)

example : pseudoSynchronizationPeriod (⟨1, 1, 1, 2⟩ : Si ℝ) 2 1 1 0 = some (orbitalPeriod ⟨1, 1, 1, 2⟩ 2 1 1) :=
  C130_pseudo_partial _ _ _ _ (by norm_num) (by norm_num) (by norm_num) (by norm_num) (by norm_num) (by norm_num) (by norm_num)

/-- A star and two planets, seen from the star. -/
example : orbitalAngularMomentum (3 : ℝ) ([⟨1, ⟨1, 0, 0⟩, ⟨0, 1, 0⟩⟩, ⟨2, ⟨0, 3, 0⟩, ⟨-1, 0, 0⟩⟩].map
      (relativeTo ⟨3, ⟨1, 1, 1⟩, ⟨0, 0, 1⟩⟩))
    = angularMomentum [⟨3, ⟨1, 1, 1⟩, ⟨0, 0, 1⟩⟩, ⟨1, ⟨1, 0, 0⟩, ⟨0, 1, 0⟩⟩, ⟨2, ⟨0, 3, 0⟩, ⟨-1, 0, 0⟩⟩] :=
  C130_momentum ⟨3, ⟨1, 1, 1⟩, ⟨0, 0, 1⟩⟩ _ (by norm_num) (by simp)

end Posidonius.Analysis
