import Mathlib.Analysis.Calculus.FDeriv.WithLp
import Mathlib.Analysis.InnerProductSpace.PiL2
import Verif.Spec.Observer
import Verif.Lemmas.EulerOrder
import Verif.Props.Convergence
import Verif.Props.WindBraking

/-! # C114 The order of LeapFrog for rotation -/

namespace Posidonius.Univ
open Finset Order
open Gravity (Ignore)
open WHFast (VecDeriv)

/-- A vector with its Euclidean norm. -/
def space (a : Axes ℝ) : EuclideanSpace ℝ (Fin 3) := WithLp.toLp 2 (coords a)

theorem space_add (a b : Axes ℝ) : space (a + b) = space a + space b := by
  unfold space
  rw [coords_add]
  rfl

theorem space_smul (c : ℝ) (a : Axes ℝ) : space (c • a) = c • space a := by
  unfold space
  rw [coords_smul]
  rfl

theorem space_sub (a b : Axes ℝ) : space (a - b) = space a - space b := by
  unfold space
  rw [coords_sub]
  rfl

theorem norm_space (a : Axes ℝ) : ‖space a‖ = √(a.dot a) := by
  rw [EuclideanSpace.norm_eq]
  congr 1
  simp [space, coords, Fin.sum_univ_three, Axes.dot]
  ring

theorem hasDerivAt_space {p : ℝ → Axes ℝ} {d : Axes ℝ} {t : ℝ} (h : VecDeriv p d t) :
    HasDerivAt (fun t => space (p t)) (space d) t := by
  have h1 : HasFDerivAt (fun x : Fin 3 → ℝ => (WithLp.toLp 2 x : EuclideanSpace ℝ (Fin 3)))
      (PiLp.continuousLinearEquiv 2 ℝ fun _ : Fin 3 => ℝ).symm.toContinuousLinearMap (coords (p t)) :=
    PiLp.hasFDerivAt_toLp 2 (coords (p t))
  exact h1.comp_hasDerivAt t (hasDerivAt_coords h)

section
variable {n : Nat} {k : Consts ℝ} {m : Models ℝ} {eps2 : ℝ} {roche : Fin n → Fin n → ℝ} {u : Universe ℝ n}

/-- **C114, the order that LeapFrog has**: let a body have a wind and no other torques, and let `L` be the solution of the
equation for its angular momentum.  Then the error of LeapFrog is at most a constant times the step.  Missing: the second
order, see `C114_violated`. -/
theorem C114_first_order_partial (hq : NoOffTorque u) (ht : u.consider.tides = false) (hf : u.consider.flattening = false)
    (hg : u.consider.gr = false) (he : u.consider.evolution = false) (hw : u.consider.wind = true) (i : Fin n)
    (hi : (u.particles i).wind.interaction = true) {saturation kFactor T : ℝ} (hs : 0 ≤ saturation)
    (hk : (u.particles i).wind.kFactor = kFactor) (hs1 : (u.particles i).wind.rotationSaturation = saturation)
    (hs2 : (u.particles i).wind.rotationSaturation2 = saturation ^ 2) {L : ℝ → Axes ℝ}
    (hL0 : L 0 = (u.particles i).angularMomentum)
    (hL : ∀ t ∈ Set.Icc 0 T, VecDeriv L (-(windRate k kFactor saturation (u.particles i).radius (u.particles i).mass
      (u.particles i).momentOfInertia (L t) • L t)) t) :
    ∃ C : ℝ, ∀ h : ℝ, 0 < h → ∀ times : List ℝ, times.length * h ≤ T → ∀ u',
      leapfrogRun k m eps2 roche h (h / 2) (times.map fun t => (t, false)) u = some u' →
      √(((u'.particles i).angularMomentum - L (times.length * h)).dot
        ((u'.particles i).angularMomentum - L (times.length * h))) ≤ C * h := by
  set R := (u.particles i).radius with hR
  set mass := (u.particles i).mass with hmass
  set I := (u.particles i).momentOfInertia with hI
  set A := kFactor * Real.sqrt (R / k.rSun / mass) / I with hA
  set F : EuclideanSpace ℝ (Fin 3) → EuclideanSpace ℝ (Fin 3) :=
    fun x => (-A * min (|1 / I| ^ 2 * ‖x‖ ^ 2) (saturation ^ 2)) • x with hF
  have rate : ∀ l : Axes ℝ, windRate k kFactor saturation R mass I l
      = A * min (|1 / I| ^ 2 * ‖space l‖ ^ 2) (saturation ^ 2) := by
    intro l
    have : ((1 / I) • l).norm2 = |1 / I| ^ 2 * ‖space l‖ ^ 2 := by
      rw [norm_space, Real.sq_sqrt (Axes.dot_self_nonneg l), sq_abs]
      simp [Axes.norm2, Axes.dot]
      ring
    unfold windRate
    rw [this, hA]
    ring
  have field : ∀ l : Axes ℝ, space (-(windRate k kFactor saturation R mass I l • l)) = F (space l) := by
    intro l
    rw [← neg_smul, space_smul, rate, hF]
    simp only [neg_mul]
  have lip : ∀ x y, ‖F x - F y‖ ≤ 3 * |A| * saturation ^ 2 * ‖x - y‖ := by
    intro x y
    have := saturated_lipschitz (A := -A) (B := |1 / I|) (S := saturation) (abs_nonneg _) hs x y
    rwa [abs_neg] at this
  set K := 3 * |A| * saturation ^ 2 with hK
  have K0 : 0 ≤ K := by positivity
  have sol : ∀ t ∈ Set.Icc 0 T, HasDerivAt (fun t => space (L t)) (F (space (L t))) t := by
    intro t ht
    have := hasDerivAt_space (hL t ht)
    rwa [field] at this
  obtain ⟨M, hM⟩ : ∃ M, ∀ t ∈ Set.Icc 0 T, ‖F (space (L t))‖ ≤ M := by
    have c1 : ContinuousOn (fun t => space (L t)) (Set.Icc 0 T) := fun t ht => (sol t ht).continuousAt.continuousWithinAt
    have c2 : ContinuousOn (fun t => F (space (L t))) (Set.Icc 0 T) := by
      have : Continuous F := by rw [hF]; fun_prop
      exact this.comp_continuousOn c1
    exact isCompact_Icc.exists_bound_of_continuousOn c2
  rcases lt_or_ge T 0 with hT | hT
  · refine ⟨0, fun h h0 times hl => ?_⟩
    have : (0 : ℝ) ≤ times.length * h := by positivity
    linarith
  have M0 : 0 ≤ M := (norm_nonneg _).trans (hM 0 ⟨le_rfl, hT⟩)
  refine ⟨M * Real.exp (K * T), fun h h0 times hl u' hu' => ?_⟩
  rw [← norm_space, space_sub]
  -- the error after `j` steps, and along the rest
  have run : ∀ (times : List ℝ) (j : ℕ) (v v' : Universe ℝ n), (j + times.length) * h ≤ T → Alike v u → NoOffTorque v →
      (v.particles i).radius = R → (v.particles i).momentOfInertia = I →
      ‖space (v.particles i).angularMomentum - space (L (j * h))‖ ≤ M * (h / 2) * ((1 + K * (h / 2)) ^ (2 * j) - 1) →
      leapfrogRun k m eps2 roche h (h / 2) (times.map fun t => (t, false)) v = some v' →
      ‖space (v'.particles i).angularMomentum - space (L ((j + times.length) * h))‖
        ≤ M * (h / 2) * ((1 + K * (h / 2)) ^ (2 * (j + times.length)) - 1) := by
    intro times
    induction times with
    | nil =>
      intro j v v' _ _ _ _ _ e hv
      simp only [List.map_nil, leapfrogRun, Option.some.injEq] at hv
      subst hv
      simpa using e
    | cons t rest ih =>
      intro j v v' hj a q hRv hIv e hv
      simp only [List.map_cons, leapfrogRun, leapfrogIterate, Bool.false_eq_true, if_false] at hv
      obtain ⟨w, h1, h2⟩ := Option.bind_eq_some_iff.1 hv
      obtain ⟨l1, a1, q1, R1, I1⟩ := leapfrog_wind (saturation := saturation) (kFactor := kFactor) q (by rw [a.consider]; exact ht) (by rw [a.consider]; exact hf)
        (by rw [a.consider]; exact hg) (by rw [a.consider]; exact he) (by rw [a.consider]; exact hw) h1 i
        (by rw [a.field (fun p => p.wind.interaction) (fun _ => rfl) i]; exact hi) hs
        (by rw [a.field (fun p => p.wind.kFactor) (fun _ => rfl) i]; exact hk)
        (by rw [a.field (fun p => p.wind.rotationSaturation) (fun _ => rfl) i]; exact hs1)
        (by rw [a.field (fun p => p.wind.rotationSaturation2) (fun _ => rfl) i]; exact hs2)
      rw [hRv, hIv, a.field Particle.mass (fun _ => rfl) i] at l1
      have euler : ∀ l : Axes ℝ, space ((1 - h / 2 * windRate k kFactor saturation R mass I l) • l)
          = space l + (h / 2) • F (space l) := by
        intro l
        rw [← field, ← space_smul, ← space_add]
        congr 1
        module
      push_cast [List.length_cons] at hj
      have hjr : (j : ℝ) * h + h ≤ T := by
        have : (0 : ℝ) ≤ rest.length * h := by positivity
        nlinarith
      have jh : (0 : ℝ) ≤ j * h := by positivity
      have s1 := euler_step lip K0 sol hM (t := j * h) (h := h / 2) jh (by linarith) (by linarith)
        (space (v.particles i).angularMomentum)
      have g1 := euler_growth K0 (by linarith : 0 ≤ h / 2) (2 * j) e s1
      rw [← euler] at g1
      have s2 := euler_step lip K0 sol hM (t := j * h + h / 2) (h := h / 2) (by linarith) (by linarith) (by linarith)
        (space ((1 - h / 2 * windRate k kFactor saturation R mass I (v.particles i).angularMomentum)
          • (v.particles i).angularMomentum))
      have g2 := euler_growth K0 (by linarith : 0 ≤ h / 2) (2 * j + 1) g1 s2
      rw [← euler, ← l1, show (j : ℝ) * h + h / 2 + h / 2 = ((j + 1 : ℕ) : ℝ) * h by push_cast; ring,
        show 2 * j + 1 + 1 = 2 * (j + 1) by ring] at g2
      have := ih (j + 1) w v' (by push_cast; linarith) (a1.trans a) q1 (R1.trans hRv) (I1.trans hIv) g2 h2
      rw [show (j + 1 + rest.length : ℕ) = j + (t :: rest).length by simp; ring] at this
      convert this using 4
      push_cast [List.length_cons]
      ring
  have start : ‖space (u.particles i).angularMomentum - space (L ((0 : ℕ) * h))‖
      ≤ M * (h / 2) * ((1 + K * (h / 2)) ^ (2 * 0) - 1) := by
    rw [Nat.cast_zero, zero_mul, hL0, sub_self, norm_zero]
    simp
  have fin := run times 0 u u' (by simpa using hl) (Alike.refl u) hq rfl rfl start hu'
  simp only [Nat.cast_zero, zero_add] at fin
  refine fin.trans ?_
  have b := euler_bound (T := T) K0 M0 (by linarith : 0 ≤ h / 2) (2 * times.length) (by push_cast; linarith)
  have : M * Real.exp (K * T) * (h / 2) ≤ M * Real.exp (K * T) * h :=
    mul_le_mul_of_nonneg_left (by linarith) (by positivity)
  linarith

end

/-! ## A star with a wind -/

/-- The star's rate stays the same as long as it is saturated. -/
theorem windStar_rate {k : Consts ℝ} (hk : k.rSun = 1) {l : ℝ} (hl : 2 ≤ l) : windRate k 1 2 1 1 1 ⟨0, 0, l⟩ = 4 := by
  have : min (((1 / 1 : ℝ) • (⟨0, 0, l⟩ : Axes ℝ)).norm2) ((2 : ℝ) ^ 2) = 4 := by
    rw [min_eq_right]
    · norm_num
    · simp [Axes.norm2, Axes.dot]
      nlinarith
  unfold windRate
  rw [this, hk]
  norm_num

/-- Every step multiplies the star's angular momentum twice with `1 - 2 h`. -/
theorem windStar_run {k : Consts ℝ} {m : Models ℝ} {roche : Fin 1 → Fin 1 → ℝ} (hk : k.rSun = 1) {h : ℝ} (h0 : 0 ≤ h) :
    ∀ (times : List ℝ) (j : ℕ) (v : Universe ℝ 1), (j + times.length) * h ≤ 1 / 20 → Lone v → NoOffTorque v →
      (v.particles 0).radius = 1 → (v.particles 0).angularMomentum = ⟨0, 0, 3 * (1 - 2 * h) ^ (2 * j)⟩ →
      ∃ v', leapfrogRun k m 0 roche h (h / 2) (times.map fun t => (t, false)) v = some v'
        ∧ (v'.particles 0).angularMomentum = ⟨0, 0, 3 * (1 - 2 * h) ^ (2 * (j + times.length))⟩ := by
  intro times
  induction times with
  | nil => exact fun j v _ _ _ _ e => ⟨v, rfl, by simpa using e⟩
  | cons t rest ih =>
    intro j v hj lone q hR e
    push_cast [List.length_cons] at hj
    have rh : (0 : ℝ) ≤ rest.length * h := by positivity
    have jh : (0 : ℝ) ≤ j * h := by positivity
    have big : ∀ i : ℕ, i ≤ 2 * j + 1 → 2 ≤ 3 * (1 - 2 * h) ^ i := by
      intro i hi
      have := one_add_mul_le_pow (a := -(2 * h)) (by nlinarith) i
      rw [show 1 + -(2 * h) = 1 - 2 * h by ring] at this
      have hi' : (i : ℝ) ≤ 2 * j + 1 := by exact_mod_cast hi
      have := mul_le_mul_of_nonneg_right hi' h0
      nlinarith
    obtain ⟨w, hw⟩ : ∃ w, leapfrogStep k m 0 roche h (h / 2) t v = some w :=
      lone_leapfrog k m roche lone h t
    obtain ⟨l1, a1, q1, R1, I1⟩ := leapfrog_wind (saturation := 2) (kFactor := 1) q (by rw [lone.1.consider]; rfl)
      (by rw [lone.1.consider]; rfl) (by rw [lone.1.consider]; rfl) (by rw [lone.1.consider]; rfl)
      (by rw [lone.1.consider]; rfl) hw 0
      (by rw [lone.1.field (fun p => p.wind.interaction) (fun _ => rfl) 0]; rfl) (by norm_num)
      (by rw [lone.1.field (fun p => p.wind.kFactor) (fun _ => rfl) 0]; rfl)
      (by rw [lone.1.field (fun p => p.wind.rotationSaturation) (fun _ => rfl) 0]; rfl)
      (by rw [lone.1.field (fun p => p.wind.rotationSaturation2) (fun _ => rfl) 0]; simp [windStar, Wind.new])
    rw [hR, lone.2, lone.1.field Particle.mass (fun _ => rfl) 0, show (windStar.particles 0).mass = 1 from rfl, e,
      windStar_rate hk (big _ (by omega))] at l1
    have s1 : (1 - h / 2 * 4) • (⟨0, 0, 3 * (1 - 2 * h) ^ (2 * j)⟩ : Axes ℝ) = ⟨0, 0, 3 * (1 - 2 * h) ^ (2 * j + 1)⟩ := by
      ext
      · simp
      · simp
      · simp only [Axes.smul_z, pow_succ]
        ring
    rw [s1, windStar_rate hk (big _ le_rfl)] at l1
    have s2 : (1 - h / 2 * 4) • (⟨0, 0, 3 * (1 - 2 * h) ^ (2 * j + 1)⟩ : Axes ℝ) = ⟨0, 0, 3 * (1 - 2 * h) ^ (2 * (j + 1))⟩ := by
      ext
      · simp
      · simp
      · simp only [Axes.smul_z, pow_succ, mul_add, mul_one]
        ring
    rw [s2] at l1
    obtain ⟨v', hv', e'⟩ := ih (j + 1) w (by push_cast; linarith)
      ⟨a1.trans lone.1, fun i => by rw [Subsingleton.elim i 0, I1, lone.2]⟩ q1 (R1.trans hR) l1
    refine ⟨v', ?_, ?_⟩
    · simp only [List.map_cons, leapfrogRun, leapfrogIterate, Bool.false_eq_true, if_false, hw, Option.bind_some]
      exact hv'
    · rw [e', List.length_cons]
      congr 3
      ring

/-- **C114, violated**: a star with a wind is braked by the rate 4 while it is saturated, so its angular momentum is
`3 exp (-4 t)` up to the time 1/20.  With steps of any length that fit into that time, LeapFrog misses this by at least
a fifth of the step, so its error is not below any multiple of the square of the step. -/
theorem C114_violated {k : Consts ℝ} (m : Models ℝ) (roche : Fin 1 → Fin 1 → ℝ) (hk : k.rSun = 1) : ∃ L : ℝ → Axes ℝ,
    L 0 = (windStar.particles 0).angularMomentum
    ∧ (∀ t ∈ Set.Icc 0 (1 / 20), VecDeriv L (-(windRate k 1 2 (windStar.particles 0).radius (windStar.particles 0).mass
      (windStar.particles 0).momentOfInertia (L t) • L t)) t)
    ∧ (∀ h : ℝ, 0 < h → ∀ times : List ℝ, times.length * h = 1 / 20 → ∃ u',
      leapfrogRun k m 0 roche h (h / 2) (times.map fun t => (t, false)) windStar = some u'
      ∧ h / 5 ≤ √(((u'.particles 0).angularMomentum - L (1 / 20)).dot ((u'.particles 0).angularMomentum - L (1 / 20))))
    ∧ ∀ C : ℝ, ∃ δ : ℝ, 0 < δ ∧ ∀ h : ℝ, 0 < h → h < δ → ∀ times : List ℝ, times.length * h = 1 / 20 → ∃ u',
      leapfrogRun k m 0 roche h (h / 2) (times.map fun t => (t, false)) windStar = some u'
      ∧ C * h ^ 2 < √(((u'.particles 0).angularMomentum - L (1 / 20)).dot
        ((u'.particles 0).angularMomentum - L (1 / 20))) := by
  have main : ∀ h : ℝ, 0 < h → ∀ times : List ℝ, times.length * h = 1 / 20 → ∃ u',
      leapfrogRun k m 0 roche h (h / 2) (times.map fun t => (t, false)) windStar = some u'
      ∧ h / 5 ≤ √(((u'.particles 0).angularMomentum - ⟨0, 0, 3 * Real.exp (-4 * (1 / 20))⟩).dot
        ((u'.particles 0).angularMomentum - ⟨0, 0, 3 * Real.exp (-4 * (1 / 20))⟩)) := by
    intro h h0 times hl
    obtain ⟨u', hu, e⟩ := windStar_run (m := m) (roche := roche) hk h0.le times 0 windStar (by simpa using hl.le)
      ⟨Alike.refl _, fun _ => rfl⟩ windStar_quiet rfl (by simp [windStar])
    refine ⟨u', hu, ?_⟩
    rw [zero_add] at e
    have hone : 1 ≤ times.length := by
      rcases Nat.eq_zero_or_pos times.length with h1 | h1
      · rw [h1] at hl
        norm_num at hl
      · exact h1
    have hone' : (1 : ℝ) ≤ times.length := by exact_mod_cast hone
    have hsmall : h ≤ 1 / 20 := by nlinarith
    have behind := euler_behind (x := 2 * h) (j := 2 * times.length) (by linarith) (by push_cast; nlinarith) (by linarith)
    push_cast at behind
    rw [show -(2 * (times.length : ℝ) * (2 * h)) = -4 * (1 / 20) by rw [← hl]; ring,
      show 2 * (times.length : ℝ) * (2 * h) ^ 2 / 5 = 8 * (times.length * h) * h / 5 by ring, hl] at behind
    rw [e]
    have : (⟨0, 0, 3 * (1 - 2 * h) ^ (2 * times.length)⟩ - ⟨0, 0, 3 * Real.exp (-4 * (1 / 20))⟩ : Axes ℝ).dot
        (⟨0, 0, 3 * (1 - 2 * h) ^ (2 * times.length)⟩ - ⟨0, 0, 3 * Real.exp (-4 * (1 / 20))⟩)
        = (3 * (Real.exp (-4 * (1 / 20)) - (1 - 2 * h) ^ (2 * times.length))) ^ 2 := by
      simp [Axes.dot]
      ring
    rw [this, Real.sqrt_sq (by linarith)]
    linarith
  refine ⟨fun t => ⟨0, 0, 3 * Real.exp (-4 * t)⟩, by simp [windStar], fun t ht => ?_, main, fun C => ?_⟩
  · have hbig : 2 ≤ 3 * Real.exp (-4 * t) := by
      have := Real.add_one_le_exp (-4 * t)
      linarith [ht.2]
    show VecDeriv _ (-(windRate k 1 2 1 1 1 ⟨0, 0, 3 * Real.exp (-4 * t)⟩ • _)) t
    rw [windStar_rate hk hbig]
    refine ⟨?_, ?_, ?_⟩
    · exact (hasDerivAt_const t 0).congr_deriv (by simp)
    · exact (hasDerivAt_const t 0).congr_deriv (by simp)
    · refine ((((hasDerivAt_id t).const_mul (-4)).exp).const_mul 3).congr_deriv ?_
      simp
      ring
  · refine ⟨1 / (5 * (|C| + 1)), by positivity, fun h h0 h1 times hl => ?_⟩
    obtain ⟨u', hu, e⟩ := main h h0 times hl
    refine ⟨u', hu, lt_of_lt_of_le ?_ e⟩
    rw [lt_div_iff₀ (by positivity)] at h1
    have := le_abs_self C
    nlinarith [abs_nonneg C, mul_pos h0 h0]

/-- The same star for the first order. -/
example {k : Consts ℝ} (m : Models ℝ) (hk : k.rSun = 1) : ∃ (L : ℝ → Axes ℝ) (C : ℝ), ∀ h : ℝ, 0 < h → ∀ times : List ℝ,
    times.length * h ≤ (1 / 20 : ℝ) → ∀ u',
      leapfrogRun k m 0 (fun _ _ => 0) h (h / 2) (times.map fun t => (t, false)) windStar = some u' →
      √(((u'.particles 0).angularMomentum - L (times.length * h)).dot
        ((u'.particles 0).angularMomentum - L (times.length * h))) ≤ C * h := by
  obtain ⟨L, h0, hL, -, -⟩ := C114_violated m (fun _ _ => 0) hk
  exact ⟨L, C114_first_order_partial windStar_quiet rfl rfl rfl rfl rfl 0 rfl (saturation := 2) (kFactor := 1) (by norm_num)
    rfl rfl (by simp [windStar, Wind.new]) h0 hL⟩

end Posidonius.Univ
