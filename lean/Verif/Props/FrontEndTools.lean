import Verif.Lemmas.FrontEndTools
import Mathlib.Analysis.Complex.ExponentialBounds

/-! Properties C125 and C126: orbital elements in the Python front end. -/

namespace Posidonius.Tools
open Posidonius.Kepler

/-! ## C125: elements of an orbit -/

theorem ellipse_state {gm a e : ℝ} (i g n bigE : ℝ) (hgm : 0 < gm) (ha : 0 < a) (he0 : 0 ≤ e) (he1 : e < 1) :
    (ellipseVelocity gm a e i g n bigE).dot (ellipseVelocity gm a e i g n bigE) =
      gm * (2 / (a * (1 - e * Real.cos bigE)) - 1 / a) ∧
    OnOrbit gm (a * (1 - e)) e i g n (ellipsePosition a e i g n bigE) (ellipseVelocity gm a e i g n bigE) := by
  have f := ellipseFacts i g n bigE hgm ha he0 he1
  have hD := f.pos
  refine ⟨?_, f.ecc, f.h⟩
  rw [f.vv]
  have hec : e * Real.cos bigE = 1 - (1 - e * Real.cos bigE) := by ring
  generalize 1 - e * Real.cos bigE = D at hD hec
  rw [hec]
  field_simp
  ring

theorem ellipsePosition_trueAnomaly {a e i g n bigE t : ℝ} (t2 : (1 - e * Real.cos bigE) * Real.cos t = Real.cos bigE - e)
    (t3 : (1 - e * Real.cos bigE) * Real.sin t = Real.sqrt (1 - e ^ 2) * Real.sin bigE) :
    ellipsePosition a e i g n bigE = (a * (1 - e * Real.cos bigE)) •
      (Real.cos t • perihelionDirection i g n + Real.sin t • transverseDirection i g n) := by
  rw [smul_add, smul_smul, smul_smul, mul_assoc, t2, mul_assoc, t3, ellipsePosition, mul_assoc]

/-- **C125** (missing: nearly circular orbits, inclined orbits with the node on the x axis, hyperbolas and central bodies away
from the origin, see the violations): the front end recovers every element of every inclined ellipse, angles up to whole
turns; the body is in the direction of the true anomaly. -/
theorem C125_partial (gm a e i g n bigE : ℝ) (hgm : 0 < gm) (ha : 0 < a) (he0 : 3 / 100000000 ≤ e) (he1 : e < 1)
    (hi0 : 0 < i) (hi1 : i < Real.pi) (hn0 : 1 / 100000000 ≤ n) (hn1 : n < 2 * Real.pi) (el : Py.Elements ℝ)
    (hel : el = Py.elementsOfOrbit gm (ellipsePosition a e i g n bigE) (ellipseVelocity gm a e i g n bigE)) :
    el.semiMajorAxis = a ∧ el.perihelionDistance = a * (1 - e) ∧ el.eccentricity = e ∧ el.inclination = i ∧
    el.longitudeOfAscendingNode = n ∧ SameAngle el.longitudeOfPerihelion (g + n) ∧
    SameAngle el.meanAnomaly (bigE - e * Real.sin bigE) ∧
    0 ≤ el.trueAnomaly ∧ el.trueAnomaly < 2 * Real.pi ∧
    ellipsePosition a e i g n bigE = (a * (1 - e * Real.cos bigE)) •
      (Real.cos el.trueAnomaly • perihelionDirection i g n + Real.sin el.trueAnomaly • transverseDirection i g n) := by
  have hepos : 0 < e := by linarith
  have f := ellipseFacts i g n bigE hgm ha hepos.le he1
  obtain ⟨hv, o⟩ := ellipse_state i g n bigE hgm ha hepos.le he1
  have hq : 0 < a * (1 - e) := mul_pos ha (by linarith)
  have hw : 0 < Real.sqrt (gm * (a * (1 - e) * (1 + e))) := Real.sqrt_pos.mpr (by positivity)
  have h := py_elements hgm hq hepos.le (mul_pos ha f.pos) _ _ f.rr hv f.rv rfl rfl o i n
    (py_inclinationAndNode hw hi0 hi1 (by linarith) hn1)
  rw [h] at hel
  subst hel
  obtain ⟨t0, t1, t2, t3⟩ := py_trueAnomaly (gm := gm) (a := a) (bigE := bigE) hgm ha he0 he1 _ _ rfl
  refine ⟨rfl, rfl, rfl, rfl, rfl, py_longitudeOfPerihelion he0 hn0, py_meanAnomaly hgm ha he0 he1 _, t0, t1, ?_⟩
  exact ellipsePosition_trueAnomaly t2 t3

/-- **C125** for orbits in the reference plane: the longitude of perihelion is that of the perihelion. -/
theorem C125_partial_planar (gm a e g n bigE : ℝ) (hgm : 0 < gm) (ha : 0 < a) (he0 : 3 / 100000000 ≤ e) (he1 : e < 1)
    (el : Py.Elements ℝ)
    (hel : el = Py.elementsOfOrbit gm (ellipsePosition a e 0 g n bigE) (ellipseVelocity gm a e 0 g n bigE)) :
    el.semiMajorAxis = a ∧ el.perihelionDistance = a * (1 - e) ∧ el.eccentricity = e ∧ el.inclination = 0 ∧
    SameAngle el.longitudeOfPerihelion (g + n) ∧ SameAngle el.meanAnomaly (bigE - e * Real.sin bigE) ∧
    0 ≤ el.trueAnomaly ∧ el.trueAnomaly < 2 * Real.pi ∧
    ellipsePosition a e 0 g n bigE = (a * (1 - e * Real.cos bigE)) •
      (Real.cos el.trueAnomaly • perihelionDirection 0 g n + Real.sin el.trueAnomaly • transverseDirection 0 g n) := by
  have hepos : 0 < e := by linarith
  have f := ellipseFacts 0 g n bigE hgm ha hepos.le he1
  obtain ⟨hv, o⟩ := ellipse_state 0 g n bigE hgm ha hepos.le he1
  have hq : 0 < a * (1 - e) := mul_pos ha (by linarith)
  have h := py_elements hgm hq hepos.le (mul_pos ha f.pos) _ _ f.rr hv f.rv rfl rfl o 0 0
    (by simp [Py.inclinationAndNode])
  rw [h] at hel
  subst hel
  obtain ⟨t0, t1, t2, t3⟩ := py_trueAnomaly (gm := gm) (a := a) (bigE := bigE) hgm ha he0 he1 _ _ rfl
  refine ⟨rfl, rfl, rfl, rfl, ?_, py_meanAnomaly hgm ha he0 he1 _, t0, t1, ?_⟩
  · have h1 : e * (perihelionDirection 0 g n).x = e * Real.cos (g + n) := by
      rw [perihelion_eq, Real.cos_add]; simp
    have h2 : e * (perihelionDirection 0 g n).y = e * Real.sin (g + n) := by
      rw [perihelion_eq, Real.sin_add]; simp only [Real.cos_zero, mul_one]; ring
    obtain ⟨k, hk⟩ := arg_turns hepos (g + n)
    change SameAngle (Py.longitudeOfPerihelion e 0 0 (e • perihelionDirection 0 g n)) (g + n)
    rw [py_longitudeOfPerihelion_node 0 he0, h1, h2, hk]
    exact (py_turn _).congr ⟨k, rfl⟩
  · exact ellipsePosition_trueAnomaly t2 t3

/-- **C125 is violated** for inclined orbits whose node is on the x axis (longitude zero, the default of the cases): the
longitude of perihelion is that of the projection of the perihelion onto the reference plane. -/
theorem C125_violated_node (gm a e i g bigE : ℝ) (hgm : 0 < gm) (ha : 0 < a) (he0 : 3 / 100000000 ≤ e) (he1 : e < 1)
    (hi0 : 0 < i) (hi1 : i < Real.pi) (hs : Real.sin g ≠ 0) (hc : Real.cos g ≠ 0) (el : Py.Elements ℝ)
    (hel : el = Py.elementsOfOrbit gm (ellipsePosition a e i g 0 bigE) (ellipseVelocity gm a e i g 0 bigE)) :
    el.inclination = i ∧ el.longitudeOfAscendingNode = 0 ∧
    Real.cos i * Real.sin g * Real.cos el.longitudeOfPerihelion = Real.cos g * Real.sin el.longitudeOfPerihelion ∧
    ¬ SameAngle el.longitudeOfPerihelion g := by
  have hepos : 0 < e := by linarith
  have f := ellipseFacts i g 0 bigE hgm ha hepos.le he1
  obtain ⟨hv, o⟩ := ellipse_state i g 0 bigE hgm ha hepos.le he1
  have hq : 0 < a * (1 - e) := mul_pos ha (by linarith)
  have hw : 0 < Real.sqrt (gm * (a * (1 - e) * (1 + e))) := Real.sqrt_pos.mpr (by positivity)
  have h := py_elements hgm hq hepos.le (mul_pos ha f.pos) _ _ f.rr hv f.rv rfl rfl o i 0
    (py_inclinationAndNode hw hi0 hi1 le_rfl Real.two_pi_pos)
  rw [h] at hel
  subst hel
  have h1 : (perihelionDirection i g 0).x = Real.cos g := by rw [perihelion_eq]; simp
  have h2 : (perihelionDirection i g 0).y = Real.sin g * Real.cos i := by rw [perihelion_eq]; simp
  change i = i ∧ (0 : ℝ) = 0 ∧ Real.cos i * Real.sin g * Real.cos (Py.longitudeOfPerihelion e i 0 _) =
    Real.cos g * Real.sin (Py.longitudeOfPerihelion e i 0 _) ∧ ¬ SameAngle (Py.longitudeOfPerihelion e i 0 _) g
  rw [py_longitudeOfPerihelion_node i he0, h1, h2]
  have hz : (⟨e * Real.cos g, e * (Real.sin g * Real.cos i)⟩ : ℂ) ≠ 0 := by
    intro hz
    have := congrArg Complex.re hz
    simp only [Complex.zero_re] at this
    exact mul_ne_zero hepos.ne' hc this
  set z : ℂ := ⟨e * Real.cos g, e * (Real.sin g * Real.cos i)⟩ with hzdef
  have hn : 0 < ‖z‖ := norm_pos_iff.2 hz
  have hcos : Real.cos (Py.turn z.arg) = e * Real.cos g / ‖z‖ := by rw [(py_turn _).cos, Complex.cos_arg hz]
  have hsin : Real.sin (Py.turn z.arg) = e * (Real.sin g * Real.cos i) / ‖z‖ := by rw [(py_turn _).sin, Complex.sin_arg]
  refine ⟨rfl, rfl, ?_, ?_⟩
  · rw [hcos, hsin]; ring
  · intro hs'
    rw [hs'.cos, eq_div_iff hn.ne'] at hcos
    have h3 : ‖z‖ = e := mul_left_cancel₀ hc (by linarith)
    have h4 : ‖z‖ ^ 2 = (e * Real.cos g) ^ 2 + (e * (Real.sin g * Real.cos i)) ^ 2 := by
      rw [← Complex.normSq_eq_norm_sq, Complex.normSq_apply]
      simp only [hzdef]; ring
    have h5 : 0 < Real.sin i := Real.sin_pos_of_pos_of_lt_pi hi0 hi1
    have h6 : e ^ 2 * Real.sin g ^ 2 * Real.sin i ^ 2 = 0 := by
      rw [h3] at h4
      linear_combination h4 + e ^ 2 * Real.sin_sq_add_cos_sq g + e ^ 2 * Real.sin g ^ 2 * Real.sin_sq_add_cos_sq i
        - 2 * e ^ 2 * 0
    have : 0 < e ^ 2 * Real.sin g ^ 2 * Real.sin i ^ 2 := by positivity
    linarith


theorem py_trueLongitude {w a i n u : ℝ} (hw : 0 < w) (ha : 0 < a) (hi0 : 0 < i) (hi1 : i < Real.pi) (hi : Real.cos i ≠ 0)
    (hn : Real.cos n ≠ 0) : ∃ k : ℤ,
    Py.trueLongitude (a * (Real.cos u * Real.cos n - Real.sin u * Real.cos i * Real.sin n))
      (a * (Real.cos u * Real.sin n + Real.sin u * Real.cos i * Real.cos n))
      (w * (Real.sin i * Real.sin n)) (w * -(Real.sin i * Real.cos n)) (Real.cos i) = u + n + k * (2 * Real.pi) := by
  have hsi : 0 < Real.sin i := Real.sin_pos_of_pos_of_lt_pi hi0 hi1
  have hy : ¬ w * -(Real.sin i * Real.cos n) = 0 := by
    intro h
    rcases mul_eq_zero.1 h with h | h
    · exact hw.ne' h
    · exact mul_ne_zero hsi.ne' hn (neg_eq_zero.1 h)
  have ht : -(w * (Real.sin i * Real.sin n)) / (w * -(Real.sin i * Real.cos n)) = Real.sin n / Real.cos n := by
    field_simp
  have e1 : a * (Real.cos u * Real.sin n + Real.sin u * Real.cos i * Real.cos n) *
      (1 + Real.sin n / Real.cos n * (Real.sin n / Real.cos n) * Real.cos i) -
      a * (Real.cos u * Real.cos n - Real.sin u * Real.cos i * Real.sin n) *
        ((1 - Real.cos i) * (Real.sin n / Real.cos n)) = a * Real.cos i / Real.cos n ^ 2 * Real.sin (u + n) := by
    rw [Real.sin_add]
    field_simp
    have hs : Real.sin n ^ 2 = 1 - Real.cos n ^ 2 := by linarith [Real.sin_sq_add_cos_sq n]
    linear_combination (Real.cos u * Real.sin n * Real.cos i + Real.sin u * Real.cos i * Real.cos n) * hs
  have e2 : a * (Real.cos u * Real.cos n - Real.sin u * Real.cos i * Real.sin n) *
      (Real.sin n / Real.cos n * (Real.sin n / Real.cos n) + Real.cos i) -
      a * (Real.cos u * Real.sin n + Real.sin u * Real.cos i * Real.cos n) *
        ((1 - Real.cos i) * (Real.sin n / Real.cos n)) = a * Real.cos i / Real.cos n ^ 2 * Real.cos (u + n) := by
    rw [Real.cos_add]
    field_simp
    have hs : Real.sin n ^ 2 = 1 - Real.cos n ^ 2 := by linarith [Real.sin_sq_add_cos_sq n]
    linear_combination (Real.cos u * Real.cos n * Real.cos i - Real.sin u * Real.cos i * Real.sin n) * hs
  have hc2 : 0 < Real.cos n ^ 2 := by positivity
  simp only [Py.trueLongitude, eqb_real, ltb_real, lit_real, Rat.cast_zero, Rat.cast_one, hy, if_false, ht, e1, e2, atan2_real,
    pi_real']
  rcases lt_or_gt_of_ne hi with h | h
  · obtain ⟨k, hk⟩ := arg_turns (w := a * -Real.cos i / Real.cos n ^ 2)
      (div_pos (mul_pos ha (by linarith)) hc2) (u + n + Real.pi)
    rw [Real.cos_add_pi, Real.sin_add_pi] at hk
    have e3 : a * Real.cos i / Real.cos n ^ 2 * Real.cos (u + n) = a * -Real.cos i / Real.cos n ^ 2 * -Real.cos (u + n) := by
      ring
    have e4 : a * Real.cos i / Real.cos n ^ 2 * Real.sin (u + n) = a * -Real.cos i / Real.cos n ^ 2 * -Real.sin (u + n) := by
      ring
    rw [if_pos h, e3, e4, hk]
    exact ⟨k + 1, by push_cast; ring⟩
  · obtain ⟨k, hk⟩ := arg_turns (w := a * Real.cos i / Real.cos n ^ 2) (div_pos (mul_pos ha h) hc2) (u + n)
    rw [if_neg (not_lt.2 h.le), hk]
    exact ⟨k, rfl⟩

/-- **C125 is violated** for circular orbits: what is returned as the mean anomaly, counted from the perihelion, for which
the node is returned, is the angle from the x axis.  Counted from the x axis the planet would be at `u + 2 n`, where `u` is
its angle from the node. -/
theorem C125_violated_circular (gm a i n u : ℝ) (hgm : 0 < gm) (ha : 0 < a) (hi0 : 0 < i) (hi1 : i < Real.pi)
    (hi : Real.cos i ≠ 0) (hn0 : 1 / 100000000 ≤ n) (hn1 : n < 2 * Real.pi) (hn : Real.cos n ≠ 0) (el : Py.Elements ℝ)
    (hel : el = Py.elementsOfOrbit gm (ellipsePosition a 0 i 0 n u) (ellipseVelocity gm a 0 i 0 n u)) :
    el.inclination = i ∧ el.longitudeOfAscendingNode = n ∧ el.longitudeOfPerihelion = n ∧
    (∃ k : ℤ, el.meanAnomaly = u + n + k * (2 * Real.pi)) ∧
    ellipsePosition a 0 el.inclination (el.longitudeOfPerihelion - el.longitudeOfAscendingNode)
      el.longitudeOfAscendingNode el.meanAnomaly ≠ ellipsePosition a 0 i 0 n u := by
  have f := ellipseFacts i 0 n u hgm ha le_rfl one_pos
  obtain ⟨hv, o⟩ := ellipse_state i 0 n u hgm ha le_rfl one_pos
  have hq : 0 < a * (1 - (0 : ℝ)) := by simpa using ha
  have hw : 0 < Real.sqrt (gm * (a * (1 - 0) * (1 + 0))) := Real.sqrt_pos.mpr (by positivity)
  have h := py_elements hgm hq le_rfl (mul_pos ha f.pos) _ _ f.rr hv f.rv rfl rfl o i n
    (py_inclinationAndNode hw hi0 hi1 (by linarith) hn1)
  rw [h] at hel
  have hx : (ellipsePosition a 0 i 0 n u).x = a * (Real.cos u * Real.cos n - Real.sin u * Real.cos i * Real.sin n) := by
    rw [ellipsePosition, perihelion_eq, transverse_eq]; simp; ring
  have hy : (ellipsePosition a 0 i 0 n u).y = a * (Real.cos u * Real.sin n + Real.sin u * Real.cos i * Real.cos n) := by
    rw [ellipsePosition, perihelion_eq, transverse_eq]; simp; ring
  have hl : ((1 / 100000000 : ℚ) : ℝ) ≤ n := by
    have : ((1 / 100000000 : ℚ) : ℝ) = 1 / 100000000 := by norm_num
    rw [this]; exact hn0
  have hp : el.longitudeOfPerihelion = n := by
    subst hel
    have h3 : (0 : ℝ) < 3 / 100000000 := by norm_num
    have hz : Complex.arg ⟨0, 0⟩ = 0 := Complex.arg_zero
    have : Py.longitudeOfPerihelion 0 i n ((0 : ℝ) • perihelionDirection i 0 n) = Py.turn n := by
      simp only [Py.longitudeOfPerihelion, ltb_real, leb_real, lit_real, lit_small, h3, if_true, hl, Rat.cast_zero, zero_mul,
        add_zero, neg_zero, atan2_real, hz]
    change Py.longitudeOfPerihelion 0 i n ((0 : ℝ) • perihelionDirection i 0 n) = n
    rw [this]
    obtain ⟨t0, t1, k, hk⟩ := py_turn n
    have : k = 0 := by
      have h1 : (k : ℝ) < 1 := by nlinarith [Real.pi_pos]
      have h2 : (-1 : ℝ) < k := by nlinarith [Real.pi_pos]
      have h1' : k < 1 := by exact_mod_cast h1
      have h2' : -1 < k := by exact_mod_cast h2
      omega
    rw [hk, this]; simp
  have hm : ∃ k : ℤ, el.meanAnomaly = u + n + k * (2 * Real.pi) := by
    obtain ⟨k, hk⟩ := py_trueLongitude (u := u) hw ha hi0 hi1 hi hn
    subst hel
    simp only [hx, hy, hk]
    have h3 : (0 : ℝ) < 3 / 100000000 := by norm_num
    have : ∀ x y z t : ℝ, Py.meanAnomaly 0 x y z t (u + n + k * (2 * Real.pi)) = u + n + k * (2 * Real.pi) := by
      intro x y z t
      simp only [Py.meanAnomaly, ltb_real, lit_real, lit_small, h3, if_true]
    rw [this]
    have hred : ∀ x : ℝ, ∃ m : ℤ, Py.reduce x = x + m * (2 * Real.pi) := by
      intro x
      simp only [Py.reduce, ltb_real, lit_real, Rat.cast_zero, twoPi_real]
      have : ∀ y : ℝ, ∃ m : ℤ, (if 2 * Real.pi < y then modulus y (2 * Real.pi) else y) = y + m * (2 * Real.pi) := by
        intro y
        split
        · obtain ⟨-, -, m, hm⟩ := C31_modulus y (2 * Real.pi) Real.two_pi_pos
          exact ⟨-m, by push_cast; linarith⟩
        · exact ⟨0, by simp⟩
      obtain ⟨m, hm⟩ := this (if x < 0 then x + 2 * Real.pi else x)
      rw [hm]
      split
      · exact ⟨m + 1, by push_cast; ring⟩
      · exact ⟨m, rfl⟩
    obtain ⟨m, hm⟩ := hred (u + n + k * (2 * Real.pi))
    rw [hm]
    exact ⟨k + m, by push_cast; ring⟩
  have hi' : el.inclination = i := by rw [hel]
  have hn' : el.longitudeOfAscendingNode = n := by rw [hel]
  refine ⟨hi', hn', hp, hm, ?_⟩
  rw [hi', hn', hp, sub_self]
  obtain ⟨k, hk⟩ := hm
  rw [hk]
  intro hcon
  have hsi : 0 < Real.sin i := Real.sin_pos_of_pos_of_lt_pi hi0 hi1
  have c1 := congrArg (fun r => r.dot (perihelionDirection i 0 n)) hcon
  have c2 := congrArg (fun r => r.dot (transverseDirection i 0 n)) hcon
  have hdot1 : ∀ t : ℝ, (ellipsePosition a 0 i 0 n t).dot (perihelionDirection i 0 n) = a * Real.cos t := by
    intro t
    have := plane_dot (perihelionDirection i 0 n) (transverseDirection i 0 n) (PP i 0 n) (QQ i 0 n) (PQ i 0 n)
      (a * (Real.cos t - 0)) (a * Real.sqrt (1 - 0 ^ 2) * Real.sin t) 1 0
    simpa [ellipsePosition] using this
  have hdot2 : ∀ t : ℝ, (ellipsePosition a 0 i 0 n t).dot (transverseDirection i 0 n) = a * Real.sin t := by
    intro t
    have := plane_dot (perihelionDirection i 0 n) (transverseDirection i 0 n) (PP i 0 n) (QQ i 0 n) (PQ i 0 n)
      (a * (Real.cos t - 0)) (a * Real.sqrt (1 - 0 ^ 2) * Real.sin t) 0 1
    simpa [ellipsePosition] using this
  simp only [hdot1, hdot2, Real.cos_add_int_mul_two_pi, Real.sin_add_int_mul_two_pi] at c1 c2
  have d1 := mul_left_cancel₀ ha.ne' c1
  have d2 := mul_left_cancel₀ ha.ne' c2
  have d3 : Real.cos n = 1 := by
    have : n = u + n - u := by ring
    rw [this, Real.cos_sub, d1, d2]
    linarith [Real.sin_sq_add_cos_sq u, sq (Real.cos u), sq (Real.sin u)]
  rw [Real.cos_eq_one_iff_of_lt_of_lt (by linarith [Real.pi_pos]) hn1] at d3
  rw [d3] at hn0
  norm_num at hn0

/-! ### Hyperbolas -/

/-- The state on a hyperbola with semi-major axis `-b` at the hyperbolic anomaly `w`. -/
noncomputable def hyperbolaPosition (b e i g n w : ℝ) : Axes ℝ :=
  (b * (e - Real.cosh w)) • perihelionDirection i g n + (b * Real.sqrt (e ^ 2 - 1) * Real.sinh w) • transverseDirection i g n
noncomputable def hyperbolaVelocity (gm b e i g n w : ℝ) : Axes ℝ :=
  (Real.sqrt (gm / b) / (e * Real.cosh w - 1)) • ((-Real.sinh w) • perihelionDirection i g n +
    (Real.sqrt (e ^ 2 - 1) * Real.cosh w) • transverseDirection i g n)

theorem hyperbola_state {gm b e : ℝ} (i g n w : ℝ) (hgm : 0 < gm) (hb : 0 < b) (he : 1 < e) :
    0 < e * Real.cosh w - 1 ∧
    (hyperbolaPosition b e i g n w).dot (hyperbolaPosition b e i g n w) = (b * (e * Real.cosh w - 1)) ^ 2 ∧
    (hyperbolaVelocity gm b e i g n w).dot (hyperbolaVelocity gm b e i g n w) =
      gm * (2 / (b * (e * Real.cosh w - 1)) - 1 / -b) ∧
    (hyperbolaPosition b e i g n w).dot (hyperbolaVelocity gm b e i g n w) = b * Real.sqrt (gm / b) * e * Real.sinh w ∧
    OnOrbit gm (-b * (1 - e)) e i g n (hyperbolaPosition b e i g n w) (hyperbolaVelocity gm b e i g n w) := by
  have hc := Real.cosh_sq_sub_sinh_sq w
  have hR : Real.sqrt (e ^ 2 - 1) ^ 2 = e ^ 2 - 1 := Real.sq_sqrt (by nlinarith)
  have hK : Real.sqrt (gm / b) ^ 2 = gm / b := Real.sq_sqrt (by positivity)
  have hd : 0 < e * Real.cosh w - 1 := by nlinarith [Real.one_le_cosh w]
  have ev : hyperbolaVelocity gm b e i g n w =
      (-Real.sinh w * (Real.sqrt (gm / b) / (e * Real.cosh w - 1))) • perihelionDirection i g n +
      (Real.sqrt (e ^ 2 - 1) * Real.cosh w * (Real.sqrt (gm / b) / (e * Real.cosh w - 1))) •
        transverseDirection i g n := by
    rw [hyperbolaVelocity]; module
  refine ⟨hd, ?_, ?_, ?_, ?_⟩
  · rw [hyperbolaPosition, plane_dot _ _ (PP i g n) (QQ i g n) (PQ i g n)]
    linear_combination b ^ 2 * Real.sinh w ^ 2 * hR - b ^ 2 * (e ^ 2 - 1) * hc
  · rw [ev, plane_dot _ _ (PP i g n) (QQ i g n) (PQ i g n)]
    have e1 : -Real.sinh w * (Real.sqrt (gm / b) / (e * Real.cosh w - 1)) *
        (-Real.sinh w * (Real.sqrt (gm / b) / (e * Real.cosh w - 1))) +
        Real.sqrt (e ^ 2 - 1) * Real.cosh w * (Real.sqrt (gm / b) / (e * Real.cosh w - 1)) *
        (Real.sqrt (e ^ 2 - 1) * Real.cosh w * (Real.sqrt (gm / b) / (e * Real.cosh w - 1))) =
        Real.sqrt (gm / b) ^ 2 * (Real.sinh w ^ 2 + Real.sqrt (e ^ 2 - 1) ^ 2 * Real.cosh w ^ 2) /
          (e * Real.cosh w - 1) ^ 2 := by
      generalize e * Real.cosh w - 1 = D
      ring
    have e2 : Real.sinh w ^ 2 + (e ^ 2 - 1) * Real.cosh w ^ 2 = (e * Real.cosh w - 1 + 2) * (e * Real.cosh w - 1) := by
      linear_combination -hc
    rw [e1, hK, hR, e2]
    have hdn := hd.ne'
    generalize e * Real.cosh w - 1 = D at hdn
    field_simp
    ring
  · rw [hyperbolaPosition, ev, plane_dot _ _ (PP i g n) (QQ i g n) (PQ i g n)]
    have e1 : b * (e - Real.cosh w) * (-Real.sinh w * (Real.sqrt (gm / b) / (e * Real.cosh w - 1))) +
        b * Real.sqrt (e ^ 2 - 1) * Real.sinh w *
          (Real.sqrt (e ^ 2 - 1) * Real.cosh w * (Real.sqrt (gm / b) / (e * Real.cosh w - 1))) =
        b * Real.sqrt (gm / b) * Real.sinh w *
          (-(e - Real.cosh w) + Real.sqrt (e ^ 2 - 1) ^ 2 * Real.cosh w) / (e * Real.cosh w - 1) := by
      ring
    have e2 : -(e - Real.cosh w) + (e ^ 2 - 1) * Real.cosh w = e * (e * Real.cosh w - 1) := by ring
    rw [e1, hR, e2]
    have hdn := hd.ne'
    generalize e * Real.cosh w - 1 = D at hdn
    field_simp
  · refine hyperbola_onOrbit (se := Real.sinh w) (ce := Real.cosh w) i g n hgm (by linarith) he hc (Real.one_le_cosh w) _ _ ?_ ?_
    · rw [hyperbolaPosition, pow_two, neg_neg]
      congr 2
      ring
    · rw [ev, pow_two, abs_neg, abs_of_pos hb]

/-- The front end on hyperbolas: shape and orientation are right, the mean anomaly of Kepler's equation is reduced to an
angle. -/
theorem py_hyperbola (gm b e i g n w : ℝ) (hgm : 0 < gm) (hb : 0 < b) (he : 1 < e) (hi0 : 0 < i)
    (hi1 : i < Real.pi) (hn0 : 1 / 100000000 ≤ n) (hn1 : n < 2 * Real.pi) (el : Py.Elements ℝ)
    (hel : el = Py.elementsOfOrbit gm (hyperbolaPosition b e i g n w) (hyperbolaVelocity gm b e i g n w)) :
    el.semiMajorAxis = -b ∧ el.perihelionDistance = b * (e - 1) ∧ el.eccentricity = e ∧ el.inclination = i ∧
    el.longitudeOfAscendingNode = n ∧ SameAngle el.longitudeOfPerihelion (g + n) ∧
    el.meanAnomaly = Py.reduce (e * Real.sinh w - w) := by
  obtain ⟨hd, hr, hv, hrv, o⟩ := hyperbola_state i g n w hgm hb he
  have hq : 0 < -b * (1 - e) := by nlinarith
  have hs : 0 < gm * (-b * (1 - e) * (1 + e)) := mul_pos hgm (mul_pos hq (by linarith))
  have h := py_elements hgm hq (by linarith) (mul_pos hb hd) _ _ hr hv hrv rfl rfl o i n
    (py_inclinationAndNode (Real.sqrt_pos.mpr hs) hi0 hi1 (by linarith) hn1)
  rw [h] at hel
  subst hel
  refine ⟨rfl, by change -b * (1 - e) = b * (e - 1); ring, rfl, rfl, rfl, py_longitudeOfPerihelion (by linarith) hn0, ?_⟩
  change Py.reduce _ = _
  congr 1
  have h1 : ¬ e < 3 / 100000000 := by linarith
  have h2 : ¬ e < 1 := by linarith
  have hce : (gm * (2 / (b * (e * Real.cosh w - 1)) - 1 / -b) * (b * (e * Real.cosh w - 1)) - gm) / (e * gm) =
      Real.cosh w := by
    have hdn := hd.ne'
    field_simp
    ring
  have hlt : ¬ Real.cosh w < 1 := not_lt.2 (Real.one_le_cosh w)
  have hsq : Real.sqrt (Real.cosh w * Real.cosh w - 1) = |Real.sinh w| := by
    rw [← Real.sqrt_sq_eq_abs]
    congr 1
    linarith [Real.cosh_sq_sub_sinh_sq w, sq (Real.cosh w)]
  have hk : 0 < b * Real.sqrt (gm / b) * e := by positivity
  have hsign : (b * Real.sqrt (gm / b) * e * Real.sinh w < 0) ↔ w < 0 := by
    rw [← Real.sinh_neg_iff (x := w)]
    constructor
    · intro h; by_contra hc
      have := mul_nonneg hk.le (not_lt.mp hc); linarith
    · intro h; exact mul_neg_of_pos_of_neg hk h
  have hlog : ∀ x : ℝ, Real.log (Real.cosh x + Real.sinh x) = x := by
    intro x
    rw [Real.cosh_add_sinh, Real.log_exp]
  simp only [Py.meanAnomaly, ltb_real, lit_real, lit_small, h1, if_false, Rat.cast_one, h2, hce, hlt, sqrt_real, hsq, ln_real,
    Rat.cast_zero, hsign, sinh_real]
  split
  · rename_i hw
    rw [abs_of_neg (Real.sinh_neg_iff.2 hw), ← Real.sinh_neg, ← Real.cosh_neg, hlog, neg_neg]
  · rename_i hw
    rw [abs_of_nonneg (Real.sinh_nonneg_iff.2 (not_lt.1 hw)), hlog]

/-- **C125 is violated** for hyperbolas: 2π is added to the mean anomaly of a comet on its way in, which is not an angle. -/
theorem C125_violated_hyperbola (gm b e i g n w : ℝ) (hgm : 0 < gm) (hb : 0 < b) (he : 1 < e) (hi0 : 0 < i)
    (hi1 : i < Real.pi) (hn0 : 1 / 100000000 ≤ n) (hn1 : n < 2 * Real.pi) (hw : e * Real.sinh w - w < 0) :
    (Py.elementsOfOrbit gm (hyperbolaPosition b e i g n w) (hyperbolaVelocity gm b e i g n w)).meanAnomaly =
      e * Real.sinh w - w + 2 * Real.pi := by
  rw [(py_hyperbola gm b e i g n w hgm hb he hi0 hi1 hn0 hn1 _ rfl).2.2.2.2.2.2]
  have h1 : ¬ 2 * Real.pi < e * Real.sinh w - w + 2 * Real.pi := by linarith
  simp only [Py.reduce, ltb_real, lit_real, Rat.cast_zero, hw, if_true, twoPi_real, h1, if_false]

/-- **C125** for hyperbolas, the way out up to a mean anomaly of a whole turn. -/
theorem C125_partial_hyperbola (gm b e i g n w : ℝ) (hgm : 0 < gm) (hb : 0 < b) (he : 1 < e) (hi0 : 0 < i)
    (hi1 : i < Real.pi) (hn0 : 1 / 100000000 ≤ n) (hn1 : n < 2 * Real.pi) (hw : 0 ≤ e * Real.sinh w - w)
    (hw' : e * Real.sinh w - w ≤ 2 * Real.pi) (el : Py.Elements ℝ)
    (hel : el = Py.elementsOfOrbit gm (hyperbolaPosition b e i g n w) (hyperbolaVelocity gm b e i g n w)) :
    el.semiMajorAxis = -b ∧ el.perihelionDistance = b * (e - 1) ∧ el.eccentricity = e ∧ el.inclination = i ∧
    el.longitudeOfAscendingNode = n ∧ SameAngle el.longitudeOfPerihelion (g + n) ∧
    el.meanAnomaly = e * Real.sinh w - w := by
  have h := py_hyperbola gm b e i g n w hgm hb he hi0 hi1 hn0 hn1 el hel
  rw [py_reduce hw hw'] at h
  exact h

/-! ### Parabolas -/

/-- The state on a parabola with perihelion distance `q`, where the tangent of half the true anomaly is `d`. -/
noncomputable def parabolaPosition (q i g n d : ℝ) : Axes ℝ :=
  (q * (1 - d ^ 2)) • perihelionDirection i g n + (2 * q * d) • transverseDirection i g n
noncomputable def parabolaVelocity (gm q i g n d : ℝ) : Axes ℝ :=
  (Real.sqrt (2 * gm / q) / (1 + d ^ 2)) • ((-d) • perihelionDirection i g n + (1 : ℝ) • transverseDirection i g n)

theorem parabola_state {gm q : ℝ} (i g n d : ℝ) (hgm : 0 < gm) (hq : 0 < q) :
    (parabolaPosition q i g n d).dot (parabolaPosition q i g n d) = (q * (1 + d ^ 2)) ^ 2 ∧
    (parabolaVelocity gm q i g n d).dot (parabolaVelocity gm q i g n d) = 2 * gm / (q * (1 + d ^ 2)) ∧
    (parabolaPosition q i g n d).dot (parabolaVelocity gm q i g n d) = q * Real.sqrt (2 * gm / q) * d ∧
    OnOrbit gm q 1 i g n (parabolaPosition q i g n d) (parabolaVelocity gm q i g n d) := by
  have hK : Real.sqrt (2 * gm / q) ^ 2 = 2 * gm / q := Real.sq_sqrt (by positivity)
  have hd : 0 < 1 + d ^ 2 := by positivity
  have ev : parabolaVelocity gm q i g n d = (-d * (Real.sqrt (2 * gm / q) / (1 + d ^ 2))) • perihelionDirection i g n +
      (Real.sqrt (2 * gm / q) / (1 + d ^ 2)) • transverseDirection i g n := by
    rw [parabolaVelocity, smul_add, smul_smul, smul_smul]
    congr 2 <;> ring
  have hsq : q * Real.sqrt (2 * gm / q) = Real.sqrt (gm * (q * (1 + 1))) := by
    rw [show gm * (q * (1 + 1)) = q ^ 2 * (2 * gm / q) by field_simp; ring, Real.sqrt_mul (by positivity),
      Real.sqrt_sq hq.le]
  refine ⟨?_, ?_, ?_, ?_⟩
  · rw [parabolaPosition, plane_dot _ _ (PP i g n) (QQ i g n) (PQ i g n)]; ring
  · rw [ev, plane_dot _ _ (PP i g n) (QQ i g n) (PQ i g n)]
    have e1 : -d * (Real.sqrt (2 * gm / q) / (1 + d ^ 2)) * (-d * (Real.sqrt (2 * gm / q) / (1 + d ^ 2))) +
        Real.sqrt (2 * gm / q) / (1 + d ^ 2) * (Real.sqrt (2 * gm / q) / (1 + d ^ 2)) =
        Real.sqrt (2 * gm / q) ^ 2 / (1 + d ^ 2) := by
      generalize Real.sqrt (2 * gm / q) = K
      field_simp
      ring
    rw [e1, hK]
    field_simp
  · rw [ev, parabolaPosition, plane_dot _ _ (PP i g n) (QQ i g n) (PQ i g n)]
    field_simp
    ring
  · refine onOrbit_of_plane i g n (ρ := q * (1 + d ^ 2)) (h := q * Real.sqrt (2 * gm / q)) (by positivity)
      ?_ ?_ ?_ ?_ hsq _ _ rfl ev
    · ring
    · field_simp
      ring
    · have e1 : q * Real.sqrt (2 * gm / q) * (Real.sqrt (2 * gm / q) / (1 + d ^ 2)) / gm =
          q * Real.sqrt (2 * gm / q) ^ 2 / (1 + d ^ 2) / gm := by ring
      rw [e1, hK]
      field_simp
      ring
    · have e1 : -(q * Real.sqrt (2 * gm / q) * (-d * (Real.sqrt (2 * gm / q) / (1 + d ^ 2)))) / gm =
          q * d * Real.sqrt (2 * gm / q) ^ 2 / (1 + d ^ 2) / gm := by ring
      rw [e1, hK]
      field_simp
      ring

/-- What the front end computes on parabolas, except for the semi-major axis, which divides by zero. -/
theorem py_parabola (gm q i g n d : ℝ) (hgm : 0 < gm) (hq : 0 < q) (hi0 : 0 < i) (hi1 : i < Real.pi)
    (hn0 : 1 / 100000000 ≤ n) (hn1 : n < 2 * Real.pi) (el : Py.Elements ℝ)
    (hel : el = Py.elementsOfOrbit gm (parabolaPosition q i g n d) (parabolaVelocity gm q i g n d)) :
    el.perihelionDistance = q ∧ el.eccentricity = 1 ∧ el.inclination = i ∧ el.longitudeOfAscendingNode = n ∧
    SameAngle el.longitudeOfPerihelion (g + n) ∧ el.meanAnomaly = 0 := by
  obtain ⟨hr, hv, hrv, hev, hh⟩ := parabola_state i g n d hgm hq
  generalize parabolaPosition q i g n d = r at *
  generalize parabolaVelocity gm q i g n d = v at *
  have hD : 0 < 1 + d ^ 2 := by positivity
  set w := Real.sqrt (gm * (q * (1 + 1))) with hw
  have hw0 : 0 < w := Real.sqrt_pos.mpr (by positivity)
  have hw2 : w * w = gm * (q * (1 + 1)) := Real.mul_self_sqrt (by positivity)
  have hin := py_inclinationAndNode hw0 hi0 hi1 (by linarith : 0 ≤ n) hn1
  have hx : r.y * v.z - r.z * v.y = w * (Real.sin i * Real.sin n) := by
    have := congrArg Axes.x hh; rw [normal_eq] at this; simpa using this
  have hy : r.z * v.x - r.x * v.z = w * -(Real.sin i * Real.cos n) := by
    have := congrArg Axes.y hh; rw [normal_eq] at this; simpa using this
  have hz : r.x * v.y - r.y * v.x = w * Real.cos i := by
    have := congrArg Axes.z hh; rw [normal_eq] at this; simpa using this
  have hh2 : w * (Real.sin i * Real.sin n) * (w * (Real.sin i * Real.sin n)) +
      w * -(Real.sin i * Real.cos n) * (w * -(Real.sin i * Real.cos n)) +
      w * Real.cos i * (w * Real.cos i) = w * w := by
    linear_combination w ^ 2 * Real.sin i ^ 2 * Real.sin_sq_add_cos_sq n +
      w ^ 2 * Real.sin_sq_add_cos_sq i
  have hr2 : r.x * r.x + r.y * r.y + r.z * r.z = (q * (1 + d ^ 2)) ^ 2 := hr
  have hv2' : v.x * v.x + v.y * v.y + v.z * v.z = 2 * gm / (q * (1 + d ^ 2)) := hv
  have hsqr : Real.sqrt ((q * (1 + d ^ 2)) ^ 2) = q * (1 + d ^ 2) := Real.sqrt_sq (by positivity)
  have hsqw : Real.sqrt (w * w) = w := Real.sqrt_mul_self hw0.le
  have hsgm : w * w / gm = 2 * q := by rw [hw2]; field_simp; ring
  have hci : w * Real.cos i / w = Real.cos i := by field_simp
  have htemp : 1 + 2 * q * (2 * gm / (q * (1 + d ^ 2)) / gm - 2 / (q * (1 + d ^ 2))) = 1 := by
    field_simp; ring
  have hq' : 2 * q / (1 + 1) = q := by ring
  have hce : (2 * gm / (q * (1 + d ^ 2)) * (q * (1 + d ^ 2)) - gm) / (1 * gm) = 1 := by
    field_simp; ring
  have hma : ∀ t x : ℝ, Py.meanAnomaly 1 gm (q * (1 + d ^ 2)) (2 * gm / (q * (1 + d ^ 2))) x t = 0 := by
    intro t x
    have h1 : ¬ (1 : ℝ) < 3 / 100000000 := by norm_num
    simp only [Py.meanAnomaly, ltb_real, lit_real, lit_small, h1, if_false, Rat.cast_one, lt_irrefl, hce, sqrt_real, ln_real]
    simp [sinh_real]
  simp only [Py.elementsOfOrbit, py_eccentricityVector, hev, hx, hy, hz, hh2, hr2, hv2', sqrt_real, hsqr, hsqw, hsgm,
    hci, lit_real, Rat.cast_one, Rat.cast_zero, Rat.cast_ofNat, htemp, hin, ltb_real, zero_lt_one, if_true, Real.sqrt_one,
    hq', hma] at hel
  subst hel
  refine ⟨rfl, rfl, rfl, rfl, py_longitudeOfPerihelion (by norm_num) hn0, ?_⟩
  exact py_reduce le_rfl (by positivity)

/-- **C125** for parabolas: shape and orientation (missing: the anomaly, see `C125_violated_parabola`). -/
theorem C125_partial_parabola (gm q i g n d : ℝ) (hgm : 0 < gm) (hq : 0 < q) (hi0 : 0 < i) (hi1 : i < Real.pi)
    (hn0 : 1 / 100000000 ≤ n) (hn1 : n < 2 * Real.pi) (el : Py.Elements ℝ)
    (hel : el = Py.elementsOfOrbit gm (parabolaPosition q i g n d) (parabolaVelocity gm q i g n d)) :
    el.perihelionDistance = q ∧ el.eccentricity = 1 ∧ el.inclination = i ∧ el.longitudeOfAscendingNode = n ∧
    SameAngle el.longitudeOfPerihelion (g + n) := by
  obtain ⟨h1, h2, h3, h4, h5, -⟩ := py_parabola gm q i g n d hgm hq hi0 hi1 hn0 hn1 el hel
  exact ⟨h1, h2, h3, h4, h5⟩

/-- **C125 is violated** for parabolas: the mean anomaly is zero wherever the body is, so that two bodies at different places
of the same parabola get the same elements. -/
theorem C125_violated_parabola (gm q i g n d d' : ℝ) (hgm : 0 < gm) (hq : 0 < q) (hi0 : 0 < i) (hi1 : i < Real.pi)
    (hn0 : 1 / 100000000 ≤ n) (hn1 : n < 2 * Real.pi) (hdd : d ≠ d') :
    parabolaPosition q i g n d ≠ parabolaPosition q i g n d' ∧
    (Py.elementsOfOrbit gm (parabolaPosition q i g n d) (parabolaVelocity gm q i g n d)).meanAnomaly = 0 ∧
    (Py.elementsOfOrbit gm (parabolaPosition q i g n d') (parabolaVelocity gm q i g n d')).meanAnomaly = 0 := by
  refine ⟨?_, (py_parabola gm q i g n d hgm hq hi0 hi1 hn0 hn1 _ rfl).2.2.2.2.2,
    (py_parabola gm q i g n d' hgm hq hi0 hi1 hn0 hn1 _ rfl).2.2.2.2.2⟩
  intro h
  have h2 := congrArg (fun r => r.dot (transverseDirection i g n)) h
  have hQ : ∀ x y : ℝ, (x • perihelionDirection i g n + y • transverseDirection i g n).dot (transverseDirection i g n) = y := by
    intro x y
    have := plane_dot _ _ (PP i g n) (QQ i g n) (PQ i g n) x y 0 1
    simpa using this
  simp only [parabolaPosition, hQ] at h2
  exact hdd (mul_left_cancel₀ (by positivity : 2 * q ≠ 0) h2)

example : ∃ d d' : ℝ, d ≠ d' ∧ parabolaPosition 1 1 1 1 d ≠ parabolaPosition 1 1 1 1 d' :=
  ⟨0, 1, by norm_num, (C125_violated_parabola 1 1 1 1 1 0 1 one_pos one_pos one_pos (by linarith [Real.pi_gt_three])
    (by norm_num) (by linarith [Real.pi_gt_three]) (by norm_num)).1⟩

/-! ### Retrograde orbits in the reference plane -/

/-- **C125 is violated** by retrograde orbits in the reference plane: inclination and node are π and 0, and the longitude of
perihelion is counted in the direction of the axes; counted along the orbit, as the elements are read, it is the perihelion
mirrored on the x axis. -/
theorem C125_violated_retrograde (gm a e g n bigE : ℝ) (hgm : 0 < gm) (ha : 0 < a) (he0 : 3 / 100000000 ≤ e) (he1 : e < 1)
    (el : Py.Elements ℝ)
    (hel : el = Py.elementsOfOrbit gm (ellipsePosition a e Real.pi g n bigE) (ellipseVelocity gm a e Real.pi g n bigE)) :
    el.semiMajorAxis = a ∧ el.perihelionDistance = a * (1 - e) ∧ el.eccentricity = e ∧ el.inclination = Real.pi ∧
    el.longitudeOfAscendingNode = 0 ∧ SameAngle el.longitudeOfPerihelion (n - g) ∧
    SameAngle el.meanAnomaly (bigE - e * Real.sin bigE) ∧
    (Real.sin (n - g) ≠ 0 →
      perihelionDirection el.inclination (el.longitudeOfPerihelion - el.longitudeOfAscendingNode) el.longitudeOfAscendingNode ≠
        perihelionDirection Real.pi g n) := by
  have hepos : 0 < e := by linarith
  have f := ellipseFacts Real.pi g n bigE hgm ha hepos.le he1
  obtain ⟨hv, o⟩ := ellipse_state Real.pi g n bigE hgm ha hepos.le he1
  have hq : 0 < a * (1 - e) := mul_pos ha (by linarith)
  have h := py_elements hgm hq hepos.le (mul_pos ha f.pos) _ _ f.rr hv f.rv rfl rfl o Real.pi 0
    (by simp [Py.inclinationAndNode, pi_real'])
  rw [h] at hel
  subst hel
  have h1 : (perihelionDirection Real.pi g n).x = Real.cos (n - g) := by
    rw [perihelion_eq, Real.cos_sub]; simp; ring
  have h2 : (perihelionDirection Real.pi g n).y = Real.sin (n - g) := by
    rw [perihelion_eq, Real.sin_sub]; simp; ring
  have hp : SameAngle (Py.longitudeOfPerihelion e Real.pi 0 (e • perihelionDirection Real.pi g n)) (n - g) := by
    obtain ⟨k, hk⟩ := arg_turns hepos (n - g)
    rw [py_longitudeOfPerihelion_node Real.pi he0, h1, h2, hk]
    exact (py_turn _).congr ⟨k, rfl⟩
  refine ⟨rfl, rfl, rfl, rfl, rfl, hp, py_meanAnomaly hgm ha he0 he1 _, ?_⟩
  intro hs hc
  change perihelionDirection Real.pi (Py.longitudeOfPerihelion e Real.pi 0 (e • perihelionDirection Real.pi g n) - 0) 0 = _ at hc
  generalize Py.longitudeOfPerihelion e Real.pi 0 (e • perihelionDirection Real.pi g n) = p at hp hc
  have hy := congrArg Axes.y hc
  rw [h2, perihelion_eq] at hy
  simp only [Real.cos_pi, Real.cos_zero, Real.sin_zero, sub_zero] at hy
  rw [hp.sin] at hy
  apply hs
  linarith

example : ∃ p : ℝ, (Py.elementsOfOrbit 1 (ellipsePosition 1 (1 / 2) Real.pi 1 2 0)
      (ellipseVelocity 1 1 (1 / 2) Real.pi 1 2 0)).longitudeOfPerihelion = p ∧ SameAngle p 1 ∧
    perihelionDirection Real.pi p 0 ≠ perihelionDirection Real.pi 1 2 := by
  obtain ⟨-, -, -, h3, h4, h5, -, h6⟩ := C125_violated_retrograde 1 1 (1 / 2) 1 2 0 one_pos one_pos (by norm_num) (by norm_num)
    _ rfl
  have hs : Real.sin (2 - 1) ≠ 0 := by
    rw [show (2 : ℝ) - 1 = 1 by norm_num]
    exact (Real.sin_pos_of_pos_of_lt_pi one_pos (by linarith [Real.pi_gt_three])).ne'
  have h7 := h6 hs
  rw [h3, h4, sub_zero] at h7
  rw [show (2 : ℝ) - 1 = 1 by norm_num] at h5
  exact ⟨_, rfl, h5, h7⟩

/-! ## Several central bodies -/

/-- Total mass, and centre of mass (of positions or velocities), by the textbook. -/
noncomputable def totalMass (bodies : List (Py.Body ℝ)) : ℝ := (bodies.map (·.mass)).sum
noncomputable def meanOf (x : Py.Body ℝ → Axes ℝ) (bodies : List (Py.Body ℝ)) : Axes ℝ :=
  (totalMass bodies)⁻¹ • (bodies.map fun b => b.mass • x b).sum

theorem py_gravitationalParameter (G m : ℝ) (bodies : List (Py.Body ℝ)) :
    Py.gravitationalParameter G m bodies = G * (totalMass bodies + m) := by
  have : ∀ (l : List (Py.Body ℝ)) (s : ℝ), l.foldl (fun s b => s + b.mass) s = s + totalMass l := by
    intro l
    induction l with
    | nil => intro s; simp [totalMass]
    | cons b l ih => intro s; rw [List.foldl_cons, ih]; simp [totalMass]; ring
  simp [Py.gravitationalParameter, this]

theorem totalMass_nonneg (l : List (Py.Body ℝ)) (h : ∀ b ∈ l, 0 < b.mass) : 0 ≤ totalMass l :=
  List.sum_nonneg (by simpa using fun b hb => (h b hb).le)

theorem py_centerStep (l : List (Py.Body ℝ)) (m : ℝ) (r v : Axes ℝ) (hm : 0 ≤ m) (h : ∀ b ∈ l, 0 < b.mass) :
    ∃ r' v', l.foldl Py.centerStep (some (m, r, v)) = some (m + totalMass l, r', v') ∧
      (m + totalMass l) • r' = m • r + (l.map fun b => b.mass • b.position).sum ∧
      (m + totalMass l) • v' = m • v + (l.map fun b => b.mass • b.velocity).sum := by
  induction l generalizing m r v with
  | nil => exact ⟨r, v, by simp [totalMass], by simp [totalMass], by simp [totalMass]⟩
  | cons b l ih =>
    have hb : 0 < b.mass := h b (by simp)
    have hmb : 0 < m + b.mass := by linarith
    rw [List.foldl_cons]
    have hstep : Py.centerStep (some (m, r, v)) b = some (m + b.mass,
        (m + b.mass)⁻¹ • (m • r + b.mass • b.position), (m + b.mass)⁻¹ • (m • v + b.mass • b.velocity)) := by
      simp only [Py.centerStep, eqb_real, lit_real, Rat.cast_zero, hmb.ne', if_false, Option.some.injEq, Prod.mk.injEq, true_and]
      constructor <;> ext <;> simp <;> field_simp
    rw [hstep]
    obtain ⟨r', v', h1, h2, h3⟩ := ih (m + b.mass) ((m + b.mass)⁻¹ • (m • r + b.mass • b.position))
      ((m + b.mass)⁻¹ • (m • v + b.mass • b.velocity)) hmb.le (fun b hb => h b (by simp [hb]))
    have ht : m + totalMass (b :: l) = m + b.mass + totalMass l := by simp [totalMass]; ring
    refine ⟨r', v', ?_, ?_, ?_⟩
    · rw [h1, ht]
    · rw [ht, h2, smul_inv_smul₀ hmb.ne']
      simp [add_assoc]
    · rw [ht, h3, smul_inv_smul₀ hmb.ne']
      simp [add_assoc]

/-- The loop computes the centre of mass. -/
theorem py_center (bodies : List (Py.Body ℝ)) (hne : bodies ≠ []) (h : ∀ b ∈ bodies, 0 < b.mass) :
    Py.center bodies = some (totalMass bodies, meanOf (·.position) bodies, meanOf (·.velocity) bodies) := by
  have hpos : 0 < totalMass bodies := by
    cases bodies with
    | nil => exact absurd rfl hne
    | cons b l =>
      have := totalMass_nonneg l (fun b hb => h b (by simp [hb]))
      have := h b (by simp)
      simp only [totalMass, List.map_cons, List.sum_cons] at *
      linarith
  obtain ⟨r', v', h1, h2, h3⟩ := py_centerStep bodies 0 ⟨0, 0, 0⟩ ⟨0, 0, 0⟩ le_rfl h
  rw [zero_add, zero_smul, zero_add] at h2 h3
  rw [zero_add] at h1
  have e2 : r' = meanOf (·.position) bodies := by
    rw [meanOf, ← h2, inv_smul_smul₀ hpos.ne']
  have e3 : v' = meanOf (·.velocity) bodies := by
    rw [meanOf, ← h3, inv_smul_smul₀ hpos.ne']
  rw [← e2, ← e3, ← h1]
  simp [Py.center]

theorem py_distance (r : Axes ℝ) : Py.distance r = len r := rfl

/-- **C125 is violated for planets of several bodies**, such as both stars of a binary: the distance of their centre of mass
from the origin, which has nothing to do with the orbit, is added to the semi-major axis of the orbit about it. -/
theorem C125_violated_bodies (G m a e i g n bigE : ℝ) (bodies : List (Py.Body ℝ)) (hne : bodies ≠ [])
    (hG : 0 < G) (hm : 0 ≤ m) (hpos : ∀ b ∈ bodies, 0 < b.mass) (ha : 0 < a) (he0 : 3 / 100000000 ≤ e) (he1 : e < 1)
    (hi0 : 0 < i) (hi1 : i < Real.pi) (hn0 : 1 / 100000000 ≤ n) (hn1 : n < 2 * Real.pi) (r v : Axes ℝ)
    (hr : r - meanOf (·.position) bodies = ellipsePosition a e i g n bigE)
    (hv : v - meanOf (·.velocity) bodies = ellipseVelocity (G * (totalMass bodies + m)) a e i g n bigE) :
    ∃ el, Py.keplerianElements G m r v bodies = some el ∧
      el.semiMajorAxis = a + len (meanOf (·.position) bodies) ∧
      el.perihelionDistance = a * (1 - e) + len (meanOf (·.position) bodies) * (1 - e) ∧
      el.eccentricity = e ∧ el.inclination = i ∧ el.longitudeOfAscendingNode = n ∧
      SameAngle el.longitudeOfPerihelion (g + n) ∧ SameAngle el.meanAnomaly (bigE - e * Real.sin bigE) := by
  have hc := py_center bodies hne hpos
  have hM : 0 < totalMass bodies := by
    cases bodies with
    | nil => exact absurd rfl hne
    | cons b l =>
      have := totalMass_nonneg l (fun b hb => hpos b (by simp [hb]))
      have := hpos b (by simp)
      simp only [totalMass, List.map_cons, List.sum_cons] at *
      linarith
  have hgm : 0 < G * (totalMass bodies + m) := mul_pos hG (by linarith)
  obtain ⟨h1, h2, h3, h4, h5, h6, h7, -⟩ := C125_partial _ a e i g n bigE hgm ha he0 he1 hi0 hi1 hn0 hn1 _ rfl
  have hr' : (⟨r.x - (meanOf (·.position) bodies).x, r.y - (meanOf (·.position) bodies).y,
      r.z - (meanOf (·.position) bodies).z⟩ : Axes ℝ) = ellipsePosition a e i g n bigE := by
    rw [← hr]; ext <;> simp
  have hv' : (⟨v.x - (meanOf (·.velocity) bodies).x, v.y - (meanOf (·.velocity) bodies).y,
      v.z - (meanOf (·.velocity) bodies).z⟩ : Axes ℝ) = ellipseVelocity (G * (totalMass bodies + m)) a e i g n bigE := by
    rw [← hv]; ext <;> simp
  have hne' : bodies.isEmpty = false := by simpa using hne
  set E0 := Py.elementsOfOrbit (G * (totalMass bodies + m)) (ellipsePosition a e i g n bigE)
    (ellipseVelocity (G * (totalMass bodies + m)) a e i g n bigE) with hE0
  refine ⟨{ E0 with
    semiMajorAxis := E0.semiMajorAxis + Py.distance (meanOf (·.position) bodies)
    perihelionDistance := E0.perihelionDistance + Py.distance (meanOf (·.position) bodies) * (lit 1 - E0.eccentricity) },
    ?_, ?_, ?_, h3, h4, h5, h6, h7⟩
  · simp only [Py.keplerianElements, hne', Bool.false_eq_true, if_false, hc, py_gravitationalParameter, hr', hv', ← hE0]
  · simp only [h1, py_distance]
  · simp only [h2, h3, py_distance, lit_real, Rat.cast_one]

/-! ## C126: coordinates from elements -/

/-- **C126** (missing: parabolas, hyperbolas near the perihelion, several central bodies, see the violations): a planet of one
central body moves on the requested orbit, and is where the library would put it. -/
theorem C126_partial (G m q e i p n l : ℝ) (hG : 0 < G) (hm : 0 < m) (hq : 0 < q) (he0 : 0 ≤ e) (he1 : e < 1) :
    ∃ r v, Py.cartesian G m q e i p n l [] = some (r, v) ∧ OnOrbit (G * m) q e i (p - n) n r v ∧
      (r, v) = cartesian (G * m) q e i p n l := by
  have hgm : 0 < G * m := mul_pos hG hm
  refine ⟨_, _, ?_, C56_on_requested_orbit (G * m) q e i p n l hgm hq he0, rfl⟩
  have hg : Py.gravitationalParameter G m [] = G * m := by simp [Py.gravitationalParameter]
  simp only [Py.cartesian, List.isEmpty_nil, if_true, hg, Py.coordinatesOnOrbit, Py.inPlane, ltb_real, lit_real, Rat.cast_one,
    he1, Option.map_some, cartesian, inPlane, Prod.mk.eta]

/-- The state that the library computes for an ellipse is that of the eccentric anomaly of its solver. -/
theorem cartesian_ellipse (gm q e i p n l : ℝ) (he1 : e < 1) :
    cartesian gm q e i p n l = (ellipsePosition (q / (1 - e)) e i (p - n) n (keplerEllipse e l),
      ellipseVelocity gm (q / (1 - e)) e i (p - n) n (keplerEllipse e l)) := by
  simp only [cartesian, inPlane, ltb_real, lit_real, Rat.cast_one, he1, if_true, rotate_eq, sqrt_real, sin_real, cos_real,
    ellipsePosition, ellipseVelocity, Prod.mk.injEq, pow_two, true_and]
  module

/-- **C126, what happens with several central bodies**: the planet moves about their centre of mass on an orbit with the requested
orientation and eccentricity, but the semi-major axis is smaller by the distance of the centre of mass from the origin; and the
elements computed back are the requested ones. -/
theorem C126_partial_bodies (G m q e i p n l : ℝ) (bodies : List (Py.Body ℝ)) (hne : bodies ≠ [])
    (hG : 0 < G) (hm : 0 ≤ m) (hpos : ∀ b ∈ bodies, 0 < b.mass) (he0 : 3 / 100000000 ≤ e) (he1 : e < 1)
    (hq : len (meanOf (·.position) bodies) * (1 - e) < q) (hi0 : 0 < i) (hi1 : i < Real.pi) (hn0 : 1 / 100000000 ≤ n)
    (hn1 : n < 2 * Real.pi) :
    ∃ r v el, Py.cartesian G m q e i p n l bodies = some (r, v) ∧
      OnOrbit (G * (totalMass bodies + m)) (q - len (meanOf (·.position) bodies) * (1 - e)) e i (p - n) n
        (r - meanOf (·.position) bodies) (v - meanOf (·.velocity) bodies) ∧
      Py.keplerianElements G m r v bodies = some el ∧ el.semiMajorAxis = q / (1 - e) ∧ el.perihelionDistance = q ∧
      el.eccentricity = e ∧ el.inclination = i ∧ el.longitudeOfAscendingNode = n ∧ SameAngle el.longitudeOfPerihelion p ∧
      SameAngle el.meanAnomaly (keplerEllipse e l - e * Real.sin (keplerEllipse e l)) := by
  have hc := py_center bodies hne hpos
  have hM : 0 < totalMass bodies := by
    cases bodies with
    | nil => exact absurd rfl hne
    | cons b l =>
      have := totalMass_nonneg l (fun b hb => hpos b (by simp [hb]))
      have := hpos b (by simp)
      simp only [totalMass, List.map_cons, List.sum_cons] at *
      linarith
  set d := len (meanOf (·.position) bodies) with hd
  have hgm : 0 < G * (totalMass bodies + m) := mul_pos hG (by linarith)
  have he' : 0 < 1 - e := by linarith
  set q' := q - d * (1 - e) with hq'
  have hq0 : 0 < q' := by rw [hq']; linarith
  have hcart := cartesian_ellipse (G * (totalMass bodies + m)) q' e i p n l he1
  have orb := C56_on_requested_orbit (G * (totalMass bodies + m)) q' e i p n l hgm hq0 (by linarith)
  have hne' : bodies.isEmpty = false := by simpa using hne
  have e1 : Py.cartesian G m q e i p n l bodies = some
      ((cartesian (G * (totalMass bodies + m)) q' e i p n l).1 + meanOf (·.position) bodies,
        (cartesian (G * (totalMass bodies + m)) q' e i p n l).2 + meanOf (·.velocity) bodies) := by
    simp only [Py.cartesian, hne', Bool.false_eq_true, if_false, hc, py_gravitationalParameter, py_distance, ← hd, lit_real,
      Rat.cast_one, ← hq', Py.coordinatesOnOrbit, Py.inPlane, ltb_real, he1, if_true, Option.map_some, cartesian, inPlane]
    rfl
  obtain ⟨el, h0, h1, h2, h3, h4, h5, h6, h7⟩ := C125_violated_bodies G m (q' / (1 - e)) e i (p - n) n (keplerEllipse e l) bodies
    hne hG hm hpos (div_pos hq0 he') he0 he1 hi0 hi1 hn0 hn1
    ((cartesian (G * (totalMass bodies + m)) q' e i p n l).1 + meanOf (·.position) bodies)
    ((cartesian (G * (totalMass bodies + m)) q' e i p n l).2 + meanOf (·.velocity) bodies)
    (by rw [add_sub_cancel_right, hcart]) (by rw [add_sub_cancel_right, hcart])
  refine ⟨_, _, el, e1, by simpa using orb, h0, ?_, ?_, h3, h4, h5, ?_, h7⟩
  · rw [h1, hq', ← hd]; field_simp; ring
  · rw [h2, hq', ← hd]; field_simp; ring
  · simpa using h6

/-- **C126 is violated for planets of several bodies** whose centre of mass is not at the origin: the orbit about the centre
of mass is not the requested one. -/
theorem C126_violated_bodies (G m q e i p n l : ℝ) (bodies : List (Py.Body ℝ)) (hne : bodies ≠ [])
    (hG : 0 < G) (hm : 0 ≤ m) (hpos : ∀ b ∈ bodies, 0 < b.mass) (he0 : 3 / 100000000 ≤ e) (he1 : e < 1)
    (hq : len (meanOf (·.position) bodies) * (1 - e) < q) (hi0 : 0 < i) (hi1 : i < Real.pi) (hn0 : 1 / 100000000 ≤ n)
    (hn1 : n < 2 * Real.pi) (h0 : 0 < len (meanOf (·.position) bodies)) (r v : Axes ℝ)
    (h : Py.cartesian G m q e i p n l bodies = some (r, v)) :
    ¬ OnOrbit (G * (totalMass bodies + m)) q e i (p - n) n (r - meanOf (·.position) bodies)
      (v - meanOf (·.velocity) bodies) := by
  obtain ⟨r', v', -, h1, h2, -⟩ := C126_partial_bodies G m q e i p n l bodies hne hG hm hpos he0 he1 hq hi0 hi1 hn0 hn1
  rw [h] at h1
  simp only [Option.some.injEq, Prod.mk.injEq] at h1
  obtain ⟨rfl, rfl⟩ := h1
  intro h3
  have hM := totalMass_nonneg bodies hpos
  have hgm : 0 ≤ G * (totalMass bodies + m) := by positivity
  have he' : 0 < 1 - e := by linarith
  have h4 := h2.momentum.symm.trans h3.momentum
  have h5 := congrArg (fun x => x.dot (normal i (p - n) n)) h4
  simp only [Axes.smul_dot, NN, mul_one] at h5
  have hM' : 0 < totalMass bodies := by
    cases bodies with
    | nil => exact absurd rfl hne
    | cons b l =>
      have := totalMass_nonneg l (fun b hb => hpos b (by simp [hb]))
      have := hpos b (by simp)
      simp only [totalMass, List.map_cons, List.sum_cons] at *
      linarith
  have hgm' : 0 < G * (totalMass bodies + m) := mul_pos hG (by linarith)
  have h6 : G * (totalMass bodies + m) * ((q - len (meanOf (·.position) bodies) * (1 - e)) * (1 + e)) <
      G * (totalMass bodies + m) * (q * (1 + e)) := by
    apply mul_lt_mul_of_pos_left _ hgm'
    apply mul_lt_mul_of_pos_right _ (by linarith)
    nlinarith
  have h7 := Real.sqrt_lt_sqrt (mul_nonneg hgm (mul_nonneg (by linarith) (by linarith))) h6
  linarith

/-- **C126 is violated for parabolas**: further from the perihelion than a mean anomaly of 1/1000 there is an exception. -/
theorem C126_violated_parabola (G m q i p n l : ℝ) (bodies : List (Py.Body ℝ)) (hl : 1 / 1000 ≤ |l|) :
    Py.cartesian G m q 1 i p n l bodies = none := by
  have h : Py.keplerParabola l = none := by
    have h1 : ¬ (if l < 0 then -l else l) < ((1 / 1000 : ℚ) : ℝ) := by
      have : ((1 / 1000 : ℚ) : ℝ) = 1 / 1000 := by norm_num
      rw [this, not_lt]
      split
      · rename_i h; rwa [abs_of_neg h] at hl
      · rename_i h; rwa [abs_of_nonneg (not_lt.1 h)] at hl
    simp only [Py.keplerParabola, ltb_real, lit_real, Rat.cast_zero, h1, if_false]
  have h2 : ∀ gm q : ℝ, Py.coordinatesOnOrbit gm q 1 i p n l = none := by
    intro gm q
    simp [Py.coordinatesOnOrbit, Py.inPlane, h]
  unfold Py.cartesian
  simp only [h2, Option.map_none]
  split
  · rfl
  · split <;> rfl

/-- **C126 is violated for hyperbolas** near the perihelion: there is an exception. -/
theorem C126_violated_hyperbola (G m q e i p n l : ℝ) (bodies : List (Py.Body ℝ)) (he : 1 < e)
    (hl : |l| < 0.636 * e - 0.6) (hl' : 4 / 1000000000000000 ≤ |l|) :
    Py.cartesian G m q e i p n l bodies = none := by
  have habs : (if l < 0 then -l else l) = |l| := by
    split
    · rename_i h; rw [abs_of_neg h]
    · rename_i h; rw [abs_of_nonneg (not_lt.1 h)]
  have h : Py.keplerHyperbola e l = none := by
    have h1 : |l| < ((0.636 : ℚ) : ℝ) * e - ((0.6 : ℚ) : ℝ) := by
      have e1 : ((0.636 : ℚ) : ℝ) = 0.636 := by norm_num
      have e2 : ((0.6 : ℚ) : ℝ) = 0.6 := by norm_num
      rw [e1, e2]; exact hl
    have h2 : ((4 / 1000000000000000 : ℚ) : ℝ) ≤ |l| := by
      have e1 : ((4 / 1000000000000000 : ℚ) : ℝ) = 4 / 1000000000000000 := by norm_num
      rw [e1]; exact hl'
    simp only [Py.keplerHyperbola, Py.hyperbolaLowN, ltb_real, leb_real, lit_real, Rat.cast_zero, habs, h1, if_true, h2,
      Option.map_none]
  have h1 : ¬ e < 1 := by linarith
  have h3 : ¬ e = 1 := by linarith
  have h2 : ∀ gm q : ℝ, Py.coordinatesOnOrbit gm q e i p n l = none := by
    intro gm q
    simp [Py.coordinatesOnOrbit, Py.inPlane, h, h1, h3]
  unfold Py.cartesian
  simp only [h2, Option.map_none]
  split
  · rfl
  · split <;> rfl

/-- **C126** for hyperbolas away from the perihelion. -/
theorem C126_partial_hyperbola (G m q e i p n l : ℝ) (hG : 0 < G) (hm : 0 < m) (hq : 0 < q) (he : 1 < e)
    (hl : 0.636 * e - 0.6 ≤ |l|) :
    ∃ r v, Py.cartesian G m q e i p n l [] = some (r, v) ∧ OnOrbit (G * m) q e i (p - n) n r v := by
  have hgm : 0 < G * m := mul_pos hG hm
  have hg : Py.gravitationalParameter G m [] = G * m := by simp [Py.gravitationalParameter]
  have habs : (if l < 0 then -l else l) = |l| := by
    split
    · rename_i h; rw [abs_of_neg h]
    · rename_i h; rw [abs_of_nonneg (not_lt.1 h)]
  have h : Py.keplerHyperbola e l = some (Py.hyperbolaHighN e l) := by
    have h1 : ¬ |l| < ((0.636 : ℚ) : ℝ) * e - ((0.6 : ℚ) : ℝ) := by
      have e1 : ((0.636 : ℚ) : ℝ) = 0.636 := by norm_num
      have e2 : ((0.6 : ℚ) : ℝ) = 0.6 := by norm_num
      rw [e1, e2, not_lt]; exact hl
    simp only [Py.keplerHyperbola, ltb_real, lit_real, Rat.cast_zero, habs, h1, if_false]
  have h1 : ¬ e < 1 := by linarith
  have h3 : ¬ e = 1 := by linarith
  have ha : q / (1 - e) < 0 := div_neg_of_pos_of_neg hq (by linarith)
  have hqa : q / (1 - e) * (1 - e) = q := by
    have : 1 - e ≠ 0 := by linarith
    field_simp
  have := hyperbola_onOrbit (gm := G * m) (a := q / (1 - e)) (e := e)
    (se := Real.sinh (Py.hyperbolaHighN e l)) (ce := Real.cosh (Py.hyperbolaHighN e l)) i (p - n) n hgm ha he
    (Real.cosh_sq_sub_sinh_sq _) (Real.one_le_cosh _) _ _ rfl rfl
  rw [hqa] at this
  refine ⟨_, _, ?_, this⟩
  simp only [Py.cartesian, List.isEmpty_nil, if_true, hg, Py.coordinatesOnOrbit, Py.inPlane, ltb_real, eqb_real, lit_real,
    Rat.cast_one, h1, h3, if_false, h, Option.map_some, rotate_eq, sqrt_real, abs_real, sinh_real, cosh_real]

/-! ## Examples -/

/-- a = 1, e = 1/2, i = 1, node at 2 (where the library is wrong), E = 4. -/
example : (Py.elementsOfOrbit (1 : ℝ) (ellipsePosition 1 (1 / 2) 1 1 2 4) (ellipseVelocity 1 1 (1 / 2) 1 1 2 4)).inclination =
    1 :=
  (C125_partial 1 1 (1 / 2) 1 1 2 4 (by norm_num) (by norm_num) (by norm_num) (by norm_num) (by norm_num)
    (by linarith [Real.pi_gt_d2]) (by norm_num) (by linarith [Real.pi_gt_d2]) _ rfl).2.2.2.1

example : SameAngle (Py.elementsOfOrbit (1 : ℝ) (ellipsePosition 1 (1 / 2) 0 1 2 4)
    (ellipseVelocity 1 1 (1 / 2) 0 1 2 4)).longitudeOfPerihelion (1 + 2) :=
  (C125_partial_planar 1 1 (1 / 2) 1 2 4 (by norm_num) (by norm_num) (by norm_num) (by norm_num) _ rfl).2.2.2.2.1

/-- Inclination 1, perihelion at 1 from the node. -/
example : ¬ SameAngle (Py.elementsOfOrbit (1 : ℝ) (ellipsePosition 1 (1 / 2) 1 1 0 4)
    (ellipseVelocity 1 1 (1 / 2) 1 1 0 4)).longitudeOfPerihelion 1 :=
  (C125_violated_node 1 1 (1 / 2) 1 1 4 (by norm_num) (by norm_num) (by norm_num) (by norm_num) (by norm_num)
    (by linarith [Real.pi_gt_d2]) (Real.sin_pos_of_pos_of_lt_pi (by norm_num) (by linarith [Real.pi_gt_d2])).ne'
    (Real.cos_one_pos).ne' _ rfl).2.2.2

example : (Py.elementsOfOrbit (1 : ℝ) (ellipsePosition 1 0 1 0 1 2) (ellipseVelocity 1 1 0 1 0 1 2)).longitudeOfPerihelion = 1 :=
  (C125_violated_circular 1 1 1 1 2 (by norm_num) (by norm_num) (by norm_num) (by linarith [Real.pi_gt_d2])
    (Real.cos_one_pos).ne' (by norm_num) (by linarith [Real.pi_gt_d2]) (Real.cos_one_pos).ne' _ rfl).2.2.1

example : (Py.elementsOfOrbit (1 : ℝ) (hyperbolaPosition 1 2 1 1 1 (-1)) (hyperbolaVelocity 1 1 2 1 1 1 (-1))).meanAnomaly =
    2 * Real.sinh (-1) - (-1) + 2 * Real.pi :=
  C125_violated_hyperbola 1 1 2 1 1 1 (-1) (by norm_num) (by norm_num) (by norm_num) (by norm_num)
    (by linarith [Real.pi_gt_d2]) (by norm_num) (by linarith [Real.pi_gt_d2])
    (by rw [Real.sinh_neg]; linarith [Real.self_lt_sinh_iff.2 (show (0 : ℝ) < 1 by norm_num)])

example : (Py.elementsOfOrbit (1 : ℝ) (hyperbolaPosition 1 2 1 1 1 1) (hyperbolaVelocity 1 1 2 1 1 1 1)).meanAnomaly =
    2 * Real.sinh 1 - 1 := by
  have hpi := Real.pi_gt_d2
  have h1 := Real.self_lt_sinh_iff.2 (show (0 : ℝ) < 1 by norm_num)
  have h2 : Real.sinh 1 < 2 := by
    rw [Real.sinh_eq]
    linarith [Real.exp_one_lt_three, Real.exp_pos (-1)]
  exact (C125_partial_hyperbola 1 1 2 1 1 1 1 (by norm_num) (by norm_num) (by norm_num) (by norm_num) (by linarith)
    (by norm_num) (by linarith) (by linarith) (by linarith) _ rfl).2.2.2.2.2.2

/-- Two stars of masses 1 and 1, at 0 and at 1 on the x axis. -/
noncomputable def binary : List (Py.Body ℝ) := [⟨1, ⟨0, 0, 0⟩, ⟨0, 0, 0⟩⟩, ⟨1, ⟨1, 0, 0⟩, ⟨0, 1, 0⟩⟩]

theorem binary_center : meanOf (·.position) binary = ⟨1 / 2, 0, 0⟩ ∧ len (meanOf (·.position) binary) = 1 / 2 := by
  have h : meanOf (·.position) binary = ⟨1 / 2, 0, 0⟩ := by
    ext <;> simp [meanOf, binary, totalMass] <;> norm_num
  refine ⟨h, ?_⟩
  rw [h, len]
  have : (⟨1 / 2, 0, 0⟩ : Axes ℝ).dot ⟨1 / 2, 0, 0⟩ = (1 / 2) ^ 2 := by simp [Axes.dot]; norm_num
  rw [this, Real.sqrt_sq (by norm_num)]

/-- A planet requested at a perihelion distance of 5 from both: it is not on this orbit, but the front end says that it is. -/
example : ∃ r v el, Py.cartesian 1 0 5 (1 / 2) 1 3 2 1 binary = some (r, v) ∧
    ¬ OnOrbit (1 * (totalMass binary + 0)) 5 (1 / 2) 1 (3 - 2) 2 (r - meanOf (·.position) binary)
      (v - meanOf (·.velocity) binary) ∧
    Py.keplerianElements 1 0 r v binary = some el ∧ el.perihelionDistance = 5 := by
  have hpi := Real.pi_gt_d2
  have hb : ∀ b ∈ binary, 0 < b.mass := by simp [binary]
  have hc := binary_center.2
  obtain ⟨r, v, el, h1, -, h2, -, h3, -⟩ := C126_partial_bodies 1 0 5 (1 / 2) 1 3 2 1 binary (by simp [binary]) (by norm_num)
    le_rfl hb (by norm_num) (by norm_num) (by rw [hc]; norm_num) (by norm_num) (by linarith) (by norm_num) (by linarith)
  exact ⟨r, v, el, h1, C126_violated_bodies 1 0 5 (1 / 2) 1 3 2 1 binary (by simp [binary]) (by norm_num)
    le_rfl hb (by norm_num) (by norm_num) (by rw [hc]; norm_num) (by norm_num) (by linarith) (by norm_num) (by linarith)
    (by rw [hc]; norm_num) r v h1, h2, h3⟩

example : ∃ r v, Py.cartesian 1 1 1 (1 / 2) 1 3 2 1 [] = some (r, v) ∧ OnOrbit (1 * 1) 1 (1 / 2) 1 (3 - 2) 2 r v := by
  obtain ⟨r, v, h1, h2, -⟩ := C126_partial 1 1 1 (1 / 2) 1 3 2 1 (by norm_num) (by norm_num) (by norm_num) (by norm_num)
    (by norm_num)
  exact ⟨r, v, h1, h2⟩

example : Py.cartesian (1 : ℝ) 1 1 1 1 3 2 1 [] = none := C126_violated_parabola 1 1 1 1 3 2 1 [] (by norm_num)
example : Py.cartesian (1 : ℝ) 1 1 2 1 3 2 (1 / 2) [] = none :=
  C126_violated_hyperbola 1 1 1 2 1 3 2 (1 / 2) [] (by norm_num) (by rw [abs_of_pos] <;> norm_num)
    (by rw [abs_of_pos] <;> norm_num)
example : ∃ r v, Py.cartesian 1 1 1 2 1 3 2 5 [] = some (r, v) ∧ OnOrbit (1 * 1) 1 2 1 (3 - 2) 2 r v :=
  C126_partial_hyperbola 1 1 1 2 1 3 2 5 (by norm_num) (by norm_num) (by norm_num) (by norm_num)
    (by rw [abs_of_pos] <;> norm_num)

end Posidonius.Tools
