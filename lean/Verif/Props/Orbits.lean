import Verif.Props.Tools

/-! # C56, C57, C58, C59: from elements to coordinates and back -/

namespace Posidonius.Tools
open Posidonius.Kepler

/-! ## C56 -/

theorem sqrt_eq_of {h w : ℝ} (h0 : 0 ≤ h) (e : h ^ 2 = w) : h = Real.sqrt w := by
  rw [← e, Real.sqrt_sq h0]

/-- In-plane coordinates of an ellipse with semi-major axis `a`, for any point `(se, ce)` of the circle. -/
theorem ellipse_onOrbit {gm a e se ce : ℝ} (i g n : ℝ) (hgm : 0 < gm) (ha : 0 < a) (he0 : 0 ≤ e) (he1 : e < 1)
    (hc : se ^ 2 + ce ^ 2 = 1) (r v : Axes ℝ)
    (er : r = (a * (ce - e)) • perihelionDirection i g n +
      (a * Real.sqrt (1 - e * e) * se) • transverseDirection i g n)
    (ev : v = (-se * (Real.sqrt (gm / a) / (1 - e * ce))) • perihelionDirection i g n +
      (Real.sqrt (1 - e * e) * ce * (Real.sqrt (gm / a) / (1 - e * ce))) • transverseDirection i g n) :
    OnOrbit gm (a * (1 - e)) e i g n r v := by
  have hR : Real.sqrt (1 - e * e) ^ 2 = 1 - e * e := Real.sq_sqrt (by nlinarith)
  have hK : Real.sqrt (gm / a) ^ 2 = gm / a := Real.sq_sqrt (by positivity)
  have hR0 := Real.sqrt_nonneg (1 - e * e)
  have hK0 := Real.sqrt_nonneg (gm / a)
  set R := Real.sqrt (1 - e * e)
  set K := Real.sqrt (gm / a)
  have hgK : gm = K ^ 2 * a := by rw [hK]; field_simp
  have hce : ce ≤ 1 := by nlinarith [sq_nonneg se]
  have hd : 0 < 1 - e * ce := by nlinarith
  have hdn := hd.ne'
  have hKpos : 0 < K := by
    rcases hK0.lt_or_eq with h | h
    · exact h
    · rw [← h] at hgK; simp at hgK; linarith
  obtain ⟨D, hD⟩ : ∃ D, 1 - e * ce = D := ⟨_, rfl⟩
  rw [hD] at ev hd hdn
  refine onOrbit_of_plane i g n (ρ := a * D) (h := a * R * K) (by positivity)
    ?_ ?_ ?_ ?_ ?_ r v er ev
  · rw [← hD]
    linear_combination a ^ 2 * se ^ 2 * hR + a ^ 2 * (1 - e ^ 2) * hc
  · field_simp
    linear_combination R * hc + R * hD
  · rw [hgK]
    field_simp
    linear_combination ce * hR + e * hD
  · rw [hgK]
    field_simp
    ring
  · apply sqrt_eq_of (by positivity)
    rw [hgK]
    linear_combination a ^ 2 * K ^ 2 * hR

theorem hyperbola_onOrbit {gm a e se ce : ℝ} (i g n : ℝ) (hgm : 0 < gm) (ha : a < 0) (he1 : 1 < e)
    (hc : ce ^ 2 - se ^ 2 = 1) (hce : 1 ≤ ce) (r v : Axes ℝ)
    (er : r = (a * (ce - e)) • perihelionDirection i g n +
      (-a * Real.sqrt (e * e - 1) * se) • transverseDirection i g n)
    (ev : v = (-se * (Real.sqrt (gm / |a|) / (e * ce - 1))) • perihelionDirection i g n +
      (Real.sqrt (e * e - 1) * ce * (Real.sqrt (gm / |a|) / (e * ce - 1))) • transverseDirection i g n) :
    OnOrbit gm (a * (1 - e)) e i g n r v := by
  rw [abs_of_neg ha] at ev
  obtain ⟨b, rfl⟩ : ∃ b, a = -b := ⟨-a, by ring⟩
  rw [neg_neg] at ev
  have hb : 0 < b := by linarith
  have hR : Real.sqrt (e * e - 1) ^ 2 = e * e - 1 := Real.sq_sqrt (by nlinarith)
  have hK : Real.sqrt (gm / b) ^ 2 = gm / b := Real.sq_sqrt (by positivity)
  have hR0 := Real.sqrt_nonneg (e * e - 1)
  have hK0 := Real.sqrt_nonneg (gm / b)
  set R := Real.sqrt (e * e - 1)
  set K := Real.sqrt (gm / b)
  have hgK : gm = K ^ 2 * b := by rw [hK]; field_simp
  have hd : 0 < e * ce - 1 := by nlinarith
  have hdn := hd.ne'
  have hKpos : 0 < K := by
    rcases hK0.lt_or_eq with h | h
    · exact h
    · rw [← h] at hgK; simp at hgK; linarith
  obtain ⟨D, hD⟩ : ∃ D, e * ce - 1 = D := ⟨_, rfl⟩
  rw [hD] at ev hd hdn
  refine onOrbit_of_plane i g n (ρ := b * D) (h := b * R * K) (by positivity)
    ?_ ?_ ?_ ?_ ?_ r v er ev
  · rw [← hD]
    linear_combination b ^ 2 * se ^ 2 * hR - b ^ 2 * (e ^ 2 - 1) * hc
  · field_simp
    linear_combination R * hD - R * hc
  · rw [hgK]
    field_simp
    linear_combination ce * hR + e * hD
  · rw [hgK]
    field_simp
    ring
  · apply sqrt_eq_of (by positivity)
    rw [hgK]
    linear_combination b ^ 2 * K ^ 2 * hR

theorem parabola_onOrbit {gm q c : ℝ} (i g n : ℝ) (hgm : 0 < gm) (hq : 0 < q) (r v : Axes ℝ)
    (er : r = (q * (1 - c * c)) • perihelionDirection i g n + (2 * q * c) • transverseDirection i g n)
    (ev : v = (-c * (Real.sqrt (2 * gm / q) / (1 + c * c))) • perihelionDirection i g n +
      (Real.sqrt (2 * gm / q) / (1 + c * c)) • transverseDirection i g n) :
    OnOrbit gm q 1 i g n r v := by
  have hK : Real.sqrt (2 * gm / q) ^ 2 = 2 * gm / q := Real.sq_sqrt (by positivity)
  have hK0 := Real.sqrt_nonneg (2 * gm / q)
  set K := Real.sqrt (2 * gm / q)
  have hgK : gm = K ^ 2 * q / 2 := by rw [hK]; field_simp
  have hd : 0 < 1 + c * c := by nlinarith [mul_self_nonneg c]
  have hdn := hd.ne'
  have hKpos : 0 < K := by
    rcases hK0.lt_or_eq with h | h
    · exact h
    · rw [← h] at hgK; simp at hgK; linarith
  refine onOrbit_of_plane i g n (ρ := q * (1 + c * c)) (h := q * K) (by positivity)
    ?_ ?_ ?_ ?_ ?_ r v er ev
  · ring
  · field_simp
    ring
  · rw [hgK]
    field_simp
    ring
  · rw [hgK]
    field_simp
    ring
  · apply sqrt_eq_of (by positivity)
    rw [hgK]
    ring

/-- **C56**: for every gravitational parameter, perihelion distance, eccentricity (ellipse, parabola or
hyperbola), orientation and mean anomaly, the state returned moves on exactly the requested conic with the
requested orientation: its eccentricity vector and its angular momentum are those of the orbit. -/
theorem C56_on_requested_orbit (gm q e i p n l : ℝ) (hgm : 0 < gm) (hq : 0 < q) (he : 0 ≤ e) :
    OnOrbit gm q e i (p - n) n (cartesian gm q e i p n l).1 (cartesian gm q e i p n l).2 := by
  rcases lt_trichotomy e 1 with h | h | h
  · have ha : 0 < q / (1 - e) := div_pos hq (by linarith)
    have hqa : q / (1 - e) * (1 - e) = q := by
      have : 1 - e ≠ 0 := by linarith
      field_simp
    have := ellipse_onOrbit (gm := gm) (a := q / (1 - e)) (e := e)
      (se := Real.sin (keplerEllipse e l)) (ce := Real.cos (keplerEllipse e l)) i (p - n) n hgm ha he h
      (Real.sin_sq_add_cos_sq _) _ _ rfl rfl
    rw [hqa] at this
    simpa only [cartesian, inPlane, ltb_real, lit_real, Rat.cast_one, h, if_true, rotate_eq, sqrt_real,
      sin_real, cos_real] using this
  · subst h
    have := parabola_onOrbit (gm := gm) (q := q) (c := (keplerParabola l).2) i (p - n) n hgm hq _ _ rfl rfl
    simpa only [cartesian, inPlane, ltb_real, eqb_real, lit_real, Rat.cast_one, Rat.cast_ofNat, lt_irrefl,
      if_false, if_true, rotate_eq, sqrt_real] using this
  · have ha : q / (1 - e) < 0 := div_neg_of_pos_of_neg hq (by linarith)
    have hqa : q / (1 - e) * (1 - e) = q := by
      have : 1 - e ≠ 0 := by linarith
      field_simp
    have h1 : ¬ e < 1 := not_lt.mpr h.le
    have h2 : ¬ e = 1 := h.ne'
    have := hyperbola_onOrbit (gm := gm) (a := q / (1 - e)) (e := e)
      (se := Real.sinh (keplerHyperbola e l)) (ce := Real.cosh (keplerHyperbola e l)) i (p - n) n hgm ha h
      (Real.cosh_sq_sub_sinh_sq _) (Real.one_le_cosh _) _ _ rfl rfl
    rw [hqa] at this
    simpa only [cartesian, inPlane, ltb_real, eqb_real, lit_real, Rat.cast_one, h1, h2, if_false,
      rotate_eq, sqrt_real, abs_real, sinh_real, cosh_real] using this

/-- **C56, round trip**: the perihelion distance and eccentricity computed back are the ones given. -/
theorem C56_round_trip (gm q e i p n l : ℝ) (hgm : 0 < gm) (hq : 0 < q) (he : 0 ≤ e) :
    perihelionDistanceAndEccentricity gm (cartesian gm q e i p n l).1 (cartesian gm q e i p n l).2 = (q, e) :=
  perihelion_of_onOrbit i (p - n) n hgm hq he _ _ (C56_on_requested_orbit gm q e i p n l hgm hq he)

/-- A hyperbola with perihelion 3 and eccentricity 2, tilted. -/
example : perihelionDistanceAndEccentricity (1 : ℝ) (cartesian 1 3 2 0.3 1 0.5 0.1).1
    (cartesian 1 3 2 0.3 1 0.5 0.1).2 = (3, 2) :=
  C56_round_trip 1 3 2 0.3 1 0.5 0.1 (by norm_num) (by norm_num) (by norm_num)

/-! ## C57: elements from coordinates -/

theorem clamp_id {x : ℝ} (h1 : -1 ≤ x) (h2 : x ≤ 1) : clamp x (-1) 1 = x := by
  simp only [clamp, ltb_real, not_lt.mpr h1, not_lt.mpr h2, if_false]

theorem arg_polar {w t : ℝ} (hw : 0 < w) (h1 : -Real.pi < t) (h2 : t ≤ Real.pi) :
    Complex.arg ⟨w * Real.cos t, w * Real.sin t⟩ = t := by
  have := Complex.arg_mul_cos_add_sin_mul_I hw ⟨h1, h2⟩
  have e : (⟨w * Real.cos t, w * Real.sin t⟩ : ℂ) =
      (w : ℂ) * (Complex.cos (t : ℂ) + Complex.sin (t : ℂ) * Complex.I) := by
    apply Complex.ext <;> simp <;> left <;> rfl
  rw [e, this]

/-- Inclination and node from the angular momentum. -/
theorem inclinationAndNode_real {w i n : ℝ} (hw : 0 < w) (hi0 : 0 < i) (hi1 : i < Real.pi) (hn0 : 0 ≤ n)
    (hn1 : n < 2 * Real.pi) :
    inclinationAndNode (w * (Real.sin i * Real.sin n)) (w * -(Real.sin i * Real.cos n)) (w * Real.cos i) w =
      (if Real.cos n < 0 then 2 * Real.pi - i else i, n) := by
  have hpi := Real.pi_pos
  have hsi : 0 < Real.sin i := Real.sin_pos_of_pos_of_lt_pi hi0 hi1
  have hdiv : w * Real.cos i / w = Real.cos i := by field_simp
  have hcl : clamp (w * Real.cos i / w) (-1) 1 = Real.cos i := by
    rw [hdiv]; exact clamp_id (Real.neg_one_le_cos i) (Real.cos_le_one i)
  have habs : |Real.cos i| < 1 := by
    rw [abs_lt]
    have := Real.sin_sq_add_cos_sq i
    constructor <;> nlinarith [Real.neg_one_le_cos i, Real.cos_le_one i]
  have hy : (0 < w * -(Real.sin i * Real.cos n)) ↔ Real.cos n < 0 := by
    constructor
    · intro h
      by_contra hc
      have : 0 ≤ w * (Real.sin i * Real.cos n) := by
        have := not_lt.mp hc; positivity
      linarith
    · intro h
      have : 0 < w * (Real.sin i * -Real.cos n) := by
        have : 0 < -Real.cos n := by linarith
        positivity
      linarith
  have hnode : (if Complex.arg ⟨-(w * -(Real.sin i * Real.cos n)), w * (Real.sin i * Real.sin n)⟩ < 0
      then Complex.arg ⟨-(w * -(Real.sin i * Real.cos n)), w * (Real.sin i * Real.sin n)⟩ + 2 * Real.pi
      else Complex.arg ⟨-(w * -(Real.sin i * Real.cos n)), w * (Real.sin i * Real.sin n)⟩) = n := by
    have e1 : (⟨-(w * -(Real.sin i * Real.cos n)), w * (Real.sin i * Real.sin n)⟩ : ℂ) =
        ⟨(w * Real.sin i) * Real.cos n, (w * Real.sin i) * Real.sin n⟩ := by
      congr 1 <;> ring
    have hw' : 0 < w * Real.sin i := by positivity
    rw [e1]
    rcases le_or_gt n Real.pi with h | h
    · rw [arg_polar hw' (by linarith) h, if_neg (by linarith)]
    · have := arg_polar (t := n - 2 * Real.pi) hw' (by linarith) (by linarith)
      rw [Real.cos_sub_two_pi, Real.sin_sub_two_pi] at this
      rw [this, if_pos (by linarith)]
      ring
  have hi' : ¬ (if Real.cos n < 0 then 2 * Real.pi - i else i) = 0 := by
    split <;> linarith
  simp only [inclinationAndNode, hcl, abs_real, ltb_real, eqb_real, lit_real, Rat.cast_one, Rat.cast_zero,
    habs, if_true, hy, acos_real, Real.arccos_cos hi0.le hi1.le, atan2_real, twoPi_real, hnode, hi',
    if_false]

/-- The quantities of an elliptic state that the code computes. -/
structure EllipseFacts (gm a e i g n bigE : ℝ) (r v : Axes ℝ) : Prop where
  pos : 0 < 1 - e * Real.cos bigE
  rr : r.dot r = (a * (1 - e * Real.cos bigE)) ^ 2
  vv : v.dot v = gm / a * ((1 + e * Real.cos bigE) / (1 - e * Real.cos bigE))
  rv : r.dot v = Real.sqrt (gm * a) * e * Real.sin bigE
  h : r.cross v = Real.sqrt (gm * (a * (1 - e) * (1 + e))) • normal i g n
  ecc : lrl gm r v = e • perihelionDirection i g n

theorem ellipseFacts {gm a e : ℝ} (i g n bigE : ℝ) (hgm : 0 < gm) (ha : 0 < a) (he0 : 0 ≤ e)
    (he1 : e < 1) :
    EllipseFacts gm a e i g n bigE (ellipsePosition a e i g n bigE)
      (ellipseVelocity gm a e i g n bigE) := by
  have hR : Real.sqrt (1 - e ^ 2) ^ 2 = 1 - e ^ 2 := Real.sq_sqrt (by nlinarith)
  have hK : Real.sqrt (gm / a) ^ 2 = gm / a := Real.sq_sqrt (by positivity)
  have hsc := Real.sin_sq_add_cos_sq bigE
  have hd : 0 < 1 - e * Real.cos bigE := by nlinarith [Real.cos_le_one bigE, Real.neg_one_le_cos bigE]
  have ev : ellipseVelocity gm a e i g n bigE =
      (-Real.sin bigE * (Real.sqrt (gm / a) / (1 - e * Real.cos bigE))) • perihelionDirection i g n +
      (Real.sqrt (1 - e ^ 2) * Real.cos bigE * (Real.sqrt (gm / a) / (1 - e * Real.cos bigE))) •
        transverseDirection i g n := by
    rw [ellipseVelocity]; module
  have orb := ellipse_onOrbit (gm := gm) (a := a) (e := e) (se := Real.sin bigE) (ce := Real.cos bigE)
    i g n hgm ha he0 he1 hsc (ellipsePosition a e i g n bigE) (ellipseVelocity gm a e i g n bigE)
    (by rw [ellipsePosition, pow_two]) (by rw [ev, pow_two])
  refine ⟨hd, ?_, ?_, ?_, orb.momentum, orb.lrl_eq⟩
  · rw [ellipsePosition, plane_dot _ _ (PP i g n) (QQ i g n) (PQ i g n)]
    linear_combination a ^ 2 * Real.sin bigE ^ 2 * hR + a ^ 2 * (1 - e ^ 2) * hsc
  · rw [ev, plane_dot _ _ (PP i g n) (QQ i g n) (PQ i g n)]
    have e1 : -Real.sin bigE * (Real.sqrt (gm / a) / (1 - e * Real.cos bigE)) *
        (-Real.sin bigE * (Real.sqrt (gm / a) / (1 - e * Real.cos bigE))) +
        Real.sqrt (1 - e ^ 2) * Real.cos bigE * (Real.sqrt (gm / a) / (1 - e * Real.cos bigE)) *
        (Real.sqrt (1 - e ^ 2) * Real.cos bigE * (Real.sqrt (gm / a) / (1 - e * Real.cos bigE))) =
        Real.sqrt (gm / a) ^ 2 * (Real.sin bigE ^ 2 + Real.sqrt (1 - e ^ 2) ^ 2 * Real.cos bigE ^ 2) /
          (1 - e * Real.cos bigE) ^ 2 := by
      generalize 1 - e * Real.cos bigE = D
      ring
    have e2 : Real.sin bigE ^ 2 + (1 - e ^ 2) * Real.cos bigE ^ 2 =
        (1 + e * Real.cos bigE) * (1 - e * Real.cos bigE) := by linear_combination hsc
    rw [e1, hK, hR, e2]
    have hdn := hd.ne'
    generalize 1 - e * Real.cos bigE = D at hdn
    field_simp
  · rw [ellipsePosition, ev, plane_dot _ _ (PP i g n) (QQ i g n) (PQ i g n)]
    have hga : Real.sqrt (gm * a) = a * Real.sqrt (gm / a) := by
      symm
      apply sqrt_eq_of (by positivity)
      rw [mul_pow, hK]; field_simp
    rw [hga]
    have e1 : a * (Real.cos bigE - e) * (-Real.sin bigE * (Real.sqrt (gm / a) / (1 - e * Real.cos bigE))) +
        a * Real.sqrt (1 - e ^ 2) * Real.sin bigE *
          (Real.sqrt (1 - e ^ 2) * Real.cos bigE * (Real.sqrt (gm / a) / (1 - e * Real.cos bigE))) =
        a * Real.sqrt (gm / a) * Real.sin bigE *
          (-(Real.cos bigE - e) + Real.sqrt (1 - e ^ 2) ^ 2 * Real.cos bigE) / (1 - e * Real.cos bigE) := by
      ring
    have e2 : -(Real.cos bigE - e) + (1 - e ^ 2) * Real.cos bigE = e * (1 - e * Real.cos bigE) := by ring
    rw [e1, hR, e2]
    have hdn := hd.ne'
    generalize 1 - e * Real.cos bigE = D at hdn
    field_simp

/-- tools.rs 233-238, exact reading. -/
noncomputable def reduceM (m : ℝ) : ℝ :=
  let m := if m < 0 then m + 2 * Real.pi else m
  if 2 * Real.pi < m then modulus m (2 * Real.pi) else m

/-- What the code computes for an elliptic state, in terms of the true elements. -/
theorem elements_of_facts {gm a e i g n bigE : ℝ} (hgm : 0 < gm) (ha : 0 < a) (he0 : 0 ≤ e) (he1 : e < 1)
    (hi0 : 0 < i) (hi1 : i < Real.pi) (hn0 : 0 ≤ n) (hn1 : n < 2 * Real.pi)
    (r v : Axes ℝ) (f : EllipseFacts gm a e i g n bigE r v) (ecc inc ta : ℝ)
    (hecc : ecc = if e < 3 / 100000000 then 0 else e)
    (hinc : inc = if Real.cos n < 0 then 2 * Real.pi - i else i)
    (hta : ta = if ecc = 0 then Real.arccos (clamp ((r.x * Real.cos n + r.y * Real.sin n) /
        (a * (1 - e * Real.cos bigE))) (-1) 1)
      else if Real.sqrt (gm * a) * e * Real.sin bigE < 0 then 2 * Real.pi -
        Real.arccos (clamp ((e * (perihelionDirection i g n).dot r) /
          (ecc * (a * (1 - e * Real.cos bigE)))) (-1) 1)
      else Real.arccos (clamp ((e * (perihelionDirection i g n).dot r) /
          (ecc * (a * (1 - e * Real.cos bigE)))) (-1) 1)) :
    keplerianElements gm r v =
      { semiMajorAxis := a
        perihelionDistance := a * (1 - e)
        eccentricity := ecc
        inclination := inc
        longitudeOfPerihelion := (if ecc = 0 then 0 else
          Complex.arg ⟨e * Real.cos g,
            e * (Real.sin g * (Real.cos i * Real.cos inc + Real.sin i * Real.sin inc))⟩) + n
        longitudeOfAscendingNode := n
        meanAnomaly := reduceM (meanAnomaly ecc ta (a * (1 - e * Real.cos bigE)) a
          (Real.sqrt (gm * a) * e * Real.sin bigE))
        orbitalPeriod := 2 * Real.pi / Real.sqrt gm * a ^ ((3 : ℝ) / 2) } := by
  obtain ⟨hD, rr, vv, rv, hh, hev⟩ := f
  set w := Real.sqrt (gm * (a * (1 - e) * (1 + e))) with hw
  have hq : 0 < a * (1 - e) := mul_pos ha (by linarith)
  have hw0 : 0 < w := Real.sqrt_pos.mpr (by positivity)
  have hw2 : w * w = gm * (a * (1 - e) * (1 + e)) := Real.mul_self_sqrt (by positivity)
  set D := 1 - e * Real.cos bigE with hDdef
  have hx : r.y * v.z - r.z * v.y = w * (Real.sin i * Real.sin n) := by
    have := congrArg Axes.x hh; rw [normal_eq] at this; simpa using this
  have hy : r.z * v.x - r.x * v.z = w * -(Real.sin i * Real.cos n) := by
    have := congrArg Axes.y hh; rw [normal_eq] at this; simpa using this
  have hz : r.x * v.y - r.y * v.x = w * Real.cos i := by
    have := congrArg Axes.z hh; rw [normal_eq] at this; simpa using this
  have hh2 : w * (Real.sin i * Real.sin n) * (w * (Real.sin i * Real.sin n)) +
      w * -(Real.sin i * Real.cos n) * (w * -(Real.sin i * Real.cos n)) +
      w * Real.cos i * (w * Real.cos i) = w * w := by
    linear_combination w ^ 2 * Real.sin i ^ 2 * Real.sin_sq_add_cos_sq n +
      w ^ 2 * Real.sin_sq_add_cos_sq i
  have hr2 : r.x * r.x + r.y * r.y + r.z * r.z = (a * D) ^ 2 := rr
  have hv2 : v.x * v.x + v.y * v.y + v.z * v.z = gm / a * ((1 + e * Real.cos bigE) / D) := vv
  have hrv : r.x * v.x + r.y * v.y + r.z * v.z = Real.sqrt (gm * a) * e * Real.sin bigE := rv
  have haD : 0 < a * D := by positivity
  have hsqr : Real.sqrt ((a * D) ^ 2) = a * D := Real.sqrt_sq haD.le
  have hsqw : Real.sqrt (w * w) = w := Real.sqrt_mul_self hw0.le
  have hsgm : w * w / gm = a * (1 - e) * (1 + e) := by rw [hw2]; field_simp
  have hec : e * Real.cos bigE = 1 - D := by rw [hDdef]; ring
  have htemp : 1 + a * (1 - e) * (1 + e) * (gm / a * ((1 + e * Real.cos bigE) / D) / gm - 2 / (a * D)) =
      e * e := by
    rw [hec]; field_simp; ring
  have hsqe : (if e * e ≤ 0 then 0 else Real.sqrt (e * e)) = e := by
    split
    · have : e * e = 0 := le_antisymm ‹_› (mul_self_nonneg e)
      rw [mul_self_eq_zero.mp this]
    · exact Real.sqrt_mul_self he0
  have ha' : gm * (a * D) / (2 * gm - a * D * (gm / a * ((1 + e * Real.cos bigE) / D))) = a := by
    rw [hec]
    have : 2 * gm - a * D * (gm / a * ((1 + (1 - D)) / D)) = gm * D := by field_simp; ring
    rw [this]; field_simp
  have hq' : a * (1 - e) * (1 + e) / (1 + e) = a * (1 - e) := by
    have : 1 + e ≠ 0 := by linarith
    field_simp
  have hex : e * (perihelionDirection i g n).x * Real.cos n + e * (perihelionDirection i g n).y * Real.sin n =
      e * Real.cos g := by
    rw [perihelion_eq]; simp only
    linear_combination e * Real.cos g * Real.sin_sq_add_cos_sq n
  have hey : (-(e * (perihelionDirection i g n).x) * Real.sin n +
        e * (perihelionDirection i g n).y * Real.cos n) * Real.cos inc +
        e * (perihelionDirection i g n).z * Real.sin inc =
      e * (Real.sin g * (Real.cos i * Real.cos inc + Real.sin i * Real.sin inc)) := by
    rw [perihelion_eq]; simp only
    linear_combination e * Real.sin g * Real.cos i * Real.cos inc * Real.sin_sq_add_cos_sq n
  have her : e * (perihelionDirection i g n).x * r.x + e * (perihelionDirection i g n).y * r.y +
      e * (perihelionDirection i g n).z * r.z = e * (perihelionDirection i g n).dot r := by
    simp [Axes.dot]; ring
  have hlit : ((3 / 100000000 : ℚ) : ℝ) = 3 / 100000000 := by norm_num
  have hincn := inclinationAndNode_real hw0 hi0 hi1 hn0 hn1
  rw [← hinc] at hincn
  simp only [keplerianElements, eccentricityVector_real, hev, hx, hy, hz, hh2, hr2, hv2, hrv, sqrt_real,
    hsqr, hsqw, hsgm, lit_real, Rat.cast_one, Rat.cast_zero, Rat.cast_ofNat, htemp, leb_real, hsqe, ha',
    hq', hincn, ltb_real, eqb_real, Axes.smul_x, Axes.smul_y, Axes.smul_z, hlit, ← hecc, cos_real,
    sin_real, atan2_real, acos_real, hex, hey, her, twoPi_real, powf_real, ← hta, reduceM]

theorem reduceM_id {m : ℝ} (h0 : 0 ≤ m) (h1 : m ≤ 2 * Real.pi) : reduceM m = m := by
  simp [reduceM, not_lt.mpr h0, not_lt.mpr h1]

/-- The mean anomaly of an ellipse. -/
theorem meanAnomaly_ellipse {gm a e bigE ta : ℝ} (hgm : 0 < gm) (ha : 0 < a) (he0 : 0 < e) (he1 : e < 1)
    (h0 : 0 ≤ bigE) (h1 : bigE < 2 * Real.pi) :
    meanAnomaly e ta (a * (1 - e * Real.cos bigE)) a (Real.sqrt (gm * a) * e * Real.sin bigE) =
      bigE - e * Real.sin bigE := by
  have hcos : 1 / e * (1 - a * (1 - e * Real.cos bigE) / a) = Real.cos bigE := by field_simp; ring
  have hcl : clamp (1 / e * (1 - a * (1 - e * Real.cos bigE) / a)) (-1) 1 = Real.cos bigE := by
    rw [hcos]; exact clamp_id (Real.neg_one_le_cos _) (Real.cos_le_one _)
  have hk : 0 < Real.sqrt (gm * a) * e := mul_pos (Real.sqrt_pos.mpr (by positivity)) he0
  have hs : (Real.sqrt (gm * a) * e * Real.sin bigE < 0) ↔ Real.sin bigE < 0 := by
    constructor
    · intro h; by_contra hc
      have := mul_nonneg hk.le (not_lt.mp hc); linarith
    · intro h; exact mul_neg_of_pos_of_neg hk h
  simp only [meanAnomaly, eqb_real, ltb_real, lit_real, Rat.cast_zero, Rat.cast_one, he0.ne', if_false, he1,
    if_true, hcl, acos_real, sin_real, twoPi_real, hs]
  rcases le_or_gt bigE Real.pi with h | h
  · have : ¬ Real.sin bigE < 0 := not_lt.mpr (Real.sin_nonneg_of_nonneg_of_le_pi h0 h)
    rw [if_neg this, Real.arccos_cos h0 h]
  · have hneg : Real.sin bigE < 0 := by
      have := Real.sin_pos_of_pos_of_lt_pi (x := bigE - Real.pi) (by linarith) (by linarith)
      rw [Real.sin_sub_pi] at this
      linarith
    have harc : Real.arccos (Real.cos bigE) = 2 * Real.pi - bigE := by
      have : Real.cos bigE = Real.cos (2 * Real.pi - bigE) := by rw [Real.cos_two_pi_sub]
      rw [this, Real.arccos_cos (by linarith) (by linarith)]
    rw [if_pos hneg, harc]
    have : 2 * Real.pi - (2 * Real.pi - bigE) = bigE := by ring
    rw [this]

/-- **C57, what holds** (missing: nodes in the half plane `cos n < 0`, nearly circular orbits): every element
is recovered, for every ellipse with eccentricity at least 3·10⁻⁸. -/
theorem C57_partial (gm a e i g n bigE : ℝ) (hgm : 0 < gm) (ha : 0 < a) (he0 : 3 / 100000000 ≤ e) (he1 : e < 1)
    (hi0 : 0 < i) (hi1 : i < Real.pi) (hg0 : -Real.pi < g) (hg1 : g ≤ Real.pi) (hn0 : 0 ≤ n)
    (hn1 : n < 2 * Real.pi) (hn : 0 ≤ Real.cos n) (hE0 : 0 ≤ bigE) (hE1 : bigE < 2 * Real.pi) :
    keplerianElements gm (ellipsePosition a e i g n bigE) (ellipseVelocity gm a e i g n bigE) =
      { semiMajorAxis := a
        perihelionDistance := a * (1 - e)
        eccentricity := e
        inclination := i
        longitudeOfPerihelion := g + n
        longitudeOfAscendingNode := n
        meanAnomaly := bigE - e * Real.sin bigE
        orbitalPeriod := 2 * Real.pi * Real.sqrt (a ^ 3 / gm) } := by
  have hepos : 0 < e := by linarith
  have hA : 0 ≤ bigE - e * Real.sin bigE := by
    rcases le_or_gt 0 (Real.sin bigE) with h | h
    · have := Real.sin_le hE0; nlinarith
    · nlinarith
  have hB : bigE - e * Real.sin bigE ≤ 2 * Real.pi := by
    have hs : Real.sin bigE = -Real.sin (2 * Real.pi - bigE) := by rw [Real.sin_two_pi_sub]; ring
    have := Real.sin_le (x := 2 * Real.pi - bigE) (by linarith)
    rcases le_or_gt 0 (Real.sin bigE) with h | h
    · nlinarith
    · nlinarith
  rw [elements_of_facts hgm ha hepos.le he1 hi0 hi1 hn0 hn1 _ _
    (ellipseFacts i g n bigE hgm ha hepos.le he1) e i _ (by rw [if_neg (by linarith)])
    (by rw [if_neg (by linarith)]) rfl]
  have harg : Complex.arg ⟨e * Real.cos g,
      e * (Real.sin g * (Real.cos i * Real.cos i + Real.sin i * Real.sin i))⟩ = g := by
    have : Real.cos i * Real.cos i + Real.sin i * Real.sin i = 1 := by
      linear_combination Real.sin_sq_add_cos_sq i
    rw [this, mul_one]
    exact arg_polar hepos hg0 hg1
  have hT : 2 * Real.pi / Real.sqrt gm * a ^ ((3 : ℝ) / 2) = 2 * Real.pi * Real.sqrt (a ^ 3 / gm) := by
    rw [Real.sqrt_div (by positivity), show a ^ ((3 : ℝ) / 2) = Real.sqrt (a ^ 3) by
      rw [Real.sqrt_eq_rpow, ← Real.rpow_natCast, ← Real.rpow_mul ha.le]; norm_num]
    ring
  simp only [hepos.ne', if_false, harg, meanAnomaly_ellipse hgm ha hepos he1 hE0 hE1, reduceM_id hA hB, hT]

/-- **C57 is violated**: for every ellipse whose node lies in the half plane `cos n < 0` the inclination
returned is `2π - i`, which is not the inclination (nor in `[0, π]`). -/
theorem C57_violated_inclination (gm a e i g n bigE : ℝ) (hgm : 0 < gm) (ha : 0 < a) (he0 : 0 ≤ e)
    (he1 : e < 1) (hi0 : 0 < i) (hi1 : i < Real.pi) (hn0 : 0 ≤ n)
    (hn1 : n < 2 * Real.pi) (hn : Real.cos n < 0) :
    (keplerianElements gm (ellipsePosition a e i g n bigE)
      (ellipseVelocity gm a e i g n bigE)).inclination = 2 * Real.pi - i ∧
    (keplerianElements gm (ellipsePosition a e i g n bigE)
      (ellipseVelocity gm a e i g n bigE)).inclination ≠ i ∧
    Real.pi < (keplerianElements gm (ellipsePosition a e i g n bigE)
      (ellipseVelocity gm a e i g n bigE)).inclination := by
  rw [elements_of_facts hgm ha he0 he1 hi0 hi1 hn0 hn1 _ _
    (ellipseFacts i g n bigE hgm ha he0 he1) _ (2 * Real.pi - i) _ rfl
    (by rw [if_pos hn]) rfl]
  refine ⟨rfl, ?_, ?_⟩
  · simp only; intro h; linarith
  · simp only; linarith

/-- **C57 is violated** for circular orbits: past half a turn from the node the mean anomaly is reflected. -/
theorem C57_violated_circular (gm a i n m : ℝ) (hgm : 0 < gm) (ha : 0 < a)
    (hi0 : 0 < i) (hi1 : i < Real.pi) (hn0 : 0 ≤ n) (hn1 : n < 2 * Real.pi) (hm0 : Real.pi < m)
    (hm1 : m < 2 * Real.pi) :
    (keplerianElements gm (ellipsePosition a 0 i 0 n m) (ellipseVelocity gm a 0 i 0 n m)).meanAnomaly =
      2 * Real.pi - m ∧
    (keplerianElements gm (ellipsePosition a 0 i 0 n m) (ellipseVelocity gm a 0 i 0 n m)).meanAnomaly ≠ m := by
  have hval : (keplerianElements gm (ellipsePosition a 0 i 0 n m)
      (ellipseVelocity gm a 0 i 0 n m)).meanAnomaly = 2 * Real.pi - m := by
    rw [elements_of_facts hgm ha le_rfl (by norm_num) hi0 hi1 hn0 hn1 _ _
      (ellipseFacts i 0 n m hgm ha le_rfl (by norm_num)) 0 _ _ (by norm_num) rfl rfl]
    have hx : (ellipsePosition a 0 i 0 n m).x * Real.cos n + (ellipsePosition a 0 i 0 n m).y * Real.sin n =
        a * Real.cos m := by
      rw [ellipsePosition, perihelion_eq, transverse_eq]
      simp
      linear_combination a * Real.cos m * Real.sin_sq_add_cos_sq n
    have hdiv : a * Real.cos m / (a * (1 - 0 * Real.cos m)) = Real.cos m := by
      rw [zero_mul, sub_zero, mul_one]; field_simp
    have harc : Real.arccos (Real.cos m) = 2 * Real.pi - m := by
      have : Real.cos m = Real.cos (2 * Real.pi - m) := by rw [Real.cos_two_pi_sub]
      rw [this, Real.arccos_cos (by linarith) (by linarith)]
    have hme : ∀ t r' v' : ℝ, meanAnomaly 0 t r' a v' = t := by
      intro t r' v'
      simp [meanAnomaly]
    simp only [hx, hdiv, clamp_id (Real.neg_one_le_cos m) (Real.cos_le_one m), harc, if_true, hme]
    exact reduceM_id (by linarith) (by linarith [Real.pi_pos])
  refine ⟨hval, ?_⟩
  rw [hval]; intro h; linarith

/-- C57_partial applies: a = 1, e = 1/2, i = 1, ω = 1, Ω = 1/2, E = 4. -/
example : (keplerianElements (1 : ℝ) (ellipsePosition 1 (1 / 2) 1 1 (1 / 2) 4)
    (ellipseVelocity 1 1 (1 / 2) 1 1 (1 / 2) 4)).inclination = 1 := by
  have hpi := Real.pi_gt_d2
  rw [C57_partial 1 1 (1 / 2) 1 1 (1 / 2) 4 (by norm_num) (by norm_num) (by norm_num) (by norm_num)
    (by norm_num) (by linarith) (by linarith) (by linarith) (by norm_num) (by linarith)
    (Real.cos_nonneg_of_neg_pi_div_two_le_of_le (by linarith) (by linarith)) (by norm_num) (by linarith)]

/-- Node at 180 degrees, inclination 1: the code returns 2π - 1. -/
example : (keplerianElements (1 : ℝ) (ellipsePosition 1 0 1 0 Real.pi 4)
    (ellipseVelocity 1 1 0 1 0 Real.pi 4)).inclination = 2 * Real.pi - 1 :=
  (C57_violated_inclination 1 1 0 1 0 Real.pi 4 (by norm_num) (by norm_num) le_rfl (by norm_num)
    (by norm_num) (by linarith [Real.pi_gt_d2]) Real.pi_pos.le (by linarith [Real.pi_pos]) (by simp)).1

/-! ## C58: initial spin -/

/-- **C58**: the spin has the requested rate, lies in the plane that contains the normal of the orbit and the
z axis, and makes the requested angle (obliquity) with the orbit. -/
theorem C58_spin (w i o n : ℝ) :
    len (spinVector w i o n) = |w| ∧
    (spinVector w i o n).dot (normal i 0 n) = w * Real.cos o ∧
    spinVector w i o n = w • normal (o + i) 0 n := by
  have h3 : spinVector w i o n = w • normal (o + i) 0 n := by
    rw [normal_eq]
    ext <;> simp [spinVector] <;> ring
  refine ⟨?_, ?_, h3⟩
  · rw [h3, len, Axes.dot_smul, Axes.smul_dot, NN, mul_one, ← Real.sqrt_sq_eq_abs, pow_two]
  · rw [h3, Axes.smul_dot, normal_eq, normal_eq]
    have : Real.cos o = Real.cos (o + i) * Real.cos i + Real.sin (o + i) * Real.sin i := by
      rw [← Real.cos_sub]; congr 1; ring
    rw [this]
    simp only [Axes.dot]
    linear_combination w * Real.sin (o + i) * Real.sin i * Real.sin_sq_add_cos_sq n

/-- Vector form of the code's inclination of the orbit with respect to the equator. -/
theorem inclinationOrbitalEquatorial_real (r v s : Axes ℝ) (hh : 0 < len (r.cross v)) :
    inclinationOrbitalEquatorial r v s =
      Real.arccos (clamp ((r.cross v).dot s / (len (r.cross v) * len s)) (-1) 1) := by
  set h := r.cross v with hdef
  have hx : r.y * v.z - r.z * v.y = h.x := rfl
  have hy : r.z * v.x - r.x * v.z = h.y := rfl
  have hz : r.x * v.y - r.y * v.x = h.z := rfl
  have hl : Real.sqrt (h.x * h.x + h.y * h.y + h.z * h.z) = len h := rfl
  have hs : Real.sqrt (s.x * s.x + s.y * s.y + s.z * s.z) = len s := rfl
  have hsq : h.x * h.x + h.y * h.y + h.z * h.z = len h * len h :=
    (Real.mul_self_sqrt (Axes.dot_self_nonneg h)).symm
  have hrel : h.x / len h * (h.x / len h) + h.y / len h * (h.y / len h) + h.z / len h * (h.z / len h) = 1 := by
    field_simp
    linarith
  simp only [inclinationOrbitalEquatorial, hx, hy, hz, sqrt_real, hl, hs, hrel, Real.sqrt_one, one_mul,
    lit_real, Rat.cast_one, acos_real]
  congr 2
  simp only [Axes.dot]
  have := hh.ne'
  field_simp

/-- **C58, composition**: for a body started from elements (any conic) with a positive spin rate and an
obliquity in `[0, π]`, the angle between orbit and equator computed by the code is the obliquity. -/
theorem C58_obliquity (gm q e i p n l w o : ℝ) (hgm : 0 < gm) (hq : 0 < q) (he : 0 ≤ e) (hw : 0 < w)
    (ho0 : 0 ≤ o) (ho1 : o ≤ Real.pi) :
    inclinationOrbitalEquatorial (cartesian gm q e i p n l).1 (cartesian gm q e i p n l).2
      (spinVector w i o n) = o := by
  have orb := (C56_on_requested_orbit gm q e i p n l hgm hq he).momentum
  set k := Real.sqrt (gm * (q * (1 + e)))
  have hk : 0 < k := Real.sqrt_pos.mpr (by positivity)
  have hlen : len ((cartesian gm q e i p n l).1.cross (cartesian gm q e i p n l).2) = k := by
    rw [orb, len, Axes.dot_smul, Axes.smul_dot, NN, mul_one, Real.sqrt_mul_self hk.le]
  obtain ⟨s1, s2, _⟩ := C58_spin w i o n
  rw [inclinationOrbitalEquatorial_real _ _ _ (by rw [hlen]; exact hk), hlen, orb, s1, abs_of_pos hw,
    Axes.smul_dot, Axes.dot_comm]
  have hN : normal i (p - n) n = normal i 0 n := by rw [normal_eq, normal_eq]
  rw [hN, s2]
  have : k * (w * Real.cos o) / (k * w) = Real.cos o := by field_simp
  rw [this, clamp_id (Real.neg_one_le_cos o) (Real.cos_le_one o), Real.arccos_cos ho0 ho1]

example : inclinationOrbitalEquatorial (cartesian (1 : ℝ) 1 0.1 0.2 0.3 0.4 0.5).1
    (cartesian (1 : ℝ) 1 0.1 0.2 0.3 0.4 0.5).2 (spinVector 7 0.2 0.25 0.4) = 0.25 :=
  C58_obliquity 1 1 0.1 0.2 0.3 0.4 0.5 7 0.25 (by norm_num) (by norm_num) (by norm_num) (by norm_num)
    (by norm_num) (by linarith [Real.pi_gt_d2])

/-! ## C59: pseudo-synchronization -/

/-- **C59**: a pseudo-synchronous body rotates at least as fast as it orbits (period in days not longer than
the orbital period), and exactly as fast if the orbit is circular. -/
theorem C59_pseudo_synchronization (g msun au hour a e m1 m2 : ℝ) (hg : 0 < g) (hms : 0 < msun) (hau : 0 < au)
    (hh : 0 < hour) (ha : 0 < a) (he0 : 0 ≤ e) (he1 : e < 1) (hm : 0 < m1 + m2) :
    0 < pseudoSynchronizationPeriod g msun au hour a e m1 m2 ∧
    pseudoSynchronizationPeriod g msun au hour a e m1 m2 * (24 * hour) ≤
      2 * Real.pi * Real.sqrt ((a * au) ^ 3 / (g * (msun * (m1 + m2)))) ∧
    pseudoSynchronizationPeriod g msun au hour a 0 m1 m2 * (24 * hour) =
      2 * Real.pi * Real.sqrt ((a * au) ^ 3 / (g * (msun * (m1 + m2)))) := by
  set B := (a * au) ^ ((3 : ℝ) / 2) with hB
  have hA : 0 < a * au := by positivity
  have hBpos : 0 < B := Real.rpow_pos_of_pos hA _
  set K := Real.sqrt (g * msun * (m1 + m2)) with hK
  have hKpos : 0 < K := Real.sqrt_pos.mpr (by positivity)
  have hinv : (a * au) ^ (-(3 : ℝ) / 2) = B⁻¹ := by
    rw [show (-(3 : ℝ) / 2) = -((3 : ℝ) / 2) by ring, Real.rpow_neg hA.le]
  have hroot : Real.sqrt ((a * au) ^ 3 / (g * (msun * (m1 + m2)))) = B / K := by
    rw [Real.sqrt_div (by positivity), ← mul_assoc, ← hK]
    congr 1
    rw [hB, Real.sqrt_eq_rpow, ← Real.rpow_natCast, ← Real.rpow_mul hA.le]; norm_num
  have form : ∀ e : ℝ, pseudoSynchronizationPeriod g msun au hour a e m1 m2 = 2 * Real.pi /
      (((1 + 15 / 2 * (e * e) + 45 / 8 * (e * e * (e * e)) + 5 / 16 * (e * e * (e * e) * (e * e))) /
        (1 + 3 * (e * e) + 3 / 8 * (e * e * (e * e))) / (1 - e * e) ^ (1.5 : ℝ)) * K * B⁻¹ * hour * 24) := by
    intro e
    have h15 : ((1.5 : ℚ) : ℝ) = 1.5 := by norm_num
    simp only [pseudoSynchronizationPeriod, twoPi_real, lit_real, powf_real, sqrt_real, Rat.cast_one,
      Rat.cast_ofNat, h15, mul_one, hinv, ← hK]
  have hpi := Real.pi_pos
  have alpha : ∀ e : ℝ, 0 ≤ e → e < 1 →
      1 ≤ (1 + 15 / 2 * (e * e) + 45 / 8 * (e * e * (e * e)) + 5 / 16 * (e * e * (e * e) * (e * e))) /
        (1 + 3 * (e * e) + 3 / 8 * (e * e * (e * e))) / (1 - e * e) ^ (1.5 : ℝ) := by
    intro e h0 h1
    have hy : 0 ≤ e * e := mul_self_nonneg e
    have hy1 : e * e < 1 := by nlinarith
    have hp : 0 < (1 - e * e) ^ (1.5 : ℝ) := Real.rpow_pos_of_pos (by linarith) _
    have hp1 : (1 - e * e) ^ (1.5 : ℝ) ≤ 1 := Real.rpow_le_one (by linarith) (by linarith) (by norm_num)
    have hden : 0 < 1 + 3 * (e * e) + 3 / 8 * (e * e * (e * e)) := by positivity
    rw [le_div_iff₀ hp, one_mul]
    refine hp1.trans ?_
    rw [le_div_iff₀ hden, one_mul]
    have : 0 ≤ e * e * (e * e) := by positivity
    have : 0 ≤ e * e * (e * e) * (e * e) := by positivity
    linarith
  rw [hroot]
  have main : ∀ A : ℝ, 1 ≤ A → 0 < 2 * Real.pi / (A * K * B⁻¹ * hour * 24) ∧
      2 * Real.pi / (A * K * B⁻¹ * hour * 24) * (24 * hour) ≤ 2 * Real.pi * (B / K) ∧
      (A = 1 → 2 * Real.pi / (A * K * B⁻¹ * hour * 24) * (24 * hour) = 2 * Real.pi * (B / K)) := by
    intro A hA1
    have hA0 : 0 < A := by linarith
    have e1 : 2 * Real.pi / (A * K * B⁻¹ * hour * 24) * (24 * hour) = 2 * Real.pi * (B / K) / A := by
      field_simp
    refine ⟨by positivity, ?_, ?_⟩
    · rw [e1]
      exact div_le_self (by positivity) hA1
    · intro h; rw [e1, h, div_one]
  have a1 := alpha e he0 he1
  refine ⟨?_, ?_, ?_⟩
  · rw [form]; exact (main _ a1).1
  · rw [form]; exact (main _ a1).2.1
  · rw [form]
    apply (main _ (alpha 0 le_rfl (by norm_num))).2.2
    norm_num

example : 0 < pseudoSynchronizationPeriod (1 : ℝ) 1 1 1 1 (1 / 2) 1 1 :=
  (C59_pseudo_synchronization 1 1 1 1 1 (1 / 2) 1 1 (by norm_num) (by norm_num) (by norm_num) (by norm_num)
    (by norm_num) (by norm_num) (by norm_num) (by norm_num)).1

end Posidonius.Tools
