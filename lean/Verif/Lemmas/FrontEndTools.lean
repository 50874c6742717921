import Verif.Model.FrontEndTools
import Verif.Props.Orbits

/-! # What the front end computes for a state on an ellipse or hyperbola -/

namespace Posidonius.Tools
open Posidonius.Kepler

/-- `x` is the angle `y`, reduced to `[0, 2π)`. -/
def SameAngle (x y : ℝ) : Prop := 0 ≤ x ∧ x < 2 * Real.pi ∧ ∃ k : ℤ, x = y + k * (2 * Real.pi)

theorem SameAngle.congr {x y z : ℝ} (h : SameAngle x y) (hz : ∃ k : ℤ, y = z + k * (2 * Real.pi)) : SameAngle x z := by
  obtain ⟨h0, h1, k, rfl⟩ := h
  obtain ⟨m, rfl⟩ := hz
  exact ⟨h0, h1, k + m, by push_cast; ring⟩

theorem py_turn (x : ℝ) : SameAngle (Py.turn x) x := by
  obtain ⟨h0, h1, k, h⟩ := C31_modulus (x + 2 * Real.pi + 2 * Real.pi) (2 * Real.pi) (by linarith [Real.pi_pos])
  simp only [Py.turn, twoPi_real]
  refine ⟨h0, h1, 2 - k, ?_⟩
  push_cast
  linarith

theorem SameAngle.cos {x y : ℝ} (h : SameAngle x y) : Real.cos x = Real.cos y := by
  obtain ⟨-, -, k, rfl⟩ := h
  exact Real.cos_add_int_mul_two_pi y k

theorem SameAngle.sin {x y : ℝ} (h : SameAngle x y) : Real.sin x = Real.sin y := by
  obtain ⟨-, -, k, rfl⟩ := h
  exact Real.sin_add_int_mul_two_pi y k

/-- The argument of a point at any angle is the angle, up to whole turns. -/
theorem arg_turns {w : ℝ} (hw : 0 < w) (t : ℝ) : ∃ k : ℤ, Complex.arg ⟨w * Real.cos t, w * Real.sin t⟩ = t + k * (2 * Real.pi) := by
  have hpi := Real.two_pi_pos
  have h1 := toIocMod_mem_Ioc hpi (-Real.pi) t
  have h2 := toIocMod_add_toIocDiv_zsmul hpi (-Real.pi) t
  rw [zsmul_eq_mul] at h2
  refine ⟨-toIocDiv hpi (-Real.pi) t, ?_⟩
  have h3 := arg_polar hw h1.1 (by linarith [h1.2])
  have h4 : toIocMod hpi (-Real.pi) t = t + ((-toIocDiv hpi (-Real.pi) t : ℤ) : ℝ) * (2 * Real.pi) := by
    push_cast
    linarith
  rw [h4, Real.cos_add_int_mul_two_pi, Real.sin_add_int_mul_two_pi] at h3
  exact h3

/-- Every angle is that of a value between 0 and 2π. -/
theorem exists_turn (x : ℝ) : ∃ y, SameAngle y x := ⟨_, py_turn x⟩

/-- Inclination and node of an inclined orbit. -/
theorem py_inclinationAndNode {w i n : ℝ} (hw : 0 < w) (hi0 : 0 < i) (hi1 : i < Real.pi) (hn0 : 0 ≤ n)
    (hn1 : n < 2 * Real.pi) :
    Py.inclinationAndNode (w * (Real.sin i * Real.sin n)) (w * -(Real.sin i * Real.cos n)) (Real.cos i) = (i, n) := by
  have h := inclinationAndNode_real hw hi0 hi1 hn0 hn1
  have hsi : 0 < Real.sin i := Real.sin_pos_of_pos_of_lt_pi hi0 hi1
  have habs : |Real.cos i| < 1 := by
    rw [abs_lt]
    have := Real.sin_sq_add_cos_sq i
    constructor <;> nlinarith [Real.neg_one_le_cos i, Real.cos_le_one i]
  have hdiv : w * Real.cos i / w = Real.cos i := by field_simp
  have hcl : clamp (w * Real.cos i / w) (-1) 1 = Real.cos i := by
    rw [hdiv]; exact clamp_id (Real.neg_one_le_cos i) (Real.cos_le_one i)
  simp only [inclinationAndNode, hcl, abs_real, ltb_real, eqb_real, lit_real, Rat.cast_one, Rat.cast_zero,
    habs, if_true, acos_real, Real.arccos_cos hi0.le hi1.le, atan2_real, twoPi_real, Prod.mk.injEq] at h
  simp only [Py.inclinationAndNode, abs_real, ltb_real, lit_real, Rat.cast_one, Rat.cast_zero, habs, if_true, acos_real,
    Real.arccos_cos hi0.le hi1.le, atan2_real, twoPi_real, Prod.mk.injEq, true_and]
  have h2 := h.2
  rw [h.1, if_neg (by split <;> linarith)] at h2
  exact h2

theorem py_eccentricityVector (gm : ℝ) (r v : Axes ℝ) : Py.eccentricityVector gm r v = lrl gm r v := by
  rw [← eccentricityVector_real]
  rfl

/-- The facts about a state that the front end uses, for ellipses and hyperbolas: `d` is the distance. -/
theorem py_elements {gm a e i g n d v2 rv s : ℝ} (hgm : 0 < gm) (hq : 0 < a * (1 - e)) (he0 : 0 ≤ e) (hd : 0 < d)
    (r v : Axes ℝ) (hr : r.dot r = d ^ 2) (hv : v.dot v = v2) (hrv : r.dot v = rv)
    (hv2 : v2 = gm * (2 / d - 1 / a)) (hs : s = a * (1 - e) * (1 + e)) (o : OnOrbit gm (a * (1 - e)) e i g n r v)
    (i' n' : ℝ) (hin : Py.inclinationAndNode (Real.sqrt (gm * s) * (Real.sin i * Real.sin n))
      (Real.sqrt (gm * s) * -(Real.sin i * Real.cos n)) (Real.cos i) = (i', n')) :
    Py.elementsOfOrbit gm r v =
      { semiMajorAxis := a
        perihelionDistance := a * (1 - e)
        eccentricity := e
        inclination := i'
        longitudeOfPerihelion := Py.longitudeOfPerihelion e i' n' (e • perihelionDirection i g n)
        longitudeOfAscendingNode := n'
        meanAnomaly := Py.reduce (Py.meanAnomaly e gm d v2 rv (Py.trueLongitude r.x r.y
          (Real.sqrt (gm * s) * (Real.sin i * Real.sin n)) (Real.sqrt (gm * s) * -(Real.sin i * Real.cos n)) (Real.cos i)))
        trueAnomaly := Py.trueAnomaly e s d rv (Py.reduce (Py.meanAnomaly e gm d v2 rv (Py.trueLongitude r.x r.y
          (Real.sqrt (gm * s) * (Real.sin i * Real.sin n))
          (Real.sqrt (gm * s) * -(Real.sin i * Real.cos n)) (Real.cos i)))) } := by
  have ha : a ≠ 0 := by rintro rfl; simp at hq
  obtain ⟨hev, hh⟩ := o
  have hs0 : 0 < s := by rw [hs]; exact mul_pos hq (by linarith)
  rw [← hs] at hh
  set w := Real.sqrt (gm * s) with hw
  have hw0 : 0 < w := Real.sqrt_pos.mpr (by positivity)
  have hw2 : w * w = gm * s := Real.mul_self_sqrt (by positivity)
  have hx : r.y * v.z - r.z * v.y = w * (Real.sin i * Real.sin n) := by
    have := congrArg Axes.x hh; rw [normal_eq] at this; simpa using this
  have hy : r.z * v.x - r.x * v.z = w * -(Real.sin i * Real.cos n) := by
    have := congrArg Axes.y hh; rw [normal_eq] at this; simpa using this
  have hz : r.x * v.y - r.y * v.x = w * Real.cos i := by
    have := congrArg Axes.z hh; rw [normal_eq] at this; simpa using this
  have hh2 : w * (Real.sin i * Real.sin n) * (w * (Real.sin i * Real.sin n)) +
      w * -(Real.sin i * Real.cos n) * (w * -(Real.sin i * Real.cos n)) +
      w * Real.cos i * (w * Real.cos i) = w * w := by
    linear_combination w ^ 2 * Real.sin i ^ 2 * Real.sin_sq_add_cos_sq n +
      w ^ 2 * Real.sin_sq_add_cos_sq i
  have hr2 : r.x * r.x + r.y * r.y + r.z * r.z = d ^ 2 := hr
  have hv2' : v.x * v.x + v.y * v.y + v.z * v.z = v2 := hv
  have hrv' : r.x * v.x + r.y * v.y + r.z * v.z = rv := hrv
  have hsqr : Real.sqrt (d ^ 2) = d := Real.sqrt_sq hd.le
  have hsqw : Real.sqrt (w * w) = w := Real.sqrt_mul_self hw0.le
  have hsgm : w * w / gm = s := by rw [hw2]; field_simp
  have hci : w * Real.cos i / w = Real.cos i := by field_simp
  have htemp : 1 + s * (v2 / gm - 2 / d) = e * e := by
    rw [hs, hv2]; field_simp; ring
  have hsqe : (if 0 < e * e then Real.sqrt (e * e) else 0) = e := by
    split
    · exact Real.sqrt_mul_self he0
    · have : e * e = 0 := le_antisymm (not_lt.1 ‹_›) (mul_self_nonneg e)
      rw [mul_self_eq_zero.mp this]
  have ha' : gm * d / (2 * gm - d * v2) = a := by
    have : 2 * gm - d * v2 = gm * d / a := by rw [hv2]; field_simp; ring
    rw [this]; field_simp
  have hq' : s / (1 + e) = a * (1 - e) := by
    have : 1 + e ≠ 0 := by linarith
    rw [hs]; field_simp
  simp only [Py.elementsOfOrbit, py_eccentricityVector, hev, hx, hy, hz, hh2, hr2, hv2', hrv', sqrt_real, hsqr, hsqw, hsgm,
    hci, lit_real, Rat.cast_one, Rat.cast_zero, Rat.cast_ofNat, htemp, hsqe, ha', hq', hin, ltb_real]

theorem py_reduce {m : ℝ} (h0 : 0 ≤ m) (h1 : m ≤ 2 * Real.pi) : Py.reduce m = m := by
  simp [Py.reduce, not_lt.mpr h0, not_lt.mpr h1, twoPi_real]

theorem lit_small : ((3 / 100000000 : ℚ) : ℝ) = 3 / 100000000 := by norm_num

theorem abs_cos_le (x : ℝ) : ¬ 1 < |Real.cos x| := not_lt.2 (Real.abs_cos_le_one x)

/-- Mean anomaly of an ellipse, for every eccentric anomaly. -/
theorem py_meanAnomaly {gm a e bigE : ℝ} (hgm : 0 < gm) (ha : 0 < a) (he0 : 3 / 100000000 ≤ e) (he1 : e < 1) (t : ℝ) :
    SameAngle (Py.reduce (Py.meanAnomaly e gm (a * (1 - e * Real.cos bigE))
      (gm * (2 / (a * (1 - e * Real.cos bigE)) - 1 / a)) (Real.sqrt (gm * a) * e * Real.sin bigE) t))
      (bigE - e * Real.sin bigE) := by
  have hepos : 0 < e := by linarith
  obtain ⟨E, h0, h1, k, hk⟩ := exists_turn bigE
  have hsin : Real.sin bigE = Real.sin E := by rw [hk, Real.sin_add_int_mul_two_pi]
  have hcos : Real.cos bigE = Real.cos E := by rw [hk, Real.cos_add_int_mul_two_pi]
  have hbig : bigE = E - k * (2 * Real.pi) := by linarith
  rw [hsin, hcos]
  have hD : 0 < 1 - e * Real.cos E := by nlinarith [Real.cos_le_one E, Real.neg_one_le_cos E]
  have hce : (gm * (2 / (a * (1 - e * Real.cos E)) - 1 / a) * (a * (1 - e * Real.cos E)) - gm) / (e * gm) = Real.cos E := by
    field_simp
    ring
  have hk' : 0 < Real.sqrt (gm * a) * e := mul_pos (Real.sqrt_pos.mpr (by positivity)) hepos
  have hs : (Real.sqrt (gm * a) * e * Real.sin E < 0) ↔ Real.sin E < 0 := by
    constructor
    · intro h; by_contra hc
      have := mul_nonneg hk'.le (not_lt.mp hc); linarith
    · intro h; exact mul_neg_of_pos_of_neg hk' h
  have hval : Py.meanAnomaly e gm (a * (1 - e * Real.cos E)) (gm * (2 / (a * (1 - e * Real.cos E)) - 1 / a))
      (Real.sqrt (gm * a) * e * Real.sin E) t = E - e * Real.sin E := by
    simp only [Py.meanAnomaly, ltb_real, lit_real, lit_small, not_lt.2 he0, if_false, Rat.cast_one, he1, if_true, hce, abs_real,
      abs_cos_le, Rat.cast_zero, hs, acos_real, sin_real, twoPi_real]
    rcases le_or_gt E Real.pi with h | h
    · have : ¬ Real.sin E < 0 := not_lt.mpr (Real.sin_nonneg_of_nonneg_of_le_pi h0 h)
      rw [if_neg this, Real.arccos_cos h0 h]
    · have hneg : Real.sin E < 0 := by
        have := Real.sin_pos_of_pos_of_lt_pi (x := E - Real.pi) (by linarith) (by linarith)
        rw [Real.sin_sub_pi] at this
        linarith
      have harc : Real.arccos (Real.cos E) = 2 * Real.pi - E := by
        have : Real.cos E = Real.cos (2 * Real.pi - E) := by rw [Real.cos_two_pi_sub]
        rw [this, Real.arccos_cos (by linarith) (by linarith)]
      rw [if_pos hneg, harc]
      have : 2 * Real.pi - (2 * Real.pi - E) = E := by ring
      rw [this]
  have hA : 0 ≤ E - e * Real.sin E := by
    rcases le_or_gt 0 (Real.sin E) with h | h
    · have := Real.sin_le h0; nlinarith
    · nlinarith
  have hB : E - e * Real.sin E < 2 * Real.pi := by
    have hs : Real.sin E = -Real.sin (2 * Real.pi - E) := by rw [Real.sin_two_pi_sub]; ring
    have := Real.sin_lt (x := 2 * Real.pi - E) (by linarith)
    rcases le_or_gt 0 (Real.sin E) with h | h
    · nlinarith
    · nlinarith
  rw [hval, py_reduce hA hB.le, hbig]
  exact ⟨hA, hB, k, by ring⟩

/-- True anomaly of an ellipse: sine and cosine. -/
theorem py_trueAnomaly {gm a e bigE : ℝ} (hgm : 0 < gm) (ha : 0 < a) (he0 : 3 / 100000000 ≤ e) (he1 : e < 1) (l f : ℝ)
    (hf : f = Py.trueAnomaly e (a * (1 - e) * (1 + e)) (a * (1 - e * Real.cos bigE))
      (Real.sqrt (gm * a) * e * Real.sin bigE) l) :
    0 ≤ f ∧ f < 2 * Real.pi ∧ (1 - e * Real.cos bigE) * Real.cos f = Real.cos bigE - e ∧
      (1 - e * Real.cos bigE) * Real.sin f = Real.sqrt (1 - e ^ 2) * Real.sin bigE := by
  have hepos : 0 < e := by linarith
  have hD : 0 < 1 - e * Real.cos bigE := by nlinarith [Real.cos_le_one bigE, Real.neg_one_le_cos bigE]
  have hsc := Real.sin_sq_add_cos_sq bigE
  have hR : Real.sqrt (1 - e ^ 2) ^ 2 = 1 - e ^ 2 := Real.sq_sqrt (by nlinarith)
  have hR0 : 0 < Real.sqrt (1 - e ^ 2) := Real.sqrt_pos.2 (by nlinarith)
  set R := Real.sqrt (1 - e ^ 2)
  set c := (Real.cos bigE - e) / (1 - e * Real.cos bigE) with hc
  set t := R * Real.sin bigE / (1 - e * Real.cos bigE) with ht
  have hct : t ^ 2 + c ^ 2 = 1 := by
    rw [hc, ht, div_pow, div_pow, ← add_div, div_eq_one_iff_eq (by positivity)]
    linear_combination Real.sin bigE ^ 2 * hR + (1 - e ^ 2) * hsc
  have hc1 : c ≤ 1 := by nlinarith
  have hc2 : -1 ≤ c := by nlinarith
  have hcf : (a * (1 - e) * (1 + e) - a * (1 - e * Real.cos bigE)) / (e * (a * (1 - e * Real.cos bigE))) = c := by
    rw [hc]
    field_simp
    ring
  have hk' : 0 < Real.sqrt (gm * a) * e := mul_pos (Real.sqrt_pos.mpr (by positivity)) hepos
  have hs : (Real.sqrt (gm * a) * e * Real.sin bigE < 0) ↔ t < 0 := by
    rw [ht, div_neg_iff]
    constructor
    · intro h
      have : Real.sin bigE < 0 := by
        by_contra hcon
        have := mul_nonneg hk'.le (not_lt.mp hcon); linarith
      exact Or.inr ⟨mul_neg_of_pos_of_neg hR0 this, hD⟩
    · rintro (⟨-, h⟩ | ⟨h, -⟩)
      · linarith
      · have : Real.sin bigE < 0 := by
          by_contra hcon
          have := mul_nonneg hR0.le (not_lt.mp hcon); linarith
        exact mul_neg_of_pos_of_neg hk' this
  have habs : ¬ 1 < |c| := not_lt.2 (abs_le.2 ⟨hc2, hc1⟩)
  simp only [Py.trueAnomaly, ltb_real, lit_real, lit_small, not_lt.2 he0, if_false, hcf, Rat.cast_one, abs_real, habs,
    Rat.cast_zero, hs, acos_real, twoPi_real] at hf
  have hsq : Real.sin (Real.arccos c) = |t| := by
    rw [Real.sin_arccos, ← Real.sqrt_sq_eq_abs]
    congr 1
    linarith
  have hm : ∀ x : ℝ, Real.cos x = c → Real.sin x = t → f = Py.turn x → 0 ≤ f ∧ f < 2 * Real.pi ∧
      (1 - e * Real.cos bigE) * Real.cos f = Real.cos bigE - e ∧
      (1 - e * Real.cos bigE) * Real.sin f = R * Real.sin bigE := by
    intro x h1 h2 h3
    have h4 := py_turn x
    rw [← h3] at h4
    refine ⟨h4.1, h4.2.1, ?_, ?_⟩
    · rw [h4.cos, h1, hc]; field_simp
    · rw [h4.sin, h2, ht]; field_simp
  split at hf
  · rename_i h
    exact hm _ (by rw [Real.cos_two_pi_sub, Real.cos_arccos hc2 hc1])
      (by rw [Real.sin_two_pi_sub, hsq, abs_of_neg h, neg_neg]) hf
  · rename_i h
    exact hm _ (Real.cos_arccos hc2 hc1) (by rw [hsq, abs_of_nonneg (not_lt.1 h)]) hf

/-- Longitude of perihelion of an orbit with a node. -/
theorem py_longitudeOfPerihelion {e i g n : ℝ} (he0 : 3 / 100000000 ≤ e) (hn : 1 / 100000000 ≤ n) :
    SameAngle (Py.longitudeOfPerihelion e i n (e • perihelionDirection i g n)) (g + n) := by
  have hepos : 0 < e := by linarith
  have hex : e * (perihelionDirection i g n).x * Real.cos n + e * (perihelionDirection i g n).y * Real.sin n =
      e * Real.cos g := by
    rw [perihelion_eq]; simp only
    linear_combination e * Real.cos g * Real.sin_sq_add_cos_sq n
  have hey : (-(e * (perihelionDirection i g n).x) * Real.sin n +
        e * (perihelionDirection i g n).y * Real.cos n) * Real.cos i +
        e * (perihelionDirection i g n).z * Real.sin i = e * Real.sin g := by
    rw [perihelion_eq]; simp only
    linear_combination e * Real.sin g * Real.cos i * Real.cos i * Real.sin_sq_add_cos_sq n +
      e * Real.sin g * Real.sin_sq_add_cos_sq i
  have hl : ((1 / 100000000 : ℚ) : ℝ) ≤ n := by
    have : ((1 / 100000000 : ℚ) : ℝ) = 1 / 100000000 := by norm_num
    rw [this]; exact hn
  obtain ⟨k, hk⟩ := arg_turns hepos g
  simp only [Py.longitudeOfPerihelion, ltb_real, leb_real, lit_real, lit_small, not_lt.2 he0, if_false, hl,
    if_true, Axes.smul_x, Axes.smul_y, Axes.smul_z, sin_real, cos_real, hex, hey, atan2_real, hk]
  exact (py_turn _).congr ⟨k, by ring⟩

/-- Longitude of perihelion without a node. -/
theorem py_longitudeOfPerihelion_node {e : ℝ} (i : ℝ) (he0 : 3 / 100000000 ≤ e) (P : Axes ℝ) :
    Py.longitudeOfPerihelion e i 0 (e • P) = Py.turn (Complex.arg ⟨e * P.x, e * P.y⟩) := by
  have hl : ¬ ((1 / 100000000 : ℚ) : ℝ) ≤ 0 := by
    have : ((1 / 100000000 : ℚ) : ℝ) = 1 / 100000000 := by norm_num
    rw [this]; norm_num
  simp only [Py.longitudeOfPerihelion, ltb_real, leb_real, lit_real, lit_small, not_lt.2 he0, if_false, hl,
    Axes.smul_x, Axes.smul_y, Axes.smul_z, atan2_real]

end Posidonius.Tools
