import Verif.Model.Analysis
import Verif.Lemmas.TidalOrbit
import Verif.Spec.TidalEnergy
import Verif.Spec.Tools
import Verif.Model.RealTrig

/-! # Heating: the formula of the analysis, and its average over an orbit -/

namespace Posidonius.Analysis
open Univ (Ellipse Gain Averages orbitRate hut1 hut2 hut5 tidalHeat averages_trig horner hornerMean cosMean average_odd average_work
  average_sixth gain_of_averages plane_dot plane_cross orbitRate_pos orbitRate_sq)

/-- The part of the mean heat that depends on the direction of the equator. -/
noncomputable def equinoxTerm (e : ℝ) : ℝ := 3 / 2 * e ^ 2 + 1 / 4 * e ^ 4

theorem average_sin (e : ℝ) : Averages (fun f => (1 + e * Real.cos f) ^ 4 * Real.sin f ^ 2) ((hut5 e - equinoxTerm e) / 2) := by
  refine (averages_trig [1, 4 * e, 6 * e ^ 2 - 1, 4 * e ^ 3 - 4 * e, e ^ 4 - 6 * e ^ 2, -4 * e ^ 3, -e ^ 4] []).congr
    (fun f => ?_) ?_
  · have h2 : Real.sin f ^ 2 = 1 - Real.cos f ^ 2 := by linarith [Real.sin_sq_add_cos_sq f]
    rw [h2]
    simp only [horner]
    ring
  · simp only [hornerMean, cosMean, hut5, equinoxTerm]
    norm_num
    ring

theorem average_cos (e : ℝ) : Averages (fun f => (1 + e * Real.cos f) ^ 4 * Real.cos f ^ 2) ((hut5 e + equinoxTerm e) / 2) := by
  refine (averages_trig [0, 0, 1, 4 * e, 6 * e ^ 2, 4 * e ^ 3, e ^ 4] []).congr
    (fun f => ?_) ?_
  · simp only [horner]
    ring
  · simp only [hornerMean, cosMean, hut5, equinoxTerm]
    norm_num
    ring

theorem heat_parts {p q : Axes ℝ} (hp : p.dot p = 1) (hq : q.dot q = 1) (hpq : p.dot q = 0) (b c d g : ℝ) (s : Axes ℝ) :
    ((d • p + g • q) - s.cross (b • p + c • q)).dot ((d • p + g • q) - s.cross (b • p + c • q))
      = d * d + g * g - 2 * ((b * g - c * d) * s.dot (p.cross q))
        + (b * b + c * c) * (s.dot (p.cross q)) ^ 2 + (c * s.dot p - b * s.dot q) ^ 2 := by
  have h1 : ∀ v x : Axes ℝ, (v - s.cross x).dot (v - s.cross x)
      = v.dot v - 2 * s.dot (x.cross v) + (s.dot s * x.dot x - (s.dot x) ^ 2) := by
    intro v x
    simp only [Axes.dot, Axes.cross, Axes.sub_x, Axes.sub_y, Axes.sub_z]
    ring
  have h2 : s.dot s = (s.dot p) ^ 2 + (s.dot q) ^ 2 + (s.dot (p.cross q)) ^ 2 := by
    have : s.dot s * (p.dot p * q.dot q - p.dot q ^ 2) = (s.dot p) ^ 2 * q.dot q + (s.dot q) ^ 2 * p.dot p
        - 2 * s.dot p * s.dot q * p.dot q + (s.dot (p.cross q)) ^ 2 := by
      simp only [Axes.dot, Axes.cross]
      ring
    rw [hp, hq, hpq] at this
    linarith
  rw [h1, plane_dot hp hq hpq, plane_dot hp hq hpq, plane_cross, Axes.dot_smul, Axes.dot_add, Axes.dot_smul, Axes.dot_smul, h2]
  ring

section
variable {mu a e : ℝ} {p q : Axes ℝ} {x v : ℝ → Axes ℝ}

/-- The heat of a revolution. -/
theorem heat_gain (o : Ellipse mu a e p q x v) (m R sigma : ℝ) (s : Axes ℝ) :
    Gain (fun t => tidalHeat m R sigma s (x t) (v t)) (2 * Real.pi / orbitRate mu a)
      (2 * Real.pi * (9 / 2 * m ^ 2 * R ^ 10 * sigma) / a ^ 6 * (
        orbitRate mu a * (hut1 e / Real.sqrt (1 - e ^ 2) ^ 15)
        - 2 * s.dot (p.cross q) * (hut2 e / Real.sqrt (1 - e ^ 2) ^ 12)
        + ((s.dot (p.cross q)) ^ 2 * hut5 e + (s.dot p) ^ 2 * ((hut5 e - equinoxTerm e) / 2)
            + (s.dot q) ^ 2 * ((hut5 e + equinoxTerm e) / 2)) / (orbitRate mu a * Real.sqrt (1 - e ^ 2) ^ 9))) := by
  obtain ⟨f, L, H, hl, hh, hL, hH, -, hy, hf, ht, hx, hv, hd⟩ := o.frame
  set A := 9 / 2 * m ^ 2 * R ^ 10 * sigma with hA
  have key := gain_of_averages (c := 1) hf ht ((((((average_work e).const_mul (A * H / L ^ 8))).add
    ((average_sixth e).const_mul (-2 * A * s.dot (p.cross q) / L ^ 6))).add
    (((Univ.average_fourth e).const_mul (A * (s.dot (p.cross q)) ^ 2 / (H * L ^ 4))))).add
    ((((average_sin e).const_mul (A * (s.dot p) ^ 2 / (H * L ^ 4))).add
      ((average_cos e).const_mul (A * (s.dot q) ^ 2 / (H * L ^ 4)))).add
      ((average_odd e 4 1).const_mul (-2 * A * s.dot p * s.dot q / (H * L ^ 4)))))
    (rate := fun t => tidalHeat m R sigma s (x t) (v t)) fun t => ?_
  · refine key.congr (fun _ => rfl) ?_
    have ha := o.size
    have hn := orbitRate_pos o.attracts ha
    have hw : 0 < Real.sqrt (1 - e ^ 2) := Real.sqrt_pos.2 (by nlinarith [o.round, o.closed])
    generalize Real.sqrt (1 - e ^ 2) = w at *
    simp only [hut1, hut2, hut5]
    rw [hL, hH]
    field_simp
    ring
  · have hyt := hy t
    have h2 : Real.sin (f t) ^ 2 = 1 - Real.cos (f t) ^ 2 := by linarith [Real.sin_sq_add_cos_sq (f t)]
    have h4 : Real.sin (f t) ^ 4 = (1 - Real.cos (f t) ^ 2) ^ 2 := by rw [← h2]; ring
    unfold tidalHeat
    rw [hx, hv, heat_parts o.pp o.qq o.pq, plane_dot o.pp o.qq o.pq, plane_dot o.pp o.qq o.pq, hd, Real.sqrt_sq (by positivity),
      ← hA]
    generalize s.dot (p.cross q) = W
    generalize s.dot p = P
    generalize s.dot q = Q
    generalize Real.cos (f t) = c at *
    generalize Real.sin (f t) = z at *
    field_simp
    ring_nf
    simp only [h2, h4]
    ring

end
end Posidonius.Analysis

namespace Posidonius.Analysis
open Univ (Ellipse orbitRate hut1 hut2 hut5 orbitRate_pos orbitRate_sq plane_cross)
open Kepler (len)

theorem npow_nat (x : ℝ) (n : ℕ) : npow x (n : ℚ) = x ^ n := by
  simp [npow]

theorem npNorm_real (a : Axes ℝ) : npNorm a = len a := by
  simp only [npNorm, len, sqrt_real, Axes.dot, show (2 : ℚ) = ((2 : ℕ) : ℚ) from rfl, npow_nat, pow_two]

/-- The mean motion of the analysis is that of Kepler's third law. -/
theorem meanMotion_real {G mp ms a : ℝ} (hG : 0 < G) (ha : 0 < a) (hm : 0 < mp + ms) :
    meanMotion G mp ms a = orbitRate (G * (mp + ms)) a := by
  have h1 : a ^ (-(3 / 2) : ℝ) = (Real.sqrt (a ^ 3))⁻¹ := by
    rw [Real.rpow_neg ha.le, Real.sqrt_eq_rpow, ← Real.rpow_natCast, ← Real.rpow_mul ha.le]
    norm_num
  have h2 : ((-1.5 : ℚ) : ℝ) = -(3 / 2) := by norm_num
  unfold meanMotion norb npow orbitRate
  rw [powf_real, lit_real, h2, h1, sqrt_real, sqrt_real, ← Real.sqrt_mul hG.le, Real.sqrt_div (by positivity)]
  rfl

/-- The formula of the analysis. -/
theorem energydot_real {a e rot obl G mp ms rp k2dt : ℝ} (hG : 0 < G) (ha : 0 < a) (hmp : 0 < mp) (hms : 0 < ms)
    (hrp : 0 < rp) (he0 : 0 ≤ e) (he1 : e < 1) :
    energydot a e rot obl G mp ms rp k2dt
      = 3 * G * k2dt * ms ^ 2 * rp ^ 5 / a ^ 6 * (
        orbitRate (G * (mp + ms)) a ^ 2 * (hut1 e / Real.sqrt (1 - e ^ 2) ^ 15)
        - 2 * orbitRate (G * (mp + ms)) a * (rot * Real.cos obl) * (hut2 e / Real.sqrt (1 - e ^ 2) ^ 12)
        + (1 + Real.cos obl ^ 2) / 2 * rot ^ 2 * (hut5 e / Real.sqrt (1 - e ^ 2) ^ 9)) := by
  have hn := orbitRate_pos (mul_pos hG (add_pos hmp hms)) ha
  have hp : 0 < 1 - e ^ 2 := by nlinarith
  have hw2 : Real.sqrt (1 - e ^ 2) ^ 2 = 1 - e ^ 2 := Real.sq_sqrt hp.le
  have hw : 0 < Real.sqrt (1 - e ^ 2) := Real.sqrt_pos.2 hp
  have h15 : (1 - e ^ 2) ^ ((15 : ℝ) / 2) = Real.sqrt (1 - e ^ 2) ^ 15 := by
    generalize 1 - e ^ 2 = y at hp
    rw [Real.sqrt_eq_rpow, ← Real.rpow_natCast, ← Real.rpow_mul hp.le]
    norm_num
  have n4 := npow_nat e 4
  have n6 := npow_nat e 6
  have n8 := npow_nat e 8
  have m6 := npow_nat (1 - e ^ 2) 6
  have m5 := npow_nat (1 - e ^ 2) 5
  have c2 := npow_nat (Real.cos obl) 2
  have r2 := npow_nat (rot / orbitRate (G * (mp + ms)) a) 2
  have o2 := npow_nat (orbitRate (G * (mp + ms)) a) 2
  have q2 := npow_nat (ms / mp) 2
  have q6 := npow_nat (rp / a) 6
  push_cast at n4 n6 n8 m6 m5 c2 r2 o2 q2 q6
  have f1 : na1 e = hut1 e / Real.sqrt (1 - e ^ 2) ^ 15 := by
    rw [← h15, na1, n4, n6, n8]
    simp only [lit_real, powf_real, hut1, ← pow_two]
    norm_num
  have f2 : na2 e = hut2 e / Real.sqrt (1 - e ^ 2) ^ 12 := by
    rw [show Real.sqrt (1 - e ^ 2) ^ 12 = (1 - e ^ 2) ^ 6 by
      rw [show (12 : ℕ) = 2 * 6 from rfl, pow_mul, hw2], na2, n4, n6]
    simp only [lit_real, hut2, ← pow_two, Rat.cast_one]
    rw [m6]
    norm_num [n4, n6]
  have f3 : no2 e = hut5 e / Real.sqrt (1 - e ^ 2) ^ 10 := by
    rw [show Real.sqrt (1 - e ^ 2) ^ 10 = (1 - e ^ 2) ^ 5 by
      rw [show (10 : ℕ) = 2 * 5 from rfl, pow_mul, hw2], no2, n4]
    simp only [lit_real, hut5, ← pow_two, Rat.cast_one]
    rw [m5]
    norm_num [n4]
  rw [energydot, kplan, meanMotion_real hG ha (add_pos hmp hms), f1, f2, f3]
  simp only [cos_real, lit_real, sqrt_real, c2, r2, o2, q2, q6, ← pow_two, Rat.cast_one, Rat.cast_ofNat]
  generalize Real.sqrt (1 - e ^ 2) = w at *
  generalize orbitRate (G * (mp + ms)) a = n at *
  field_simp

/-- The cosine of the obliquity. -/
theorem cos_obliquity (r v spin : Axes ℝ) (hl : 0 < len (r.cross v)) :
    len spin * Real.cos (obliquity r v spin * Real.pi / 180) = (r.cross v).dot spin / len (r.cross v) := by
  have hl2 : len (r.cross v) ^ 2 = (r.cross v).dot (r.cross v) := Real.sq_sqrt (Axes.dot_self_nonneg _)
  have hs2 : len spin ^ 2 = spin.dot spin := Real.sq_sqrt (Axes.dot_self_nonneg _)
  have hu : len (⟨(r.cross v).x / len (r.cross v), (r.cross v).y / len (r.cross v), (r.cross v).z / len (r.cross v)⟩ : Axes ℝ)
      = 1 := by
    unfold len at hl hl2 ⊢
    rw [Real.sqrt_eq_one]
    generalize Real.sqrt ((r.cross v).dot (r.cross v)) = d at *
    simp only [Axes.dot] at hl2 ⊢
    field_simp
    linarith
  unfold obliquity degrees
  simp only [npNorm_real, hu, one_mul]
  have e1 : (r.cross v).x / len (r.cross v) * spin.x + (r.cross v).y / len (r.cross v) * spin.y
      + (r.cross v).z / len (r.cross v) * spin.z = (r.cross v).dot spin / len (r.cross v) := by
    simp only [Axes.dot]
    ring
  rw [e1]
  have hc : ((r.cross v).dot spin) ^ 2 ≤ (r.cross v).dot (r.cross v) * spin.dot spin := by
    generalize r.cross v = l
    simp only [Axes.dot]
    nlinarith [sq_nonneg (l.x * spin.y - l.y * spin.x), sq_nonneg (l.y * spin.z - l.z * spin.y),
      sq_nonneg (l.z * spin.x - l.x * spin.z)]
  rw [← hl2, ← hs2] at hc
  have hs0 : 0 ≤ len spin := Real.sqrt_nonneg _
  rw [← mul_pow] at hc
  obtain ⟨h1, h2⟩ := abs_le.1 (abs_le_of_sq_le_sq' hc (by positivity) |> abs_le.2)
  rcases hs0.eq_or_lt with h0 | h0
  · rw [← h0] at h1 h2 ⊢
    have : (r.cross v).dot spin = 0 := by linarith
    rw [this]
    simp
  have hle : (r.cross v).dot spin / len (r.cross v) / len spin ≤ 1 := by
    rw [div_div, div_le_one (by positivity)]
    exact h2
  have hge : -1 ≤ (r.cross v).dot spin / len (r.cross v) / len spin := by
    rw [div_div, le_div_iff₀ (by positivity)]
    linarith
  rw [if_pos (by simpa using hle)]
  simp only [acos_real, Tools.pi, pi_real, lit_real]
  push_cast
  have hpi := Real.pi_pos
  rw [show ∀ x : ℝ, x * 180 / Real.pi * Real.pi / 180 = x by intro x; field_simp, Real.cos_arccos hge hle]
  field_simp

end Posidonius.Analysis
