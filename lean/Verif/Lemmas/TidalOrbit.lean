import Verif.Lemmas.OrbitAverage

/-! # What a tidal force does to a Kepler orbit in a revolution -/

namespace Posidonius.Univ
open WHFast (VecDeriv)

theorem Gain.add {r r' : ℝ → ℝ} {T g g' : ℝ} (h : Gain r T g) (h' : Gain r' T g') :
    Gain (fun t => r t + r' t) T (g + g') := by
  obtain ⟨⟨I, hI⟩, k⟩ := h
  obtain ⟨⟨I', hI'⟩, k'⟩ := h'
  refine Gain.of (fun t => (hI t).add (hI' t)) fun t => ?_
  rw [← k I hI t, ← k' I' hI' t]
  simp only [Pi.add_apply]
  ring

theorem Gain.congr {r r' : ℝ → ℝ} {T g g' : ℝ} (h : Gain r T g) (e : ∀ t, r' t = r t) (eg : g' = g) : Gain r' T g' := by
  rw [show r' = r from funext e, eg]
  exact h

theorem Gain.const_mul {r : ℝ → ℝ} {T g : ℝ} (c : ℝ) (h : Gain r T g) : Gain (fun t => c * r t) T (c * g) := by
  obtain ⟨⟨I, hI⟩, k⟩ := h
  refine Gain.of (fun t => (hI t).const_mul c) fun t => ?_
  rw [← k I hI t]
  ring

section plane
variable {p q : Axes ℝ}

theorem plane_dot (hp : p.dot p = 1) (hq : q.dot q = 1) (hpq : p.dot q = 0) (a b c d : ℝ) :
    (a • p + b • q).dot (c • p + d • q) = a * c + b * d := by
  simp only [Axes.dot, Axes.add_x, Axes.add_y, Axes.add_z, Axes.smul_x, Axes.smul_y, Axes.smul_z] at *
  linear_combination a * c * hp + b * d * hq + (a * d + b * c) * hpq

theorem plane_cross (a b c d : ℝ) : (a • p + b • q).cross (c • p + d • q) = (a * d - b * c) • p.cross q := by
  ext <;> simp only [Axes.cross, Axes.add_x, Axes.add_y, Axes.add_z, Axes.smul_x, Axes.smul_y, Axes.smul_z] <;> ring

theorem triple_dot (s x v : Axes ℝ) : (s.cross x).dot v = s.dot (x.cross v) := by
  simp only [Axes.dot, Axes.cross]; ring

theorem normal_dot (hp : p.dot p = 1) (hq : q.dot q = 1) (hpq : p.dot q = 0) : (p.cross q).dot (p.cross q) = 1 := by
  simp only [Axes.dot, Axes.cross] at *
  linear_combination (q.x * q.x + q.y * q.y + q.z * q.z) * hp + hq - (p.x * q.x + p.y * q.y + p.z * q.z) * hpq

theorem plane_p (hp : p.dot p = 1) (hpq : p.dot q = 0) (a b : ℝ) : (a • p + b • q).dot p = a := by
  simp only [Axes.dot, Axes.add_x, Axes.add_y, Axes.add_z, Axes.smul_x, Axes.smul_y, Axes.smul_z] at *
  linear_combination a * hp + b * hpq

theorem plane_q (hq : q.dot q = 1) (hpq : p.dot q = 0) (a b : ℝ) : (a • p + b • q).dot q = b := by
  simp only [Axes.dot, Axes.add_x, Axes.add_y, Axes.add_z, Axes.smul_x, Axes.smul_y, Axes.smul_z] at *
  linear_combination b * hq + a * hpq

/-- The eccentricity vector's rate towards the pericentre. -/
theorem eccentricityRate_p (hp : p.dot p = 1) (hq : q.dot q = 1) (hpq : p.dot q = 0) (mu a b c d : ℝ) (F : Axes ℝ) :
    (eccentricityRate mu (a • p + b • q) (c • p + d • q) F).dot p
      = 1 / mu * ((a * d - b * c) * F.dot q + a * F.dot (c • p + d • q) - F.dot p * (a * c + b * d)) := by
  have h1 : ((c • p + d • q).cross ((a • p + b • q).cross F)).dot p
      = (a • p + b • q).dot p * F.dot (c • p + d • q) - F.dot p * (a • p + b • q).dot (c • p + d • q) := by
    simp only [Axes.dot, Axes.cross]; ring
  have h2 : (F.cross ((a * d - b * c) • p.cross q)).dot p
      = (a * d - b * c) * (F.dot q * p.dot p - F.dot p * p.dot q) := by
    simp only [Axes.dot, Axes.cross, Axes.smul_x, Axes.smul_y, Axes.smul_z]; ring
  unfold eccentricityRate
  rw [Axes.smul_dot, Axes.add_dot, plane_cross a b c d, h1, h2, plane_p hp hpq, plane_dot hp hq hpq, hp, hpq]
  ring

/-- The eccentricity vector's rate perpendicular to the pericentre in the plane of the orbit. -/
theorem eccentricityRate_q (hp : p.dot p = 1) (hq : q.dot q = 1) (hpq : p.dot q = 0) (mu a b c d : ℝ) (F : Axes ℝ) :
    (eccentricityRate mu (a • p + b • q) (c • p + d • q) F).dot q
      = 1 / mu * (-(a * d - b * c) * F.dot p + b * F.dot (c • p + d • q) - F.dot q * (a * c + b * d)) := by
  have h1 : ((c • p + d • q).cross ((a • p + b • q).cross F)).dot q
      = (a • p + b • q).dot q * F.dot (c • p + d • q) - F.dot q * (a • p + b • q).dot (c • p + d • q) := by
    simp only [Axes.dot, Axes.cross]; ring
  have h2 : (F.cross ((a * d - b * c) • p.cross q)).dot q
      = (a * d - b * c) * (F.dot q * p.dot q - F.dot p * q.dot q) := by
    simp only [Axes.dot, Axes.cross, Axes.smul_x, Axes.smul_y, Axes.smul_z]; ring
  unfold eccentricityRate
  rw [Axes.smul_dot, Axes.add_dot, plane_cross a b c d, h1, h2, plane_q hq hpq, plane_dot hp hq hpq, hq, hpq]
  ring

end plane

/-- The tidal force in the shape of `C92_definition`. -/
noncomputable def tideForce (K A : ℝ) (s x v : Axes ℝ) : Axes ℝ :=
  (-K / Real.sqrt (x.dot x) ^ 8) • x
    + (A / Real.sqrt (x.dot x) ^ 8) • ((s.cross x - v) - (2 * x.dot v / x.dot x) • x)

/-! ## The averages -/

theorem average_work (e : ℝ) : Averages
    (fun f => (1 + e * Real.cos f) ^ 6 * ((1 + e * Real.cos f) ^ 2 + 3 * e ^ 2 * Real.sin f ^ 2))
    (1 + 31 / 2 * e ^ 2 + 255 / 8 * e ^ 4 + 185 / 16 * e ^ 6 + 25 / 64 * e ^ 8) := by
  refine (averages_trig [1 + 3 * e ^ 2, 8 * e + 18 * e ^ 3, 25 * e ^ 2 + 45 * e ^ 4, 38 * e ^ 3 + 60 * e ^ 5,
    25 * e ^ 4 + 45 * e ^ 6, -4 * e ^ 5 + 18 * e ^ 7, -17 * e ^ 6 + 3 * e ^ 8, -10 * e ^ 7, -2 * e ^ 8] []).congr
    (fun f => ?_) ?_
  · have h2 : Real.sin f ^ 2 = 1 - Real.cos f ^ 2 := by linarith [Real.sin_sq_add_cos_sq f]
    rw [h2]
    simp only [horner]
    ring
  · simp only [hornerMean, cosMean]
    norm_num
    ring

theorem average_sixth (e : ℝ) : Averages (fun f => (1 + e * Real.cos f) ^ 6)
    (1 + 15 / 2 * e ^ 2 + 45 / 8 * e ^ 4 + 5 / 16 * e ^ 6) := by
  refine (averages_trig [1, 6 * e, 15 * e ^ 2, 20 * e ^ 3, 15 * e ^ 4, 6 * e ^ 5, e ^ 6] []).congr (fun f => ?_) ?_
  · simp only [horner]
    ring
  · simp only [hornerMean, cosMean]
    norm_num
    ring

theorem average_fourth (e : ℝ) : Averages (fun f => (1 + e * Real.cos f) ^ 4) (1 + 3 * e ^ 2 + 3 / 8 * e ^ 4) := by
  refine (averages_trig [1, 4 * e, 6 * e ^ 2, 4 * e ^ 3, e ^ 4] []).congr (fun f => ?_) ?_
  · simp only [horner]
    ring
  · simp only [hornerMean, cosMean]
    norm_num
    ring

theorem average_shape (e : ℝ) : Averages
    (fun f => (1 + e * Real.cos f) ^ 6 * (3 * e * Real.sin f ^ 2 + (1 + e * Real.cos f) * Real.cos f + e + Real.cos f))
    (9 * e * (1 + 15 / 4 * e ^ 2 + 15 / 8 * e ^ 4 + 5 / 64 * e ^ 6)) := by
  refine (averages_trig [4 * e, 2 + 24 * e ^ 2, 10 * e + 60 * e ^ 3, 18 * e ^ 2 + 80 * e ^ 4, 10 * e ^ 3 + 60 * e ^ 5,
    -10 * e ^ 4 + 24 * e ^ 6, -18 * e ^ 5 + 4 * e ^ 7, -10 * e ^ 6, -2 * e ^ 7] []).congr (fun f => ?_) ?_
  · have h2 : Real.sin f ^ 2 = 1 - Real.cos f ^ 2 := by linarith [Real.sin_sq_add_cos_sq f]
    rw [h2]
    simp only [horner]
    ring
  · simp only [hornerMean, cosMean]
    norm_num
    ring

theorem average_shape' (e : ℝ) : Averages
    (fun f => (1 + e * Real.cos f) ^ 4 * ((1 + e * Real.cos f) * Real.cos f + e + Real.cos f))
    (11 / 2 * e * (1 + 3 / 2 * e ^ 2 + 1 / 8 * e ^ 4)) := by
  refine (averages_trig [e, 2 + 4 * e ^ 2, 9 * e + 6 * e ^ 3, 16 * e ^ 2 + 4 * e ^ 4, 14 * e ^ 3 + e ^ 5, 6 * e ^ 4, e ^ 5]
    []).congr (fun f => ?_) ?_
  · simp only [horner]
    ring
  · simp only [hornerMean, cosMean]
    norm_num
    ring

theorem average_turn (e : ℝ) : Averages (fun f => (1 + e * Real.cos f) ^ 5 * Real.cos f)
    (5 / 2 * e * (1 + 3 / 2 * e ^ 2 + 1 / 8 * e ^ 4)) := by
  refine (averages_trig [0, 1, 5 * e, 10 * e ^ 2, 10 * e ^ 3, 5 * e ^ 4, e ^ 5] []).congr (fun f => ?_) ?_
  · simp only [horner]
    ring
  · simp only [hornerMean, cosMean]
    norm_num
    ring

/-- Polynomials of the cosine times the sine have the mean zero. -/
theorem average_odd (e : ℝ) : ∀ (k j : Nat), Averages (fun f => Real.sin f * ((1 + e * Real.cos f) ^ k * Real.cos f ^ j)) 0
  | 0, j => (averages_sin_cos_pow j).congr (fun f => by simp) rfl
  | k + 1, j => ((average_odd e k j).add ((average_odd e k (j + 1)).const_mul e)).congr (fun f => by ring) (by ring)

/-- The orbit in terms of the true anomaly `f`, the parameter `L` and the angular momentum per mass `H`. -/
theorem Ellipse.frame {mu a e : ℝ} {p q : Axes ℝ} {x v : ℝ → Axes ℝ} (o : Ellipse mu a e p q x v) :
    ∃ (f : ℝ → ℝ) (L H : ℝ), 0 < L ∧ 0 < H ∧ L = a * Real.sqrt (1 - e ^ 2) ^ 2
    ∧ H = orbitRate mu a * a ^ 2 * Real.sqrt (1 - e ^ 2) ∧ mu * L = H ^ 2
    ∧ (∀ t, 0 < 1 + e * Real.cos (f t))
    ∧ (∀ t, HasDerivAt f (H / L ^ 2 * (1 + e * Real.cos (f t)) ^ 2) t)
    ∧ (∀ t, f (t + 2 * Real.pi / orbitRate mu a) = f t + 2 * Real.pi)
    ∧ (∀ t, x t = (L / (1 + e * Real.cos (f t)) * Real.cos (f t)) • p
      + (L / (1 + e * Real.cos (f t)) * Real.sin (f t)) • q)
    ∧ (∀ t, v t = (H / L * -Real.sin (f t)) • p + (H / L * (e + Real.cos (f t))) • q)
    ∧ ∀ t, (L / (1 + e * Real.cos (f t)) * Real.cos (f t)) * (L / (1 + e * Real.cos (f t)) * Real.cos (f t))
        + L / (1 + e * Real.cos (f t)) * Real.sin (f t) * (L / (1 + e * Real.cos (f t)) * Real.sin (f t))
        = (L / (1 + e * Real.cos (f t))) ^ 2 := by
  obtain ⟨f, hy, hf, ht, hx, hv⟩ := o.anomaly
  have ha := o.size
  have hn := orbitRate_pos o.attracts ha
  have hw2 : Real.sqrt (1 - e ^ 2) ^ 2 = 1 - e ^ 2 := Real.sq_sqrt (by nlinarith [o.round, o.closed])
  have hw : 0 < Real.sqrt (1 - e ^ 2) := Real.sqrt_pos.2 (by nlinarith [o.round, o.closed])
  have hmu := orbitRate_sq o.attracts ha
  refine ⟨f, a * (1 - e ^ 2), areaRate mu a e, ?_, ?_, by rw [hw2], rfl, ?_, hy, hf, ht, hx, hv, fun t => ?_⟩
  · rw [← hw2]; positivity
  · unfold areaRate; positivity
  · unfold areaRate
    generalize Real.sqrt (1 - e ^ 2) = w at *
    generalize orbitRate mu a = n at *
    linear_combination (-a * w ^ 2) * hmu - mu * a * hw2
  · have h2 : Real.sin (f t) ^ 2 = 1 - Real.cos (f t) ^ 2 := by linarith [Real.sin_sq_add_cos_sq (f t)]
    linear_combination (a * (1 - e ^ 2) / (1 + e * Real.cos (f t))) ^ 2 * h2

/-- The components of a tidal force. -/
theorem tideForce_parts {p q : Axes ℝ} (hp : p.dot p = 1) (hq : q.dot q = 1) (hpq : p.dot q = 0) (K A b c d g rho : ℝ)
    (s : Axes ℝ) (hr : 0 ≤ rho) (hb : b * b + c * c = rho ^ 2) :
    let F := tideForce K A s (b • p + c • q) (d • p + g • q)
    F.dot p = -K / rho ^ 8 * b
        + A / rho ^ 8 * (-(c * s.dot (p.cross q)) - d - 2 * (b * d + c * g) / rho ^ 2 * b)
    ∧ F.dot q = -K / rho ^ 8 * c
        + A / rho ^ 8 * (b * s.dot (p.cross q) - g - 2 * (b * d + c * g) / rho ^ 2 * c)
    ∧ F.dot (d • p + g • q) = -K / rho ^ 8 * (b * d + c * g)
        + A / rho ^ 8 * ((b * g - c * d) * s.dot (p.cross q) - (d * d + g * g)
          - 2 * (b * d + c * g) / rho ^ 2 * (b * d + c * g)) := by
  have hd : (b • p + c • q).dot (b • p + c • q) = rho ^ 2 := by rw [plane_dot hp hq hpq, hb]
  have h1 : (s.cross (b • p + c • q)).dot p = -(c * s.dot (p.cross q)) := by
    simp only [Axes.dot, Axes.cross, Axes.add_x, Axes.add_y, Axes.add_z, Axes.smul_x, Axes.smul_y, Axes.smul_z]; ring
  have h2 : (s.cross (b • p + c • q)).dot q = b * s.dot (p.cross q) := by
    simp only [Axes.dot, Axes.cross, Axes.add_x, Axes.add_y, Axes.add_z, Axes.smul_x, Axes.smul_y, Axes.smul_z]; ring
  refine ⟨?_, ?_, ?_⟩
  · rw [tideForce, hd, Real.sqrt_sq hr, Axes.add_dot, Axes.smul_dot, Axes.smul_dot, Axes.sub_dot, Axes.sub_dot, Axes.smul_dot,
      plane_dot hp hq hpq, plane_p hp hpq, plane_p hp hpq, h1]
  · rw [tideForce, hd, Real.sqrt_sq hr, Axes.add_dot, Axes.smul_dot, Axes.smul_dot, Axes.sub_dot, Axes.sub_dot, Axes.smul_dot,
      plane_dot hp hq hpq, plane_q hq hpq, plane_q hq hpq, h2]
  · rw [tideForce, hd, Real.sqrt_sq hr, Axes.add_dot, Axes.smul_dot, Axes.smul_dot, Axes.sub_dot, Axes.sub_dot, Axes.smul_dot,
      plane_dot hp hq hpq, plane_dot hp hq hpq, triple_dot, plane_cross, Axes.dot_smul]

section
variable {mu a e : ℝ} {p q : Axes ℝ} {x v : ℝ → Axes ℝ}

/-- The work of a tidal force on the orbit. -/
theorem tide_work (o : Ellipse mu a e p q x v) (K A : ℝ) (s : Axes ℝ) :
    Gain (fun t => (tideForce K A s (x t) (v t)).dot (v t)) (2 * Real.pi / orbitRate mu a)
      (-(2 * Real.pi * A / a ^ 6) * (orbitRate mu a
          * ((1 + 31 / 2 * e ^ 2 + 255 / 8 * e ^ 4 + 185 / 16 * e ^ 6 + 25 / 64 * e ^ 8) / Real.sqrt (1 - e ^ 2) ^ 15)
        - s.dot (p.cross q) * ((1 + 15 / 2 * e ^ 2 + 45 / 8 * e ^ 4 + 5 / 16 * e ^ 6) / Real.sqrt (1 - e ^ 2) ^ 12))) := by
  obtain ⟨f, L, H, hl, hh, hL, hH, -, hy, hf, ht, hx, hv, hd⟩ := o.frame
  have key := gain_of_averages (c := 1) hf ht ((((average_odd e 5 0).const_mul (-K * e / L ^ 6)).add
    ((average_work e).const_mul (-A * H / L ^ 8))).add
    ((average_sixth e).const_mul (A * s.dot (p.cross q) / L ^ 6)))
    (rate := fun t => (tideForce K A s (x t) (v t)).dot (v t)) fun t => ?_
  · refine key.congr (fun _ => rfl) ?_
    have ha := o.size
    have hw : 0 < Real.sqrt (1 - e ^ 2) := Real.sqrt_pos.2 (by nlinarith [o.round, o.closed])
    generalize Real.sqrt (1 - e ^ 2) = w at *
    rw [hL, hH]
    field_simp
    ring
  · have hyt := hy t
    have h2 : Real.sin (f t) ^ 2 = 1 - Real.cos (f t) ^ 2 := by linarith [Real.sin_sq_add_cos_sq (f t)]
    rw [hx, hv, (tideForce_parts o.pp o.qq o.pq K A _ _ _ _ (L / (1 + e * Real.cos (f t))) s (by positivity) (hd t)).2.2]
    generalize s.dot (p.cross q) = W
    generalize Real.cos (f t) = c at *
    generalize Real.sin (f t) = z at *
    field_simp
    ring_nf
    simp only [h2]
    ring

/-- The torque of a tidal force on the orbit. -/
theorem tide_torque (o : Ellipse mu a e p q x v) (K A : ℝ) (s : Axes ℝ) :
    Gain (fun t => ((x t).cross (tideForce K A s (x t) (v t))).dot (p.cross q)) (2 * Real.pi / orbitRate mu a)
      (-(2 * Real.pi * A / a ^ 6) * (
          ((1 + 15 / 2 * e ^ 2 + 45 / 8 * e ^ 4 + 5 / 16 * e ^ 6) / Real.sqrt (1 - e ^ 2) ^ 12)
        - s.dot (p.cross q) / orbitRate mu a * ((1 + 3 * e ^ 2 + 3 / 8 * e ^ 4) / Real.sqrt (1 - e ^ 2) ^ 9))) := by
  obtain ⟨f, L, H, hl, hh, hL, hH, -, hy, hf, ht, hx, hv, hd⟩ := o.frame
  have key := gain_of_averages (c := 1) hf ht (((average_sixth e).const_mul (-A / L ^ 6)).add
    ((average_fourth e).const_mul (A * s.dot (p.cross q) / (H * L ^ 4))))
    (rate := fun t => ((x t).cross (tideForce K A s (x t) (v t))).dot (p.cross q)) fun t => ?_
  · refine key.congr (fun _ => rfl) ?_
    have ha := o.size
    have hn := orbitRate_pos o.attracts ha
    have hw : 0 < Real.sqrt (1 - e ^ 2) := Real.sqrt_pos.2 (by nlinarith [o.round, o.closed])
    generalize Real.sqrt (1 - e ^ 2) = w at *
    rw [hL, hH]
    field_simp
    ring
  · have hyt := hy t
    have h2 : Real.sin (f t) ^ 2 = 1 - Real.cos (f t) ^ 2 := by linarith [Real.sin_sq_add_cos_sq (f t)]
    obtain ⟨t1, t2, -⟩ := tideForce_parts o.pp o.qq o.pq K A _ _ (H / L * -Real.sin (f t)) (H / L * (e + Real.cos (f t)))
      (L / (1 + e * Real.cos (f t))) s (by positivity) (hd t)
    have h3 : ∀ (b c : ℝ) (F : Axes ℝ), ((b • p + c • q).cross F).dot (p.cross q) = b * F.dot q - c * F.dot p := by
      intro b c F
      have : ((b • p + c • q).cross F).dot (p.cross q)
          = (b • p + c • q).dot p * F.dot q - (b • p + c • q).dot q * F.dot p := by
        simp only [Axes.dot, Axes.cross]; ring
      rw [this, plane_p o.pp o.pq, plane_q o.qq o.pq]
    rw [hx, hv, h3, t1, t2]
    generalize s.dot (p.cross q) = W
    generalize Real.cos (f t) = c at *
    generalize Real.sin (f t) = z at *
    field_simp
    ring_nf
    simp only [h2]
    ring

/-- The change of the eccentricity by a tidal force. -/
theorem tide_eccentricity (o : Ellipse mu a e p q x v) (K A : ℝ) (s : Axes ℝ) :
    Gain (fun t => (eccentricityRate mu (x t) (v t) (tideForce K A s (x t) (v t))).dot p) (2 * Real.pi / orbitRate mu a)
      (-(2 * Real.pi * A / (mu * a ^ 5)) * e * (
          9 * orbitRate mu a * ((1 + 15 / 4 * e ^ 2 + 15 / 8 * e ^ 4 + 5 / 64 * e ^ 6) / Real.sqrt (1 - e ^ 2) ^ 13)
        - 11 / 2 * s.dot (p.cross q) * ((1 + 3 / 2 * e ^ 2 + 1 / 8 * e ^ 4) / Real.sqrt (1 - e ^ 2) ^ 10))) := by
  obtain ⟨f, L, H, hl, hh, hL, hH, -, hy, hf, ht, hx, hv, hd⟩ := o.frame
  have hmu := o.attracts
  have key := gain_of_averages (c := 1) hf ht ((((average_odd e 5 0).const_mul (-K / (mu * L ^ 5))).add
    ((average_shape e).const_mul (-A * H / (mu * L ^ 7)))).add
    ((average_shape' e).const_mul (A * s.dot (p.cross q) / (mu * L ^ 5))))
    (rate := fun t => (eccentricityRate mu (x t) (v t) (tideForce K A s (x t) (v t))).dot p) fun t => ?_
  · refine key.congr (fun _ => rfl) ?_
    have ha := o.size
    have hw : 0 < Real.sqrt (1 - e ^ 2) := Real.sqrt_pos.2 (by nlinarith [o.round, o.closed])
    generalize Real.sqrt (1 - e ^ 2) = w at *
    rw [hL, hH]
    field_simp
    ring
  · have hyt := hy t
    have h2 : Real.sin (f t) ^ 2 = 1 - Real.cos (f t) ^ 2 := by linarith [Real.sin_sq_add_cos_sq (f t)]
    have h4 : Real.sin (f t) ^ 4 = (1 - Real.cos (f t) ^ 2) ^ 2 := by rw [← h2]; ring
    have h3 : Real.sin (f t) ^ 3 = Real.sin (f t) * (1 - Real.cos (f t) ^ 2) := by rw [← h2]; ring
    obtain ⟨t1, t2, t3⟩ := tideForce_parts o.pp o.qq o.pq K A _ _ (H / L * -Real.sin (f t)) (H / L * (e + Real.cos (f t)))
      (L / (1 + e * Real.cos (f t))) s (by positivity) (hd t)
    rw [hx, hv, eccentricityRate_p o.pp o.qq o.pq, t1, t2, t3]
    generalize s.dot (p.cross q) = W
    generalize Real.cos (f t) = c at *
    generalize Real.sin (f t) = z at *
    field_simp
    ring_nf
    simp only [h2, h3, h4]
    ring

/-- The turn of the pericentre by a tidal force. -/
theorem tide_apsides (o : Ellipse mu a e p q x v) (K A : ℝ) (s : Axes ℝ) :
    Gain (fun t => (eccentricityRate mu (x t) (v t) (tideForce K A s (x t) (v t))).dot q) (2 * Real.pi / orbitRate mu a)
      (5 * Real.pi * K / (mu * a ^ 5) * e * ((1 + 3 / 2 * e ^ 2 + 1 / 8 * e ^ 4) / Real.sqrt (1 - e ^ 2) ^ 10)) := by
  obtain ⟨f, L, H, hl, hh, hL, hH, -, hy, hf, ht, hx, hv, hd⟩ := o.frame
  have hmu := o.attracts
  have key := gain_of_averages (c := 1) hf ht (((((((average_odd e 6 1).const_mul (3 * e)).add
    ((average_odd e 7 0).const_mul (-1))).add ((average_odd e 6 0).const_mul (-1))).const_mul (A * H / (mu * L ^ 7))).add
    ((((average_odd e 5 0).add (average_odd e 4 0)).const_mul (A * s.dot (p.cross q) / (mu * L ^ 5))))).add
    ((average_turn e).const_mul (K / (mu * L ^ 5))))
    (rate := fun t => (eccentricityRate mu (x t) (v t) (tideForce K A s (x t) (v t))).dot q) fun t => ?_
  · refine key.congr (fun _ => rfl) ?_
    have ha := o.size
    have hw : 0 < Real.sqrt (1 - e ^ 2) := Real.sqrt_pos.2 (by nlinarith [o.round, o.closed])
    generalize Real.sqrt (1 - e ^ 2) = w at *
    rw [hL]
    field_simp
    ring
  · have hyt := hy t
    have h2 : Real.sin (f t) ^ 2 = 1 - Real.cos (f t) ^ 2 := by linarith [Real.sin_sq_add_cos_sq (f t)]
    have h4 : Real.sin (f t) ^ 4 = (1 - Real.cos (f t) ^ 2) ^ 2 := by rw [← h2]; ring
    have h3 : Real.sin (f t) ^ 3 = Real.sin (f t) * (1 - Real.cos (f t) ^ 2) := by rw [← h2]; ring
    obtain ⟨t1, t2, t3⟩ := tideForce_parts o.pp o.qq o.pq K A _ _ (H / L * -Real.sin (f t)) (H / L * (e + Real.cos (f t)))
      (L / (1 + e * Real.cos (f t))) s (by positivity) (hd t)
    rw [hx, hv, eccentricityRate_q o.pp o.qq o.pq, t1, t2, t3]
    generalize s.dot (p.cross q) = W
    generalize Real.cos (f t) = c at *
    generalize Real.sin (f t) = z at *
    field_simp
    ring_nf
    simp only [h2, h3, h4]
    ring

end
end Posidonius.Univ
