import Verif.Lemmas.TidalOrbit

/-! The mean effect on an orbit of the force between a body flattened by its rotation and another body. -/

namespace Posidonius.Univ
open Finset

/-- The force of a body that is flattened by the rotation `w` on a body at `x`; `c` is the mass of the latter times Love number
times radius^5 of the former. -/
noncomputable def flatForce (c : ℝ) (w x : Axes ℝ) : Axes ℝ :=
  (c / 6) • ((-3 * w.dot w / Real.sqrt (x.dot x) ^ 5 + 15 * x.dot w ^ 2 / Real.sqrt (x.dot x) ^ 7) • x
    - (6 * x.dot w / Real.sqrt (x.dot x) ^ 5) • w)

/-- A product of two vectors by their components in the plane and along its normal. -/
theorem frame_dot {p q : Axes ℝ} (hp : p.dot p = 1) (hq : q.dot q = 1) (hpq : p.dot q = 0) (u w : Axes ℝ) :
    u.dot w = u.dot p * w.dot p + u.dot q * w.dot q + u.dot (p.cross q) * w.dot (p.cross q) := by
  have key : (u.dot w) * (p.dot p * q.dot q - p.dot q ^ 2)
      = u.dot p * (w.dot p * q.dot q - w.dot q * p.dot q) + u.dot q * (w.dot q * p.dot p - w.dot p * p.dot q)
        + u.dot (p.cross q) * w.dot (p.cross q) := by
    simp only [Axes.dot, Axes.cross]
    ring
  rw [hp, hq, hpq] at key
  linarith

section
variable {mu a e : ℝ} {p q : Axes ℝ} {x v : ℝ → Axes ℝ}

/-- Its components at the point of the orbit with the true anomaly whose cosine and sine are `C` and `S`. -/
theorem flatForce_parts (hp : p.dot p = 1) (hq : q.dot q = 1) (hpq : p.dot q = 0) (c r C S : ℝ) (w : Axes ℝ)
    (hr : 0 < r) (hc : (r * C) * (r * C) + (r * S) * (r * S) = r ^ 2) (d : Axes ℝ) :
    (flatForce c w ((r * C) • p + (r * S) • q)).dot d
      = c / 6 / r ^ 4 * ((15 * (C * w.dot p + S * w.dot q) ^ 2 - 3 * w.dot w) * (C * p.dot d + S * q.dot d)
        - 6 * (C * w.dot p + S * w.dot q) * w.dot d) := by
  have h1 : ((r * C) • p + (r * S) • q).dot ((r * C) • p + (r * S) • q) = r ^ 2 := by rw [plane_dot hp hq hpq, hc]
  have h2 : ((r * C) • p + (r * S) • q).dot w = r * (C * w.dot p + S * w.dot q) := by
    rw [Axes.add_dot, Axes.smul_dot, Axes.smul_dot, Axes.dot_comm p, Axes.dot_comm q]
    ring
  have h3 : ((r * C) • p + (r * S) • q).dot d = r * (C * p.dot d + S * q.dot d) := by
    rw [Axes.add_dot, Axes.smul_dot, Axes.smul_dot]
    ring
  unfold flatForce
  rw [Axes.smul_dot, Axes.sub_dot, Axes.smul_dot, Axes.smul_dot, h1, h2, h3, Real.sqrt_sq hr.le]
  field_simp
  ring

/-- The force does no work in a revolution. -/
theorem flat_work (o : Ellipse mu a e p q x v) (c : ℝ) (w : Axes ℝ) :
    Gain (fun t => (flatForce c w (x t)).dot (v t)) (2 * Real.pi / orbitRate mu a) 0 := by
  obtain ⟨f, L, H, hl, hh, hL, hH, -, hy, hf, ht, hx, hv, hd⟩ := o.frame
  obtain ⟨α, hα⟩ : ∃ α, w.dot p = α := ⟨_, rfl⟩
  obtain ⟨β, hβ⟩ : ∃ β, w.dot q = β := ⟨_, rfl⟩
  obtain ⟨W, hW⟩ : ∃ W, w.dot w = W := ⟨_, rfl⟩
  have key := gain_of_averages (c := c / 6 / L ^ 3) hf ht (averages_trig
    [6 * α * β, 36 * e * α * β, 54 * e ^ 2 * α * β - 12 * α * β, -54 * e * α * β + 24 * e ^ 3 * α * β, -72 * e ^ 2 * α * β, -30 * e ^ 3 * α * β]
    [-3 * W * e + 9 * e * β ^ 2, -6 * W * e ^ 2 + 18 * e ^ 2 * β ^ 2 + 6 * α ^ 2 - 6 * β ^ 2,
      -3 * W * e ^ 3 + 27 * e * α ^ 2 - 27 * e * β ^ 2 + 9 * e ^ 3 * β ^ 2, 36 * e ^ 2 * α ^ 2 - 36 * e ^ 2 * β ^ 2,
      15 * e ^ 3 * α ^ 2 - 15 * e ^ 3 * β ^ 2])
    (rate := fun t => (flatForce c w (x t)).dot (v t)) fun t => ?_
  · refine key.congr (fun _ => rfl) ?_
    simp only [hornerMean, cosMean]
    norm_num
    ring_nf
    simp
  · have hyt := hy t
    have h2 : Real.sin (f t) ^ 2 = 1 - Real.cos (f t) ^ 2 := by linarith [Real.sin_sq_add_cos_sq (f t)]
    have h3 : Real.sin (f t) ^ 3 = Real.sin (f t) * (1 - Real.cos (f t) ^ 2) := by rw [← h2]; ring
    rw [hx, flatForce_parts o.pp o.qq o.pq c _ _ _ w (by positivity) (hd t), hv, hα, hβ, hW]
    rw [Axes.dot_add, Axes.dot_add, Axes.dot_add, Axes.dot_smul, Axes.dot_smul, Axes.dot_smul, Axes.dot_smul, Axes.dot_smul,
      Axes.dot_smul, Axes.dot_comm q p, o.pp, o.qq, o.pq, hα, hβ]
    generalize Real.cos (f t) = C at *
    generalize Real.sin (f t) = S at *
    simp only [horner]
    field_simp
    ring_nf
    simp only [h2, h3]
    ring

/-- Its torque in a revolution, in any direction `d`. -/
theorem flat_torque (o : Ellipse mu a e p q x v) (c : ℝ) (w d : Axes ℝ) :
    Gain (fun t => ((x t).cross (flatForce c w (x t))).dot d) (2 * Real.pi / orbitRate mu a)
      (Real.pi * c * w.dot (p.cross q) / (Real.sqrt mu * Real.sqrt (a * (1 - e ^ 2)) ^ 3) * ((p.cross q).cross w).dot d) := by
  obtain ⟨f, L, H, hl, hh, hL, hH, hmuL, hy, hf, ht, hx, hv, hd⟩ := o.frame
  rw [Real.sq_sqrt (show 0 ≤ 1 - e ^ 2 by nlinarith [o.round, o.closed])] at hL
  have hmu := o.attracts
  have hHs : H = Real.sqrt mu * Real.sqrt L := by
    rw [← Real.sqrt_mul hmu.le, hmuL, Real.sqrt_sq hh.le]
  obtain ⟨α, hα⟩ : ∃ α, w.dot p = α := ⟨_, rfl⟩
  obtain ⟨β, hβ⟩ : ∃ β, w.dot q = β := ⟨_, rfl⟩
  obtain ⟨γ, hγ⟩ : ∃ γ, (w.cross d).dot p = γ := ⟨_, rfl⟩
  obtain ⟨δ, hδ⟩ : ∃ δ, (w.cross d).dot q = δ := ⟨_, rfl⟩
  have key := gain_of_averages (c := -c / (L * H)) hf ht (averages_trig
    [β * δ, e * β * δ, α * γ - 1 * β * δ, e * α * γ - 1 * e * β * δ] [0, α * δ + β * γ, e * α * δ + e * β * γ])
    (rate := fun t => ((x t).cross (flatForce c w (x t))).dot d) fun t => ?_
  · refine key.congr (fun _ => rfl) ?_
    have h1 := frame_dot o.pp o.qq o.pq w (w.cross d)
    have h2 : w.dot (w.cross d) = 0 := by simp only [Axes.dot, Axes.cross]; ring
    have h3 : (w.cross d).dot (p.cross q) = ((p.cross q).cross w).dot d := by simp only [Axes.dot, Axes.cross]; ring
    rw [h2, h3, hα, hβ, hγ, hδ] at h1
    have h4 : w.dot (p.cross q) * ((p.cross q).cross w).dot d = -(α * γ + β * δ) := by linarith
    have h5 : Real.sqrt mu * Real.sqrt (a * (1 - e ^ 2)) ^ 3 = L * H := by
      rw [← hL, hHs, pow_succ, Real.sq_sqrt hl.le]
      ring
    rw [h5, show ∀ A B D E : ℝ, A * B / D * E = A / D * (B * E) by intros; ring, h4]
    simp only [hornerMean, cosMean]
    norm_num
    field_simp
    ring
  · have hyt := hy t
    have h2 : Real.sin (f t) ^ 2 = 1 - Real.cos (f t) ^ 2 := by linarith [Real.sin_sq_add_cos_sq (f t)]
    have e1 : ((x t).cross (flatForce c w (x t))).dot d
        = (c / 6) * -(6 * (x t).dot w / Real.sqrt ((x t).dot (x t)) ^ 5) * (x t).dot (w.cross d) := by
      unfold flatForce
      simp only [Axes.dot, Axes.cross, Axes.sub_x, Axes.sub_y, Axes.sub_z, Axes.smul_x, Axes.smul_y, Axes.smul_z]
      ring
    have e2 : Real.sqrt ((x t).dot (x t)) = L / (1 + e * Real.cos (f t)) := by
      rw [hx, plane_dot o.pp o.qq o.pq, hd, Real.sqrt_sq (by positivity)]
    have e3 : ∀ z : Axes ℝ, (x t).dot z = L / (1 + e * Real.cos (f t)) * (Real.cos (f t) * z.dot p + Real.sin (f t) * z.dot q) := by
      intro z
      rw [hx, Axes.add_dot, Axes.smul_dot, Axes.smul_dot, Axes.dot_comm p, Axes.dot_comm q]
      ring
    rw [e1, e2, e3 w, e3 (w.cross d), hα, hβ, hγ, hδ]
    generalize Real.cos (f t) = C at *
    generalize Real.sin (f t) = S at *
    simp only [horner]
    field_simp
    ring_nf
    simp only [h2]
    ring

/-- Its effect on the eccentricity vector along the line of apsides ... -/
theorem flat_eccentricity (o : Ellipse mu a e p q x v) (c : ℝ) (w : Axes ℝ) :
    Gain (fun t => (eccentricityRate mu (x t) (v t) (flatForce c w (x t))).dot p) (2 * Real.pi / orbitRate mu a) 0 := by
  obtain ⟨f, L, H, hl, hh, hL, hH, hmuL, hy, hf, ht, hx, hv, hd⟩ := o.frame
  have hmu := o.attracts
  obtain ⟨α, hα⟩ : ∃ α, w.dot p = α := ⟨_, rfl⟩
  obtain ⟨β, hβ⟩ : ∃ β, w.dot q = β := ⟨_, rfl⟩
  obtain ⟨W, hW⟩ : ∃ W, w.dot w = W := ⟨_, rfl⟩
  have key := gain_of_averages (c := c / 6 / (mu * L ^ 2)) hf ht (averages_trig
    [6 * e * α * β, 6 * e ^ 2 * α * β + 30 * α * β, 42 * e * α * β, 12 * e ^ 2 * α * β - 42 * α * β, -72 * e * α * β, -30 * e ^ 2 * α * β]
    [-3 * W + 9 * β ^ 2, -6 * W * e + 6 * e * α ^ 2 + 12 * e * β ^ 2,
      -3 * W * e ^ 2 + 6 * e ^ 2 * α ^ 2 + 3 * e ^ 2 * β ^ 2 + 21 * α ^ 2 - 21 * β ^ 2, 36 * e * α ^ 2 - 36 * e * β ^ 2,
      15 * e ^ 2 * α ^ 2 - 15 * e ^ 2 * β ^ 2])
    (rate := fun t => (eccentricityRate mu (x t) (v t) (flatForce c w (x t))).dot p) fun t => ?_
  · refine key.congr (fun _ => rfl) ?_
    simp only [hornerMean, cosMean]
    norm_num
    ring_nf
    simp
  · have hyt := hy t
    have h2 : Real.sin (f t) ^ 2 = 1 - Real.cos (f t) ^ 2 := by linarith [Real.sin_sq_add_cos_sq (f t)]
    have h3 : Real.sin (f t) ^ 3 = Real.sin (f t) * (1 - Real.cos (f t) ^ 2) := by rw [← h2]; ring
    have h4 : Real.sin (f t) ^ 4 = (1 - Real.cos (f t) ^ 2) ^ 2 := by rw [← h2]; ring
    have h5 : Real.sin (f t) ^ 5 = Real.sin (f t) * (1 - Real.cos (f t) ^ 2) ^ 2 := by rw [← h2]; ring
    have fp := fun d => flatForce_parts o.pp o.qq o.pq c (L / (1 + e * Real.cos (f t))) _ _ w (by positivity) (hd t) d
    rw [hx, hv, eccentricityRate_p o.pp o.qq o.pq, Axes.dot_add, Axes.dot_smul, Axes.dot_smul, fp, fp, hα, hβ, hW,
      Axes.dot_comm q p, o.pp, o.qq, o.pq]
    generalize Real.cos (f t) = C at *
    generalize Real.sin (f t) = S at *
    simp only [horner]
    field_simp
    ring_nf
    simp only [h2, h3, h4, h5]
    ring

/-- ... across it ... -/
theorem flat_apsides (o : Ellipse mu a e p q x v) (c : ℝ) (w : Axes ℝ) :
    Gain (fun t => (eccentricityRate mu (x t) (v t) (flatForce c w (x t))).dot q) (2 * Real.pi / orbitRate mu a)
      (e * (Real.pi * c / (2 * mu * (a * (1 - e ^ 2)) ^ 2) * (3 * w.dot (p.cross q) ^ 2 - w.dot w))) := by
  obtain ⟨f, L, H, hl, hh, hL, hH, hmuL, hy, hf, ht, hx, hv, hd⟩ := o.frame
  rw [Real.sq_sqrt (show 0 ≤ 1 - e ^ 2 by nlinarith [o.round, o.closed])] at hL
  have hmu := o.attracts
  have hn := frame_dot o.pp o.qq o.pq w w
  rw [← hL]
  obtain ⟨α, hα⟩ : ∃ α, w.dot p = α := ⟨_, rfl⟩
  obtain ⟨β, hβ⟩ : ∃ β, w.dot q = β := ⟨_, rfl⟩
  obtain ⟨W, hW⟩ : ∃ W, w.dot w = W := ⟨_, rfl⟩
  have key := gain_of_averages (c := c / 6 / (mu * L ^ 2)) hf ht (averages_trig
    [0, 3 * W + 12 * α ^ 2 - 21 * β ^ 2, 6 * W * e + 18 * e * α ^ 2 - 36 * e * β ^ 2,
      3 * W * e ^ 2 + 6 * e ^ 2 * α ^ 2 - 15 * e ^ 2 * β ^ 2 - 21 * α ^ 2 + 21 * β ^ 2, -36 * e * α ^ 2 + 36 * e * β ^ 2,
      -15 * e ^ 2 * α ^ 2 + 15 * e ^ 2 * β ^ 2]
    [12 * α * β, 18 * e * α * β, 6 * e ^ 2 * α * β - 42 * α * β, -72 * e * α * β, -30 * e ^ 2 * α * β])
    (rate := fun t => (eccentricityRate mu (x t) (v t) (flatForce c w (x t))).dot q) fun t => ?_
  · refine key.congr (fun _ => rfl) ?_
    rw [hα, hβ, hW] at hn
    have hn' : w.dot (p.cross q) ^ 2 = W - α ^ 2 - β ^ 2 := by linarith
    rw [hn', hW]
    simp only [hornerMean, cosMean]
    norm_num
    field_simp
    ring
  · have hyt := hy t
    have h2 : Real.sin (f t) ^ 2 = 1 - Real.cos (f t) ^ 2 := by linarith [Real.sin_sq_add_cos_sq (f t)]
    have h3 : Real.sin (f t) ^ 3 = Real.sin (f t) * (1 - Real.cos (f t) ^ 2) := by rw [← h2]; ring
    have h4 : Real.sin (f t) ^ 4 = (1 - Real.cos (f t) ^ 2) ^ 2 := by rw [← h2]; ring
    have h5 : Real.sin (f t) ^ 5 = Real.sin (f t) * (1 - Real.cos (f t) ^ 2) ^ 2 := by rw [← h2]; ring
    have fp := fun d => flatForce_parts o.pp o.qq o.pq c (L / (1 + e * Real.cos (f t))) _ _ w (by positivity) (hd t) d
    rw [hx, hv, eccentricityRate_q o.pp o.qq o.pq, Axes.dot_add, Axes.dot_smul, Axes.dot_smul, fp, fp, hα, hβ, hW,
      Axes.dot_comm q p, o.pp, o.qq, o.pq]
    generalize Real.cos (f t) = C at *
    generalize Real.sin (f t) = S at *
    simp only [horner]
    field_simp
    ring_nf
    simp only [h2, h3, h4, h5]
    ring

/-- ... and along the normal of the orbit. -/
theorem flat_tilt (o : Ellipse mu a e p q x v) (c : ℝ) (w : Axes ℝ) :
    Gain (fun t => (eccentricityRate mu (x t) (v t) (flatForce c w (x t))).dot (p.cross q)) (2 * Real.pi / orbitRate mu a)
      (e * (Real.pi * c / (mu * (a * (1 - e ^ 2)) ^ 2) * (w.dot (p.cross q) * w.dot q))) := by
  obtain ⟨f, L, H, hl, hh, hL, hH, hmuL, hy, hf, ht, hx, hv, hd⟩ := o.frame
  rw [Real.sq_sqrt (show 0 ≤ 1 - e ^ 2 by nlinarith [o.round, o.closed])] at hL
  have hmu := o.attracts
  rw [← hL]
  obtain ⟨α, hα⟩ : ∃ α, w.dot p = α := ⟨_, rfl⟩
  obtain ⟨β, hβ⟩ : ∃ β, w.dot q = β := ⟨_, rfl⟩
  have key := gain_of_averages (c := c * w.dot (p.cross q) * e / (mu * L ^ 2)) hf ht (averages_trig
    [β, e * β, -β, -(e * β)] [0, α, e * α])
    (rate := fun t => (eccentricityRate mu (x t) (v t) (flatForce c w (x t))).dot (p.cross q)) fun t => ?_
  · refine key.congr (fun _ => rfl) ?_
    rw [hβ]
    simp only [hornerMean, cosMean]
    norm_num
    field_simp
    ring
  · have hyt := hy t
    have h2 : Real.sin (f t) ^ 2 = 1 - Real.cos (f t) ^ 2 := by linarith [Real.sin_sq_add_cos_sq (f t)]
    have h4 : Real.sin (f t) ^ 4 = (1 - Real.cos (f t) ^ 2) ^ 2 := by rw [← h2]; ring
    have h5 : Real.sin (f t) ^ 5 = Real.sin (f t) * (1 - Real.cos (f t) ^ 2) ^ 2 := by rw [← h2]; ring
    have fp := fun d => flatForce_parts o.pp o.qq o.pq c (L / (1 + e * Real.cos (f t))) _ _ w (by positivity) (hd t) d
    have hp0 : p.dot (p.cross q) = 0 := by simp only [Axes.dot, Axes.cross]; ring
    have hq0 : q.dot (p.cross q) = 0 := by simp only [Axes.dot, Axes.cross]; ring
    have rate : ∀ F : Axes ℝ, (eccentricityRate mu (x t) (v t) F).dot (p.cross q)
        = -(1 / mu) * F.dot (p.cross q) * (L / (1 + e * Real.cos (f t)) * (H / L * (e * Real.sin (f t)))) := by
      intro F
      have e1 : (eccentricityRate mu (x t) (v t) F).dot (p.cross q)
          = 1 / mu * ((F.cross ((x t).cross (v t))).dot (p.cross q) + (x t).dot (p.cross q) * (v t).dot F
            - F.dot (p.cross q) * (x t).dot (v t)) := by
        unfold eccentricityRate
        simp only [Axes.dot, Axes.cross, Axes.add_x, Axes.add_y, Axes.add_z, Axes.smul_x, Axes.smul_y, Axes.smul_z]
        ring
      have e2 : (x t).dot (p.cross q) = 0 := by
        rw [hx, Axes.add_dot, Axes.smul_dot, Axes.smul_dot, hp0, hq0]
        ring
      have e3 : ((F.cross ((x t).cross (v t))).dot (p.cross q)) = 0 := by
        rw [hx, hv, plane_cross]
        simp only [Axes.dot, Axes.cross, Axes.smul_x, Axes.smul_y, Axes.smul_z]
        ring
      have e4 : (x t).dot (v t) = L / (1 + e * Real.cos (f t)) * (H / L * (e * Real.sin (f t))) := by
        rw [hx, hv, plane_dot o.pp o.qq o.pq]
        field_simp
        ring
      rw [e1, e2, e3, e4]
      ring
    rw [rate, hx, fp, hα, hβ, hp0, hq0]
    generalize Real.cos (f t) = C at *
    generalize Real.sin (f t) = S at *
    simp only [horner]
    field_simp
    ring_nf
    simp only [h2]
    ring

end

end Posidonius.Univ
