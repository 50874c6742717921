import Mathlib.Analysis.Calculus.ContDiff.Operations
import Mathlib.Analysis.Convex.Segment
import Mathlib.Topology.Compactness.Compact
import Verif.Lemmas.Splitting

/-! The error of a symmetric sequence of exact motions of three parts of a differential equation. -/

namespace Posidonius.Order
open Set Filter Topology

variable {E : Type} [NormedAddCommGroup E] [NormedSpace ℝ E]

/-- A rate with two continuous derivatives. -/
theorem tame_of_contDiffAt {f : E → E} {y0 : E} (hf : ContDiffAt ℝ 2 f y0) :
    ∃ C ρ, 1 ≤ C ∧ 0 < ρ ∧ ρ ≤ 1 ∧ Tame f (fderiv ℝ f) C ρ y0 := by
  have h1 : ContDiffAt ℝ 1 (fderiv ℝ f) y0 := hf.fderiv_right (by norm_num)
  obtain ⟨K, t, ht, hK⟩ := h1.exists_lipschitzOnWith
  have e1 : ∀ᶠ y in 𝓝 y0, DifferentiableAt ℝ f y := by
    filter_upwards [hf.eventually (by norm_num)] with y hy
    exact hy.differentiableAt (by norm_num)
  have e2 : ∀ᶠ y in 𝓝 y0, ‖f y‖ < ‖f y0‖ + 1 :=
    hf.continuousAt.norm.eventually_lt_const (by linarith)
  have e3 : ∀ᶠ y in 𝓝 y0, ‖fderiv ℝ f y‖ < ‖fderiv ℝ f y0‖ + 1 :=
    h1.continuousAt.norm.eventually_lt_const (by linarith)
  have e4 : ∀ᶠ y in 𝓝 y0, y ∈ t := ht
  obtain ⟨r, r0, hr⟩ := Metric.eventually_nhds_iff_ball.1 (e1.and (e2.and (e3.and e4)))
  have mem : ∀ y, ‖y - y0‖ ≤ min (r / 2) 1 → y ∈ Metric.ball y0 r := by
    intro y hy
    rw [mem_ball_iff_norm]
    exact lt_of_le_of_lt (hy.trans (min_le_left _ _)) (by linarith)
  have K0 : (0 : ℝ) ≤ K := K.coe_nonneg
  have n1 := norm_nonneg (f y0)
  have n2 := norm_nonneg (fderiv ℝ f y0)
  have lip : ∀ y z, ‖y - y0‖ ≤ min (r / 2) 1 → ‖z - y0‖ ≤ min (r / 2) 1 →
      ‖fderiv ℝ f z - fderiv ℝ f y‖ ≤ K * ‖z - y‖ := by
    intro y z hy hz
    have := hK.dist_le_mul z (hr z (mem z hz)).2.2.2 y (hr y (mem y hy)).2.2.2
    rwa [dist_eq_norm, dist_eq_norm] at this
  refine ⟨K + ‖f y0‖ + ‖fderiv ℝ f y0‖ + 1, min (r / 2) 1, by linarith, lt_min (by linarith) one_pos, min_le_right _ _,
    ⟨fun y hy => ?_, fun y hy => ?_, fun y z hy hz => ?_, fun y z hy hz => ?_⟩⟩
  · linarith [(hr y (mem y hy)).2.1]
  · linarith [(hr y (mem y hy)).2.2.1]
  · refine (lip y z hy hz).trans (mul_le_mul_of_nonneg_right (by linarith) (norm_nonneg _))
  · have sub : segment ℝ y z ⊆ Metric.closedBall y0 (min (r / 2) 1) :=
      (convex_closedBall y0 _).segment_subset (by rwa [mem_closedBall_iff_norm]) (by rwa [mem_closedBall_iff_norm])
    have := (convex_segment y z).norm_image_sub_le_of_norm_fderiv_le' (f := f) (𝕜 := ℝ) (φ := fderiv ℝ f y)
      (C := K * ‖z - y‖)
      (fun x hx => (hr x (mem x (by rw [← mem_closedBall_iff_norm]; exact sub hx))).1)
      (fun x hx => by
        refine (lip y x hy (by rw [← mem_closedBall_iff_norm]; exact sub hx)).trans (mul_le_mul_of_nonneg_left ?_ K0)
        have := norm_sub_le_of_mem_segment hx
        exact this)
      (left_mem_segment ℝ y z) (right_mem_segment ℝ y z)
    calc _ ≤ _ := this
      _ = K * ‖z - y‖ ^ 2 := by ring
      _ ≤ _ := mul_le_mul_of_nonneg_right (by linarith) (by positivity)

theorem Expands.congr {Φ : Step E} {p p' q q' : E → E} {d d' : E → E →L[ℝ] E} {C ρ : ℝ} {y0 : E}
    (e : Expands Φ p d q C ρ y0) (hp : ∀ y, p' y = p y) (hd : ∀ y, d' y = d y) (hq : ∀ y, q' y = q y) :
    Expands Φ p' d' q' C ρ y0 := by
  rwa [funext hp, funext hd, funext hq]

/-- Half a step of `k`, half a step of `j`, a step of `i`, half a step of `j`, half a step of `k`. -/
def strang (k j i : E → E) : Step E :=
  (flowStep k).half.then ((flowStep j).half.then ((flowStep i).then ((flowStep j).half.then (flowStep k).half)))

/-- The second order of the symmetric sequence is that of the exact motion. -/
theorem strang_expands {k j i : E → E} {y0 : E} (hk : ContDiffAt ℝ 2 k y0) (hj : ContDiffAt ℝ 2 j y0)
    (hi : ContDiffAt ℝ 2 i y0) {f : E → E} (hf : ∀ y, f y = k y + j y + i y) :
    ∃ C ρ, Expands (strang k j i) f (fun y => fderiv ℝ k y + fderiv ℝ j y + fderiv ℝ i y)
      (fun y => (1 / 2 : ℝ) • (fderiv ℝ k y + fderiv ℝ j y + fderiv ℝ i y) (f y)) C ρ y0 := by
  have fl : ∀ {g : E → E}, ContDiffAt ℝ 2 g y0 →
      ∃ C ρ, Expands (flowStep g) g (fderiv ℝ g) (fun y => (1 / 2 : ℝ) • fderiv ℝ g y (g y)) C ρ y0 := by
    intro g hg
    obtain ⟨C, ρ, h1, h2, h3, t⟩ := tame_of_contDiffAt hg
    exact flow_expands t h1 h2 h3
  obtain ⟨C, ρ, e⟩ := Expands.then (Expands.half (fl hk)) (Expands.then (Expands.half (fl hj))
    (Expands.then (fl hi) (Expands.then (Expands.half (fl hj)) (Expands.half (fl hk)))))
  refine ⟨C, ρ, ?_⟩
  refine e.congr (fun y => ?_) (fun y => ?_) fun y => ?_
  · rw [hf y]; module
  · module
  · rw [hf y]
    simp only [add_apply, smul_apply, map_add, map_smul]
    module

variable {Φ : Step E} {f q : E → E} {d : E → E →L[ℝ] E} {C ρ : ℝ} {y0 y1 : E}

theorem Expands.shift (e : Expands Φ f d q C ρ y0) (h : ‖y1 - y0‖ ≤ ρ / 2) : Expands Φ f d q C (ρ / 2) y1 := by
  have move : ∀ {y}, ‖y - y1‖ ≤ ρ / 2 → ‖y - y0‖ ≤ ρ := by
    intro y hy
    have : y - y0 = (y - y1) + (y1 - y0) := by abel
    rw [this]
    exact (norm_add_le _ _).trans (by linarith)
  have ρ0 := e.ρ0
  exact ⟨e.C1, by linarith, by linarith [e.ρ1],
    ⟨fun y hy => e.tame.bound y (move hy), fun y hy => e.tame.slope y (move hy),
      fun y z hy hz => e.tame.bend y z (move hy) (move hz), fun y z hy hz => e.tame.rest y z (move hy) (move hz)⟩,
    ⟨fun y hy => e.mild.bound y (move hy), fun y z hy hz => e.mild.lip y z (move hy) (move hz)⟩,
    fun h ε y z a b c f g => e.step h ε y z a (by linarith) c (by linarith) (move g)⟩

theorem Expands.uniform {Y : ℝ → E} {T : ℝ} (hY : ContinuousOn Y (Icc 0 T))
    (he : ∀ t ∈ Icc 0 T, ∃ C ρ, Expands Φ f d q C ρ (Y t)) :
    ∃ C ρ, 1 ≤ C ∧ 0 < ρ ∧ ρ ≤ 1 ∧ ∀ t ∈ Icc 0 T, Expands Φ f d q C ρ (Y t) := by
  refine isCompact_Icc.induction_on (s := Icc 0 T)
    (p := fun S => ∃ C ρ, 1 ≤ C ∧ 0 < ρ ∧ ρ ≤ 1 ∧ ∀ t ∈ S, Expands Φ f d q C ρ (Y t)) ?_ ?_ ?_ ?_
  · exact ⟨1, 1, le_rfl, one_pos, le_rfl, by simp⟩
  · rintro S S' hS ⟨C, ρ, a, b, c, e⟩
    exact ⟨C, ρ, a, b, c, fun t ht => e t (hS ht)⟩
  · rintro S S' ⟨C, ρ, a, b, c, e⟩ ⟨C', ρ', a', b', c', e'⟩
    refine ⟨max C C', min ρ ρ', a.trans (le_max_left _ _), lt_min b b', (min_le_left _ _).trans c, ?_⟩
    rintro t (ht | ht)
    · exact (e t ht).mono (le_max_left _ _) (lt_min b b') (min_le_left _ _)
    · exact (e' t ht).mono (le_max_right _ _) (lt_min b b') (min_le_right _ _)
  · intro t ht
    obtain ⟨C, ρ, e⟩ := he t ht
    have ρ0 := e.ρ0
    have near : ∀ᶠ s in 𝓝[Icc 0 T] t, dist (Y s) (Y t) < ρ / 2 :=
      (hY t ht).eventually (Metric.ball_mem_nhds _ (by linarith))
    refine ⟨{s | dist (Y s) (Y t) < ρ / 2}, near, C, ρ / 2, e.C1, by linarith, by linarith [e.ρ1], fun s hs => e.shift ?_⟩
    rw [← dist_eq_norm]
    exact le_of_lt hs

/-- **The error of many steps.** -/
theorem converges {Y : ℝ → E} {T : ℝ} (hY : ∀ t ∈ Icc 0 T, HasDerivAt Y (f (Y t)) t)
    (he : ∀ t ∈ Icc 0 T, ∃ C ρ, Expands Φ f d (fun y => (1 / 2 : ℝ) • d y (f y)) C ρ (Y t)) :
    ∃ B δ, 0 < δ ∧ ∀ h ε, 0 < h → h < δ → 0 ≤ ε → ε ≤ δ * h → ∀ (n : ℕ) (y : ℕ → E), n * h ≤ T → y 0 = Y 0 →
      (∀ m < n, Φ h ε (y m) (y (m + 1))) → ‖y n - Y (n * h)‖ ≤ B * (h ^ 2 + ε / h) := by
  have cont : ContinuousOn Y (Icc 0 T) := fun t ht => (hY t ht).continuousAt.continuousWithinAt
  obtain ⟨C1, ρ1, a1, b1, c1, e1⟩ := Expands.uniform cont he
  obtain ⟨C2, ρ2, a2, b2, c2, e2⟩ := Expands.uniform (Φ := flowStep f) cont fun t ht =>
    flow_expands (e1 t ht).tame a1 b1 c1
  obtain ⟨C, hC1, hC2⟩ : ∃ C, C1 ≤ C ∧ C2 ≤ C := ⟨max C1 C2, le_max_left _ _, le_max_right _ _⟩
  obtain ⟨ρ, ρ0, hρ1, hρ2⟩ : ∃ ρ, 0 < ρ ∧ ρ ≤ ρ1 ∧ ρ ≤ ρ2 := ⟨min ρ1 ρ2, lt_min b1 b2, min_le_left _ _, min_le_right _ _⟩
  have C0 : 1 ≤ C := a1.trans hC1
  have ρ1' : ρ ≤ 1 := hρ1.trans c1
  -- one step
  have one : ∀ h ε t y z, 0 < h → h ≤ ρ → 0 ≤ ε → ε ≤ ρ → 0 ≤ t → t + h ≤ T → ‖y - Y t‖ ≤ ρ → Φ h ε y z →
      ‖z - Y (t + h)‖ ≤ ‖y - Y t‖ * (1 + 4 * C * h) + 2 * C * (h ^ 3 + ε) := by
    intro h ε t y z h0 hh ε0 hε t0 hT hy hz
    have ht : t ∈ Icc 0 T := ⟨t0, by linarith⟩
    have x1 := (e1 t ht).mono hC1 ρ0 hρ1
    have x2 := (e2 t ht).mono hC2 ρ0 hρ2
    have hc : ‖Y t - Y t‖ ≤ ρ := by rw [sub_self, norm_zero]; exact ρ0.le
    have s1 := x1.step h ε y z h0 hh ε0 hε hy hz
    have s2 := x2.step h 0 (Y t) (Y (t + h)) h0 hh le_rfl ρ0.le hc ⟨fun s => Y (t + s), by simp, fun s hs =>
      by
        have := (hY (t + s) ⟨by linarith [hs.1], by linarith [hs.2]⟩).scomp s ((hasDerivAt_id' s).const_add t)
        rw [one_smul] at this
        exact this, by simp⟩
    have l1 := x1.tame.lip (by linarith) ρ1' hc hy
    have l2 := x1.mild.lip _ _ hc hy
    generalize hQ : (fun y => (1 / 2 : ℝ) • d y (f y)) = Q at *
    have hQ' : ∀ y, (1 / 2 : ℝ) • d y (f y) = Q y := fun y => by rw [← hQ]
    rw [hQ'] at s1 s2
    rw [hQ', hQ'] at l2
    have k : z - Y (t + h) = (z - (y + h • f y + h ^ 2 • Q y)) - (Y (t + h) - (Y t + h • f (Y t) + h ^ 2 • Q (Y t)))
        + ((y - Y t) + h • (f y - f (Y t)) + h ^ 2 • (Q y - Q (Y t))) := by module
    rw [k]
    have m1 : ‖h • (f y - f (Y t))‖ ≤ h * (3 * C * ‖y - Y t‖) := by
      rw [norm_smul, Real.norm_of_nonneg h0.le]; exact mul_le_mul_of_nonneg_left l1 h0.le
    have m2 : ‖h ^ 2 • (Q y - Q (Y t))‖ ≤ h * (C * ‖y - Y t‖) := by
      rw [norm_smul, Real.norm_of_nonneg (by positivity)]
      have : h ^ 2 ≤ h := by nlinarith
      exact mul_le_mul this l2 (norm_nonneg _) h0.le
    have m3 := (norm_add_le (y - Y t + h • (f y - f (Y t))) (h ^ 2 • (Q y - Q (Y t)))).trans
      (add_le_add_left (norm_add_le _ _) _)
    have m4 := norm_sub_le (z - (y + h • f y + h ^ 2 • Q y)) (Y (t + h) - (Y t + h • f (Y t) + h ^ 2 • Q (Y t)))
    refine (norm_add_le _ _).trans ?_
    nlinarith
  -- many steps
  set K := 4 * C with hK
  have K0 : 0 < K := by positivity
  set B := 2 * C / K * Real.exp (K * T) with hB
  have B0 : 0 < B := by positivity
  refine ⟨B, min ρ (ρ / (2 * B)), lt_min ρ0 (by positivity), fun h ε h0 hh ε0 hε n y hn hy0 hs => ?_⟩
  have hh1 : h ≤ ρ := hh.le.trans (min_le_left _ _)
  have hh2 : h ≤ ρ / (2 * B) := hh.le.trans (min_le_right _ _)
  have h1 : h ≤ 1 := hh1.trans ρ1'
  have hε1 : ε ≤ ρ := hε.trans ((mul_le_of_le_one_right (by positivity) h1).trans (min_le_left _ _))
  have quot : ε / h ≤ ρ / (2 * B) := by
    rw [div_le_iff₀ h0]
    exact hε.trans (mul_le_mul_of_nonneg_right (min_le_right _ _) h0.le)
  have room : B * (h ^ 2 + ε / h) ≤ ρ := by
    have : h ^ 2 ≤ ρ / (2 * B) := le_trans (by nlinarith) hh2
    calc B * (h ^ 2 + ε / h) ≤ B * (ρ / (2 * B) + ρ / (2 * B)) := mul_le_mul_of_nonneg_left (by linarith) B0.le
      _ = ρ := by field_simp; ring
  set D := 2 * C * (h ^ 2 + ε / h) with hD
  have D0 : 0 ≤ D := by positivity
  have Dh : D * h = 2 * C * (h ^ 3 + ε) := by rw [hD]; field_simp
  have bound : ∀ m : ℕ, m * h ≤ T → D / K * ((1 + K * h) ^ m - 1) ≤ B * (h ^ 2 + ε / h) := by
    intro m hm
    have p : (1 + K * h) ^ m ≤ Real.exp (K * T) := by
      calc (1 + K * h) ^ m ≤ Real.exp (K * h) ^ m :=
            pow_le_pow_left₀ (by positivity) (by linarith [Real.add_one_le_exp (K * h)]) m
        _ = Real.exp (m * (K * h)) := (Real.exp_nat_mul _ _).symm
        _ ≤ _ := Real.exp_le_exp.2 (by nlinarith)
    calc D / K * ((1 + K * h) ^ m - 1) ≤ D / K * Real.exp (K * T) :=
          mul_le_mul_of_nonneg_left (by linarith) (by positivity)
      _ = _ := by rw [hD, hB]; ring
  have grow : ∀ m ≤ n, ‖y m - Y (m * h)‖ ≤ D / K * ((1 + K * h) ^ m - 1) := by
    intro m
    induction m with
    | zero => intro _; simp [hy0]
    | succ m ih =>
      intro hm
      have he := ih (by omega)
      have cast : ((m + 1 : ℕ) : ℝ) * h = m * h + h := by push_cast; ring
      have mT : (m : ℝ) * h + h ≤ T := by
        rw [← cast]
        exact (mul_le_mul_of_nonneg_right (by exact_mod_cast hm) h0.le).trans hn
      have m0 : 0 ≤ (m : ℝ) * h := by positivity
      have st := one h ε (m * h) (y m) (y (m + 1)) h0 hh1 ε0 hε1 m0 mT
        ((he.trans (bound m (by linarith))).trans room) (hs m (by omega))
      rw [cast]
      have k := mul_le_mul_of_nonneg_right he (by positivity : 0 ≤ 1 + K * h)
      rw [← Dh] at st
      calc _ ≤ _ := st
        _ ≤ D / K * ((1 + K * h) ^ m - 1) * (1 + K * h) + D * h := by linarith
        _ = _ := by field_simp; ring
  exact (grow n le_rfl).trans (bound n hn)

end Posidonius.Order
