import Mathlib.Analysis.ODE.Gronwall
import Mathlib.Analysis.Calculus.MeanValue
import Mathlib.Analysis.Normed.Operator.BoundedLinearMaps
import Verif.Lemmas.Strang

/-! How solutions of differential equations depend on where they start. -/

namespace Posidonius.Order
open Set Filter Topology

variable {E : Type} [NormedAddCommGroup E] [NormedSpace ℝ E] {f : E → E}

theorem Tame.near {d : E → E →L[ℝ] E} {C ρ : ℝ} {y y0 : E} (ρ0 : 0 < ρ) (t : Tame f d C ρ y0) (h : ‖y - y0‖ ≤ ρ / 2) :
    Tame f d C (ρ / 2) y := by
  have move : ∀ {z}, ‖z - y‖ ≤ ρ / 2 → ‖z - y0‖ ≤ ρ := fun {z} hz => by
    have : z - y0 = (z - y) + (y - y0) := by abel
    rw [this]
    exact (norm_add_le _ _).trans (by linarith)
  exact ⟨fun z hz => t.bound z (move hz), fun z hz => t.slope z (move hz), fun z w hz hw => t.bend z w (move hz) (move hw),
    fun z w hz hw => t.rest z w (move hz) (move hw)⟩

theorem Tame.weaken {d : E → E →L[ℝ] E} {C C' ρ ρ' : ℝ} {y0 : E} (t : Tame f d C ρ y0) (hC : C ≤ C') (hρ : ρ' ≤ ρ) :
    Tame f d C' ρ' y0 :=
  ⟨fun y hy => (t.bound y (hy.trans hρ)).trans hC, fun y hy => (t.slope y (hy.trans hρ)).trans hC,
    fun y z hy hz => (t.bend y z (hy.trans hρ) (hz.trans hρ)).trans (mul_le_mul_of_nonneg_right hC (norm_nonneg _)),
    fun y z hy hz => (t.rest y z (hy.trans hρ) (hz.trans hρ)).trans (mul_le_mul_of_nonneg_right hC (by positivity))⟩

theorem Tame.uniform {Y : ℝ → E} {T : ℝ} (hY : ContinuousOn Y (Icc 0 T)) (smooth : ∀ t ∈ Icc 0 T, ContDiffAt ℝ 2 f (Y t)) :
    ∃ C ρ, 1 ≤ C ∧ 0 < ρ ∧ ρ ≤ 1 ∧ ∀ t ∈ Icc 0 T, Tame f (fderiv ℝ f) C ρ (Y t) := by
  refine isCompact_Icc.induction_on (s := Icc 0 T)
    (p := fun S => ∃ C ρ, 1 ≤ C ∧ 0 < ρ ∧ ρ ≤ 1 ∧ ∀ t ∈ S, Tame f (fderiv ℝ f) C ρ (Y t)) ?_ ?_ ?_ ?_
  · exact ⟨1, 1, le_rfl, one_pos, le_rfl, by simp⟩
  · rintro S S' hS ⟨C, ρ, a, b, c, e⟩
    exact ⟨C, ρ, a, b, c, fun t ht => e t (hS ht)⟩
  · rintro S S' ⟨C, ρ, a, b, c, e⟩ ⟨C', ρ', a', b', c', e'⟩
    refine ⟨max C C', min ρ ρ', a.trans (le_max_left _ _), lt_min b b', (min_le_left _ _).trans c, ?_⟩
    rintro t (ht | ht)
    · exact (e t ht).weaken (le_max_left _ _) (min_le_left _ _)
    · exact (e' t ht).weaken (le_max_right _ _) (min_le_right _ _)
  · intro t ht
    obtain ⟨C, ρ, C1, ρ0, ρ1, e⟩ := tame_of_contDiffAt (smooth t ht)
    have near : ∀ᶠ s in 𝓝[Icc 0 T] t, dist (Y s) (Y t) < ρ / 2 :=
      (hY t ht).eventually (Metric.ball_mem_nhds _ (by linarith))
    refine ⟨{s | dist (Y s) (Y t) < ρ / 2}, near, C, ρ / 2, C1, by linarith, by linarith, fun s hs => e.near ρ0 ?_⟩
    rw [← dist_eq_norm]
    exact le_of_lt hs

theorem Tame.lip_centre {d : E → E →L[ℝ] E} {C ρ : ℝ} {y0 z : E} (C1 : 1 ≤ C) (ρ1 : ρ ≤ 1) (ρ0 : 0 < ρ) (t : Tame f d C ρ y0)
    (h : ‖z - y0‖ ≤ ρ) : ‖f z - f y0‖ ≤ 2 * C * ‖z - y0‖ := by
  have h0 : ‖y0 - y0‖ ≤ ρ := by rw [sub_self, norm_zero]; exact ρ0.le
  have r := t.rest y0 z h0 h
  have s := (d y0).le_of_opNorm_le (t.slope y0 h0) (z - y0)
  have e : f z - f y0 = (f z - f y0 - d y0 (z - y0)) + d y0 (z - y0) := by abel
  have n := norm_nonneg (z - y0)
  rw [e]
  refine (norm_add_le _ _).trans ?_
  have : C * ‖z - y0‖ ^ 2 ≤ C * ‖z - y0‖ := mul_le_mul_of_nonneg_left (by nlinarith) (by linarith)
  linarith

/-- Neighbouring solutions stay together. -/
theorem stays_near {C ρ T : ℝ} (C1 : 1 ≤ C) (ρ0 : 0 < ρ) (ρ1 : ρ ≤ 1) {Y Z : ℝ → E}
    (tame : ∀ t ∈ Icc 0 T, Tame f (fderiv ℝ f) C ρ (Y t)) (hY : ∀ t ∈ Icc 0 T, HasDerivAt Y (f (Y t)) t)
    (hZ : ∀ t ∈ Icc 0 T, HasDerivAt Z (f (Z t)) t) (start : ‖Z 0 - Y 0‖ * Real.exp (2 * C * T) < ρ) :
    ∀ t ∈ Icc 0 T, ‖Z t - Y t‖ ≤ ‖Z 0 - Y 0‖ * Real.exp (2 * C * T) := by
  have cont : ContinuousOn (fun t => Z t - Y t) (Icc 0 T) := fun t ht =>
    ((hZ t ht).continuousAt.sub (hY t ht).continuousAt).continuousWithinAt
  have grow : ∀ s ∈ Icc 0 T, (∀ t ∈ Ico 0 s, ‖Z t - Y t‖ ≤ ρ) → ‖Z s - Y s‖ ≤ ‖Z 0 - Y 0‖ * Real.exp (2 * C * T) := by
    intro s hs hb
    have sub : Icc 0 s ⊆ Icc 0 T := Icc_subset_Icc_right hs.2
    have := norm_le_gronwallBound_of_norm_deriv_right_le (f := fun t => Z t - Y t) (f' := fun t => f (Z t) - f (Y t))
      (δ := ‖Z 0 - Y 0‖) (K := 2 * C) (ε := 0) (a := 0) (b := s) (cont.mono sub)
      (fun t ht => ((hZ t (sub (Ico_subset_Icc_self ht))).sub (hY t (sub (Ico_subset_Icc_self ht)))).hasDerivWithinAt) le_rfl
      (fun t ht => by
        rw [add_zero]
        exact (tame t (sub (Ico_subset_Icc_self ht))).lip_centre C1 ρ1 ρ0 (hb t ht)) s ⟨hs.1, le_rfl⟩
    rw [gronwallBound_ε0, sub_zero] at this
    refine this.trans (mul_le_mul_of_nonneg_left (Real.exp_le_exp.2 ?_) (norm_nonneg _))
    exact mul_le_mul_of_nonneg_left hs.2 (by linarith)
  by_contra! hne
  obtain ⟨t1, ht1, big⟩ := hne
  -- the first time at which the bound fails
  have all : ∀ t ∈ Icc 0 T, ‖Z t - Y t‖ < ρ := by
    by_contra! hne
    obtain ⟨t2, ht2, hb⟩ := hne
    let S := {t | t ∈ Icc 0 T ∧ ρ ≤ ‖Z t - Y t‖}
    have closed : IsClosed S := by
      have := (cont.norm).preimage_isClosed_of_isClosed isClosed_Icc (isClosed_Ici (a := ρ))
      exact this
    have bdd : BddBelow S := ⟨0, fun t ht => ht.1.1⟩
    have ne : S.Nonempty := ⟨t2, ht2, hb⟩
    have mem := closed.csInf_mem ne bdd
    have := grow (sInf S) mem.1 fun t ht => by
      by_contra! c
      exact absurd (csInf_le bdd (⟨⟨ht.1, ht.2.le.trans mem.1.2⟩, c.le⟩ : t ∈ S)) (not_le.2 ht.2)
    linarith [mem.2]
  exact absurd (grow t1 ht1 fun t ht => (all t ⟨ht.1, ht.2.le.trans ht1.2⟩).le) (not_le.2 big)

/-- What a family of solutions does near its middle. -/
theorem family_near {P : ℝ → ℝ → E} {T : ℝ} (sol : ∀ᶠ e in 𝓝 0, ∀ t ∈ Icc 0 T, HasDerivAt (P e) (f (P e t)) t)
    (smooth : ∀ t ∈ Icc 0 T, ContDiffAt ℝ 2 f (P 0 t)) {ξ : E} (start : HasDerivAt (fun e => P e 0) ξ 0) :
    ∃ B R, 0 ≤ B ∧ 0 ≤ R ∧ ∀ᶠ e in 𝓝[≠] 0, ∀ t ∈ Icc 0 T, ‖e⁻¹ • (P e t - P 0 t)‖ ≤ B
      ∧ ∃ r, ‖r‖ ≤ R * |e| ∧ HasDerivAt (fun s => e⁻¹ • (P e s - P 0 s)) (fderiv ℝ f (P 0 t) (e⁻¹ • (P e t - P 0 t)) + r) t := by
  have sol0 := sol.self_of_nhds
  obtain ⟨C, ρ, C1, ρ0, ρ1, tame⟩ := Tame.uniform (fun t ht => (sol0 t ht).continuousAt.continuousWithinAt) smooth
  obtain ⟨c, hc⟩ := start.isBigO_sub.bound
  set k := Real.exp (2 * C * T) with hk
  have k0 : 0 < k := Real.exp_pos _
  have c' : ∀ᶠ e in 𝓝 0, ‖P e 0 - P 0 0‖ ≤ |c| * |e| := hc.mono fun e he => by
    rw [sub_zero, Real.norm_eq_abs] at he
    exact he.trans (mul_le_mul_of_nonneg_right (le_abs_self c) (abs_nonneg e))
  have small : ∀ᶠ e : ℝ in 𝓝 0, |c| * |e| * k < ρ := by
    have : Tendsto (fun e : ℝ => |c| * |e| * k) (𝓝 0) (𝓝 (|c| * |(0 : ℝ)| * k)) := by
      exact ((continuous_const.mul continuous_abs).mul continuous_const).tendsto 0
    rw [abs_zero, mul_zero, zero_mul] at this
    exact this.eventually_lt_const ρ0
  refine ⟨|c| * k, C * (|c| * k) ^ 2, by positivity, by positivity, ?_⟩
  filter_upwards [nhdsWithin_le_nhds sol, nhdsWithin_le_nhds c', nhdsWithin_le_nhds small, self_mem_nhdsWithin] with e h1 h2 h3 h4
  have e0 : e ≠ 0 := h4
  have a0 : 0 < |e| := abs_pos.2 e0
  have near := stays_near C1 ρ0 ρ1 tame sol0 h1 ((mul_le_mul_of_nonneg_right h2 k0.le).trans_lt h3)
  intro t ht
  have n1 : ‖P e t - P 0 t‖ ≤ |c| * k * |e| := (near t ht).trans (by nlinarith [mul_le_mul_of_nonneg_right h2 k0.le])
  have n2 : ‖P e t - P 0 t‖ ≤ ρ := n1.trans (by linarith)
  refine ⟨?_, e⁻¹ • (f (P e t) - f (P 0 t) - fderiv ℝ f (P 0 t) (P e t - P 0 t)), ?_, ?_⟩
  · rw [norm_smul, norm_inv, Real.norm_eq_abs, inv_mul_le_iff₀ a0]
    linarith
  · rw [norm_smul, norm_inv, Real.norm_eq_abs, inv_mul_le_iff₀ a0]
    refine ((tame t ht).rest (P 0 t) (P e t) (by rw [sub_self, norm_zero]; exact ρ0.le) n2).trans ?_
    have := pow_le_pow_left₀ (norm_nonneg _) n1 2
    calc C * ‖P e t - P 0 t‖ ^ 2 ≤ C * (|c| * k * |e|) ^ 2 := mul_le_mul_of_nonneg_left this (by linarith)
      _ = |e| * (C * (|c| * k) ^ 2 * |e|) := by ring
  · have := ((h1 t ht).sub (sol0 t ht)).const_smul e⁻¹
    refine this.congr_deriv ?_
    rw [map_smul, ← smul_add]
    congr 1
    abel

/-- A solution is differentiable in its start. -/
theorem flow_differentiable [CompleteSpace E] {P : ℝ → ℝ → E} {T : ℝ} (T0 : 0 ≤ T)
    (sol : ∀ᶠ e in 𝓝 0, ∀ t ∈ Icc 0 T, HasDerivAt (P e) (f (P e t)) t)
    (smooth : ∀ t ∈ Icc 0 T, ContDiffAt ℝ 2 f (P 0 t)) {ξ : E} (start : HasDerivAt (fun e => P e 0) ξ 0) :
    ∃ ξ', HasDerivAt (fun e => P e T) ξ' 0 := by
  have sol0 := sol.self_of_nhds
  obtain ⟨C, ρ, C1, ρ0, ρ1, tame⟩ := Tame.uniform (fun t ht => (sol0 t ht).continuousAt.continuousWithinAt) smooth
  obtain ⟨B, R, B0, R0, near⟩ := family_near sol smooth start
  have C0 : 0 < C := by linarith
  set k := Real.exp (C * T) with hk
  have k0 : 0 < k := Real.exp_pos _
  have slope : Tendsto (fun e => e⁻¹ • (P e 0 - P 0 0)) (𝓝[≠] 0) (𝓝 ξ) := by
    have := hasDerivAt_iff_tendsto_slope_zero.1 start
    simpa using this
  have cauchy : Cauchy (map (fun e => e⁻¹ • (P e T - P 0 T)) (𝓝[≠] 0)) := by
    rw [Metric.cauchy_iff]
    refine ⟨inferInstance, fun η η0 => ?_⟩
    set q := η / (k * (2 + 2 * R / C) + 1) with hq
    have den : 0 < k * (2 + 2 * R / C) + 1 := by positivity
    have q0 : 0 < q := div_pos η0 den
    have s1 : ∀ᶠ e in 𝓝[≠] (0 : ℝ), dist (e⁻¹ • (P e 0 - P 0 0)) ξ < q := slope.eventually (Metric.ball_mem_nhds _ q0)
    have s2 : ∀ᶠ e in 𝓝[≠] (0 : ℝ), |e| < q := nhdsWithin_le_nhds
      ((continuous_abs.tendsto (0 : ℝ)).eventually_lt_const (by simpa using q0))
    refine ⟨_, image_mem_map (near.and (s1.and s2)), ?_⟩
    rintro _ ⟨a, ⟨na, a1, a2⟩, rfl⟩ _ ⟨b, ⟨nb, b1, b2⟩, rfl⟩
    choose ra ra1 ra2 using fun t ht => (na t ht).2
    choose rb rb1 rb2 using fun t ht => (nb t ht).2
    have cont : ContinuousOn (fun t => a⁻¹ • (P a t - P 0 t) - b⁻¹ • (P b t - P 0 t)) (Icc 0 T) := fun t ht =>
      ((ra2 t ht).continuousAt.sub (rb2 t ht).continuousAt).continuousWithinAt
    have g := norm_le_gronwallBound_of_norm_deriv_right_le
      (f := fun t => a⁻¹ • (P a t - P 0 t) - b⁻¹ • (P b t - P 0 t))
      (f' := fun t => deriv (fun t => a⁻¹ • (P a t - P 0 t) - b⁻¹ • (P b t - P 0 t)) t)
      (δ := 2 * q) (K := C) (ε := 2 * R * q) (a := 0) (b := T) cont
      (fun t ht => ((ra2 t (Ico_subset_Icc_self ht)).sub
        (rb2 t (Ico_subset_Icc_self ht))).differentiableAt.hasDerivAt.hasDerivWithinAt)
      (by
        rw [← dist_eq_norm]
        exact (dist_triangle_right _ _ ξ).trans (by linarith))
      (fun t ht => by
        have ht' := Ico_subset_Icc_self ht
        have := ((ra2 t ht').sub (rb2 t ht')).deriv
        have e : fderiv ℝ f (P 0 t) (a⁻¹ • (P a t - P 0 t)) + ra t ht' - (fderiv ℝ f (P 0 t) (b⁻¹ • (P b t - P 0 t)) + rb t ht')
            = fderiv ℝ f (P 0 t) (a⁻¹ • (P a t - P 0 t) - b⁻¹ • (P b t - P 0 t)) + (ra t ht' - rb t ht') := by
          rw [map_sub]; abel
        rw [e] at this
        have this' : deriv (fun t => a⁻¹ • (P a t - P 0 t) - b⁻¹ • (P b t - P 0 t)) t = _ := this
        rw [this']
        refine (norm_add_le _ _).trans (add_le_add ?_ ?_)
        · exact ContinuousLinearMap.le_of_opNorm_le _ ((tame t ht').slope _ (by rw [sub_self, norm_zero]; exact ρ0.le)) _
        · refine (norm_sub_le _ _).trans ?_
          nlinarith [ra1 t ht', rb1 t ht', mul_le_mul_of_nonneg_left a2.le R0, mul_le_mul_of_nonneg_left b2.le R0])
      T ⟨T0, le_rfl⟩
    rw [gronwallBound_of_K_ne_0 C0.ne', sub_zero] at g
    rw [dist_eq_norm]
    refine g.trans_lt ?_
    dsimp only
    rw [← hk]
    calc 2 * q * k + 2 * R * q / C * (k - 1) ≤ 2 * q * k + 2 * R * q / C * k := by
          have : 0 ≤ 2 * R * q / C := by positivity
          nlinarith
      _ = k * (2 + 2 * R / C) * q := by ring
      _ < (k * (2 + 2 * R / C) + 1) * q := by nlinarith
      _ = η := by rw [hq]; field_simp
  obtain ⟨ξ', h⟩ := CompleteSpace.complete cauchy
  refine ⟨ξ', hasDerivAt_iff_tendsto_slope_zero.2 ?_⟩
  simp only [zero_add]
  exact h

/-- A bilinear form that the linearized equation keeps is the same at the start and at the end. -/
theorem flow_form {P Q : ℝ → ℝ → E} {T : ℝ} (T0 : 0 ≤ T)
    (solP : ∀ᶠ e in 𝓝 0, ∀ t ∈ Icc 0 T, HasDerivAt (P e) (f (P e t)) t)
    (solQ : ∀ᶠ e in 𝓝 0, ∀ t ∈ Icc 0 T, HasDerivAt (Q e) (f (Q e t)) t) (same : Q 0 = P 0)
    (smooth : ∀ t ∈ Icc 0 T, ContDiffAt ℝ 2 f (P 0 t)) (ω : E →L[ℝ] E →L[ℝ] ℝ)
    (keep : ∀ t ∈ Icc 0 T, ∀ x y, ω (fderiv ℝ f (P 0 t) x) y + ω x (fderiv ℝ f (P 0 t) y) = 0)
    {ξ η ξ' η' : E} (hξ : HasDerivAt (fun e => P e 0) ξ 0) (hη : HasDerivAt (fun e => Q e 0) η 0)
    (hξ' : HasDerivAt (fun e => P e T) ξ' 0) (hη' : HasDerivAt (fun e => Q e T) η' 0) : ω ξ' η' = ω ξ η := by
  obtain ⟨B, R, B0, R0, nearP⟩ := family_near solP smooth hξ
  obtain ⟨B', R', B0', R0', nearQ⟩ := family_near solQ (by rw [same]; exact smooth) hη
  have slope : ∀ {p : ℝ → E} {x : E}, HasDerivAt p x 0 → Tendsto (fun e => e⁻¹ • (p e - p 0)) (𝓝[≠] 0) (𝓝 x) := by
    intro p x h
    simpa using hasDerivAt_iff_tendsto_slope_zero.1 h
  have lim : ∀ {p q : ℝ → E} {x y : E}, HasDerivAt p x 0 → HasDerivAt q y 0 →
      Tendsto (fun e => ω (e⁻¹ • (p e - p 0)) (e⁻¹ • (q e - q 0))) (𝓝[≠] 0) (𝓝 (ω x y)) := by
    intro p q x y h1 h2
    exact (ω.isBoundedBilinearMap.continuous.tendsto (x, y)).comp ((slope h1).prodMk_nhds (slope h2))
  have l0 := lim hξ hη
  have lT := lim hξ' hη'
  have diff := lT.sub l0
  have s0 : Q 0 0 = P 0 0 := by rw [same]
  have sT : Q 0 T = P 0 T := by rw [same]
  simp only [s0, sT] at diff
  simp only [same] at nearQ
  have zero : Tendsto (fun e => ω (e⁻¹ • (P e T - P 0 T)) (e⁻¹ • (Q e T - P 0 T))
      - ω (e⁻¹ • (P e 0 - P 0 0)) (e⁻¹ • (Q e 0 - P 0 0))) (𝓝[≠] 0) (𝓝 0) := by
    have bound : ∀ᶠ e in 𝓝[≠] (0 : ℝ), ‖ω (e⁻¹ • (P e T - P 0 T)) (e⁻¹ • (Q e T - P 0 T))
        - ω (e⁻¹ • (P e 0 - P 0 0)) (e⁻¹ • (Q e 0 - P 0 0))‖ ≤ (‖ω‖ * (R * B' + B * R') * T) * |e| := by
      filter_upwards [nearP, nearQ] with e hP hQ
      have := Convex.norm_image_sub_le_of_norm_hasDerivWithin_le (𝕜 := ℝ) (s := Icc 0 T) (x := 0) (y := T)
        (f := fun t => ω (e⁻¹ • (P e t - P 0 t)) (e⁻¹ • (Q e t - P 0 t)))
        (f' := fun t => deriv (fun t => ω (e⁻¹ • (P e t - P 0 t)) (e⁻¹ • (Q e t - P 0 t))) t)
        (C := ‖ω‖ * (R * B' + B * R') * |e|) (fun t ht => ?_) (fun t ht => ?_) (convex_Icc 0 T) ⟨le_rfl, T0⟩ ⟨T0, le_rfl⟩
      · rw [sub_zero, Real.norm_eq_abs T, abs_of_nonneg T0] at this
        exact this.trans_eq (by ring)
      all_goals
        obtain ⟨bp, r, hr, dp⟩ := hP t ht
        obtain ⟨bq, s, hs, dq⟩ := hQ t ht
        have d := ω.hasDerivAt_of_bilinear (fun _ => dp) (fun _ => dq)
      · exact d.differentiableAt.hasDerivAt.hasDerivWithinAt
      · rw [d.deriv]
        have k := keep t ht (e⁻¹ • (P e t - P 0 t)) (e⁻¹ • (Q e t - P 0 t))
        generalize e⁻¹ • (P e t - P 0 t) = x at *
        generalize e⁻¹ • (Q e t - P 0 t) = y at *
        have e1 : ω x (fderiv ℝ f (P 0 t) y + s) + ω (fderiv ℝ f (P 0 t) x + r) y = ω x s + ω r y := by
          rw [map_add, map_add, ContinuousLinearMap.add_apply]
          linarith
        rw [e1]
        refine (norm_add_le _ _).trans ?_
        have b1 := ω.le_opNorm₂ x s
        have b2 := ω.le_opNorm₂ r y
        have n := norm_nonneg ω
        have c1 : ‖x‖ * ‖s‖ ≤ B * (R' * |e|) := mul_le_mul bp hs (norm_nonneg _) B0
        have c2 : ‖r‖ * ‖y‖ ≤ R * |e| * B' := mul_le_mul hr bq (norm_nonneg _) (by positivity)
        have d1 := mul_le_mul_of_nonneg_left c1 n
        have d2 := mul_le_mul_of_nonneg_left c2 n
        linarith
    have up : Tendsto (fun e : ℝ => (‖ω‖ * (R * B' + B * R') * T) * |e|) (𝓝[≠] 0) (𝓝 0) := by
      have : Tendsto (fun e : ℝ => (‖ω‖ * (R * B' + B * R') * T) * |e|) (𝓝 0) (𝓝 ((‖ω‖ * (R * B' + B * R') * T) * |0|)) :=
        (continuous_const.mul continuous_abs).tendsto 0
      rw [abs_zero, mul_zero] at this
      exact this.mono_left nhdsWithin_le_nhds
    exact squeeze_zero_norm' bound up
  exact sub_eq_zero.1 (tendsto_nhds_unique diff zero)

end Posidonius.Order
