import Verif.Lemmas.Stumpff

/-! The accuracy of the Stumpff functions of the code for hyperbolic orbits, where they grow exponentially. -/

namespace Posidonius.WHFast
open Posidonius

theorem exact_lower {z : ℝ} (h : z ≤ 0) : 1 ≤ (stumpffExact z).g0 ∧ 1 ≤ (stumpffExact z).g1
    ∧ 1 / 2 ≤ (stumpffExact z).g2 ∧ 1 / 6 ≤ (stumpffExact z).g3 := by
  have hz : 0 ≤ -z := by linarith
  have s0 := sum_le_hasSum (Finset.range 2) (fun n _ => by positivity) (hasSum_c0 z)
  have s1 := sum_le_hasSum (Finset.range 2) (fun n _ => by positivity) (hasSum_c1 z)
  simp only [Finset.sum_range_succ, Finset.sum_range_zero, pow_zero, pow_one, mul_zero, Nat.factorial, Nat.cast_one,
    Nat.cast_ofNat, mul_one, zero_add, div_one, Nat.succ_eq_add_one] at s0 s1
  norm_num at s0 s1
  obtain ⟨r0, r1⟩ := exact_relations z
  refine ⟨by linarith, by linarith, ?_, ?_⟩
  · rcases h.eq_or_lt with h0 | h0
    · rw [h0, stumpffExact_zero]
    · by_contra hc
      rw [not_le] at hc
      nlinarith
  · rcases h.eq_or_lt with h0 | h0
    · rw [h0, stumpffExact_zero]
    · by_contra hc
      rw [not_le] at hc
      nlinarith

/-- Largest relative difference. -/
def Gs.Relative (c d : Gs ℝ) (e : ℝ) : Prop :=
  |c.g0 - d.g0| ≤ e * d.g0 ∧ |c.g1 - d.g1| ≤ e * d.g1 ∧ |c.g2 - d.g2| ≤ e * d.g2 ∧ |c.g3 - d.g3| ≤ e * d.g3

theorem product_relative {a b a' b' e : ℝ} (ha : 0 ≤ a) (hb : 0 ≤ b) (h1 : |a' - a| ≤ e * a) (h2 : |b' - b| ≤ e * b)
    (he : 0 ≤ e) : |a' * b' - a * b| ≤ (2 * e + e ^ 2) * (a * b) := by
  have : a' * b' - a * b = (a' - a) * (b' - b) + (a' - a) * b + a * (b' - b) := by ring
  rw [this]
  calc |(a' - a) * (b' - b) + (a' - a) * b + a * (b' - b)|
      ≤ |(a' - a) * (b' - b)| + |(a' - a) * b| + |a * (b' - b)| := abs_add_three _ _ _
    _ = |a' - a| * |b' - b| + |a' - a| * b + a * |b' - b| := by
        rw [abs_mul, abs_mul, abs_mul, abs_of_nonneg ha, abs_of_nonneg hb]
    _ ≤ (e * a) * (e * b) + (e * a) * b + a * (e * b) := by gcongr
    _ = _ := by ring

theorem quadruple_relative {z e : ℝ} (hz : z ≤ 0) (he : 0 ≤ e) {c : Gs ℝ} (h : c.Relative (stumpffExact z) e) :
    (quadruple c).Relative (stumpffExact (4 * z)) (4 * e * (1 + e / 2)) := by
  obtain ⟨b0, b1, b2, b3⟩ := exact_lower hz
  rw [← quadruple_exact]
  generalize stumpffExact z = d at *
  obtain ⟨h0, h1, h2, h3⟩ := h
  have p00 := product_relative (by linarith) (by linarith) h0 h0 he
  have p01 := product_relative (by linarith) (by linarith) h0 h1 he
  have p11 := product_relative (by linarith) (by linarith) h1 h1 he
  have p03 := product_relative (by linarith) (by linarith) h0 h3 he
  have l2 : (lit 2 : ℝ) = 2 := by simp
  have l1 : (lit 1 : ℝ) = 1 := by simp
  have l4 : (lit 0.25 : ℝ) = 1 / 4 := by simp only [lit_real]; norm_num
  have l5 : (lit 0.5 : ℝ) = 1 / 2 := by simp only [lit_real]; norm_num
  have hf : 2 * (2 * e + e ^ 2) = 4 * e * (1 + e / 2) := by ring
  have hf' : 2 * e + e ^ 2 ≤ 4 * e * (1 + e / 2) := by nlinarith
  have m01 : 0 ≤ d.g0 * d.g1 := by apply mul_nonneg <;> linarith
  have m11 : 0 ≤ d.g1 * d.g1 := by apply mul_nonneg <;> linarith
  have m03 : 0 ≤ d.g0 * d.g3 := by apply mul_nonneg <;> linarith
  refine ⟨?_, ?_, ?_, ?_⟩
  · simp only [quadruple, l2, l1]
    rw [show 2 * c.g0 * c.g0 - 1 - (2 * d.g0 * d.g0 - 1) = 2 * (c.g0 * c.g0 - d.g0 * d.g0) by ring, abs_mul, abs_two,
      ← hf]
    have : d.g0 * d.g0 ≤ 2 * d.g0 * d.g0 - 1 := by nlinarith
    calc 2 * |c.g0 * c.g0 - d.g0 * d.g0| ≤ 2 * ((2 * e + e ^ 2) * (d.g0 * d.g0)) := by gcongr
      _ = 2 * (2 * e + e ^ 2) * (d.g0 * d.g0) := by ring
      _ ≤ _ := by gcongr
  · simp only [quadruple]
    exact p01.trans (by gcongr)
  · simp only [quadruple, l5]
    rw [show c.g1 * c.g1 * (1 / 2) - d.g1 * d.g1 * (1 / 2) = (1 / 2) * (c.g1 * c.g1 - d.g1 * d.g1) by ring, abs_mul,
      abs_of_pos (by norm_num : (0 : ℝ) < 1 / 2)]
    calc (1 / 2) * |c.g1 * c.g1 - d.g1 * d.g1| ≤ (1 / 2) * ((2 * e + e ^ 2) * (d.g1 * d.g1)) := by gcongr
      _ = (2 * e + e ^ 2) * (d.g1 * d.g1 * (1 / 2)) := by ring
      _ ≤ _ := by gcongr
  · simp only [quadruple, l4]
    rw [show (c.g2 + c.g0 * c.g3) * (1 / 4) - (d.g2 + d.g0 * d.g3) * (1 / 4)
      = (1 / 4) * ((c.g2 - d.g2) + (c.g0 * c.g3 - d.g0 * d.g3)) by ring, abs_mul,
      abs_of_pos (by norm_num : (0 : ℝ) < 1 / 4)]
    have h4 : e * d.g2 ≤ (2 * e + e ^ 2) * d.g2 := by
      gcongr
      nlinarith
    calc (1 / 4) * |c.g2 - d.g2 + (c.g0 * c.g3 - d.g0 * d.g3)|
        ≤ (1 / 4) * ((2 * e + e ^ 2) * d.g2 + (2 * e + e ^ 2) * (d.g0 * d.g3)) := by
          gcongr
          exact (abs_add_le _ _).trans (add_le_add (h2.trans h4) p03)
      _ = (2 * e + e ^ 2) * ((d.g2 + d.g0 * d.g3) * (1 / 4)) := by ring
      _ ≤ _ := by
          have : 0 ≤ (d.g2 + d.g0 * d.g3) * (1 / 4) := by linarith
          gcongr

theorem Gs.Relative.mono {z e e' : ℝ} (hz : z ≤ 0) (h : e ≤ e') {c : Gs ℝ} (hc : c.Relative (stumpffExact z) e) :
    c.Relative (stumpffExact z) e' := by
  obtain ⟨b0, b1, b2, b3⟩ := exact_lower hz
  obtain ⟨h0, h1, h2, h3⟩ := hc
  exact ⟨h0.trans (by gcongr), h1.trans (by gcongr), h2.trans (by gcongr), h3.trans (by gcongr)⟩

theorem iterate_relative {w e : ℝ} (hw : w ≤ 0) (he : 0 ≤ e) {c : Gs ℝ} (h : c.Relative (stumpffExact w) e) (n : ℕ)
    (hn : 4 ^ n * e ≤ 1 / 2) :
    (quadruple^[n] c).Relative (stumpffExact (4 ^ n * w)) (4 ^ n * e / (1 - 4 ^ n * e)) := by
  induction n with
  | zero =>
    simp only [Function.iterate_zero, id, pow_zero, one_mul] at hn ⊢
    exact h.mono hw (by rw [le_div_iff₀ (by linarith)]; nlinarith)
  | succ n ih =>
    have hpow : (4 : ℝ) ^ (n + 1) = 4 * 4 ^ n := by ring
    have hpos : (0 : ℝ) < 4 ^ n := by positivity
    rw [hpow] at hn ⊢
    set a := (4 : ℝ) ^ n * e with ha
    have ha0 : 0 ≤ a := by positivity
    have ha1 : 4 * a ≤ 1 / 2 := by rw [ha]; linarith
    have hneg : 4 ^ n * w ≤ 0 := mul_nonpos_of_nonneg_of_nonpos hpos.le hw
    have h3 := quadruple_relative hneg (div_nonneg ha0 (by linarith)) (ih (by linarith))
    rw [← Function.iterate_succ_apply' quadruple, show 4 * (4 ^ n * w) = 4 * 4 ^ n * w by ring] at h3
    refine h3.mono (by nlinarith) ?_
    rw [show 4 * 4 ^ n * e = 4 * a by rw [ha]; ring]
    have h5 : 0 < 1 - a := by linarith
    have h6 : 0 < 1 - 4 * a := by linarith
    rw [show 4 * (a / (1 - a)) * (1 + a / (1 - a) / 2) = 2 * a * (2 - a) / (1 - a) ^ 2 by field_simp; ring]
    rw [div_le_div_iff₀ (by positivity) h6]
    nlinarith [mul_nonneg ha0 ha0]

/-- The series is accurate to 1.2e-16, relative to the functions. -/
theorem series_relative {z : ℝ} (hz : z ≤ 0) (h : |z| ≤ 1 / 10) :
    (stumpffSeries z).Relative (stumpffExact z) 1.2e-16 := by
  obtain ⟨b0, b1, b2, b3⟩ := exact_lower hz
  obtain ⟨a0, a1, a2, a3⟩ := series_accuracy h
  rw [abs_sub_comm] at a0 a1 a2 a3
  refine ⟨a0.trans ?_, a1.trans ?_, a2.trans ?_, a3.trans ?_⟩ <;> linarith

/-- The Stumpff functions of the code are accurate for hyperbolic orbits. -/
theorem stumpff_relative {z : ℝ} (h : z ≤ 0) (h1 : -1e13 ≤ z) : ∃ c N, (∀ fuel, N ≤ fuel → stumpff fuel z = some c)
    ∧ c.Relative (stumpffExact z) (6e-15 * max 1 (-z)) := by
  obtain ⟨w, n, N, e1, e2, e3, e4⟩ := reduceArgument_ends z
  refine ⟨quadruple^[n] (stumpffSeries w), N, fun fuel hf => by simp [stumpff, e1 fuel hf], ?_⟩
  have hpow : (0 : ℝ) < 4 ^ n := by positivity
  have hw : w ≤ 0 := by
    by_contra hneg
    rw [not_le] at hneg
    have := mul_pos hpow hneg
    linarith
  have hc := series_relative hw e2
  rw [abs_of_nonpos hw] at e2 e4
  have hn : (4 : ℝ) ^ n ≤ max 1 (40 * -z) := by
    rcases Nat.eq_zero_or_pos n with h0 | h0
    · subst h0; simp
    · have := e4 h0.ne'
      refine le_trans ?_ (le_max_right _ _)
      rw [e3]
      nlinarith
  have hz : max 1 (40 * -z) ≤ 40 * max 1 (-z) := by
    rw [max_le_iff]
    constructor
    · have := le_max_left 1 (-z); linarith
    · have := le_max_right 1 (-z); linarith
  have hmax : max 1 (-z) ≤ 1e13 := max_le (by norm_num) (by linarith)
  have hsmall : (4 : ℝ) ^ n * 1.2e-16 ≤ 0.048 := by
    calc (4 : ℝ) ^ n * 1.2e-16 ≤ 40 * 1e13 * 1.2e-16 := by
          have : (4 : ℝ) ^ n ≤ 40 * 1e13 := by linarith
          gcongr
      _ = 0.048 := by norm_num
  have h5 := iterate_relative hw (by norm_num) hc n (by linarith)
  rw [← e3] at h5
  refine h5.mono h ?_
  have h6 : (4 : ℝ) ^ n * 1.2e-16 ≤ 40 * max 1 (-z) * 1.2e-16 := by
    have : (4 : ℝ) ^ n ≤ 40 * max 1 (-z) := by linarith
    gcongr
  rw [div_le_iff₀ (by linarith)]
  have h7 : (0 : ℝ) < max 1 (-z) := lt_of_lt_of_le one_pos (le_max_left _ _)
  nlinarith

end Posidonius.WHFast
