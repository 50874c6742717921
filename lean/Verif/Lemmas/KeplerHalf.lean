import Verif.Lemmas.KeplerEllipse

/-! The solver of Kepler's equation for eccentricities up to one half. -/

namespace Posidonius.Tools
open Posidonius

private theorem pi_re' : (pi : ℝ) = Real.pi := rfl

private theorem quo {x y f m K : ℝ} (h : x * y = f) (hm : 0 < m) (hy : m ≤ y) (hf : |f| ≤ K * m) : |x| ≤ K := by
  have h1 : |x| * y = |f| := by rw [← h, abs_mul, abs_of_pos (by linarith : 0 < y)]
  have h2 : |x| * m ≤ |x| * y := mul_le_mul_of_nonneg_left hy (abs_nonneg _)
  exact le_of_mul_le_mul_right (by linarith) hm

private theorem prod {x y A B C : ℝ} (hx : |x| ≤ A) (hy : |y| ≤ B) (h : A * B ≤ C) : |x * y| ≤ C := by
  rw [abs_mul]
  exact (mul_le_mul hx hy (abs_nonneg _) ((abs_nonneg _).trans hx)).trans h

/-- The last step, from an error of at most 0.036. -/
theorem finish_half {e l u s c f0 f1 f2 f3 a b δ : ℝ} (he : 0 ≤ e) (he1 : e ≤ 1 / 2)
    (hs : |s - Real.sin u| ≤ 1 / 10 ^ 16) (hc : |c - Real.cos u| ≤ 1 / 10 ^ 16) (h0 : |f0| ≤ 36 / 1000)
    (hf0 : f0 = l - u + e * s) (hf1 : f1 = 1 - e * c) (hf2 : f2 = 1 / 2 * e * s) (hf3 : f3 = e / 6 * c)
    (ha0 : a = f0 / f1) (hb0 : b = f0 / (f2 * a + f1)) (hδ0 : δ = f0 / ((f3 * a + f2) * b + f1)) :
    |u + δ - e * Real.sin (u + δ) - l| ≤ 1 / 10 ^ 5 := by
  have hs1 : |s| ≤ 1001 / 1000 := by
    have := Real.abs_sin_le_one u
    have h2 := abs_sub_abs_le_abs_sub s (Real.sin u)
    linarith
  have hc1 : |c| ≤ 1001 / 1000 := by
    have := Real.abs_cos_le_one u
    have h2 := abs_sub_abs_le_abs_sub c (Real.cos u)
    linarith
  have ea : |e| ≤ 1 / 2 := by rwa [abs_of_nonneg he]
  have f2b : |f2| ≤ 251 / 1000 := by
    rw [hf2, mul_assoc]
    exact prod (A := 1 / 2) (by norm_num [abs_of_pos]) (prod ea hs1 le_rfl) (by norm_num)
  have f3b : |f3| ≤ 84 / 1000 := by
    rw [hf3, div_mul_eq_mul_div, abs_div, abs_of_pos (by norm_num : (0 : ℝ) < 6)]
    have := prod ea hc1 le_rfl
    rw [div_le_iff₀ (by norm_num)]
    linarith
  have ec : |e * c| ≤ 501 / 1000 := prod ea hc1 (by norm_num)
  have f1b : 499 / 1000 ≤ f1 := by have := (abs_le.1 ec).2; linarith
  have ha : a * f1 = f0 := by
    rw [ha0]; exact div_mul_cancel₀ _ (by linarith)
  have ab : |a| ≤ 73 / 1000 := quo ha (by norm_num) f1b (by linarith)
  have d1 : |f2 * a| ≤ 18323 / 1000000 := prod f2b ab (by norm_num)
  have hD' : 48 / 100 ≤ f2 * a + f1 := by have := (abs_le.1 d1).1; linarith
  have hb : b * (f2 * a + f1) = f0 := by
    have h : f2 * a + f1 ≠ 0 := by linarith
    rw [hb0]; exact div_mul_cancel₀ _ h
  have bb : |b| ≤ 755 / 10000 := quo hb (by norm_num) hD' (by linarith)
  have d2 : |f3 * a| ≤ 6132 / 1000000 := prod f3b ab (by norm_num)
  have d3 : |f3 * a + f2| ≤ 258 / 1000 := (abs_add_le _ _).trans (by linarith)
  have d4 : |(f3 * a + f2) * b| ≤ 195 / 10000 := prod d3 bb (by norm_num)
  have hD : 479 / 1000 ≤ (f3 * a + f2) * b + f1 := by have := (abs_le.1 d4).1; linarith
  have hδ : δ * ((f3 * a + f2) * b + f1) = f0 := by
    have h : (f3 * a + f2) * b + f1 ≠ 0 := by linarith
    rw [hδ0]; exact div_mul_cancel₀ _ h
  have δb : |δ| ≤ 755 / 10000 := quo hδ (by norm_num) hD (by linarith)
  have hab : |a - b| ≤ 28 / 10000 := by
    have e1 : (a - b) * f1 = f2 * a * b := by linear_combination ha - hb
    exact quo e1 (by norm_num) f1b (prod d1 bb (by norm_num))
  have hDD : |f2 * (a - b) - f3 * a * b| ≤ 12 / 10000 := by
    refine (abs_sub _ _).trans ?_
    have e1 := prod f2b hab le_rfl
    have e2 := prod d2 bb le_rfl
    linarith
  have hδb : |δ - b| ≤ 2 / 10000 := by
    have e1 : (δ - b) * (f2 * a + f1) = δ * (f2 * (a - b) - f3 * a * b) := by linear_combination hδ - hb
    exact quo e1 (by norm_num) hD' (prod δb hDD (by norm_num))
  have hsq : |δ ^ 2 - a * b| ≤ 25 / 100000 := by
    have e0 : δ ^ 2 - a * b = (δ + b) * (δ - b) - b * (a - b) := by ring
    rw [e0]
    refine (abs_sub _ _).trans ?_
    have e1 : |δ + b| ≤ 151 / 1000 := (abs_add_le _ _).trans (by linarith)
    have e2 := prod e1 hδb le_rfl
    have e3 := prod bb hab le_rfl
    linarith
  have hbr : |f2 * (δ - b) + f3 * (δ ^ 2 - a * b)| ≤ 72 / 1000000 := by
    refine (abs_add_le _ _).trans ?_
    have e1 := prod f2b hδb le_rfl
    have e2 := prod f3b hsq le_rfl
    linarith
  have hmain : |δ * (f2 * (δ - b) + f3 * (δ ^ 2 - a * b))| ≤ 55 / 10 ^ 7 := prod δb hbr (by norm_num)
  have ht := sin_add_three u δ (by linarith)
  set T := Real.sin (u + δ) - (Real.sin u + δ * Real.cos u - δ ^ 2 / 2 * Real.sin u - δ ^ 3 / 6 * Real.cos u) with hT
  have hR : u + δ - e * Real.sin (u + δ) - l = δ * (f2 * (δ - b) + f3 * (δ ^ 2 - a * b))
      - e * (T - (s - Real.sin u) * (1 - δ ^ 2 / 2) - (c - Real.cos u) * (δ - δ ^ 3 / 6)) := by
    have e1 : δ * f1 = f0 - δ * ((f3 * a + f2) * b) := by linear_combination hδ
    rw [hT]
    linear_combination e1 + hf0 - δ * hf1 - δ ^ 2 * hf2 - δ ^ 3 * hf3
  have q1 : |(s - Real.sin u) * (1 - δ ^ 2 / 2)| ≤ 1 / 10 ^ 16 := by
    refine prod (B := 1) hs ?_ (by norm_num)
    have := pow_le_pow_left₀ (abs_nonneg _) δb 2
    rw [sq_abs] at this
    norm_num at this
    rw [abs_le]; constructor <;> linarith [sq_nonneg δ]
  have q2 : |(c - Real.cos u) * (δ - δ ^ 3 / 6)| ≤ 1 / 10 ^ 16 := by
    refine prod (B := 1) hc ?_ (by norm_num)
    refine (abs_sub _ _).trans ?_
    rw [abs_div, abs_pow]
    have : |δ| ^ 3 ≤ (755 / 10000) ^ 3 := pow_le_pow_left₀ (abs_nonneg _) δb 3
    norm_num at this ⊢
    linarith
  have q3 : |T| ≤ 15 / 10 ^ 7 := by
    refine ht.trans ?_
    have k4 : |δ| ^ 4 ≤ (755 / 10000) ^ 4 := pow_le_pow_left₀ (abs_nonneg _) δb 4
    have k5 : |δ| ^ 5 ≤ (755 / 10000) ^ 5 := pow_le_pow_left₀ (abs_nonneg _) δb 5
    norm_num at k4 k5 ⊢
    linarith
  have q4 : |T - (s - Real.sin u) * (1 - δ ^ 2 / 2) - (c - Real.cos u) * (δ - δ ^ 3 / 6)| ≤ 16 / 10 ^ 7 := by
    refine (abs_sub _ _).trans ?_
    have := abs_sub T ((s - Real.sin u) * (1 - δ ^ 2 / 2))
    linarith
  rw [hR]
  refine (abs_sub _ _).trans ?_
  have q5 := prod ea q4 le_rfl
  norm_num at hmain q5 ⊢
  linarith

/-! ### The starting value -/

theorem sin_five_one {x : ℝ} (h0 : 0 ≤ x) (h1 : x ≤ 1) :
    |x * (1 + x * x * (-0.16605 + x * x * 0.00761)) - Real.sin x| ≤ 2 / 1000 := by
  have b := rest_bound (C := 2 / 10000) (q := 1 / 25) (Real.hasSum_sin x) 3 (by norm_num) (by norm_num) (by
    intro n
    rw [abs_div, abs_mul, abs_pow, abs_neg, abs_one, one_pow, one_mul, abs_of_nonneg (pow_nonneg h0 _), Nat.abs_cast,
      div_le_iff₀ (by positivity)]
    have h2 : ((7 : ℕ).factorial * 8 ^ (2 * n) : ℝ) ≤ ((2 * (n + 3) + 1).factorial : ℝ) := by
      have := Nat.factorial_mul_pow_le_factorial (m := 7) (n := 2 * n)
      rw [show 2 * (n + 3) + 1 = 7 + 2 * n by ring]
      exact_mod_cast this
    calc x ^ (2 * (n + 3) + 1) ≤ 1 := pow_le_one₀ h0 h1
      _ ≤ 2 / 10000 * ((7 : ℕ).factorial : ℝ) * (64 / 25) ^ n := by
          have : (1 : ℝ) ≤ (64 / 25) ^ n := one_le_pow₀ (by norm_num)
          norm_num [Nat.factorial]
          linarith
      _ = 2 / 10000 * (1 / 25) ^ n * ((7 : ℕ).factorial * 8 ^ (2 * n)) := by
          rw [pow_mul, show (64 / 25 : ℝ) = 1 / 25 * 8 ^ 2 by norm_num, mul_pow]; ring
      _ ≤ _ := by gcongr)
  rw [abs_le] at b ⊢
  simp only [Finset.sum_range_succ, Finset.sum_range_zero, Nat.factorial] at b
  norm_num at b
  have x3 : x ^ 3 ≤ 1 := pow_le_one₀ h0 h1
  have x5 : x ^ 5 ≤ 1 := pow_le_one₀ h0 h1
  have y3 : 0 ≤ x ^ 3 := by positivity
  have y5 : 0 ≤ x ^ 5 := by positivity
  have e : x * (1 + x * x * (-0.16605 + x * x * 0.00761)) = x - 0.16605 * x ^ 3 + 0.00761 * x ^ 5 := by ring
  rw [e]
  norm_num
  constructor <;> linarith [b.1, b.2]

theorem cos_four_one {x : ℝ} (h0 : 0 ≤ x) (h1 : x ≤ 1) :
    |1 + x * x * (-0.49815 + x * x * 0.03805) - Real.cos x| ≤ 8 / 1000 := by
  have b := rest_bound (C := 14 / 10000) (q := 64 / 1225) (Real.hasSum_cos x) 3 (by norm_num) (by norm_num) (by
    intro n
    rw [abs_div, abs_mul, abs_pow, abs_neg, abs_one, one_pow, one_mul, abs_of_nonneg (pow_nonneg h0 _), Nat.abs_cast,
      div_le_iff₀ (by positivity)]
    have h2 : ((6 : ℕ).factorial * 7 ^ (2 * n) : ℝ) ≤ ((2 * (n + 3)).factorial : ℝ) := by
      have := Nat.factorial_mul_pow_le_factorial (m := 6) (n := 2 * n)
      rw [show 2 * (n + 3) = 6 + 2 * n by ring]
      exact_mod_cast this
    calc x ^ (2 * (n + 3)) ≤ 1 := pow_le_one₀ h0 h1
      _ ≤ 14 / 10000 * ((6 : ℕ).factorial : ℝ) * (64 / 25) ^ n := by
          have : (1 : ℝ) ≤ (64 / 25) ^ n := one_le_pow₀ (by norm_num)
          norm_num [Nat.factorial]
          linarith
      _ = 14 / 10000 * (64 / 1225) ^ n * ((6 : ℕ).factorial * 7 ^ (2 * n)) := by
          rw [pow_mul, show (64 / 25 : ℝ) = 64 / 1225 * 7 ^ 2 by norm_num, mul_pow]; ring
      _ ≤ _ := by gcongr)
  rw [abs_le] at b ⊢
  simp only [Finset.sum_range_succ, Finset.sum_range_zero, Nat.factorial] at b
  norm_num at b
  have x3 : x ^ 2 ≤ 1 := pow_le_one₀ h0 h1
  have x5 : x ^ 4 ≤ 1 := pow_le_one₀ h0 h1
  have y3 : 0 ≤ x ^ 2 := by positivity
  have y5 : 0 ≤ x ^ 4 := by positivity
  have e : 1 + x * x * (-0.49815 + x * x * 0.03805) = 1 - 0.49815 * x ^ 2 + 0.03805 * x ^ 4 := by ring
  rw [e]
  norm_num
  constructor <;> linarith [b.1, b.2]

/-- What a step of Halley's method leaves, in terms of its length. -/
theorem halley_rest {e l u1 sn dsn f0 f1 f2 d g P K Ks Kc : ℝ} (he : 0 ≤ e)
    (hs : |sn - Real.sin u1| ≤ Ks) (hc : |dsn - Real.cos u1| ≤ Kc)
    (hf0 : f0 = u1 - e * sn - l) (hf1 : f1 = 1 - e * dsn) (hf2 : f2 = e * sn)
    (hd : d * (f1 - 1 / 2 * g * f2) = -f0) (hK : |d| ≤ K) (hK2 : K ≤ 2)
    (hP : |1 / 2 * (d * f2) * (d + g)| ≤ P) :
    |u1 + d - e * Real.sin (u1 + d) - l| ≤ P + e * (K ^ 3 / 6 + K ^ 4 / 24 + Ks + Kc * K) := by
  have ht := sin_add_two u1 d (by linarith)
  set T := Real.sin (u1 + d) - (Real.sin u1 + d * Real.cos u1 - d ^ 2 / 2 * Real.sin u1) with hT
  have hR : u1 + d - e * Real.sin (u1 + d) - l = 1 / 2 * (d * f2) * (d + g)
      - e * (T - (sn - Real.sin u1) * (1 - d ^ 2 / 2) - (dsn - Real.cos u1) * d) := by
    have e1 : f0 + d * f1 = 1 / 2 * d * g * f2 := by linear_combination hd
    rw [hT]
    linear_combination e1 - hf0 - d * hf1 - d ^ 2 / 2 * hf2
  have k2 : d ^ 2 ≤ 4 := by
    rw [← sq_abs d]
    have := pow_le_pow_left₀ (abs_nonneg d) (hK.trans hK2) 2
    linarith
  have q1 : |(sn - Real.sin u1) * (1 - d ^ 2 / 2)| ≤ Ks := by
    refine prod (B := 1) hs ?_ (by linarith)
    rw [abs_le]; constructor <;> linarith [sq_nonneg d]
  have q2 : |(dsn - Real.cos u1) * d| ≤ Kc * K := prod hc hK le_rfl
  have q3 : |T| ≤ K ^ 3 / 6 + K ^ 4 / 24 := by
    refine ht.trans ?_
    have k3 : |d| ^ 3 ≤ K ^ 3 := pow_le_pow_left₀ (abs_nonneg _) hK 3
    have k4 : d ^ 4 ≤ K ^ 4 := by
      rw [← Even.pow_abs (by decide : Even 4) d]; exact pow_le_pow_left₀ (abs_nonneg _) hK 4
    linarith
  have q4 : |T - (sn - Real.sin u1) * (1 - d ^ 2 / 2) - (dsn - Real.cos u1) * d| ≤ K ^ 3 / 6 + K ^ 4 / 24 + Ks + Kc * K := by
    refine (abs_sub _ _).trans ?_
    have := abs_sub T ((sn - Real.sin u1) * (1 - d ^ 2 / 2))
    linarith
  rw [hR]
  refine (abs_sub _ _).trans ?_
  have q5 := prod (le_of_eq (abs_of_nonneg he)) q4 le_rfl
  linarith

theorem near_sum {e y : ℝ} (ey : e = 1 - y) (y0 : 1 / 2 ≤ y) (y1 : y ≤ 1) :
    281 / 1000 * (e * (y * y)) ^ 2 + e * ((106 / 100 * y) ^ 3 / 6 + (106 / 100 * y) ^ 4 / 24 + 2 / 1000
      + 8 / 1000 * (106 / 100 * y)) ≤ 355 / 10000 := by
  have he : 0 ≤ e := by linarith
  have ep2 : 0 ≤ e * (y * y) := mul_nonneg he (mul_self_nonneg y)
  have ey4 : e * y ≤ 1 / 4 := by rw [ey]; nlinarith [sq_nonneg (y - 1 / 2)]
  have m1 : e * (y * y) ≤ 4 / 27 := by
    have h : 4 / 27 - e * (y * y) = (y - 2 / 3) ^ 2 * (y + 1 / 3) := by rw [ey]; ring
    have := mul_nonneg (sq_nonneg (y - 2 / 3)) (by linarith : 0 ≤ y + 1 / 3)
    linarith
  have m2 : (e * (y * y)) ^ 2 ≤ (4 / 27) ^ 2 := pow_le_pow_left₀ ep2 m1 2
  have m3 : e * y ^ 3 ≤ 27 / 256 := by
    have h : 27 / 256 - e * y ^ 3 = (y - 3 / 4) ^ 2 * (y ^ 2 + 1 / 2 * y + 3 / 16) := by rw [ey]; ring
    have := mul_nonneg (sq_nonneg (y - 3 / 4)) (by positivity : 0 ≤ y ^ 2 + 1 / 2 * y + 3 / 16)
    linarith
  have m4 : e * y ^ 4 ≤ 256 / 3125 := by
    have h : 256 / 3125 - e * y ^ 4 = (y - 4 / 5) ^ 2 * (y ^ 3 + 3 / 5 * y ^ 2 + 8 / 25 * y + 16 / 125) := by rw [ey]; ring
    have := mul_nonneg (sq_nonneg (y - 4 / 5)) (by positivity : 0 ≤ y ^ 3 + 3 / 5 * y ^ 2 + 8 / 25 * y + 16 / 125)
    linarith
  have e1 : e * ((106 / 100 * y) ^ 3 / 6 + (106 / 100 * y) ^ 4 / 24 + 2 / 1000 + 8 / 1000 * (106 / 100 * y))
      = (106 / 100) ^ 3 / 6 * (e * y ^ 3) + (106 / 100) ^ 4 / 24 * (e * y ^ 4) + 2 / 1000 * e
        + 8 / 1000 * (106 / 100) * (e * y) := by ring
  rw [e1]
  norm_num at m2 ⊢
  linarith

/-- Near the pericentre. -/
theorem start_near {e l y sn dsn f0 f1 f2 d : ℝ} (he : 0 ≤ e) (he1 : e ≤ 1 / 2) (hl : 0 ≤ l) (hl1 : l < y) (hy : y = 1 - e)
    (hsn : sn = y * (1 + y * y * (-0.16605 + y * y * 0.00761)))
    (hdsn : dsn = 1 + y * y * (-0.49815 + y * y * 0.03805))
    (hf0 : f0 = y - e * sn - l) (hf1 : f1 = 1 - e * dsn) (hf2 : f2 = e * sn)
    (hd0 : d = -(f0 / (f1 - 1 / 2 * f0 * f2 / f1))) :
    |d| ≤ 106 / 100 * y ∧ |y + d - e * Real.sin (y + d) - l| ≤ 355 / 10000 := by
  have ey : e = 1 - y := by linarith
  have y0 : 1 / 2 ≤ y := by linarith
  have y1 : y ≤ 1 := by linarith
  have ey4 : e * y ≤ 1 / 4 := by rw [ey]; nlinarith [sq_nonneg (y - 1 / 2)]
  have ep : 0 ≤ e * y := mul_nonneg he (by linarith)
  have yy : 0 ≤ y * y := mul_self_nonneg y
  have yy1 : y * y ≤ 1 := by nlinarith
  have sn1 : sn ≤ y := by
    rw [hsn]
    have : y * y * (-0.16605 + y * y * 0.00761) ≤ 0 := mul_nonpos_of_nonneg_of_nonpos yy (by norm_num; linarith)
    have h2 := mul_nonpos_of_nonneg_of_nonpos (by linarith : 0 ≤ y) this
    linarith
  have sn2 : y - 0.16605 * (y * (y * y)) ≤ sn := by
    rw [hsn]
    have h1 : 0 ≤ y * (y * y) * (y * y) := by positivity
    have h2 : y * (1 + y * y * (-0.16605 + y * y * 0.00761)) = y - 0.16605 * (y * (y * y)) + 0.00761 * (y * (y * y) * (y * y)) := by
      ring
    rw [h2]
    norm_num
    linarith
  have sn0 : 0 ≤ sn := by
    refine le_trans ?_ sn2
    norm_num
    nlinarith
  have f2a : |f2| ≤ e * y := by
    rw [hf2, abs_of_nonneg (mul_nonneg he sn0)]
    exact mul_le_mul_of_nonneg_left sn1 he
  have f1e : f1 = y + e * (y * y) * (0.49815 - 0.03805 * (y * y)) := by
    rw [hf1, hdsn, ey]; ring
  have ep2 : 0 ≤ e * (y * y) := mul_nonneg he yy
  have f1b : y + 0.46 * (e * (y * y)) ≤ f1 := by
    rw [f1e]
    have : e * (y * y) * (y * y) ≤ e * (y * y) * 1 := mul_le_mul_of_nonneg_left yy1 ep2
    norm_num
    linarith
  have f1y : y ≤ f1 := by norm_num at f1b; linarith
  have f0u : f0 ≤ y * y + 0.16605 * (e * y * (y * y)) := by
    rw [hf0]
    have := mul_le_mul_of_nonneg_left sn2 he
    have e1 : y - e * y = y * y := by rw [ey]; ring
    nlinarith
  have f0l : -(y * y) ≤ f0 := by
    rw [hf0]
    have := mul_le_mul_of_nonneg_left sn1 he
    have : e * y ≤ y * y := mul_le_mul_of_nonneg_right (by linarith) (by linarith)
    linarith
  obtain ⟨g, hg⟩ : ∃ g, g * f1 = f0 := ⟨f0 / f1, div_mul_cancel₀ _ (by linarith)⟩
  have gb : |g| ≤ y := by
    have h1 : |g| * f1 = |f0| := by rw [← hg, abs_mul, abs_of_pos (by linarith : 0 < f1)]
    have h2 : |f0| ≤ y * f1 := by
      have h3 : y * (y + 0.46 * (e * (y * y))) ≤ y * f1 := mul_le_mul_of_nonneg_left f1b (by linarith)
      have h4 : 0 ≤ e * y * (y * y) := mul_nonneg ep yy
      have h5 : y * (y + 0.46 * (e * (y * y))) = y * y + 0.46 * (e * y * (y * y)) := by ring
      rw [abs_le]
      norm_num at f0u h3 h5 ⊢
      constructor <;> linarith
    exact le_of_mul_le_mul_right (by linarith) (by linarith : 0 < f1)
  have hgd : 1 / 2 * f0 * f2 / f1 = 1 / 2 * g * f2 := by
    rw [div_eq_iff (by linarith), ← hg]; ring
  have k1 : |g * f2| ≤ y * (e * y) := prod gb f2a le_rfl
  have hD : 99 / 100 * y ≤ f1 - 1 / 2 * g * f2 := by
    have h1 := (abs_le.1 k1).2
    rw [f1e]
    have h2 : e * (y * y) * (y * y) ≤ e * (y * y) * 1 := mul_le_mul_of_nonneg_left yy1 ep2
    have h3 : e * (y * y) ≤ 1 / 4 * y := by
      have := mul_le_mul_of_nonneg_right ey4 (by linarith : 0 ≤ y)
      linarith
    norm_num
    linarith
  have hd : d * (f1 - 1 / 2 * g * f2) = -f0 := by
    have h : f1 - 1 / 2 * g * f2 ≠ 0 := by linarith
    rw [hd0, hgd, neg_mul, div_mul_cancel₀ _ h]
  have hdb : |d| ≤ 106 / 100 * y := by
    refine quo hd (by linarith) hD ?_
    rw [abs_neg, abs_le]
    have h4 : e * y * (y * y) ≤ 1 / 4 * (y * y) := mul_le_mul_of_nonneg_right ey4 yy
    norm_num at f0u ⊢
    constructor <;> linarith
  refine ⟨hdb, ?_⟩
  have hdg : |d + g| ≤ 53 / 100 * (e * (y * y)) := by
    have e1 : (d + g) * f1 = 1 / 2 * (d * (g * f2)) := by linear_combination hd + hg
    refine quo e1 (by linarith) f1y ?_
    rw [abs_mul, abs_of_pos (by norm_num : (0 : ℝ) < 1 / 2)]
    have := prod hdb k1 le_rfl
    linarith
  have hP : |1 / 2 * (d * f2) * (d + g)| ≤ 281 / 1000 * (e * (y * y)) ^ 2 := by
    refine prod (A := 1 / 2 * (106 / 100 * y * (e * y))) ?_ hdg ?_
    · rw [abs_mul, abs_of_pos (by norm_num : (0 : ℝ) < 1 / 2)]
      have := prod hdb f2a le_rfl
      linarith
    · have h1 : 1 / 2 * (106 / 100 * y * (e * y)) * (53 / 100 * (e * (y * y))) = 2809 / 10000 * (e * (y * y)) ^ 2 := by ring
      rw [h1]
      linarith [sq_nonneg (e * (y * y))]
  have hs : |sn - Real.sin y| ≤ 2 / 1000 := by rw [hsn]; exact sin_five_one (by linarith) y1
  have hc : |dsn - Real.cos y| ≤ 8 / 1000 := by rw [hdsn]; exact cos_four_one (by linarith) y1
  have fin := halley_rest he hs hc hf0 hf1 hf2 hd hdb (by linarith) hP
  refine fin.trans ?_
  exact near_sum ey y0 y1

/-- Elsewhere. -/
theorem start_far {e l u1 sn dsn f0 f1 f2 d : ℝ} (he : 0 ≤ e) (he1 : e ≤ 1 / 2)
    (hs : |sn - Real.sin u1| ≤ 16 / 1000) (hc : |dsn - Real.cos u1| ≤ 53 / 1000) (h0 : |f0| ≤ 92 / 1000)
    (hf0 : f0 = u1 - e * sn - l) (hf1 : f1 = 1 - e * dsn) (hf2 : f2 = e * sn)
    (hd0 : d = -(f0 / (f1 - 1 / 2 * f0 * f2 / f1))) :
    |d| ≤ 22 / 100 ∧ |u1 + d - e * Real.sin (u1 + d) - l| ≤ 355 / 10000 := by
  have hs1 : |sn| ≤ 1016 / 1000 := by
    have := Real.abs_sin_le_one u1
    have h2 := abs_sub_abs_le_abs_sub sn (Real.sin u1)
    linarith
  have hc1 : |dsn| ≤ 1053 / 1000 := by
    have := Real.abs_cos_le_one u1
    have h2 := abs_sub_abs_le_abs_sub dsn (Real.cos u1)
    linarith
  have ea : |e| ≤ 1 / 2 := by rwa [abs_of_nonneg he]
  have ec : |e * dsn| ≤ 5265 / 10000 := prod ea hc1 (by norm_num)
  have f1b : 47 / 100 ≤ f1 := by have := (abs_le.1 ec).2; linarith
  have f2b : |f2| ≤ 508 / 1000 := by rw [hf2]; exact prod ea hs1 (by norm_num)
  obtain ⟨g, hg⟩ : ∃ g, g * f1 = f0 := ⟨f0 / f1, div_mul_cancel₀ _ (by linarith)⟩
  have gb : |g| ≤ 196 / 1000 := quo hg (by norm_num) f1b (by linarith)
  have hgd : 1 / 2 * f0 * f2 / f1 = 1 / 2 * g * f2 := by
    rw [div_eq_iff (by linarith), ← hg]; ring
  have k1 : |g * f2| ≤ 1 / 10 := prod gb f2b (by norm_num)
  have hD : 42 / 100 ≤ f1 - 1 / 2 * g * f2 := by have := (abs_le.1 k1).2; linarith
  have hd : d * (f1 - 1 / 2 * g * f2) = -f0 := by
    have h : f1 - 1 / 2 * g * f2 ≠ 0 := by linarith
    rw [hd0, hgd, neg_mul, div_mul_cancel₀ _ h]
  have hdb : |d| ≤ 22 / 100 := quo hd (by norm_num) hD (by rw [abs_neg]; linarith)
  refine ⟨hdb, ?_⟩
  have hdg : |d + g| ≤ 24 / 1000 := by
    have e1 : (d + g) * f1 = 1 / 2 * (d * (g * f2)) := by linear_combination hd + hg
    refine quo e1 (by norm_num) f1b ?_
    rw [abs_mul, abs_of_pos (by norm_num : (0 : ℝ) < 1 / 2)]
    have := prod hdb k1 le_rfl
    linarith
  have hP : |1 / 2 * (d * f2) * (d + g)| ≤ 14 / 10000 := by
    refine prod (A := 1 / 2 * (22 / 100 * (508 / 1000))) ?_ hdg (by norm_num)
    rw [abs_mul, abs_of_pos (by norm_num : (0 : ℝ) < 1 / 2)]
    have := prod hdb f2b le_rfl
    linarith
  have fin := halley_rest he hs hc hf0 hf1 hf2 hd hdb (by norm_num) hP
  refine fin.trans ?_
  norm_num
  linarith

/-- The starting value and its error, for a reduced mean anomaly. -/
theorem keplerStart_half {e l : ℝ} (he : 0 ≤ e) (he1 : e ≤ 1 / 2) (hl : 0 ≤ l) (hl1 : l ≤ Real.pi) :
    -(4 / 5) ≤ keplerStart e l ∧ keplerStart e l ≤ Real.pi + 4 / 5
      ∧ |keplerStart e l - e * Real.sin (keplerStart e l) - l| ≤ 355 / 10000 := by
  have hpi := Real.pi_lt_d2
  have hpi' := Real.pi_gt_d2
  have hb : (leb (lit 0.45) l || ltb e (lit 0.55)) = true := by
    rw [Bool.or_eq_true]; right
    simp only [ltb_real, lit_real]; norm_num; linarith
  rw [keplerStart, hb]
  simp only [if_true, ltb_real, pi_re', lit_real]
  push_cast
  by_cases c0 : l < 1 - e
  · have h : ¬ 1 / 2 * Real.pi < 1 - e := by linarith
    simp only [c0, if_true, h, if_false]
    obtain ⟨h1, h2⟩ := start_near he he1 hl c0 rfl rfl rfl rfl rfl rfl rfl
    rw [sub_eq_add_neg (1 - e) (_ / _)]
    have h3 := abs_le.1 h1
    refine ⟨by linarith [h3.1], by linarith [h3.2], h2⟩
  · simp only [c0, if_false]
    set u1 : ℝ := if Real.pi - 1 - e < l then (l + e * Real.pi) / (1 + e) else l + e with hu1
    have hr : 1 ≤ u1 ∧ u1 ≤ Real.pi ∧ ((u1 ≤ Real.pi - 1 ∧ u1 = l + e) ∨
        (Real.pi - 1 ≤ u1 ∧ u1 - l = e * (Real.pi - u1))) := by
      rw [hu1]
      split
      · rename_i h2
        have p : 0 < 1 + e := by linarith
        have k2 : (l + e * Real.pi) / (1 + e) ≤ Real.pi := by rw [div_le_iff₀ p]; nlinarith
        have k3 : Real.pi - 1 ≤ (l + e * Real.pi) / (1 + e) := by rw [le_div_iff₀ p]; nlinarith
        refine ⟨by linarith, k2, Or.inr ⟨k3, ?_⟩⟩
        field_simp
        ring
      · rename_i h2
        exact ⟨by linarith, by linarith, Or.inl ⟨by linarith, rfl⟩⟩
    clear_value u1
    obtain ⟨r0, r1, hr⟩ := hr
    obtain ⟨sn, hsn⟩ : ∃ sn, sn = (if 1 / 2 * Real.pi < u1 then Real.pi - u1 else u1) *
        (1 + (if 1 / 2 * Real.pi < u1 then Real.pi - u1 else u1) * (if 1 / 2 * Real.pi < u1 then Real.pi - u1 else u1) *
          (-0.16605 + (if 1 / 2 * Real.pi < u1 then Real.pi - u1 else u1) *
            (if 1 / 2 * Real.pi < u1 then Real.pi - u1 else u1) * 0.00761)) := ⟨_, rfl⟩
    obtain ⟨dsn, hdsn⟩ : ∃ dsn, dsn = (if 1 / 2 * Real.pi < u1 then
        -(1 + (if 1 / 2 * Real.pi < u1 then Real.pi - u1 else u1) * (if 1 / 2 * Real.pi < u1 then Real.pi - u1 else u1) *
          (-0.49815 + (if 1 / 2 * Real.pi < u1 then Real.pi - u1 else u1) *
            (if 1 / 2 * Real.pi < u1 then Real.pi - u1 else u1) * 0.03805))
        else 1 + (if 1 / 2 * Real.pi < u1 then Real.pi - u1 else u1) * (if 1 / 2 * Real.pi < u1 then Real.pi - u1 else u1) *
          (-0.49815 + (if 1 / 2 * Real.pi < u1 then Real.pi - u1 else u1) *
            (if 1 / 2 * Real.pi < u1 then Real.pi - u1 else u1) * 0.03805)) := ⟨_, rfl⟩
    have hs : |sn - Real.sin u1| ≤ 16 / 1000 ∧ |dsn - Real.cos u1| ≤ 53 / 1000 := by
      rw [hsn, hdsn]
      by_cases h : 1 / 2 * Real.pi < u1
      · simp only [h, if_true]
        have s := sin_five (x := Real.pi - u1) (by linarith) (by linarith)
        have c := cos_four (x := Real.pi - u1) (by linarith) (by linarith)
        rw [Real.sin_pi_sub] at s
        rw [Real.cos_pi_sub] at c
        refine ⟨s, ?_⟩
        rw [← abs_neg]
        convert c using 2
        ring
      · simp only [h, if_false]
        exact ⟨sin_five (by linarith) (by linarith), cos_four (by linarith) (by linarith)⟩
    have key : |u1 - e * sn - l| ≤ 92 / 1000 := by
      have s0 := abs_le.1 hs.1
      have ea : |e| ≤ 1 / 2 := by rwa [abs_of_nonneg he]
      rcases hr with ⟨q, qu⟩ | ⟨q, qu⟩
      · have s1 : 5 / 6 ≤ Real.sin u1 := by
          have one := Real.sin_ge_sub_cube (x := 1) (by norm_num)
          norm_num at one
          refine one.trans ?_
          rcases le_total u1 (Real.pi / 2) with h | h
          · exact Real.sin_le_sin_of_le_of_le_pi_div_two (by linarith) h r0
          · rw [← Real.sin_pi_sub u1]
            exact Real.sin_le_sin_of_le_of_le_pi_div_two (by linarith) (by linarith) (by linarith)
        have s2 := Real.sin_le_one u1
        have e1 : u1 - e * sn - l = e * (1 - sn) := by rw [qu]; ring
        rw [e1]
        refine prod (B := 184 / 1000) ea ?_ (by norm_num)
        rw [abs_le]
        constructor <;> linarith [s0.1, s0.2]
      · have x0 : 0 ≤ Real.pi - u1 := by linarith
        have x1 : Real.pi - u1 ≤ 1 := by linarith
        have s1 := Real.sin_ge_sub_cube x0
        have s2 := Real.sin_le x0
        rw [Real.sin_pi_sub] at s1 s2
        have s3 : (Real.pi - u1) ^ 3 ≤ 1 := pow_le_one₀ x0 x1
        have e1 : u1 - e * sn - l = e * ((Real.pi - u1) - sn) := by linear_combination qu
        rw [e1]
        refine prod (B := 184 / 1000) ea ?_ (by norm_num)
        rw [abs_le]
        constructor <;> linarith [s0.1, s0.2]
    obtain ⟨hd, hF⟩ := start_far he he1 hs.1 hs.2 key rfl rfl rfl rfl
    rw [← hsn, ← hdsn]
    rw [sub_eq_add_neg u1 (_ / _)]
    have h3 := abs_le.1 hd
    exact ⟨by linarith [h3.1], by linarith [h3.2], hF⟩

/-- The whole solution for a reduced mean anomaly. -/
theorem kepler_reduced_half {e l : ℝ} (he : 0 ≤ e) (he1 : e ≤ 1 / 2) (hl : 0 ≤ l) (hl1 : l ≤ Real.pi) :
    |keplerFinish e l (keplerStart e l) - e * Real.sin (keplerFinish e l (keplerStart e l)) - l| ≤ 1 / 10 ^ 5 := by
  obtain ⟨h0, h1, hF⟩ := keplerStart_half he he1 hl hl1
  generalize keplerStart e l = u at *
  obtain ⟨d1, d2⟩ := sinCosDefects_error h0 h1
  unfold keplerFinish
  generalize sinCosDefects u = z at *
  obtain ⟨z1, z2⟩ := z
  dsimp only at d1 d2 ⊢
  have hs : |(u - z1) - Real.sin u| ≤ 1 / 10 ^ 16 := by
    rw [abs_sub_comm]; convert d1 using 2; ring
  have hc : |(1 - z2) - Real.cos u| ≤ 1 / 10 ^ 16 := by
    rw [abs_sub_comm]; convert d2 using 2; ring
  have hf : |l - u + e * (u - z1)| ≤ 36 / 1000 := by
    have e1 : l - u + e * (u - z1) = -(u - e * Real.sin u - l) + e * ((u - z1) - Real.sin u) := by ring
    rw [e1]
    refine (abs_add_le _ _).trans ?_
    rw [abs_neg]
    have := prod (show |e| ≤ 1 / 2 by rwa [abs_of_nonneg he]) hs le_rfl
    norm_num at this ⊢
    linarith
  have k := finish_half he he1 hs hc hf rfl rfl rfl rfl rfl rfl rfl
  simp only [lit_real]
  push_cast
  rw [show l - u * (1 - e) - e * z1 = l - u + e * (u - z1) by ring,
    show 1 - e + e * z2 = 1 - e * (1 - z2) by ring]
  exact k

end Posidonius.Tools
