import Verif.Model.Kaula
import Verif.Model.RealTrig
import Verif.Lemmas.Hansen
import Verif.Lemmas.Univ
import Mathlib.Tactic.IntervalCases
import Mathlib.Tactic.NormNum

/-! # C83: the eccentricity functions of the Kaula model -/

namespace Posidonius.Kaula
open Posidonius Hansen Jet

/-! The coefficients of the powers of the eccentricity in the Fourier coefficients of (a/r)³ exp(2iv), (a/r)³,
(a/r)⁴ exp(3iv) and (a/r)⁴ exp(iv). -/

def table20 : List (List ℚ) :=
  [[0, 0, 0, 0, 0, 0, 0, 15625 / 129024], [0, 0, 0, 0, 0, 0, 4 / 45], [0, 0, 0, 0, 0, 81 / 1280, 0, 81 / 2048],
   [0, 0, 0, 0, 1 / 24, 0, 7 / 240], [0, 0, 0, 1 / 48, 0, 11 / 768, 0, 313 / 30720], [],
   [0, -1 / 2, 0, 1 / 16, 0, -5 / 384, 0, -143 / 18432], [1, 0, -5 / 2, 0, 13 / 16, 0, -35 / 288],
   [0, 7 / 2, 0, -123 / 16, 0, 489 / 128, 0, -1763 / 2048], [0, 0, 17 / 2, 0, -115 / 6, 0, 601 / 48],
   [0, 0, 0, 845 / 48, 0, -32525 / 768, 0, 208225 / 6144], [0, 0, 0, 0, 533 / 16, 0, -13827 / 160],
   [0, 0, 0, 0, 0, 228347 / 3840, 0, -3071075 / 18432], [0, 0, 0, 0, 0, 0, 73369 / 720],
   [0, 0, 0, 0, 0, 0, 0, 12144273 / 71680]]

def table21 : List (List ℚ) :=
  [[0, 0, 0, 0, 0, 0, 0, 432091 / 30720], [0, 0, 0, 0, 0, 0, 3167 / 320],
   [0, 0, 0, 0, 0, 1773 / 256, 0, -4987 / 6144], [0, 0, 0, 0, 77 / 16, 0, 129 / 160],
   [0, 0, 0, 53 / 16, 0, 393 / 256, 0, 24753 / 10240], [0, 0, 9 / 4, 0, 7 / 4, 0, 141 / 64],
   [0, 3 / 2, 0, 27 / 16, 0, 261 / 128, 0, 14309 / 6144], [1, 0, 3 / 2, 0, 15 / 8, 0, 35 / 16],
   [0, 3 / 2, 0, 27 / 16, 0, 261 / 128, 0, 14309 / 6144], [0, 0, 9 / 4, 0, 7 / 4, 0, 141 / 64],
   [0, 0, 0, 53 / 16, 0, 393 / 256, 0, 24753 / 10240], [0, 0, 0, 0, 77 / 16, 0, 129 / 160],
   [0, 0, 0, 0, 0, 1773 / 256, 0, -4987 / 6144], [0, 0, 0, 0, 0, 0, 3167 / 320],
   [0, 0, 0, 0, 0, 0, 0, 432091 / 30720]]

def table30 : List (List ℚ) :=
  [[0, 0, 0, 0, 0, 0, 0, 8 / 315], [0, 0, 0, 0, 0, 0, 81 / 5120], [0, 0, 0, 0, 0, 1 / 120, 0, 13 / 1440],
   [0, 0, 0, 0, 1 / 384, 0, 1 / 384], [], [0, 0, 1 / 8, 0, 1 / 48, 0, 55 / 3072],
   [0, -1, 0, 5 / 4, 0, -7 / 48, 0, 23 / 288], [1, 0, -6, 0, 423 / 64, 0, -125 / 64],
   [0, 5, 0, -22, 0, 607 / 24, 0, -98 / 9], [0, 0, 127 / 8, 0, -3065 / 48, 0, 243805 / 3072],
   [0, 0, 0, 163 / 4, 0, -2577 / 16, 0, 1089 / 5], [0, 0, 0, 0, 35413 / 384, 0, -709471 / 1920],
   [0, 0, 0, 0, 0, 23029 / 120, 0, -35614 / 45], [0, 0, 0, 0, 0, 0, 385095 / 1024],
   [0, 0, 0, 0, 0, 0, 0, 44377 / 63]]

def table31 : List (List ℚ) :=
  [[0, 0, 0, 0, 0, 0, 0, 16337 / 2240], [0, 0, 0, 0, 0, 0, 48203 / 9216],
   [0, 0, 0, 0, 0, 899 / 240, 0, 2441 / 480], [0, 0, 0, 0, 343 / 128, 0, 2819 / 640],
   [0, 0, 0, 23 / 12, 0, 89 / 24, 0, 5663 / 960], [0, 0, 11 / 8, 0, 49 / 16, 0, 15665 / 3072],
   [0, 1, 0, 5 / 2, 0, 35 / 8, 0, 105 / 16], [1, 0, 2, 0, 239 / 64, 0, 3323 / 576],
   [0, 3, 0, 11 / 4, 0, 245 / 48, 0, 463 / 64], [0, 0, 53 / 8, 0, 39 / 16, 0, 7041 / 1024],
   [0, 0, 0, 77 / 6, 0, -25 / 48, 0, 4751 / 480], [0, 0, 0, 0, 2955 / 128, 0, -3463 / 384],
   [0, 0, 0, 0, 0, 3167 / 80, 0, -8999 / 320], [0, 0, 0, 0, 0, 0, 3024637 / 46080],
   [0, 0, 0, 0, 0, 0, 0, 178331 / 1680]]

theorem root_low {e : ℝ} (h0 : 0 ≤ e) (h1 : e ≤ 1 / 2) : 3 / 4 ≤ Real.sqrt (1 - e ^ 2) := by
  apply Real.le_sqrt_of_sq_le
  nlinarith

theorem powf_root {x : ℝ} (hx : 0 ≤ x) (n : ℕ) : x ^ (-(n : ℝ) / 2) = (Real.sqrt x ^ n)⁻¹ := by
  rw [Real.sqrt_eq_rpow, ← Real.rpow_natCast, ← Real.rpow_mul hx, ← Real.rpow_neg hx]
  congr 1
  ring

theorem approx_powf (n : ℕ) (cs : List ℚ) (hs : same (Jet.mul 8 (Jet.pow 8 rootJet n) (polyJet cs)) [[(0, 1)]] = true) :
    Approx 8 (fun e _ => (((1 - e * e) ^ (-(n : ℝ) / 2) : ℝ) : ℂ)) (polyJet cs) := by
  refine (Approx.inv (approx_root.pow n) (b := (3 / 4) ^ n) (by positivity) (fun e w hr => ?_) hs).congr
    fun e w hr => ?_
  · rw [norm_pow, Complex.norm_real, Real.norm_of_nonneg (Real.sqrt_nonneg _)]
    exact pow_le_pow_left₀ (by norm_num) (root_low hr.1 hr.2.1) n
  · have : (0 : ℝ) ≤ 1 - e * e := by nlinarith [hr.1, hr.2.1]
    rw [powf_root this, ← pow_two]
    push_cast
    rfl

/-- **C83**: the functions G_30q are the Fourier coefficients of (a/r)⁴ exp(3iv) up to order seven of the
eccentricity. -/
theorem C83_g30 : Expands 4 3 1 (g30 (F := ℝ)) := by
  refine expands_of table30 (fun k hk => approx_poly fun e => ?_) (by decide +kernel)
  interval_cases k <;> simp [g30, table30, polyEval, ipow] <;> ring

/-- **C83**: the functions G_21q are the Fourier coefficients of (a/r)³ up to order seven. -/
theorem C83_g21 : Expands 3 0 1 (g21 (F := ℝ)) := by
  refine expands_of table21 (fun k hk => ?_) (by decide +kernel)
  by_cases h7 : k = 7
  · subst h7
    refine (approx_powf 3 [1, 0, 3 / 2, 0, 15 / 8, 0, 35 / 16] (by decide +kernel)).congr fun e w _ => ?_
    simp [g21]
  · refine approx_poly fun e => ?_
    interval_cases k <;> first
      | exact absurd rfl h7
      | (simp [g21, table21, polyEval]; ring)

/-- **C83**, what holds for G_20q: they are the Fourier coefficients of (a/r)³ exp(2iv) up to order seven after a
correction of the fourth power in q = 2, -115/6 instead of -115/16. -/
theorem C83_g20_partial : Expands 3 2 1 fun e : ℝ =>
    (g20 e).set 9 (17 / 2 * e ^ 2 - 115 / 6 * e ^ 4 + 601 / 48 * e ^ 6) := by
  refine expands_of table20 (fun k hk => approx_poly fun e => ?_) (by decide +kernel)
  interval_cases k <;> simp [g20, table20, polyEval] <;> ring

/-- **C83 violated**: as they stand they are not. -/
theorem C83_violated_g20 : ¬ Expands 3 2 1 (g20 (F := ℝ)) := by
  refine not_expands C83_g20_partial one_pos fun e h0 h1 => ?_
  have key : ∑ k ∈ Finset.range 15, (g20 e).getD k 0 - ∑ k ∈ Finset.range 15,
      ((g20 e).set 9 (17 / 2 * e ^ 2 - 115 / 6 * e ^ 4 + 601 / 48 * e ^ 6)).getD k 0 = 575 / 48 * e ^ 4 := by
    simp [Finset.sum_range_succ, g20]
    ring
  rw [key, abs_of_nonneg (by positivity)]
  have h2 : e ^ 7 = e ^ 4 * e ^ 3 := by ring
  have h3 : e ^ 3 ≤ 1 := pow_le_one₀ h0.le (by linarith)
  nlinarith [pow_pos h0 4]

/-- The row G_31q with its seven wrong entries replaced. -/
noncomputable def g31Right (e : ℝ) : List ℝ :=
  ((((((((g31 e).set 1 (48203 / 9216 * e ^ 6)).set 7 (1 + 2 * e ^ 2 + 239 / 64 * e ^ 4 + 3323 / 576 * e ^ 6)).set 10
    (77 / 6 * e ^ 3 - 25 / 48 * e ^ 5 + 4751 / 480 * e ^ 7)).set 11 (2955 / 128 * e ^ 4 - 3463 / 384 * e ^ 6)).set 12
    (3167 / 80 * e ^ 5 - 8999 / 320 * e ^ 7)).set 13 (3024637 / 46080 * e ^ 6)).set 14 (178331 / 1680 * e ^ 7))

/-- **C83**, what holds for G_31q: they are the Fourier coefficients of (a/r)⁴ exp(iv) up to order seven after the
replacement of seven entries: q = -6 (9240 for 9216), q = 0 (two coefficients) and q = 3 .. 7, which are copies of the
row G_30q. -/
theorem C83_g31_partial : Expands 4 1 1 g31Right := by
  refine expands_of table31 (fun k hk => ?_) (by decide +kernel)
  by_cases h6 : k = 6
  · subst h6
    have h := (approx_poly (N := 8) (f := fun e => e) (cs := [0, 1]) fun e => by simp [polyEval]).mul
      (approx_powf 5 [1, 0, 5 / 2, 0, 35 / 8, 0, 105 / 16] (by decide +kernel))
    have hj : Jet.mul 8 (polyJet [0, 1]) (polyJet [1, 0, 5 / 2, 0, 35 / 8, 0, 105 / 16]) = polyJet (table31.getD 6 []) := by
      decide +kernel
    rw [hj] at h
    refine h.congr fun e w _ => ?_
    simp [g31Right, g31, ipow, pow_two]
  · refine approx_poly fun e => ?_
    interval_cases k <;> first
      | exact absurd rfl h6
      | (simp [g31Right, g31, table31, polyEval, ipow]; ring)

/-- **C83 violated**: as they stand they are not. -/
theorem C83_violated_g31 : ¬ Expands 4 1 1 (g31 (F := ℝ)) := by
  refine not_expands_near (d := 1 / 1000) C83_g31_partial one_pos (by norm_num) (by norm_num) fun e h0 h1 => ?_
  have key : ∑ k ∈ Finset.range 15, (g31 e).getD k 0 - ∑ k ∈ Finset.range 15, (g31Right e).getD k 0
      = -(e ^ 2 * (3 / 2 + e * (-(163 / 4 - 77 / 6) + e * (-(35413 / 384 - 2955 / 128)
        + e * (-(-(2577 / 16) + 25 / 48 + 23029 / 120 - 3167 / 80)
        + e * (-(48203 / 9240 - 48203 / 9216 - 3323 / 288 - 709471 / 1920 + 3463 / 384 + 385095 / 1024 - 3024637 / 46080)
        + e * (-(1089 / 5 - 4751 / 480 - 35614 / 45 + 8999 / 320 + 44377 / 63 - 178331 / 1680)))))))) := by
    simp [Finset.sum_range_succ, g31Right, g31, ipow]
    ring
  rw [key, abs_neg]
  have h7 : 1 * e ^ 7 = e ^ 2 * e ^ 5 := by ring
  have h5 : e ^ 5 ≤ 1 := pow_le_one₀ h0.le (by linarith)
  have hb : ∀ {x y c : ℝ}, -c ≤ x → x ≤ c → 0 ≤ c → |y| ≤ 1000 → -(1 : ℝ) ≤ 0 → |x + e * y| ≤ c + 1 := by
    intro x y c hx1 hx2 hc hy _
    have : |e * y| ≤ 1 := by
      rw [abs_mul, abs_of_pos h0]
      nlinarith [abs_nonneg y]
    rw [abs_le] at this ⊢
    constructor <;> linarith [this.1, this.2]
  rw [h7]
  refine le_trans ?_ (le_abs_self _)
  refine mul_le_mul_of_nonneg_left ?_ (by positivity)
  have b5 := hb (x := -(48203 / 9240 - 48203 / 9216 - 3323 / 288 - 709471 / 1920 + 3463 / 384 + 385095 / 1024 - 3024637 / 46080))
    (y := -(1089 / 5 - 4751 / 480 - 35614 / 45 + 8999 / 320 + 44377 / 63 - 178331 / 1680)) (c := 100) (by norm_num)
    (by norm_num) (by norm_num) (by rw [abs_le]; constructor <;> norm_num) (by norm_num)
  have b4 := hb (x := -(-(2577 / 16) + 25 / 48 + 23029 / 120 - 3167 / 80)) (c := 100) (by norm_num) (by norm_num) (by norm_num)
    (b5.trans (by norm_num)) (by norm_num)
  have b3 := hb (x := -(35413 / 384 - 2955 / 128)) (c := 100) (by norm_num) (by norm_num) (by norm_num)
    (b4.trans (by norm_num)) (by norm_num)
  have b2 := hb (x := -(163 / 4 - 77 / 6)) (c := 100) (by norm_num) (by norm_num) (by norm_num)
    (b3.trans (by norm_num)) (by norm_num)
  have b1 := (abs_le.1 b2).1
  nlinarith [pow_pos h0 5, pow_le_pow_left₀ h0.le h1 5]

/-- **C83**: the rows p = 2 of degree two and p = 2, 3 of degree three belong to the conjugates: the last one is
right. -/
theorem C83_g33 : Expands 4 3 (-1) fun e : ℝ => (g3 e).getD 3 [] := C83_g30.reverse fun _ => rfl

/-- **C83 violated**: the rows G_22q and G_32q, the reverse of G_20q and G_31q, are not. -/
theorem C83_violated_conjugate : (¬ Expands 3 2 (-1) fun e : ℝ => (g2 e).getD 2 [])
    ∧ ¬ Expands 4 1 (-1) fun e : ℝ => (g3 e).getD 2 [] := by
  constructor
  · intro h
    refine C83_violated_g20 ?_
    have := h.reverse fun _ => rfl
    simpa [g2] using this
  · intro h
    refine C83_violated_g31 ?_
    have := h.reverse fun _ => rfl
    simpa [g3] using this

end Posidonius.Kaula
