import Verif.Lemmas.Jet
import Verif.Spec.Hansen
import Mathlib.Analysis.SpecialFunctions.Pow.Real
import Mathlib.Tactic.FieldSimp

/-! # Fourier series of the elliptic motion by truncated series -/

namespace Posidonius.Hansen
open Posidonius Jet

def sumJet (a : ℕ → Jet) : ℕ → Jet
  | 0 => []
  | n + 1 => (sumJet a n).add (a n)

theorem approx_sum {N : ℕ} (f : ℕ → ℝ → ℂ → ℂ) (a : ℕ → Jet) (n : ℕ) (h : ∀ k, k < n → Approx N (f k) (a k)) :
    Approx N (fun e w => ∑ k ∈ Finset.range n, f k e w) (sumJet a n) := by
  induction n with
  | zero => exact Approx.of_eq fun e w _ => by simp [sumJet]
  | succ n ih =>
    have := (ih fun k hk => h k (by omega)).add (h n (by omega))
    exact this.congr fun e w _ => Finset.sum_range_succ _ _

/-- A polynomial in `e`, by its coefficients. -/
noncomputable def polyEval (cs : List ℚ) (e : ℝ) : ℝ := cs.foldr (fun (c : ℚ) (s : ℝ) => (c : ℝ) + e * s) 0

def polyJet (cs : List ℚ) : Jet := cs.map fun c => [(0, c)]

theorem eval_polyJet (cs : List ℚ) (e : ℝ) (w : ℂ) :
    (polyJet cs).eval e w = (polyEval cs e : ℂ) := by
  induction cs with
  | nil => simp [polyJet, polyEval]
  | cons c cs ih =>
    have : polyJet (c :: cs) = [(0, c)] :: polyJet cs := rfl
    rw [this, eval_cons, ih]
    simp [polyEval]

theorem approx_poly {N : ℕ} {f : ℝ → ℝ} {cs : List ℚ} (h : ∀ e, f e = polyEval cs e) :
    Approx N (fun e _ => (f e : ℂ)) (polyJet cs) :=
  Approx.of_eq fun e w _ => by rw [eval_polyJet, h]

/-- `exp(i k M)` -/
def harmonic (k : ℤ) : Jet := Jet.scale k 1 (Jet.exp 8 [(-1, (k : ℚ) / 2), (1, -(k : ℚ) / 2)])

/-- `exp(i E)` -/
noncomputable def circle (bigE : ℝ) : ℂ := Complex.exp (bigE * Complex.I)

theorem circle_norm (bigE : ℝ) : ‖circle bigE‖ = 1 := Complex.norm_exp_ofReal_mul_I bigE

theorem circle_ne (bigE : ℝ) : circle bigE ≠ 0 := Complex.exp_ne_zero _

theorem circle_inv (bigE : ℝ) : (circle bigE)⁻¹ = Complex.cos bigE - Complex.sin bigE * Complex.I := by
  rw [circle, ← Complex.exp_neg, ← neg_mul, Complex.exp_mul_I, Complex.cos_neg, Complex.sin_neg]
  ring

theorem circle_eq (bigE : ℝ) : circle bigE = Complex.cos bigE + Complex.sin bigE * Complex.I := Complex.exp_mul_I _

theorem harmonic_eq (k : ℤ) (e bigE : ℝ) :
    Complex.exp (Complex.I * (k : ℂ) * (bigE - e * Real.sin bigE : ℝ))
      = ((1 : ℚ) : ℂ) * circle bigE ^ k
        * Complex.exp ((e : ℂ) * Laurent.eval [(-1, (k : ℚ) / 2), (1, -(k : ℚ) / 2)] (circle bigE)) := by
  have h1 : circle bigE ^ k = Complex.exp ((k : ℂ) * (bigE * Complex.I)) := by
    rw [circle, ← Complex.exp_int_mul]
  rw [h1, Rat.cast_one, one_mul, ← Complex.exp_add]
  congr 1
  simp only [Laurent.eval_cons, Laurent.eval_nil, zpow_neg, zpow_one, circle_inv]
  rw [circle_eq]
  push_cast
  ring

theorem approx_harmonic (k : ℤ) :
    Approx 8 (fun e w => ((1 : ℚ) : ℂ) * w ^ k * Complex.exp ((e : ℂ) * Laurent.eval [(-1, (k : ℚ) / 2), (1, -(k : ℚ) / 2)] w))
      (harmonic k) :=
  (Approx.exp 8 _).scale k 1

/-- The Fourier sum with polynomial coefficients. -/
def seriesJet (m s : ℤ) (T : List (List ℚ)) : Jet :=
  sumJet (fun k => Jet.mul 8 (polyJet (T.getD k [])) (harmonic (m + s * ((k : ℤ) - 7)))) 15

def radiusJet : Jet := [[(0, 1)], [(-1, -1 / 2), (1, -1 / 2)]]

def rootJet : Jet := polyJet [1, 0, -1 / 2, 0, -1 / 8, 0, -1 / 16]

def placeJet : Jet := Jet.add [[(-1, 1 / 2), (1, 1 / 2)], [(0, -1)]] (Jet.mul 8 rootJet [[(-1, -1 / 2), (1, 1 / 2)]])

theorem approx_root : Approx 8 (fun e _ => ((Real.sqrt (1 - e ^ 2) : ℝ) : ℂ)) rootJet := by
  refine ⟨1, zero_le_one, fun e w hr => ?_⟩
  obtain ⟨h0, h1, -⟩ := hr
  have he2 : e ^ 2 ≤ 1 / 4 := by nlinarith
  rw [rootJet, eval_polyJet, ← Complex.ofReal_sub, Complex.norm_real, Real.norm_eq_abs, one_mul]
  simp only [polyEval, List.foldr_cons, List.foldr_nil]
  set q := Real.sqrt (1 - e ^ 2) with hq
  have hq2 : q ^ 2 = 1 - e ^ 2 := Real.sq_sqrt (by nlinarith)
  have hq0 : 0 ≤ q := Real.sqrt_nonneg _
  have e4 : e ^ 4 ≤ 1 / 16 := by nlinarith [sq_nonneg e]
  have e4' : 0 ≤ e ^ 4 := by positivity
  have e6 : e ^ 6 ≤ 1 / 64 := by nlinarith [sq_nonneg e, mul_le_mul he2 e4 e4' (by norm_num)]
  have hp : 4 / 5 ≤ 1 - e ^ 2 / 2 - e ^ 4 / 8 - e ^ 6 / 16 := by nlinarith
  set p := 1 - e ^ 2 / 2 - e ^ 4 / 8 - e ^ 6 / 16 with hpd
  have heq : (((1 : ℚ) : ℝ) + e * (((0 : ℚ) : ℝ) + e * (((-1 / 2 : ℚ) : ℝ) + e * (((0 : ℚ) : ℝ) + e * (((-1 / 8 : ℚ) : ℝ)
      + e * (((0 : ℚ) : ℝ) + e * (((-1 / 16 : ℚ) : ℝ) + e * 0))))))) = p := by
    push_cast
    rw [hpd]
    ring
  rw [heq]
  have hmul : (q - p) * (q + p) = -e ^ 8 * (5 / 64 + e ^ 2 / 64 + e ^ 4 / 256) := by
    have : (q - p) * (q + p) = q ^ 2 - p ^ 2 := by ring
    rw [this, hq2, hpd]
    ring
  have e8 : 0 ≤ e ^ 8 := by positivity
  have hb : 0 ≤ 5 / 64 + e ^ 2 / 64 + e ^ 4 / 256 ∧ 5 / 64 + e ^ 2 / 64 + e ^ 4 / 256 ≤ 1 / 5 := by
    constructor
    · positivity
    · nlinarith
  have habs : |q - p| * (q + p) ≤ e ^ 8 * (1 / 5) := by
    have h3 : |q - p| * (q + p) = |(q - p) * (q + p)| := by
      rw [abs_mul, abs_of_nonneg (by linarith : 0 ≤ q + p)]
    rw [h3, hmul, neg_mul, abs_neg, abs_of_nonneg (mul_nonneg e8 hb.1)]
    exact mul_le_mul_of_nonneg_left hb.2 e8
  nlinarith [abs_nonneg (q - p)]

theorem approx_radius : Approx 8 (fun e w => 1 - (e : ℂ) * ((w + w⁻¹) / 2)) radiusJet := by
  refine Approx.of_eq fun e w _ => ?_
  simp only [radiusJet, eval_cons, Laurent.eval_cons, Laurent.eval_nil, eval_nil, zpow_zero, zpow_one, zpow_neg]
  push_cast
  ring

theorem radius_eq (e bigE : ℝ) : (radius e bigE : ℂ) = 1 - (e : ℂ) * ((circle bigE + (circle bigE)⁻¹) / 2) := by
  rw [circle_inv, circle_eq, radius]
  push_cast
  ring

theorem approx_place : Approx 8 (fun e w => ((w + w⁻¹) / 2 - e) + ((Real.sqrt (1 - e ^ 2) : ℝ) : ℂ) * ((w - w⁻¹) / 2)) placeJet := by
  have h1 : Approx 8 (fun e w => (w + w⁻¹) / 2 - (e : ℂ)) [[(-1, 1 / 2), (1, 1 / 2)], [(0, -1)]] := by
    refine Approx.of_eq fun e w _ => ?_
    simp only [eval_cons, Laurent.eval_cons, Laurent.eval_nil, eval_nil, zpow_zero, zpow_one, zpow_neg]
    push_cast
    ring
  have h2 : Approx 8 (fun _ w => (w - w⁻¹) / 2) [[(-1, -1 / 2), (1, 1 / 2)]] := by
    refine Approx.of_eq fun e w _ => ?_
    simp only [eval_cons, Laurent.eval_cons, Laurent.eval_nil, eval_nil, zpow_one, zpow_neg]
    push_cast
    ring
  exact h1.add (approx_root.mul h2)

theorem place_eq (e bigE : ℝ) : place e bigE = ((circle bigE + (circle bigE)⁻¹) / 2 - e)
    + ((Real.sqrt (1 - e ^ 2) : ℝ) : ℂ) * ((circle bigE - (circle bigE)⁻¹) / 2) := by
  rw [circle_inv, circle_eq]
  have : place e bigE = ((Real.cos bigE - e : ℝ) : ℂ) + ((Real.sqrt (1 - e ^ 2) * Real.sin bigE : ℝ) : ℂ) * Complex.I := by
    apply Complex.ext <;> simp [place, Complex.cos_ofReal_re, Complex.sin_ofReal_re, -Complex.ofReal_cos, -Complex.ofReal_sin]
  rw [this]
  push_cast
  ring

/-- The check of a table. -/
theorem expands_of {p m : ℕ} {s : ℤ} {c : ℝ → List ℝ} (T : List (List ℚ))
    (hc : ∀ k, k < 15 → Approx 8 (fun e _ => (((c e).getD k 0 : ℝ) : ℂ)) (polyJet (T.getD k [])))
    (hs : same (Jet.mul 8 (seriesJet m s T) (Jet.pow 8 radiusJet (p + m))) (Jet.pow 8 placeJet m) = true) :
    Expands p m s c := by
  have h1 : Approx 8 (fun e w => ∑ k ∈ Finset.range 15, (((c e).getD k 0 : ℝ) : ℂ)
      * (((1 : ℚ) : ℂ) * w ^ ((m : ℤ) + s * ((k : ℤ) - 7))
        * Complex.exp ((e : ℂ) * Laurent.eval [(-1, (((m : ℤ) + s * ((k : ℤ) - 7) : ℤ) : ℚ) / 2),
            (1, -(((m : ℤ) + s * ((k : ℤ) - 7) : ℤ) : ℚ) / 2)] w))) (seriesJet m s T) :=
    approx_sum _ _ 15 fun k hk => (hc k hk).mul (approx_harmonic _)
  obtain ⟨C, hC, h⟩ := (h1.mul (approx_radius.pow (p + m))).sub_le (approx_place.pow m) hs
  refine ⟨C * 2 ^ (p + m), fun e bigE h0 h2 => ?_⟩
  have hr : Range e (circle bigE) := ⟨h0, h2, circle_norm bigE⟩
  have key := h e (circle bigE) hr
  rw [← radius_eq, ← place_eq] at key
  have hsum : ∑ k ∈ Finset.range 15, ((c e).getD k 0 : ℂ)
        * Complex.exp (Complex.I * ((m : ℤ) + s * ((k : ℤ) - 7) : ℤ) * (bigE - e * Real.sin bigE : ℝ))
      = ∑ k ∈ Finset.range 15, (((c e).getD k 0 : ℝ) : ℂ)
      * (((1 : ℚ) : ℂ) * circle bigE ^ ((m : ℤ) + s * ((k : ℤ) - 7))
        * Complex.exp ((e : ℂ) * Laurent.eval [(-1, (((m : ℤ) + s * ((k : ℤ) - 7) : ℤ) : ℚ) / 2),
            (1, -(((m : ℤ) + s * ((k : ℤ) - 7) : ℤ) : ℚ) / 2)] (circle bigE))) :=
    Finset.sum_congr rfl fun k _ => by rw [harmonic_eq]
  rw [hsum]
  have hrad : 1 / 2 ≤ radius e bigE := by
    unfold radius
    nlinarith [Real.cos_le_one bigE, Real.neg_one_le_cos bigE]
  have hrne : (radius e bigE : ℂ) ≠ 0 := by
    intro h0
    rw [Complex.ofReal_eq_zero] at h0
    linarith
  set S := ∑ k ∈ Finset.range 15, (((c e).getD k 0 : ℝ) : ℂ)
      * (((1 : ℚ) : ℂ) * circle bigE ^ ((m : ℤ) + s * ((k : ℤ) - 7))
        * Complex.exp ((e : ℂ) * Laurent.eval [(-1, (((m : ℤ) + s * ((k : ℤ) - 7) : ℤ) : ℚ) / 2),
            (1, -(((m : ℤ) + s * ((k : ℤ) - 7) : ℤ) : ℚ) / 2)] (circle bigE)))
  have hfac : S - term p m e bigE
      = (S * (radius e bigE : ℂ) ^ (p + m) - place e bigE ^ m) * ((radius e bigE : ℂ) ^ (p + m))⁻¹ := by
    unfold term
    rw [div_pow, pow_add]
    field_simp
  rw [hfac, norm_mul, norm_inv, norm_pow, Complex.norm_real, Real.norm_of_nonneg (by linarith : 0 ≤ radius e bigE)]
  have hinv : (radius e bigE ^ (p + m))⁻¹ ≤ 2 ^ (p + m) := by
    rw [← inv_pow]
    refine pow_le_pow_left₀ (by positivity) ?_ _
    rw [inv_le_comm₀ (by linarith) (by norm_num)]
    linarith
  calc ‖S * (radius e bigE : ℂ) ^ (p + m) - place e bigE ^ m‖ * (radius e bigE ^ (p + m))⁻¹
      ≤ C * e ^ 8 * 2 ^ (p + m) := mul_le_mul key hinv (by positivity) (mul_nonneg hC (pow_nonneg h0 _))
    _ = C * 2 ^ (p + m) * e ^ 8 := by ring

/-- At the perihelion the coefficients add up to (a/r)^p. -/
theorem expands_perihelion {p m : ℕ} {s : ℤ} {c : ℝ → List ℝ} (h : Expands p m s c) :
    ∃ C : ℝ, ∀ e : ℝ, 0 ≤ e → e ≤ 1 / 2 → |∑ k ∈ Finset.range 15, (c e).getD k 0 - 1 / (1 - e) ^ p| ≤ C * e ^ 8 := by
  obtain ⟨C, h⟩ := h
  refine ⟨C, fun e h0 h1 => ?_⟩
  have key := h e 0 h0 h1
  have hne : (1 : ℂ) - e ≠ 0 := by
    rw [← Complex.ofReal_one, ← Complex.ofReal_sub, Ne, Complex.ofReal_eq_zero]
    linarith
  have ht : term p m e 0 = ((1 / (1 - e) ^ p : ℝ) : ℂ) := by
    have hp : place e 0 = 1 - (e : ℂ) := by
      apply Complex.ext <;> simp [place]
    have hr : (radius e 0 : ℂ) = 1 - e := by simp [radius]
    rw [term, hp, hr, div_self hne, one_pow]
    push_cast
    rfl
  rw [ht] at key
  simp only [Real.sin_zero, mul_zero, sub_zero, Complex.ofReal_zero, Complex.exp_zero, mul_one] at key
  rw [← Complex.ofReal_sum, ← Complex.ofReal_sub, Complex.norm_real, Real.norm_eq_abs] at key
  exact key

/-- A table whose sum at the perihelion differs in a power below eight of the eccentricity is wrong. -/
theorem not_expands_near {p m : ℕ} {s : ℤ} {c c' : ℝ → List ℝ} (h' : Expands p m s c') {a d : ℝ} (ha : 0 < a)
    (hd0 : 0 < d) (hd1 : d ≤ 1 / 8) (hd : ∀ e : ℝ, 0 < e → e ≤ d →
      a * e ^ 7 ≤ |∑ k ∈ Finset.range 15, (c e).getD k 0 - ∑ k ∈ Finset.range 15, (c' e).getD k 0|) : ¬ Expands p m s c := by
  intro h
  obtain ⟨C, h⟩ := expands_perihelion h
  obtain ⟨D, h'⟩ := expands_perihelion h'
  set e := min d (a / (2 * (|C| + |D| + 1))) with he
  have hpos : 0 < |C| + |D| + 1 := by positivity
  have e0 : 0 < e := lt_min hd0 (by positivity)
  have e1 : e ≤ d := min_le_left _ _
  have e2 : e * (2 * (|C| + |D| + 1)) ≤ a := by
    rw [← le_div_iff₀ (by positivity)]
    exact min_le_right _ _
  have k1 := h e e0.le (by linarith)
  have k2 := h' e e0.le (by linarith)
  have k3 := hd e e0 e1
  have e7 : 0 < e ^ 7 := by positivity
  have k4 : a * e ^ 7 ≤ (C + D) * e ^ 8 := by
    refine k3.trans ?_
    calc |∑ k ∈ Finset.range 15, (c e).getD k 0 - ∑ k ∈ Finset.range 15, (c' e).getD k 0|
        ≤ |∑ k ∈ Finset.range 15, (c e).getD k 0 - 1 / (1 - e) ^ p| + |∑ k ∈ Finset.range 15, (c' e).getD k 0 - 1 / (1 - e) ^ p| := by
          rw [abs_le]
          constructor <;> linarith [abs_le.1 (le_refl |∑ k ∈ Finset.range 15, (c e).getD k 0 - 1 / (1 - e) ^ p|),
            abs_le.1 (le_refl |∑ k ∈ Finset.range 15, (c' e).getD k 0 - 1 / (1 - e) ^ p|)]
      _ ≤ C * e ^ 8 + D * e ^ 8 := add_le_add k1 k2
      _ = (C + D) * e ^ 8 := by ring
  have k5 : a ≤ (C + D) * e := by
    have : a * e ^ 7 ≤ (C + D) * e * e ^ 7 := by
      calc a * e ^ 7 ≤ (C + D) * e ^ 8 := k4
        _ = (C + D) * e * e ^ 7 := by ring
    exact le_of_mul_le_mul_right this e7
  nlinarith [le_abs_self C, le_abs_self D]

theorem not_expands {p m : ℕ} {s : ℤ} {c c' : ℝ → List ℝ} (h' : Expands p m s c') {a : ℝ} (ha : 0 < a)
    (hd : ∀ e : ℝ, 0 < e → e ≤ 1 / 8 →
      a * e ^ 7 ≤ |∑ k ∈ Finset.range 15, (c e).getD k 0 - ∑ k ∈ Finset.range 15, (c' e).getD k 0|) : ¬ Expands p m s c :=
  not_expands_near h' ha (by norm_num) le_rfl hd

/-- The reciprocal of a function that is bounded below. -/
theorem Approx.inv {N : ℕ} {f : ℝ → ℂ → ℂ} {A B : Jet} (hf : Approx N f A) {b : ℝ} (hb : 0 < b)
    (hlow : ∀ e w, Range e w → b ≤ ‖f e w‖) (hs : same (Jet.mul N A B) [[(0, 1)]] = true) :
    Approx N (fun e w => (f e w)⁻¹) B := by
  have h1 : Approx N (fun _ _ => 1) [[(0, 1)]] := Approx.of_eq fun e w hr => by simp [Jet.eval, Laurent.eval]
  have h2 : Approx N (fun e w => Jet.eval B e w) B := Approx.of_eq fun _ _ _ => rfl
  obtain ⟨C, hC, h⟩ := (hf.mul h2).sub_le h1 hs
  refine ⟨C / b, by positivity, fun e w hr => ?_⟩
  have h0 : f e w ≠ 0 := fun h0 => by
    have := hlow e w hr
    rw [h0, norm_zero] at this
    linarith
  have hfac : (f e w)⁻¹ - Jet.eval B e w = -((f e w * Jet.eval B e w - 1) * (f e w)⁻¹) := by
    field_simp
    ring
  rw [hfac, norm_neg, norm_mul, norm_inv]
  have key := h e w hr
  have hinv : ‖f e w‖⁻¹ ≤ b⁻¹ := inv_anti₀ hb (hlow e w hr)
  calc ‖f e w * Jet.eval B e w - 1‖ * ‖f e w‖⁻¹ ≤ C * e ^ N * b⁻¹ :=
        mul_le_mul key hinv (by positivity) (mul_nonneg hC (pow_nonneg hr.1 _))
    _ = C / b * e ^ N := by ring

/-- The coefficients in the reverse order belong to the harmonics in the reverse order. -/
theorem Expands.reverse {p m : ℕ} {s : ℤ} {c : ℝ → List ℝ} (h : Expands p m s c) (hl : ∀ e, (c e).length = 15) :
    Expands p m (-s) fun e => (c e).reverse := by
  obtain ⟨C, h⟩ := h
  refine ⟨C, fun e bigE h0 h1 => ?_⟩
  have key := h e bigE h0 h1
  rw [← Finset.sum_range_reflect] at key
  refine le_trans (le_of_eq ?_) key
  congr 2
  refine Finset.sum_congr rfl fun k hk => ?_
  rw [Finset.mem_range] at hk
  have e1 : (c e).reverse.getD k 0 = (c e).getD (15 - 1 - k) 0 := by
    rw [List.getD_eq_getElem?_getD, List.getD_eq_getElem?_getD, List.getElem?_reverse (by rw [hl]; exact hk), hl]
  have e2 : ((15 - 1 - k : ℕ) : ℤ) = 14 - k := by omega
  rw [e1, e2]
  congr 3
  push_cast
  ring

end Posidonius.Hansen
