import Mathlib.Analysis.Complex.Exponential
import Mathlib.Analysis.Complex.Basic
import Mathlib.Tactic.LinearCombination
import Mathlib.Tactic.Linarith
import Mathlib.Tactic.Positivity
import Mathlib.Tactic.Ring
import Mathlib.Tactic.GCongr

/-!
# Truncated power series in the eccentricity

A jet is a polynomial in `e` whose coefficients are Laurent polynomials in `w` with rational coefficients, as a list.
`Approx N f J`: the function `f` of `e` and of a number `w` of the unit circle equals the jet up to a term of order
`e ^ N`, uniformly in `w`.
-/

namespace Posidonius.Jet

/-- Sum of `c w ^ k` over the pairs `(k, c)`. -/
abbrev Laurent := List (ℤ × ℚ)

namespace Laurent

noncomputable def eval (L : Laurent) (w : ℂ) : ℂ := (L.map fun t => (t.2 : ℂ) * w ^ t.1).sum

def ins (k : ℤ) (c : ℚ) : Laurent → Laurent
  | [] => [(k, c)]
  | (l, d) :: L => if k = l then (l, c + d) :: L else if k < l then (k, c) :: (l, d) :: L else (l, d) :: ins k c L

def add (A B : Laurent) : Laurent := A.foldr (fun t L => ins t.1 t.2 L) B

def scale (k : ℤ) (c : ℚ) (B : Laurent) : Laurent := B.map fun t => (k + t.1, c * t.2)

def mul (A B : Laurent) : Laurent := A.foldr (fun t L => add (scale t.1 t.2 B) L) []

def isZero (L : Laurent) : Bool := L.all fun t => t.2 == 0

@[simp] theorem eval_nil (w : ℂ) : eval [] w = 0 := rfl

@[simp] theorem eval_cons (t : ℤ × ℚ) (L : Laurent) (w : ℂ) : eval (t :: L) w = (t.2 : ℂ) * w ^ t.1 + eval L w := by
  simp [eval]

theorem eval_ins (k : ℤ) (c : ℚ) (L : Laurent) (w : ℂ) : eval (ins k c L) w = (c : ℂ) * w ^ k + eval L w := by
  induction L with
  | nil => simp [ins]
  | cons t L ih =>
    obtain ⟨l, d⟩ := t
    unfold ins
    split
    · next h => subst h; simp; ring
    · split
      · simp
      · simp [ih]; ring

theorem eval_add (A B : Laurent) (w : ℂ) : eval (add A B) w = eval A w + eval B w := by
  induction A with
  | nil => simp [add]
  | cons t A ih =>
    have : add (t :: A) B = ins t.1 t.2 (add A B) := rfl
    rw [this, eval_ins, ih, eval_cons, add_assoc]

theorem eval_scale (k : ℤ) (c : ℚ) (B : Laurent) {w : ℂ} (hw : w ≠ 0) :
    eval (scale k c B) w = (c : ℂ) * w ^ k * eval B w := by
  induction B with
  | nil => simp [scale]
  | cons t B ih =>
    have : scale k c (t :: B) = (k + t.1, c * t.2) :: scale k c B := rfl
    rw [this, eval_cons, ih, eval_cons, zpow_add₀ hw]
    push_cast
    ring

theorem eval_mul (A B : Laurent) {w : ℂ} (hw : w ≠ 0) : eval (mul A B) w = eval A w * eval B w := by
  induction A with
  | nil => simp [mul]
  | cons t A ih =>
    have : mul (t :: A) B = add (scale t.1 t.2 B) (mul A B) := rfl
    rw [this, eval_add, eval_scale _ _ _ hw, ih, eval_cons]
    ring

theorem eval_isZero {L : Laurent} (h : isZero L = true) (w : ℂ) : eval L w = 0 := by
  induction L with
  | nil => rfl
  | cons t L ih =>
    simp only [isZero, List.all_cons, Bool.and_eq_true, beq_iff_eq] at h
    rw [eval_cons, h.1, ih h.2]
    simp

theorem bounded (L : Laurent) : ∃ B : ℝ, 0 ≤ B ∧ ∀ w : ℂ, ‖w‖ = 1 → ‖eval L w‖ ≤ B := by
  induction L with
  | nil => exact ⟨0, le_rfl, by simp⟩
  | cons t L ih =>
    obtain ⟨B, hB, h⟩ := ih
    refine ⟨‖(t.2 : ℂ)‖ + B, by positivity, fun w hw => ?_⟩
    rw [eval_cons]
    refine (norm_add_le _ _).trans ?_
    have : ‖(t.2 : ℂ) * w ^ t.1‖ = ‖(t.2 : ℂ)‖ := by rw [norm_mul, norm_zpow, hw, one_zpow, mul_one]
    rw [this]
    exact add_le_add le_rfl (h w hw)

end Laurent
end Jet

open Jet

/-- Coefficients of the powers of `e`. -/
abbrev Jet := List Laurent

namespace Jet

noncomputable def eval : Jet → ℝ → ℂ → ℂ
  | [], _, _ => 0
  | a :: J, e, w => a.eval w + (e : ℂ) * eval J e w

def add : Jet → Jet → Jet
  | [], B => B
  | A, [] => A
  | a :: A, b :: B => a.add b :: add A B

def scale (k : ℤ) (c : ℚ) (J : Jet) : Jet := J.map (Laurent.scale k c)

/-- Product up to `e ^ (n - 1)`. -/
def mul : ℕ → Jet → Jet → Jet
  | 0, _, _ => []
  | _ + 1, [], _ => []
  | n + 1, a :: A, B => add ((B.take (n + 1)).map (Laurent.mul a)) ([] :: mul n A B)

def pow (n : ℕ) (A : Jet) : ℕ → Jet
  | 0 => [[(0, 1)]]
  | k + 1 => mul n (pow n A k) A

def isZero (J : Jet) : Bool := J.all Laurent.isZero

/-- The jets have the same coefficients. -/
def same (A B : Jet) : Bool := isZero (add A (scale 0 (-1) B))

@[simp] theorem eval_nil (e : ℝ) (w : ℂ) : eval [] e w = 0 := rfl

@[simp] theorem eval_cons (a : Laurent) (J : Jet) (e : ℝ) (w : ℂ) :
    eval (a :: J) e w = a.eval w + (e : ℂ) * eval J e w := rfl

theorem eval_add (A B : Jet) (e : ℝ) (w : ℂ) : eval (add A B) e w = eval A e w + eval B e w := by
  induction A generalizing B with
  | nil => simp [add]
  | cons a A ih =>
    cases B with
    | nil => simp [add]
    | cons b B =>
      simp only [add, eval_cons, Laurent.eval_add, ih]
      ring

theorem eval_scale (k : ℤ) (c : ℚ) (J : Jet) (e : ℝ) {w : ℂ} (hw : w ≠ 0) :
    eval (scale k c J) e w = (c : ℂ) * w ^ k * eval J e w := by
  induction J with
  | nil => simp [scale]
  | cons a J ih =>
    have : scale k c (a :: J) = Laurent.scale k c a :: scale k c J := rfl
    rw [this, eval_cons, ih, eval_cons, Laurent.eval_scale _ _ _ hw]
    ring

theorem eval_map_mul (a : Laurent) (J : Jet) (e : ℝ) {w : ℂ} (hw : w ≠ 0) :
    eval (J.map (Laurent.mul a)) e w = a.eval w * eval J e w := by
  induction J with
  | nil => simp
  | cons b J ih =>
    rw [List.map_cons, eval_cons, ih, eval_cons, Laurent.eval_mul _ _ hw]
    ring

theorem eval_isZero {J : Jet} (h : isZero J = true) (e : ℝ) (w : ℂ) : eval J e w = 0 := by
  induction J with
  | nil => rfl
  | cons a J ih =>
    simp only [isZero, List.all_cons, Bool.and_eq_true] at h
    rw [eval_cons, Laurent.eval_isZero h.1, ih h.2]
    simp

theorem eval_same {A B : Jet} (h : same A B = true) (e : ℝ) {w : ℂ} (hw : w ≠ 0) : eval A e w = eval B e w := by
  have := eval_isZero h e w
  rw [eval_add, eval_scale _ _ _ _ hw] at this
  push_cast at this
  rw [zpow_zero] at this
  linear_combination this

/-- The range of eccentricities considered. -/
def Range (e : ℝ) (w : ℂ) : Prop := 0 ≤ e ∧ e ≤ 1 / 2 ∧ ‖w‖ = 1

theorem Range.ne {e : ℝ} {w : ℂ} (h : Range e w) : w ≠ 0 := by
  intro h0
  have := h.2.2
  rw [h0, norm_zero] at this
  exact zero_ne_one this

theorem Range.norm_e {e : ℝ} {w : ℂ} (h : Range e w) : ‖(e : ℂ)‖ = e := by
  rw [Complex.norm_real, Real.norm_of_nonneg h.1]

theorem bounded (J : Jet) : ∃ B : ℝ, 0 ≤ B ∧ ∀ e w, Range e w → ‖eval J e w‖ ≤ B := by
  induction J with
  | nil => exact ⟨0, le_rfl, by simp⟩
  | cons a J ih =>
    obtain ⟨B, hB, h⟩ := ih
    obtain ⟨A, hA, g⟩ := a.bounded
    refine ⟨A + B, by positivity, fun e w hr => ?_⟩
    rw [eval_cons]
    refine (norm_add_le _ _).trans (add_le_add (g w hr.2.2) ?_)
    rw [norm_mul, hr.norm_e]
    have := h e w hr
    have h1 := hr.1
    have h2 := hr.2.1
    nlinarith [norm_nonneg (eval J e w)]

theorem take_error (n : ℕ) (J : Jet) :
    ∃ C : ℝ, 0 ≤ C ∧ ∀ e w, Range e w → ‖eval J e w - eval (J.take n) e w‖ ≤ C * e ^ n := by
  induction J generalizing n with
  | nil => exact ⟨0, le_rfl, by simp⟩
  | cons a J ih =>
    cases n with
    | zero =>
      obtain ⟨B, hB, h⟩ := bounded (a :: J)
      exact ⟨B, hB, fun e w hr => by simpa using h e w hr⟩
    | succ n =>
      obtain ⟨C, hC, h⟩ := ih n
      refine ⟨C, hC, fun e w hr => ?_⟩
      rw [List.take_succ_cons, eval_cons, eval_cons, add_sub_add_left_eq_sub, ← mul_sub, norm_mul, hr.norm_e, pow_succ]
      nlinarith [h e w hr, hr.1, mul_le_mul_of_nonneg_left (h e w hr) hr.1]

theorem mul_error (n : ℕ) (A B : Jet) :
    ∃ C : ℝ, 0 ≤ C ∧ ∀ e w, Range e w → ‖eval A e w * eval B e w - eval (mul n A B) e w‖ ≤ C * e ^ n := by
  induction n generalizing A with
  | zero =>
    obtain ⟨a, ha, h⟩ := bounded A
    obtain ⟨b, hb, g⟩ := bounded B
    refine ⟨a * b, by positivity, fun e w hr => ?_⟩
    simp only [mul, eval_nil, sub_zero, norm_mul, pow_zero, mul_one]
    exact mul_le_mul (h e w hr) (g e w hr) (norm_nonneg _) ha
  | succ n ih =>
    cases A with
    | nil => exact ⟨0, le_rfl, by simp [mul]⟩
    | cons a A =>
      obtain ⟨C, hC, h⟩ := ih A
      obtain ⟨D, hD, g⟩ := take_error (n + 1) B
      obtain ⟨α, hα, b⟩ := a.bounded
      refine ⟨α * D + C, by positivity, fun e w hr => ?_⟩
      have key : eval (a :: A) e w * eval B e w - eval (mul (n + 1) (a :: A) B) e w
          = a.eval w * (eval B e w - eval (B.take (n + 1)) e w) + (e : ℂ) * (eval A e w * eval B e w - eval (mul n A B) e w) := by
        simp only [mul, eval_add, eval_map_mul _ _ _ hr.ne, eval_cons, Laurent.eval_nil]
        ring
      rw [key]
      refine (norm_add_le _ _).trans ?_
      rw [norm_mul, norm_mul, hr.norm_e]
      have h1 := h e w hr
      have h2 := g e w hr
      have h3 := b w hr.2.2
      have h4 : 0 ≤ D * e ^ (n + 1) := mul_nonneg hD (pow_nonneg hr.1 _)
      calc ‖a.eval w‖ * ‖eval B e w - eval (B.take (n + 1)) e w‖ + e * ‖eval A e w * eval B e w - eval (mul n A B) e w‖
          ≤ α * (D * e ^ (n + 1)) + e * (C * e ^ n) :=
            add_le_add (mul_le_mul h3 h2 (norm_nonneg _) hα) (mul_le_mul_of_nonneg_left h1 hr.1)
        _ = (α * D + C) * e ^ (n + 1) := by ring

/-- Equality up to a term of order `e ^ N`, uniformly in `w`. -/
def Approx (N : ℕ) (f : ℝ → ℂ → ℂ) (J : Jet) : Prop :=
  ∃ C : ℝ, 0 ≤ C ∧ ∀ e w, Range e w → ‖f e w - eval J e w‖ ≤ C * e ^ N

variable {N : ℕ} {f g : ℝ → ℂ → ℂ} {A B : Jet}

theorem Approx.of_eq (h : ∀ e w, Range e w → f e w = eval A e w) : Approx N f A :=
  ⟨0, le_rfl, fun e w hr => by rw [h e w hr, sub_self, norm_zero, zero_mul]⟩

theorem Approx.congr (h : Approx N f A) (hg : ∀ e w, Range e w → g e w = f e w) : Approx N g A := by
  obtain ⟨C, hC, k⟩ := h
  exact ⟨C, hC, fun e w hr => by rw [hg e w hr]; exact k e w hr⟩

theorem Approx.bounded (h : Approx N f A) : ∃ K : ℝ, 0 ≤ K ∧ ∀ e w, Range e w → ‖f e w‖ ≤ K := by
  obtain ⟨C, hC, k⟩ := h
  obtain ⟨b, hb, l⟩ := Jet.bounded A
  refine ⟨C + b, by positivity, fun e w hr => ?_⟩
  have h1 : f e w = (f e w - eval A e w) + eval A e w := by ring
  rw [h1]
  refine (norm_add_le _ _).trans (add_le_add ((k e w hr).trans ?_) (l e w hr))
  have : e ^ N ≤ 1 := pow_le_one₀ hr.1 (hr.2.1.trans (by norm_num))
  nlinarith

theorem Approx.add (hf : Approx N f A) (hg : Approx N g B) : Approx N (fun e w => f e w + g e w) (A.add B) := by
  obtain ⟨C, hC, k⟩ := hf
  obtain ⟨D, hD, l⟩ := hg
  refine ⟨C + D, by positivity, fun e w hr => ?_⟩
  rw [eval_add, add_sub_add_comm, add_mul]
  exact (norm_add_le _ _).trans (add_le_add (k e w hr) (l e w hr))

theorem Approx.scale (hf : Approx N f A) (k : ℤ) (c : ℚ) :
    Approx N (fun e w => (c : ℂ) * w ^ k * f e w) (Jet.scale k c A) := by
  obtain ⟨C, hC, h⟩ := hf
  refine ⟨‖(c : ℂ)‖ * C, by positivity, fun e w hr => ?_⟩
  rw [eval_scale _ _ _ _ hr.ne, ← mul_sub, norm_mul, norm_mul, norm_zpow, hr.2.2, one_zpow, mul_one, mul_assoc]
  exact mul_le_mul_of_nonneg_left (h e w hr) (norm_nonneg _)

theorem Approx.mul (hf : Approx N f A) (hg : Approx N g B) : Approx N (fun e w => f e w * g e w) (Jet.mul N A B) := by
  obtain ⟨K, hK, fb⟩ := hf.bounded
  obtain ⟨C, hC, k⟩ := hf
  obtain ⟨D, hD, l⟩ := hg
  obtain ⟨b, hb, m⟩ := Jet.bounded B
  obtain ⟨T, hT, t⟩ := mul_error N A B
  refine ⟨K * D + C * b + T, by positivity, fun e w hr => ?_⟩
  have key : f e w * g e w - eval (Jet.mul N A B) e w = f e w * (g e w - eval B e w) + (f e w - eval A e w) * eval B e w
      + (eval A e w * eval B e w - eval (Jet.mul N A B) e w) := by ring
  rw [key]
  have he : 0 ≤ e ^ N := pow_nonneg hr.1 _
  calc ‖f e w * (g e w - eval B e w) + (f e w - eval A e w) * eval B e w
        + (eval A e w * eval B e w - eval (Jet.mul N A B) e w)‖
      ≤ ‖f e w‖ * ‖g e w - eval B e w‖ + ‖f e w - eval A e w‖ * ‖eval B e w‖
        + ‖eval A e w * eval B e w - eval (Jet.mul N A B) e w‖ := by
        refine (norm_add_le _ _).trans (add_le_add ((norm_add_le _ _).trans (le_of_eq ?_)) le_rfl)
        rw [norm_mul, norm_mul]
    _ ≤ K * (D * e ^ N) + C * e ^ N * b + T * e ^ N := by
        refine add_le_add (add_le_add ?_ ?_) (t e w hr)
        · exact mul_le_mul (fb e w hr) (l e w hr) (norm_nonneg _) hK
        · exact mul_le_mul (k e w hr) (m e w hr) (norm_nonneg _) (mul_nonneg hC he)
    _ = (K * D + C * b + T) * e ^ N := by ring

theorem Approx.pow (hf : Approx N f A) (k : ℕ) : Approx N (fun e w => f e w ^ k) (Jet.pow N A k) := by
  induction k with
  | zero => exact Approx.of_eq fun e w _ => by simp [Jet.pow]
  | succ k ih =>
    have := ih.mul hf
    exact this.congr fun e w _ => by rw [pow_succ]

/-- Functions with the same jet differ by a term of order `e ^ N`. -/
theorem Approx.sub_le (hf : Approx N f A) (hg : Approx N g B) (h : same A B = true) :
    ∃ C : ℝ, 0 ≤ C ∧ ∀ e w, Range e w → ‖f e w - g e w‖ ≤ C * e ^ N := by
  obtain ⟨C, hC, k⟩ := hf
  obtain ⟨D, hD, l⟩ := hg
  refine ⟨C + D, by positivity, fun e w hr => ?_⟩
  have key : f e w - g e w = (f e w - eval A e w) - (g e w - eval B e w) := by rw [eval_same h e hr.ne]; ring
  rw [key, add_mul]
  exact (norm_sub_le _ _).trans (add_le_add (k e w hr) (l e w hr))

/-- The jet of `exp (e L(w))`. -/
def exp (n : ℕ) (L : Laurent) : Jet := (List.range n).map fun j => Laurent.scale 0 (1 / j.factorial) (Laurent.pow L j)
where
  Laurent.pow (L : Laurent) : ℕ → Laurent
    | 0 => [(0, 1)]
    | j + 1 => (Laurent.pow L j).mul L

theorem eval_map_range (n : ℕ) (a : ℕ → Laurent) (e : ℝ) (w : ℂ) :
    eval ((List.range n).map a) e w = ∑ j ∈ Finset.range n, (e : ℂ) ^ j * (a j).eval w := by
  induction n generalizing a with
  | zero => simp
  | succ n ih =>
    rw [List.range_succ_eq_map, List.map_cons, List.map_map, eval_cons]
    have := ih (a ∘ Nat.succ)
    rw [this, Finset.sum_range_succ', Finset.mul_sum, add_comm]
    simp only [Function.comp, pow_succ, pow_zero, one_mul, Nat.succ_eq_add_one]
    congr 1
    exact Finset.sum_congr rfl fun j _ => by ring

theorem eval_lpow (L : Laurent) (j : ℕ) {w : ℂ} (hw : w ≠ 0) : (exp.Laurent.pow L j).eval w = L.eval w ^ j := by
  induction j with
  | zero => simp [exp.Laurent.pow]
  | succ j ih => rw [exp.Laurent.pow, Laurent.eval_mul _ _ hw, ih, pow_succ]

theorem Approx.exp (N : ℕ) (L : Laurent) : Approx N (fun e w => Complex.exp ((e : ℂ) * L.eval w)) (Jet.exp N L) := by
  obtain ⟨K, hK, h⟩ := L.bounded
  refine ⟨K ^ N * Real.exp K, by positivity, fun e w hr => ?_⟩
  have key : eval (Jet.exp N L) e w = ∑ j ∈ Finset.range N, ((e : ℂ) * L.eval w) ^ j / j.factorial := by
    rw [Jet.exp, eval_map_range]
    refine Finset.sum_congr rfl fun j _ => ?_
    rw [Laurent.eval_scale _ _ _ hr.ne, eval_lpow _ _ hr.ne, mul_pow]
    push_cast
    rw [zpow_zero]
    ring
  rw [key]
  refine (Complex.norm_exp_sub_sum_le_norm_mul_exp _ N).trans ?_
  have hn : ‖(e : ℂ) * L.eval w‖ ≤ e * K := by
    rw [norm_mul, hr.norm_e]
    exact mul_le_mul_of_nonneg_left (h w hr.2.2) hr.1
  have hn2 : e * K ≤ K := by nlinarith [hr.2.1, hr.1]
  calc ‖(e : ℂ) * L.eval w‖ ^ N * Real.exp ‖(e : ℂ) * L.eval w‖ ≤ (e * K) ^ N * Real.exp K := by
        refine mul_le_mul (pow_le_pow_left₀ (norm_nonneg _) hn N) (Real.exp_le_exp.2 (hn.trans hn2)) (Real.exp_pos _).le ?_
        exact pow_nonneg (mul_nonneg hr.1 hK) N
    _ = K ^ N * Real.exp K * e ^ N := by rw [mul_pow]; ring

end Jet
end Posidonius
