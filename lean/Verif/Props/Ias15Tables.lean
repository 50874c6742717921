import Verif.Props.Ias15Collocation
import Mathlib.Algebra.BigOperators.Ring.Finset
import Mathlib.Algebra.BigOperators.Intervals
import Mathlib.Tactic.IntervalCases
import Mathlib.Analysis.SpecialFunctions.Integrals.Basic
import Mathlib.LinearAlgebra.Lagrange
import Mathlib.Algebra.Polynomial.Div
import Mathlib.Topology.Algebra.Polynomial

/-! # C76 and C78: the tables of IAS15 -/

namespace Posidonius.Ias15
open Posidonius Finset

/-- Coefficients of Newton's basis in powers: `τ (τ - h₁) ... (τ - hⱼ) = Σₖ C j k τᵏ⁺¹`. -/
def newtonC {K : Type} [Field K] (h : ℕ → K) : ℕ → ℕ → K
  | 0, 0 => 1
  | 0, _ + 1 => 0
  | j + 1, 0 => -(h (j + 1) * newtonC h j 0)
  | j + 1, k + 1 => newtonC h j k - h (j + 1) * newtonC h j (k + 1)

/-- Coefficients of powers in Newton's basis. -/
def newtonD {K : Type} [Field K] (h : ℕ → K) : ℕ → ℕ → K
  | 0, 0 => 1
  | 0, _ + 1 => 0
  | j + 1, 0 => h 1 * newtonD h j 0
  | j + 1, k + 1 => newtonD h j k + h (k + 2) * newtonD h j (k + 1)

theorem newtonC_of_lt {K : Type} [Field K] (h : ℕ → K) (j k : ℕ) (hk : j < k) : newtonC h j k = 0 := by
  induction j generalizing k with
  | zero =>
    obtain ⟨k, rfl⟩ : ∃ m, k = m + 1 := ⟨k - 1, by omega⟩
    rfl
  | succ j ih =>
    obtain ⟨k, rfl⟩ : ∃ m, k = m + 1 := ⟨k - 1, by omega⟩
    rw [newtonC, ih k (by omega), ih (k + 1) (by omega)]
    simp

theorem newtonC_self {K : Type} [Field K] (h : ℕ → K) (j : ℕ) : newtonC h j j = 1 := by
  induction j with
  | zero => rfl
  | succ j ih => rw [newtonC, ih, newtonC_of_lt h j (j + 1) (by omega)]; simp

theorem newtonD_of_lt {K : Type} [Field K] (h : ℕ → K) (j k : ℕ) (hk : j < k) : newtonD h j k = 0 := by
  induction j generalizing k with
  | zero =>
    obtain ⟨k, rfl⟩ : ∃ m, k = m + 1 := ⟨k - 1, by omega⟩
    rfl
  | succ j ih =>
    obtain ⟨k, rfl⟩ : ∃ m, k = m + 1 := ⟨k - 1, by omega⟩
    rw [newtonD, ih k (by omega), ih (k + 1) (by omega)]
    simp

theorem newtonD_self {K : Type} [Field K] (h : ℕ → K) (j : ℕ) : newtonD h j j = 1 := by
  induction j with
  | zero => rfl
  | succ j ih => rw [newtonD, ih, newtonD_of_lt h j (j + 1) (by omega)]; simp

theorem newtonBasis_succ (h : ℕ → ℝ) (j : ℕ) (τ : ℝ) :
    newtonBasis h (j + 1) τ = newtonBasis h j τ * (τ - h (j + 1)) := by
  unfold newtonBasis
  rw [List.range_succ, List.map_append, List.prod_append]
  simp [mul_assoc]

theorem newtonBasis_sum (h : ℕ → ℝ) (j : ℕ) (τ : ℝ) :
    newtonBasis h j τ = ∑ k ∈ range (j + 1), newtonC h j k * τ ^ (k + 1) := by
  induction j with
  | zero => simp [newtonBasis, newtonC]
  | succ j ih =>
    rw [newtonBasis_succ, ih, sum_range_succ' _ (j + 1)]
    have e1 : ∑ k ∈ range (j + 1), newtonC h (j + 1) (k + 1) * τ ^ (k + 1 + 1)
        = ∑ k ∈ range (j + 1), newtonC h j k * τ ^ (k + 1) * τ
          - h (j + 1) * ∑ k ∈ range (j + 1), newtonC h j (k + 1) * τ ^ (k + 1 + 1) := by
      rw [mul_sum, ← sum_sub_distrib]
      refine sum_congr rfl fun k _ => ?_
      rw [newtonC]; ring
    have e2 : ∑ k ∈ range (j + 1), newtonC h j (k + 1) * τ ^ (k + 1 + 1)
        = ∑ k ∈ range (j + 1), newtonC h j k * τ ^ (k + 1) - newtonC h j 0 * τ ^ (0 + 1) := by
      have := sum_range_succ' (fun k => newtonC h j k * τ ^ (k + 1)) (j + 1)
      rw [sum_range_succ, newtonC_of_lt h j (j + 1) (by omega), zero_mul, add_zero] at this
      linarith
    rw [e1, e2, newtonC, ← sum_mul]
    ring

theorem power_sum (h : ℕ → ℝ) (j : ℕ) (τ : ℝ) :
    τ ^ (j + 1) = ∑ k ∈ range (j + 1), newtonD h j k * newtonBasis h k τ := by
  induction j with
  | zero => simp [newtonBasis, newtonD]
  | succ j ih =>
    rw [pow_succ, ih, sum_range_succ' _ (j + 1)]
    have e1 : ∑ k ∈ range (j + 1), newtonD h (j + 1) (k + 1) * newtonBasis h (k + 1) τ
        = ∑ k ∈ range (j + 1), newtonD h j k * newtonBasis h (k + 1) τ
          + ∑ k ∈ range (j + 1), newtonD h j (k + 1) * h (k + 2) * newtonBasis h (k + 1) τ := by
      rw [← sum_add_distrib]
      refine sum_congr rfl fun k _ => ?_
      rw [newtonD]; ring
    have e2 : ∑ k ∈ range (j + 1), newtonD h j (k + 1) * h (k + 2) * newtonBasis h (k + 1) τ
        = ∑ k ∈ range (j + 1), newtonD h j k * h (k + 1) * newtonBasis h k τ - newtonD h j 0 * h 1 * newtonBasis h 0 τ := by
      have := sum_range_succ' (fun k => newtonD h j k * h (k + 1) * newtonBasis h k τ) (j + 1)
      rw [sum_range_succ, newtonD_of_lt h j (j + 1) (by omega)] at this
      linarith
    rw [e1, e2, sum_mul, newtonD]
    have e3 : ∑ k ∈ range (j + 1), newtonD h j k * newtonBasis h k τ * τ
        = ∑ k ∈ range (j + 1), newtonD h j k * newtonBasis h (k + 1) τ
          + ∑ k ∈ range (j + 1), newtonD h j k * h (k + 1) * newtonBasis h k τ := by
      rw [← sum_add_distrib]
      refine sum_congr rfl fun k _ => ?_
      rw [newtonBasis_succ]; ring
    rw [e3]
    ring

theorem list_sum (f : ℕ → ℝ) (n : ℕ) : ((List.range n).map f).sum = ∑ k ∈ range n, f k := by
  induction n with
  | zero => rfl
  | succ n ih => rw [List.range_succ, List.map_append, List.sum_append, ih, sum_range_succ]; simp

/-- The entries below the diagonal, row by row, as in the tables of the code. -/
def rows {K : Type} [Zero K] (n : ℕ) (f : ℕ → ℕ → K) (i : ℕ) : K :=
  ((List.range n).flatMap fun j => (List.range (j + 1)).map fun k => f (j + 1) k).getD i 0

/-- The tables that belong to spacings. -/
def tablesOf {K : Type} [Field K] (h : ℕ → K) : Tables K :=
  { h := h, r := rows 7 fun j k => h j - h k, c := rows 6 (newtonC h), d := rows 6 (newtonD h) }

theorem rows7 {K : Type} [Zero K] (f : ℕ → ℕ → K) (j k : ℕ) (hj : j ≤ 7) (hk : k < j) :
    rows 7 f (j * (j - 1) / 2 + k) = f j k := by
  interval_cases j <;> interval_cases k <;> rfl

theorem rows6 {K : Type} [Zero K] (f : ℕ → ℕ → K) (j k : ℕ) (hj : j ≤ 6) (hk : k < j) :
    rows 6 f (j * (j - 1) / 2 + k) = f j k := by
  interval_cases j <;> interval_cases k <;> rfl

/-- **C76, tables**: for all distinct spacings the tables of `tablesOf` are exact: the hypothesis of the theorems about
interpolation and collocation can be met. -/
theorem C76_tablesOf (h : ℕ → ℝ) (h0 : h 0 = 0) (hd : ∀ j ≤ 7, ∀ k < j, h j ≠ h k) : Exact (tablesOf h) where
  first := h0
  distinct := hd
  r := fun j hj k hk => rows7 (fun j k => h j - h k) j k hj hk
  c := fun j hj τ => by
    have e : ((List.range j).map fun k => (tablesOf h).c (j * (j - 1) / 2 + k) * τ ^ (k + 1))
        = (List.range j).map fun k => newtonC h j k * τ ^ (k + 1) := by
      refine List.map_congr_left fun k hk => ?_
      rw [show (tablesOf h).c (j * (j - 1) / 2 + k) = newtonC h j k from rows6 _ j k hj (List.mem_range.1 hk)]
    rw [e]
    change newtonBasis h j τ = _
    rw [newtonBasis_sum, sum_range_succ, newtonC_self, one_mul, list_sum]
  d := fun j hj τ => by
    have e : ((List.range j).map fun k => (tablesOf h).d (j * (j - 1) / 2 + k) * newtonBasis (tablesOf h).h k τ)
        = (List.range j).map fun k => newtonD h j k * newtonBasis h k τ := by
      refine List.map_congr_left fun k hk => ?_
      rw [show (tablesOf h).d (j * (j - 1) / 2 + k) = newtonD h j k from rows6 _ j k hj (List.mem_range.1 hk)]
      rfl
    rw [e]
    change _ = _ + newtonBasis h j τ
    conv_lhs => rw [power_sum h j τ, sum_range_succ, newtonD_self, one_mul]
    rw [list_sum]

/-- The spacings of the code. -/
def spacing (n : ℕ) : ℚ := hTable.getD n 0

/-- **C76, literals**: the tables written in the code are those that belong to its spacings, each entry up to half a unit
of its 25th decimal place, and the spacings are distinct numbers between 0 and 1. -/
theorem C76_literals :
    (∀ i < 28, |rTable.getD i 0 - (tablesOf spacing).r i| ≤ 5e-26) ∧ (∀ i < 21, |cTable.getD i 0 - (tablesOf spacing).c i| ≤ 5e-26)
    ∧ (∀ i < 21, |dTable.getD i 0 - (tablesOf spacing).d i| ≤ 5e-26)
    ∧ spacing 0 = 0 ∧ (∀ j ≤ 7, ∀ k < j, spacing k < spacing j) ∧ spacing 7 < 1 := by
  decide +kernel

/-- The hypothesis `Exact` holds for the spacings of the code with exact tables. -/
example : Exact (tablesOf fun n => (spacing n : ℝ)) := by
  obtain ⟨-, -, -, h0, hd, -⟩ := C76_literals
  refine C76_tablesOf _ (by rw [h0]; simp) fun j hj k hk h => ?_
  have := hd j hj k hk
  rw [Rat.cast_inj] at h
  exact absurd h this.ne'

/-! ### C78: the spacings are those of Gauss and Radau -/

/-- The moments of the product of the differences to all spacings. -/
def moment (k : ℕ) : ℚ := ∑ i ∈ range 8, newtonC spacing 7 i / (i + k + 2)

theorem moment_small : ∀ k < 7, |moment k| ≤ 5e-30 := by
  decide +kernel

theorem newtonC_cast (h : ℕ → ℚ) (j k : ℕ) : ((newtonC h j k : ℚ) : ℝ) = newtonC (fun n => (h n : ℝ)) j k := by
  induction j generalizing k with
  | zero => cases k <;> simp [newtonC]
  | succ j ih => cases k <;> simp [newtonC, ih]

/-- The product of the differences to the spacings. -/
noncomputable def nodal (x : ℝ) : ℝ := ∏ n ∈ range 8, (x - spacing n)

theorem nodal_eq (x : ℝ) : nodal x = newtonBasis (fun n => (spacing n : ℝ)) 7 x := by
  unfold nodal newtonBasis
  rw [prod_range_succ']
  have h0 : spacing 0 = 0 := C76_literals.2.2.2.1
  rw [h0]
  simp only [prod_range_succ, prod_range_zero, List.range_succ, List.range_zero, List.map_append, List.prod_append]
  simp
  ring

/-- **C78, the spacings**: the product of the differences to the eight spacings is orthogonal to all powers up to the
sixth, up to 5e-30: the spacings are the nodes of Gauss-Radau quadrature with eight nodes. -/
theorem C78_radau (k : ℕ) (hk : k < 7) : |∫ x in (0 : ℝ)..1, nodal x * x ^ k| ≤ 5e-30 := by
  have e : ∀ x : ℝ, nodal x * x ^ k = ∑ i ∈ range 8, newtonC (fun n => (spacing n : ℝ)) 7 i * x ^ (i + k + 1) := by
    intro x
    rw [nodal_eq, newtonBasis_sum, sum_mul]
    refine sum_congr rfl fun i _ => ?_
    rw [mul_assoc, ← pow_add]
    congr 2
    omega
  have : ∫ x in (0 : ℝ)..1, nodal x * x ^ k = (moment k : ℝ) := by
    simp only [e]
    rw [intervalIntegral.integral_finsetSum fun i _ => (Continuous.intervalIntegrable (by fun_prop) _ _)]
    unfold moment
    push_cast
    refine sum_congr rfl fun i _ => ?_
    rw [intervalIntegral.integral_const_mul, integral_pow, newtonC_cast]
    simp
    ring
  rw [this, ← Rat.cast_abs]
  have h := moment_small k hk
  calc ((|moment k| : ℚ) : ℝ) ≤ ((5e-30 : ℚ) : ℝ) := by exact_mod_cast h
    _ = 5e-30 := by norm_num

/-- The product of the differences as a polynomial. -/
noncomputable def nodalP : Polynomial ℝ := ∏ n ∈ range 8, (Polynomial.X - Polynomial.C (spacing n : ℝ))

/-- What division by it leaves: the part of a polynomial the quadrature does not see. -/
noncomputable def unseen (A : Polynomial ℝ) (k : ℕ) : ℝ := (Polynomial.divByMonic A nodalP).coeff k

theorem nodalP_monic : nodalP.Monic := Polynomial.monic_prod_of_monic _ _ fun n _ => Polynomial.monic_X_sub_C _

theorem nodalP_degree : nodalP.natDegree = 8 := by
  unfold nodalP
  rw [Polynomial.natDegree_prod_of_monic _ _ fun n _ => Polynomial.monic_X_sub_C _]
  simp

theorem nodalP_eval (x : ℝ) : nodalP.eval x = nodal x := by
  unfold nodalP nodal
  rw [Polynomial.eval_prod]
  simp

/-- The acceleration polynomial. -/
noncomputable def polyP (a0 : ℝ) (b : Seven ℝ) : Polynomial ℝ :=
  open Polynomial in
  C a0 + C b.c0 * X + C b.c1 * X ^ 2 + C b.c2 * X ^ 3 + C b.c3 * X ^ 4 + C b.c4 * X ^ 5 + C b.c5 * X ^ 6 + C b.c6 * X ^ 7

theorem polyP_eval (a0 : ℝ) (b : Seven ℝ) (x : ℝ) : (polyP a0 b).eval x = poly a0 b x := by
  simp [polyP, poly]

theorem polyP_degree (a0 : ℝ) (b : Seven ℝ) : (polyP a0 b).degree < 8 := by
  have : (polyP a0 b).natDegree ≤ 7 := by
    unfold polyP
    compute_degree
  exact lt_of_le_of_lt Polynomial.degree_le_natDegree (by exact_mod_cast Nat.lt_succ_of_le this)

/-- An acceleration that is a polynomial of degree at most 14 and its interpolation at the spacings. -/
theorem interpolation (A : Polynomial ℝ) (m : ℕ) (hA : A.natDegree < 8 + m) (hm : 0 < m) (a0 : ℝ) (b : Seven ℝ)
    (hp : ∀ n < 8, poly a0 b (spacing n) = A.eval (spacing n : ℝ)) (x : ℝ) :
    A.eval x = poly a0 b x + nodal x * ∑ k ∈ range m, unseen A k * x ^ k := by
  have h1 : Polynomial.modByMonic A nodalP = polyP a0 b := by
    refine Polynomial.eq_of_degrees_lt_of_eval_index_eq (range 8) (v := fun n => (spacing n : ℝ)) ?_ ?_ ?_ ?_
    · intro i hi j hj hij
      have hi' : i < 8 := by simpa using hi
      have hj' : j < 8 := by simpa using hj
      obtain ⟨-, -, -, -, hd, -⟩ := C76_literals
      simp only [Rat.cast_inj] at hij
      rcases lt_trichotomy i j with h | h | h
      · exact absurd hij (hd j (by omega) i h).ne
      · exact h
      · exact absurd hij (hd i (by omega) j h).ne'
    · have := Polynomial.degree_modByMonic_lt A nodalP_monic
      rw [Polynomial.degree_eq_natDegree nodalP_monic.ne_zero, nodalP_degree] at this
      simpa using this
    · simpa using polyP_degree a0 b
    · intro n hn
      have hn' : n < 8 := by simpa using hn
      have h0 : nodalP.eval (spacing n : ℝ) = 0 := by
        rw [nodalP_eval]
        exact prod_eq_zero hn (sub_self _)
      have := congrArg (Polynomial.eval (spacing n : ℝ)) (Polynomial.modByMonic_add_div A nodalP)
      rw [Polynomial.eval_add, Polynomial.eval_mul, h0, zero_mul, add_zero] at this
      rw [this, polyP_eval, hp n hn']
  have h2 := congrArg (Polynomial.eval x) (Polynomial.modByMonic_add_div A nodalP)
  rw [Polynomial.eval_add, Polynomial.eval_mul, h1, polyP_eval, nodalP_eval] at h2
  have h3 : (Polynomial.divByMonic A nodalP).natDegree < m := by
    rw [Polynomial.natDegree_divByMonic A nodalP_monic, nodalP_degree]
    omega
  rw [← h2, Polynomial.eval_eq_sum_range' h3]
  rfl

theorem nodal_continuous : Continuous nodal := by
  unfold nodal
  fun_prop

theorem poly_continuous (a0 : ℝ) (b : Seven ℝ) : Continuous (poly a0 b) := by
  unfold poly
  fun_prop

/-- **C78, velocities**: eight values of an acceleration that is a polynomial of degree at most 14 give its integral over
the step, up to 5e-30 times coefficients of the acceleration. -/
theorem C78_order (A : Polynomial ℝ) (hA : A.natDegree ≤ 14) (a0 : ℝ) (b : Seven ℝ)
    (hp : ∀ n < 8, poly a0 b (spacing n) = A.eval (spacing n : ℝ)) :
    |(∫ x in (0 : ℝ)..1, A.eval x) - ∫ x in (0 : ℝ)..1, poly a0 b x| ≤ 5e-30 * ∑ k ∈ range 7, |unseen A k| := by
  rw [← intervalIntegral.integral_sub (A.continuous.intervalIntegrable _ _) ((poly_continuous a0 b).intervalIntegrable _ _)]
  have e : ∀ x : ℝ, A.eval x - poly a0 b x = ∑ k ∈ range 7, unseen A k * (nodal x * x ^ k) := by
    intro x
    rw [interpolation A 7 (by omega) (by norm_num) a0 b hp x, add_sub_cancel_left, mul_sum]
    exact sum_congr rfl fun k _ => by ring
  have hc := nodal_continuous
  simp only [e]
  rw [intervalIntegral.integral_finsetSum fun i _ => (Continuous.intervalIntegrable (by fun_prop) _ _), mul_sum]
  refine (abs_sum_le_sum_abs _ _).trans (sum_le_sum fun k hk => ?_)
  rw [intervalIntegral.integral_const_mul, abs_mul, mul_comm]
  exact mul_le_mul_of_nonneg_right (C78_radau k (mem_range.1 hk)) (abs_nonneg _)

/-- **C78, positions**: the same for the double integral and degree at most 13. -/
theorem C78_order_position (A : Polynomial ℝ) (hA : A.natDegree ≤ 13) (a0 : ℝ) (b : Seven ℝ)
    (hp : ∀ n < 8, poly a0 b (spacing n) = A.eval (spacing n : ℝ)) :
    |(∫ x in (0 : ℝ)..1, (1 - x) * A.eval x) - ∫ x in (0 : ℝ)..1, (1 - x) * poly a0 b x| ≤ 1e-29 * ∑ k ∈ range 6, |unseen A k| := by
  have ha := A.continuous
  have hb := poly_continuous a0 b
  have hc := nodal_continuous
  rw [← intervalIntegral.integral_sub (Continuous.intervalIntegrable (by fun_prop) _ _)
    (Continuous.intervalIntegrable (by fun_prop) _ _)]
  have e : ∀ x : ℝ, (1 - x) * A.eval x - (1 - x) * poly a0 b x
      = ∑ k ∈ range 6, unseen A k * (nodal x * x ^ k - nodal x * x ^ (k + 1)) := by
    intro x
    rw [interpolation A 6 (by omega) (by norm_num) a0 b hp x]
    have : (1 - x) * (poly a0 b x + nodal x * ∑ k ∈ range 6, unseen A k * x ^ k) - (1 - x) * poly a0 b x
        = (1 - x) * nodal x * ∑ k ∈ range 6, unseen A k * x ^ k := by ring
    rw [this, mul_sum]
    exact sum_congr rfl fun k _ => by ring
  simp only [e]
  rw [intervalIntegral.integral_finsetSum fun i _ => (Continuous.intervalIntegrable (by fun_prop) _ _), mul_sum]
  refine (abs_sum_le_sum_abs _ _).trans (sum_le_sum fun k hk => ?_)
  have hk' := mem_range.1 hk
  rw [intervalIntegral.integral_const_mul, abs_mul, mul_comm,
    intervalIntegral.integral_sub (Continuous.intervalIntegrable (by fun_prop) _ _)
      (Continuous.intervalIntegrable (by fun_prop) _ _)]
  refine mul_le_mul_of_nonneg_right ?_ (abs_nonneg _)
  have h1 := C78_radau k (by omega)
  have h2 := C78_radau (k + 1) (by omega)
  refine (abs_sub _ _).trans ?_
  linarith

/-- **C78, a step**: if the polynomial of a component passes through the values of an acceleration that is a polynomial
of the time (as it does after every sweep, C76), the velocity and the position at the end of the step are those of the
exact motion up to a part in 10²⁹, for degrees up to 14 and 13. -/
theorem C78_step (A : Polynomial ℝ) (p : Comp ℝ) (spin : Bool) (dt : ℝ)
    (hp : ∀ n < 8, poly p.acc.a0 p.acc.b (spacing n) = A.eval (spacing n : ℝ)) :
    (A.natDegree ≤ 14 → |(p.finish spin dt).v - (p.v0 - p.csv + dt * ∫ x in (0 : ℝ)..1, A.eval x)|
        ≤ |dt| * (5e-30 * ∑ k ∈ range 7, |unseen A k|))
    ∧ (A.natDegree ≤ 13 → |(p.finish spin dt).x - (p.x0 - p.csx + p.v0 * dt + dt ^ 2 * ∫ x in (0 : ℝ)..1, (1 - x) * A.eval x)|
        ≤ dt ^ 2 * (1e-29 * ∑ k ∈ range 6, |unseen A k|)) := by
  obtain ⟨hb1, hb2⟩ : (∫ x in (0 : ℝ)..1, poly p.acc.a0 p.acc.b x = p.acc.a0 + p.acc.b.c0 / 2 + p.acc.b.c1 / 3 + p.acc.b.c2 / 4
        + p.acc.b.c3 / 5 + p.acc.b.c4 / 6 + p.acc.b.c5 / 7 + p.acc.b.c6 / 8)
      ∧ (∫ x in (0 : ℝ)..1, (1 - x) * poly p.acc.a0 p.acc.b x = p.acc.a0 / 2 + p.acc.b.c0 / 6 + p.acc.b.c1 / 12 + p.acc.b.c2 / 20
        + p.acc.b.c3 / 30 + p.acc.b.c4 / 42 + p.acc.b.c5 / 56 + p.acc.b.c6 / 72) := by
    generalize p.acc.a0 = a
    generalize p.acc.b = b
    constructor
    · have e : ∀ x : ℝ, poly a b x = ∑ i ∈ range 8, [a, b.c0, b.c1, b.c2, b.c3, b.c4, b.c5, b.c6].getD i 0 * x ^ i := by
        intro x
        simp [poly, sum_range_succ]
      simp only [e]
      rw [intervalIntegral.integral_finsetSum fun i _ => (Continuous.intervalIntegrable (by fun_prop) _ _)]
      simp only [intervalIntegral.integral_const_mul, integral_pow]
      simp [sum_range_succ]
      ring
    · have e : ∀ x : ℝ, (1 - x) * poly a b x
          = ∑ i ∈ range 9, [a, b.c0 - a, b.c1 - b.c0, b.c2 - b.c1, b.c3 - b.c2, b.c4 - b.c3, b.c5 - b.c4, b.c6 - b.c5, -b.c6].getD i 0 * x ^ i := by
        intro x
        simp [poly, sum_range_succ]
        ring
      simp only [e]
      rw [intervalIntegral.integral_finsetSum fun i _ => (Continuous.intervalIntegrable (by fun_prop) _ _)]
      simp only [intervalIntegral.integral_const_mul, integral_pow]
      simp [sum_range_succ]
      ring
  constructor
  · intro hA
    have h := C78_order A hA p.acc.a0 p.acc.b hp
    have e : (p.finish spin dt).v - (p.v0 - p.csv + dt * ∫ x in (0 : ℝ)..1, A.eval x)
        = -(dt * ((∫ x in (0 : ℝ)..1, A.eval x) - ∫ x in (0 : ℝ)..1, poly p.acc.a0 p.acc.b x)) := by
      rw [hb1]
      simp only [Comp.finish, finishVelocity, addCs_real, lit_real]
      push_cast
      ring
    rw [e, abs_neg, abs_mul]
    exact mul_le_mul_of_nonneg_left h (abs_nonneg _)
  · intro hA
    have h := C78_order_position A hA p.acc.a0 p.acc.b hp
    have e : (p.finish spin dt).x - (p.x0 - p.csx + p.v0 * dt + dt ^ 2 * ∫ x in (0 : ℝ)..1, (1 - x) * A.eval x)
        = -(dt ^ 2 * ((∫ x in (0 : ℝ)..1, (1 - x) * A.eval x) - ∫ x in (0 : ℝ)..1, (1 - x) * poly p.acc.a0 p.acc.b x)) := by
      rw [hb2]
      simp only [Comp.finish, finishPosition, addCs_real, lit_real]
      push_cast
      ring
    rw [e, abs_neg, abs_mul, abs_of_nonneg (sq_nonneg dt)]
    exact mul_le_mul_of_nonneg_left h (sq_nonneg _)

/-- A polynomial of degree 14 and an acceleration polynomial through its values: the product of all differences times
`x⁶`, whose values vanish at the spacings. -/
example : (nodalP * Polynomial.X ^ 6).natDegree ≤ 14
    ∧ ∀ n < 8, poly 0 ⟨0, 0, 0, 0, 0, 0, 0⟩ (spacing n) = (nodalP * Polynomial.X ^ 6).eval (spacing n : ℝ) := by
  constructor
  · refine Polynomial.natDegree_mul_le.trans ?_
    rw [nodalP_degree]
    simp
  · intro n hn
    have h0 : nodalP.eval (spacing n : ℝ) = 0 := by
      rw [nodalP_eval]
      exact prod_eq_zero (mem_range.2 hn) (sub_self _)
    simp [poly, h0]

end Posidonius.Ias15
