import Mathlib.Analysis.Calculus.MeanValue
import Mathlib.Analysis.Calculus.Deriv.Mul
import Mathlib.Analysis.Calculus.Deriv.Pow
import Mathlib.Analysis.SpecialFunctions.Exp
import Mathlib.Tactic.Module
import Mathlib.Tactic.Linarith

/-! The error of the midpoint scheme of LeapFrog against a solution of x'' = A(x), in a normed space. -/

namespace Posidonius.Order
open Set

variable {E : Type} [NormedAddCommGroup E] [NormedSpace ℝ E] {f g l r : ℝ → E} {a b M : ℝ}

theorem taylor0 (hab : a ≤ b) (hf : ∀ t ∈ Icc a b, HasDerivAt f (g t) t) (hM : ∀ t ∈ Icc a b, ‖g t‖ ≤ M) :
    ‖f b - f a‖ ≤ M * (b - a) :=
  norm_image_sub_le_of_norm_deriv_le_segment' (fun x hx => (hf x hx).hasDerivWithinAt)
    (fun x hx => hM x (Ico_subset_Icc_self hx)) b (right_mem_Icc.2 hab)

theorem sub_mem {t : ℝ} (ht : t ∈ Icc a b) {p : ℝ → Prop} (h : ∀ s ∈ Icc a b, p s) : ∀ s ∈ Icc a t, p s :=
  fun s hs => h s ⟨hs.1, hs.2.trans ht.2⟩

theorem taylor1 (hab : a ≤ b) (hf : ∀ t ∈ Icc a b, HasDerivAt f (g t) t) (hg : ∀ t ∈ Icc a b, HasDerivAt g (l t) t)
    (hM : ∀ t ∈ Icc a b, ‖l t‖ ≤ M) : ‖f b - f a - (b - a) • g a‖ ≤ M * (b - a) ^ 2 := by
  have M0 : 0 ≤ M := (norm_nonneg _).trans (hM a (left_mem_Icc.2 hab))
  have h := taylor0 (f := fun s => f s - (s - a) • g a) (g := fun s => g s - g a) (M := M * (b - a)) hab
    (fun t ht => by
      have := (hf t ht).sub (((hasDerivAt_id' t).sub_const a).smul_const (g a))
      exact this.congr_deriv (by simp))
    (fun t ht => (taylor0 ht.1 (sub_mem ht hg) (sub_mem ht hM)).trans (by
      exact mul_le_mul_of_nonneg_left (by linarith [ht.2]) M0))
  have e : (f b - (b - a) • g a) - (f a - (a - a) • g a) = f b - f a - (b - a) • g a := by
    rw [sub_self, zero_smul]; abel
  rw [e] at h
  calc _ ≤ _ := h
    _ = _ := by ring

theorem taylor2 (hab : a ≤ b) (hf : ∀ t ∈ Icc a b, HasDerivAt f (g t) t) (hg : ∀ t ∈ Icc a b, HasDerivAt g (l t) t)
    (hl : ∀ t ∈ Icc a b, HasDerivAt l (r t) t) (hM : ∀ t ∈ Icc a b, ‖r t‖ ≤ M) :
    ‖f b - f a - (b - a) • g a - ((b - a) ^ 2 / 2) • l a‖ ≤ M * (b - a) ^ 3 := by
  have M0 : 0 ≤ M := (norm_nonneg _).trans (hM a (left_mem_Icc.2 hab))
  have h := taylor0 (f := fun s => f s - (s - a) • g a - ((s - a) ^ 2 / 2) • l a)
    (g := fun s => g s - g a - (s - a) • l a) (M := M * (b - a) ^ 2) hab
    (fun t ht => by
      have d := (hasDerivAt_id' t).sub_const a
      have := ((hf t ht).sub (d.smul_const (g a))).sub (((d.pow 2).div_const 2).smul_const (l a))
      refine this.congr_deriv ?_
      simp only [Nat.cast_ofNat]
      module)
    (fun t ht => (taylor1 ht.1 (sub_mem ht hg) (sub_mem ht hl) (sub_mem ht hM)).trans (by
      refine mul_le_mul_of_nonneg_left ?_ M0
      have := ht.1; have := ht.2
      nlinarith))
  have e : (f b - (b - a) • g a - ((b - a) ^ 2 / 2) • l a) - (f a - (a - a) • g a - ((a - a) ^ 2 / 2) • l a)
      = f b - f a - (b - a) • g a - ((b - a) ^ 2 / 2) • l a := by
    simp only [sub_self, zero_smul]
    have : ((0 : ℝ) ^ 2 / 2) • l a = 0 := by simp
    rw [this]; abel
  rw [e] at h
  calc _ ≤ _ := h
    _ = _ := by ring

/-- A solution of x'' = A(x) up to time `T` with bounded derivatives; `A` is Lipschitz near the solution. -/
structure Solution (A : E → E) (T M L ρ : ℝ) (X V Y J S : ℝ → E) : Prop where
  x : ∀ t ∈ Icc 0 T, HasDerivAt X (V t) t
  v : ∀ t ∈ Icc 0 T, HasDerivAt V (Y t) t
  y : ∀ t ∈ Icc 0 T, HasDerivAt Y (J t) t
  j : ∀ t ∈ Icc 0 T, HasDerivAt J (S t) t
  acceleration : ∀ t ∈ Icc 0 T, Y t = A (X t)
  yM : ∀ t ∈ Icc 0 T, ‖Y t‖ ≤ M
  jM : ∀ t ∈ Icc 0 T, ‖J t‖ ≤ M
  sM : ∀ t ∈ Icc 0 T, ‖S t‖ ≤ M
  lipschitz : ∀ t ∈ Icc 0 T, ∀ y, ‖y - X t‖ ≤ ρ → ‖A y - A (X t)‖ ≤ L * ‖y - X t‖
  L0 : 0 ≤ L
  M0 : 0 ≤ M

variable {A : E → E} {T L ρ : ℝ} {X V Y J S : ℝ → E}

theorem Solution.within (_ : Solution A T M L ρ X V Y J S) {t h : ℝ} (ht : 0 ≤ t) (hT : t + h ≤ T) {p : ℝ → Prop}
    (hp : ∀ s ∈ Icc 0 T, p s) : ∀ s ∈ Icc t (t + h), p s :=
  fun s hs => hp s ⟨ht.trans hs.1, hs.2.trans hT⟩

/-- The error of one step: halfway and at its end. -/
theorem Solution.step (s : Solution A T M L ρ X V Y J S) {t h : ℝ} (ht : 0 ≤ t) (h0 : 0 ≤ h) (h1 : h ≤ 1) (hT : t + h ≤ T)
    {x v : E} (hq : ‖x - X t‖ + ‖v - V t‖ + M * h ^ 2 ≤ ρ) :
    ‖x + (h / 2) • v - X (t + h / 2)‖ ≤ ‖x - X t‖ + ‖v - V t‖ + M * h ^ 2
    ∧ ∀ x' v', v' = v + h • A (x + (h / 2) • v) → x' = x + (h / 2) • v + (h / 2) • v' →
      ‖x' - X (t + h)‖ + ‖v' - V (t + h)‖
        ≤ (‖x - X t‖ + ‖v - V t‖) * (1 + (1 + 2 * L) * h) + M * (2 * L + 6) * h ^ 3 := by
  have M0 := s.M0
  have L0 := s.L0
  have hh : t + h / 2 ≤ T := by linarith
  have le1 : t ≤ t + h / 2 := by linarith
  have le2 : t ≤ t + h := by linarith
  set e := ‖x - X t‖ + ‖v - V t‖ with he
  have e0 : 0 ≤ e := add_nonneg (norm_nonneg _) (norm_nonneg _)
  have t1 := taylor1 le1 (s.within ht hh s.x) (s.within ht hh s.v) (s.within ht hh s.yM)
  have t2 := taylor1 le1 (s.within ht hh s.y) (s.within ht hh s.j) (s.within ht hh s.sM)
  have t3 := taylor2 le2 (s.within ht hT s.v) (s.within ht hT s.y) (s.within ht hT s.j) (s.within ht hT s.sM)
  have t4 := taylor2 le2 (s.within ht hT s.x) (s.within ht hT s.v) (s.within ht hT s.y) (s.within ht hT s.jM)
  have t5 := taylor1 le2 (s.within ht hT s.v) (s.within ht hT s.y) (s.within ht hT s.jM)
  rw [add_sub_cancel_left] at t1 t2 t3 t4 t5
  have half : h / 2 ≤ 1 := by linarith
  -- halfway
  have q : ‖x + (h / 2) • v - X (t + h / 2)‖ ≤ e + M * h ^ 2 := by
    have d : x + (h / 2) • v - X (t + h / 2)
        = (x - X t) + (h / 2) • (v - V t) - (X (t + h / 2) - X t - (h / 2) • V t) := by module
    rw [d]
    have n1 : ‖(h / 2) • (v - V t)‖ ≤ ‖v - V t‖ := by
      rw [norm_smul, Real.norm_of_nonneg (by linarith)]
      exact mul_le_of_le_one_left (norm_nonneg _) half
    calc _ ≤ ‖(x - X t) + (h / 2) • (v - V t)‖ + ‖X (t + h / 2) - X t - (h / 2) • V t‖ := norm_sub_le _ _
      _ ≤ (‖x - X t‖ + ‖(h / 2) • (v - V t)‖) + M * (h / 2) ^ 2 := add_le_add (norm_add_le _ _) t1
      _ ≤ e + M * h ^ 2 := by
        have : M * (h / 2) ^ 2 ≤ M * h ^ 2 := mul_le_mul_of_nonneg_left (by nlinarith) M0
        rw [he]; linarith
  refine ⟨q, fun x' v' hv hx => ?_⟩
  have mid : t + h / 2 ∈ Icc 0 T := ⟨by linarith, hh⟩
  have lip := s.lipschitz _ mid _ (q.trans hq)
  rw [← s.acceleration _ mid] at lip
  -- velocity
  have bv : ‖v' - V (t + h)‖ ≤ ‖v - V t‖ + h * L * e + M * (L + 2) * h ^ 3 := by
    have d : v' - V (t + h) = (v - V t) + h • (A (x + (h / 2) • v) - Y (t + h / 2))
        + h • (Y (t + h / 2) - Y t - (h / 2) • J t) - (V (t + h) - V t - h • Y t - (h ^ 2 / 2) • J t) := by
      rw [hv]; module
    rw [d]
    calc _ ≤ ‖(v - V t) + h • (A (x + (h / 2) • v) - Y (t + h / 2)) + h • (Y (t + h / 2) - Y t - (h / 2) • J t)‖
          + ‖V (t + h) - V t - h • Y t - (h ^ 2 / 2) • J t‖ := norm_sub_le _ _
      _ ≤ (‖v - V t‖ + ‖h • (A (x + (h / 2) • v) - Y (t + h / 2))‖ + ‖h • (Y (t + h / 2) - Y t - (h / 2) • J t)‖)
          + M * h ^ 3 := by
        refine add_le_add ((norm_add_le _ _).trans (add_le_add_left (norm_add_le _ _) _)) t3
      _ ≤ (‖v - V t‖ + h * (L * (e + M * h ^ 2)) + h * (M * (h / 2) ^ 2)) + M * h ^ 3 := by
        rw [norm_smul, norm_smul, Real.norm_of_nonneg h0]
        have := mul_le_mul_of_nonneg_left (lip.trans (mul_le_mul_of_nonneg_left q L0)) h0
        have := mul_le_mul_of_nonneg_left t2 h0
        linarith
      _ ≤ _ := by
        have : 0 ≤ M * h ^ 3 := mul_nonneg M0 (pow_nonneg h0 3)
        nlinarith
  -- position
  have bx : ‖x' - X (t + h)‖ ≤ ‖x - X t‖ + (h / 2) * ‖v - V t‖ + (h / 2) * ‖v' - V (t + h)‖ + 2 * M * h ^ 3 := by
    have d : x' - X (t + h) = (x - X t) + (h / 2) • (v - V t) + (h / 2) • (v' - V (t + h))
        + (h / 2) • (V (t + h) - V t - h • Y t) - (X (t + h) - X t - h • V t - (h ^ 2 / 2) • Y t) := by
      rw [hx]; module
    rw [d]
    calc _ ≤ ‖(x - X t) + (h / 2) • (v - V t) + (h / 2) • (v' - V (t + h)) + (h / 2) • (V (t + h) - V t - h • Y t)‖
          + ‖X (t + h) - X t - h • V t - (h ^ 2 / 2) • Y t‖ := norm_sub_le _ _
      _ ≤ (‖x - X t‖ + ‖(h / 2) • (v - V t)‖ + ‖(h / 2) • (v' - V (t + h))‖ + ‖(h / 2) • (V (t + h) - V t - h • Y t)‖)
          + M * h ^ 3 :=
        add_le_add ((norm_add_le _ _).trans (add_le_add_left ((norm_add_le _ _).trans
          (add_le_add_left (norm_add_le _ _) _)) _)) t4
      _ ≤ _ := by
        rw [norm_smul, norm_smul, norm_smul, Real.norm_of_nonneg (by linarith : 0 ≤ h / 2)]
        have := mul_le_mul_of_nonneg_left t5 (by linarith : 0 ≤ h / 2)
        have : 0 ≤ M * h ^ 3 := mul_nonneg M0 (pow_nonneg h0 3)
        nlinarith
  have nx := norm_nonneg (x - X t)
  have nv := norm_nonneg (v - V t)
  have k1 : (h / 2) * ‖v' - V (t + h)‖ ≤ (h / 2) * (‖v - V t‖ + h * L * e + M * (L + 2) * h ^ 3) :=
    mul_le_mul_of_nonneg_left bv (by linarith)
  have k2 : h * (h * L * e) ≤ h * L * e := mul_le_of_le_one_left (by positivity) h1
  have k3 : h * (M * (L + 2) * h ^ 3) ≤ M * (L + 2) * h ^ 3 := mul_le_of_le_one_left (by positivity) h1
  have k4 : 0 ≤ h * L * e := by positivity
  have k5 : 0 ≤ M * (L + 2) * h ^ 3 := by positivity
  have k6 : h * ‖v - V t‖ ≤ h * e := mul_le_mul_of_nonneg_left (by linarith) h0
  nlinarith

/-- The growth of the error. -/
theorem growth {K C h : ℝ} (hK : 0 < K) (h0 : 0 ≤ h) (j : ℕ) {e e' : ℝ}
    (he : e ≤ C * h ^ 2 / K * ((1 + K * h) ^ j - 1)) (hs : e' ≤ e * (1 + K * h) + C * h ^ 3) :
    e' ≤ C * h ^ 2 / K * ((1 + K * h) ^ (j + 1) - 1) := by
  have := mul_le_mul_of_nonneg_right he (by positivity : 0 ≤ 1 + K * h)
  calc e' ≤ _ := hs
    _ ≤ C * h ^ 2 / K * ((1 + K * h) ^ j - 1) * (1 + K * h) + C * h ^ 3 := by linarith
    _ = _ := by field_simp; ring

theorem growth_bound {K C h T : ℝ} (hK : 0 < K) (hC : 0 ≤ C) (h0 : 0 ≤ h) (j : ℕ) (hj : j * h ≤ T) :
    C * h ^ 2 / K * ((1 + K * h) ^ j - 1) ≤ C / K * Real.exp (K * T) * h ^ 2 := by
  have h1 : (1 + K * h) ^ j ≤ Real.exp (K * T) := by
    calc (1 + K * h) ^ j ≤ Real.exp (K * h) ^ j := by
          refine pow_le_pow_left₀ (by positivity) ?_ j
          linarith [Real.add_one_le_exp (K * h)]
      _ = Real.exp (j * (K * h)) := (Real.exp_nat_mul _ _).symm
      _ ≤ _ := Real.exp_le_exp.2 (by nlinarith)
  have : C * h ^ 2 / K * ((1 + K * h) ^ j - 1) ≤ C * h ^ 2 / K * Real.exp (K * T) :=
    mul_le_mul_of_nonneg_left (by linarith) (by positivity)
  calc _ ≤ _ := this
    _ = _ := by ring

end Posidonius.Order
