import Mathlib.Analysis.Calculus.ContDiff.RCLike
import Mathlib.Analysis.Calculus.ContDiff.Operations
import Mathlib.Tactic.Positivity
import Verif.Lemmas.LeapfrogOrder

/-! Steps made of exact motions of parts of a differential equation: expansion up to the second order, and the error of
many steps. -/

namespace Posidonius.Order
open Set

variable {E : Type} [NormedAddCommGroup E] [NormedSpace ℝ E]

/-- Near `y0`: `p` has the derivative `d`, with bounds `C` in a ball of radius `ρ`. -/
structure Tame (p : E → E) (d : E → E →L[ℝ] E) (C ρ : ℝ) (y0 : E) : Prop where
  bound : ∀ y, ‖y - y0‖ ≤ ρ → ‖p y‖ ≤ C
  slope : ∀ y, ‖y - y0‖ ≤ ρ → ‖d y‖ ≤ C
  bend : ∀ y z, ‖y - y0‖ ≤ ρ → ‖z - y0‖ ≤ ρ → ‖d z - d y‖ ≤ C * ‖z - y‖
  rest : ∀ y z, ‖y - y0‖ ≤ ρ → ‖z - y0‖ ≤ ρ → ‖p z - p y - d y (z - y)‖ ≤ C * ‖z - y‖ ^ 2

/-- Near `y0`: `q` has bounds `C` and is Lipschitz in a ball of radius `ρ`. -/
structure Mild (q : E → E) (C ρ : ℝ) (y0 : E) : Prop where
  bound : ∀ y, ‖y - y0‖ ≤ ρ → ‖q y‖ ≤ C
  lip : ∀ y z, ‖y - y0‖ ≤ ρ → ‖z - y0‖ ≤ ρ → ‖q z - q y‖ ≤ C * ‖z - y‖

/-- A step of length `h`, exact up to `ε`, from `y` to `z`. -/
abbrev Step (E : Type) := ℝ → ℝ → E → E → Prop

/-- Near `y0` the step is `y + h p(y) + h² q(y)` up to the third order. -/
structure Expands (Φ : Step E) (p : E → E) (d : E → E →L[ℝ] E) (q : E → E) (C ρ : ℝ) (y0 : E) : Prop where
  C1 : 1 ≤ C
  ρ0 : 0 < ρ
  ρ1 : ρ ≤ 1
  tame : Tame p d C ρ y0
  mild : Mild q C ρ y0
  step : ∀ h ε y z, 0 < h → h ≤ ρ → 0 ≤ ε → ε ≤ ρ → ‖y - y0‖ ≤ ρ → Φ h ε y z →
    ‖z - (y + h • p y + h ^ 2 • q y)‖ ≤ C * (h ^ 3 + ε)

variable {p p1 p2 q q1 q2 : E → E} {d d1 d2 : E → E →L[ℝ] E} {C C' ρ ρ' : ℝ} {y0 : E} {Φ Φ1 Φ2 : Step E}

theorem Tame.mono (t : Tame p d C ρ y0) (hC : C ≤ C') (hρ : ρ' ≤ ρ) : Tame p d C' ρ' y0 where
  bound y hy := (t.bound y (hy.trans hρ)).trans hC
  slope y hy := (t.slope y (hy.trans hρ)).trans hC
  bend y z hy hz := (t.bend y z (hy.trans hρ) (hz.trans hρ)).trans (mul_le_mul_of_nonneg_right hC (norm_nonneg _))
  rest y z hy hz := (t.rest y z (hy.trans hρ) (hz.trans hρ)).trans (mul_le_mul_of_nonneg_right hC (by positivity))

theorem Mild.mono (t : Mild q C ρ y0) (hC : C ≤ C') (hρ : ρ' ≤ ρ) : Mild q C' ρ' y0 where
  bound y hy := (t.bound y (hy.trans hρ)).trans hC
  lip y z hy hz := (t.lip y z (hy.trans hρ) (hz.trans hρ)).trans (mul_le_mul_of_nonneg_right hC (norm_nonneg _))

theorem Expands.mono (t : Expands Φ p d q C ρ y0) (hC : C ≤ C') (h0 : 0 < ρ') (hρ : ρ' ≤ ρ) :
    Expands Φ p d q C' ρ' y0 where
  C1 := t.C1.trans hC
  ρ0 := h0
  ρ1 := hρ.trans t.ρ1
  tame := t.tame.mono hC hρ
  mild := t.mild.mono hC hρ
  step h ε y z a b c e f g := (t.step h ε y z a (b.trans hρ) c (e.trans hρ) (f.trans hρ) g).trans
    (mul_le_mul_of_nonneg_right hC (by positivity))

/-- `p` is Lipschitz. -/
theorem Tame.lip (t : Tame p d C ρ y0) (C0 : 0 ≤ C) (ρ1 : ρ ≤ 1) {y z : E} (hy : ‖y - y0‖ ≤ ρ) (hz : ‖z - y0‖ ≤ ρ) :
    ‖p z - p y‖ ≤ 3 * C * ‖z - y‖ := by
  have e : p z - p y = (p z - p y - d y (z - y)) + d y (z - y) := by abel
  have n : ‖z - y‖ ≤ 2 := by
    have : z - y = (z - y0) - (y - y0) := by abel
    rw [this]
    exact (norm_sub_le _ _).trans (by linarith)
  have n0 := norm_nonneg (z - y)
  have a := t.rest y z hy hz
  have b : ‖d y (z - y)‖ ≤ C * ‖z - y‖ :=
    ((d y).le_opNorm _).trans (mul_le_mul_of_nonneg_right (t.slope y hy) n0)
  have c : C * ‖z - y‖ ^ 2 ≤ C * (2 * ‖z - y‖) := mul_le_mul_of_nonneg_left (by nlinarith) C0
  rw [e]
  refine (norm_add_le _ _).trans ?_
  linarith

/-- Two steps after one another. -/
def Step.then (Φ1 Φ2 : Step E) : Step E := fun h ε x z => ∃ y, Φ1 h ε x y ∧ Φ2 h ε y z

theorem Tame.add (a : Tame p1 d1 C ρ y0) (b : Tame p2 d2 C ρ y0) :
    Tame (fun y => p1 y + p2 y) (fun y => d1 y + d2 y) (2 * C) ρ y0 where
  bound y hy := (norm_add_le _ _).trans (by linarith [a.bound y hy, b.bound y hy])
  slope y hy := (norm_add_le _ _).trans (by linarith [a.slope y hy, b.slope y hy])
  bend y z hy hz := by
    have e : d1 z + d2 z - (d1 y + d2 y) = (d1 z - d1 y) + (d2 z - d2 y) := by abel
    rw [e]
    exact (norm_add_le _ _).trans (by linarith [a.bend y z hy hz, b.bend y z hy hz])
  rest y z hy hz := by
    have e : p1 z + p2 z - (p1 y + p2 y) - (d1 y + d2 y) (z - y)
        = (p1 z - p1 y - d1 y (z - y)) + (p2 z - p2 y - d2 y (z - y)) := by
      rw [ContinuousLinearMap.add_apply]; abel
    rw [e]
    exact (norm_add_le _ _).trans (by linarith [a.rest y z hy hz, b.rest y z hy hz])

theorem Mild.add (a : Mild q1 C ρ y0) (b : Mild q2 C' ρ y0) : Mild (fun y => q1 y + q2 y) (C + C') ρ y0 where
  bound y hy := (norm_add_le _ _).trans (add_le_add (a.bound y hy) (b.bound y hy))
  lip y z hy hz := by
    have e : q1 z + q2 z - (q1 y + q2 y) = (q1 z - q1 y) + (q2 z - q2 y) := by abel
    rw [e]
    exact (norm_add_le _ _).trans (by linarith [a.lip y z hy hz, b.lip y z hy hz])

/-- The derivative of one rate along another. -/
theorem Tame.along (b : Tame p2 d2 C ρ y0) (a : Tame p1 d1 C ρ y0) (C0 : 0 ≤ C) (ρ1 : ρ ≤ 1) :
    Mild (fun y => d2 y (p1 y)) (4 * C ^ 2) ρ y0 where
  bound y hy := by
    have := ((d2 y).le_opNorm (p1 y)).trans (mul_le_mul (b.slope y hy) (a.bound y hy) (norm_nonneg _) C0)
    nlinarith
  lip y z hy hz := by
    have e : d2 z (p1 z) - d2 y (p1 y) = (d2 z - d2 y) (p1 z) + d2 y (p1 z - p1 y) := by
      rw [ContinuousLinearMap.sub_apply, map_sub]; abel
    rw [e]
    have n0 := norm_nonneg (z - y)
    have k1 := ((d2 z - d2 y).le_opNorm (p1 z)).trans
      (mul_le_mul (b.bend y z hy hz) (a.bound z hz) (norm_nonneg _) (by positivity))
    have k2 := ((d2 y).le_opNorm (p1 z - p1 y)).trans
      (mul_le_mul (b.slope y hy) (a.lip C0 ρ1 hy hz) (norm_nonneg _) C0)
    refine (norm_add_le _ _).trans ?_
    nlinarith

set_option maxHeartbeats 800000 in
/-- **Composition**: the rates add; the second orders add, with the change of the second rate along the first. -/
theorem Expands.then' (a : Expands Φ1 p1 d1 q1 C ρ y0) (b : Expands Φ2 p2 d2 q2 C ρ y0) :
    ∃ C' ρ', Expands (Φ1.then Φ2) (fun y => p1 y + p2 y) (fun y => d1 y + d2 y)
      (fun y => q1 y + q2 y + d2 y (p1 y)) C' ρ' y0 := by
  have C1 := a.C1
  have ρ0 := a.ρ0
  have ρ1 := a.ρ1
  have C0 : 0 ≤ C := by linarith
  have c1 : 1 ≤ C ^ 3 := one_le_pow₀ C1
  have c2 : C ≤ C ^ 3 := le_self_pow₀ C1 (by norm_num)
  have c3 : C ^ 2 ≤ C ^ 3 := pow_le_pow_right₀ C1 (by norm_num)
  have small : ρ / (16 * C) ≤ ρ / 2 := by
    rw [div_le_div_iff₀ (by positivity) (by norm_num)]
    nlinarith
  refine ⟨100 * C ^ 3, ρ / (16 * C), by linarith, by positivity, by linarith, ?_, ?_, ?_⟩
  · have t := (a.tame.add b.tame)
    exact t.mono (by linarith) (by linarith)
  · have t := (a.mild.add b.mild).add (b.tame.along a.tame C0 ρ1)
    exact t.mono (by linarith) (by linarith)
  · rintro h ε y z h0 hh ε0 hε hy ⟨w, f1, f2⟩
    have hh' : h ≤ ρ := by linarith
    have hε' : ε ≤ ρ := by linarith
    have hy' : ‖y - y0‖ ≤ ρ := by linarith
    have s1 := a.step h ε y w h0 hh' ε0 hε' hy' f1
    set δ := h ^ 3 + ε with hδ
    have h1 : h ≤ 1 := by linarith
    have h2 : h ^ 2 ≤ h := by nlinarith
    have h3 : h ^ 3 ≤ h := by nlinarith
    have δ0 : 0 ≤ δ := by positivity
    have δh : h ^ 3 ≤ δ := by linarith
    have δ2 : δ ≤ 2 := by linarith
    -- how far the first step goes
    have far : ‖w - y‖ ≤ 2 * C * h + C * δ := by
      have e : w - y = (w - (y + h • p1 y + h ^ 2 • q1 y)) + h • p1 y + h ^ 2 • q1 y := by abel
      rw [e]
      refine (norm_add_le _ _).trans ?_
      have n1 : ‖h • p1 y‖ ≤ h * C := by
        rw [norm_smul, Real.norm_of_nonneg h0.le]; exact mul_le_mul_of_nonneg_left (a.tame.bound y hy') h0.le
      have n2 : ‖h ^ 2 • q1 y‖ ≤ h ^ 2 * C := by
        rw [norm_smul, Real.norm_of_nonneg (by positivity)]
        exact mul_le_mul_of_nonneg_left (a.mild.bound y hy') (by positivity)
      have n3 := (norm_add_le (w - (y + h • p1 y + h ^ 2 • q1 y)) (h • p1 y)).trans (add_le_add s1 n1)
      nlinarith
    have hC : h * (16 * C) ≤ ρ := by rwa [le_div_iff₀ (by positivity)] at hh
    have εC : ε * (16 * C) ≤ ρ := by rwa [le_div_iff₀ (by positivity)] at hε
    have hw : ‖w - y0‖ ≤ ρ := by
      have e : w - y0 = (w - y) + (y - y0) := by abel
      rw [e]
      refine (norm_add_le _ _).trans ?_
      have : C * δ ≤ C * h + C * ε := by rw [hδ]; nlinarith
      linarith
    have s2 := b.step h ε w z h0 hh' ε0 hε' hw f2
    have n0 := norm_nonneg (w - y)
    have near : ‖w - (y + h • p1 y)‖ ≤ C * h ^ 2 + C * δ := by
      have e : w - (y + h • p1 y) = (w - (y + h • p1 y + h ^ 2 • q1 y)) + h ^ 2 • q1 y := by abel
      rw [e]
      have n2 : ‖h ^ 2 • q1 y‖ ≤ h ^ 2 * C := by
        rw [norm_smul, Real.norm_of_nonneg (by positivity)]
        exact mul_le_mul_of_nonneg_left (a.mild.bound y hy') (by positivity)
      exact (norm_add_le _ _).trans (by linarith)
    have e : z - (y + h • (p1 y + p2 y) + h ^ 2 • (q1 y + q2 y + d2 y (p1 y)))
        = (z - (w + h • p2 w + h ^ 2 • q2 w)) + (w - (y + h • p1 y + h ^ 2 • q1 y))
          + h • (p2 w - p2 y - d2 y (w - y)) + h • d2 y (w - (y + h • p1 y)) + h ^ 2 • (q2 w - q2 y) := by
      have k : d2 y (w - (y + h • p1 y)) = d2 y (w - y) - h • d2 y (p1 y) := by
        rw [← map_smul, ← map_sub]; congr 1; abel
      rw [k]
      module
    rw [e]
    have m3 : ‖h • (p2 w - p2 y - d2 y (w - y))‖ ≤ h * (C * ‖w - y‖ ^ 2) := by
      rw [norm_smul, Real.norm_of_nonneg h0.le]
      exact mul_le_mul_of_nonneg_left (b.tame.rest y w hy' hw) h0.le
    have m4 : ‖h • d2 y (w - (y + h • p1 y))‖ ≤ h * (C * (C * h ^ 2 + C * δ)) := by
      rw [norm_smul, Real.norm_of_nonneg h0.le]
      refine mul_le_mul_of_nonneg_left (((d2 y).le_opNorm _).trans ?_) h0.le
      exact mul_le_mul (b.tame.slope y hy') near (norm_nonneg _) C0
    have m5 : ‖h ^ 2 • (q2 w - q2 y)‖ ≤ h ^ 2 * (C * ‖w - y‖) := by
      rw [norm_smul, Real.norm_of_nonneg (by positivity)]
      exact mul_le_mul_of_nonneg_left (b.mild.lip y w hy' hw) (by positivity)
    have sq : ‖w - y‖ ^ 2 ≤ C ^ 2 * (8 * h ^ 2 + 4 * δ) := by
      have := mul_self_le_mul_self n0 far
      have k : (2 * C * h + C * δ) * (2 * C * h + C * δ) ≤ C ^ 2 * (8 * h ^ 2 + 2 * δ ^ 2) := by
        nlinarith [sq_nonneg (2 * C * h - C * δ)]
      have k2 : C ^ 2 * (8 * h ^ 2 + 2 * δ ^ 2) ≤ C ^ 2 * (8 * h ^ 2 + 4 * δ) :=
        mul_le_mul_of_nonneg_left (by nlinarith) (by positivity)
      nlinarith
    have hδ1 : h * δ ≤ δ := mul_le_of_le_one_left δ0 h1
    have r3 : h * (C * ‖w - y‖ ^ 2) ≤ C ^ 3 * (12 * δ) := by
      have := mul_le_mul_of_nonneg_left (mul_le_mul_of_nonneg_left sq C0) h0.le
      refine this.trans ?_
      have k : h * (C * (C ^ 2 * (8 * h ^ 2 + 4 * δ))) = C ^ 3 * (8 * h ^ 3 + 4 * (h * δ)) := by ring
      rw [k]
      exact mul_le_mul_of_nonneg_left (by linarith) (by positivity)
    have r4 : h * (C * (C * h ^ 2 + C * δ)) ≤ C ^ 3 * (2 * δ) := by
      have k : h * (C * (C * h ^ 2 + C * δ)) = C ^ 2 * (h ^ 3 + h * δ) := by ring
      rw [k]
      exact mul_le_mul c3 (by linarith) (by positivity) (by positivity)
    have r5 : h ^ 2 * (C * ‖w - y‖) ≤ C ^ 3 * (3 * δ) := by
      have := mul_le_mul_of_nonneg_left (mul_le_mul_of_nonneg_left far C0) (sq_nonneg h)
      refine this.trans ?_
      have k : h ^ 2 * (C * (2 * C * h + C * δ)) = C ^ 2 * (2 * h ^ 3 + h * (h * δ)) := by ring
      rw [k]
      have k3 : h * (h * δ) ≤ δ := (mul_le_of_le_one_left (by positivity) h1).trans hδ1
      exact mul_le_mul c3 (by linarith) (by positivity) (by positivity)
    have r1 : C * δ ≤ C ^ 3 * δ := mul_le_mul_of_nonneg_right c2 δ0
    refine (norm_add_le _ _).trans ?_
    refine (add_le_add_left ((norm_add_le _ _).trans (add_le_add_left ((norm_add_le _ _).trans
      (add_le_add_left (norm_add_le _ _) _)) _)) _).trans ?_
    linarith [mul_nonneg (pow_nonneg C0 3) δ0]

theorem Expands.then (a : ∃ C ρ, Expands Φ1 p1 d1 q1 C ρ y0) (b : ∃ C ρ, Expands Φ2 p2 d2 q2 C ρ y0) :
    ∃ C ρ, Expands (Φ1.then Φ2) (fun y => p1 y + p2 y) (fun y => d1 y + d2 y)
      (fun y => q1 y + q2 y + d2 y (p1 y)) C ρ y0 := by
  obtain ⟨C, ρ, a⟩ := a
  obtain ⟨C', ρ', b⟩ := b
  exact (a.mono (le_max_left C C') (lt_min a.ρ0 b.ρ0) (min_le_left _ _)).then'
    (b.mono (le_max_right C C') (lt_min a.ρ0 b.ρ0) (min_le_right _ _))

/-- A step of half the length. -/
def Step.half (Φ : Step E) : Step E := fun h ε y z => Φ (h / 2) ε y z

theorem Expands.half (a : ∃ C ρ, Expands Φ p d q C ρ y0) :
    ∃ C ρ, Expands Φ.half (fun y => (1 / 2 : ℝ) • p y) (fun y => (1 / 2 : ℝ) • d y) (fun y => (1 / 4 : ℝ) • q y) C ρ y0 := by
  obtain ⟨C, ρ, a⟩ := a
  have C0 : 0 ≤ C := by linarith [a.C1]
  have n2 : ‖(1 / 2 : ℝ)‖ ≤ 1 := by norm_num
  have n4 : ‖(1 / 4 : ℝ)‖ ≤ 1 := by norm_num
  have sm : ∀ {F : Type} [NormedAddCommGroup F] [NormedSpace ℝ F] {k : ℝ} {v : F} {B : ℝ}, ‖k‖ ≤ 1 → ‖v‖ ≤ B → ‖k • v‖ ≤ B := by
    intro F _ _ k v B hk hv
    rw [norm_smul]
    exact (mul_le_of_le_one_left (norm_nonneg _) hk).trans hv
  refine ⟨C, ρ, a.C1, a.ρ0, a.ρ1, ⟨fun y hy => sm n2 (a.tame.bound y hy), fun y hy => sm n2 (a.tame.slope y hy),
    fun y z hy hz => ?_, fun y z hy hz => ?_⟩, ⟨fun y hy => sm n4 (a.mild.bound y hy), fun y z hy hz => ?_⟩, ?_⟩
  · rw [← smul_sub]; exact sm n2 (a.tame.bend y z hy hz)
  · rw [smul_apply, ← smul_sub, ← smul_sub]; exact sm n2 (a.tame.rest y z hy hz)
  · rw [← smul_sub]; exact sm n4 (a.mild.lip y z hy hz)
  · intro h ε y z h0 hh ε0 hε hy hz
    have s := a.step (h / 2) ε y z (by positivity) (by linarith) ε0 hε hy hz
    have e : y + h • (1 / 2 : ℝ) • p y + h ^ 2 • (1 / 4 : ℝ) • q y = y + (h / 2) • p y + (h / 2) ^ 2 • q y := by module
    rw [e]
    refine s.trans (mul_le_mul_of_nonneg_left ?_ C0)
    have : (h / 2) ^ 3 ≤ h ^ 3 := pow_le_pow_left₀ (by positivity) (by linarith) 3
    linarith

/-- Exact motion with the rate `f`, hit up to `ε`. -/
def flowStep (f : E → E) : Step E := fun h ε y z =>
  ∃ Y : ℝ → E, Y 0 = y ∧ (∀ s ∈ Icc 0 h, HasDerivAt Y (f (Y s)) s) ∧ ‖z - Y h‖ ≤ ε

/-- Exact motion stays near. -/
theorem Tame.stays {f : E → E} (t : Tame f d C ρ y0) (C0 : 0 ≤ C) {h : ℝ} (hh : (C + 1) * h ≤ ρ / 2) {y : E}
    (hy : ‖y - y0‖ ≤ ρ / 2) {Y : ℝ → E} (h1 : Y 0 = y) (h2 : ∀ s ∈ Icc 0 h, HasDerivAt Y (f (Y s)) s) :
    ∀ s ∈ Icc 0 h, ‖Y s - y‖ ≤ (C + 1) * s ∧ ‖Y s - y0‖ ≤ ρ := by
  have key : ∀ s ∈ Icc 0 h, ‖Y s - y‖ ≤ (C + 1) * s := by
    intro s hs
    refine image_norm_le_of_norm_deriv_right_lt_deriv_boundary (f := fun s => Y s - y) (f' := fun s => f (Y s))
      (B := fun s => (C + 1) * s) (B' := fun _ => C + 1) ?_ ?_ ?_ ?_ ?_ hs
    · intro s hs
      exact ((h2 s hs).sub_const y).continuousAt.continuousWithinAt
    · intro s hs
      exact ((h2 s (Ico_subset_Icc_self hs)).sub_const y).hasDerivWithinAt
    · simp [h1]
    · intro s
      simpa using (hasDerivAt_id' s).const_mul (C + 1)
    · intro s hs e
      have n : ‖Y s - y0‖ ≤ ρ := by
        have k : Y s - y0 = (Y s - y) + (y - y0) := by abel
        rw [k]
        refine (norm_add_le _ _).trans ?_
        have : (C + 1) * s ≤ (C + 1) * h := mul_le_mul_of_nonneg_left hs.2.le (by positivity)
        have e' : ‖Y s - y‖ = (C + 1) * s := e
        linarith
      exact (t.bound _ n).trans_lt (by linarith)
  intro s hs
  refine ⟨key s hs, ?_⟩
  have k : Y s - y0 = (Y s - y) + (y - y0) := by abel
  rw [k]
  refine (norm_add_le _ _).trans ?_
  have : (C + 1) * s ≤ (C + 1) * h := mul_le_mul_of_nonneg_left hs.2 (by positivity)
  have := key s hs
  linarith

theorem flow_expands {f : E → E} (t : Tame f d C ρ y0) (C1 : 1 ≤ C) (ρ0 : 0 < ρ) (ρ1 : ρ ≤ 1) :
    ∃ C' ρ', Expands (flowStep f) f d (fun y => (1 / 2 : ℝ) • d y (f y)) C' ρ' y0 := by
  have C0 : 0 ≤ C := by linarith
  have small : ρ / (4 * (C + 1)) ≤ ρ / 2 := by
    rw [div_le_div_iff₀ (by positivity) (by norm_num)]
    nlinarith
  have cube : C ≤ 100 * C ^ 3 := by
    nlinarith [mul_le_mul_of_nonneg_left C1 C0, mul_le_mul_of_nonneg_left (mul_le_mul_of_nonneg_left C1 C0) C0]
  have al := t.along t C0 ρ1
  refine ⟨100 * C ^ 3, ρ / (4 * (C + 1)), C1.trans cube, by positivity, by linarith, t.mono cube (by linarith), ?_, ?_⟩
  · have hc : 4 * C ^ 2 ≤ 100 * C ^ 3 := by
      nlinarith [mul_le_mul_of_nonneg_left (mul_le_mul_of_nonneg_left C1 C0) C0]
    have m := al.mono hc (by linarith : ρ / (4 * (C + 1)) ≤ ρ)
    have n2 : ‖(1 / 2 : ℝ)‖ ≤ 1 := by norm_num
    refine ⟨fun y hy => ?_, fun y z hy hz => ?_⟩
    · rw [norm_smul]; exact (mul_le_of_le_one_left (norm_nonneg _) n2).trans (m.bound y hy)
    · rw [← smul_sub, norm_smul]; exact (mul_le_of_le_one_left (norm_nonneg _) n2).trans (m.lip y z hy hz)
  · rintro h ε y z h0 hh ε0 hε hy ⟨Y, e0, hY, hz⟩
    have hh' : (C + 1) * h ≤ ρ / 2 := by
      have : h * (4 * (C + 1)) ≤ ρ := by rwa [le_div_iff₀ (by positivity)] at hh
      linarith
    have st := t.stays C0 hh' (by linarith : ‖y - y0‖ ≤ ρ / 2) e0 hY
    have hy' : ‖y - y0‖ ≤ ρ := by linarith
    have sub : ∀ s ∈ Icc 0 h, ∀ r ∈ Icc 0 s, r ∈ Icc 0 h := fun s hs r hr => ⟨hr.1, hr.2.trans hs.2⟩
    -- first order
    have one : ∀ s ∈ Icc 0 h, ‖Y s - y - s • f y‖ ≤ 6 * C ^ 2 * s ^ 2 := by
      intro s hs
      have k := taylor0 (f := fun r => Y r - r • f y) (g := fun r => f (Y r) - f y) (M := 6 * C ^ 2 * s) hs.1
        (fun r hr => by
          have := (hY r (sub s hs r hr)).sub ((hasDerivAt_id' r).smul_const (f y))
          exact this.congr_deriv (by simp))
        (fun r hr => by
          obtain ⟨a, b⟩ := st r (sub s hs r hr)
          refine (t.lip C0 ρ1 hy' b).trans ?_
          have : (C + 1) * r ≤ 2 * C * s := by nlinarith [hr.1, hr.2]
          nlinarith)
      have e : (Y s - s • f y) - (Y 0 - (0 : ℝ) • f y) = Y s - y - s • f y := by rw [e0, zero_smul]; abel
      rw [e] at k
      calc _ ≤ _ := k
        _ = _ := by ring
    have two := taylor0 (f := fun r => Y r - r • f y - (r ^ 2 / 2) • d y (f y))
      (g := fun r => f (Y r) - f y - r • d y (f y)) (M := 10 * C ^ 3 * h ^ 2) h0.le
      (fun r hr => by
        have dr := hasDerivAt_id' r
        have := ((hY r hr).sub (dr.smul_const (f y))).sub (((dr.pow 2).div_const 2).smul_const (d y (f y)))
        refine this.congr_deriv ?_
        simp only [Nat.cast_ofNat]
        module)
      (fun r hr => by
        obtain ⟨a, b⟩ := st r hr
        have e : f (Y r) - f y - r • d y (f y) = (f (Y r) - f y - d y (Y r - y)) + d y (Y r - y - r • f y) := by
          rw [map_sub (d y) (Y r - y) (r • f y), map_smul]; abel
        rw [e]
        have r0 := hr.1
        have k1 : C * ‖Y r - y‖ ^ 2 ≤ 4 * C ^ 3 * r ^ 2 := by
          have : ‖Y r - y‖ ≤ 2 * C * r := a.trans (by nlinarith)
          have := pow_le_pow_left₀ (norm_nonneg _) this 2
          calc C * ‖Y r - y‖ ^ 2 ≤ C * (2 * C * r) ^ 2 := mul_le_mul_of_nonneg_left this C0
            _ = _ := by ring
        have k2 := ((d y).le_opNorm (Y r - y - r • f y)).trans
          (mul_le_mul (t.slope y hy') (one r hr) (norm_nonneg _) C0)
        have k3 : r ^ 2 ≤ h ^ 2 := pow_le_pow_left₀ r0 hr.2 2
        have k4 : 10 * C ^ 3 * r ^ 2 ≤ 10 * C ^ 3 * h ^ 2 := mul_le_mul_of_nonneg_left k3 (by positivity)
        refine (norm_add_le _ _).trans ?_
        have := t.rest y (Y r) hy' b
        nlinarith)
    have e : (Y h - h • f y - (h ^ 2 / 2) • d y (f y)) - (Y 0 - (0 : ℝ) • f y - ((0 : ℝ) ^ 2 / 2) • d y (f y))
        = Y h - (y + h • f y + h ^ 2 • (1 / 2 : ℝ) • d y (f y)) := by rw [e0]; module
    rw [e, sub_zero] at two
    have e2 : z - (y + h • f y + h ^ 2 • (1 / 2 : ℝ) • d y (f y))
        = (z - Y h) + (Y h - (y + h • f y + h ^ 2 • (1 / 2 : ℝ) • d y (f y))) := by abel
    rw [e2]
    refine (norm_add_le _ _).trans ?_
    have c3 : 1 ≤ C ^ 3 := one_le_pow₀ C1
    have : 0 ≤ h ^ 3 := by positivity
    nlinarith [mul_nonneg (sub_nonneg.2 c3) ε0, mul_nonneg (pow_nonneg C0 3) this]

end Posidonius.Order
