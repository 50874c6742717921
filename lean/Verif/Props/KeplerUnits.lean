import Verif.Props.Solver
import Verif.Lemmas.Observer

/-! # C144: the Kepler step of WHFast in other units and for other axes -/

namespace Posidonius.WHFast

/-- The universal functions if the universal anomaly is `c` times as large. -/
def Gs.inUnits (c : ℝ) (s : Gs ℝ) : Gs ℝ := ⟨s.g0, c * s.g1, c ^ 2 * s.g2, c ^ 3 * s.g3⟩

/-- An orbit if lengths are `L` times and velocities `c⁻¹` times as large, hence times `c * L` times as large. -/
noncomputable def Orbit.inUnits (c L : ℝ) (o : Orbit ℝ) : Orbit ℝ :=
  ⟨L / c ^ 2 * o.massG, L * o.r0, o.v2 / c ^ 2, o.beta / c ^ 2, L / c * o.eta0, L / c ^ 2 * o.zeta0⟩

section
variable {c L : ℝ} (hc : 0 < c) (hL : 0 < L) {G G' : ℝ → Option (Gs ℝ)} (o : Orbit ℝ) (dt : ℝ)
include hc hL

theorem ri_units (s : Gs ℝ) : (o.inUnits c L).ri (s.inUnits c) = L⁻¹ * o.ri s := by
  have e : L * o.r0 + (L / c * o.eta0 * (c * s.g1) + L / c ^ 2 * o.zeta0 * (c ^ 2 * s.g2))
      = L * (o.r0 + (o.eta0 * s.g1 + o.zeta0 * s.g2)) := by field_simp
  unfold Orbit.ri Orbit.inUnits Gs.inUnits
  dsimp only
  rw [e, lit_real, Rat.cast_one, one_div, one_div, mul_inv]

theorem newton_units (s : Gs ℝ) (x : ℝ) :
    (o.inUnits c L).newton (c * L * dt) (s.inUnits c) (c * x) = c * o.newton dt s x := by
  unfold Orbit.newton
  rw [ri_units hc hL]
  unfold Orbit.inUnits Gs.inUnits
  field_simp

omit hL in
theorem eqb_units (x y : ℝ) : eqb (c * x) (c * y) = eqb x y := by
  rw [Bool.eq_iff_iff]
  simp [hc.ne']

theorem newtonLoop_units (hG : ∀ x, G' (c * x) = (G x).map (Gs.inUnits c)) (k : ℕ) (x y : ℝ) (s : Gs ℝ) (ri : ℝ) :
    newtonLoop G' (o.inUnits c L) (c * L * dt) k (c * x) (c * y) (s.inUnits c) (L⁻¹ * ri)
      = (newtonLoop G o dt k x y s ri).map fun a => (a.1, a.2.1.inUnits c, L⁻¹ * a.2.2) := by
  induction k generalizing x y s ri with
  | zero => rfl
  | succ k ih =>
    unfold newtonLoop
    rw [hG]
    cases G x with
    | none => rfl
    | some s' =>
      simp only [Option.map_some]
      rw [newton_units hc hL, ri_units hc hL, eqb_units hc, eqb_units hc, ih]
      split <;> rfl

theorem quarticLoop_units (hG : ∀ x, G' (c * x) = (G x).map (Gs.inUnits c)) (k : ℕ) (x : ℝ) (prev : List ℝ) (s : Gs ℝ) :
    quarticLoop G' (o.inUnits c L) (c * L * dt) k (c * x) (prev.map (c * ·)) (s.inUnits c)
      = (quarticLoop G o dt k x prev s).map fun a => (a.1, a.2.inUnits c) := by
  induction k generalizing x prev s with
  | zero => rfl
  | succ k ih =>
    unfold quarticLoop
    rw [hG]
    cases G x with
    | none => rfl
    | some s' =>
      simp only [Option.map_some]
      have e1 : L * o.r0 * (c * x) + L / c * o.eta0 * (c ^ 2 * s'.g2) + L / c ^ 2 * o.zeta0 * (c ^ 3 * s'.g3) - c * L * dt
          = c * L * (o.r0 * x + o.eta0 * s'.g2 + o.zeta0 * s'.g3 - dt) := by field_simp
      have e2 : L * o.r0 + L / c * o.eta0 * (c * s'.g1) + L / c ^ 2 * o.zeta0 * (c ^ 2 * s'.g2)
          = L * (o.r0 + o.eta0 * s'.g1 + o.zeta0 * s'.g2) := by field_simp
      have e3 : L / c * o.eta0 * s'.g0 + L / c ^ 2 * o.zeta0 * (c * s'.g1) = L / c * (o.eta0 * s'.g0 + o.zeta0 * s'.g1) := by
        field_simp
      have key : ∀ f fp fpp : ℝ,
          (c * x * (L * fp + FOps.sqrt (FOps.abs (lit 16 * (L * fp) * (L * fp) - lit 20 * (c * L * f) * (L / c * fpp)))) - lit 5 * (c * L * f))
            / (L * fp + FOps.sqrt (FOps.abs (lit 16 * (L * fp) * (L * fp) - lit 20 * (c * L * f) * (L / c * fpp))))
          = c * ((x * (fp + FOps.sqrt (FOps.abs (lit 16 * fp * fp - lit 20 * f * fpp))) - lit 5 * f)
            / (fp + FOps.sqrt (FOps.abs (lit 16 * fp * fp - lit 20 * f * fpp)))) := by
        intro f fp fpp
        have r : FOps.sqrt (FOps.abs (lit 16 * (L * fp) * (L * fp) - lit 20 * (c * L * f) * (L / c * fpp)))
            = L * FOps.sqrt (FOps.abs (lit 16 * fp * fp - lit 20 * f * fpp)) := by
          have : lit 16 * (L * fp) * (L * fp) - lit 20 * (c * L * f) * (L / c * fpp) = L ^ 2 * (lit 16 * fp * fp - lit 20 * f * fpp) := by
            field_simp
          rw [this, abs_real, abs_real, sqrt_real, sqrt_real, abs_mul, abs_of_nonneg (sq_nonneg L),
            Real.sqrt_mul (sq_nonneg L), Real.sqrt_sq hL.le]
        rw [r, ← mul_add]
        generalize fp + FOps.sqrt (FOps.abs (lit 16 * fp * fp - lit 20 * f * fpp)) = D
        rw [show c * x * (L * D) - lit 5 * (c * L * f) = L * (c * (x * D - lit 5 * f)) by ring,
          mul_div_mul_left _ _ hL.ne', mul_div_assoc]
      have e4 : ∀ y : ℝ, ((prev.map (c * ·)).any fun z => eqb (c * y) z) = prev.any fun z => eqb y z := by
        intro y
        rw [List.any_map]
        exact congrArg prev.any (funext fun z => eqb_units hc y z)
      have ih' := fun y => ih y (y :: prev) s'
      simp only [List.map_cons] at ih'
      simp only [Orbit.inUnits, Gs.inUnits] at ih' ⊢
      simp only [e1, e2, e3, key, e4, ih']
      split <;> rfl

theorem bisectLoop_units (hG : ∀ x, G' (c * x) = (G x).map (Gs.inUnits c)) (k : ℕ) (x a b : ℝ) :
    bisectLoop G' (o.inUnits c L) (c * L * dt) k (c * x) (c * a) (c * b) = (bisectLoop G o dt k x a b).map (Gs.inUnits c) := by
  induction k generalizing x a b with
  | zero => rfl
  | succ k ih =>
    unfold bisectLoop
    rw [hG]
    cases G x with
    | none => rfl
    | some s' =>
      simp only [Option.map_some]
      have e1 : L * o.r0 * (c * x) + L / c * o.eta0 * (c ^ 2 * s'.g2) + L / c ^ 2 * o.zeta0 * (c ^ 3 * s'.g3) - c * L * dt
          = c * L * (o.r0 * x + o.eta0 * s'.g2 + o.zeta0 * s'.g3 - dt) := by field_simp
      have e2 : ∀ s : ℝ, leb (lit 0) (c * L * s) = leb (lit 0) s := by
        intro s
        rw [Bool.eq_iff_iff]
        have : 0 < c * L := mul_pos hc hL
        simp [mul_nonneg_iff_of_pos_left this]
      have e3 : ∀ (q : Bool) (p r : ℝ), (if q then c * p else c * r) = c * (if q then p else r) := by
        intro q p r
        split <;> rfl
      have e4 : ∀ p q : ℝ, FOps.abs (c * p - c * q) / (c * p) = FOps.abs (p - q) / p := by
        intro p q
        rw [← mul_sub, abs_real, abs_real, abs_mul, abs_of_pos hc, mul_div_mul_left _ _ hc.ne']
      have e5 : ∀ p q : ℝ, (c * p + c * q) / lit 2 = c * ((p + q) / lit 2) := by
        intro p q
        ring
      simp only [Orbit.inUnits, Gs.inUnits] at ih ⊢
      simp only [e1, e2, e3, e4, e5, ih]
      split <;> split <;> rfl

theorem sqrt_units (b : ℝ) : Real.sqrt (b / c ^ 2) = Real.sqrt b / c := by
  rw [Real.sqrt_div' _ (sq_nonneg c), Real.sqrt_sq hc.le]

theorem xPerPeriod_units : (o.inUnits c L).xPerPeriod = c * o.xPerPeriod := by
  unfold Orbit.xPerPeriod Orbit.inUnits
  dsimp only
  rw [sqrt_real, sqrt_units hc hL, sqrt_real]
  field_simp

theorem positive_units : ltb (lit 0) (o.inUnits c L).beta = ltb (lit 0) o.beta := by
  rw [Bool.eq_iff_iff]
  have : 0 < c ^ 2 := by positivity
  simp [Orbit.inUnits, div_pos_iff_of_pos_right this]

theorem guess_units : (o.inUnits c L).guess (c * L * dt) = c * o.guess dt := by
  unfold Orbit.guess
  rw [positive_units hc hL]
  split
  · unfold Orbit.inUnits
    dsimp only
    have e : lit 1 / (L * o.r0) = L⁻¹ * (lit 1 / o.r0) := by
      rw [← div_div, div_eq_mul_inv (lit 1) L, mul_comm, ← div_mul_eq_mul_div, mul_comm]
      ring
    rw [e]
    field_simp
  · simp

theorem bracket_units : (o.inUnits c L).bracket (c * L * dt) = (c * (o.bracket dt).1, c * (o.bracket dt).2) := by
  unfold Orbit.bracket
  rw [positive_units hc hL]
  split
  · have e : c * L * dt * (o.inUnits c L).invPeriod = dt * o.invPeriod := by
      unfold Orbit.invPeriod Orbit.inUnits
      dsimp only
      rw [sqrt_real, sqrt_units hc hL, sqrt_real]
      field_simp
    dsimp only
    rw [e, xPerPeriod_units hc hL, mul_assoc, ← mul_add]
  · unfold Orbit.inUnits
    dsimp only
    have e1 : L * o.r0 * (L * o.r0) * (o.v2 / c ^ 2) - L / c * o.eta0 * (L / c * o.eta0)
        = (L / c) ^ 2 * (o.r0 * o.r0 * o.v2 - o.eta0 * o.eta0) := by
      field_simp
    rw [e1]
    generalize o.r0 * o.r0 * o.v2 - o.eta0 * o.eta0 = H
    have e2 : (L / c) ^ 2 * H * (o.beta / c ^ 2) / (L / c ^ 2 * o.massG * (L / c ^ 2 * o.massG)) = H * o.beta / (o.massG * o.massG) := by
      rw [show (L / c) ^ 2 * H * (o.beta / c ^ 2) = (L / c ^ 2) ^ 2 * (H * o.beta) by field_simp,
        show L / c ^ 2 * o.massG * (L / c ^ 2 * o.massG) = (L / c ^ 2) ^ 2 * (o.massG * o.massG) by ring]
      exact mul_div_mul_left _ _ (by positivity)
    have e3 : (L / c) ^ 2 * H / (L / c ^ 2 * o.massG) = L * (H / o.massG) := by
      rw [show (L / c) ^ 2 * H = L / c ^ 2 * (L * H) by field_simp, mul_div_mul_left _ _ (by positivity : L / c ^ 2 ≠ 0), mul_div_assoc]
    have e4 : FOps.sqrt ((L / c) ^ 2 * H) = L / c * FOps.sqrt H := by
      rw [sqrt_real, sqrt_real, Real.sqrt_mul (sq_nonneg _), Real.sqrt_sq (by positivity)]
    rw [e2, e3, e4, mul_div_assoc L]
    generalize H / o.massG / (lit 1 + FOps.sqrt (lit 1 - H * o.beta / (o.massG * o.massG))) = q
    refine Prod.ext ?_ ?_
    · dsimp only
      have : L / c * FOps.sqrt H / (L * q) + L * o.r0 / (c * L * dt) = c⁻¹ * (FOps.sqrt H / q + o.r0 / dt) := by
        rw [show L / c * FOps.sqrt H = L * (c⁻¹ * FOps.sqrt H) by ring, mul_div_mul_left _ _ hL.ne',
          show c * L * dt = L * (c * dt) by ring, mul_div_mul_left _ _ hL.ne', div_mul_eq_div_div]
        ring
      rw [this, ← div_div]
      field_simp
    · dsimp only
      rw [show c * L * dt = L * (c * dt) by ring, mul_div_mul_left _ _ hL.ne', mul_div_assoc]

theorem bisect_units (hG : ∀ x, G' (c * x) = (G x).map (Gs.inUnits c)) (fuel : ℕ) :
    bisect G' (o.inUnits c L) (c * L * dt) fuel = (bisect G o dt fuel).map fun a => (a.1.inUnits c, L⁻¹ * a.2) := by
  unfold bisect
  rw [bracket_units hc hL]
  dsimp only
  rw [show (c * (o.bracket dt).2 + c * (o.bracket dt).1) / lit 2 = c * (((o.bracket dt).2 + (o.bracket dt).1) / lit 2) by ring,
    bisectLoop_units hc hL o dt hG]
  cases bisectLoop G o dt fuel (((o.bracket dt).2 + (o.bracket dt).1) / lit 2) (o.bracket dt).1 (o.bracket dt).2 with
  | none => rfl
  | some s => simp only [Option.map_some, ri_units hc hL]

theorem keplerSolve_units (hG : ∀ x, G' (c * x) = (G x).map (Gs.inUnits c)) (fuel : ℕ) :
    keplerSolve G' (o.inUnits c L) (c * L * dt) fuel = (keplerSolve G o dt fuel).map fun a => (a.1.inUnits c, L⁻¹ * a.2) := by
  unfold keplerSolve
  rw [guess_units hc hL]
  dsimp only
  rw [hG]
  cases G (o.guess dt) with
  | none => rfl
  | some s =>
    simp only [Option.map_some]
    rw [newton_units hc hL, positive_units hc hL, xPerPeriod_units hc hL, bisect_units hc hL o dt hG fuel, ri_units hc hL,
      newtonLoop_units hc hL o dt hG]
    have e1 : ltb (lit 0.01 * (c * o.xPerPeriod)) (FOps.abs (c * o.newton dt s (o.guess dt) - c * o.guess dt))
        = ltb (lit 0.01 * o.xPerPeriod) (FOps.abs (o.newton dt s (o.guess dt) - o.guess dt)) := by
      rw [Bool.eq_iff_iff, ltb_real, ltb_real, ← mul_sub, abs_real, abs_real, abs_mul, abs_of_pos hc,
        show lit 0.01 * (c * o.xPerPeriod) = c * (lit 0.01 * o.xPerPeriod) by ring]
      exact mul_lt_mul_iff_right₀ hc
    have e2 : (o.inUnits c L).beta * (c * L * dt) / (o.inUnits c L).massG = c * (o.beta * dt / o.massG) := by
      unfold Orbit.inUnits
      dsimp only
      rw [show o.beta / c ^ 2 * (c * L * dt) = L / c ^ 2 * (c * (o.beta * dt)) by ring,
        mul_div_mul_left _ _ (by positivity : L / c ^ 2 ≠ 0), mul_div_assoc]
    have e3 := quarticLoop_units hc hL o dt hG 63 (o.beta * dt / o.massG) [] s
    rw [List.map_nil] at e3
    rw [e1, e2, e3]
    split
    · cases quarticLoop G o dt 63 (o.beta * dt / o.massG) [] s with
      | none => rfl
      | some a =>
        obtain ⟨ok, s'⟩ := a
        cases ok
        · rfl
        · simp only [Option.map_some, ri_units hc hL]
    · cases newtonLoop G o dt 31 (o.newton dt s (o.guess dt)) (o.guess dt) s (o.ri s) with
      | none => rfl
      | some a =>
        obtain ⟨ok, s', r⟩ := a
        cases ok <;> rfl

theorem stiefel_units (fuel : ℕ) (b x : ℝ) : stiefel fuel (b / c ^ 2) (c * x) = (stiefel fuel b x).map (Gs.inUnits c) := by
  unfold stiefel
  rw [show b / c ^ 2 * (c * x * (c * x)) = b * (x * x) by field_simp]
  cases stumpff fuel (b * (x * x)) with
  | none => rfl
  | some s =>
    simp only [Option.map_some, scaleGs, Gs.inUnits]
    congr 2 <;> ring

theorem orbitOf_units (massG : ℝ) (r v : Axes ℝ) :
    orbitOf (L / c ^ 2 * massG) (L • r) (c⁻¹ • v) = (orbitOf massG r v).inUnits c L := by
  have e1 : (L • r).norm2 = L ^ 2 * r.norm2 := by simp [Axes.norm2, Axes.dot]; ring
  have e2 : (c⁻¹ • v).norm2 = v.norm2 / c ^ 2 := by simp [Axes.norm2, Axes.dot]; field_simp
  have e3 : (L • r).dot (c⁻¹ • v) = L / c * r.dot v := by simp [Axes.dot]; field_simp
  have e4 : FOps.sqrt (L ^ 2 * r.norm2) = L * FOps.sqrt r.norm2 := by
    rw [sqrt_real, sqrt_real, Real.sqrt_mul (sq_nonneg L), Real.sqrt_sq hL.le]
  unfold orbitOf Orbit.inUnits
  dsimp only
  rw [e1, e2, e3, e4]
  generalize FOps.sqrt r.norm2 = d
  have e5 : lit 1 / (L * d) = L⁻¹ * (lit 1 / d) := by
    rw [← div_div]
    ring
  have e6 : lit 2 * (L / c ^ 2 * massG) * (L⁻¹ * (lit 1 / d)) - v.norm2 / c ^ 2 = (lit 2 * massG * (lit 1 / d) - v.norm2) / c ^ 2 := by
    generalize lit 1 / d = e
    field_simp
  rw [e5, e6]
  congr 1
  field_simp

theorem keplerFinish_units (s : Gs ℝ) (ri : ℝ) (r v : Axes ℝ) :
    keplerFinish (o.inUnits c L) (c * L * dt) (s.inUnits c) (L⁻¹ * ri) (L • r) (c⁻¹ • v)
      = (L • (keplerFinish o dt s ri r v).1, c⁻¹ • (keplerFinish o dt s ri r v).2) := by
  have n : ∀ x : ℝ, isNan x = false := fun x => by simp [isNan]
  unfold keplerFinish
  simp only [n, Bool.false_eq_true, if_false, Orbit.inUnits, Gs.inUnits]
  have e5 : lit 1 / (L * o.r0) = L⁻¹ * (lit 1 / o.r0) := by
    rw [← div_div]
    ring
  rw [e5]
  generalize lit 1 / o.r0 = i
  refine Prod.ext ?_ ?_ <;> ext <;> simp <;> field_simp

end

/-- **C144, units**: the Kepler step of WHFast in units of length `L` and of time `τ` times as small is the same step, in these units. -/
theorem C144_units {L τ : ℝ} (hL : 0 < L) (hτ : 0 < τ) (fuel : ℕ) (massG dt : ℝ) (r v : Axes ℝ) :
    keplerStep fuel (L ^ 3 / τ ^ 2 * massG) (τ * dt) (L • r) ((L / τ) • v)
      = (keplerStep fuel massG dt r v).map fun a => (L • a.1, (L / τ) • a.2) := by
  have hc : 0 < τ / L := div_pos hτ hL
  have e1 : L ^ 3 / τ ^ 2 = L / (τ / L) ^ 2 := by field_simp
  have e2 : τ = τ / L * L := by field_simp
  have e3 : L / τ = (τ / L)⁻¹ := by rw [inv_div]
  rw [e1, e3]
  generalize τ / L = c at *
  rw [e2]
  unfold keplerStep
  dsimp only
  rw [orbitOf_units hc hL, keplerSolve_units hc hL (orbitOf massG r v) dt (G := stiefel fuel (orbitOf massG r v).beta)
    (G' := stiefel fuel ((orbitOf massG r v).inUnits c L).beta)
    (fun x => stiefel_units hc hL fuel _ x)]
  cases keplerSolve (stiefel fuel (orbitOf massG r v).beta) (orbitOf massG r v) dt fuel with
  | none => rfl
  | some a => simp only [Option.map_some, keplerFinish_units hc hL]

/-- **C144, axes**: nor does it depend on the choice of the axes. -/
theorem C144_axes (t : Univ.Turn) (fuel : ℕ) (massG dt : ℝ) (r v : Axes ℝ) :
    keplerStep fuel massG dt (t.on r) (t.on v) = (keplerStep fuel massG dt r v).map fun a => (t.on a.1, t.on a.2) := by
  have e : orbitOf massG (t.on r) (t.on v) = orbitOf massG r v := by
    unfold orbitOf
    rw [t.on_norm2, t.on_norm2, t.on_dot]
  unfold keplerStep
  dsimp only
  rw [e]
  cases keplerSolve (stiefel fuel (orbitOf massG r v).beta) (orbitOf massG r v) dt fuel with
  | none => rfl
  | some a =>
    simp only [Option.map_some]
    unfold keplerFinish
    simp only [Univ.Turn.on_add, Univ.Turn.on_smul]

/-- The axes turned by a quarter about z. -/
def quarterAxes : Univ.Turn := ⟨⟨0, 1, 0⟩, ⟨-1, 0, 0⟩, by simp [Axes.dot], by simp [Axes.dot], by simp [Axes.dot]⟩

/-- A planet for which the step ends, with lengths in thirds, times in 365ths and other axes. -/
example : ∃ res : Axes ℝ × Axes ℝ, ∃ fuel, keplerStep fuel 1 (1 / 2) ⟨1, 0, 0⟩ ⟨0, 1, 0⟩ = some res
    ∧ keplerStep fuel ((3 : ℝ) ^ 3 / 365 ^ 2 * 1) (365 * (1 / 2)) ((3 : ℝ) • ⟨1, 0, 0⟩) ((3 / 365 : ℝ) • ⟨0, 1, 0⟩)
        = some ((3 : ℝ) • res.1, (3 / 365 : ℝ) • res.2)
    ∧ keplerStep fuel 1 (1 / 2) (quarterAxes.on ⟨1, 0, 0⟩) (quarterAxes.on ⟨0, 1, 0⟩)
        = some (quarterAxes.on res.1, quarterAxes.on res.2) := by
  obtain ⟨res, N, h⟩ := C74_ends (massG := 1) (dt := 1 / 2) (r := ⟨1, 0, 0⟩) (v := ⟨0, 1, 0⟩) one_pos
    (fun h => by have := congrArg Axes.z h; simp at this) (by norm_num)
  refine ⟨res, N, h N le_rfl, ?_, ?_⟩
  · rw [C144_units (by norm_num) (by norm_num), h N le_rfl]
    rfl
  · rw [C144_axes, h N le_rfl]
    rfl

end Posidonius.WHFast
