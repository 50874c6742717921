import Verif.Lemmas.KeplerEnds
import Verif.Lemmas.StumpffHyperbolic
import Verif.Props.WHFast

/-! # C73, C74: Stumpff functions and the end of the solver of Kepler's equation -/

namespace Posidonius.WHFast
open Posidonius

/-- **C73, quadrupling**: the formulas for the fourfold argument are exact for all arguments. -/
theorem C73_quadruple (z : ℝ) : quadruple (stumpffExact z) = stumpffExact (4 * z) := quadruple_exact z

/-- **C73, scaling**: scaled Stumpff functions are the G functions. -/
theorem C73_scaling (beta x : ℝ) : scaleGs x (stumpffExact (beta * (x * x))) = gFunctions beta x :=
  scaleGs_exact beta x

/-- **C73, the G functions**: they satisfy their differential equations, whatever the sign of beta. -/
theorem C73_gFunctions (beta : ℝ) : GFunctions beta (gFunctions beta) := gFunctions_spec beta

/-- **C73, argument reduction** ends for every real number. -/
theorem C73_reduction (z : ℝ) : ∃ w n N, (∀ fuel, N ≤ fuel → reduceArgument fuel z = some (w, n))
    ∧ |w| ≤ 1 / 10 ∧ z = 4 ^ n * w := by
  obtain ⟨w, n, N, h1, h2, h3, _⟩ := reduceArgument_ends z
  exact ⟨w, n, N, h1, h2, h3⟩

/-- **C73, truncated series**: for reduced arguments, elliptic and hyperbolic, the error is at most 2e-17. -/
theorem C73_series {z : ℝ} (h : |z| ≤ 1 / 10) : (stumpffSeries z).Close (stumpffExact z) 2e-17 := by
  obtain ⟨a0, a1, a2, a3⟩ := series_accuracy h
  exact ⟨by rw [abs_sub_comm]; exact a0, by rw [abs_sub_comm]; exact a1, by rw [abs_sub_comm]; exact a2,
    by rw [abs_sub_comm]; exact a3⟩

/-- **C73, accuracy**: for elliptic orbits the functions of the code are within 2e-15 max(1, z) of the exact ones. -/
theorem C73_accuracy {z : ℝ} (h : 0 ≤ z) (h1 : z ≤ 1e14) :
    ∃ c N, (∀ fuel, N ≤ fuel → stumpff fuel z = some c) ∧ c.Close (stumpffExact z) (2e-15 * max 1 z) :=
  stumpff_accuracy h h1

/-- **C73, accuracy**: for hyperbolic orbits, where the functions grow exponentially, the relative error of each is at most
6e-15 max(1, -z). -/
theorem C73_hyperbolic {z : ℝ} (h : z ≤ 0) (h1 : -1e13 ≤ z) :
    ∃ c N, (∀ fuel, N ≤ fuel → stumpff fuel z = some c)
      ∧ |c.g0 - (stumpffExact z).g0| ≤ 6e-15 * max 1 (-z) * (stumpffExact z).g0
      ∧ |c.g1 - (stumpffExact z).g1| ≤ 6e-15 * max 1 (-z) * (stumpffExact z).g1
      ∧ |c.g2 - (stumpffExact z).g2| ≤ 6e-15 * max 1 (-z) * (stumpffExact z).g2
      ∧ |c.g3 - (stumpffExact z).g3| ≤ 6e-15 * max 1 (-z) * (stumpffExact z).g3 :=
  stumpff_relative h h1

/-- An argument for which the reduction has two rounds. -/
example : (1 : ℝ) ≤ 1e14 ∧ ¬ |(1 : ℝ)| ≤ 1 / 10 := by norm_num

/-- **C73, violated**: with an infinite argument (overflow) the reduction never ends. -/
theorem C73_violated_infinite (fuel : ℕ) : reduceArgument fuel XQ.pinf = none := by
  induction fuel with
  | zero => rfl
  | succ n ih =>
    have h1 : ltb (lit 0.1 : XQ) (FOps.abs XQ.pinf) = true := rfl
    have h2 : XQ.pinf / (lit 4 : XQ) = XQ.pinf := rfl
    rw [reduceArgument, if_pos h1, h2, ih]

/-- **C74**: the Kepler step ends for every bound or unbound orbit that is not a straight line and every
positive time step. -/
theorem C74_ends {massG dt : ℝ} {r v : Axes ℝ} (hm : 0 < massG) (hL : r.cross v ≠ 0) (hdt : 0 < dt) :
    ∃ res N, ∀ fuel, N ≤ fuel → keplerStep fuel massG dt r v = some res := keplerStep_ends hm hL hdt

section NaN
variable [FTrig XQ]

/-- A position that is not a number. -/
def nanPosition : Axes XQ := ⟨XQ.nan, XQ.fin 0, XQ.fin 0⟩

@[simp] theorem nan_mul (x : XQ) : XQ.nan * x = XQ.nan := by cases x <;> rfl
@[simp] theorem nan_add (x : XQ) : XQ.nan + x = XQ.nan := by cases x <;> rfl
@[simp] theorem nan_sub (x : XQ) : XQ.nan - x = XQ.nan := by cases x <;> rfl
@[simp] theorem nan_div (x : XQ) : XQ.nan / x = XQ.nan := by cases x <;> rfl
@[simp] theorem div_nan (x : XQ) : x / XQ.nan = XQ.nan := by cases x <;> rfl

theorem bisectLoop_nan (G : XQ → Option (Gs XQ)) (o : Orbit XQ) (dt : XQ) (hr : o.r0 = XQ.nan) (fuel : ℕ) (x y : XQ) :
    bisectLoop G o dt fuel x y XQ.nan = none := by
  induction fuel generalizing x y with
  | zero => rfl
  | succ n ih =>
    rw [bisectLoop]
    cases G x with
    | none => rfl
    | some gs =>
      have hs : o.r0 * x + o.eta0 * gs.g2 + o.zeta0 * gs.g3 - dt = XQ.nan := by simp [hr]
      have h0 : leb (lit 0 : XQ) XQ.nan = false := rfl
      dsimp only
      rw [hs]
      simp only [h0, Bool.false_eq_true, if_false]
      have h1 : leb (FOps.abs (XQ.nan - x) / XQ.nan) (lit 1e-15) = false := by
        rw [div_nan]; rfl
      rw [h1]
      exact ih _ _

theorem newtonLoop_nan (G : XQ → Option (Gs XQ)) (o : Orbit XQ) (dt : XQ) (hr : o.r0 = XQ.nan) (k : ℕ)
    (x oldX : XQ) (gs : Gs XQ) (ri : XQ) :
    newtonLoop G o dt k x oldX gs ri = none ∨ ∃ gs' ri', newtonLoop G o dt k x oldX gs ri = some (false, gs', ri') := by
  induction k generalizing x oldX gs ri with
  | zero => exact Or.inr ⟨gs, ri, rfl⟩
  | succ k ih =>
    rw [newtonLoop]
    cases G x with
    | none => exact Or.inl rfl
    | some g =>
      have hn : o.newton dt g x = XQ.nan := by simp [Orbit.newton, Orbit.ri, hr]
      have he : ∀ y : XQ, eqb XQ.nan y = false := by intro y; cases y <;> rfl
      dsimp only
      rw [hn, he, he]
      simp only [Bool.or_self, Bool.false_eq_true, if_false]
      exact ih _ _ _ _

/-- **C74, violated**: when a coordinate of a planet is not a number, its Kepler step never ends (however many
rounds it gets), whatever the time step, mass and velocity. -/
theorem C74_violated_nan (fuel : ℕ) (massG dt : XQ) (v : Axes XQ) : keplerStep fuel massG dt nanPosition v = none := by
  have hr : (orbitOf massG nanPosition v).r0 = XQ.nan := by
    cases fuel <;> rfl
  have hb : (orbitOf massG nanPosition v).beta = XQ.nan := by
    have : (orbitOf massG nanPosition v).beta = lit 2 * massG * (lit 1 / (orbitOf massG nanPosition v).r0) - v.norm2 := rfl
    rw [this, hr, div_nan]
    have : ∀ x : XQ, x * XQ.nan = XQ.nan := by intro x; cases x <;> rfl
    rw [this, nan_sub]
  have hlt : ltb (lit 0) (orbitOf massG nanPosition v).beta = false := by rw [hb]; rfl
  have hbr : ((orbitOf massG nanPosition v).bracket dt).2 = XQ.nan := by
    unfold Orbit.bracket
    rw [hlt]
    simp [hr]
  have hbis : ∀ G, bisect G (orbitOf massG nanPosition v) dt fuel = none := by
    intro G
    unfold bisect
    dsimp only
    rw [hbr, bisectLoop_nan G _ dt hr]
  have hsolve : ∀ G, keplerSolve G (orbitOf massG nanPosition v) dt fuel = none := by
    intro G
    unfold keplerSolve
    dsimp only
    cases G ((orbitOf massG nanPosition v).guess dt) with
    | none => rfl
    | some gs =>
      dsimp only
      rw [hlt]
      simp only [Bool.false_and, Bool.false_eq_true, if_false]
      rcases newtonLoop_nan G (orbitOf massG nanPosition v) dt hr 31
        ((orbitOf massG nanPosition v).newton dt gs ((orbitOf massG nanPosition v).guess dt))
        ((orbitOf massG nanPosition v).guess dt) gs ((orbitOf massG nanPosition v).ri gs) with h | ⟨g', r', h⟩
      · rw [h]
      · rw [h]
        exact hbis G
  unfold keplerStep
  dsimp only
  rw [hsolve]

end NaN

/-! ### A step that ends -/

/-- Every planet of the example has an orbit for which the Kepler step ends. -/
example : ∀ p ∈ exampleSys.planets, ∃ res N, ∀ fuel, N ≤ fuel →
    keplerStep fuel (1 : ℝ) (1 / 2) p.position p.velocity = some res := by
  intro p hp
  refine C74_ends one_pos ?_ (by norm_num)
  simp only [exampleSys, List.mem_cons, List.not_mem_nil, or_false] at hp
  rcases hp with rfl | rfl
  · intro h
    have := congrArg Axes.z h
    simp at this
  · intro h
    have := congrArg Axes.z h
    simp at this

end Posidonius.WHFast
