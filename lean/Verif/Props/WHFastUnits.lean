import Verif.Props.KeplerUnits
import Verif.Spec.WHFastSplit

/-! # C145: a step of WHFast in other units and for other axes -/

namespace Posidonius.WHFast

/-- A vector for other axes and with a unit `k` times as small. -/
noncomputable def conv (t : Univ.Turn) (k : ℝ) (x : Axes ℝ) : Axes ℝ := k • t.on x

section
variable (t : Univ.Turn) (k : ℝ)

theorem conv_add (a b : Axes ℝ) : conv t k (a + b) = conv t k a + conv t k b := by
  unfold conv
  rw [← t.on_add]
  ext <;> simp <;> ring

theorem conv_sub (a b : Axes ℝ) : conv t k (a - b) = conv t k a - conv t k b := by
  unfold conv
  rw [← t.on_sub]
  ext <;> simp <;> ring

theorem conv_smul (s : ℝ) (a : Axes ℝ) : conv t k (s • a) = s • conv t k a := by
  unfold conv
  rw [← t.on_smul]
  ext <;> simp <;> ring

theorem conv_scaled (s : ℝ) (a : Axes ℝ) : conv t k (scaled a s) = scaled (conv t k a) s := by
  have e : ∀ b : Axes ℝ, scaled b s = s • b := fun b => by ext <;> simp [scaled] <;> ring
  rw [e, e, conv_smul]

theorem conv_sdiv (s : ℝ) (a : Axes ℝ) : conv t k (a.sdiv s) = (conv t k a).sdiv s := by
  have e : ∀ b : Axes ℝ, b.sdiv s = s⁻¹ • b := fun b => by ext <;> simp [Axes.sdiv] <;> ring
  rw [e, e, conv_smul]

theorem conv_zero : conv t k Axes.zero = Axes.zero := by
  unfold conv Univ.Turn.on
  ext <;> simp [Axes.zero]

theorem conv_drift {τ : ℝ} (hτ : 0 < τ) (s : ℝ) (a : Axes ℝ) : (τ * s) • conv t (k / τ) a = conv t k (s • a) := by
  rw [conv_smul]
  unfold conv
  ext <;> simp <;> field_simp

end

/-- A body for other axes, with units of length `L` times and of time `τ` times as small. -/
noncomputable def Body.conv (t : Univ.Turn) (L τ : ℝ) (p : Body ℝ) : Body ℝ :=
  ⟨p.mass, L ^ 3 / τ ^ 2 * p.massG, WHFast.conv t L p.position, WHFast.conv t (L / τ) p.velocity,
    WHFast.conv t (L / τ / τ) p.acceleration⟩

/-- All bodies. -/
noncomputable def Sys.conv (t : Univ.Turn) (L τ : ℝ) (u : Sys ℝ) : Sys ℝ := ⟨u.star.conv t L τ, u.planets.map (Body.conv t L τ)⟩

/-- Alternative coordinates of a planet. -/
noncomputable def Alt.conv (t : Univ.Turn) (L τ : ℝ) (p : Alt ℝ) : Alt ℝ :=
  ⟨p.mass, L ^ 3 / τ ^ 2 * p.massG, WHFast.conv t L p.position, WHFast.conv t (L / τ) p.velocity⟩

/-- All alternative coordinates. -/
noncomputable def AltSys.conv (t : Univ.Turn) (L τ : ℝ) (a : AltSys ℝ) : AltSys ℝ :=
  ⟨⟨a.star.mass, WHFast.conv t L a.star.position, WHFast.conv t (L / τ) a.star.velocity⟩, a.planets.map (Alt.conv t L τ)⟩

section
variable (t : Univ.Turn) (L τ : ℝ)

theorem jacobiLoop_conv (eta : ℝ) (s sv : Axes ℝ) (l : List (Body ℝ)) :
    jacobiLoop eta (conv t L s) (conv t (L / τ) sv) (l.map (Body.conv t L τ))
      = ((jacobiLoop eta s sv l).1.map (Alt.conv t L τ), (jacobiLoop eta s sv l).2.1,
          conv t L (jacobiLoop eta s sv l).2.2.1, conv t (L / τ) (jacobiLoop eta s sv l).2.2.2) := by
  induction l generalizing eta s sv with
  | nil => rfl
  | cons p l ih =>
    simp only [jacobiLoop, List.map_cons, Body.conv, Alt.conv, ← conv_scaled, ← conv_sub, ← conv_smul, ← conv_add] at ih ⊢
    rw [ih]

theorem toJacobi_conv (u : Sys ℝ) : toJacobi (u.conv t L τ) = (toJacobi u).conv t L τ := by
  unfold toJacobi
  simp only [Sys.conv]
  have := jacobiLoop_conv t L τ u.star.mass (u.star.mass • u.star.position) (u.star.mass • u.star.velocity) u.planets
  simp only [Body.conv, conv_smul] at this ⊢
  rw [this]
  simp only [AltSys.conv, conv_scaled]

theorem accelerations_conv (u : Sys ℝ) : jacobiAccelerations (u.conv t L τ) = (jacobiAccelerations u).map (conv t (L / τ / τ)) := by
  have key : ∀ (l : List (Body ℝ)) (eta : ℝ) (s : Axes ℝ), jacobiAccelerationLoop eta (conv t (L / τ / τ) s) (l.map (Body.conv t L τ))
      = (jacobiAccelerationLoop eta s l).map (conv t (L / τ / τ)) := by
    intro l
    induction l with
    | nil => exact fun _ _ => rfl
    | cons p l ih =>
      intro eta s
      simp only [jacobiAccelerationLoop, List.map_cons, Body.conv, ← conv_scaled, ← conv_sub, ← conv_smul, ← conv_add] at ih ⊢
      rw [ih]
  unfold jacobiAccelerations
  rw [← key, conv_smul]
  rfl

theorem fromJacobiLoop_conv (eta : ℝ) (s sv : Axes ℝ) (l : List (Alt ℝ × Body ℝ)) :
    fromJacobiLoop eta (conv t L s) (conv t (L / τ) sv) (l.map (Prod.map (Alt.conv t L τ) (Body.conv t L τ)))
      = ((fromJacobiLoop eta s sv l).1.map (Body.conv t L τ), (fromJacobiLoop eta s sv l).2.1,
          conv t L (fromJacobiLoop eta s sv l).2.2.1, conv t (L / τ) (fromJacobiLoop eta s sv l).2.2.2) := by
  induction l generalizing eta s sv with
  | nil => rfl
  | cons p l ih =>
    obtain ⟨a, p⟩ := p
    simp only [fromJacobiLoop, List.map_cons, Prod.map, Body.moved, Body.conv, Alt.conv, ← conv_scaled, ← conv_sub, ← conv_smul,
      ← conv_add] at ih ⊢
    rw [ih]

theorem fromJacobi_conv (a : AltSys ℝ) (u : Sys ℝ) : fromJacobi (a.conv t L τ) (u.conv t L τ) = (fromJacobi a u).conv t L τ := by
  have := fromJacobiLoop_conv t L τ a.star.mass (a.star.mass • a.star.position) (a.star.mass • a.star.velocity)
    (a.planets.zip u.planets).reverse
  unfold fromJacobi
  simp only [Sys.conv, AltSys.conv, List.zip_map, ← List.map_reverse]
  simp only [conv_smul] at this
  rw [this]
  simp only [Body.moved, Body.conv, conv_scaled, List.map_reverse]

theorem foldl_conv {α β : Type} (f : α → β) (k : ℝ) (g : Axes ℝ → α → Axes ℝ) (g' : Axes ℝ → β → Axes ℝ)
    (h : ∀ s x, g' (conv t k s) (f x) = conv t k (g s x)) (l : List α) (s : Axes ℝ) :
    (l.map f).foldl g' (conv t k s) = conv t k (l.foldl g s) := by
  induction l generalizing s with
  | nil => rfl
  | cons x l ih => rw [List.map_cons, List.foldl_cons, List.foldl_cons, h, ih]

theorem centre_conv (u : Sys ℝ) : centre (u.conv t L τ) = ((toHelio false u).conv t L τ).star := by
  have e1 := foldl_conv t (Body.conv t L τ) L (fun s p => s + scaled p.position p.mass) (fun s p => s + scaled p.position p.mass)
    (fun s x => by simp only [Body.conv, conv_add, conv_scaled]) (u.star :: u.planets) Axes.zero
  have e2 := foldl_conv t (Body.conv t L τ) (L / τ) (fun s p => s + scaled p.velocity p.mass) (fun s p => s + scaled p.velocity p.mass)
    (fun s x => by simp only [Body.conv, conv_add, conv_scaled]) (u.star :: u.planets) Axes.zero
  have e3 : ∀ (l : List (Body ℝ)) (s : ℝ), (l.map (Body.conv t L τ)).foldl (fun s p => s + p.mass) s = l.foldl (fun s p => s + p.mass) s := by
    intro l s
    rw [List.foldl_map]
    rfl
  have e4 : (u.conv t L τ).star :: (u.conv t L τ).planets = (u.star :: u.planets).map (Body.conv t L τ) := rfl
  rw [conv_zero] at e1 e2
  unfold toHelio centre AltSys.conv
  simp only [e4]
  rw [e1, e2, e3, conv_sdiv, conv_sdiv]

theorem toHelio_conv (w : Bool) (u : Sys ℝ) : toHelio w (u.conv t L τ) = (toHelio w u).conv t L τ := by
  have e := centre_conv t L τ u
  unfold toHelio AltSys.conv at e ⊢
  dsimp only at e ⊢
  rw [e]
  simp only [Sys.conv, List.map_map]
  congr 1
  refine List.map_congr_left fun p _ => ?_
  cases w <;> simp only [Function.comp, Alt.conv, Body.conv, conv_sub, conv_scaled, if_true, Bool.false_eq_true, if_false]

theorem starPosition_conv (a : AltSys ℝ) (u : Sys ℝ) : starPosition (a.conv t L τ) (u.conv t L τ) = conv t L (starPosition a u) := by
  unfold starPosition Sys.conv AltSys.conv
  dsimp only
  rw [List.zip_map]
  exact foldl_conv t _ L _ _ (fun s x => by simp only [Prod.map, Alt.conv, Body.conv, conv_sub, conv_scaled, conv_sdiv]) _ _

theorem starVelocity_conv (w : Bool) (a : AltSys ℝ) (u : Sys ℝ) :
    starVelocity w (a.conv t L τ) (u.conv t L τ) = conv t (L / τ) (starVelocity w a u) := by
  unfold starVelocity Sys.conv AltSys.conv
  dsimp only
  rw [List.zip_map]
  exact foldl_conv t _ (L / τ) _ _ (fun s x => by simp only [Prod.map, Alt.conv, Body.conv, conv_sub, conv_scaled]) _ _

theorem fromHelio_conv (w : Bool) (a : AltSys ℝ) (u : Sys ℝ) :
    fromHelio w (a.conv t L τ) (u.conv t L τ) = (fromHelio w a u).conv t L τ := by
  unfold fromHelio
  rw [starPosition_conv, starVelocity_conv]
  unfold Sys.conv AltSys.conv
  dsimp only
  rw [List.zip_map, List.map_map, List.map_map]
  congr 1
  refine List.map_congr_left fun p _ => ?_
  cases w <;> simp only [Function.comp, Prod.map, Alt.conv, Body.moved, Body.conv, conv_add, conv_sdiv, if_true, Bool.false_eq_true, if_false]

theorem toAlternative_conv (c : Coordinates) (u : Sys ℝ) : toAlternative c (u.conv t L τ) = (toAlternative c u).conv t L τ := by
  cases c
  exacts [toJacobi_conv t L τ u, toHelio_conv t L τ _ u, toHelio_conv t L τ _ u]

theorem fromAlternative_conv (c : Coordinates) (a : AltSys ℝ) (u : Sys ℝ) :
    fromAlternative c (a.conv t L τ) (u.conv t L τ) = (fromAlternative c a u).conv t L τ := by
  cases c
  exacts [fromJacobi_conv t L τ a u, fromHelio_conv t L τ _ a u, fromHelio_conv t L τ _ a u]

variable {L τ} (hL : 0 < L) (hτ : 0 < τ)
include hτ

theorem jumpStep_conv (c : Coordinates) (dt : ℝ) (u : Sys ℝ) (a : AltSys ℝ) :
    jumpStep c (τ * dt) (u.conv t L τ) (a.conv t L τ) = (jumpStep c dt u a).conv t L τ := by
  cases c
  · rfl
  · have e := foldl_conv t (Prod.map (Alt.conv t L τ) (Body.conv t L τ)) (L / τ) (fun s x => s + x.2.mass • x.1.velocity)
      (fun s x => s + x.2.mass • x.1.velocity) (fun s x => by simp only [Prod.map, Alt.conv, Body.conv, conv_add, conv_smul])
      (a.planets.zip u.planets) Axes.zero
    rw [conv_zero] at e
    unfold jumpStep democraticJump Sys.conv AltSys.conv
    dsimp only
    rw [List.zip_map, e, List.map_map, List.map_map, conv_drift t L hτ]
    congr 1
    refine List.map_congr_left fun p _ => ?_
    simp only [Function.comp, Alt.conv, Body.conv, conv_add, conv_sdiv]
  · have e := foldl_conv t (Prod.map (Alt.conv t L τ) (Body.conv t L τ)) (L / τ)
      (fun s x => s + (x.2.mass • x.1.velocity).sdiv (u.star.mass + x.2.mass))
      (fun s x => s + (x.2.mass • x.1.velocity).sdiv (u.star.mass + x.2.mass))
      (fun s x => by simp only [Prod.map, Alt.conv, Body.conv, conv_add, conv_smul, conv_sdiv]) (a.planets.zip u.planets) Axes.zero
    rw [conv_zero] at e
    unfold jumpStep whdsJump Sys.conv AltSys.conv
    dsimp only
    have e0 : (u.star.conv t L τ).mass = u.star.mass := rfl
    rw [List.zip_map, e0, e, List.map_map, List.map_map]
    congr 1
    refine List.map_congr_left fun p _ => ?_
    simp only [Function.comp, Prod.map, Alt.conv, Body.conv, ← conv_smul, ← conv_sdiv, ← conv_sub, conv_drift t L hτ, ← conv_add]

theorem jacobiKick_conv (g dt : ℝ) (l : List (Alt ℝ × Axes ℝ)) (first : Bool) (eta : ℝ) :
    jacobiKick (1 ^ 3 / τ ^ 2 * g) (τ * dt) first eta (l.map (Prod.map (Alt.conv t 1 τ) (conv t (1 / τ / τ))))
      = (jacobiKick g dt first eta l).map (Alt.conv t 1 τ) := by
  induction l generalizing first eta with
  | nil => rfl
  | cons x l ih =>
    obtain ⟨a, acc⟩ := x
    simp only [jacobiKick, List.map_cons, Prod.map]
    rw [show (a.conv t 1 τ).mass = a.mass from rfl]
    refine congrArg₂ List.cons ?_ (ih _ _)
    have e1 : (conv t 1 a.position).norm2 = a.position.norm2 := by
      unfold conv
      rw [t.on_smul, t.on_norm2]
      simp [Axes.norm2, Axes.dot]
    simp only [Alt.conv, e1, conv_drift t (1 / τ) hτ, ← conv_add]
    cases first
    · simp only [Bool.false_eq_true, if_false]
      congr 1
      generalize FOps.sqrt (lit 1 / (a.position.norm2 + lit 1e-12)) * (lit 1 / (a.position.norm2 + lit 1e-12)) = q
      have e2 : (τ * dt * (q * (1 ^ 3 / τ ^ 2 * g) * (eta + a.mass))) • conv t 1 a.position
          = conv t (1 / τ) ((dt * (q * g * (eta + a.mass))) • a.position) := by
        rw [conv_smul]
        unfold conv
        ext <;> simp <;> field_simp
      rw [e2, ← conv_add]
    · simp only [if_true]

theorem interactionStep_conv (c : Coordinates) (hc : c = .jacobi → L = 1) (g dt : ℝ) (u : Sys ℝ) (a : AltSys ℝ) :
    interactionStep c (L ^ 3 / τ ^ 2 * g) (τ * dt) (u.conv t L τ) (a.conv t L τ) = (interactionStep c g dt u a).conv t L τ := by
  cases c
  · obtain rfl := hc rfl
    unfold interactionStep jacobiInteraction
    dsimp only
    rw [accelerations_conv]
    unfold Sys.conv AltSys.conv
    dsimp only
    rw [List.zip_map, ← jacobiKick_conv t hτ]
    rfl
  · unfold interactionStep democraticInteraction Sys.conv AltSys.conv
    dsimp only
    rw [List.zip_map, List.map_map, List.map_map]
    congr 1
    refine List.map_congr_left fun p _ => ?_
    simp only [Function.comp, Prod.map, Alt.conv, Body.conv, conv_drift t (L / τ) hτ, ← conv_add]
  · unfold interactionStep whdsInteraction Sys.conv AltSys.conv
    dsimp only
    rw [List.zip_map, List.map_map, List.map_map]
    congr 1
    refine List.map_congr_left fun p _ => ?_
    simp only [Function.comp, Prod.map, Alt.conv, Body.conv, mul_assoc τ, conv_drift t (L / τ) hτ, ← conv_add, ← conv_sdiv]

include hL

theorem kepler_conv (fuel : ℕ) (massG dt : ℝ) (a : Alt ℝ) :
    (a.conv t L τ).kepler fuel (L ^ 3 / τ ^ 2 * massG) (τ * dt) = (a.kepler fuel massG dt).map (Alt.conv t L τ) := by
  unfold Alt.kepler
  simp only [Alt.conv, conv]
  rw [C144_units hL hτ, C144_axes]
  cases keplerStep fuel massG dt a.position a.velocity <;> rfl

theorem keplerPlanets_conv (c : Coordinates) (fuel : ℕ) (dt running : ℝ) (l : List (Alt ℝ)) :
    keplerPlanets c fuel (τ * dt) (L ^ 3 / τ ^ 2 * running) (l.map (Alt.conv t L τ))
      = (keplerPlanets c fuel dt running l).map (List.map (Alt.conv t L τ)) := by
  induction l generalizing running with
  | nil => rfl
  | cons a l ih =>
    have e : (a.conv t L τ).massG = L ^ 3 / τ ^ 2 * a.massG := rfl
    cases c
    all_goals
      simp only [keplerPlanets, List.map_cons, e, ← mul_add]
      rw [kepler_conv t hL hτ, ih]
      generalize Alt.kepler fuel _ dt a = x
      generalize keplerPlanets _ fuel dt _ l = y
      cases x <;> cases y <;> rfl

theorem keplerSteps_conv (c : Coordinates) (fuel : ℕ) (dt : ℝ) (u : Sys ℝ) (a : AltSys ℝ) :
    keplerSteps c fuel (τ * dt) (u.conv t L τ) (a.conv t L τ) = (keplerSteps c fuel dt u a).map (AltSys.conv t L τ) := by
  have := keplerPlanets_conv t hL hτ c fuel dt u.star.massG a.planets
  unfold keplerSteps
  simp only [Sys.conv, AltSys.conv, Body.conv] at this ⊢
  rw [this]
  cases keplerPlanets c fuel dt u.star.massG a.planets with
  | none => rfl
  | some l => simp only [Option.map_some, AltSys.conv, conv_drift t L hτ, ← conv_add]

/-- **C145**: a step of WHFast for other axes and in other units of time is the same step, converted, and for democratic
heliocentric coordinates and WHDS also in other units of length, if gravity converts.  Missing: Jacobi coordinates in other units
of length, see `C145_violated`. -/
theorem C145_step_partial (c : Coordinates) (hc : c = .jacobi → L = 1) (fuel : ℕ) (g dt half : ℝ)
    {gravity gravity' : Sys ℝ → Option (Sys ℝ)} (hg : ∀ u, gravity' (u.conv t L τ) = (gravity u).map (Sys.conv t L τ)) (u : Sys ℝ) :
    step c fuel (L ^ 3 / τ ^ 2 * g) (τ * dt) (τ * half) gravity' (u.conv t L τ)
      = (step c fuel g dt half gravity u).map (Sys.conv t L τ) := by
  unfold step part1
  rw [toAlternative_conv, keplerSteps_conv t hL hτ]
  cases keplerSteps c fuel half u (toAlternative c u) with
  | none => rfl
  | some a =>
    simp only [Option.map_some]
    rw [jumpStep_conv t hτ, fromAlternative_conv, hg]
    cases gravity (fromAlternative c (jumpStep c half u a) u) with
    | none => rfl
    | some v =>
      simp only [Option.map_some]
      unfold part2
      dsimp only
      rw [interactionStep_conv t hτ c hc, jumpStep_conv t hτ, keplerSteps_conv t hL hτ]
      cases keplerSteps c fuel half v (jumpStep c half v (interactionStep c g dt v (jumpStep c half u a))) with
      | none => rfl
      | some b => simp only [Option.map_some, fromAlternative_conv]

theorem newton_conv (G m : ℝ) (x y : Axes ℝ) :
    Gravity.newton (L ^ 3 / τ ^ 2 * G) m (conv t L x) (conv t L y) = conv t (L / τ / τ) (Gravity.newton G m x y) := by
  have e : (conv t L (y - x)).dot (conv t L (y - x)) = L ^ 2 * (y - x).dot (y - x) := by
    unfold conv
    rw [t.on_smul, t.on_dot]
    simp [Axes.dot]
    ring
  unfold Gravity.newton
  rw [← conv_sub, e, Real.sqrt_mul (sq_nonneg L), Real.sqrt_sq hL.le, conv_smul]
  generalize Real.sqrt ((y - x).dot (y - x)) = d
  have e2 : L ^ 3 / τ ^ 2 * G * m / (L * d) ^ 3 = 1 / τ / τ * (G * m / d ^ 3) := by
    rw [mul_pow, show L ^ 3 / τ ^ 2 * G * m = L ^ 3 * (1 / τ / τ * (G * m)) by ring, mul_div_mul_left _ _ (by positivity), mul_div_assoc]
  rw [e2]
  unfold conv
  ext <;> simp <;> ring

theorem pull_conv (G : ℝ) (l : List (Body ℝ)) (x : Axes ℝ) :
    pull (L ^ 3 / τ ^ 2 * G) (l.map (Body.conv t L τ)) (conv t L x) = conv t (L / τ / τ) (pull G l x) := by
  unfold pull
  induction l with
  | nil => exact (conv_zero t _).symm
  | cons p l ih =>
    simp only [List.map_cons, List.sum_cons]
    rw [ih, conv_add, ← newton_conv t hL hτ]
    rfl

theorem kicked_conv (c : Coordinates) (G : ℝ) (u : Sys ℝ) :
    kicked c (L ^ 3 / τ ^ 2 * G) (u.conv t L τ) = (kicked c G u).conv t L τ := by
  have e0 : conv t (L / τ / τ) 0 = 0 := conv_zero t _
  have e1 : ∀ (l : List (Body ℝ)) (p : Body ℝ), (p.conv t L τ).accelerated
      (pull (L ^ 3 / τ ^ 2 * G) (l.map (Body.conv t L τ)) (p.conv t L τ).position) = (p.accelerated (pull G l p.position)).conv t L τ := by
    intro l p
    unfold Body.accelerated Body.conv
    dsimp only
    rw [← pull_conv t hL hτ]
    rfl
  have e2 : ∀ p : Body ℝ, (p.conv t L τ).accelerated 0 = (p.accelerated 0).conv t L τ := by
    intro p
    unfold Body.accelerated Body.conv
    dsimp only
    rw [e0]
  obtain ⟨s, l⟩ := u
  cases c
  · cases l with
    | nil => simp only [kicked, Sys.conv, List.map_nil, e2]
    | cons p l =>
      have e3 := e1 (p :: l)
      have e4 := e1 (s :: p :: l)
      simp only [List.map_cons] at e3 e4
      simp only [kicked, Sys.conv, List.map_cons, List.map_map, e1, e3]
      congr 2
      exact List.map_congr_left fun q _ => e4 q
  all_goals
    simp only [kicked, Sys.conv, List.map_map, e2]
    congr 1
    exact List.map_congr_left fun q _ => e1 l q

/-- **C145, with gravity**: the same with the gravity of the planets; also the unit of the gravitational constant changes. -/
theorem C145_gravity_partial (c : Coordinates) (hc : c = .jacobi → L = 1) (fuel : ℕ) (G dt half : ℝ) (u : Sys ℝ) :
    step c fuel (L ^ 3 / τ ^ 2 * G) (τ * dt) (τ * half) (fun v => some (kicked c (L ^ 3 / τ ^ 2 * G) v)) (u.conv t L τ)
      = (step c fuel G dt half (fun v => some (kicked c G v)) u).map (Sys.conv t L τ) :=
  C145_step_partial t hL hτ c hc fuel G dt half (fun v => by rw [kicked_conv t hL hτ]; rfl) u

/-- **C145, runs**: any number of steps with gravity. -/
theorem C145_run_partial (c : Coordinates) (hc : c = .jacobi → L = 1) (fuel : ℕ) (G dt half : ℝ) (N : ℕ) (u : Option (Sys ℝ)) :
    (fun o : Option (Sys ℝ) => o.bind
        (step c fuel (L ^ 3 / τ ^ 2 * G) (τ * dt) (τ * half) fun v => some (kicked c (L ^ 3 / τ ^ 2 * G) v)))^[N] (u.map (Sys.conv t L τ))
      = ((fun o : Option (Sys ℝ) => o.bind (step c fuel G dt half fun v => some (kicked c G v)))^[N] u).map (Sys.conv t L τ) := by
  induction N generalizing u with
  | zero => rfl
  | succ N ih =>
    rw [Function.iterate_succ_apply, Function.iterate_succ_apply, ← ih]
    congr 1
    cases u with
    | none => rfl
    | some u => exact C145_gravity_partial t hL hτ c hc fuel G dt half u

end

/-- The same axes. -/
def sameAxes : Univ.Turn := ⟨⟨1, 0, 0⟩, ⟨0, 1, 0⟩, by simp [Axes.dot], by simp [Axes.dot], by simp [Axes.dot]⟩

/-- A star and two planets without accelerations. -/
noncomputable def calmSys : Sys ℝ :=
  ⟨⟨1, 1, ⟨0, 0, 0⟩, ⟨0, 0, 0⟩, ⟨0, 0, 0⟩⟩,
    [⟨1, 1, ⟨1, 0, 0⟩, ⟨0, 1, 0⟩, ⟨0, 0, 0⟩⟩, ⟨1, 1, ⟨3 / 2, 0, 0⟩, ⟨0, 1, 0⟩, ⟨0, 0, 0⟩⟩]⟩

/-- Jacobi coordinates of these. -/
noncomputable def calmAlt : AltSys ℝ :=
  ⟨⟨3, ⟨5 / 6, 0, 0⟩, ⟨0, 2 / 3, 0⟩⟩, [⟨1, 1, ⟨1, 0, 0⟩, ⟨0, 1, 0⟩⟩, ⟨1, 1, ⟨1, 0, 0⟩, ⟨0, 1 / 2, 0⟩⟩]⟩

example : toAlternative .jacobi calmSys = calmAlt := by
  simp only [toAlternative, toJacobi, jacobiLoop, calmSys, calmAlt]
  simp only [AltSys.mk.injEq, Centre.mk.injEq, List.cons.injEq, Alt.mk.injEq, Axes.ext_iff]
  norm_num

/-- **C145 violated**: the kicks of Jacobi coordinates soften distances by 1e-12 whatever the unit of length. -/
theorem C145_violated : ¬ ∀ (t : Univ.Turn) (L τ : ℝ), 0 < L → 0 < τ → ∀ (g dt : ℝ) (u : Sys ℝ) (a : AltSys ℝ),
    interactionStep .jacobi (L ^ 3 / τ ^ 2 * g) (τ * dt) (u.conv t L τ) (a.conv t L τ)
      = (interactionStep .jacobi g dt u a).conv t L τ := by
  intro h
  have h1 := congrArg (fun s => s.planets.map fun p => p.velocity.x)
    (h sameAxes 2 1 (by norm_num) (by norm_num) 1 1 calmSys calmAlt)
  simp [interactionStep, jacobiInteraction, jacobiKick, jacobiAccelerations, jacobiAccelerationLoop, Sys.conv, AltSys.conv, Alt.conv,
    Body.conv, conv, calmSys, calmAlt, sameAxes, Univ.Turn.on, Axes.norm2, Axes.dot, Axes.cross] at h1
  have e1 : Real.sqrt (2 * 2 + 1e-12) ^ 2 = 2 * 2 + 1e-12 := Real.sq_sqrt (by norm_num)
  have e2 : Real.sqrt (1 + 1e-12) ^ 2 = 1 + 1e-12 := Real.sq_sqrt (by norm_num)
  have p1 : 0 < Real.sqrt (2 * 2 + 1e-12) := Real.sqrt_pos.2 (by norm_num)
  have p2 : 0 < Real.sqrt (1 + 1e-12) := Real.sqrt_pos.2 (by norm_num)
  generalize Real.sqrt (2 * 2 + 1e-12) = x at *
  generalize Real.sqrt (1 + 1e-12) = y at *
  rw [← e1, ← e2] at h1
  field_simp at h1
  have e3 : (2 * y) ^ 3 = x ^ 3 := by linarith
  have e4 : 2 * y = x := (pow_left_inj₀ (by positivity) p1.le (by norm_num)).1 e3
  rw [← e4] at e1
  norm_num at e1 e2
  linarith

/-- A star and two planets in thirds of the length, 365ths of the time and for other axes. -/
example (fuel : ℕ) : step .whds fuel ((3 : ℝ) ^ 3 / 365 ^ 2 * 1) (365 * (1 / 2)) (365 * (1 / 4))
      (fun v => some (kicked .whds ((3 : ℝ) ^ 3 / 365 ^ 2 * 1) v)) (exampleSys.conv quarterAxes 3 365)
    = (step .whds fuel 1 (1 / 2) (1 / 4) (fun v => some (kicked .whds 1 v)) exampleSys).map (Sys.conv quarterAxes 3 365) :=
  C145_gravity_partial quarterAxes (by norm_num) (by norm_num) .whds (by simp) fuel 1 _ _ _

/-- Jacobi coordinates in 365ths of the time. -/
example (fuel : ℕ) : step .jacobi fuel ((1 : ℝ) ^ 3 / 365 ^ 2 * 1) (365 * (1 / 2)) (365 * (1 / 4))
      (fun v => some (kicked .jacobi ((1 : ℝ) ^ 3 / 365 ^ 2 * 1) v)) (exampleSys.conv quarterAxes 1 365)
    = (step .jacobi fuel 1 (1 / 2) (1 / 4) (fun v => some (kicked .jacobi 1 v)) exampleSys).map (Sys.conv quarterAxes 1 365) :=
  C145_gravity_partial quarterAxes (by norm_num) (by norm_num) .jacobi (fun _ => rfl) fuel 1 _ _ _

end Posidonius.WHFast
