import Verif.Lemmas.WHFastSteps
import Verif.Props.Kepler

/-! # C23, C25, C70: coordinates of WHFast, momentum and the centre of mass -/

namespace Posidonius.WHFast
open Posidonius

/-- **C23, there and back**: transforming to the alternative coordinates and back returns every position and
velocity. -/
theorem C23_there_and_back (c : Coordinates) {u : Sys ℝ} (hu : Massive u) :
    fromAlternative c (toAlternative c u) u = u := fromAlternative_toAlternative c hu

/-- **C23, back and there**: no alternative coordinates with the masses of the bodies are lost either. -/
theorem C23_back_and_there (c : Coordinates) {a : AltSys ℝ} {u : Sys ℝ} (h : Matches a u) (hu : Massive u) :
    toAlternative c (fromAlternative c a u) = a := toAlternative_fromAlternative c h hu

/-- **C23, centre of mass**: the star stands for the centre of mass. -/
theorem C23_centre (c : Coordinates) {u : Sys ℝ} (hu : Massive u) :
    (toAlternative c u).star.mass = u.mass
    ∧ u.mass • (toAlternative c u).star.position = u.weighted Body.position
    ∧ u.mass • (toAlternative c u).star.velocity = u.weighted Body.velocity := by
  have hm := hu.mass_pos.ne'
  rw [toAlternative_star c hu]
  refine ⟨rfl, ?_, ?_⟩
  · dsimp only; rw [smul_smul, mul_inv_cancel₀ hm, one_smul]
  · dsimp only; rw [smul_smul, mul_inv_cancel₀ hm, one_smul]

/-- **C23, heliocentric**: planets are seen from the star; velocities relative to the centre of mass. -/
theorem C23_heliocentric (u : Sys ℝ) :
    (toAlternative .democraticHeliocentric u).planets.map (fun a => (a.position, a.velocity))
      = u.planets.map (fun p => (p.position - u.star.position, p.velocity - u.mass⁻¹ • u.weighted Body.velocity))
    ∧ (toAlternative .whds u).planets.map (fun a => (a.position, a.velocity))
      = u.planets.map (fun p => (p.position - u.star.position,
          ((u.star.mass + p.mass) / u.star.mass) • (p.velocity - u.mass⁻¹ • u.weighted Body.velocity))) := by
  constructor <;> simp [toAlternative, toHelio, centre_eq, Function.comp_def]

/-- **C23, Jacobi**: every planet is seen from the centre of mass of the star and the planets before it. -/
theorem C23_jacobi {u : Sys ℝ} (hu : Massive u) (before after : List (Body ℝ)) (p : Body ℝ)
    (h : u.planets = before ++ p :: after) :
    ∃ a, (toAlternative .jacobi u).planets[before.length]? = some a
      ∧ (⟨u.star, before⟩ : Sys ℝ).mass • (p.position - a.position) = (⟨u.star, before⟩ : Sys ℝ).weighted Body.position
      ∧ (⟨u.star, before⟩ : Sys ℝ).mass • (p.velocity - a.velocity)
          = (⟨u.star, before⟩ : Sys ℝ).weighted Body.velocity := by
  have hb : ∀ q ∈ before, 0 < q.mass := fun q hq => hu.2 q (by simp [h, hq])
  have hM : Massive (⟨u.star, before⟩ : Sys ℝ) := ⟨hu.1, hb⟩
  obtain ⟨h1, h2, h3⟩ := jacobiLoop_sums before u.star.mass (u.star.mass • u.star.position)
    (u.star.mass • u.star.velocity) hu.1 hb
  have hl : (jacobiLoop u.star.mass (u.star.mass • u.star.position) (u.star.mass • u.star.velocity) before).1.length
      = before.length := (jacobiLoop_sameMasses before _ _ _).length_eq
  have hm := hM.mass_pos.ne'
  refine ⟨⟨p.mass, p.massG, p.position - (⟨u.star, before⟩ : Sys ℝ).mass⁻¹ • (⟨u.star, before⟩ : Sys ℝ).weighted
    Body.position, p.velocity - (⟨u.star, before⟩ : Sys ℝ).mass⁻¹ • (⟨u.star, before⟩ : Sys ℝ).weighted
    Body.velocity⟩, ?_, ?_, ?_⟩
  · have e : (toAlternative .jacobi u).planets = (jacobiLoop u.star.mass (u.star.mass • u.star.position)
        (u.star.mass • u.star.velocity) u.planets).1 := rfl
    rw [e, h, jacobiLoop_append, List.getElem?_append_right hl.le, hl, Nat.sub_self, h1, h2, h3]
    have hm' : u.star.mass + totalMass before ≠ 0 := hm
    rw [jacobiLoop_cons hm', List.getElem?_cons_zero]
    rfl
  · dsimp only
    rw [sub_sub_cancel, smul_smul, mul_inv_cancel₀ hm, one_smul]
  · dsimp only
    rw [sub_sub_cancel, smul_smul, mul_inv_cancel₀ hm, one_smul]

/-- **C25, interaction**: momentum and centre of mass are the same before and after the kick, whatever the
accelerations. -/
theorem C25_interaction (c : Coordinates) (g dt : ℝ) {a : AltSys ℝ} {u : Sys ℝ} (h : Matches a u) (hu : Massive u) :
    (fromAlternative c (interactionStep c g dt u a) u).weighted Body.velocity
      = (fromAlternative c a u).weighted Body.velocity
    ∧ (fromAlternative c (interactionStep c g dt u a) u).weighted Body.position
      = (fromAlternative c a u).weighted Body.position := by
  have h1 := fromAlternative_sums c h hu
  have h2 := fromAlternative_sums c (interactionStep_matches c g dt h) hu
  rw [interactionStep_star] at h2
  exact ⟨h2.2.trans h1.2.symm, h2.1.trans h1.1.symm⟩

/-- **C25, jump**: momentum and centre of mass are the same before and after the jump. -/
theorem C25_jump (c : Coordinates) (dt : ℝ) {a : AltSys ℝ} {u : Sys ℝ} (h : Matches a u) (hu : Massive u) :
    (fromAlternative c (jumpStep c dt u a) u).weighted Body.velocity
      = (fromAlternative c a u).weighted Body.velocity
    ∧ (fromAlternative c (jumpStep c dt u a) u).weighted Body.position
      = (fromAlternative c a u).weighted Body.position := by
  have h1 := fromAlternative_sums c h hu
  have h2 := fromAlternative_sums c (jumpStep_matches c dt h) hu
  rw [jumpStep_star] at h2
  exact ⟨h2.2.trans h1.2.symm, h2.1.trans h1.1.symm⟩

/-- **C70**: a whole step of WHFast (whatever the result of the solver of Kepler's equation and whatever the
accelerations) keeps the masses and the total momentum and moves the centre of mass with constant velocity. -/
theorem C70_step (c : Coordinates) (fuel : ℕ) (g dt half : ℝ) (gravity : Sys ℝ → Option (Sys ℝ))
    (hg : ∀ v w, gravity v = some w → Like w v) {u u' : Sys ℝ} (hu : Massive u) (hh : half + half = dt)
    (h : step c fuel g dt half gravity u = some u') :
    Like u' u ∧ u'.weighted Body.velocity = u.weighted Body.velocity
    ∧ u'.weighted Body.position = u.weighted Body.position + dt • u.weighted Body.velocity := by
  have := step_sums c fuel g dt half gravity hg hu h
  rwa [hh] at this

/-- A star and two planets. -/
noncomputable def exampleSys : Sys ℝ :=
  { star := ⟨1, 1, ⟨0, 0, 0⟩, ⟨0, 0, 0⟩, ⟨0, 0, 0⟩⟩,
    planets := [⟨1 / 10, 1 / 10, ⟨1, 0, 0⟩, ⟨0, 1, 0⟩, ⟨0, 0, 0⟩⟩, ⟨1 / 5, 1 / 5, ⟨0, 3, 0⟩, ⟨-1 / 2, 0, 1⟩, ⟨0, 0, 0⟩⟩] }

theorem exampleSys_massive : Massive exampleSys := by
  refine ⟨by simp [exampleSys], ?_⟩
  intro p hp
  simp only [exampleSys, List.mem_cons, List.not_mem_nil, or_false] at hp
  rcases hp with rfl | rfl <;> norm_num

/-- Alternative coordinates for C23 and C25, in all three systems. -/
example (c : Coordinates) : Matches (toAlternative c exampleSys) exampleSys :=
  toAlternative_matches c exampleSys_massive

/-- A gravity for C70 that changes the accelerations. -/
example : ∀ v w : Sys ℝ, (some { v with star := { v.star with acceleration := ⟨1, 2, 3⟩ } }) = some w → Like w v := by
  intro v w h
  cases h
  exact ⟨rfl, rfl, List.forall₂_same.2 fun _ _ => ⟨rfl, rfl⟩⟩

theorem keplerPlanets_zero (c : Coordinates) (fuel : ℕ) (running : ℝ) (a : List (Alt ℝ)) :
    keplerPlanets c (fuel + 1) 0 running a = some a := by
  induction a generalizing running with
  | nil => rfl
  | cons x l ih =>
    have : ∀ m : ℝ, Alt.kepler (fuel + 1) m 0 x = some x := by
      intro m; simp [Alt.kepler, C24_zero_step]
    simp only [keplerPlanets, ih, this]

/-- A step that ends: the system above with a time step of zero.  (For other time steps see C74.) -/
example (c : Coordinates) : ∃ u', step c 1 1 0 0 some exampleSys = some u' := by
  simp [step, part1, part2, keplerSteps, keplerPlanets_zero c 0]

end Posidonius.WHFast
