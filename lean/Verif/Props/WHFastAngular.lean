import Verif.Lemmas.WHFastAngular
import Verif.Props.WHFast

/-! # C71: angular momentum in WHFast -/

namespace Posidonius.WHFast
open Posidonius

/-- **C71, decomposition**: the angular momentum of all bodies is that of the centre of mass and of the
alternative coordinates with their reduced masses. -/
theorem C71_decomposition (c : Coordinates) {u : Sys ℝ} (hu : Massive u) :
    u.moment Body.position Body.velocity = u.mass • (toAlternative c u).star.position.cross
      (toAlternative c u).star.velocity + orbital c u.star.mass (toAlternative c u).planets := by
  rw [toAlternative_angular c hu, AltSys.angular, (toAlternative_matches c hu).2]

/-- **C71, jump**: the jump does not change the angular momentum of the bodies. -/
theorem C71_jump (c : Coordinates) (dt : ℝ) {a : AltSys ℝ} {u : Sys ℝ} (h : Matches a u) (hu : Massive u) :
    (fromAlternative c (jumpStep c dt u a) u).moment Body.position Body.velocity
      = (fromAlternative c a u).moment Body.position Body.velocity := by
  rw [fromAlternative_angular c (jumpStep_matches c dt h) hu, fromAlternative_angular c h hu, jump_angular c dt h hu]

/-- **C71, kick**: the kick changes the angular momentum by the torque of the accelerations, for Jacobi
coordinates about the centre of mass and otherwise about the star. -/
theorem C71_kick (c : Coordinates) (g dt : ℝ) {u : Sys ℝ} (hu : Massive u) :
    (fromAlternative c (interactionStep c g dt u (toAlternative c u)) u).moment Body.position Body.velocity
      = u.moment Body.position Body.velocity
        + dt • u.moment (fun p => p.position - pivot c u) Body.acceleration := by
  rw [fromAlternative_angular c (interactionStep_matches c g dt (toAlternative_matches c hu)) hu,
    kick_angular c g dt hu]

/-- **C71, kick under gravity**: if forces and torques balance (C19), the kick conserves the angular momentum. -/
theorem C71_kick_conserves (c : Coordinates) (g dt : ℝ) {u : Sys ℝ} (hu : Massive u)
    (hf : u.weighted Body.acceleration = 0) (ht : u.moment Body.position Body.acceleration = 0) :
    (fromAlternative c (interactionStep c g dt u (toAlternative c u)) u).moment Body.position Body.velocity
      = u.moment Body.position Body.velocity := by
  rw [C71_kick c g dt hu, moment_pivot, hf, ht, cross_zero', sub_zero, smul_zero, add_zero]

/-- Masses, positions and velocities stay, accelerations may change. -/
def SameMotion (w v : Sys ℝ) : Prop :=
  Like w v ∧ w.star.position = v.star.position ∧ w.star.velocity = v.star.velocity
  ∧ w.planets.map (fun p => (p.position, p.velocity)) = v.planets.map (fun p => (p.position, p.velocity))

theorem SameMotion.planets {w v : Sys ℝ} (h : SameMotion w v) :
    List.Forall₂ (fun p q : Body ℝ => p.mass = q.mass ∧ p.massG = q.massG ∧ p.position = q.position
      ∧ p.velocity = q.velocity) w.planets v.planets := by
  obtain ⟨⟨_, _, h1⟩, _, _, h2⟩ := h
  generalize w.planets = l at *
  generalize v.planets = m at *
  induction h1 with
  | nil => exact List.Forall₂.nil
  | @cons x y l m h3 _ ih =>
    simp only [List.map_cons, List.cons.injEq, Prod.mk.injEq] at h2
    exact List.Forall₂.cons ⟨h3.1, h3.2, h2.1.1, h2.1.2⟩ (ih h2.2)

theorem jacobiLoop_congr {l m : List (Body ℝ)} (h : List.Forall₂ (fun p q : Body ℝ => p.mass = q.mass
      ∧ p.massG = q.massG ∧ p.position = q.position ∧ p.velocity = q.velocity) l m) (eta : ℝ) (s sv : Axes ℝ) :
    jacobiLoop eta s sv l = jacobiLoop eta s sv m := by
  induction h generalizing eta s sv with
  | nil => rfl
  | @cons x y l m h1 _ ih => simp only [jacobiLoop, h1.1, h1.2.1, h1.2.2.1, h1.2.2.2, ih]

theorem weighted_congr {w v : Sys ℝ} (h : SameMotion w v) : w.weighted Body.position = v.weighted Body.position
    ∧ w.weighted Body.velocity = v.weighted Body.velocity := by
  have hp := h.planets
  unfold Sys.weighted
  rw [h.1.1, h.2.1, h.2.2.1]
  have : ∀ {l m : List (Body ℝ)}, List.Forall₂ (fun p q : Body ℝ => p.mass = q.mass
      ∧ p.massG = q.massG ∧ p.position = q.position ∧ p.velocity = q.velocity) l m →
      (l.map fun p => p.mass • p.position) = (m.map fun p => p.mass • p.position)
      ∧ (l.map fun p => p.mass • p.velocity) = (m.map fun p => p.mass • p.velocity) := by
    intro l m h
    induction h with
    | nil => exact ⟨rfl, rfl⟩
    | @cons x y l m h1 _ ih => simp only [List.map_cons, ih, h1.1, h1.2.2.1, h1.2.2.2, and_self]
  rw [(this hp).1, (this hp).2]
  exact ⟨rfl, rfl⟩

theorem toAlternative_congr (c : Coordinates) {w v : Sys ℝ} (h : SameMotion w v) :
    toAlternative c w = toAlternative c v := by
  have hp := h.planets
  have hh : ∀ whds, toHelio whds w = toHelio whds v := by
    intro whds
    have hc : centre w = centre v := by
      rw [centre_eq, centre_eq, h.1.mass, (weighted_congr h).1, (weighted_congr h).2]
    have : ∀ {l m : List (Body ℝ)}, List.Forall₂ (fun p q : Body ℝ => p.mass = q.mass
        ∧ p.massG = q.massG ∧ p.position = q.position ∧ p.velocity = q.velocity) l m →
        l.map (helioOf whds w) = m.map (helioOf whds v) := by
      intro l m hl
      induction hl with
      | nil => rfl
      | @cons x y l m h1 _ ih =>
        simp only [List.map_cons, ih, helioOf, h1.1, h1.2.1, h1.2.2.1, h1.2.2.2, hc, h.1.1, h.2.1]
    show (⟨centre w, w.planets.map (helioOf whds w)⟩ : AltSys ℝ) = ⟨centre v, v.planets.map (helioOf whds v)⟩
    rw [hc, this hp]
  cases c
  · show toJacobi w = toJacobi v
    unfold toJacobi
    rw [h.1.1, h.2.1, h.2.2.1]
    dsimp only
    rw [jacobiLoop_congr hp]
  · exact hh false
  · exact hh true

/-- **C71, whole step**: under gravity with balanced forces and torques, the angular momentum of the bodies
changes in a whole step only by what the Kepler solver changes of `position × velocity` of the planets in its two
calls (nothing for exact Kepler motion, C24). -/
theorem C71_step (c : Coordinates) (fuel : ℕ) (g dt half : ℝ) (gravity : Sys ℝ → Option (Sys ℝ))
    (hg : ∀ v w, gravity v = some w → SameMotion w v ∧ w.weighted Body.acceleration = 0
      ∧ w.moment Body.position Body.acceleration = 0) {u u' : Sys ℝ} (hu : Massive u)
    (h : step c fuel g dt half gravity u = some u') :
    ∃ (v : Sys ℝ) (a b a' b' : AltSys ℝ), a = toAlternative c u ∧ keplerSteps c fuel half u a = some b
      ∧ gravity (fromAlternative c (jumpStep c half u b) u) = some v
      ∧ a' = jumpStep c half v (interactionStep c g dt v (jumpStep c half u b))
      ∧ keplerSteps c fuel half v a' = some b'
      ∧ u'.moment Body.position Body.velocity = u.moment Body.position Body.velocity
        + (orbital c u.star.mass b.planets - orbital c u.star.mass a.planets)
        + (orbital c u.star.mass b'.planets - orbital c u.star.mass a'.planets) := by
  unfold step at h
  split at h
  · cases h
  · next a u1 e1 =>
    split at h
    · cases h
    · next u2 e2 =>
      unfold part1 at e1
      split at e1
      · cases e1
      · next b eb =>
        cases e1
        unfold part2 at h
        dsimp only at h
        split at h
        · cases h
        · next d ed =>
          cases h
          obtain ⟨g1, g2, g3⟩ := hg _ _ e2
          have m0 := toAlternative_matches c hu
          have m1 := keplerSteps_matches m0 eb
          have m2 := jumpStep_matches c half m1
          have l1 := fromAlternative_like c m2
          have l2 := g1.1.trans l1
          have m3 := m2.like l2
          have m4 := interactionStep_matches c g dt m3
          have m5 := jumpStep_matches c half m4
          have m6 := keplerSteps_matches m5 ed
          have hu2 := l2.massive hu
          refine ⟨u2, _, b, _, d, rfl, eb, e2, rfl, ed, ?_⟩
          -- the alternative coordinates belong to the bodies whose accelerations were computed
          have ha : jumpStep c half u b = toAlternative c u2 := by
            rw [toAlternative_congr c g1, toAlternative_fromAlternative c m2 hu]
          have k1 := keplerSteps_star eb
          have k2 := keplerSteps_star ed
          have drift : ∀ (x y : AltSys ℝ), y.star = { x.star with position := x.star.position + half • x.star.velocity }
              → y.angular c u.star.mass = x.angular c u.star.mass
                + (orbital c u.star.mass y.planets - orbital c u.star.mass x.planets) := by
            intro x y hxy
            unfold AltSys.angular
            rw [hxy]
            have : (x.star.position + half • x.star.velocity).cross x.star.velocity
                = x.star.position.cross x.star.velocity := by ext <;> simp <;> ring
            dsimp only
            rw [this]
            abel
          have es : u2.star.mass = u.star.mass := l2.1
          rw [fromAlternative_angular c m6 hu2, es, drift _ _ k2]
          congr 1
          have hj := jump_angular c half m4 hu2
          rw [es] at hj
          have hk := C71_kick_conserves c g dt hu2 g2 g3
          rw [← ha, fromAlternative_angular c m4 hu2, es] at hk
          rw [hj, hk]
          rw [toAlternative_angular c hu2, es, ← ha, jump_angular c half m1 hu, drift _ _ k1, ← toAlternative_angular c hu]

/-- Two bodies with opposite forces along the line between them meet the hypotheses of `C71_kick_conserves`. -/
example : ∃ u : Sys ℝ, Massive u ∧ u.weighted Body.acceleration = 0 ∧ u.moment Body.position Body.acceleration = 0
    ∧ u.star.acceleration ≠ 0 := by
  refine ⟨⟨⟨2, 2, 0, ⟨0, -1, 0⟩, ⟨1, 0, 0⟩⟩, [⟨1, 1, ⟨3, 0, 0⟩, ⟨0, 2, 0⟩, ⟨-2, 0, 0⟩⟩]⟩, ⟨by norm_num, by simp⟩, ?_, ?_, ?_⟩
  · ext <;> simp [Sys.weighted]
  · ext <;> simp [Sys.moment]
  · intro h
    have := congrArg Axes.x h
    simp at this

end Posidonius.WHFast
