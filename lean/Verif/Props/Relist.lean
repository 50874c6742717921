import Verif.Lemmas.RelistConfig
import Verif.Props.Totals
import Verif.Props.Config
import Verif.Model.CreepUniverse

/-! # C104 The order in which the bodies are listed -/

namespace Posidonius.Univ
open Gravity (Ignore)
open Evolution (Evolver)

section
variable {n : Nat} {σ : Equiv.Perm (Fin n)} {k : Consts ℝ} {m : Models ℝ} {eps2 dt half : ℝ}
  {roche roche' : Fin n → Fin n → ℝ} {u v : Universe ℝ n}

/-- The same universe is constructed from the bodies in another order, if one of them is heavier than the others. -/
theorem C104_new (σ : Equiv.Perm (Fin n)) (c0 : Consider) (make : Fin n → Option (Evolver ℝ)) {p0 : Fin n → Particle ℝ}
    (hm : ∀ i, 0 ≤ (p0 i).mass) {h : Fin n} (hh : ∀ j, j ≠ h → (p0 j).mass < (p0 h).mass) :
    Option.Rel (Relisted σ) (newUniverse c0 make p0) (newUniverse c0 (fun i => make (σ i)) fun i => p0 (σ i)) :=
  newUniverse_relist σ c0 make hm hh

/-- What is constructed is numbered. -/
theorem newUniverse_numbered {c0 : Consider} {make : Fin n → Option (Evolver ℝ)} {p0 : Fin n → Particle ℝ}
    (hu : newUniverse c0 make p0 = some u) : Numbered u := by
  obtain ⟨hn, -, h⟩ := C42_bodies hu
  exact ⟨fun i => (h i).1, hn⟩

/-- The same effects are computed for the bodies in another order (with any relativity except Anderson's). -/
theorem C104_evaluation_partial (hm : Unnumbered (n := n) m) (time : ℝ) (evolution dL acc : Bool)
    (r : Relisted σ u v) (hn : Numbered u) (ho : Unordered u) :
    Option.Rel (Relisted σ) (calculateAdditionalEffects k m eps2 time evolution dL acc .none (inertialToHeliocentric u))
      (calculateAdditionalEffects k m eps2 time evolution dL acc .none (inertialToHeliocentric v)) :=
  evaluation_relist k hm eps2 time evolution dL acc (inertialToHeliocentric_relist r)
    (hn.kept (kept_heliocentric u)) (ho.kept (kept_heliocentric u))

/-- Two steps of LeapFrog from the same state in two orders, with what gravity gives. -/
theorem step_relist {T : Option (Universe ℝ n) → Option (Universe ℝ n) → Prop} (hm : Unnumbered (n := n) m) (time : ℝ)
    (h0 : T none none) (h1 : ∀ a b, Relisted σ a b → T (some a) (some b))
    (hT : ∀ a b, Relisted σ a b → Kept u a → Kept v b →
      (∀ a', universeGravity k roche .none a = some a' → universeGravity k roche' .none b = none → ∀ x, T x none)
      ∧ (∀ b', universeGravity k roche .none a = none → universeGravity k roche' .none b = some b' → ∀ x, T none x))
    (r : Relisted σ u v) (hn : Numbered u) (ho : Unordered u) :
    T (leapfrogStep k m eps2 roche dt half time u) (leapfrogStep k m eps2 roche' dt half time v) := by
  unfold leapfrogStep
  have r1 := C104_evaluation_partial (k := k) (eps2 := eps2) hm time true true false r hn ho
  cases e1 : calculateAdditionalEffects k m eps2 time true true false .none (inertialToHeliocentric u) with
  | none =>
    rw [e1] at r1
    cases e2 : calculateAdditionalEffects k m eps2 time true true false .none (inertialToHeliocentric v) with
    | none => exact h0
    | some b => rw [e2] at r1; cases r1
  | some u1 =>
    rw [e1] at r1
    cases e2 : calculateAdditionalEffects k m eps2 time true true false .none (inertialToHeliocentric v) with
    | none => rw [e2] at r1; cases r1
    | some v1 =>
      rw [e2] at r1
      have r2 : Relisted σ u1 v1 := by cases r1; assumption
      have ku : Kept u (drift half u1) := ((kept_heliocentric u).trans (kept_evaluation e1)).trans (kept_drift half u1)
      have kv : Kept v (drift half v1) := ((kept_heliocentric v).trans (kept_evaluation e2)).trans (kept_drift half v1)
      have r3 := drift_relist half r2
      have g := hT _ _ r3 ku kv
      dsimp only
      cases e3 : universeGravity k roche .none (drift half u1) with
      | none =>
        cases e4 : universeGravity k roche' .none (drift half v1) with
        | none => exact h0
        | some v2 => exact g.2 v2 e3 e4 _
      | some u2 =>
        cases e4 : universeGravity k roche' .none (drift half v1) with
        | none => exact g.1 u2 e3 e4 _
        | some v2 =>
          have r4 := gravity_relist r3 e3 e4
          have k4 : Kept u u2 := ku.trans (kept_gravity e3)
          have r5 := C104_evaluation_partial (k := k) (eps2 := eps2) hm (time + half) true true true r4 (hn.kept k4) (ho.kept k4)
          dsimp only
          cases e5 : calculateAdditionalEffects k m eps2 (time + half) true true true .none (inertialToHeliocentric u2) with
          | none =>
            rw [e5] at r5
            cases e6 : calculateAdditionalEffects k m eps2 (time + half) true true true .none (inertialToHeliocentric v2) with
            | none => exact h0
            | some b => rw [e6] at r5; cases r5
          | some u3 =>
            rw [e5] at r5
            cases e6 : calculateAdditionalEffects k m eps2 (time + half) true true true .none (inertialToHeliocentric v2) with
            | none => rw [e6] at r5; cases r5
            | some v3 =>
              rw [e6] at r5
              have r6 : Relisted σ u3 v3 := by cases r5; assumption
              exact h1 _ _ (finish_relist dt half r6)

/-- Iterations, likewise. -/
theorem iterate_relist {T : Option (Universe ℝ n) → Option (Universe ℝ n) → Prop} (hm : Unnumbered (n := n) m) (time : ℝ)
    (record : Bool) (h0 : T none none) (h1 : ∀ a b, Relisted σ a b → T (some a) (some b))
    (hT : ∀ a b, Relisted σ a b → Kept u a → Kept v b →
      (∀ a', universeGravity k roche .none a = some a' → universeGravity k roche' .none b = none → ∀ x, T x none)
      ∧ (∀ b', universeGravity k roche .none a = none → universeGravity k roche' .none b = some b' → ∀ x, T none x))
    (r : Relisted σ u v) (hn : Numbered u) (ho : Unordered u) :
    T (leapfrogIterate k m eps2 roche dt half time record u) (leapfrogIterate k m eps2 roche' dt half time record v) := by
  unfold leapfrogIterate
  cases record
  · exact step_relist hm time h0 h1 hT r hn ho
  · simp only [if_true]
    have r1 := observe_relist k time r
    cases e1 : Univ.observe k time u with
    | none =>
      rw [e1] at r1
      cases e2 : Univ.observe k time v with
      | none => exact h0
      | some b => rw [e2] at r1; cases r1
    | some u1 =>
      rw [e1] at r1
      cases e2 : Univ.observe k time v with
      | none => rw [e2] at r1; cases r1
      | some v1 =>
        rw [e2] at r1
        have r2 : Relisted σ u1 v1 := by cases r1; assumption
        have ku := kept_observe e1
        have kv := kept_observe e2
        exact step_relist hm time h0 h1 (fun a b rab ka kb => hT a b rab (ku.trans ka) (kv.trans kb)) r2 (hn.kept ku) (ho.kept ku)

/-- Runs of LeapFrog that start with the same bodies in two orders give the same bodies, if both go on. -/
theorem C104_run_partial (hm : Unnumbered (n := n) m) (l : List (ℝ × Bool)) (r : Relisted σ u v) (hn : Numbered u)
    (ho : Unordered u) {a b : Universe ℝ n} (ha : leapfrogRun k m eps2 roche dt half l u = some a)
    (hb : leapfrogRun k m eps2 roche' dt half l v = some b) : Relisted σ a b := by
  induction l generalizing u v with
  | nil =>
    cases ha
    cases hb
    exact r
  | cons x l ih =>
    obtain ⟨time, record⟩ := x
    unfold leapfrogRun at ha hb
    obtain ⟨u1, hu1, ha⟩ := Option.bind_eq_some_iff.1 ha
    obtain ⟨v1, hv1, hb⟩ := Option.bind_eq_some_iff.1 hb
    have := iterate_relist (k := k) (eps2 := eps2) (dt := dt) (half := half) (roche := roche) (roche' := roche')
      (T := fun x y => ∀ a b, x = some a → y = some b → Relisted σ a b) hm time record (fun _ _ h => by cases h)
      (fun a b h x y hx hy => by cases hx; cases hy; exact h)
      (fun _ _ _ _ _ => ⟨fun _ _ _ _ _ _ _ h => (Option.some_ne_none _ h.symm).elim,
        fun _ _ _ _ _ _ h _ => (Option.some_ne_none _ h.symm).elim⟩) r hn ho _ _ hu1 hv1
    exact ih this (hn.kept (kept_iterate hu1)) (ho.kept (kept_iterate hu1)) ha hb

/-- If the most massive body is listed first in both orders and the Roche radii are symmetric, one run goes on when the
other does. -/
theorem C104_run_first_partial (hm : Unnumbered (n := n) m) (l : List (ℝ × Bool)) (r : Relisted σ u v) (hn : Numbered u)
    (ho : Unordered u) (hr : ∀ i j, roche' i j = roche (σ i) (σ j)) (hs : ∀ i j, roche i j = roche j i)
    (hu : u.hosts.mostMassive.val = 0) (hv : v.hosts.mostMassive.val = 0) :
    Option.Rel (Relisted σ) (leapfrogRun k m eps2 roche dt half l u) (leapfrogRun k m eps2 roche' dt half l v) := by
  induction l generalizing u v with
  | nil => exact .some r
  | cons x l ih =>
    obtain ⟨time, record⟩ := x
    unfold leapfrogRun
    have key := iterate_relist (k := k) (eps2 := eps2) (dt := dt) (half := half) (roche := roche) (roche' := roche')
      (T := Option.Rel (Relisted σ)) hm time record .none (fun a b h => .some h)
      (fun a b rab ka kb => by
        have g := gravity_defined_relist (k := k) rab hr hs (by rw [ka.hosts]; exact hu) (by rw [kb.hosts]; exact hv)
        refine ⟨fun a' h1 h2 _ => ?_, fun b' h1 h2 _ => ?_⟩
        · rw [h1, h2] at g; cases g
        · rw [h1, h2] at g; cases g) r hn ho
    cases e1 : leapfrogIterate k m eps2 roche dt half time record u with
    | none =>
      rw [e1] at key
      cases e2 : leapfrogIterate k m eps2 roche' dt half time record v with
      | none => exact .none
      | some b => rw [e2] at key; cases key
    | some u1 =>
      rw [e1] at key
      cases e2 : leapfrogIterate k m eps2 roche' dt half time record v with
      | none => rw [e2] at key; cases key
      | some v1 =>
        rw [e2] at key
        have r2 : Relisted σ u1 v1 := by cases key; assumption
        exact ih r2 (hn.kept (kept_iterate e1)) (ho.kept (kept_iterate e1)) (by rw [(kept_iterate e1).hosts]; exact hu)
          (by rw [(kept_iterate e2).hosts]; exact hv)

/-- From the list of the bodies to the end of a run: every body ends in the same state. -/
theorem C104_bodies_partial (hm : Unnumbered (n := n) m) {c0 : Consider} {make : Fin n → Option (Evolver ℝ)}
    {p0 : Fin n → Particle ℝ} (hp : ∀ i, 0 ≤ (p0 i).mass) {h : Fin n} (hh : ∀ j, j ≠ h → (p0 j).mass < (p0 h).mass)
    (hu : newUniverse c0 make p0 = some u) (hv : newUniverse c0 (fun i => make (σ i)) (fun i => p0 (σ i)) = some v)
    (ho : Unordered u) (l : List (ℝ × Bool)) {a b : Universe ℝ n}
    (ha : leapfrogRun k m eps2 roche dt half l u = some a) (hb : leapfrogRun k m eps2 roche' dt half l v = some b)
    (i : Fin n) : b.particles i = { a.particles (σ i) with id := i } := by
  have r := C104_new σ c0 make hp hh
  rw [hu, hv] at r
  have r : Relisted σ u v := by cases r; assumption
  exact (C104_run_partial hm l r (newUniverse_numbered hu) ho ha hb).particles i

end

/-! ## Anderson's relativity -/

/-- A star of mass 2 at the origin and two bodies of mass 1 at rest at `(s, 0, 0)` and `(-s, 0, 0)`. -/
noncomputable def trio (g : GrImplementation) (c2 s : ℝ) : Universe ℝ 3 :=
  { particles := fun j =>
      if j = 0 then
        { blank ℝ with mass := 2, massG := c2, momentOfInertia := 1, angularMomentum := ⟨0, 0, 1⟩,
                       gr := { (blank ℝ).gr with effect := .central g } }
      else if j = 1 then
        { blank ℝ with id := 1, mass := 1, massG := c2 / 2, momentOfInertia := 1, inertialPosition := ⟨s, 0, 0⟩,
                       gr := { (blank ℝ).gr with effect := .orbiting } }
      else
        { blank ℝ with id := 2, mass := 1, massG := c2 / 2, momentOfInertia := 1, inertialPosition := ⟨-s, 0, 0⟩,
                       gr := { (blank ℝ).gr with effect := .orbiting } },
    evolvers := fun _ => ⟨.nonEvolving, [], [], [], [], [], 0⟩,
    consider := ⟨false, false, true, false, false, false⟩,
    grImplementation := g,
    hosts := ⟨0, none, none, some 0, none, true, false, false, true, false⟩,
    table := fun _ => none }

theorem trio_relisted (g : GrImplementation) (c2 s : ℝ) :
    Relisted (Equiv.swap (1 : Fin 3) 2) (trio g c2 s) (trio g c2 (-s)) where
  particles i := by
    match i with
    | 0 => rw [show Equiv.swap (1 : Fin 3) 2 0 = 0 by decide]; rfl
    | 1 => rw [Equiv.swap_apply_left]; rfl
    | 2 => rw [Equiv.swap_apply_right]; simp [trio, listedAt]
  evolvers _ := rfl
  consider := rfl
  grImplementation := rfl
  mostMassive := by show Equiv.swap (1 : Fin 3) 2 0 = 0; decide
  tidesHost := rfl
  flatteningHost := rfl
  grHost := by show some (Equiv.swap (1 : Fin 3) 2 0) = some 0; rw [show Equiv.swap (1 : Fin 3) 2 0 = 0 by decide]
  diskHost := rfl
  flags := ⟨rfl, rfl, rfl, rfl, rfl⟩
  table _ _ := rfl

theorem trio_inertia (g : GrImplementation) (c2 s : ℝ) (j : Fin 3) : ((trio g c2 s).particles j).momentOfInertia = 1 := by
  by_cases h0 : j = 0
  · simp [trio, h0]
  · by_cases h1 : j = 1 <;> simp [trio, h0, h1]

theorem trio_radius (g : GrImplementation) (c2 s : ℝ) (j : Fin 3) : ((trio g c2 s).particles j).radius = 0 := by
  by_cases h0 : j = 0
  · simp [trio, h0, blank]
  · by_cases h1 : j = 1 <;> simp [trio, h0, h1, blank]

theorem trio_velocity (g : GrImplementation) (c2 s : ℝ) (j : Fin 3) :
    ((trio g c2 s).particles j).inertialVelocity = 0 := by
  by_cases h0 : j = 0
  · simp [trio, h0, blank]
  · by_cases h1 : j = 1 <;> simp [trio, h0, h1, blank]

theorem pairs_three {P : Fin 3 → Fin 3 → Prop} (h1 : P 0 1) (h2 : P 0 2) (h3 : P 1 2) (i j : Fin 3) (h : i < j) : P i j := by
  have hi : i = 0 ∨ i = 1 ∨ i = 2 := by omega
  have hj : j = 0 ∨ j = 1 ∨ j = 2 := by omega
  rcases hi with rfl | rfl | rfl <;> rcases hj with rfl | rfl | rfl <;>
    first | assumption | exact absurd h (by decide)

theorem trio_evaluation (g : GrImplementation) (c2 s : ℝ) (k : Consts ℝ) (m : Models ℝ) (eps2 time : ℝ)
    (evolution dL acc : Bool) (ignore : Ignore) :
    ∃ a, calculateAdditionalEffects k m eps2 time evolution dL acc ignore (inertialToHeliocentric (trio g c2 s)) = some a := by
  have hh : HasHosts (inertialToHeliocentric (trio g c2 s)) := by
    constructor <;> simp [inertialToHeliocentric, trio]
  have hn := (additionalEffects_none (k := k) (m := m) (eps2 := eps2) (time := time) (evolution := evolution)
    (dL := dL) (acc := acc) (ignore := ignore) hh (by simp [inertialToHeliocentric, trio])).not
  refine Option.ne_none_iff_exists'.1 (hn.2 ?_)
  rintro ⟨j, hj⟩
  rw [helio_field Particle.momentOfInertia (fun _ => rfl) (fun _ _ => rfl), trio_inertia] at hj
  simp at hj

theorem andersonLoop_rest (k : Consts ℝ) (eps2 mu ri : ℝ) (fuel : Nat) :
    andersonLoop k eps2 mu ri Axes.zero fuel Axes.zero 0 (3 * mu / ri / k.c2) = (Axes.zero, 0, 3 * mu / ri / k.c2) := by
  have z : ∀ x : ℝ, (Axes.zero : Axes ℝ).sdiv x = Axes.zero := fun x => by simp [Axes.sdiv, Axes.zero]
  have z2 : (Axes.zero : Axes ℝ).norm2 = 0 := by simp [Axes.norm2, Axes.dot, Axes.zero]
  induction fuel with
  | zero => rfl
  | succ fuel ih =>
    unfold andersonLoop
    simp only [z, z2, lit_real, mul_zero, zero_add]
    push_cast
    rw [ih]
    split <;> rfl

/-- Anderson's correction for a body at rest without acceleration. -/
theorem andersonCorrection_rest (k : Consts ℝ) (eps2 mu : ℝ) (x : Axes ℝ) :
    andersonCorrection k eps2 mu x Axes.zero Axes.zero
      = (let r := Real.sqrt x.norm2
        (mu / r * mu / (r * r * r) / k.c2 * (1 - 3 * mu / r / k.c2)) • x) := by
  have z2 : (Axes.zero : Axes ℝ).norm2 = 0 := by simp [Axes.norm2, Axes.dot, Axes.zero]
  have e : (((1 / 2 : ℚ) : ℝ) * 0 + ((3 : ℚ) : ℝ) * mu / Real.sqrt x.norm2) / k.c2 = 3 * mu / Real.sqrt x.norm2 / k.c2 := by
    push_cast
    ring
  unfold andersonCorrection
  dsimp only
  simp only [z2, lit_real, FOps.sqrt]
  rw [e, andersonLoop_rest]
  dsimp only
  push_cast
  ext <;> simp [Axes.zero]

theorem others_three : others (0 : Fin 3) = [1, 2] := by decide

/-- What Anderson's relativity gives for the bodies of `trio`. -/
theorem anderson_trio (k : Consts ℝ) (hc : k.c2 ≠ 0) (eps2 s : ℝ) (hs : s = 1 ∨ s = -1) (P : Fin 3 → Particle ℝ)
    (h : ∀ i, (P i).mass = ((trio .anderson1975 k.c2 s).particles i).mass
      ∧ (P i).massG = ((trio .anderson1975 k.c2 s).particles i).massG
      ∧ (P i).inertialPosition = ((trio .anderson1975 k.c2 s).particles i).inertialPosition
      ∧ (P i).inertialVelocity = ((trio .anderson1975 k.c2 s).particles i).inertialVelocity
      ∧ (P i).inertialAcceleration = ((trio .anderson1975 k.c2 s).particles i).inertialAcceleration
      ∧ (P i).gr.effect = ((trio .anderson1975 k.c2 s).particles i).gr.effect) :
    (anderson k eps2 .none 0 P 1).gr.acceleration.x = - (4 / 3 + 135 / 1024) * k.c2 * s
      ∧ (anderson k eps2 .none 0 P 2).gr.acceleration.x = 405 / 1024 * k.c2 * s := by
  obtain ⟨a0, b0, c0, d0, e0, f0⟩ := h 0
  obtain ⟨a1, b1, c1, d1, e1, f1⟩ := h 1
  obtain ⟨a2, b2, c2, d2, e2, f2⟩ := h 2
  simp only [trio, if_true, one_ne_zero, if_false, show ((2 : Fin 3) = 0) = False by simp, show ((2 : Fin 3) = 1) = False by simp]
    at a0 b0 c0 d0 e0 f0 a1 b1 c1 d1 e1 f1 a2 b2 c2 d2 e2 f2
  have o1 : (P 1).gr.effect.isOrbiting = true := by rw [f1]; rfl
  have o2 : (P 2).gr.effect.isOrbiting = true := by rw [f2]; rfl
  have newton : newtonianAccelerations k .none 0 P = fun i => (P i).inertialAcceleration := rfl
  have jac : (toJacobi 0 P (fun i => (P i).inertialAcceleration)).eta = 4
      ∧ (toJacobi 0 P (fun i => (P i).inertialAcceleration)).position 1 = ⟨s, 0, 0⟩
      ∧ (toJacobi 0 P (fun i => (P i).inertialAcceleration)).position 2 = ⟨-(4 / 3) * s, 0, 0⟩
      ∧ (toJacobi 0 P (fun i => (P i).inertialAcceleration)).velocity 1 = Axes.zero
      ∧ (toJacobi 0 P (fun i => (P i).inertialAcceleration)).velocity 2 = Axes.zero
      ∧ (toJacobi 0 P (fun i => (P i).inertialAcceleration)).acceleration 1 = Axes.zero
      ∧ (toJacobi 0 P (fun i => (P i).inertialAcceleration)).acceleration 2 = Axes.zero := by
    unfold toJacobi
    rw [others_three]
    simp only [List.foldl_cons, List.foldl_nil, o1, o2, if_true, a0, a1, a2, c0, c1, c2, d0, d1, d2, e0, e1, e2,
      show ((1 : Fin 3) = 2) = False by simp, if_false]
    refine ⟨by norm_num, ?_, ?_, ?_, ?_, ?_, ?_⟩ <;> ext <;> simp [smulRight, blank, Axes.zero] <;> ring
  obtain ⟨j0, j1, j2, j3, j4, j5, j6⟩ := jac
  unfold anderson
  dsimp only
  rw [newton, j0]
  unfold fromJacobi
  rw [others_three]
  simp only [List.reverse_cons, List.reverse_nil, List.nil_append, List.cons_append, List.foldl_cons, List.foldl_nil, o1, o2,
    if_true, j1, j2, j3, j4, j5, j6, andersonCorrection_rest, mapHost, one_ne_zero, if_false,
    show ((2 : Fin 3) = 0) = False by simp, show ((2 : Fin 3) = 1) = False by simp, a1, a2, b0]
  have s2 : s * s = 1 := by rcases hs with rfl | rfl <;> norm_num
  have n1 : Real.sqrt (Axes.norm2 (⟨s, 0, 0⟩ : Axes ℝ)) = 1 := by
    rw [show Axes.norm2 (⟨s, 0, 0⟩ : Axes ℝ) = 1 by simp [Axes.norm2, Axes.dot, s2], Real.sqrt_one]
  have n2 : Real.sqrt (Axes.norm2 (⟨-(4 / 3) * s, 0, 0⟩ : Axes ℝ)) = 4 / 3 := by
    rw [show Axes.norm2 (⟨-(4 / 3) * s, 0, 0⟩ : Axes ℝ) = (4 / 3) ^ 2 by
      simp [Axes.norm2, Axes.dot]; linear_combination (16 / 9) * s2]
    exact Real.sqrt_sq (by norm_num)
  rw [n1, n2]
  constructor
  · simp [smulRight, Axes.zero]
    field_simp
    ring
  · simp [smulRight, Axes.zero]
    field_simp
    ring

theorem trio_ok (g : GrImplementation) (c2 s : ℝ) : GrHostOk (trio g c2 s) := by
  constructor <;> simp [trio]

theorem trio_numbered (g : GrImplementation) (c2 s : ℝ) : Numbered (trio g c2 s) where
  ids i := by
    match i with
    | 0 => rfl
    | 1 => rfl
    | 2 => rfl
  few := by decide

/-- **C104 is violated by Anderson's relativity**: the acceleration of a body depends on whether it is listed before or
after the other one. -/
theorem C104_violated (k : Consts ℝ) (hc : k.c2 ≠ 0) (m : Models ℝ) (eps2 time : ℝ) (evolution dL : Bool) :
    ∃ (u v a b : Universe ℝ 3), Relisted (Equiv.swap (1 : Fin 3) 2) u v ∧ Numbered u
      ∧ calculateAdditionalEffects k m eps2 time evolution dL true .none (inertialToHeliocentric u) = some a
      ∧ calculateAdditionalEffects k m eps2 time evolution dL true .none (inertialToHeliocentric v) = some b
      ∧ (b.particles 1).gr.acceleration ≠ (a.particles (Equiv.swap (1 : Fin 3) 2 1)).gr.acceleration := by
  obtain ⟨a, ha⟩ := trio_evaluation .anderson1975 k.c2 1 k m eps2 time evolution dL true .none
  obtain ⟨b, hb⟩ := trio_evaluation .anderson1975 k.c2 (-1) k m eps2 time evolution dL true .none
  refine ⟨_, _, a, b, trio_relisted .anderson1975 k.c2 1, trio_numbered .anderson1975 k.c2 1, ha, hb, ?_⟩
  have key : ∀ (s : ℝ) (w : Universe ℝ 3), s = 1 ∨ s = -1 →
      calculateAdditionalEffects k m eps2 time evolution dL true .none (inertialToHeliocentric (trio .anderson1975 k.c2 s))
        = some w → (w.particles 1).gr.acceleration.x = - (4 / 3 + 135 / 1024) * k.c2 * s
        ∧ (w.particles 2).gr.acceleration.x = 405 / 1024 * k.c2 * s := by
    intro s w hs hw
    obtain ⟨P, pa, -, -, pd, -⟩ := gr_evaluation (h := 0) (trio_ok .anderson1975 k.c2 s) rfl rfl (Or.inr (Or.inl rfl))
      (by simp [trio, blank]) hw
    have e : generalRelativity k eps2 .none 0 P = anderson k eps2 .none 0 P := by
      unfold generalRelativity
      rw [(pa 0).2.2.2.2.2.1]
      rfl
    rw [pd, pd, e]
    exact anderson_trio k hc eps2 s hs P fun i => ⟨(pa i).1, (pa i).2.1, (pa i).2.2.1, (pa i).2.2.2.1, (pa i).2.2.2.2.1,
      (pa i).2.2.2.2.2.1⟩
  rw [Equiv.swap_apply_left]
  intro e
  have e := congrArg Axes.x e
  rw [(key 1 a (Or.inl rfl) ha).2, (key (-1) b (Or.inr rfl) hb).1] at e
  apply hc
  linarith

/-- **C104 is violated by the search for ejected bodies**: with the star as the first body the run stops because
of the body that is too far away, with the star as the last body it does not. -/
theorem C104_violated_stop (k : Consts ℝ) :
    ∃ u v : Universe ℝ 3, Relisted (Equiv.swap (0 : Fin 3) 2) u v ∧ Numbered u
      ∧ universeGravity k (fun _ _ => 0) .none u = none ∧ ∃ w, universeGravity k (fun _ _ => 0) .none v = some w := by
  let u := trio .kidder1995 1 1000
  let v : Universe ℝ 3 := { u with
    particles := fun i => listedAt i (u.particles (Equiv.swap (0 : Fin 3) 2 i))
    hosts := ⟨2, none, none, some 2, none, true, false, false, true, false⟩ }
  have s0 : Equiv.swap (0 : Fin 3) 2 0 = 2 := by decide
  have s1 : Equiv.swap (0 : Fin 3) 2 1 = 1 := by decide
  have s2 : Equiv.swap (0 : Fin 3) 2 2 = 0 := by decide
  refine ⟨u, v, ⟨fun _ => rfl, fun _ => rfl, rfl, rfl, s2, rfl, rfl, congrArg some s2, rfl, ⟨rfl, rfl, rfl, rfl, rfl⟩,
    fun _ _ => rfl⟩, trio_numbered _ _ _, ?_, ?_⟩
  · unfold universeGravity
    cases h : Gravity.gravity k.g (fun i => bodyOf (u.particles i)) (fun _ _ => 0) .none u.hosts.mostMassive with
    | error _ => rfl
    | ok a =>
      exfalso
      have := (Gravity.C45_partial_goes_on_iff _ _ _ _ _ Gravity.maxDistance2_pos).1 ⟨a, h⟩ 0 1 (by decide)
      refine this.2.2 ⟨rfl, ?_⟩
      simp [Gravity.Far, Gravity.distance2, Gravity.maxDistance2, bodyOf, u, trio, blank, Axes.norm2, Axes.dot]
      norm_num
  · obtain ⟨a, h⟩ := Gravity.C45_violated k.g (fun i => bodyOf (v.particles i)) (fun _ _ => 0) .none v.hosts.mostMassive rfl
      (fun i j hij => by
        have d : 0 < Gravity.dist (bodyOf (v.particles i)) (bodyOf (v.particles j)) ^ 2 := by
          rw [← Gravity.distance2_eq]
          revert i j
          apply pairs_three
          · simp [Gravity.distance2, bodyOf, v, u, s0, s1, listedAt, trio, blank, Axes.norm2, Axes.dot]; norm_num
          · simp [Gravity.distance2, bodyOf, v, u, s0, s2, listedAt, trio, blank, Axes.norm2, Axes.dot]
          · simp [Gravity.distance2, bodyOf, v, u, s1, s2, listedAt, trio, blank, Axes.norm2, Axes.dot]
        have rad : ∀ i, (bodyOf (v.particles i)).radius = 0 := by
          intro i
          exact trio_radius _ _ _ _
        rw [rad, rad]
        norm_num
        exact d)
    refine ⟨{ v with particles := fun i => { v.particles i with inertialAcceleration := a i } }, ?_⟩
    unfold universeGravity
    rw [h]

/-! ## The hypotheses can be met -/

/-- The creep tides as modelled, with any Kaula tides that read no numbers and no tidal accelerations. -/
theorem creep_unnumbered {n : Nat} {m : Models ℝ} {k : Consts ℝ} {fuel : Nat} [FTan ℝ]
    (kt : ∀ (a b : Fin n) p q c, m.tides.kaulaTorque (listedAt a p) (listedAt b q) c = m.tides.kaulaTorque p q c)
    (kf : ∀ (a b : Fin n) p q c, m.tides.kaulaForce (listedAt a p) (listedAt b q) c = m.tides.kaulaForce p q c)
    (ka : ∀ (a b : Axes ℝ) p q c, m.tides.kaulaForce (withTidal a p) (withTidal b q) c = m.tides.kaulaForce p q c) :
    Unnumbered (n := n) (withCreep k fuel m) where
  creepTorque _ _ _ _ _ := rfl
  creepForce _ _ _ _ := rfl
  kaulaTorque := kt
  kaulaForce := kf
  kaulaAlone := ka
  flatteningTorque _ _ _ _ _ := rfl
  flatteningForce _ _ _ _ := rfl
  tideShape _ _ _ _ := rfl
  flatteningShape _ _ _ _ := rfl

theorem trio_unordered {g : GrImplementation} (hg : g ≠ .anderson1975) (c2 s : ℝ) : Unordered (trio g c2 s) where
  gr i := by
    match i with
    | 0 => intro e; exact hg (by injection e)
    | 1 => intro e; cases e
    | 2 => intro e; cases e

/-- A step for the star and its two bodies. -/
theorem trio_step (g : GrImplementation) (c2 : ℝ) (k : Consts ℝ) (m : Models ℝ) :
    ∃ u', leapfrogStep k m 0 (fun _ _ => 0) 1 (1 / 2) 0 (trio g c2 1) = some u' := by
  have defined : ∀ (v : Universe ℝ 3) (t : ℝ) (acc : Bool), v.consider = ⟨false, false, true, false, false, false⟩ →
      v.hosts = ⟨0, none, none, some 0, none, true, false, false, true, false⟩ →
      (∀ j, (v.particles j).momentOfInertia = 1) →
      ∃ w, calculateAdditionalEffects k m 0 t true true acc .none (inertialToHeliocentric v) = some w := by
    intro v t acc hc hh hI
    have hh' : HasHosts (inertialToHeliocentric v) := by
      constructor <;> simp [inertialToHeliocentric, hc, hh]
    have hn := (additionalEffects_none (k := k) (m := m) (eps2 := 0) (time := t) (evolution := true)
      (dL := true) (acc := acc) (ignore := .none) hh' (by simp [inertialToHeliocentric, hc])).not
    refine Option.ne_none_iff_exists'.1 (hn.2 ?_)
    rintro ⟨j, hj⟩
    rw [helio_field Particle.momentOfInertia (fun _ => rfl) (fun _ _ => rfl), hI] at hj
    simp at hj
  obtain ⟨u1, h1⟩ := defined (trio g c2 1) 0 false rfl rfl (trio_inertia g c2 1)
  obtain ⟨c1, -, t1, f1, -, -⟩ := evaluation_totals h1
  have I1 : ∀ j, (u1.particles j).momentOfInertia = 1 := fun j => by
    rw [(evaluation_radius k m (by simp [inertialToHeliocentric, trio]) h1 j).2.1,
      helio_field Particle.momentOfInertia (fun _ => rfl) (fun _ _ => rfl), trio_inertia]
  have X : ∀ j, (u1.particles j).inertialPosition + (1 / 2 : ℝ) • (u1.particles j).inertialVelocity
      = ((trio g c2 1).particles j).inertialPosition := fun j => by
    rw [fixed_field Particle.inertialPosition (fun _ => rfl) f1,
      fixed_field Particle.inertialVelocity (fun _ => rfl) f1,
      helio_field Particle.inertialPosition (fun _ => rfl) (fun _ _ => rfl),
      helio_field Particle.inertialVelocity (fun _ => rfl) (fun _ _ => rfl)]
    rw [trio_velocity, smul_zero, add_zero]
  have R : ∀ j, (u1.particles j).radius = 0 := fun j => by
    rw [(evaluation_radius k m (by simp [inertialToHeliocentric, trio]) h1 j).1,
      helio_field Particle.radius (fun _ => rfl) (fun _ _ => rfl), trio_radius]
  obtain ⟨a, ha⟩ : ∃ a, Gravity.gravity k.g (fun i => bodyOf ((drift (1 / 2) u1).particles i)) (fun _ _ => 0)
      .none u1.hosts.mostMassive = .ok a := by
    rw [Gravity.C45_partial_goes_on_iff _ _ _ _ _ Gravity.maxDistance2_pos]
    intro i j hij
    have d : Gravity.distance2 (bodyOf ((drift (1 / 2) u1).particles i)) (bodyOf ((drift (1 / 2) u1).particles j)) = 1
        ∨ Gravity.distance2 (bodyOf ((drift (1 / 2) u1).particles i)) (bodyOf ((drift (1 / 2) u1).particles j)) = 4 := by
      have e : Gravity.distance2 (bodyOf ((drift (1 / 2) u1).particles i)) (bodyOf ((drift (1 / 2) u1).particles j))
          = Axes.norm2 (((trio g c2 1).particles i).inertialPosition - ((trio g c2 1).particles j).inertialPosition) := by
        rw [← X, ← X]
        rfl
      rw [e]
      clear e
      revert i j
      apply pairs_three
      · left; simp [trio, blank, Axes.norm2, Axes.dot]
      · left; simp [trio, blank, Axes.norm2, Axes.dot]
      · right; simp [trio, blank, Axes.norm2, Axes.dot]; norm_num
    have r : ∀ j, (bodyOf ((drift (1 / 2) u1).particles j)).radius = 0 := R
    refine ⟨?_, ?_, ?_⟩
    · unfold Gravity.InsideRoche
      rcases d with d | d <;> rw [d] <;> simp
    · unfold Gravity.Overlap
      rw [r, r]
      rcases d with d | d <;> rw [d] <;> simp
    · rintro ⟨-, hf⟩
      unfold Gravity.Far at hf
      rcases d with d | d <;> rw [d] at hf <;> simp [Gravity.maxDistance2] at hf
      norm_num at hf
  obtain ⟨u3, h3⟩ := defined { drift (1 / 2) u1 with
    particles := fun i => { (drift (1 / 2) u1).particles i with inertialAcceleration := a i } } (0 + 1 / 2) true
    (c1.trans rfl) (t1.trans rfl) I1
  refine ⟨kickDrift 1 (1 / 2) { u3 with particles := fun i => applyAccelerations (u3.particles i) }, ?_⟩
  unfold leapfrogStep universeGravity
  rw [h1]
  dsimp only
  have ha' : Gravity.gravity k.g (fun i => bodyOf ((drift (1 / 2) u1).particles i)) (fun _ _ => 0)
      .none (drift (1 / 2) u1).hosts.mostMassive = .ok a := ha
  rw [ha']
  dsimp only
  rw [h3]

/-- A step for the star and its two bodies in two orders, with Newhall's relativity. -/
example (k : Consts ℝ) (m : Models ℝ) (hm : Unnumbered (n := 3) m) :
    ∃ a b, leapfrogRun k m 0 (fun _ _ => 0) 1 (1 / 2) [(0, false)] (trio .newhall1983 1 1) = some a
      ∧ leapfrogRun k m 0 (fun _ _ => 0) 1 (1 / 2) [(0, false)] (trio .newhall1983 1 (-1)) = some b
      ∧ Relisted (Equiv.swap (1 : Fin 3) 2) a b := by
  obtain ⟨a, ha⟩ := trio_step .newhall1983 1 k m
  have r := C104_run_first_partial (k := k) (eps2 := 0) (dt := 1) (half := 1 / 2) (roche := fun _ _ => 0)
    (roche' := fun _ _ => 0) hm [(0, false)] (trio_relisted .newhall1983 1 1) (trio_numbered _ _ _)
    (trio_unordered (by decide) _ _) (fun _ _ => rfl) (fun _ _ => rfl) rfl rfl
  have e : leapfrogRun k m 0 (fun _ _ => 0) 1 (1 / 2) [(0, false)] (trio .newhall1983 1 1) = some a := by
    simp only [leapfrogRun, leapfrogIterate, Bool.false_eq_true, if_false, ha, Option.bind_some]
  rw [e] at r
  cases h : leapfrogRun k m 0 (fun _ _ => 0) 1 (1 / 2) [(0, false)] (trio .newhall1983 1 (-1)) with
  | none => rw [h] at r; cases r
  | some b =>
    rw [h] at r
    refine ⟨a, b, e, rfl, ?_⟩
    cases r
    assumption

/-- A star and a planet in two orders. -/
example : ∃ u v, newUniverse askAll noEvolver (starAndPlanet 0 ⟨1, 2, 3⟩ ⟨0, 1, 0⟩) = some u
    ∧ newUniverse askAll noEvolver (fun i => starAndPlanet 0 ⟨1, 2, 3⟩ ⟨0, 1, 0⟩ (Equiv.swap (0 : Fin 2) 1 i)) = some v
    ∧ Relisted (Equiv.swap (0 : Fin 2) 1) u v := by
  obtain ⟨u, hu, -⟩ := starAndPlanet_defined 0 ⟨1, 2, 3⟩ ⟨0, 1, 0⟩
  have r := C104_new (Equiv.swap (0 : Fin 2) 1) askAll noEvolver (p0 := starAndPlanet 0 ⟨1, 2, 3⟩ ⟨0, 1, 0⟩)
    (fun i => by by_cases hi : i = 0 <;> simp [starAndPlanet, hi]) (h := 0)
    (fun j hj => by simp [starAndPlanet, hj])
  rw [hu] at r
  cases h : newUniverse askAll (fun i => noEvolver (Equiv.swap (0 : Fin 2) 1 i))
      (fun i => starAndPlanet 0 ⟨1, 2, 3⟩ ⟨0, 1, 0⟩ (Equiv.swap (0 : Fin 2) 1 i)) with
  | none => rw [h] at r; cases r
  | some v =>
    rw [h] at r
    refine ⟨u, v, hu, h, ?_⟩
    cases r
    assumption

/-- Models that meet the hypothesis: forces along the line between the bodies. -/
example : Unnumbered (n := 3) ⟨⟨fun _ _ _ => 0, fun p q => p.mass • q.inertialPosition, fun p _ _ => p.spin,
    fun p q _ => p.mass • (q.inertialPosition - p.inertialPosition)⟩, ⟨fun _ _ _ => 0, fun p _ => p.inertialPosition⟩,
    fun p _ => p.spin, fun _ q => q.spin⟩ :=
  ⟨fun _ _ _ _ _ => rfl, fun _ _ _ _ => rfl, fun _ _ _ _ _ => rfl, fun _ _ _ _ _ => rfl, fun _ _ _ _ _ => rfl,
    fun _ _ _ _ _ => rfl, fun _ _ _ _ => rfl, fun _ _ _ _ => rfl, fun _ _ _ _ => rfl⟩

end Posidonius.Univ
