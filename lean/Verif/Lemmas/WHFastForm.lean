import Mathlib.Data.List.OfFn
import Mathlib.Algebra.BigOperators.Fin
import Verif.Spec.WHFastReverse
import Verif.Lemmas.WHFastSplit

/-! The steps of WHFast in heliocentric coordinates, with the planets numbered. -/

namespace Posidonius.WHFast
open Posidonius Gravity

variable {n : ℕ} {b : Bool} {G m0 : ℝ} {m : Fin n → ℝ}

/-- Velocities are stretched in WHDS coordinates. -/
noncomputable def stretch (b : Bool) (m0 mi : ℝ) : ℝ := if b then (m0 + mi) / m0 else 1

/-- What a planet adds to the jump. -/
noncomputable def share (b : Bool) (m0 mi : ℝ) : ℝ := if b then mi / (m0 + mi) else mi / m0

/-- What a planet does not feel of its own share. -/
noncomputable def own (b : Bool) (m0 mi : ℝ) : ℝ := if b then mi / (m0 + mi) else 0

/-- The mass that attracts a planet in its Kepler motion. -/
noncomputable def pulling (b : Bool) (m0 mi : ℝ) : ℝ := if b then m0 + mi else m0

noncomputable def altList (G : ℝ) (m : Fin n → ℝ) (q v : Fin n → Axes ℝ) : List (Alt ℝ) :=
  List.ofFn fun i => ⟨m i, G * m i, q i, v i⟩

noncomputable def bodyList (G : ℝ) (m : Fin n → ℝ) (x v a : Fin n → Axes ℝ) : List (Body ℝ) :=
  List.ofFn fun i => ⟨m i, G * m i, x i, v i, a i⟩

/-- A system with the given masses. -/
structure Fits (G m0 : ℝ) (m : Fin n → ℝ) (u : Sys ℝ) : Prop where
  mass : u.star.mass = m0
  massG : u.star.massG = G * m0
  planets : ∃ x v a, u.planets = bodyList G m x v a

theorem zip_ofFn {α β : Type} (f : Fin n → α) (g : Fin n → β) :
    (List.ofFn f).zip (List.ofFn g) = List.ofFn fun i => (f i, g i) := by
  apply List.ext_getElem <;> simp

/-- The velocity of the jump. -/
noncomputable def jumping (b : Bool) (m0 : ℝ) (m : Fin n → ℝ) (v : Fin n → Axes ℝ) (i : Fin n) : Axes ℝ :=
  ∑ j, share b m0 (m j) • v j - own b m0 (m i) • v i

theorem planetsMove_form {K : Solver} {t : ℝ} {q v : Fin n → Axes ℝ} {l : List (Alt ℝ)}
    (h : PlanetsMove K (helioOfBool b) t (G * m0) (altList G m q v) l) :
    ∃ q' v', l = altList G m q' v' ∧ ∀ i, K (G * pulling b m0 (m i)) t (q i) (v i) = some (q' i, v' i) := by
  induction n generalizing l with
  | zero =>
    rw [altList, List.ofFn_zero] at h
    cases h
    exact ⟨q, v, by simp [altList], fun i => i.elim0⟩
  | succ n ih =>
    rw [altList, List.ofFn_succ] at h
    cases h with
    | @cons _ _ a _ l' h1 h2 h3 h4 =>
      have c1 : carried (helioOfBool b) (G * m0) ⟨m 0, G * m 0, q 0, v 0⟩ = G * m0 := by cases b <;> rfl
      have c2 : attracting (helioOfBool b) (G * m0) ⟨m 0, G * m 0, q 0, v 0⟩ = G * pulling b m0 (m 0) := by
        cases b
        · rfl
        · show G * m0 + G * m 0 = G * (m0 + m 0); ring
      rw [c1] at h4
      rw [c2] at h3
      obtain ⟨q', v', e, k⟩ := ih (m := fun i => m i.succ) (q := fun i => q i.succ) (v := fun i => v i.succ) h4
      refine ⟨Fin.cons a.position q', Fin.cons a.velocity v', ?_, ?_⟩
      · rw [altList, List.ofFn_succ, e, altList]
        obtain ⟨am, ag, ap, av⟩ := a
        dsimp only at h1 h2
        subst h1 h2
        rfl
      · intro i
        refine Fin.cases ?_ (fun i => ?_) i
        · exact h3
        · exact k i

theorem altList_sum (f : Alt ℝ × Body ℝ → Axes ℝ) (q v x w a : Fin n → Axes ℝ) :
    (((altList G m q v).zip (bodyList G m x w a)).map f).sum
      = ∑ i, f (⟨m i, G * m i, q i, v i⟩, ⟨m i, G * m i, x i, w i, a i⟩) := by
  rw [altList, bodyList, zip_ofFn, List.map_ofFn, List.sum_ofFn]
  rfl

theorem foldl_add_sum {ι : Type} (f : ι → Axes ℝ) (l : List ι) (s : Axes ℝ) :
    l.foldl (fun acc j => acc + f j) s = s + (l.map f).sum := by
  induction l generalizing s with
  | nil => simp
  | cons b l ih => simp only [List.foldl_cons, ih, List.map_cons, List.sum_cons]; abel

theorem jump_form {dt : ℝ} {u : Sys ℝ} (hu : Fits G m0 m u) (s : Centre ℝ) (q v : Fin n → Axes ℝ) :
    jumpStep (helioOfBool b) dt u ⟨s, altList G m q v⟩
      = ⟨s, altList G m (fun i => q i + dt • jumping b m0 m v i) v⟩ := by
  obtain ⟨x, w, a, hp⟩ := hu.planets
  have z : (Axes.zero : Axes ℝ) = 0 := rfl
  cases b
  · show democraticJump dt u _ = _
    simp only [democraticJump, hp, hu.mass, AltSys.mk.injEq, true_and]
    rw [foldl_add_sum (fun x : Alt ℝ × Body ℝ => x.2.mass • x.1.velocity), altList_sum, z, zero_add]
    simp only [altList, List.map_ofFn]
    congr 1
    funext i
    simp only [Function.comp, Alt.mk.injEq, true_and, and_true]
    congr 1
    simp only [jumping, share, own, Bool.false_eq_true, if_false, zero_smul, sub_zero, Axes.sdiv_eq_smul, Finset.smul_sum,
      smul_smul]
    refine Finset.sum_congr rfl fun j _ => ?_
    congr 1
    ring
  · show whdsJump dt u _ = _
    simp only [whdsJump, hp, hu.mass, AltSys.mk.injEq, true_and]
    rw [foldl_add_sum (fun x : Alt ℝ × Body ℝ => (x.2.mass • x.1.velocity).sdiv (m0 + x.2.mass)), altList_sum, z, zero_add]
    simp only [altList, bodyList, zip_ofFn, List.map_ofFn]
    congr 1
    funext i
    simp only [Function.comp, Alt.mk.injEq, true_and, and_true]
    congr 2
    simp only [jumping, share, own, if_true, Axes.sdiv_eq_smul, smul_smul]
    congr 1
    · refine Finset.sum_congr rfl fun j _ => ?_
      congr 1
      ring
    · congr 1
      ring

/-- The accelerations of the kick. -/
noncomputable def among (G : ℝ) (m : Fin n → ℝ) (q : Fin n → Axes ℝ) (i : Fin n) : Axes ℝ :=
  ∑ j, newton G (m j) (q i) (q j)

theorem among_shift (q : Fin n → Axes ℝ) (s : Axes ℝ) : among G m (fun i => q i + s) = among G m q := by
  funext i
  refine Finset.sum_congr rfl fun j _ => ?_
  unfold newton
  have : q j + s - (q i + s) = q j - q i := by abel
  rw [this]

/-- The star from the coordinates of the planets. -/
noncomputable def starPlace (m : Fin n → ℝ) (s : Centre ℝ) (q : Fin n → Axes ℝ) : Axes ℝ :=
  s.position - s.mass⁻¹ • ∑ j, m j • q j

noncomputable def starMotion (b : Bool) (m0 : ℝ) (m : Fin n → ℝ) (s : Centre ℝ) (v : Fin n → Axes ℝ) : Axes ℝ :=
  s.velocity - ∑ j, share b m0 (m j) • v j

theorem from_form {u : Sys ℝ} (hu : Fits G m0 m u) (s : Centre ℝ) (q v : Fin n → Axes ℝ) :
    (fromAlternative (helioOfBool b) ⟨s, altList G m q v⟩ u).star.position = starPlace m s q
    ∧ (fromAlternative (helioOfBool b) ⟨s, altList G m q v⟩ u).star.velocity = starMotion b m0 m s v
    ∧ (∃ a, (fromAlternative (helioOfBool b) ⟨s, altList G m q v⟩ u).planets = bodyList G m
        (fun i => q i + starPlace m s q) (fun i => (stretch b m0 (m i))⁻¹ • v i + s.velocity) a)
    ∧ Fits G m0 m (fromAlternative (helioOfBool b) ⟨s, altList G m q v⟩ u) := by
  obtain ⟨x, w, a, hp⟩ := hu.planets
  have e1 : starPosition ⟨s, altList G m q v⟩ u = starPlace m s q := by
    rw [starPosition_eq, hp, altList_sum]
    rfl
  have e2 : starVelocity b ⟨s, altList G m q v⟩ u = starMotion b m0 m s v := by
    unfold starVelocity starMotion
    simp only [scaled_eq, hu.mass, hp]
    rw [foldl_sub_eq_sum (fun x : Alt ℝ × Body ℝ => (if b then x.2.mass / (m0 + x.2.mass) else x.2.mass / m0) • x.1.velocity),
      altList_sum]
    rfl
  have e3 : (fromHelio b ⟨s, altList G m q v⟩ u).planets = bodyList G m
        (fun i => q i + starPlace m s q) (fun i => (stretch b m0 (m i))⁻¹ • v i + s.velocity) a := by
    unfold fromHelio
    dsimp only
    rw [e1, hp, altList, bodyList, zip_ofFn, List.map_ofFn, bodyList]
    congr 1
    funext i
    simp only [Function.comp, Body.moved, hu.mass, stretch]
    cases b
    · simp
    · simp [Axes.sdiv_eq_smul]
  have e4 : fromAlternative (helioOfBool b) ⟨s, altList G m q v⟩ u = fromHelio b ⟨s, altList G m q v⟩ u := by cases b <;> rfl
  rw [e4]
  refine ⟨e1, e2, ⟨a, e3⟩, hu.mass, hu.massG, _, _, _, e3⟩

theorem kicked_form {u : Sys ℝ} (hu : Fits G m0 m u) {x v a : Fin n → Axes ℝ} (hp : u.planets = bodyList G m x v a) :
    (kicked (helioOfBool b) G u).planets = bodyList G m x v (among G m x)
      ∧ Fits G m0 m (kicked (helioOfBool b) G u) := by
  have e : (kicked (helioOfBool b) G u).planets = bodyList G m x v (among G m x) := by
    rw [kicked_helio, hp]
    dsimp only
    conv_lhs => rw [bodyList]
    rw [List.map_ofFn, bodyList]
    congr 1
    funext i
    simp only [Function.comp, Body.accelerated, Body.mk.injEq, true_and, pull, List.map_ofFn, List.sum_ofFn, among]
  refine ⟨e, ?_, ?_, _, _, _, e⟩
  · rw [kicked_helio]; exact hu.mass
  · rw [kicked_helio]; exact hu.massG

theorem interaction_form {dt g : ℝ} {u : Sys ℝ} (hu : Fits G m0 m u) {x w a : Fin n → Axes ℝ}
    (hp : u.planets = bodyList G m x w a) (s : Centre ℝ) (q v : Fin n → Axes ℝ) :
    interactionStep (helioOfBool b) g dt u ⟨s, altList G m q v⟩
      = ⟨s, altList G m q fun i => v i + dt • stretch b m0 (m i) • a i⟩ := by
  cases b
  · show democraticInteraction dt u _ = _
    simp only [democraticInteraction, hp, altList, bodyList, zip_ofFn, List.map_ofFn, stretch,
      Bool.false_eq_true, if_false, one_smul]
    rfl
  · show whdsInteraction dt u _ = _
    simp only [whdsInteraction, hp, hu.mass, altList, bodyList, zip_ofFn, List.map_ofFn, stretch,
      if_true, Axes.sdiv_eq_smul, smul_smul]
    congr 2
    funext i
    simp only [Function.comp, Alt.mk.injEq, true_and]
    congr 2
    ring

theorem to_form {u : Sys ℝ} (hu : Fits G m0 m u) {x w a : Fin n → Axes ℝ} (hp : u.planets = bodyList G m x w a) :
    toAlternative (helioOfBool b) u = ⟨centre u, altList G m (fun i => x i - u.star.position)
      fun i => stretch b m0 (m i) • (w i - (centre u).velocity)⟩ := by
  have e4 : toAlternative (helioOfBool b) u = toHelio b u := by cases b <;> rfl
  rw [e4]
  unfold toHelio
  simp only [AltSys.mk.injEq, true_and]
  rw [hp, bodyList, List.map_ofFn, altList]
  congr 1
  funext i
  simp only [Function.comp, hu.mass, stretch, scaled_eq]
  cases b <;> simp

theorem Fits.massive {u : Sys ℝ} (hu : Fits G m0 m u) (h0 : 0 < m0) (hm : ∀ i, 0 < m i) : Massive u := by
  obtain ⟨x, w, a, hp⟩ := hu.planets
  refine ⟨by rw [hu.mass]; exact h0, fun p h => ?_⟩
  rw [hp, bodyList, List.mem_ofFn] at h
  obtain ⟨i, rfl⟩ := h
  exact hm i

theorem Fits.total {u : Sys ℝ} (hu : Fits G m0 m u) : u.mass = m0 + ∑ i, m i := by
  obtain ⟨x, w, a, hp⟩ := hu.planets
  rw [Sys.mass, hu.mass, totalMass, hp, bodyList, List.map_ofFn, List.sum_ofFn]
  rfl

theorem form_matches {u : Sys ℝ} (hu : Fits G m0 m u) {s : Centre ℝ} (hs : s.mass = m0 + ∑ i, m i) (q v : Fin n → Axes ℝ) :
    Matches ⟨s, altList G m q v⟩ u := by
  obtain ⟨x, w, a, hp⟩ := hu.planets
  refine ⟨?_, by rw [hu.total]; exact hs⟩
  unfold SameMasses
  rw [hp, List.forall₂_iff_get]
  refine ⟨by simp [altList, bodyList], fun i h1 h2 => ?_⟩
  simp [altList, bodyList]

/-- **A step of WHFast** in heliocentric coordinates. -/
theorem step_form_of (h0 : 0 < m0) (hm : ∀ i, 0 < m i) {K : Solver} {h : ℝ} {u u' : Sys ℝ} (hu : Fits G m0 m u) {s : Centre ℝ}
    (hs : s.mass = m0 + ∑ i, m i) {q v : Fin n → Axes ℝ} (ha : toAlternative (helioOfBool b) u = ⟨s, altList G m q v⟩)
    {gravity : Sys ℝ → Option (Sys ℝ)} (hg : ∀ v w, gravity v = some w → kicked (helioOfBool b) G v = w)
    (hstep : StepBy K (helioOfBool b) G h (h / 2) gravity u u') :
    ∃ q1 v1 q2 v2 q3 q4 v4 : Fin n → Axes ℝ, (∀ i, K (G * pulling b m0 (m i)) (h / 2) (q i) (v i) = some (q1 i, v1 i))
      ∧ (∀ i, q2 i = q1 i + (h / 2) • jumping b m0 m v1 i)
      ∧ (∀ i, v2 i = v1 i + h • stretch b m0 (m i) • among G m q2 i)
      ∧ (∀ i, q3 i = q2 i + (h / 2) • jumping b m0 m v2 i)
      ∧ (∀ i, K (G * pulling b m0 (m i)) (h / 2) (q3 i) (v2 i) = some (q4 i, v4 i))
      ∧ Fits G m0 m u' ∧ toAlternative (helioOfBool b) u'
        = ⟨⟨s.mass, s.position + h • s.velocity, s.velocity⟩, altList G m q4 v4⟩
      ∧ ∃ w x y a, gravity w ≠ none ∧ w.planets = bodyList G m (fun i => q2 i + x) y a := by
  obtain ⟨a1, a5, u2, ⟨k1, k2, k3, k4⟩, h2, ⟨l1, l2, l3, l4⟩, rfl⟩ := hstep
  rw [ha] at k1 k2 k3 k4
  rw [hu.massG] at k4
  obtain ⟨q1, v1, e1, f1⟩ := planetsMove_form k4
  obtain ⟨⟨am, ap, av⟩, al⟩ := a1
  dsimp only at k1 k2 k3 e1
  subst k1 k2 k3 e1
  rw [jump_form hu] at h2 l1 l2 l3 l4
  obtain ⟨-, -, ⟨a, g3⟩, g4⟩ := from_form (b := b) hu ⟨s.mass, s.position + (h / 2) • s.velocity, s.velocity⟩
    (fun i => q1 i + (h / 2) • jumping b m0 m v1 i) v1
  obtain ⟨p1, p2⟩ := kicked_form (b := b) g4 g3
  have apart := h2
  replace h2 := hg _ _ h2
  rw [h2] at p1 p2
  rw [among_shift] at p1
  rw [interaction_form p2 p1, jump_form p2] at l1 l2 l3 l4
  rw [p2.massG] at l4
  obtain ⟨q4, v4, e5, f5⟩ := planetsMove_form l4
  obtain ⟨⟨bm, bp, bv⟩, bl⟩ := a5
  dsimp only at l1 l2 l3 e5
  subst l1 l2 l3 e5
  have mt := form_matches p2 (s := ⟨s.mass, s.position + (h / 2) • s.velocity + (h / 2) • s.velocity, s.velocity⟩) hs q4 v4
  refine ⟨q1, v1, _, _, _, q4, v4, f1, fun i => rfl, fun i => rfl, fun i => rfl, f5, (from_form p2 _ _ _).2.2.2, ?_,
    _, _, _, a, by rw [apart]; simp, g3⟩
  rw [toAlternative_fromAlternative _ mt (p2.massive h0 hm)]
  congr 2
  module

theorem step_form (h0 : 0 < m0) (hm : ∀ i, 0 < m i) {K : Solver} {h : ℝ} {u u' : Sys ℝ} (hu : Fits G m0 m u) {s : Centre ℝ}
    (hs : s.mass = m0 + ∑ i, m i) {q v : Fin n → Axes ℝ} (ha : toAlternative (helioOfBool b) u = ⟨s, altList G m q v⟩)
    (hstep : StepBy K (helioOfBool b) G h (h / 2) (fun v => some (kicked (helioOfBool b) G v)) u u') :
    ∃ q1 v1 q2 v2 q3 q4 v4 : Fin n → Axes ℝ, (∀ i, K (G * pulling b m0 (m i)) (h / 2) (q i) (v i) = some (q1 i, v1 i))
      ∧ (∀ i, q2 i = q1 i + (h / 2) • jumping b m0 m v1 i)
      ∧ (∀ i, v2 i = v1 i + h • stretch b m0 (m i) • among G m q2 i)
      ∧ (∀ i, q3 i = q2 i + (h / 2) • jumping b m0 m v2 i)
      ∧ (∀ i, K (G * pulling b m0 (m i)) (h / 2) (q3 i) (v2 i) = some (q4 i, v4 i))
      ∧ Fits G m0 m u' ∧ toAlternative (helioOfBool b) u'
        = ⟨⟨s.mass, s.position + h • s.velocity, s.velocity⟩, altList G m q4 v4⟩ := by
  obtain ⟨q1, v1, q2, v2, q3, q4, v4, e1, e2, e3, e4, e5, e6, e7, -⟩ :=
    step_form_of h0 hm hu hs ha (fun _ _ h => Option.some.inj h) hstep
  exact ⟨q1, v1, q2, v2, q3, q4, v4, e1, e2, e3, e4, e5, e6, e7⟩

/-- The other way round: answers of the solver make a step. -/
theorem step_of_form (h0 : 0 < m0) (hm : ∀ i, 0 < m i) {K : Solver} {h : ℝ} {u : Sys ℝ} (hu : Fits G m0 m u) {s : Centre ℝ}
    (hs : s.mass = m0 + ∑ i, m i) {q v q1 v1 q2 v2 q3 q4 v4 : Fin n → Axes ℝ}
    (ha : toAlternative (helioOfBool b) u = ⟨s, altList G m q v⟩)
    (e1 : ∀ i, K (G * pulling b m0 (m i)) (h / 2) (q i) (v i) = some (q1 i, v1 i))
    (e2 : ∀ i, q2 i = q1 i + (h / 2) • jumping b m0 m v1 i)
    (e3 : ∀ i, v2 i = v1 i + h • stretch b m0 (m i) • among G m q2 i)
    (e4 : ∀ i, q3 i = q2 i + (h / 2) • jumping b m0 m v2 i)
    (e5 : ∀ i, K (G * pulling b m0 (m i)) (h / 2) (q3 i) (v2 i) = some (q4 i, v4 i)) {gravity : Sys ℝ → Option (Sys ℝ)}
    (hg : ∀ w x y a, w.planets = bodyList G m (fun i => q2 i + x) y a → gravity w = some (kicked (helioOfBool b) G w)) :
    ∃ u', StepBy K (helioOfBool b) G h (h / 2) gravity u u'
      ∧ Fits G m0 m u' ∧ toAlternative (helioOfBool b) u'
        = ⟨⟨s.mass, s.position + h • s.velocity, s.velocity⟩, altList G m q4 v4⟩ := by
  have move : ∀ {n : ℕ} {m : Fin n → ℝ} {t : ℝ} {q v q' v' : Fin n → Axes ℝ},
      (∀ i, K (G * pulling b m0 (m i)) t (q i) (v i) = some (q' i, v' i)) →
      PlanetsMove K (helioOfBool b) t (G * m0) (altList G m q v) (altList G m q' v') := by
    intro n
    induction n with
    | zero => intro m t q v q' v' _; simp only [altList, List.ofFn_zero]; exact .nil
    | succ n ih =>
      intro m t q v q' v' k
      rw [altList, List.ofFn_succ, altList, List.ofFn_succ]
      have c1 : carried (helioOfBool b) (G * m0) ⟨m 0, G * m 0, q 0, v 0⟩ = G * m0 := by cases b <;> rfl
      have c2 : attracting (helioOfBool b) (G * m0) ⟨m 0, G * m 0, q 0, v 0⟩ = G * pulling b m0 (m 0) := by
        cases b
        · rfl
        · show G * m0 + G * m 0 = G * (m0 + m 0); ring
      refine .cons rfl rfl (by rw [c2]; exact k 0) ?_
      rw [c1]
      exact ih fun i => k i.succ
  obtain rfl := funext e2
  obtain rfl := funext e3
  obtain rfl := funext e4
  obtain ⟨-, -, ⟨a, g3⟩, g4⟩ := from_form (b := b) hu ⟨s.mass, s.position + (h / 2) • s.velocity, s.velocity⟩
    (fun i => q1 i + (h / 2) • jumping b m0 m v1 i) v1
  obtain ⟨p1, p2⟩ := kicked_form (b := b) g4 g3
  rw [among_shift] at p1
  have mt := form_matches p2 (s := ⟨s.mass, s.position + (h / 2) • s.velocity + (h / 2) • s.velocity, s.velocity⟩) hs q4 v4
  refine ⟨_, ⟨⟨⟨s.mass, s.position + (h / 2) • s.velocity, s.velocity⟩, altList G m q1 v1⟩,
    ⟨⟨s.mass, s.position + (h / 2) • s.velocity + (h / 2) • s.velocity, s.velocity⟩, altList G m q4 v4⟩, _, ?_, hg _ _ _ _ (by rw [jump_form hu]; exact g3), ?_, rfl⟩,
    ?_, ?_⟩
  · rw [ha, KeplerMove, hu.massG]
    exact ⟨rfl, rfl, rfl, move e1⟩
  · rw [jump_form hu, interaction_form p2 p1, jump_form p2, KeplerMove, p2.massG]
    exact ⟨rfl, rfl, rfl, move e5⟩
  · rw [jump_form hu]
    exact (from_form p2 _ _ _).2.2.2
  · rw [jump_form hu, toAlternative_fromAlternative _ mt (p2.massive h0 hm)]
    congr 2
    module

end Posidonius.WHFast
