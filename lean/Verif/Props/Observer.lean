import Verif.Lemmas.ObserverUniverse
import Verif.Lemmas.ObserverNewhall
import Verif.Props.Totals
import Verif.Model.CreepUniverse

/-! # C102 The choice of the axes and C103 the choice of the origin and its motion -/

namespace Posidonius.Univ
open Gravity (Ignore)

section
variable {n : Nat} {k : Consts ℝ} {m : Models ℝ} {eps2 dt : ℝ} {roche : Fin n → Fin n → ℝ} {u : Universe ℝ n}

theorem leapfrogRun_seen {o : Observer} (half : ℝ) (l : List (ℝ × Bool)) (hf : ∀ t, Fits (o.later t) m .none u) :
    leapfrogRun k m eps2 roche dt half l (o.describes u)
      = (leapfrogRun k m eps2 roche dt half l u).map (o.later (l.length * (half + half))).describes := by
  induction l generalizing o u with
  | nil => simp [leapfrogRun, later_zero]
  | cons x l ih =>
    obtain ⟨time, record⟩ := x
    unfold leapfrogRun
    have h0 := hf 0
    rw [later_zero] at h0
    rw [leapfrogIterate_seen o k eps2 roche dt half time record h0 (hf half)]
    cases e : leapfrogIterate k m eps2 roche dt half time record u with
    | none => rfl
    | some u1 =>
      simp only [Option.map_some, Option.bind_some]
      rw [ih fun t => ((hf (half + half + t)).kept (kept_iterate e)).congr (later_later o _ _).symm]
      rw [later_later]
      congr 3
      push_cast [List.length_cons]
      ring

/-! ## C102 The axes -/

/-- Tides of the constant time lag model or none, flattening of spheroids or none, no relativity as given by Kidder or
Newhall et al., bodies with masses. -/
structure Isotropic (u : Universe ℝ n) : Prop where
  tides : ∀ i model, ((u.particles i).tides.effect = .central model ∨ (u.particles i).tides.effect = .orbiting model) →
    ∃ a b c, model = .constantTimeLag a b c
  flattening : ∀ i model, ((u.particles i).flattening.effect = .central model
    ∨ (u.particles i).flattening.effect = .orbiting model) → ∃ a, model = .oblateSpheroid a
  gr : u.consider.gr = true → ∀ i x, (u.particles i).gr.effect = .central x → x ≠ .kidder1995 ∧ x ≠ .newhall1983
  mass : ∀ i, 0 < (u.particles i).mass

theorem Isotropic.fits {o : Observer} (h : Isotropic u) (hd : u.consider.disk = true → o.turn.on ⟨0, 0, 1⟩ = ⟨0, 0, 1⟩) :
    Fits o m .none u where
  tides i model hi := by
    obtain ⟨a, b, c, rfl⟩ := h.tides i model hi
    exact ctl_fits o m a b c
  flattening i model hi := by
    obtain ⟨a, rfl⟩ := h.flattening i model hi
    exact oblate_fits o m a
  gr hc i _ := by
    exact ⟨fun e => absurd rfl (h.gr hc i _ e).1, fun _ => ⟨Or.inl rfl, h.mass⟩, fun e => absurd rfl (h.gr hc i _ e).2⟩
  disk hc := by
    have e := hd hc
    refine ⟨fun v => ?_, fun c => ?_⟩
    · have := o.turn.on_dot v ⟨0, 0, 1⟩
      rw [e] at this
      simpa [Axes.dot] using this
    · have := o.turn.on_smul c ⟨0, 0, 1⟩
      rw [e] at this
      rw [show (⟨0, 0, c⟩ : Axes ℝ) = c • ⟨0, 0, 1⟩ by ext <;> simp, ← this]

/-- Any observer, with other axes, another origin and a uniform motion, sees the same evaluation of the effects. With a
disk the third axis stays. Missing: Kidder's relativity, see `C102_violated`; Newhall's relativity, whose iteration compares
components; the creep and Kaula tides. -/
theorem C102_evaluation_partial (o : Observer) (h : Isotropic u)
    (hd : u.consider.disk = true → o.turn.on ⟨0, 0, 1⟩ = ⟨0, 0, 1⟩) (time : ℝ) (evolution dL acc : Bool) :
    calculateAdditionalEffects k m eps2 time evolution dL acc .none (inertialToHeliocentric (o.describes u))
      = (calculateAdditionalEffects k m eps2 time evolution dL acc .none (inertialToHeliocentric u)).map o.describes := by
  rw [inertialToHeliocentric_seen, evaluation_seen o k eps2 time evolution dL acc ((h.fits hd).kept (kept_heliocentric u))]

/-- The same for any number of iterations of LeapFrog, with or without records. -/
theorem C102_leapfrog_partial (o : Observer) (h : Isotropic u)
    (hd : u.consider.disk = true → o.turn.on ⟨0, 0, 1⟩ = ⟨0, 0, 1⟩) (l : List (ℝ × Bool)) :
    leapfrogRun k m eps2 roche dt (dt / 2) l (o.describes u)
      = (leapfrogRun k m eps2 roche dt (dt / 2) l u).map (o.later (l.length * dt)).describes := by
  rw [leapfrogRun_seen (dt / 2) l fun t => h.fits hd, add_halves]

/-- **C102 (partial)** Newhall's corrections in turned and shifted axes.  The test of convergence looks at components one by
one; it ends the iteration after one sweep unless a component lies strictly between zero and 1e-30, so this is excluded in both
frames. -/
theorem C102_newhall_partial (o : Observer) (hs : o.speed = 0) (h : Fin n) (p : Fin n → Particle ℝ)
    (hg : (p h).gr.effect = .central .newhall1983)
    (ht : ∀ i, NoTiny (newhallSweep k h p (newtonianAccelerations k .none h p) (fun _ => Axes.zero) i)
      ∧ NoTiny (o.turn.on (newhallSweep k h p (newtonianAccelerations k .none h p) (fun _ => Axes.zero) i))) :
    generalRelativity k eps2 .none h (fun i => o.sees (p i)) = fun i => o.sees (generalRelativity k eps2 .none h p i) := by
  unfold generalRelativity
  dsimp only
  rw [show (o.sees (p h)).gr.effect = (p h).gr.effect from rfl, hg]
  exact newhall_turned o hs k (Or.inl rfl) h p ht

/-- Each sweep, whatever the test of convergence decides. -/
theorem C102_newhall_sweep (o : Observer) (hs : o.speed = 0) (h : Fin n) (p : Fin n → Particle ℝ)
    (newton old : Fin n → Axes ℝ) (i : Fin n) :
    newhallSweep k h (fun i => o.sees (p i)) (fun j => o.turn.on (newton j)) (fun j => o.turn.on (old j)) i
      = o.turn.on (newhallSweep k h p newton old i) := newhallSweep_turned o p hs k h newton old i

example : NoTiny ⟨-3 / 10000, 0, 4 / 10000⟩ := by
  simp only [NoTiny, List.mem_cons, List.not_mem_nil, or_false, forall_eq_or_imp, forall_eq]
  norm_num

/-- Another right-handed frame: the axes in another order. -/
noncomputable def Turn.cyclic : Turn where
  a := ⟨0, 1, 0⟩
  b := ⟨0, 0, 1⟩
  unit_a := by simp [Axes.dot]
  unit_b := by simp [Axes.dot]
  orthogonal := by simp [Axes.dot]

theorem relativisticUniverse_isotropic (l0 l1 : Axes ℝ) : Isotropic (relativisticUniverse .anderson1975 l0 l1) where
  tides i model := by by_cases hi : i = 0 <;> simp [relativisticUniverse, hi, blank]
  flattening i model := by by_cases hi : i = 0 <;> simp [relativisticUniverse, hi, blank]
  gr _ i x := by by_cases hi : i = 0 <;> simp [relativisticUniverse, hi]; rintro rfl; simp
  mass i := by rw [relativisticUniverse_mass]; norm_num

example : ∃ v, leapfrogRun k m 0 (fun _ _ => 0) 1 (1 / 2) [(0, false)]
      ((Observer.mk .cyclic ⟨1, 2, 3⟩ ⟨4, 5, 6⟩).describes (relativisticUniverse .anderson1975 ⟨1, 0, 1⟩ ⟨0, 0, 1⟩))
    = some ((Observer.mk .cyclic ⟨5, 7, 9⟩ ⟨4, 5, 6⟩).describes v)
    ∧ leapfrogRun k m 0 (fun _ _ => 0) 1 (1 / 2) [(0, false)] (relativisticUniverse .anderson1975 ⟨1, 0, 1⟩ ⟨0, 0, 1⟩)
      = some v := by
  obtain ⟨v, hv⟩ := relativisticUniverse_step (k := k) (m := m) .anderson1975 ⟨1, 0, 1⟩ ⟨0, 0, 1⟩
  have e : leapfrogRun k m 0 (fun _ _ => 0) 1 (1 / 2) [(0, false)] (relativisticUniverse .anderson1975 ⟨1, 0, 1⟩ ⟨0, 0, 1⟩)
      = some v := by
    simp only [leapfrogRun, leapfrogIterate, Bool.false_eq_true, if_false, hv, Option.bind_some]
  refine ⟨v, ?_, e⟩
  rw [C102_leapfrog_partial _ (relativisticUniverse_isotropic _ _) (fun h => by cases h), e, Option.map_some]
  congr 2
  unfold Observer.later
  dsimp only
  congr 1
  ext <;> simp <;> norm_num

/-- Terms of Kidder's spin-orbit acceleration, as the code computes them: the components of the normal, of
the orbital angular momentum and of the spins are multiplied with each other. -/
noncomputable def componentTerm (c : ℝ) (mh mi : ℝ) (sh si r v : Axes ℝ) : Axes ℝ :=
  let normal := (Real.sqrt r.norm2)⁻¹ • r
  let l := normal.cross v
  let s := (2 : ℝ) • (sh + si) + (mh - mi) • (mi⁻¹ • si - mh⁻¹ • sh)
  (6 * c) • ⟨normal.x * (l.x * s.x), normal.y * (l.y * s.y), normal.z * (l.z * s.z)⟩

/-- The other terms of the spin-orbit acceleration; `w` is the radial velocity. -/
noncomputable def spinTerm (c : ℝ) (mh mi : ℝ) (sh si r v : Axes ℝ) (w : ℝ) : Axes ℝ :=
  let normal := (Real.sqrt r.norm2)⁻¹ • r
  let s := (mh - mi) • (mi⁻¹ • si - mh⁻¹ • sh)
  c • ((3 * w) • normal.cross ((3 : ℝ) • (sh + si) + s) - v.cross ((7 : ℝ) • (sh + si) + (3 : ℝ) • s))

theorem evaluation_rotation {o : Observer} {time : ℝ} {evolution dL acc : Bool} {ignore : Ignore} {a b : Universe ℝ n}
    (ha : calculateAdditionalEffects k m eps2 time evolution dL acc ignore (inertialToHeliocentric u) = some a)
    (hb : calculateAdditionalEffects k m eps2 time evolution dL acc ignore (inertialToHeliocentric (o.describes u)) = some b)
    (cg : u.consider.gr = true) {h : Fin n} (hh : u.hosts.gr = some h) (hacc : acc = true) (i : Fin n) :
    (b.particles i).spin = o.turn.on (a.particles i).spin
      ∧ (b.particles i).momentOfInertia = (a.particles i).momentOfInertia := by
  subst hacc
  rw [inertialToHeliocentric_seen] at hb
  unfold calculateAdditionalEffects at ha hb
  rw [initializeAll_seen] at hb
  cases e1 : initializeAll dL true (inertialToHeliocentric u) with
  | none => rw [e1] at ha; cases ha
  | some u1 =>
    rw [e1] at ha hb
    simp only [Option.map_some] at ha hb
    rw [calculateSpinAndEvolving_seen] at hb
    obtain ⟨c1, -, d1, -⟩ := initializeAll_totals e1
    cases e2 : calculateSpinAndEvolving k time evolution u1 with
    | none => rw [e2] at ha; cases ha
    | some u2 =>
      rw [e2] at ha hb
      simp only [Option.map_some] at ha hb
      obtain ⟨-, c2, -, d2, -⟩ := calculateSpinAndEvolving_step e2
      have g2 : u2.consider.gr = true := by rw [c2, c1]; exact cg
      have t2 : u2.hosts.gr = some h := by rw [d2, d1]; exact hh
      obtain ⟨-, -, -, x, -⟩ := effects_gr g2 t2 ha
      obtain ⟨-, -, -, y, -⟩ := effects_gr (u := o.describes u2) g2 t2 hb
      have x1 := congrArg Particle.spin (x i)
      have y1 := congrArg Particle.spin (y i)
      have x2 := congrArg Particle.momentOfInertia (x i)
      have y2 := congrArg Particle.momentOfInertia (y i)
      have x1 : (a.particles i).spin = (u2.particles i).spin := x1
      have y1 : (b.particles i).spin = o.turn.on (u2.particles i).spin := y1
      have x2 : (a.particles i).momentOfInertia = (u2.particles i).momentOfInertia := x2
      have y2 : (b.particles i).momentOfInertia = (u2.particles i).momentOfInertia := y2
      exact ⟨by rw [x1, y1], by rw [x2, y2]⟩

/-- Kidder's relativity for another observer: the acceleration of a companion is the rotated one except for these terms. -/
theorem C102_kidder_partial {o : Observer} {time : ℝ} {evolution dL : Bool} {ignore : Ignore} {a b : Universe ℝ n} {h : Fin n}
    (hok : GrHostOk u) (hh : u.hosts.gr = some h) (cg : u.consider.gr = true)
    (hg : (u.particles h).gr.effect = .central .kidder1995)
    (hv : (u.particles u.hosts.mostMassive).heliocentricVelocity = 0)
    (hmass : ∀ i, 0 < (u.particles i).mass)
    (ha : calculateAdditionalEffects k m eps2 time evolution dL true ignore (inertialToHeliocentric u) = some a)
    (hb : calculateAdditionalEffects k m eps2 time evolution dL true ignore (inertialToHeliocentric (o.describes u)) = some b)
    (i : Fin n) (hi : i ≠ h) (ho : (u.particles i).gr.effect.isOrbiting = true) :
    let r := (u.particles i).inertialPosition - (u.particles h).inertialPosition
    let v := (u.particles i).inertialVelocity - (u.particles h).inertialVelocity
    let s := fun j => (a.particles j).momentOfInertia • (a.particles j).spin
    let R := o.turn.on
    (b.particles i).gr.acceleration = R (a.particles i).gr.acceleration
      + (componentTerm (k.g / k.c2) (u.particles h).mass (u.particles i).mass (R (s h)) (R (s i)) (R r) (R v)
        - R (componentTerm (k.g / k.c2) (u.particles h).mass (u.particles i).mass (s h) (s i) r v)) := by
  intro r v s R
  have hv' : ((o.describes u).particles (o.describes u).hosts.mostMassive).heliocentricVelocity = 0 := by
    show o.turn.on (u.particles u.hosts.mostMassive).heliocentricVelocity = 0
    rw [hv, Turn.on_zero]
  obtain ⟨P, pa, pb, -, pd, -⟩ := gr_evaluation hok hh cg (Or.inl hg) hv ha
  obtain ⟨Q, qa, qb, -, qd, -⟩ := gr_evaluation (u0 := o.describes u) ⟨hok.gr, hok.allGr⟩ hh cg (Or.inl hg) hv' hb
  have rot := evaluation_rotation ha hb cg hh rfl
  have eP : generalRelativity k eps2 ignore h P = kidder k h P := by
    unfold generalRelativity
    rw [(pa h).2.2.2.2.2.1, hg]
  have eQ : generalRelativity k eps2 ignore h Q = kidder k h Q := by
    unfold generalRelativity
    rw [(qa h).2.2.2.2.2.1, show ((o.describes u).particles h).gr.effect = _ from hg]
  obtain ⟨p1, -, -⟩ := kidder_result k h P
  obtain ⟨q1, -, -⟩ := kidder_result k h Q
  have hP : (P i).gr.effect.isOrbiting = true := by rw [(pa i).2.2.2.2.2.1]; exact ho
  have hQ : (Q i).gr.effect.isOrbiting = true := by rw [(qa i).2.2.2.2.2.1]; exact ho
  obtain ⟨⟨f1, f2, f3, f4, f5, f6⟩, fac⟩ := pb i hi ho
  obtain ⟨⟨g1, g2, g3, g4, g5, g6⟩, gac⟩ := qb i hi ho
  have fac := fac (Or.inl hg)
  have gac := gac (Or.inl hg)
  have er : ((o.describes u).particles i).inertialPosition - ((o.describes u).particles h).inertialPosition = R r := by
    show o.turn.on _ + o.place - (o.turn.on _ + o.place) = _
    rw [add_sub_add_right_eq_sub, Turn.on_sub]
  have ev : ((o.describes u).particles i).inertialVelocity - ((o.describes u).particles h).inertialVelocity = R v := by
    show o.turn.on _ + o.speed - (o.turn.on _ + o.speed) = _
    rw [add_sub_add_right_eq_sub, Turn.on_sub]
  rw [er] at g1 g3 g4
  rw [ev] at g2 g4 g5 g6
  have mass : ∀ j, (Q j).mass = (P j).mass := fun j => (qa j).1.trans (pa j).1.symm
  have massG : ∀ j, (Q j).massG = (P j).massG := fun j => (qa j).2.1.trans (pa j).2.1.symm
  have d1 : (Q i).gr.position = R (P i).gr.position := by rw [g1, f1]
  have d2 : (Q i).gr.velocity = R (P i).gr.velocity := by rw [g2, f2]
  have d3 : (Q i).gr.distance = (P i).gr.distance := by rw [g3, f3, Turn.on_norm2]
  have d4 : (Q i).gr.radialVelocity = (P i).gr.radialVelocity := by rw [g4, f4, Turn.on_norm2, Turn.on_dot]
  have d5 : (Q i).gr.normVelocity2 = (P i).gr.normVelocity2 := by rw [g5, f5, Turn.on_norm2]
  have d6 : (Q i).gr.normVelocity = (P i).gr.normVelocity := by rw [g6, f6, Turn.on_norm2]
  have d7 : (Q i).gr.factor = (P i).gr.factor := gac.trans fac.symm
  have x1 : kidderFirstOrder k (Q h) (Q i) = R (kidderFirstOrder k (P h) (P i)) := by
    show _ = o.turn.on _
    rw [← kidderFirstOrder_seen]
    unfold kidderFirstOrder
    dsimp only
    rw [d1, d2, d3, d4, d5, d6, d7, massG, massG]
    rfl
  have x2 : kidderSecondOrder k (Q h) (Q i) = R (kidderSecondOrder k (P h) (P i)) := by
    show _ = o.turn.on _
    rw [← kidderSecondOrder_seen]
    unfold kidderSecondOrder
    dsimp only
    rw [d1, d2, d3, d4, d5, d7, massG, massG]
    rfl
  have sP : ∀ j, rotationalMomentum (P j) = s j := fun j => by
    unfold rotationalMomentum
    rw [(pa j).2.2.2.2.2.2.1, (pa j).2.2.2.2.2.2.2]
  have sQ : ∀ j, rotationalMomentum (Q j) = R (s j) := fun j => by
    unfold rotationalMomentum
    rw [(qa j).2.2.2.2.2.2.1, (qa j).2.2.2.2.2.2.2, (rot j).1, (rot j).2, Turn.on_smul]
  have x3 : kidderSpinOrbit k (Q h) (Q i) = R (kidderSpinOrbit k (P h) (P i))
      + (componentTerm (k.g / k.c2) (u.particles h).mass (u.particles i).mass (R (s h)) (R (s i)) (R r) (R v)
        - R (componentTerm (k.g / k.c2) (u.particles h).mass (u.particles i).mass (s h) (s i) r v)) := by
    have e : ∀ p : Fin n → Particle ℝ, (p h).mass = (u.particles h).mass → (p i).mass = (u.particles i).mass →
        (p i).gr.distance = Real.sqrt (p i).gr.position.norm2 → kidderSpinOrbit k (p h) (p i)
        = componentTerm (k.g / k.c2) (u.particles h).mass (u.particles i).mass (rotationalMomentum (p h))
            (rotationalMomentum (p i)) (p i).gr.position (p i).gr.velocity
          + spinTerm (k.g / k.c2) (u.particles h).mass (u.particles i).mass (rotationalMomentum (p h))
            (rotationalMomentum (p i)) (p i).gr.position (p i).gr.velocity (p i).gr.radialVelocity := by
      intro p e1 e2 e3
      unfold kidderSpinOrbit componentTerm spinTerm hadamard
      dsimp only
      rw [e1, e2, e3]
      have hM : (u.particles h).mass + (u.particles i).mass ≠ 0 := by
        have := hmass h; have := hmass i; linarith
      have hmm : ((u.particles h).mass - (u.particles i).mass) / ((u.particles h).mass + (u.particles i).mass)
          * ((u.particles h).mass + (u.particles i).mass) = (u.particles h).mass - (u.particles i).mass := by
        field_simp
      rw [hmm]
      simp only [Axes.sdiv_eq_smul, lit_real]
      push_cast
      ext <;> simp <;> ring
    rw [e P (pa h).1 (pa i).1 (by rw [f3, f1]), e Q (qa h).1 (qa i).1 (by rw [g3, g1]), sP, sP, sQ, sQ, f1, f2, g1, g2, d4]
    have t : ∀ (c mh mi rv : ℝ) (sh si r v : Axes ℝ),
        spinTerm c mh mi (R sh) (R si) (R r) (R v) rv = R (spinTerm c mh mi sh si r v rv) := by
      intro c mh mi rv sh si r v
      unfold spinTerm
      simp only [R]
      turn_simp
    rw [t]
    simp only [R, ← Turn.on_add]
    abel
  have eb : (b.particles i).gr.acceleration = kidderTotal k (Q h) (Q i) := by
    rw [qd, eQ, q1 i hi hQ]
    rfl
  have ea : (a.particles i).gr.acceleration = kidderTotal k (P h) (P i) := by
    rw [pd, eP, p1 i hi hP]
    rfl
  rw [eb, ea]
  unfold kidderTotal
  rw [x1, x2, x3]
  simp only [R, ← Turn.on_add]
  abel

/-- A rotation about the second axis. -/
noncomputable def Turn.tilted : Turn where
  a := ⟨3 / 5, 0, -4 / 5⟩
  b := ⟨0, 1, 0⟩
  unit_a := by norm_num [Axes.dot]
  unit_b := by norm_num [Axes.dot]
  orthogonal := by norm_num [Axes.dot]

/-- With Kidder's relativity the evaluation depends on the axes: two bodies, the star spins about the third axis and the
other one moves on a circle about it; after a rotation of everything the acceleration is not the rotated one. -/
theorem C102_violated (k : Consts ℝ) (m : Models ℝ) (hg : k.g ≠ 0) (hc : k.c2 ≠ 0) :
    let u := relativisticUniverse .kidder1995 ⟨0, 0, 1⟩ 0
    let o : Observer := ⟨.tilted, 0, 0⟩
    ∃ a b, calculateAdditionalEffects k m 0 0 false true true .none (inertialToHeliocentric u) = some a
      ∧ calculateAdditionalEffects k m 0 0 false true true .none (inertialToHeliocentric (o.describes u)) = some b
      ∧ (b.particles 1).gr.acceleration ≠ o.turn.on (a.particles 1).gr.acceleration
      ∧ (b.particles 1).inertialAdditionalAcceleration ≠ o.turn.on (a.particles 1).inertialAdditionalAcceleration := by
  intro u o
  obtain ⟨a, ha⟩ := relativisticUniverse_defined .kidder1995 ⟨0, 0, 1⟩ 0 k m 0 .none
  have hb : ∃ b, calculateAdditionalEffects k m 0 0 false true true .none (inertialToHeliocentric (o.describes u)) = some b := by
    have hh : HasHosts (inertialToHeliocentric (o.describes u)) := by
      constructor <;> simp [inertialToHeliocentric, u, Observer.describes, relativisticUniverse]
    have hn := (additionalEffects_none (k := k) (m := m) (eps2 := 0) (time := 0) (evolution := false)
      (dL := true) (acc := true) (ignore := .none) hh rfl).not
    refine Option.ne_none_iff_exists'.1 (hn.2 ?_)
    rintro ⟨j, hj⟩
    have hI : ((inertialToHeliocentric (o.describes u)).particles j).momentOfInertia = 1 := by
      rw [inertialToHeliocentric_seen]
      show ((inertialToHeliocentric u).particles j).momentOfInertia = 1
      by_cases hi : j = 0 <;>
        simp [u, inertialToHeliocentric, relativisticUniverse, mapHost, mapOthers, hi, toHeliocentric, zeroHeliocentric]
    rw [hI] at hj
    simp at hj
  obtain ⟨b, hb⟩ := hb
  have key := C102_kidder_partial (o := o) (relativisticUniverse_ok _ _ _) (h := 0) rfl rfl rfl
    (relativisticUniverse_velocity _ _ _) (fun i => by rw [relativisticUniverse_mass]; norm_num) ha hb 1 (by decide)
    (by rw [relativisticUniverse_orbiting _ _ _ _ (by decide)]; rfl)
  have hr : (u.particles 1).inertialPosition - (u.particles 0).inertialPosition = ⟨1, 0, 0⟩ := by
    ext <;> simp [u, relativisticUniverse, blank]
  have hv : (u.particles 1).inertialVelocity - (u.particles 0).inertialVelocity = ⟨0, 1, 0⟩ := by
    ext <;> simp [u, relativisticUniverse, blank]
  have mass : ∀ j, (u.particles j).mass = 1 := relativisticUniverse_mass _ _ _
  have spin : ∀ j, (a.particles j).spin = (u.particles j).angularMomentum ∧ (a.particles j).momentOfInertia = 1 := by
    intro j
    unfold calculateAdditionalEffects at ha
    split at ha
    · simp at ha
    rename_i u1 h1
    split at ha
    · simp at ha
    rename_i u2 h2
    obtain ⟨c1, -, d1, -⟩ := initializeAll_totals h1
    obtain ⟨hsp, c2, -, d2, -⟩ := calculateSpinAndEvolving_step h2
    obtain ⟨-, -, -, x, -⟩ := effects_gr (h := 0) (by rw [c2, c1]; rfl) (by rw [d2, d1]; rfl) ha
    have e1 : (a.particles j).spin = (u2.particles j).spin := by
      have := congrArg Particle.spin (x j); exact this
    have e2 : (a.particles j).momentOfInertia = (u2.particles j).momentOfInertia := by
      have := congrArg Particle.momentOfInertia (x j); exact this
    obtain ⟨inertia, s1, -, s2, -⟩ := spinAndEvolving_spin (hsp j)
    obtain ⟨s3, s4, -⟩ := s2 rfl
    have e3 : (u1.particles j).angularMomentum = ((inertialToHeliocentric u).particles j).angularMomentum := by
      have := congrArg Particle.angularMomentum (initializeAll_core h1 j); exact this
    have e4 : (u1.particles j).momentOfInertia = ((inertialToHeliocentric u).particles j).momentOfInertia := by
      have := congrArg Particle.momentOfInertia (initializeAll_core h1 j); exact this
    have e5 : ((inertialToHeliocentric u).particles j).momentOfInertia = 1 := by
      by_cases hi : j = 0 <;>
        simp [u, inertialToHeliocentric, relativisticUniverse, mapHost, mapOthers, hi, toHeliocentric, zeroHeliocentric]
    have e6 : ((inertialToHeliocentric u).particles j).angularMomentum = (u.particles j).angularMomentum := by
      by_cases hi : j = 0 <;>
        simp [u, inertialToHeliocentric, relativisticUniverse, mapHost, mapOthers, hi, toHeliocentric, zeroHeliocentric]
    rw [e1, e2, s4, s1, s3, e3, e4, e5, e6]
    simp [Axes.sdiv_eq_smul]
  have l0 : (u.particles 0).angularMomentum = ⟨0, 0, 1⟩ := rfl
  have l1 : (u.particles 1).angularMomentum = 0 := rfl
  have ne : (b.particles 1).gr.acceleration ≠ o.turn.on (a.particles 1).gr.acceleration := by
    intro e
    rw [e] at key
    have key := add_eq_left.1 key.symm
    dsimp only at key
    rw [hr, hv, mass, mass, (spin 0).1, (spin 0).2, (spin 1).1, (spin 1).2, l0, l1, sub_eq_zero] at key
    have kx := congrArg Axes.x key
    simp [componentTerm, Turn.on, o, Turn.tilted, Axes.cross, Axes.norm2, Axes.dot] at kx
    norm_num at kx
    exact hg (kx.resolve_right hc)
  refine ⟨a, b, ha, hb, ne, ?_⟩
  rw [C94_acceleration ha, C94_acceleration hb]
  have ca : (inertialToHeliocentric u).consider = ⟨false, false, true, false, false, false⟩ := rfl
  have cb : (inertialToHeliocentric (o.describes u)).consider = ⟨false, false, true, false, false, false⟩ := rfl
  rw [ca, cb]
  simpa using ne

/-! ## C103 The origin and its motion -/

theorem still_on (v : Axes ℝ) : Turn.still.on v = v := by
  unfold Turn.on Turn.still
  ext <;> simp [Axes.cross]

theorem moving_sees (x v : Axes ℝ) (p : Particle ℝ) : (Observer.moving x v).sees p
    = { p with inertialPosition := p.inertialPosition + x, inertialVelocity := p.inertialVelocity + v } := by
  unfold Observer.moving Observer.sees
  simp only [still_on]

/-- The creep and Kaula tides read no inertial coordinates. -/
structure ReadsNoPlace (m : Models ℝ) : Prop where
  creepTorque : ∀ (p q : Particle ℝ) b x v y w,
    m.tides.creepTorque { p with inertialPosition := x, inertialVelocity := v }
      { q with inertialPosition := y, inertialVelocity := w } b = m.tides.creepTorque p q b
  creepForce : ∀ (p q : Particle ℝ) x v y w,
    m.tides.creepForce { p with inertialPosition := x, inertialVelocity := v }
      { q with inertialPosition := y, inertialVelocity := w } = m.tides.creepForce p q
  kaulaTorque : ∀ (p q : Particle ℝ) b x v y w,
    m.tides.kaulaTorque { p with inertialPosition := x, inertialVelocity := v }
      { q with inertialPosition := y, inertialVelocity := w } b = m.tides.kaulaTorque p q b
  kaulaForce : ∀ (p q : Particle ℝ) b x v y w,
    m.tides.kaulaForce { p with inertialPosition := x, inertialVelocity := v }
      { q with inertialPosition := y, inertialVelocity := w } b = m.tides.kaulaForce p q b
  flatteningTorque : ∀ (p q : Particle ℝ) b x v y w,
    m.flattening.creepTorque { p with inertialPosition := x, inertialVelocity := v }
      { q with inertialPosition := y, inertialVelocity := w } b = m.flattening.creepTorque p q b
  flatteningForce : ∀ (p q : Particle ℝ) x v y w,
    m.flattening.creepForce { p with inertialPosition := x, inertialVelocity := v }
      { q with inertialPosition := y, inertialVelocity := w } = m.flattening.creepForce p q
  tideShape : ∀ (p q : Particle ℝ) x v y w,
    m.tideShape { p with inertialPosition := x, inertialVelocity := v }
      { q with inertialPosition := y, inertialVelocity := w } = m.tideShape p q
  flatteningShape : ∀ (p q : Particle ℝ) x v y w,
    m.flatteningShape { p with inertialPosition := x, inertialVelocity := v }
      { q with inertialPosition := y, inertialVelocity := w } = m.flatteningShape p q

/-- The creep tides as modelled, with any Kaula tides that read no inertial coordinates. -/
theorem creep_readsNoPlace {m : Models ℝ} {k : Consts ℝ} {fuel : Nat} [FTan ℝ]
    (kt : ∀ (p q : Particle ℝ) b x v y w, m.tides.kaulaTorque { p with inertialPosition := x, inertialVelocity := v }
      { q with inertialPosition := y, inertialVelocity := w } b = m.tides.kaulaTorque p q b)
    (kf : ∀ (p q : Particle ℝ) b x v y w, m.tides.kaulaForce { p with inertialPosition := x, inertialVelocity := v }
      { q with inertialPosition := y, inertialVelocity := w } b = m.tides.kaulaForce p q b) :
    ReadsNoPlace (withCreep k fuel m) where
  creepTorque _ _ _ _ _ _ _ := rfl
  creepForce _ _ _ _ _ _ := rfl
  kaulaTorque := kt
  kaulaForce := kf
  flatteningTorque _ _ _ _ _ _ _ := rfl
  flatteningForce _ _ _ _ _ _ := rfl
  tideShape _ _ _ _ _ _ := rfl
  flatteningShape _ _ _ _ _ _ := rfl

theorem moving_fits {x v : Axes ℝ} (hm : ReadsNoPlace m) (hmass : ∀ i, 0 < (u.particles i).mass) {ignore : Ignore}
    (hn : u.consider.gr = true → (∃ i, (u.particles i).gr.effect = .central .newhall1983) → v = 0)
    (hi : ignore = .none ∨ x = 0) : Fits (.moving x v) m ignore u := by
  have on : ∀ w, (Observer.moving x v).turn.on w = w := still_on
  refine ⟨fun i model _ => ?_, fun i model _ => ?_, fun hc h _ => ⟨fun _ => ?_, fun _ => ⟨hi, hmass⟩,
    fun e => ⟨on, hn hc ⟨_, e⟩, hi⟩⟩, fun _ => ⟨fun w => by rw [on], fun c => on _⟩⟩
  · refine ⟨fun p q b => ?_, fun p q => ?_, fun _ p q => ?_, fun c _ p q => ?_⟩
    · cases model
      · exact ctlTorque_seen _ p q b
      · rw [on, moving_sees, moving_sees]; exact hm.creepTorque p q b _ _ _ _
      · rw [on, moving_sees, moving_sees]; exact hm.kaulaTorque p q b _ _ _ _
    · cases model
      · exact ctlForce_seen _ p q
      · rw [on, moving_sees, moving_sees]; exact hm.creepForce p q _ _ _ _
      · rw [on, moving_sees, moving_sees]; exact hm.kaulaForce p q _ _ _ _ _
    · rw [on, moving_sees, moving_sees]; exact hm.kaulaForce p q _ _ _ _ _
    · rw [moving_sees, moving_sees]; exact hm.tideShape p q _ _ _ _
  · cases model with
    | oblateSpheroid a => exact oblate_fits _ m a
    | creepCoplanar c =>
      refine ⟨fun p q b => ?_, fun p q => ?_, fun c _ p q => ?_⟩
      · rw [on, moving_sees, moving_sees]; exact hm.flatteningTorque p q b _ _ _ _
      · rw [on, moving_sees, moving_sees]; exact hm.flatteningForce p q _ _ _ _
      · rw [moving_sees, moving_sees]; exact hm.flatteningShape p q _ _ _ _
  · intro a b
    rw [on, on, on]

/-- With another origin and, unless relativity is Newhall's, with any uniform motion of the origin, the evaluation of all
effects is the same. -/
theorem C103_evaluation (x v : Axes ℝ) (hm : ReadsNoPlace m) (hmass : ∀ i, 0 < (u.particles i).mass)
    (hn : u.consider.gr = true → (∃ i, (u.particles i).gr.effect = .central .newhall1983) → v = 0)
    (time : ℝ) (evolution dL acc : Bool) :
    calculateAdditionalEffects k m eps2 time evolution dL acc .none (inertialToHeliocentric ((Observer.moving x v).describes u))
      = (calculateAdditionalEffects k m eps2 time evolution dL acc .none (inertialToHeliocentric u)).map
          (Observer.moving x v).describes := by
  rw [inertialToHeliocentric_seen, evaluation_seen _ k eps2 time evolution dL acc
    ((moving_fits hm hmass hn (Or.inl rfl)).kept (kept_heliocentric u))]

/-- Any number of iterations of LeapFrog: the positions and velocities are those of the first run, plus the ones of the
moving origin; all else is the same. -/
theorem C103_leapfrog (x v : Axes ℝ) (hm : ReadsNoPlace m) (hmass : ∀ i, 0 < (u.particles i).mass)
    (hn : u.consider.gr = true → (∃ i, (u.particles i).gr.effect = .central .newhall1983) → v = 0) (l : List (ℝ × Bool)) :
    leapfrogRun k m eps2 roche dt (dt / 2) l { u with particles := fun i => { u.particles i with
        inertialPosition := (u.particles i).inertialPosition + x, inertialVelocity := (u.particles i).inertialVelocity + v } }
      = (leapfrogRun k m eps2 roche dt (dt / 2) l u).map fun w => { w with particles := fun i => { w.particles i with
        inertialPosition := (w.particles i).inertialPosition + (x + (l.length * dt) • v),
        inertialVelocity := (w.particles i).inertialVelocity + v } } := by
  have e : ∀ y (w : Universe ℝ n), (Observer.moving y v).describes w = { w with particles := fun i => { w.particles i with
      inertialPosition := (w.particles i).inertialPosition + y, inertialVelocity := (w.particles i).inertialVelocity + v } } := by
    intro y w
    unfold Observer.describes
    simp only [moving_sees]
  have key := leapfrogRun_seen (k := k) (m := m) (eps2 := eps2) (roche := roche) (dt := dt) (u := u)
    (o := .moving x v) (dt / 2) l fun t => moving_fits hm hmass hn (Or.inl rfl)
  rw [add_halves] at key
  rw [← e x u, key]
  congr 1
  funext w
  exact e _ w

example (hm : ReadsNoPlace m) : ∃ w, leapfrogRun k m 0 (fun _ _ => 0) 1 (1 / 2) [(0, false)]
      (relativisticUniverse .kidder1995 ⟨1, 0, 1⟩ ⟨0, 0, 1⟩) = some w
    ∧ leapfrogRun k m 0 (fun _ _ => 0) 1 (1 / 2) [(0, false)]
      ((Observer.moving ⟨1, 2, 3⟩ ⟨4, 5, 6⟩).describes (relativisticUniverse .kidder1995 ⟨1, 0, 1⟩ ⟨0, 0, 1⟩))
      = some ((Observer.moving ⟨5, 7, 9⟩ ⟨4, 5, 6⟩).describes w) := by
  obtain ⟨v, hv⟩ := relativisticUniverse_step k m .kidder1995 ⟨1, 0, 1⟩ ⟨0, 0, 1⟩
  have e : leapfrogRun k m 0 (fun _ _ => 0) 1 (1 / 2) [(0, false)] (relativisticUniverse .kidder1995 ⟨1, 0, 1⟩ ⟨0, 0, 1⟩)
      = some v := by
    simp only [leapfrogRun, leapfrogIterate, Bool.false_eq_true, if_false, hv, Option.bind_some]
  refine ⟨v, e, ?_⟩
  have d : ∀ y s (w : Universe ℝ 2), (Observer.moving y s).describes w = { w with particles := fun i => { w.particles i with
      inertialPosition := (w.particles i).inertialPosition + y, inertialVelocity := (w.particles i).inertialVelocity + s } } := by
    intro y s w
    unfold Observer.describes
    simp only [moving_sees]
  rw [d, C103_leapfrog _ _ hm (fun i => by rw [relativisticUniverse_mass]; norm_num) (fun _ ⟨i, hi⟩ => by
    by_cases h : i = 0 <;> simp [relativisticUniverse, h] at hi), e, Option.map_some, d]
  have f : ((⟨1, 2, 3⟩ : Axes ℝ) + (([((0 : ℝ), false)].length : ℝ) * 1) • (⟨4, 5, 6⟩ : Axes ℝ)) = ⟨5, 7, 9⟩ := by
    ext <;> simp <;> norm_num
  rw [f]

/-- Models without creep and Kaula tides meet the hypothesis. -/
example : ReadsNoPlace (⟨⟨fun _ _ _ => 0, fun _ _ => 0, fun _ _ _ => 0, fun _ _ _ => 0⟩, ⟨fun _ _ _ => 0, fun _ _ => 0⟩,
    fun _ _ => 0, fun _ _ => 0⟩ : Models ℝ) := by
  constructor <;> intros <;> rfl

end
end Posidonius.Univ
