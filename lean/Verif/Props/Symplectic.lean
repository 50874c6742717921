import Verif.Props.WHFastTwoBody
import Verif.Props.Totals
import Verif.Spec.Kepler
import Mathlib.Analysis.SpecialFunctions.Sqrt
import Mathlib.Analysis.Calculus.Deriv.Inv

/-! # C110: LeapFrog under gravity is symplectic -/

namespace Posidonius.Univ
open Gravity (newton)
open WHFast (VecDeriv)
open Filter Topology Axes

variable {n : ℕ} {k : Consts ℝ} {m : Models ℝ} {eps2 dt time : ℝ} {roche : Fin n → Fin n → ℝ}

/-- An iteration of LeapFrog without other forces: the midpoint rule with Newton's accelerations. -/
theorem leapfrogIterate_gravity {record : Bool} {u u' : Universe ℝ n} (hf : Forceless u)
    (h : leapfrogIterate k m eps2 roche dt (dt / 2) time record u = some u') :
    let mid := fun j => (u.particles j).inertialPosition + (dt / 2) • (u.particles j).inertialVelocity
    Forceless u' ∧ (∀ i j, i ≠ j → mid i ≠ mid j) ∧ ∀ i,
      (u'.particles i).mass = (u.particles i).mass
      ∧ (u'.particles i).inertialVelocity = (u.particles i).inertialVelocity
        + dt • ∑ j, (if j = i then 0 else newton k.g (u.particles j).mass (mid i) (mid j))
      ∧ (u'.particles i).inertialPosition = mid i + (dt / 2) • (u'.particles i).inertialVelocity := by
  intro mid
  unfold leapfrogIterate at h
  split at h
  · cases h
  · next u0 e0 =>
    obtain ⟨a0, p0, -⟩ := observed_parts e0
    have x0 : ∀ i, (u0.particles i).inertialPosition = (u.particles i).inertialPosition := fun i =>
      congrArg Ias15.Place.position (p0 i)
    have y0 : ∀ i, (u0.particles i).inertialVelocity = (u.particles i).inertialVelocity := fun i =>
      congrArg Ias15.Place.velocity (p0 i)
    have m0 : ∀ i, (u0.particles i).mass = (u.particles i).mass := fun i => a0.field _ (fun _ => rfl) i
    obtain ⟨u1, u3, a, h1, ha, h3, h4⟩ := leapfrogStep_parts h
    obtain ⟨c1, -, -, f1, -, -⟩ := evaluation_totals h1
    obtain ⟨c3, -, -, -, -, -⟩ := evaluation_totals h3
    refine ⟨?_, ?_, ?_⟩
    · have : u'.consider = u.consider := by
        rw [h4]
        exact (c3.trans c1).trans a0.consider
      unfold Forceless at *
      rw [this]; exact hf
    · have ok := (Gravity.C45_partial_goes_on_iff k.g _ roche .none u1.hosts.mostMassive Gravity.maxDistance2_pos).1 ⟨a, ha⟩
      have pm : ∀ i, (bodyOf ((drift (dt / 2) u1).particles i)).position = mid i := by
        intro i
        have e1 : ∀ {A : Type} (f : Particle ℝ → A), (∀ q, f q = f (fixed q)) → (∀ q, f (zeroHeliocentric q) = f q) →
            (∀ p q, f (toHeliocentric p q) = f q) → f (u1.particles i) = f (u0.particles i) :=
          fun f x y z => (fixed_field f x f1 i).trans (helio_field f y z u0 i)
        have q1 := e1 Particle.inertialPosition (fun _ => rfl) (fun _ => rfl) (fun _ _ => rfl)
        have q2 := e1 Particle.inertialVelocity (fun _ => rfl) (fun _ => rfl) (fun _ _ => rfl)
        show (u1.particles i).inertialPosition + (dt / 2) • (u1.particles i).inertialVelocity = mid i
        rw [q1, q2, x0, y0]
      have key : ∀ i j, i < j → mid i ≠ mid j := by
        intro i j hij e
        refine (ok i j hij).1 ?_
        simp only [Gravity.InsideRoche, Gravity.distance2, pm, e, sub_self]
        rw [leb_real]
        simp [norm2, Axes.zero_dot]
        exact mul_self_nonneg _
      intro i j hij
      rcases lt_or_gt_of_ne hij with c | c
      · exact key i j c
      · exact fun e => key j i c e.symm
    · obtain ⟨_, -, st⟩ := C96_step h
      intro i
      obtain ⟨s1, s2, s3, -⟩ := st i
      have z : additional u0.consider (u'.particles i) = 0 := by
        rw [a0.consider]; simp [additional, hf.1, hf.2.1, hf.2.2.1, hf.2.2.2]
      rw [z] at s2
      simp only [x0, y0, m0, add_zero] at s1 s2 s3
      refine ⟨s1, s2, ?_⟩
      rw [s3]
      simp only [mid]
      module

/-- No forces but gravity, bodies do not evolve and have moments of inertia. -/
structure Inert (u : Universe ℝ n) : Prop where
  forceless : Forceless u
  evolution : u.consider.evolution = false
  inertia : ∀ i, (u.particles i).momentOfInertia ≠ 0

/-- Places of bodies at which no check stops the program. -/
def Clear (roche : Fin n → Fin n → ℝ) (radius : Fin n → ℝ) (host : Fin n) (x : Fin n → Axes ℝ) : Prop :=
  ∀ i j, i < j → roche i j ^ 2 < (x i - x j).dot (x i - x j) ∧ (radius i + radius j) ^ 2 < (x i - x j).dot (x i - x j)
    ∧ (i = host → (x i - x j).dot (x i - x j) ≤ 10000)

/-- An iteration goes through if the checks do not fire halfway. -/
theorem leapfrogIterate_defined {u : Universe ℝ n} (hi : Inert u) (time : ℝ)
    (hc : Clear roche (fun i => (u.particles i).radius) u.hosts.mostMassive
      fun i => (u.particles i).inertialPosition + (dt / 2) • (u.particles i).inertialVelocity) :
    ∃ u', leapfrogIterate k m eps2 roche dt (dt / 2) time false u = some u' ∧ Inert u' ∧ u'.hosts = u.hosts
      ∧ ∀ i, (u'.particles i).radius = (u.particles i).radius := by
  have defined : ∀ (v : Universe ℝ n) (t : ℝ) (acc : Bool), v.consider = u.consider →
      (∀ j, (v.particles j).momentOfInertia = (u.particles j).momentOfInertia) →
      ∃ w, calculateAdditionalEffects k m eps2 t true true acc .none (inertialToHeliocentric v) = some w := by
    intro v t acc hv hI
    have hh' : HasHosts (inertialToHeliocentric v) := by
      obtain ⟨f1, f2, f3, f4⟩ := hi.forceless
      constructor <;> simp [inertialToHeliocentric, hv, f1, f2, f3, f4]
    have hn := (additionalEffects_none (k := k) (m := m) (eps2 := eps2) (time := t) (evolution := true)
      (dL := true) (acc := acc) (ignore := .none) hh' (by simp [inertialToHeliocentric, hv, hi.evolution])).not
    refine Option.ne_none_iff_exists'.1 (hn.2 ?_)
    rintro ⟨j, hj⟩
    rw [helio_field Particle.momentOfInertia (fun _ => rfl) (fun _ _ => rfl), hI] at hj
    exact hi.inertia j (by simpa using hj)
  obtain ⟨u1, h1⟩ := defined u time false rfl fun _ => rfl
  obtain ⟨c1, -, t1, f1, -, -⟩ := evaluation_totals h1
  have c1' : u1.consider = u.consider := c1
  have t1' : u1.hosts = u.hosts := t1
  have ev1 : (true && (inertialToHeliocentric u).consider.evolution) = false := by
    simp [inertialToHeliocentric, hi.evolution]
  have I1 : ∀ j, (u1.particles j).momentOfInertia = (u.particles j).momentOfInertia := fun j => by
    rw [(evaluation_radius k m ev1 h1 j).2.1, helio_field Particle.momentOfInertia (fun _ => rfl) (fun _ _ => rfl)]
  have R1 : ∀ j, (u1.particles j).radius = (u.particles j).radius := fun j => by
    rw [(evaluation_radius k m ev1 h1 j).1, helio_field Particle.radius (fun _ => rfl) (fun _ _ => rfl)]
  have X1 : ∀ i, (u1.particles i).inertialPosition + (dt / 2) • (u1.particles i).inertialVelocity
      = (u.particles i).inertialPosition + (dt / 2) • (u.particles i).inertialVelocity := fun i => by
    rw [fixed_field Particle.inertialPosition (fun _ => rfl) f1,
      fixed_field Particle.inertialVelocity (fun _ => rfl) f1,
      helio_field Particle.inertialPosition (fun _ => rfl) (fun _ _ => rfl),
      helio_field Particle.inertialVelocity (fun _ => rfl) (fun _ _ => rfl)]
  obtain ⟨a, ha⟩ : ∃ a, Gravity.gravity k.g (fun i => bodyOf ((drift (dt / 2) u1).particles i)) roche
      .none u1.hosts.mostMassive = .ok a := by
    rw [Gravity.C45_partial_goes_on_iff _ _ _ _ _ Gravity.maxDistance2_pos]
    intro i j hij
    obtain ⟨d1, d2, d3⟩ := hc i j hij
    have d : Gravity.distance2 (bodyOf ((drift (dt / 2) u1).particles i)) (bodyOf ((drift (dt / 2) u1).particles j))
        = (((u.particles i).inertialPosition + (dt / 2) • (u.particles i).inertialVelocity)
          - ((u.particles j).inertialPosition + (dt / 2) • (u.particles j).inertialVelocity)).dot
          (((u.particles i).inertialPosition + (dt / 2) • (u.particles i).inertialVelocity)
          - ((u.particles j).inertialPosition + (dt / 2) • (u.particles j).inertialVelocity)) := by
      rw [← X1 i, ← X1 j]; rfl
    have r : ∀ j, (bodyOf ((drift (dt / 2) u1).particles j)).radius = (u.particles j).radius := R1
    refine ⟨?_, ?_, ?_⟩
    · unfold Gravity.InsideRoche
      rw [d, leb_real, not_le]
      calc _ = roche i j ^ 2 := by ring
        _ < _ := d1
    · unfold Gravity.Overlap
      rw [d, r, r, leb_real, not_le]
      calc _ = ((u.particles i).radius + (u.particles j).radius) ^ 2 := by ring
        _ < _ := d2
    · rintro ⟨e, hf⟩
      unfold Gravity.Far at hf
      rw [d, ltb_real] at hf
      have := d3 (Fin.ext (by rw [e, t1']))
      simp only [Gravity.maxDistance2, lit_real] at hf
      push_cast at hf
      linarith
  obtain ⟨u3, h3⟩ := defined { drift (dt / 2) u1 with
    particles := fun i => { (drift (dt / 2) u1).particles i with inertialAcceleration := a i } } (time + dt / 2) true
    c1' I1
  obtain ⟨c3, -, t3, f3, -, -⟩ := evaluation_totals h3
  have ev3 : (true && (inertialToHeliocentric { drift (dt / 2) u1 with particles := fun i =>
      { (drift (dt / 2) u1).particles i with inertialAcceleration := a i } }).consider.evolution) = false := by
    show (true && u1.consider.evolution) = false
    rw [c1']; simp [hi.evolution]
  have I3 : ∀ j, (u3.particles j).momentOfInertia = (u.particles j).momentOfInertia := fun j => by
    rw [(evaluation_radius k m ev3 h3 j).2.1, helio_field Particle.momentOfInertia (fun _ => rfl) (fun _ _ => rfl)]
    exact I1 j
  have R3 : ∀ j, (u3.particles j).radius = (u.particles j).radius := fun j => by
    rw [(evaluation_radius k m ev3 h3 j).1, helio_field Particle.radius (fun _ => rfl) (fun _ _ => rfl)]
    exact R1 j
  have c3' : u3.consider = u.consider := c3.trans c1'
  refine ⟨kickDrift dt (dt / 2) { u3 with particles := fun i => applyAccelerations (u3.particles i) }, ?_,
    ⟨?_, ?_, ?_⟩, t3.trans t1', R3⟩
  · unfold leapfrogIterate leapfrogStep universeGravity
    simp only [Bool.false_eq_true, if_false]
    rw [h1]
    dsimp only
    have ha' : Gravity.gravity k.g (fun i => bodyOf ((drift (dt / 2) u1).particles i)) roche
        .none (drift (dt / 2) u1).hosts.mostMassive = .ok a := ha
    rw [ha']
    dsimp only
    rw [h3]
  · show Forceless u3
    unfold Forceless
    rw [c3']
    exact hi.forceless
  · show u3.consider.evolution = false
    rw [c3']
    exact hi.evolution
  · intro i
    show (u3.particles i).momentOfInertia ≠ 0
    rw [I3]
    exact hi.inertia i

/-! ### Variations -/

theorem VecDeriv.add' {p q : ℝ → Axes ℝ} {a b : Axes ℝ} {t : ℝ} (hp : VecDeriv p a t) (hq : VecDeriv q b t) :
    VecDeriv (fun s => p s + q s) (a + b) t :=
  ⟨hp.1.add hq.1, hp.2.1.add hq.2.1, hp.2.2.add hq.2.2⟩

theorem VecDeriv.sub' {p q : ℝ → Axes ℝ} {a b : Axes ℝ} {t : ℝ} (hp : VecDeriv p a t) (hq : VecDeriv q b t) :
    VecDeriv (fun s => p s - q s) (a - b) t :=
  ⟨hp.1.sub hq.1, hp.2.1.sub hq.2.1, hp.2.2.sub hq.2.2⟩

theorem VecDeriv.const_smul' {p : ℝ → Axes ℝ} {a : Axes ℝ} {t : ℝ} (c : ℝ) (hp : VecDeriv p a t) :
    VecDeriv (fun s => c • p s) (c • a) t :=
  ⟨hp.1.const_mul c, hp.2.1.const_mul c, hp.2.2.const_mul c⟩

theorem VecDeriv.smul' {f : ℝ → ℝ} {c t : ℝ} {p : ℝ → Axes ℝ} {a : Axes ℝ} (hf : HasDerivAt f c t) (hp : VecDeriv p a t) :
    VecDeriv (fun s => f s • p s) (c • p t + f t • a) t :=
  ⟨hf.mul hp.1, hf.mul hp.2.1, hf.mul hp.2.2⟩

theorem VecDeriv.dot_self' {p : ℝ → Axes ℝ} {a : Axes ℝ} {t : ℝ} (hp : VecDeriv p a t) :
    HasDerivAt (fun s => (p s).dot (p s)) (2 * (p t).dot a) t := by
  have := ((hp.1.mul hp.1).add (hp.2.1.mul hp.2.1)).add (hp.2.2.mul hp.2.2)
  refine this.congr_deriv ?_
  simp only [dot]; ring

theorem VecDeriv.const' (c : Axes ℝ) (t : ℝ) : VecDeriv (fun _ => c) 0 t := by
  refine ⟨?_, ?_, ?_⟩ <;> simpa using hasDerivAt_const t _

theorem VecDeriv.line' (c d : Axes ℝ) (t : ℝ) : VecDeriv (fun s => c + s • d) d t := by
  exact ⟨by simpa using ((hasDerivAt_id' t).mul_const d.x).const_add c.x,
    by simpa using ((hasDerivAt_id' t).mul_const d.y).const_add c.y, by simpa using ((hasDerivAt_id' t).mul_const d.z).const_add c.z⟩

theorem VecDeriv.zero' (t : ℝ) : VecDeriv (fun _ => 0) 0 t := by
  refine ⟨?_, ?_, ?_⟩ <;> simpa using hasDerivAt_const t (0 : ℝ)

theorem VecDeriv.sum' {ι : Type} (l : Finset ι) {p : ι → ℝ → Axes ℝ} {a : ι → Axes ℝ} {t : ℝ}
    (h : ∀ i ∈ l, VecDeriv (p i) (a i) t) : VecDeriv (fun s => ∑ i ∈ l, p i s) (∑ i ∈ l, a i) t := by
  classical
  induction l using Finset.induction_on with
  | empty => simpa using VecDeriv.zero' t
  | insert i l hi ih =>
    simp only [Finset.sum_insert hi]
    exact VecDeriv.add' (h i (Finset.mem_insert_self i l)) (ih fun j hj => h j (Finset.mem_insert_of_mem hj))

theorem VecDeriv.congr' {p q : ℝ → Axes ℝ} {a : Axes ℝ} {t : ℝ} (hp : VecDeriv p a t) (h : ∀ᶠ s in 𝓝 t, q s = p s) :
    VecDeriv q a t :=
  ⟨hp.1.congr_of_eventuallyEq (h.mono fun s e => by dsimp only; rw [e]), hp.2.1.congr_of_eventuallyEq (h.mono fun s e => by dsimp only; rw [e]),
    hp.2.2.congr_of_eventuallyEq (h.mono fun s e => by dsimp only; rw [e])⟩

/-- The change of Newton's acceleration (divided by `G m`) at separation `d` when the separation changes by `e`. -/
noncomputable def tidalMap (d e : Axes ℝ) : Axes ℝ :=
  (1 / √(d.dot d) ^ 3) • e - (3 * d.dot e / √(d.dot d) ^ 5) • d

theorem tidalMap_symm (d e f : Axes ℝ) : e.dot (tidalMap d f) = f.dot (tidalMap d e) := by
  simp only [tidalMap, dot_sub, dot_smul, Axes.dot_comm e f, Axes.dot_comm e d, Axes.dot_comm f d]
  ring

theorem tidalMap_neg (d e : Axes ℝ) : tidalMap (-d) (-e) = -tidalMap d e := by
  simp only [tidalMap, dot_neg, neg_dot, neg_neg]
  module

theorem newton_deriv (G m : ℝ) {r s : ℝ → Axes ℝ} {a b : Axes ℝ} {t : ℝ} (hr : VecDeriv r a t) (hs : VecDeriv s b t)
    (hne : r t ≠ s t) : VecDeriv (fun x => newton G m (r x) (s x)) ((G * m) • tidalMap (s t - r t) (b - a)) t := by
  have hd := VecDeriv.sub' hs hr
  have h2 := VecDeriv.dot_self' hd
  have pos : 0 < (s t - r t).dot (s t - r t) :=
    lt_of_le_of_ne (dot_self_nonneg _) fun e => hne (sub_eq_zero.1 (dot_self_eq_zero e.symm)).symm
  have h3 := (h2.sqrt pos.ne').pow 3
  have ne : √((s t - r t).dot (s t - r t)) ≠ 0 := (Real.sqrt_pos.2 pos).ne'
  have h4 := (hasDerivAt_const t (G * m)).div h3 (by simpa using pow_ne_zero 3 ne)
  have := VecDeriv.smul' h4 hd
  unfold newton
  have key : VecDeriv (fun x => (G * m / √((s x - r x).dot (s x - r x)) ^ 3) • (s x - r x)) _ t := this
  refine Eq.subst (motive := fun e => VecDeriv _ e t) ?_ key
  simp only [tidalMap, Pi.pow_apply, Pi.div_apply]
  clear this key h4 h3 h2 hd
  generalize s t - r t = d at *
  generalize √(d.dot d) = q at *
  generalize d.dot (b - a) = w at *
  ext <;> simp <;> field_simp <;> ring

/-- A family of states with constant masses and its derivative at zero: changes of positions and velocities. -/
structure Variation (u : ℝ → Universe ℝ n) (x v : Fin n → Axes ℝ) : Prop where
  mass : ∀ᶠ e in 𝓝 0, ∀ i, ((u e).particles i).mass = ((u 0).particles i).mass
  position : ∀ i, VecDeriv (fun e => ((u e).particles i).inertialPosition) (x i) 0
  velocity : ∀ i, VecDeriv (fun e => ((u e).particles i).inertialVelocity) (v i) 0

/-- The symplectic form `sum m_i (x_i . v'_i - x'_i . v_i)`. -/
noncomputable def symplectic (mass : Fin n → ℝ) (x v x' v' : Fin n → Axes ℝ) : ℝ :=
  ∑ i, mass i * ((x i).dot (v' i) - (x' i).dot (v i))

/-- Masses, positions and velocities. -/
def SameState (u w : Universe ℝ n) : Prop :=
  ∀ i, (u.particles i).mass = (w.particles i).mass
    ∧ (u.particles i).inertialPosition = (w.particles i).inertialPosition
    ∧ (u.particles i).inertialVelocity = (w.particles i).inertialVelocity

/-- The change of the kick for a change `x` of the midpoints. -/
noncomputable def kickMap (G : ℝ) (mass : Fin n → ℝ) (mid x : Fin n → Axes ℝ) (i : Fin n) : Axes ℝ :=
  ∑ j, if j = i then 0 else (G * mass j) • tidalMap (mid j - mid i) (x j - x i)

theorem dot_sum' {ι : Type} (a : Axes ℝ) (s : Finset ι) (f : ι → Axes ℝ) : a.dot (∑ i ∈ s, f i) = ∑ i ∈ s, a.dot (f i) :=
  map_sum (⟨⟨fun b => a.dot b, dot_zero a⟩, dot_add a⟩ : Axes ℝ →+ ℝ) f s

theorem kickMap_symm (G : ℝ) (mass : Fin n → ℝ) (mid x y : Fin n → Axes ℝ) :
    ∑ i, mass i * (x i).dot (kickMap G mass mid y i) = ∑ i, mass i * (y i).dot (kickMap G mass mid x i) := by
  rw [← sub_eq_zero, ← Finset.sum_sub_distrib]
  have e : ∀ i, mass i * (x i).dot (kickMap G mass mid y i) - mass i * (y i).dot (kickMap G mass mid x i)
      = ∑ j, if j = i then 0 else G * mass i * mass j
        * ((x i).dot (tidalMap (mid j - mid i) (y j - y i)) - (y i).dot (tidalMap (mid j - mid i) (x j - x i))) := by
    intro i
    unfold kickMap
    rw [dot_sum', dot_sum', Finset.mul_sum, Finset.mul_sum, ← Finset.sum_sub_distrib]
    refine Finset.sum_congr rfl fun j _ => ?_
    split
    · simp [dot_zero]
    · rw [dot_smul, dot_smul]; ring
  simp only [e]
  refine sum_antisymm (M := ℝ) _ _ fun i j => ?_
  by_cases hij : i = j
  · subst hij; simp
  · rw [if_neg (Ne.symm hij), if_neg hij]
    have c1 : tidalMap (mid i - mid j) (y i - y j) = -tidalMap (mid j - mid i) (y j - y i) := by
      rw [← tidalMap_neg, neg_sub, neg_sub]
    have c2 : tidalMap (mid i - mid j) (x i - x j) = -tidalMap (mid j - mid i) (x j - x i) := by
      rw [← tidalMap_neg, neg_sub, neg_sub]
    rw [c1, c2]
    have s := tidalMap_symm (mid j - mid i) (x j - x i) (y j - y i)
    rw [sub_dot, sub_dot] at s
    rw [dot_neg, dot_neg]
    linear_combination (G * mass i * mass j) * (-s)

/-- A step of the family. -/
def Iterated (k : Consts ℝ) (m : Models ℝ) (eps2 dt : ℝ) (roche : Fin n → Fin n → ℝ) (u u' : ℝ → Universe ℝ n) : Prop :=
  ∀ᶠ e in 𝓝 0, ∃ time record, leapfrogIterate k m eps2 roche dt (dt / 2) time record (u e) = some (u' e)

theorem Variation.step {u u' : ℝ → Universe ℝ n} {x v : Fin n → Axes ℝ} (hf : ∀ᶠ e in 𝓝 0, Forceless (u e))
    (h : Iterated k m eps2 dt roche u u') (hv : Variation u x v) :
    (∀ᶠ e in 𝓝 0, Forceless (u' e)) ∧
    ∃ x' v', Variation u' x' v'
      ∧ v' = (fun i => v i + dt • kickMap k.g (fun i => ((u 0).particles i).mass)
          (fun i => ((u 0).particles i).inertialPosition + (dt / 2) • ((u 0).particles i).inertialVelocity)
          (fun i => x i + (dt / 2) • v i) i)
      ∧ x' = fun i => x i + (dt / 2) • v i + (dt / 2) • v' i := by
  have all := (hf.and h).mono fun e he => by
    obtain ⟨he1, time, record, he2⟩ := he
    exact leapfrogIterate_gravity he1 he2
  refine ⟨all.mono fun e he => he.1, ?_⟩
  have mid : ∀ i, VecDeriv (fun e => ((u e).particles i).inertialPosition + (dt / 2) • ((u e).particles i).inertialVelocity)
      (x i + (dt / 2) • v i) 0 := fun i => VecDeriv.add' (hv.position i) (VecDeriv.const_smul' _ (hv.velocity i))
  have zero := all.self_of_nhds
  have hm := hv.mass
  have vel : ∀ i, VecDeriv (fun e => ((u' e).particles i).inertialVelocity)
      (v i + dt • kickMap k.g (fun i => ((u 0).particles i).mass)
          (fun i => ((u 0).particles i).inertialPosition + (dt / 2) • ((u 0).particles i).inertialVelocity)
          (fun i => x i + (dt / 2) • v i) i) 0 := by
    intro i
    have a : VecDeriv (fun e => ∑ j, if j = i then 0 else newton k.g ((u 0).particles j).mass
          (((u e).particles i).inertialPosition + (dt / 2) • ((u e).particles i).inertialVelocity)
          (((u e).particles j).inertialPosition + (dt / 2) • ((u e).particles j).inertialVelocity))
        (kickMap k.g (fun i => ((u 0).particles i).mass)
          (fun i => ((u 0).particles i).inertialPosition + (dt / 2) • ((u 0).particles i).inertialVelocity)
          (fun i => x i + (dt / 2) • v i) i) 0 := by
      refine VecDeriv.sum' _ fun j _ => ?_
      by_cases hj : j = i
      · simp only [if_pos hj]; exact VecDeriv.zero' 0
      · simp only [if_neg hj]
        exact newton_deriv _ _ (mid i) (mid j) (zero.2.1 i j (Ne.symm hj))
    refine VecDeriv.congr' (VecDeriv.add' (hv.velocity i) (VecDeriv.const_smul' dt a)) ?_
    filter_upwards [all, hm] with e he hme
    rw [(he.2.2 i).2.1]
    simp only [hme]
  refine ⟨_, _, ⟨?_, fun i => ?_, vel⟩, rfl, rfl⟩
  · filter_upwards [all, hm] with e he hme i
    rw [(he.2.2 i).1, (zero.2.2 i).1, hme]
  · refine VecDeriv.congr' (VecDeriv.add' (mid i) (VecDeriv.const_smul' (dt / 2) (vel i))) ?_
    filter_upwards [all] with e he
    exact (he.2.2 i).2.2

/-- **C110**: take two families of states through the same state and apply any number of iterations of LeapFrog without
forces other than gravity.  The results are families with derivatives again, and the symplectic form of the two derivatives
has not changed. -/
theorem C110_symplectic {u w : ℕ → ℝ → Universe ℝ n} {N : ℕ}
    (hu : ∀ j < N, Iterated k m eps2 dt roche (u j) (u (j + 1))) (hw : ∀ j < N, Iterated k m eps2 dt roche (w j) (w (j + 1)))
    (fu : ∀ᶠ e in 𝓝 0, Forceless (u 0 e)) (fw : ∀ᶠ e in 𝓝 0, Forceless (w 0 e)) (h0 : SameState (u 0 0) (w 0 0))
    {x v y z : Fin n → Axes ℝ} (hx : Variation (u 0) x v) (hy : Variation (w 0) y z) :
    ∃ x' v' y' z', Variation (u N) x' v' ∧ Variation (w N) y' z'
      ∧ symplectic (fun i => ((u N 0).particles i).mass) x' v' y' z'
        = symplectic (fun i => ((u 0 0).particles i).mass) x v y z := by
  suffices ∀ j ≤ N, (∀ᶠ e in 𝓝 0, Forceless (u j e)) ∧ (∀ᶠ e in 𝓝 0, Forceless (w j e)) ∧ SameState (u j 0) (w j 0)
      ∧ ∃ x' v' y' z', Variation (u j) x' v' ∧ Variation (w j) y' z'
      ∧ symplectic (fun i => ((u j 0).particles i).mass) x' v' y' z'
        = symplectic (fun i => ((u 0 0).particles i).mass) x v y z from (this N le_rfl).2.2.2
  intro j
  induction j with
  | zero => exact fun _ => ⟨fu, fw, h0, x, v, y, z, hx, hy, rfl⟩
  | succ j ih =>
    intro hj
    obtain ⟨f1, f2, same, x1, v1, y1, z1, d1, d2, e⟩ := ih (by omega)
    obtain ⟨g1, x2, v2, a1, ev, ex⟩ := d1.step f1 (hu j (by omega))
    obtain ⟨g2, y2, z2, a2, ez, ey⟩ := d2.step f2 (hw j (by omega))
    obtain ⟨tu, ru, iu⟩ := (hu j (by omega)).self_of_nhds
    obtain ⟨tw, rw', iw⟩ := (hw j (by omega)).self_of_nhds
    have su := leapfrogIterate_gravity f1.self_of_nhds iu
    have sw := leapfrogIterate_gravity f2.self_of_nhds iw
    refine ⟨g1, g2, fun i => ?_, x2, v2, y2, z2, a1, a2, ?_⟩
    · obtain ⟨p1, p2, p3⟩ := su.2.2 i
      obtain ⟨q1, q2, q3⟩ := sw.2.2 i
      have ev : ((u (j + 1) 0).particles i).inertialVelocity = ((w (j + 1) 0).particles i).inertialVelocity := by
        rw [p2, q2]
        simp only [fun i => (same i).1, fun i => (same i).2.1, fun i => (same i).2.2]
      refine ⟨by rw [p1, q1, (same i).1], ?_, ev⟩
      rw [p3, q3, ev]
      dsimp only
      rw [(same i).2.1, (same i).2.2]
    · rw [← e]
      have masses : (fun i => ((u (j + 1) 0).particles i).mass) = fun i => ((u j 0).particles i).mass :=
        funext fun i => (su.2.2 i).1
      rw [masses]
      have sm : (fun i => ((w j 0).particles i).mass) = fun i => ((u j 0).particles i).mass :=
        funext fun i => (same i).1.symm
      have sp : (fun i => ((w j 0).particles i).inertialPosition + (dt / 2) • ((w j 0).particles i).inertialVelocity)
          = fun i => ((u j 0).particles i).inertialPosition + (dt / 2) • ((u j 0).particles i).inertialVelocity :=
        funext fun i => by rw [(same i).2.1, (same i).2.2]
      rw [sm, sp] at ez
      generalize em : (fun i => ((u j 0).particles i).mass) = mass at ev ez ⊢
      have key := kickMap_symm k.g mass
        (fun i => ((u j 0).particles i).inertialPosition + (dt / 2) • ((u j 0).particles i).inertialVelocity)
        (fun i => x1 i + (dt / 2) • v1 i) (fun i => y1 i + (dt / 2) • z1 i)
      generalize kickMap k.g mass
        (fun i => ((u j 0).particles i).inertialPosition + (dt / 2) • ((u j 0).particles i).inertialVelocity)
        (fun i => x1 i + (dt / 2) • v1 i) = A at *
      generalize kickMap k.g mass
        (fun i => ((u j 0).particles i).inertialPosition + (dt / 2) • ((u j 0).particles i).inertialVelocity)
        (fun i => y1 i + (dt / 2) • z1 i) = B at *
      rw [← sub_eq_zero] at key ⊢
      unfold symplectic
      rw [← Finset.sum_sub_distrib] at key ⊢
      have : ∀ i, mass i * ((x2 i).dot (z2 i) - (y2 i).dot (v2 i)) - mass i * ((x1 i).dot (z1 i) - (y1 i).dot (v1 i))
          = dt * (mass i * (x1 i + (dt / 2) • v1 i).dot (B i) - mass i * (y1 i + (dt / 2) • z1 i).dot (A i)) := by
        intro i
        rw [ex, ey, ev, ez]
        simp only [dot_add, add_dot, dot_smul, smul_dot]
        rw [Axes.dot_comm (z1 i) (v1 i), Axes.dot_comm (B i) (v1 i), Axes.dot_comm (A i) (z1 i), Axes.dot_comm (B i) (A i)]
        ring
      rw [Finset.sum_congr rfl fun i _ => this i, ← Finset.mul_sum, key, mul_zero]

/-- Two bodies whose separation grows by `e`. -/
noncomputable def stretched (e : ℝ) : Universe ℝ 2 :=
  { relativisticUniverse .kidder1995 0 0 with
    consider := ⟨false, false, false, false, false, false⟩,
    particles := fun i => { (relativisticUniverse .kidder1995 0 0).particles i with
      inertialPosition := if i = 1 then ⟨1 + e, 0, 0⟩ else 0 } }

/-- Two bodies whose velocities change by `e`. -/
noncomputable def pushed (e : ℝ) : Universe ℝ 2 :=
  { stretched 0 with
    particles := fun i => { (stretched 0).particles i with
      inertialVelocity := ((stretched 0).particles i).inertialVelocity + e • if i = 1 then ⟨1, 0, 0⟩ else 0 } }

/-- Both families make steps. -/
example : ∃ u', Iterated k m 0 (1 / 10) (fun _ _ => 0) stretched u' := by
  have key : ∀ e : ℝ, |e| < 1 / 2 → ∃ u', leapfrogIterate k m 0 (fun _ _ => 0) (1 / 10) (1 / 10 / 2) 0 false (stretched e) = some u' := by
    intro e he
    rw [abs_lt] at he
    obtain ⟨u', h, -⟩ := leapfrogIterate_defined (k := k) (m := m) (eps2 := 0) (dt := 1 / 10) (roche := fun _ _ => 0)
      (u := stretched e) ⟨⟨rfl, rfl, rfl, rfl⟩, rfl, fun i => by
        by_cases hi : i = 0 <;> simp [stretched, relativisticUniverse, hi]⟩ 0 (by
        intro i j hij
        obtain ⟨rfl, rfl⟩ : i = 0 ∧ j = 1 := by omega
        have r : ∀ i, ((stretched e).particles i).radius = 0 := fun i => by
          by_cases hi : i = 0 <;> simp [stretched, relativisticUniverse, hi, blank]
        have x0 : ((stretched e).particles 0).inertialPosition + (1 / 10 / 2 : ℝ) • ((stretched e).particles 0).inertialVelocity
            = 0 := by ext <;> simp [stretched, relativisticUniverse, blank]
        have x1 : ((stretched e).particles 1).inertialPosition + (1 / 10 / 2 : ℝ) • ((stretched e).particles 1).inertialVelocity
            = ⟨1 + e, 1 / 20, 0⟩ := by ext <;> simp [stretched, relativisticUniverse, blank]; norm_num
        simp only [x0, x1, r, dot, sub_x, sub_y, sub_z, zero_x, zero_y, zero_z]
        refine ⟨?_, ?_, fun _ => ?_⟩ <;> nlinarith)
    exact ⟨u', h⟩
  classical
  refine ⟨fun e => if h : |e| < 1 / 2 then (key e h).choose else stretched e, ?_⟩
  have : ∀ᶠ e : ℝ in 𝓝 0, |e| < 1 / 2 := by
    filter_upwards [Metric.ball_mem_nhds (0 : ℝ) (by norm_num : (0 : ℝ) < 1 / 2)] with e he
    simpa using he
  filter_upwards [this] with e he
  refine ⟨0, false, ?_⟩
  simp only [dif_pos he]
  exact (key e he).choose_spec

/-- Both are variations of the same state without other forces, with a symplectic form that is not zero. -/
example : (∀ e, Forceless (stretched e)) ∧ (∀ e, Forceless (pushed e)) ∧ SameState (stretched 0) (pushed 0)
    ∧ Variation stretched (fun i => if i = 1 then ⟨1, 0, 0⟩ else 0) (fun _ => 0)
    ∧ Variation pushed (fun _ => 0) (fun i => if i = 1 then ⟨1, 0, 0⟩ else 0)
    ∧ symplectic (fun i => ((stretched 0).particles i).mass) (fun i => if i = 1 then ⟨1, 0, 0⟩ else 0) (fun _ => 0)
        (fun _ => 0) (fun i => if i = 1 then ⟨1, 0, 0⟩ else 0) = ((stretched 0).particles 1).mass := by
  have id' := hasDerivAt_id' (0 : ℝ)
  refine ⟨fun e => ⟨rfl, rfl, rfl, rfl⟩, fun e => ⟨rfl, rfl, rfl, rfl⟩, fun i => ⟨rfl, rfl, ?_⟩, ⟨?_, ?_, ?_⟩, ⟨?_, ?_, ?_⟩, ?_⟩
  · simp [pushed]
  · exact Eventually.of_forall fun e i => rfl
  · intro i
    by_cases hi : i = 1
    · simp only [stretched, hi, if_true]
      exact ⟨by simpa using id'.const_add 1, hasDerivAt_const _ _, hasDerivAt_const _ _⟩
    · simp only [stretched, hi, if_false]
      exact VecDeriv.zero' 0
  · exact fun i => VecDeriv.const' _ 0
  · exact Eventually.of_forall fun e i => rfl
  · exact fun i => VecDeriv.const' _ 0
  · exact fun i => VecDeriv.line' _ _ 0
  · simp [symplectic, Fin.sum_univ_two, dot]

end Posidonius.Univ
