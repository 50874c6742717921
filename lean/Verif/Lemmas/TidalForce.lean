import Verif.Lemmas.TidesUniverse
import Verif.Lemmas.Tools
import Verif.Spec.TidalForce
import Mathlib.Analysis.SpecialFunctions.Sqrt

/-! Lemmas for C92 and C93. -/

namespace Posidonius.Univ
open Finset
open Gravity (Ignore)
open WHFast (VecDeriv)

variable {n : Nat}

/-! ### The quadrupole -/

/-- Minus the gradient of the energy. -/
noncomputable def quadrupoleForce (G m R : ℝ) (r s : Axes ℝ) : Axes ℝ :=
  (G * m ^ 2 * R ^ 5 / 2 / (Real.sqrt (r.dot r) ^ 5 * Real.sqrt (s.dot s) ^ 5)) •
    ((6 * r.dot s) • s + (3 * s.dot s - 15 * r.dot s ^ 2 / r.dot r) • r)

theorem quadrupoleForce_isForce (G m R : ℝ) (r s : Axes ℝ) (hr : 0 < r.dot r) :
    IsForce (fun x => quadrupoleEnergy G m R x s) r (quadrupoleForce G m R r s) := by
  intro e
  have e1 : ∀ x : ℝ, (r + x • e).dot (r + x • e) = r.dot r + x * (2 * r.dot e) + x ^ 2 * e.dot e := by
    intro x; simp [Axes.dot]; ring
  have e2 : ∀ x : ℝ, (r + x • e).dot s = r.dot s + x * e.dot s := by
    intro x; simp [Axes.dot]; ring
  unfold quadrupoleEnergy
  simp only [e1, e2]
  have hx := hasDerivAt_id' (0 : ℝ)
  have hg : HasDerivAt (fun x : ℝ => r.dot r + x * (2 * r.dot e) + x ^ 2 * e.dot e) (2 * r.dot e) 0 := by
    have := ((hx.mul_const (2 * r.dot e)).const_add (r.dot r)).add ((hx.pow 2).mul_const (e.dot e))
    refine this.congr_deriv ?_
    simp
  have hs := (hg.sqrt (by simpa using hr.ne')).pow 5
  have hn : HasDerivAt (fun x : ℝ => -(G * m ^ 2 * R ^ 5) * (3 * (r.dot s + x * e.dot s) ^ 2
      - (r.dot r + x * (2 * r.dot e) + x ^ 2 * e.dot e) * s.dot s))
      (-(G * m ^ 2 * R ^ 5) * (6 * r.dot s * e.dot s - 2 * r.dot e * s.dot s)) 0 := by
    have := (((((hx.mul_const (e.dot s)).const_add (r.dot s)).pow 2).const_mul 3).sub
      (hg.mul_const (s.dot s))).const_mul (-(G * m ^ 2 * R ^ 5))
    refine this.congr_deriv ?_
    simp
    ring_nf
    simp
  have hρ : Real.sqrt (r.dot r) ^ 2 = r.dot r := Real.sq_sqrt hr.le
  have hρ0 : Real.sqrt (r.dot r) ≠ 0 := (Real.sqrt_pos.2 hr).ne'
  by_cases hS : Real.sqrt (s.dot s) ^ 5 = 0
  · simp only [hS, mul_zero, div_zero]
    refine (hasDerivAt_const (0 : ℝ) (0 : ℝ)).congr_deriv ?_
    simp [quadrupoleForce, hS, Axes.zero_dot]
  · have hd := hn.div ((hs.const_mul 2).mul_const (Real.sqrt (s.dot s) ^ 5)) (by
      simpa using ⟨hρ0, by simpa using hS⟩)
    refine hd.congr_deriv ?_
    have q : (quadrupoleForce G m R r s).dot e
        = G * m ^ 2 * R ^ 5 / 2 / (Real.sqrt (r.dot r) ^ 5 * Real.sqrt (s.dot s) ^ 5)
          * (6 * r.dot s * e.dot s + (3 * s.dot s - 15 * r.dot s ^ 2 / r.dot r) * r.dot e) := by
      simp only [quadrupoleForce, Axes.smul_dot, Axes.add_dot, Axes.dot_comm s e]
    rw [q]
    simp only [Pi.pow_apply, Pi.mul_apply, Pi.add_apply, Pi.sub_apply, Pi.div_apply, zero_mul, add_zero, ne_eq,
      OfNat.ofNat_ne_zero, not_false_eq_true, zero_pow]
    generalize Real.sqrt (s.dot s) ^ 5 = S at *
    rw [← hρ]
    simp only [Real.sqrt_sq (Real.sqrt_nonneg _)]
    generalize Real.sqrt (r.dot r) = ρ at *
    field_simp
    push_cast
    ring

/-- First order of the force in the lag. -/
theorem quadrupoleForce_deriv (G m R : ℝ) (r u : Axes ℝ) (hr : 0 < r.dot r) :
    VecDeriv (fun τ => quadrupoleForce G m R r (r + τ • u))
      ((3 * G * m ^ 2 * R ^ 5 / Real.sqrt (r.dot r) ^ 8) • (u + (2 * r.dot u / r.dot r) • r)) 0 := by
  have e1 : ∀ x : ℝ, (r + x • u).dot (r + x • u) = r.dot r + x * (2 * r.dot u) + x ^ 2 * u.dot u := by
    intro x; simp [Axes.dot]; ring
  have e2 : ∀ x : ℝ, r.dot (r + x • u) = r.dot r + x * r.dot u := by
    intro x; simp [Axes.dot]; ring
  have hρ : Real.sqrt (r.dot r) ^ 2 = r.dot r := Real.sq_sqrt hr.le
  have hρ0 : Real.sqrt (r.dot r) ≠ 0 := (Real.sqrt_pos.2 hr).ne'
  have hx := hasDerivAt_id' (0 : ℝ)
  have hg : HasDerivAt (fun x : ℝ => r.dot r + x * (2 * r.dot u) + x ^ 2 * u.dot u) (2 * r.dot u) 0 := by
    have := ((hx.mul_const (2 * r.dot u)).const_add (r.dot r)).add ((hx.pow 2).mul_const (u.dot u))
    refine this.congr_deriv ?_
    simp
  have hs := (hg.sqrt (by simpa using hr.ne')).pow 5
  have hl : HasDerivAt (fun x : ℝ => r.dot r + x * r.dot u) (r.dot u) 0 := by
    refine ((hx.mul_const (r.dot u)).const_add (r.dot r)).congr_deriv ?_
    simp
  have key : ∀ a b : ℝ, HasDerivAt (fun x : ℝ =>
      G * m ^ 2 * R ^ 5 / 2 / (Real.sqrt (r.dot r) ^ 5
          * Real.sqrt (r.dot r + x * (2 * r.dot u) + x ^ 2 * u.dot u) ^ 5)
        * (6 * (r.dot r + x * r.dot u) * (a + x * b)
          + (3 * (r.dot r + x * (2 * r.dot u) + x ^ 2 * u.dot u)
            - 15 * (r.dot r + x * r.dot u) ^ 2 / r.dot r) * a))
      (3 * G * m ^ 2 * R ^ 5 / Real.sqrt (r.dot r) ^ 8 * (b + 2 * r.dot u / r.dot r * a)) 0 := by
    intro a b
    have h1 := (hasDerivAt_const (0 : ℝ) (G * m ^ 2 * R ^ 5 / 2)).div
      (hs.const_mul (Real.sqrt (r.dot r) ^ 5)) (by simpa using hρ0)
    have h2 := ((hl.const_mul 6).mul ((hx.mul_const b).const_add a)).add
      (((hg.const_mul 3).sub (((hl.pow 2).const_mul 15).div_const (r.dot r))).mul_const a)
    refine (h1.mul h2).congr_deriv ?_
    simp only [Pi.pow_apply, Pi.mul_apply, Pi.add_apply, Pi.sub_apply, Pi.div_apply, zero_mul, add_zero, ne_eq,
      OfNat.ofNat_ne_zero, not_false_eq_true, zero_pow]
    rw [← hρ]
    simp only [Real.sqrt_sq (Real.sqrt_nonneg _)]
    generalize Real.sqrt (r.dot r) = ρ at *
    field_simp
    push_cast
    ring
  have hq : ∀ τ : ℝ, quadrupoleForce G m R r (r + τ • u)
      = (G * m ^ 2 * R ^ 5 / 2 / (Real.sqrt (r.dot r) ^ 5
          * Real.sqrt (r.dot r + τ * (2 * r.dot u) + τ ^ 2 * u.dot u) ^ 5)) •
        ((6 * (r.dot r + τ * r.dot u)) • (r + τ • u)
          + (3 * (r.dot r + τ * (2 * r.dot u) + τ ^ 2 * u.dot u)
            - 15 * (r.dot r + τ * r.dot u) ^ 2 / r.dot r) • r) := by
    intro τ
    unfold quadrupoleForce
    rw [e1, e2]
  refine ⟨?_, ?_, ?_⟩
  · refine (key r.x u.x).congr_of_eventuallyEq (Filter.Eventually.of_forall fun τ => ?_)
    simp [hq]
    ring
  · refine (key r.y u.y).congr_of_eventuallyEq (Filter.Eventually.of_forall fun τ => ?_)
    simp [hq]
    ring
  · refine (key r.z u.z).congr_of_eventuallyEq (Filter.Eventually.of_forall fun τ => ?_)
    simp [hq]
    ring

/-- The published formula satisfies the physical definition. -/
theorem weakFriction_formula (G m R love sigma : ℝ) (spin r v : Axes ℝ) (hG : G ≠ 0) (hr : 0 < r.dot r) :
    WeakFriction G m R love sigma spin r v
      ((-3 * G * m ^ 2 * R ^ 5 * love / Real.sqrt (r.dot r) ^ 8) • r
        + (9 / 2 * m ^ 2 * R ^ 10 * sigma / Real.sqrt (r.dot r) ^ 8) •
          ((spin.cross r - v) + (2 * r.dot (spin.cross r - v) / r.dot r) • r)) := by
  refine ⟨_, _, fun τ => quadrupoleForce_isForce G m R r _ hr, quadrupoleForce_deriv G m R r _ hr, ?_⟩
  rw [smul_smul]
  have hρ : Real.sqrt (r.dot r) ^ 2 = r.dot r := Real.sq_sqrt hr.le
  have hρ0 : Real.sqrt (r.dot r) ≠ 0 := (Real.sqrt_pos.2 hr).ne'
  congr 1
  · simp only [zero_smul, add_zero, quadrupoleForce]
    rw [← add_smul, smul_smul, smul_smul]
    congr 1
    rw [← hρ]
    simp only [Real.sqrt_sq (Real.sqrt_nonneg _)]
    generalize Real.sqrt (r.dot r) = ρ at *
    field_simp
    ring
  · congr 1
    field_simp
    ring

/-- It is the only one. -/
theorem IsForce.unique {E : Axes ℝ → ℝ} {r a b : Axes ℝ} (ha : IsForce E r a) (hb : IsForce E r b) : a = b := by
  have h : ∀ e, a.dot e = b.dot e := fun e => neg_injective ((ha e).unique (hb e))
  have := h (a - b)
  have h0 : (a - b).dot (a - b) = 0 := by rw [Axes.sub_dot, this, sub_self]
  exact sub_eq_zero.1 (Axes.dot_self_eq_zero h0)

theorem WeakFriction.unique {G m R love sigma : ℝ} {spin r v a b : Axes ℝ}
    (ha : WeakFriction G m R love sigma spin r v a) (hb : WeakFriction G m R love sigma spin r v b) : a = b := by
  obtain ⟨Q, D, h1, h2, rfl⟩ := ha
  obtain ⟨Q', D', h1', h2', rfl⟩ := hb
  have hQ : Q = Q' := funext fun τ => (h1 τ).unique (h1' τ)
  subst hQ
  have hD : D = D' := by
    ext
    · exact h2.1.unique h2'.1
    · exact h2.2.1.unique h2'.2.1
    · exact h2.2.2.unique h2'.2.2
  rw [hD]

/-! ### The force of an evaluation -/

/-- The companion with the components of the force written out. -/
noncomputable def withComponents (k : Consts ℝ) (t : Table ℝ) (lh lp : ℝ) (host p : Particle ℝ) : Particle ℝ :=
  { p with tides := { p.tides with
      orthogonalStellar := 9 / 2 * p.mass ^ 2 * host.radius ^ 10 * hostSigma t host p / p.tides.distance ^ 7,
      orthogonalPlanetary := 9 / 2 * host.mass ^ 2 * p.radius ^ 10 * particleSigma t host p / p.tides.distance ^ 7,
      radial := -3 * k.g / p.tides.distance ^ 7
          * (p.mass ^ 2 * host.radius ^ 5 * lh + host.mass ^ 2 * p.radius ^ 5 * lp)
        + (-27 / 2) * p.tides.radialVelocity / p.tides.distance ^ 8
          * (host.mass ^ 2 * p.radius ^ 10 * particleSigma t host p
            + p.mass ^ 2 * host.radius ^ 10 * hostSigma t host p) } }

theorem ctl_radial_full (k : Consts ℝ) (t : Table ℝ) {h i : Fin n} {p : Fin n → Particle ℝ} (hi : i ≠ h)
    {a b lh a' b' lp : ℝ} (hh : (p h).tides.effect = .central (.constantTimeLag a b lh))
    (hp : (p i).tides.effect = .orbiting (.constantTimeLag a' b' lp)) :
    (radialComponent k t h p i).tides.radial
      = -3 * k.g / (p i).tides.distance ^ 7
          * ((p i).mass ^ 2 * (p h).radius ^ 5 * lh + (p h).mass ^ 2 * (p i).radius ^ 5 * lp)
        + (-27 / 2) * (p i).tides.radialVelocity / (p i).tides.distance ^ 8
          * ((p h).mass ^ 2 * (p i).radius ^ 10 * particleSigma t (p h) (p i)
            + (p i).mass ^ 2 * (p h).radius ^ 10 * hostSigma t (p h) (p i)) := by
  unfold radialComponent
  rw [mapOthers_other hi]
  unfold radialStep
  rw [hp, hh]
  dsimp only [TidesEffect.orbitingCtl, TidesEffect.hostLoveNumber]
  simp only [ipow_real, lit_real]
  push_cast
  ring

theorem ctlForce_congr {a b c d : Particle ℝ} (h1 : a.spin = c.spin) (h2 : b.spin = d.spin)
    (h3 : b.tides.position = d.tides.position) (h4 : b.tides.velocity = d.tides.velocity)
    (h5 : b.tides.distance = d.tides.distance) (h6 : b.tides.radialVelocity = d.tides.radialVelocity)
    (h7 : b.tides.orthogonalStellar = d.tides.orthogonalStellar)
    (h8 : b.tides.orthogonalPlanetary = d.tides.orthogonalPlanetary)
    (h9 : b.tides.radial = d.tides.radial) : ctlForce a b = ctlForce c d := by
  unfold ctlForce
  rw [h1, h2, h3, h4, h5, h6, h7, h8, h9]

/-- The tidal force on a companion in `tidesAndFlattening`. -/
theorem tidesAndFlattening_force (k : Consts ℝ) (m : Models ℝ) (c : Consider) (ct : c.tides = true)
    (h : Fin n) (p : Fin n → Particle ℝ) (t : Table ℝ) (hc : AllCtl h p) (hm : ∀ i, (p i).mass ≠ 0)
    {a b lh : ℝ} (hh : (p h).tides.effect = .central (.constantTimeLag a b lh))
    {i : Fin n} (hi : i ≠ h) {a' b' lp : ℝ} (hp : (p i).tides.effect = .orbiting (.constantTimeLag a' b' lp)) :
    (p i).mass • ((tidesAndFlattening k m true true c h p t).1 i).tides.acceleration
      = ctlForce (p h) (withComponents k (pairFactors k h p t) lh lp (p h) (p i)) := by
  set q := (tidesAndFlattening k m true true c h p t).1
  set t1 := pairFactors k h p t with ht1
  set p1 := tidesShapes m h (orthogonalComponent t1 h p) with hp1
  set p2 := (if c.flattening then flatteningShapes m h (flatteningOrthogonal h p1) else p1) with hp2
  set pr := radialComponent k t1 h p2 with hpr
  set p3 := tidalAcceleration m.tides h pr with hp3
  set p4 := (if c.flattening then flatteningAcceleration m.flattening h (flatteningRadial h p3) else p3) with hp4
  set p5 := tidalDL m.tides h p4 with hp5
  have hq : q = (if c.flattening then flatteningDL m.flattening h p5 else p5) := by
    simp only [q, tidesAndFlattening, ct, Bool.true_or, Bool.or_true, Bool.true_and, if_true]
    rfl
  have f2 : Same noFlattening p2 p1 :=
    Same.ite ((flatteningShapes_frame m h _).trans (flatteningOrthogonal_frame h p1)) (Same.refl _)
  have f4 : Same noFlattening p4 p3 :=
    Same.ite ((flatteningAcceleration_frame _ h _).trans (flatteningRadial_frame h p3)) (Same.refl _)
  have f6 : Same noFlattening q p5 := by
    rw [hq]; exact Same.ite (flatteningDL_frame _ h p5) (Same.refl _)
  have g1 : Same geo p1 p := (tidesShapes_geo m h _).trans (orthogonalComponent_geo t1 h p)
  have gr : Same geo pr p2 := radialComponent_geo k t1 h p2
  have c1 : Same core p1 p :=
    ((tidesShapes_frame m h _).trans (orthogonalComponent_frame t1 h p)).core_tides
  have c2 : Same core p2 p := f2.core_flattening.trans c1
  have cr : Same core pr p := (radialComponent_frame k t1 h p2).core_tides.trans c2
  have gt2 : ∀ i, (geo (p2 i)).tides = (geo (p i)).tides := by
    intro i
    have e : (geo (p2 i)).tides = (geo (p1 i)).tides := by
      simp only [geo, f2.tides_of_flattening i]
    rw [e, g1 i]
  have gf2 : ∀ {A : Type} (f : Tides ℝ → A), (∀ q : Particle ℝ, f q.tides = f (geo q).tides) →
      ∀ i, f (p2 i).tides = f (p i).tides := by
    intro A f hf i
    rw [hf, gt2 i, ← hf]
  have gf : ∀ {A : Type} (f : Tides ℝ → A), (∀ q : Particle ℝ, f q.tides = f (geo q).tides) →
      ∀ i, f (pr i).tides = f (p i).tides := by
    intro A f hf i
    rw [hf, gr i, ← hf, gf2 f hf]
  have cf2 : ∀ {A : Type} (f : Particle ℝ → A), (∀ q, f q = f (core q)) →
      ∀ i, f (p2 i) = f (p i) := by
    intro A f hf i
    rw [hf, c2 i, ← hf]
  have cf : ∀ {A : Type} (f : Particle ℝ → A), (∀ q, f q = f (core q)) →
      ∀ i, f (pr i) = f (p i) := by
    intro A f hf i
    rw [hf, cr i, ← hf]
  have hcr : AllCtl h pr := hc.congr (gf (fun t => t.effect) (fun _ => rfl))
  have hc2 : AllCtl h p2 := hc.congr (gf2 (fun t => t.effect) (fun _ => rfl))
  have hmr : ∀ i, (pr i).mass = (p i).mass := cf Particle.mass (fun _ => rfl)
  have eacc : (q i).tides.acceleration = (p3 i).tides.acceleration := by
    have a1 := congrArg Tides.acceleration (dl_tides m.tides i (p := p4) (h := h))
    rw [f4.tides_of_flattening i] at a1
    rw [f6.tides_of_flattening]
    exact a1
  obtain ⟨a1, -⟩ := ctl_acceleration m.tides hcr (fun i => by rw [hmr]; exact hm i)
  have e1 := a1 i hi
  rw [hmr, ← hp3] at e1
  rw [eacc, e1]
  obtain ⟨r1, r2, -⟩ := ctl_radial k t1 hi hc2
  obtain ⟨s1, s2⟩ := ctl_orthogonal k t1 hi hc
  have sh : (p1 i).tides.orthogonalStellar = (orthogonalComponent t1 h p i).tides.orthogonalStellar
      ∧ (p1 i).tides.orthogonalPlanetary = (orthogonalComponent t1 h p i).tides.orthogonalPlanetary := by
    rw [hp1]
    unfold tidesShapes mapOthers
    dsimp only
    split
    · exact ⟨rfl, rfl⟩
    · split <;> exact ⟨rfl, rfl⟩
  have hsig : hostSigma t1 (p2 h) (p2 i) = hostSigma t1 (p h) (p i)
      ∧ particleSigma t1 (p2 h) (p2 i) = particleSigma t1 (p h) (p i) := by
    unfold hostSigma particleSigma
    rw [cf2 Particle.id (fun _ => rfl), cf2 Particle.id (fun _ => rfl), cf2 Particle.evolution (fun _ => rfl),
      cf2 Particle.evolution (fun _ => rfl), gf2 (fun t => t.scaledDissipationFactor) (fun _ => rfl),
      gf2 (fun t => t.scaledDissipationFactor) (fun _ => rfl)]
    exact ⟨rfl, rfl⟩
  have rr := ctl_radial_full k t1 hi (p := p2) (a := a) (b := b) (lh := lh) (a' := a') (b' := b') (lp := lp)
    (by rw [gf2 (fun t => t.effect) (fun _ => rfl)]; exact hh)
    (by rw [gf2 (fun t => t.effect) (fun _ => rfl)]; exact hp)
  refine ctlForce_congr (cf Particle.spin (fun _ => rfl) h) (cf Particle.spin (fun _ => rfl) i)
    (gf (fun t => t.position) (fun _ => rfl) i) (gf (fun t => t.velocity) (fun _ => rfl) i)
    (gf (fun t => t.distance) (fun _ => rfl) i) (gf (fun t => t.radialVelocity) (fun _ => rfl) i) ?_ ?_ ?_
  · refine r1.trans ?_
    rw [f2.tides_of_flattening, sh.1, s1]
    rfl
  · refine r2.trans ?_
    rw [f2.tides_of_flattening, sh.2, s2]
    rfl
  · refine rr.trans ?_
    rw [hsig.1, hsig.2, cf2 Particle.mass (fun _ => rfl), cf2 Particle.mass (fun _ => rfl),
      cf2 Particle.radius (fun _ => rfl), cf2 Particle.radius (fun _ => rfl),
      gf2 (fun t => t.distance) (fun _ => rfl), gf2 (fun t => t.radialVelocity) (fun _ => rfl)]
    rfl

/-- The force written out is the sum of the tides in the two bodies. -/
theorem ctlForce_weakFriction (k : Consts ℝ) (hg : k.g ≠ 0) (t : Table ℝ) (lh lp : ℝ) (host p : Particle ℝ)
    {r v : Axes ℝ} (hr : 0 < r.dot r) (h1 : p.tides.position = r) (h2 : p.tides.velocity = v)
    (h3 : p.tides.distance = Real.sqrt (r.dot r))
    (h4 : p.tides.radialVelocity = r.dot v / Real.sqrt (r.dot r)) :
    ∃ fh fp, WeakFriction k.g p.mass host.radius lh (hostSigma t host p) host.spin r v fh
      ∧ WeakFriction k.g host.mass p.radius lp (particleSigma t host p) p.spin r v fp
      ∧ ctlForce host (withComponents k t lh lp host p) = fh + fp := by
  refine ⟨_, _, weakFriction_formula _ _ _ _ _ _ _ _ hg hr, weakFriction_formula _ _ _ _ _ _ _ _ hg hr, ?_⟩
  unfold ctlForce withComponents
  dsimp only
  rw [h1, h2, h3, h4]
  have hρ : Real.sqrt (r.dot r) ^ 2 = r.dot r := Real.sq_sqrt hr.le
  have hρ0 : Real.sqrt (r.dot r) ≠ 0 := (Real.sqrt_pos.2 hr).ne'
  have e : ∀ w : Axes ℝ, r.dot (w.cross r - v) = -r.dot v := by
    intro w; simp [Axes.dot]; ring
  rw [e, e]
  rw [← hρ]
  simp only [Real.sqrt_sq (Real.sqrt_nonneg _)]
  generalize Real.sqrt (r.dot r) = ρ at *
  generalize hostSigma t host p = sh
  generalize particleSigma t host p = sp
  generalize r.dot v = rv
  ext <;> simp only [Axes.add_x, Axes.add_y, Axes.add_z, Axes.sdiv_x, Axes.sdiv_y, Axes.sdiv_z, Axes.smul_x,
    Axes.smul_y, Axes.smul_z, Axes.sub_x, Axes.sub_y, Axes.sub_z] <;> field_simp <;> ring

end Posidonius.Univ
