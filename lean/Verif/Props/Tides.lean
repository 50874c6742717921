import Verif.Lemmas.TidesUniverse
import Verif.Lemmas.Special

/-! Properties C33-C37: tides. -/

namespace Posidonius.Univ
open Finset
open Gravity (Ignore)

variable {n : Nat}

/-! ## Systems for the examples -/

/-- A star at the origin with constant-time-lag tides. -/
noncomputable def exampleStar : Particle ℝ :=
  { blank ℝ with mass := 1, massG := 1, radius := 1, momentOfInertia := 1, spin := ⟨1, 0, 0⟩,
                 angularMomentum := ⟨2, 0, 0⟩,
                 tides := { (blank ℝ).tides with effect := .central (.constantTimeLag 1 1 0),
                                                 scaledDissipationFactor := 1 } }

/-- A planet one unit away. -/
noncomputable def examplePlanet : Particle ℝ :=
  { blank ℝ with id := 1, mass := 1, massG := 1, radius := 1, momentOfInertia := 1,
                 inertialPosition := ⟨1, 0, 0⟩,
                 tides := { (blank ℝ).tides with effect := .orbiting (.constantTimeLag 1 1 0),
                                                 scaledDissipationFactor := 1 } }

/-- The star and the planet; the star's stored spin is older than its angular momentum. -/
noncomputable def exampleUniverse : Universe ℝ 2 :=
  { particles := fun i => if i = 0 then exampleStar else examplePlanet,
    evolvers := fun _ => ⟨.nonEvolving, [], [], [], [], [], 0⟩,
    consider := ⟨true, false, false, false, false, false⟩,
    grImplementation := .disabled,
    hosts := ⟨0, some 0, none, none, none, true, true, false, false, false⟩,
    table := fun _ => none }

/-- The same with the stored spin up to date. -/
noncomputable def currentUniverse : Universe ℝ 2 :=
  { exampleUniverse with
    particles := fun i => if i = 0 then { exampleStar with spin := ⟨2, 0, 0⟩ } else examplePlanet }

theorem exampleUniverse_ok : HostsOk exampleUniverse := by
  constructor <;> simp [exampleUniverse]

theorem currentUniverse_ok : HostsOk currentUniverse := by
  constructor <;> simp [currentUniverse, exampleUniverse]

theorem exampleUniverse_ctl : AllCtl 0 exampleUniverse.particles := by
  refine ⟨⟨1, 1, 0, by simp [exampleUniverse, exampleStar]⟩, fun i hi => ⟨1, 1, 0, ?_⟩⟩
  simp [exampleUniverse, examplePlanet, hi]

theorem currentUniverse_ctl : AllCtl 0 currentUniverse.particles := by
  refine ⟨⟨1, 1, 0, by simp [currentUniverse, exampleStar]⟩, fun i hi => ⟨1, 1, 0, ?_⟩⟩
  simp [currentUniverse, examplePlanet, hi]

theorem example_separated (u : Universe ℝ 2) (hu : u = exampleUniverse ∨ u = currentUniverse) (i : Fin 2)
    (hi : i ≠ 0) : (u.particles i).inertialPosition ≠ (u.particles 0).inertialPosition := by
  intro e
  have := congrArg Axes.x e
  rcases hu with rfl | rfl <;>
    simp [currentUniverse, exampleUniverse, hi, examplePlanet, exampleStar, blank] at this

theorem example_mass (u : Universe ℝ 2) (hu : u = exampleUniverse ∨ u = currentUniverse) (i : Fin 2) :
    (u.particles i).mass ≠ 0 := by
  rcases hu with rfl | rfl <;> by_cases hi : i = 0 <;>
    simp [currentUniverse, exampleUniverse, hi, examplePlanet, exampleStar]

theorem example_defined (k : Consts ℝ) (m : Models ℝ) (eps2 time : ℝ) (ignore : Ignore)
    (u : Universe ℝ 2) (hu : u = exampleUniverse ∨ u = currentUniverse) :
    ∃ u', calculateAdditionalEffects k m eps2 time false true true ignore (inertialToHeliocentric u)
      = some u' := by
  have hh : HasHosts (inertialToHeliocentric u) := by
    rcases hu with rfl | rfl <;> constructor <;>
      simp [inertialToHeliocentric, currentUniverse, exampleUniverse]
  have hn := (additionalEffects_none (k := k) (m := m) (eps2 := eps2) (time := time) (evolution := false)
    (dL := true) (acc := true) (ignore := ignore) hh rfl).not
  refine Option.ne_none_iff_exists'.1 (hn.2 ?_)
  rintro ⟨i, hi⟩
  have hI : ((inertialToHeliocentric u).particles i).momentOfInertia = 1 := by
    rcases hu with rfl | rfl <;> by_cases hi : i = 0 <;>
      simp [inertialToHeliocentric, currentUniverse, exampleUniverse, mapHost, mapOthers, hi, examplePlanet,
        exampleStar, toHeliocentric, zeroHeliocentric]
  rw [hI] at hi
  simp at hi

/-! ## C33 Action and reaction -/

/-- The mass-weighted tidal accelerations add up to zero, for every mixture of tidal models (also for a host
with Kaula's model, whose own forces are added afterwards). -/
theorem C33_momentum (m : OtherModels ℝ) (h : Fin n) (p : Fin n → Particle ℝ)
    (hm : ∀ i, (p i).mass ≠ 0)
    (hd : ∀ i, i ≠ h → (p i).tides.effect.isOrbiting = false → (p i).tides.acceleration = 0) :
    ∑ i, (p i).mass • (tidalAcceleration m h p i).tides.acceleration = 0 := by
  have first : ∑ i, (p i).mass • (firstPart m h p i).tides.acceleration = 0 :=
    momentum_of_recoil h (fun i => (p i).mass) _ _ hm
      (fun i hi => firstPart_other m h p i hi (hm i) (hd i hi)) (firstPart_host m h p)
  by_cases he : (p h).tides.effect = .central .kaula
  · rw [tidalAcceleration_kaula m h p he, kaulaLoop_momentum m h _ (fun i hi => mem_others.1 hi) _
      (fun i => (p i).mass) (firstPart_mass m h p) hm, first]
  · rw [tidalAcceleration_plain m h p he, first]

/-- ... and so they do after a whole evaluation of the additional effects. -/
theorem C33_evaluation {k : Consts ℝ} {m : Models ℝ} {eps2 time : ℝ} {evolution : Bool} {ignore : Ignore}
    {u u' : Universe ℝ n} {h : Fin n} (hok : HostsOk u) (hh : u.hosts.tides = some h)
    (ct : u.consider.tides = true) (hc : AllCtl h u.particles) (hm : ∀ i, (u.particles i).mass ≠ 0)
    (hsep : ∀ i, i ≠ h → (u.particles i).inertialPosition ≠ (u.particles h).inertialPosition)
    (hu : calculateAdditionalEffects k m eps2 time evolution true true ignore (inertialToHeliocentric u)
      = some u') :
    ∑ i, (u.particles i).mass • (u'.particles i).tides.acceleration = 0 :=
  (effects_balance hok hh ct hc hm hsep hu).2.2.2.1

example (k : Consts ℝ) (m : Models ℝ) : ∃ u',
    calculateAdditionalEffects k m 0 0 false true true .none (inertialToHeliocentric exampleUniverse) = some u'
    ∧ ∑ i, (exampleUniverse.particles i).mass • (u'.particles i).tides.acceleration = 0 := by
  obtain ⟨u', hu⟩ := example_defined k m 0 0 .none _ (Or.inl rfl)
  exact ⟨u', hu, C33_evaluation exampleUniverse_ok rfl rfl exampleUniverse_ctl (example_mass _ (Or.inl rfl))
    (example_separated _ (Or.inl rfl)) hu⟩

/-- The tidal force vanishes only if it should: the star of the example is pulled by the planet's bulge. -/
example (m : OtherModels ℝ) : ∃ p : Fin 2 → Particle ℝ, (∀ i, (p i).mass ≠ 0)
    ∧ (tidalAcceleration m 0 p 0).tides.acceleration ≠ 0 := by
  refine ⟨fun i => if i = 0 then exampleStar else { examplePlanet with
    tides := { examplePlanet.tides with position := ⟨1, 0, 0⟩, distance := 1, radial := 1 } },
    fun i => by by_cases hi : i = 0 <;> simp [hi, exampleStar, examplePlanet], ?_⟩
  have hk : (exampleStar).tides.effect ≠ .central .kaula := by simp [exampleStar]
  rw [tidalAcceleration_plain m 0 _ (by simpa using hk), firstPart_host]
  have : (univ.erase (0 : Fin 2)) = {1} := by decide
  rw [this, sum_singleton]
  intro e
  have := congrArg Axes.x e
  simp [companionTidalForce, tidalForce, ctlForce, exampleStar, examplePlanet, blank] at this

/-! ## C34 Angular momentum -/

/-- The rate of change of orbital plus rotational angular momentum by the tides, written with the spins
stored before the evaluation and the ones used by it: the old spins enter the products with the positions
only.  `r` is the position of the companion relative to the host. -/
theorem C34_exact_rate {k : Consts ℝ} {m : Models ℝ} {eps2 time : ℝ} {evolution : Bool} {ignore : Ignore}
    {u u' : Universe ℝ n} {h : Fin n} (hok : HostsOk u) (hh : u.hosts.tides = some h)
    (ct : u.consider.tides = true) (hc : AllCtl h u.particles) (hm : ∀ i, (u.particles i).mass ≠ 0)
    (hsep : ∀ i, i ≠ h → (u.particles i).inertialPosition ≠ (u.particles h).inertialPosition)
    (hu : calculateAdditionalEffects k m eps2 time evolution true true ignore (inertialToHeliocentric u)
      = some u') :
    ∑ i, ((u.particles i).mass • (u.particles i).inertialPosition.cross (u'.particles i).tides.acceleration
          + (u'.particles i).tides.dAngularMomentumDt)
      = ∑ i ∈ univ.erase h,
          let r := (u.particles i).inertialPosition - (u.particles h).inertialPosition
          (((u'.particles i).tides.orthogonalStellar
                * r.dot ((u.particles h).spin - (u'.particles h).spin)
              + (u'.particles i).tides.orthogonalPlanetary
                * r.dot ((u.particles i).spin - (u'.particles i).spin)) / Real.sqrt r.norm2) • r := by
  obtain ⟨b, g, -⟩ := effects_balance hok hh ct hc hm hsep hu
  rw [b]
  refine sum_congr rfl fun i hi => ?_
  have gi := g i (ne_of_mem_erase hi)
  unfold pairDefect
  dsimp only
  rw [gi.stellar, gi.planetary, gi.position, gi.distance, Axes.dot_sub, Axes.dot_sub]

/-- Total angular momentum is conserved if the stored spins were up to date (spin = angular momentum divided
by the moment of inertia) and the bodies do not evolve.  Missing: the general case, which is wrong, see
`C34_violated`. -/
theorem C34_partial {k : Consts ℝ} {m : Models ℝ} {eps2 time : ℝ} {evolution : Bool} {ignore : Ignore}
    {u u' : Universe ℝ n} {h : Fin n} (hok : HostsOk u) (hh : u.hosts.tides = some h)
    (ct : u.consider.tides = true) (hc : AllCtl h u.particles) (hm : ∀ i, (u.particles i).mass ≠ 0)
    (hsep : ∀ i, i ≠ h → (u.particles i).inertialPosition ≠ (u.particles h).inertialPosition)
    (he : (evolution && u.consider.evolution) = false)
    (hs : ∀ i, (u.particles i).momentOfInertia • (u.particles i).spin = (u.particles i).angularMomentum)
    (hu : calculateAdditionalEffects k m eps2 time evolution true true ignore (inertialToHeliocentric u)
      = some u') :
    ∑ i, ((u.particles i).mass • (u.particles i).inertialPosition.cross (u'.particles i).tides.acceleration
          + (u'.particles i).tides.dAngularMomentumDt) = 0 := by
  rw [C34_exact_rate hok hh ct hc hm hsep hu]
  have hsp : ∀ i, (u'.particles i).spin = (u.particles i).spin := by
    intro i
    obtain ⟨inertia, e1, e2, e3⟩ := (effects_balance hok hh ct hc hm hsep hu).2.2.1 i
    rw [e1, ← hs i, Axes.sdiv_eq_smul, smul_smul, ← (e3 he).1, inv_mul_cancel₀ e2, one_smul]
  refine sum_eq_zero fun i _ => ?_
  dsimp only
  rw [hsp, hsp, sub_self, sub_self, Axes.dot_zero]
  simp

example (k : Consts ℝ) (m : Models ℝ) : ∃ u',
    calculateAdditionalEffects k m 0 0 false true true .none (inertialToHeliocentric currentUniverse) = some u'
    ∧ ∑ i, ((currentUniverse.particles i).mass • (currentUniverse.particles i).inertialPosition.cross
          (u'.particles i).tides.acceleration + (u'.particles i).tides.dAngularMomentumDt) = 0 := by
  obtain ⟨u', hu⟩ := example_defined k m 0 0 .none _ (Or.inr rfl)
  refine ⟨u', hu, C34_partial currentUniverse_ok rfl rfl currentUniverse_ctl (example_mass _ (Or.inr rfl))
    (example_separated _ (Or.inr rfl)) rfl (fun i => ?_) hu⟩
  by_cases hi : i = 0 <;> simp [currentUniverse, hi, exampleStar, examplePlanet, blank]

/-- The stored spins are used before they are refreshed (`initialize` runs before the spins are computed
from the angular momenta), hence the total angular momentum of a tidally interacting system changes. -/
theorem C34_violated (k : Consts ℝ) (m : Models ℝ) (eps2 time : ℝ) (ignore : Ignore) :
    ∃ (u u' : Universe ℝ 2), HostsOk u ∧ u.hosts.tides = some 0 ∧ u.consider.tides = true
      ∧ AllCtl 0 u.particles ∧ (∀ i, (u.particles i).mass ≠ 0)
      ∧ calculateAdditionalEffects k m eps2 time false true true ignore (inertialToHeliocentric u) = some u'
      ∧ ∑ i, ((u.particles i).mass • (u.particles i).inertialPosition.cross (u'.particles i).tides.acceleration
          + (u'.particles i).tides.dAngularMomentumDt) ≠ 0 := by
  obtain ⟨u', hu⟩ := example_defined k m eps2 time ignore _ (Or.inl rfl)
  refine ⟨exampleUniverse, u', exampleUniverse_ok, rfl, rfl, exampleUniverse_ctl, example_mass _ (Or.inl rfl),
    hu, ?_⟩
  have key := C34_exact_rate exampleUniverse_ok rfl rfl exampleUniverse_ctl (example_mass _ (Or.inl rfl))
    (example_separated _ (Or.inl rfl)) hu
  rw [key]
  have e1 : (univ.erase (0 : Fin 2)) = {1} := by decide
  rw [e1, sum_singleton]
  dsimp only
  obtain ⟨-, g, s, -, a⟩ := effects_balance exampleUniverse_ok rfl rfl exampleUniverse_ctl
    (example_mass _ (Or.inl rfl)) (example_separated _ (Or.inl rfl)) hu
  have x0 : (exampleUniverse.particles 0) = exampleStar := by simp [exampleUniverse]
  have x1 : (exampleUniverse.particles 1) = examplePlanet := by simp [exampleUniverse]
  have hs : ∀ i, (u'.particles i).spin = (exampleUniverse.particles i).angularMomentum := by
    intro i
    obtain ⟨inertia, e1, e2, e3⟩ := s i
    have : inertia = 1 := by
      rw [(e3 rfl).1]
      by_cases hi : i = 0 <;> simp [exampleUniverse, hi, exampleStar, examplePlanet]
    rw [e1, this, Axes.sdiv_eq_smul]
    simp
  obtain ⟨sh, sp, ⟨t, t1, t2⟩, a1, a2, -⟩ := a 1 (by decide)
  have hr : (examplePlanet.inertialPosition - exampleStar.inertialPosition) = (⟨1, 0, 0⟩ : Axes ℝ) := by
    ext <;> simp [examplePlanet, exampleStar, blank]
  have hd : (u'.particles 1).tides.distance = 1 := by
    rw [(g 1 (by decide)).distance, x0, x1, hr]
    simp [Axes.norm2, Axes.dot]
  have hrad : (u'.particles 0).radius = 1 := by
    obtain ⟨inertia, e1, e2, e3⟩ := s 0
    rw [(e3 rfl).2, x0]
    rfl
  rw [hs, hs, x0, x1, hr, a1, hd, hrad, t1]
  intro e
  have := congrArg Axes.x e
  simp [x0, x1, exampleStar, examplePlanet, blank, Axes.dot, Axes.norm2, hostSigma,
    getPairFactorOrElse, hasDynamicalTide] at this
  norm_num at this


/-! ## C35 Tidal heating -/

/-- The heating computed right after an evaluation with up to date spins is the published non-negative
expression `F/d (2 v_r^2 + |v - spin x r|^2)`. -/
theorem C35_heating_partial {k : Consts ℝ} {m : Models ℝ} {eps2 time : ℝ} {evolution : Bool} {ignore : Ignore}
    {u u' : Universe ℝ n} {h : Fin n} (hok : HostsOk u) (hh : u.hosts.tides = some h)
    (ct : u.consider.tides = true) (hc : AllCtl h u.particles) (hm : ∀ i, (u.particles i).mass ≠ 0)
    (hsep : ∀ i, i ≠ h → (u.particles i).inertialPosition ≠ (u.particles h).inertialPosition)
    (he : (evolution && u.consider.evolution) = false)
    (hs : ∀ i, (u.particles i).momentOfInertia • (u.particles i).spin = (u.particles i).angularMomentum)
    (hu : calculateAdditionalEffects k m eps2 time evolution true true ignore (inertialToHeliocentric u)
      = some u') (i : Fin n) (hi : i ≠ h) :
    let r := (u.particles i).inertialPosition - (u.particles h).inertialPosition
    let v := (u.particles i).inertialVelocity - (u.particles h).inertialVelocity
    let w := v - (u.particles i).spin.cross r
    denergyDt (u'.particles i)
      = (u'.particles i).tides.orthogonalPlanetary / Real.sqrt r.norm2
        * (2 * (r.dot v / Real.sqrt r.norm2) ^ 2 + w.norm2) := by
  intro r v w
  obtain ⟨-, g, s, -, a⟩ := effects_balance hok hh ct hc hm hsep hu
  have hsp : (u'.particles i).spin = (u.particles i).spin := by
    obtain ⟨inertia, e1, e2, e3⟩ := s i
    rw [e1, ← hs i, Axes.sdiv_eq_smul, smul_smul, ← (e3 he).1, inv_mul_cancel₀ e2, one_smul]
  obtain ⟨sh, sp, -, -, a2, a3, a4⟩ := a i hi
  obtain ⟨g1, g2, g3, g4, g5, g6⟩ := g i hi
  have npos : 0 < r.norm2 := by
    refine lt_of_le_of_ne (Axes.dot_self_nonneg _) (fun e0 => hsep i hi ?_)
    exact sub_eq_zero.1 (Axes.dot_self_eq_zero e0.symm)
  have hd : 0 < Real.sqrt r.norm2 := Real.sqrt_pos.2 npos
  have hr : Real.sqrt r.norm2 ^ 2 = r.norm2 := Real.sq_sqrt npos.le
  have a3' : (u'.particles i).tides.radialDissipativePlanet
      = -3 * (u'.particles i).tides.radialVelocity / (u'.particles i).tides.distance
        * (u'.particles i).tides.orthogonalPlanetary := by
    rw [a3, a2, g3]
    field_simp
    ring
  unfold denergyDt
  dsimp only
  rw [a3', a4, ctlTorque]
  simp only [Bool.false_eq_true, if_false]
  rw [g1, g2, g3, g4, g6, hsp]
  change _ = (u'.particles i).tides.orthogonalPlanetary / Real.sqrt r.norm2
        * (2 * (r.dot v / Real.sqrt r.norm2) ^ 2 + (v - (u.particles i).spin.cross r).norm2)
  generalize (u'.particles i).tides.orthogonalPlanetary = f
  generalize (u.particles i).spin = o
  rw [show (u.particles i).inertialPosition - (u.particles h).inertialPosition = r from rfl,
    show (u.particles i).inertialVelocity - (u.particles h).inertialVelocity = v from rfl]
  generalize hdd : Real.sqrt r.norm2 = d at *
  clear_value r v
  simp only [Axes.norm2, Axes.dot] at *
  simp
  field_simp
  linear_combination (f * (o.x * o.x + o.y * o.y + o.z * o.z)) * d ^ 2 * hr

/-- The heating is not negative if the dissipation factor is not.  Missing: it is wrong for the values
written, see `C35_violated` and `C35_violated_first_record`; bodies whose dissipation factor follows
tables are left out. -/
theorem C35_nonneg_partial {k : Consts ℝ} {m : Models ℝ} {eps2 time : ℝ} {evolution : Bool} {ignore : Ignore}
    {u u' : Universe ℝ n} {h : Fin n} (hok : HostsOk u) (hh : u.hosts.tides = some h)
    (ct : u.consider.tides = true) (hc : AllCtl h u.particles) (hm : ∀ i, (u.particles i).mass ≠ 0)
    (hsep : ∀ i, i ≠ h → (u.particles i).inertialPosition ≠ (u.particles h).inertialPosition)
    (he : (evolution && u.consider.evolution) = false)
    (hs : ∀ i, (u.particles i).momentOfInertia • (u.particles i).spin = (u.particles i).angularMomentum)
    (hu : calculateAdditionalEffects k m eps2 time evolution true true ignore (inertialToHeliocentric u)
      = some u') (i : Fin n) (hi : i ≠ h) (hdyn : hasDynamicalTide (u.particles i).evolution = false)
    (hsig : 0 ≤ (u.particles i).tides.scaledDissipationFactor) :
    0 ≤ denergyDt (u'.particles i) := by
  have key := C35_heating_partial hok hh ct hc hm hsep he hs hu i hi
  dsimp only at key
  rw [key]
  obtain ⟨-, g, s, -, a⟩ := effects_balance hok hh ct hc hm hsep hu
  obtain ⟨sh, sp, ⟨t, -, ht⟩, -, a2, -⟩ := a i hi
  have hsp : 0 ≤ sp := by
    rw [ht, particleSigma, getPairFactorOrElse]
    simpa [hdyn] using hsig
  have hd : 0 ≤ (u'.particles i).tides.distance := by
    rw [(g i hi).distance]; exact Real.sqrt_nonneg _
  have hrad : 0 ≤ (u'.particles i).radius ^ 10 := Even.pow_nonneg (by decide) _
  refine mul_nonneg (div_nonneg ?_ (Real.sqrt_nonneg _)) (add_nonneg (by positivity) (Axes.dot_self_nonneg _))
  rw [a2]
  exact div_nonneg (mul_nonneg (mul_nonneg (by positivity) hrad) hsp) (pow_nonneg hd 7)

example (k : Consts ℝ) (m : Models ℝ) : ∃ u',
    calculateAdditionalEffects k m 0 0 false true true .none (inertialToHeliocentric currentUniverse) = some u'
    ∧ 0 ≤ denergyDt (u'.particles 1) := by
  obtain ⟨u', hu⟩ := example_defined k m 0 0 .none _ (Or.inr rfl)
  refine ⟨u', hu, C35_nonneg_partial currentUniverse_ok rfl rfl currentUniverse_ctl
    (example_mass _ (Or.inr rfl)) (example_separated _ (Or.inr rfl)) rfl (fun i => ?_) hu 1 (by decide) ?_ ?_⟩
  · by_cases hi : i = 0 <;> simp [currentUniverse, hi, exampleStar, examplePlanet, blank]
  · simp [currentUniverse, examplePlanet, blank, hasDynamicalTide]
  · simp [currentUniverse, examplePlanet]

/-- The heating vanishes if the companion rotates with its circular orbit (`v = spin × r`).  Missing: as
for `C35_nonneg_partial`. -/
theorem C35_synchronous_partial {k : Consts ℝ} {m : Models ℝ} {eps2 time : ℝ} {evolution : Bool}
    {ignore : Ignore} {u u' : Universe ℝ n} {h : Fin n} (hok : HostsOk u) (hh : u.hosts.tides = some h)
    (ct : u.consider.tides = true) (hc : AllCtl h u.particles) (hm : ∀ i, (u.particles i).mass ≠ 0)
    (hsep : ∀ i, i ≠ h → (u.particles i).inertialPosition ≠ (u.particles h).inertialPosition)
    (he : (evolution && u.consider.evolution) = false)
    (hs : ∀ i, (u.particles i).momentOfInertia • (u.particles i).spin = (u.particles i).angularMomentum)
    (hu : calculateAdditionalEffects k m eps2 time evolution true true ignore (inertialToHeliocentric u)
      = some u') (i : Fin n) (hi : i ≠ h)
    (hsync : (u.particles i).inertialVelocity - (u.particles h).inertialVelocity
      = (u.particles i).spin.cross ((u.particles i).inertialPosition - (u.particles h).inertialPosition)) :
    denergyDt (u'.particles i) = 0 := by
  have key := C35_heating_partial hok hh ct hc hm hsep he hs hu i hi
  dsimp only at key
  rw [key, hsync, sub_self]
  generalize (u.particles i).inertialPosition - (u.particles h).inertialPosition = r
  generalize (u.particles i).spin = o
  have e1 : r.dot (o.cross r) = 0 := by simp [Axes.dot]; ring
  rw [e1]
  simp [Axes.norm2, Axes.dot]

/-- In the first record of a history the heating is 0/0: it is computed before the tides of the particles
are initialised for the first time. -/
theorem C35_violated_first_record (p : Particle XQ) (effect : TidesEffect XQ) (hp : p.tides = Tides.new effect) :
    denergyDt p = .nan := by
  unfold denergyDt
  simp [hp, Tides.new]

/-- A particle for which the record of the heating is negative: the torque is the one of the last
evaluation, the spin has been refreshed since. -/
noncomputable def laggingPlanet : Particle ℝ :=
  { blank ℝ with momentOfInertia := 1, tides := { (blank ℝ).tides with
      distance := 1, orthogonalPlanetary := 1, position := ⟨1, 0, 0⟩, velocity := ⟨0, 1, 0⟩,
      dAngularMomentumDt := ⟨0, 0, 1⟩ } }

/-- Recording with the torque of the last evaluation and the spin after the second half kick of the step
(`angularMomentum + dL * half`) writes a negative heating for a non-negative dissipation. -/
theorem C35_violated (host : Particle ℝ) : ∃ (p q : Particle ℝ) (half : ℝ),
    p.tides.dAngularMomentumDt = -ctlTorque host p false
    ∧ p.momentOfInertia • p.spin = p.angularMomentum
    ∧ p.tides.distance ^ 2 = p.tides.position.norm2 ∧ 0 < p.tides.distance ∧ 0 ≤ p.tides.orthogonalPlanetary
    ∧ p.tides.radialVelocity = p.tides.position.dot p.tides.velocity / p.tides.distance
    ∧ p.tides.radialDissipativePlanet
      = -3 * p.tides.radialVelocity / p.tides.distance * p.tides.orthogonalPlanetary
    ∧ p.tides.rDotPlanetarySpin = p.tides.position.dot p.spin
    ∧ 0 ≤ denergyDt p
    ∧ calculateSpin { p with angularMomentum := p.angularMomentum + half • p.tides.dAngularMomentumDt } = some q
    ∧ denergyDt q < 0 := by
  refine ⟨laggingPlanet, { laggingPlanet with angularMomentum := ⟨0, 0, 1⟩, spin := ⟨0, 0, 1⟩, normSpin2 := 1 },
    1, ?_⟩
  refine ⟨?_, ?_, ?_, ?_, ?_, ?_, ?_, ?_, ?_, ?_, ?_⟩
  · ext <;> simp [laggingPlanet, blank, ctlTorque]
  · ext <;> simp [laggingPlanet, blank]
  · simp [laggingPlanet, Axes.norm2, Axes.dot]
  · simp [laggingPlanet]
  · simp [laggingPlanet]
  · simp [laggingPlanet, blank, Axes.dot]
  · simp [laggingPlanet, blank]
  · simp [laggingPlanet, blank, Axes.dot]
  · simp [denergyDt, laggingPlanet, blank, Axes.dot]
  · simp [calculateSpin, laggingPlanet, blank, Axes.norm2, Axes.dot, Axes.sdiv]
  · simp [denergyDt, laggingPlanet, blank, Axes.dot]

/-! ## C36 Bodies without tides -/

theorem sumOthers_nan (h j : Fin n) (hj : j ≠ h) (f : Particle XQ → Axes XQ) (p : Fin n → Particle XQ)
    (hf : f (p j) = ⟨.nan, .nan, .nan⟩) : sumOthers h f p = ⟨.nan, .nan, .nan⟩ := by
  have keep : ∀ (l : List (Fin n)), l.foldl (fun acc i => acc + f (p i)) (⟨.nan, .nan, .nan⟩ : Axes XQ)
      = ⟨.nan, .nan, .nan⟩ := by
    intro l
    induction l with
    | nil => rfl
    | cons a l ih =>
      rw [List.foldl_cons, show (⟨.nan, .nan, .nan⟩ : Axes XQ) + f (p a) = ⟨.nan, .nan, .nan⟩ from ?_, ih]
      ext <;> simp
  have key : ∀ (l : List (Fin n)) (a : Axes XQ), j ∈ l →
      l.foldl (fun acc i => acc + f (p i)) a = ⟨.nan, .nan, .nan⟩ := by
    intro l
    induction l with
    | nil => simp
    | cons b l ih =>
      intro a ha
      rw [List.foldl_cons]
      rcases List.mem_cons.1 ha with rfl | hl
      · rw [hf, show a + (⟨.nan, .nan, .nan⟩ : Axes XQ) = ⟨.nan, .nan, .nan⟩ from ?_, keep]
        ext <;> simp
      · exact ih _ hl
  exact key _ _ (mem_others.2 hj)

/-- A body without tides next to a host with constant-time-lag tides makes the torque on the host NaN, for
all systems: the loop over the companions does not skip it, and its distance is zero. -/
theorem C36_violated (m : OtherModels XQ) (h j : Fin n) (p : Fin n → Particle XQ) (a b c : XQ)
    (hj : j ≠ h) (hh : (p h).tides.effect = .central (.constantTimeLag a b c))
    (hd : (p j).tides = Tides.new .disabled) :
    (tidalDL m h p h).tides.dAngularMomentumDt = ⟨.nan, .nan, .nan⟩ := by
  unfold tidalDL
  dsimp only
  rw [mapHost_host]
  refine sumOthers_nan h j hj _ _ ?_
  rw [mapOthers_host, mapOthers_other hj]
  have e : companionTidalDL m (p h) (p j) = p j := by unfold companionTidalDL; rw [hd]; rfl
  rw [e]
  unfold hostTidalDLTerm
  rw [hh]
  simp only [tidalTorque, ctlTorque, hd, if_true]
  ext <;> simp [Tides.new, Axes.sdiv, Axes.cross]

/-- ... whereas the forces do not depend on such a body. -/
theorem C36_partial {F : Type} [Add F] [Sub F] [Mul F] [Div F] [Neg F] [FOps F] (m : OtherModels F)
    (h j : Fin n) (p q : Fin n → Particle F) (hj : j ≠ h) (hk : (p h).tides.effect ≠ .central .kaula)
    (hpq : ∀ i, i ≠ j → q i = p i) (hp : (p j).tides.effect = .disabled) (hq : (q j).tides.effect = .disabled)
    (i : Fin n) (hi : i ≠ j) : tidalAcceleration m h q i = tidalAcceleration m h p i := by
  have hqh : q h = p h := hpq h hj.symm
  have plain : ∀ r : Fin n → Particle F, (r h).tides.effect ≠ .central .kaula →
      tidalAcceleration m h r = mapHost h (fun host => { host with tides := { host.tides with
        acceleration := ((lit (-1) : F) * (lit 1 / host.mass)) • sumOthers h (companionTidalForce m (r h)) r } })
        (mapOthers h (companionTidalAcceleration m) r) := by
    intro r hr
    unfold tidalAcceleration
    split
    · contradiction
    · rfl
  rw [plain p hk, plain q (by rw [hqh]; exact hk), hqh]
  have hs : sumOthers h (companionTidalForce m (p h)) q = sumOthers h (companionTidalForce m (p h)) p := by
    unfold sumOthers
    congr 1
    funext acc l
    by_cases hl : l = j
    · subst hl
      unfold companionTidalForce
      rw [hp, hq]
    · rw [hpq l hl]
  rw [hs]
  by_cases hih : i = h
  · subst hih
    rw [mapHost_host, mapHost_host, mapOthers_host, mapOthers_host, hqh]
  · rw [mapHost_other hih, mapHost_other hih, mapOthers_other hih, mapOthers_other hih, hqh, hpq i hi]

/-! ## C37 Pair dependent factors -/

/-- An update of the table. -/
inductive PairOp (F : Type) where
  | set (id dependsOn : Nat) (value : F)
  | remove (id dependsOn : Nat)

/-- The pair concerned. -/
def PairOp.pair {F : Type} : PairOp F → Nat × Nat
  | .set a b _ => (a, b)
  | .remove a b => (a, b)

/-- Run the updates. -/
def runPairOps {F : Type} (ops : List (PairOp F)) (t : Table F) : Table F :=
  ops.foldl (fun t o => match o with
    | .set a b v => setPairFactor t a b v
    | .remove a b => removePairFactor t a b) t

theorem key_ne {a b c d : Nat} (hb : b < maxParticles) (hd : d < maxParticles) (h : (a, b) ≠ (c, d)) :
    a * maxParticles + b ≠ c * maxParticles + d := by
  intro e
  apply h
  unfold maxParticles at *
  have h1 : a = c := by omega
  have h2 : b = d := by omega
  rw [h1, h2]

/-- Updates of other pairs do not change what is read for a pair. -/
theorem C37_no_interference {F : Type} (ops : List (PairOp F)) (t : Table F) (id dep : Nat)
    (evolution : Evolution.EvolutionType) (scaled : F)
    (hid : dep < maxParticles) (hops : ∀ o ∈ ops, o.pair.2 < maxParticles ∧ o.pair ≠ (id, dep)) :
    getPairFactorOrElse (runPairOps ops t) id dep evolution scaled
      = getPairFactorOrElse t id dep evolution scaled := by
  have key : runPairOps ops t (id * maxParticles + dep) = t (id * maxParticles + dep) := by
    induction ops generalizing t with
    | nil => rfl
    | cons o ops ih =>
      rw [runPairOps, List.foldl_cons]
      refine (ih _ (fun o' h' => hops o' (List.mem_cons_of_mem _ h'))).trans ?_
      obtain ⟨h1, h2⟩ := hops o List.mem_cons_self
      cases o with
      | set a b v => exact if_neg (key_ne hid h1 h2.symm)
      | remove a b => exact if_neg (key_ne hid h1 h2.symm)
  unfold getPairFactorOrElse
  dsimp only
  rw [key]

/-- The value read for a pair is the last one stored for it. -/
theorem C37_last_stored {F : Type} (before after : List (PairOp F)) (t : Table F) (id dep : Nat) (value : F)
    (evolution : Evolution.EvolutionType) (scaled : F) (hev : hasDynamicalTide evolution = true)
    (hid : dep < maxParticles) (hops : ∀ o ∈ after, o.pair.2 < maxParticles ∧ o.pair ≠ (id, dep)) :
    getPairFactorOrElse (runPairOps (before ++ .set id dep value :: after) t) id dep evolution scaled
      = value := by
  have e : runPairOps (before ++ .set id dep value :: after) t
      = runPairOps after (setPairFactor (runPairOps before t) id dep value) := by
    simp [runPairOps, List.foldl_append]
  rw [e, C37_no_interference _ _ _ _ _ _ hid hops]
  simp [getPairFactorOrElse, hev, setPairFactor]

/-- After a removal the body's own factor is read until the next value is stored. -/
theorem C37_removed {F : Type} (before after : List (PairOp F)) (t : Table F) (id dep : Nat)
    (evolution : Evolution.EvolutionType) (scaled : F)
    (hid : dep < maxParticles) (hops : ∀ o ∈ after, o.pair.2 < maxParticles ∧ o.pair ≠ (id, dep)) :
    getPairFactorOrElse (runPairOps (before ++ .remove id dep :: after) t) id dep evolution scaled
      = scaled := by
  have e : runPairOps (before ++ .remove id dep :: after) t
      = runPairOps after (removePairFactor (runPairOps before t) id dep) := by
    simp [runPairOps, List.foldl_append]
  rw [e, C37_no_interference _ _ _ _ _ _ hid hops]
  simp [getPairFactorOrElse, removePairFactor]

/-- Bodies without dynamical tide always use their own factor. -/
theorem C37_no_dynamical_tide {F : Type} (t : Table F) (id dep : Nat) (evolution : Evolution.EvolutionType)
    (scaled : F) (hev : hasDynamicalTide evolution = false) :
    getPairFactorOrElse t id dep evolution scaled = scaled := by
  simp [getPairFactorOrElse, hev]

example : getPairFactorOrElse (runPairOps [.set 0 1 (5 : ℚ), .set 1 0 7, .remove 0 2] (fun _ => none)) 0 1
    .bolmontMathis2016 3 = 5 :=
  C37_last_stored [] [.set 1 0 7, .remove 0 2] _ 0 1 5 _ 3 rfl (by decide)
    (by intro o ho; simp at ho; rcases ho with rfl | rfl <;> decide)

/-- The bound on the ids is needed: the pairs (0, 10) and (1, 0) share an entry. -/
example : getPairFactorOrElse (runPairOps [.set 0 10 (5 : ℚ)] (fun _ => none)) 1 0 .bolmontMathis2016 3 = 5 := by
  simp [getPairFactorOrElse, runPairOps, setPairFactor, maxParticles, hasDynamicalTide]

/-! ## C61 Leaving the regime of the dynamical tide -/

section
variable {F : Type} [Add F] [Sub F] [Mul F] [Div F] [FOps F] [FPow F]

/-- The host's factor for a companion outside the regime of the dynamical tide (half the tidal frequency
not below the host's rotation rate) is the equilibrium one after the update of the pair. -/
theorem C61_host_partial (k : Consts F) (host p : Particle F) (t : Table F) (x : F × F × F)
    (hp : p.tides.effect.orbitingCtl = some x)
    (hout : ltb (FOps.abs (FOps.sqrt host.normSpin2 - meanMotion host p)) (FOps.sqrt host.normSpin2) = false) :
    hostSigma (planetDependentStep k host p t) host p = host.tides.scaledDissipationFactor := by
  unfold planetDependentStep
  rw [hp]
  simp [hout, hostSigma, getPairFactorOrElse, removePairFactor]

/-- The companion's factor is not: the update deletes the entry of the host instead (line 132 has the
indices of the pair swapped), so the companion keeps the factor of the last time it was inside the regime,
and the host's factor, if it was in the table, is lost. -/
theorem C61_violated (k : Consts F) (host p : Particle F) (t : Table F) (stale : F) (x : F × F × F)
    (hid : host.id < maxParticles) (hid' : p.id < maxParticles) (hne : host.id ≠ p.id)
    (hev : hasDynamicalTide p.evolution = true) (hp : p.tides.effect.orbitingCtl = some x)
    (hout : ltb (FOps.abs (FOps.sqrt p.normSpin2 - meanMotion host p)) (FOps.sqrt p.normSpin2) = false)
    (hstale : t (p.id * maxParticles + host.id) = some stale) :
    particleSigma (hostDependentStep k host p t) host p = stale
      ∧ hostSigma (hostDependentStep k host p t) host p = host.tides.scaledDissipationFactor := by
  unfold hostDependentStep
  rw [hev, hp]
  have hk : p.id * maxParticles + host.id ≠ host.id * maxParticles + p.id :=
    key_ne hid hid' (fun e => hne (congrArg Prod.snd e))
  simp [hout, particleSigma, hostSigma, getPairFactorOrElse, removePairFactor, hk, hev, hstale]

end

/-- A body that does not rotate is outside the regime; a factor 7 left over from earlier stays. -/
example (k : Consts ℝ) : particleSigma (hostDependentStep k exampleStar
    { examplePlanet with evolution := .leconteChabrier2013 true } (setPairFactor (fun _ => none) 1 0 7))
    exampleStar { examplePlanet with evolution := .leconteChabrier2013 true } = 7 := by
  refine (C61_violated k exampleStar _ _ 7 (1, 1, 0) ?_ ?_ ?_ rfl ?_ ?_ ?_).1
  · simp [exampleStar, blank, maxParticles]
  · simp [examplePlanet, maxParticles]
  · simp [exampleStar, examplePlanet, blank]
  · simp [examplePlanet, TidesEffect.orbitingCtl]
  · simp [examplePlanet, blank]
  · simp [examplePlanet, exampleStar, blank, setPairFactor]

/-! ## C62 Panics of an evaluation -/

/-- For a system whose hosts have been found, an evaluation of the effects (without evolution) panics exactly
if a moment of inertia is zero. -/
theorem C62_panics {F : Type} [Add F] [Sub F] [Mul F] [Div F] [Neg F] [FOps F] [FPow F] [FTrig F]
    (k : Consts F) (m : Models F) (eps2 time : F) (evolution dL acc : Bool) (ignore : Ignore)
    (u : Universe F n) (hh : HasHosts u) (he : (evolution && u.consider.evolution) = false) :
    calculateAdditionalEffects k m eps2 time evolution dL acc ignore u = none
      ↔ ∃ i, eqb (u.particles i).momentOfInertia (lit 0) = true :=
  additionalEffects_none hh he

example (k : Consts ℝ) (m : Models ℝ) : ∃ u',
    calculateAdditionalEffects k m 0 0 false true true .none (inertialToHeliocentric exampleUniverse) = some u' :=
  example_defined k m 0 0 .none _ (Or.inl rfl)

end Posidonius.Univ
