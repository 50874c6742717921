import Verif.Lemmas.Frame
import Mathlib.Tactic.FieldSimp
import Mathlib.Tactic.LinearCombination

/-! Tidal forces and torques with real numbers. -/

namespace Posidonius.Univ
open Finset

variable {n : Nat}

/-- The state after the first part of `calculate_tidal_acceleration` (common.rs 312-345). -/
noncomputable def firstPart (m : OtherModels ℝ) (h : Fin n) (p : Fin n → Particle ℝ) : Fin n → Particle ℝ :=
  mapHost h (fun host => { host with tides := { host.tides with
      acceleration := ((lit (-1) : ℝ) * (lit 1 / host.mass)) • sumOthers h (companionTidalForce m (p h)) p } })
    (mapOthers h (companionTidalAcceleration m) p)

theorem companionTidalAcceleration_mass (m : OtherModels ℝ) (a b : Particle ℝ) :
    (companionTidalAcceleration m a b).mass = b.mass := by
  unfold companionTidalAcceleration; split <;> rfl

theorem firstPart_mass (m : OtherModels ℝ) (h : Fin n) (p : Fin n → Particle ℝ) (i : Fin n) :
    (firstPart m h p i).mass = (p i).mass := by
  by_cases hi : i = h
  · subst hi; simp [firstPart]
  · rw [firstPart, mapHost_other hi, mapOthers_other hi, companionTidalAcceleration_mass]

theorem firstPart_host (m : OtherModels ℝ) (h : Fin n) (p : Fin n → Particle ℝ) :
    (firstPart m h p h).tides.acceleration
      = (-(1 / (p h).mass)) • ∑ i ∈ univ.erase h, companionTidalForce m (p h) (p i) := by
  simp [firstPart, sumOthers_real]

theorem companion_force (m : OtherModels ℝ) (a b : Particle ℝ) (hb : b.mass ≠ 0)
    (hd : b.tides.effect.isOrbiting = false → b.tides.acceleration = 0) :
    b.mass • (companionTidalAcceleration m a b).tides.acceleration = companionTidalForce m a b := by
  unfold companionTidalAcceleration companionTidalForce
  split
  · rename_i model he
    simp only [lit_real, smul_smul]
    have : b.mass * (((1 : ℚ) : ℝ) / b.mass) = 1 := by push_cast; field_simp
    rw [this, one_smul]
  · rename_i he
    have : b.tides.effect.isOrbiting = false := by
      cases hx : b.tides.effect <;> simp_all [TidesEffect.isOrbiting]
    simp [hd this]

theorem firstPart_other (m : OtherModels ℝ) (h : Fin n) (p : Fin n → Particle ℝ) (i : Fin n) (hi : i ≠ h)
    (hm : (p i).mass ≠ 0)
    (hd : (p i).tides.effect.isOrbiting = false → (p i).tides.acceleration = 0) :
    (p i).mass • (firstPart m h p i).tides.acceleration = companionTidalForce m (p h) (p i) := by
  rw [firstPart, mapHost_other hi, mapOthers_other hi, companion_force m _ _ hm hd]

/-- One turn of the loop for a Kaula host. -/
noncomputable def kaulaTurn (m : OtherModels ℝ) (h : Fin n) (q : Fin n → Particle ℝ) (i : Fin n) :
    Fin n → Particle ℝ :=
  fun j => if j = h then (kaulaHostStep m (q h) (q i)).1
    else if j = i then (kaulaHostStep m (q h) (q i)).2 else q j

theorem tidalAcceleration_kaula (m : OtherModels ℝ) (h : Fin n) (p : Fin n → Particle ℝ)
    (he : (p h).tides.effect = .central .kaula) :
    tidalAcceleration m h p = (others h).foldl (kaulaTurn m h) (firstPart m h p) := by
  unfold tidalAcceleration
  simp only [he]
  rfl

theorem tidalAcceleration_plain (m : OtherModels ℝ) (h : Fin n) (p : Fin n → Particle ℝ)
    (he : (p h).tides.effect ≠ .central .kaula) :
    tidalAcceleration m h p = firstPart m h p := by
  unfold tidalAcceleration
  split
  · contradiction
  · rfl

theorem kaulaTurn_mass (m : OtherModels ℝ) (h : Fin n) (q : Fin n → Particle ℝ) (i j : Fin n) :
    (kaulaTurn m h q i j).mass = (q j).mass := by
  unfold kaulaTurn kaulaHostStep
  split_ifs with h1 h2 <;> simp_all

theorem kaulaTurn_momentum (m : OtherModels ℝ) (h : Fin n) (q : Fin n → Particle ℝ) (i : Fin n)
    (hi : i ≠ h) (hm : ∀ j, (q j).mass ≠ 0) :
    ∑ j, (q j).mass • (kaulaTurn m h q i j).tides.acceleration = ∑ j, (q j).mass • (q j).tides.acceleration := by
  have hi' : i ∈ univ.erase h := mem_erase.2 ⟨hi, mem_univ i⟩
  rw [← add_sum_erase univ _ (mem_univ h), ← add_sum_erase univ _ (mem_univ h),
    ← add_sum_erase (univ.erase h) _ hi', ← add_sum_erase (univ.erase h) _ hi']
  have e : ∀ j ∈ (univ.erase h).erase i,
      (q j).mass • (kaulaTurn m h q i j).tides.acceleration = (q j).mass • (q j).tides.acceleration := by
    intro j hj
    have h1 : j ≠ i := ne_of_mem_erase hj
    have h2 : j ≠ h := ne_of_mem_erase (mem_of_mem_erase hj)
    simp [kaulaTurn, h1, h2]
  rw [sum_congr rfl e]
  have m1 := hm h
  have m2 := hm i
  simp only [kaulaTurn, if_true, if_neg hi, kaulaHostStep, lit_real, smul_add, smul_smul]
  have e1 : (q h).mass * (((1 : ℚ) : ℝ) / (q h).mass) = 1 := by push_cast; field_simp
  have e2 : (q i).mass * (((-1 : ℚ) : ℝ) * (((1 : ℚ) : ℝ) / (q i).mass)) = -1 := by push_cast; field_simp
  rw [e1, e2]
  module

theorem kaulaLoop_momentum (m : OtherModels ℝ) (h : Fin n) (l : List (Fin n)) (hl : ∀ i ∈ l, i ≠ h)
    (q : Fin n → Particle ℝ) (mass : Fin n → ℝ) (hq : ∀ j, (q j).mass = mass j) (hm : ∀ j, mass j ≠ 0) :
    ∑ j, mass j • (l.foldl (kaulaTurn m h) q j).tides.acceleration
      = ∑ j, mass j • (q j).tides.acceleration := by
  induction l generalizing q with
  | nil => rfl
  | cons i l ih =>
    rw [List.foldl_cons, ih (fun j hj => hl j (List.mem_cons_of_mem _ hj)) _
      (fun j => by rw [kaulaTurn_mass, hq])]
    have := kaulaTurn_momentum m h q i (hl i List.mem_cons_self) (fun j => by rw [hq]; exact hm j)
    simpa only [hq] using this

/-! ### Balance of angular momentum -/

/-- What is missing in the balance of angular momentum of a pair. -/
noncomputable def pairDefect (host p : Particle ℝ) : Axes ℝ :=
  ((p.tides.orthogonalStellar * (p.tides.rDotStellarSpin - p.tides.position.dot host.spin)
    + p.tides.orthogonalPlanetary * (p.tides.rDotPlanetarySpin - p.tides.position.dot p.spin))
      / p.tides.distance) • p.tides.position

theorem pair_balance (host p : Particle ℝ) (hd : p.tides.distance ≠ 0)
    (hr : p.tides.distance ^ 2 = p.tides.position.norm2) :
    p.tides.position.cross (ctlForce host p) - ctlTorque host p true - ctlTorque host p false
      = pairDefect host p := by
  unfold ctlForce ctlTorque pairDefect
  generalize p.tides.position = r at *
  generalize p.tides.velocity = v at *
  generalize p.tides.distance = d at *
  generalize p.tides.orthogonalStellar = fs
  generalize p.tides.orthogonalPlanetary = fp
  generalize p.tides.rDotStellarSpin = a
  generalize p.tides.rDotPlanetarySpin = b
  generalize host.spin = w
  generalize p.spin = u
  generalize p.tides.radialVelocity = vr
  generalize p.tides.radial = rad
  simp only [Axes.norm2, Axes.dot] at hr
  ext <;> simp [Axes.dot] <;> field_simp
  · linear_combination d * (-(fs * w.x) - fp * u.x) * hr
  · linear_combination d * (-(fs * w.y) - fp * u.y) * hr
  · linear_combination d * (-(fs * w.z) - fp * u.z) * hr

/-- The bodies around a host are constant-time-lag bodies. -/
def AllCtl (h : Fin n) (p : Fin n → Particle ℝ) : Prop :=
  (∃ a b c, (p h).tides.effect = .central (.constantTimeLag a b c))
    ∧ ∀ i, i ≠ h → ∃ a b c, (p i).tides.effect = .orbiting (.constantTimeLag a b c)

theorem AllCtl.not_kaula {h : Fin n} {p : Fin n → Particle ℝ} (hc : AllCtl h p) :
    (p h).tides.effect ≠ .central .kaula := by
  obtain ⟨⟨a, b, c, e⟩, _⟩ := hc
  simp [e]

theorem AllCtl.congr {h : Fin n} {p q : Fin n → Particle ℝ} (hc : AllCtl h p)
    (hq : ∀ i, (q i).tides.effect = (p i).tides.effect) : AllCtl h q := by
  refine ⟨?_, fun i hi => ?_⟩
  · simpa only [hq] using hc.1
  · simpa only [hq] using hc.2 i hi

section
variable {h : Fin n} {p : Fin n → Particle ℝ}

/-- The force sum and accelerations when all bodies have constant-time-lag tides. -/
theorem ctl_acceleration (m : OtherModels ℝ) (hc : AllCtl h p) (hm : ∀ i, (p i).mass ≠ 0) :
    (∀ i, i ≠ h → (p i).mass • (tidalAcceleration m h p i).tides.acceleration = ctlForce (p h) (p i))
      ∧ (tidalAcceleration m h p h).tides.acceleration
        = (-(1 / (p h).mass)) • ∑ i ∈ univ.erase h, ctlForce (p h) (p i) := by
  have hf : ∀ i, i ≠ h → companionTidalForce m (p h) (p i) = ctlForce (p h) (p i) := by
    intro i hi
    obtain ⟨a, b, c, e⟩ := hc.2 i hi
    simp [companionTidalForce, tidalForce, e]
  rw [tidalAcceleration_plain m h p hc.not_kaula]
  constructor
  · intro i hi
    rw [firstPart_other m h p i hi (hm i), hf i hi]
    obtain ⟨a, b, c, e⟩ := hc.2 i hi
    simp [e, TidesEffect.isOrbiting]
  · rw [firstPart_host, sum_congr rfl (fun i hi => hf i (ne_of_mem_erase hi))]

/-- The acceleration is the only thing `calculate_tidal_acceleration` changes. -/
theorem ctl_acceleration_tides (m : OtherModels ℝ) (hc : AllCtl h p) (i : Fin n) :
    { (tidalAcceleration m h p i).tides with acceleration := (p i).tides.acceleration } = (p i).tides := by
  rw [tidalAcceleration_plain m h p hc.not_kaula]
  by_cases hi : i = h
  · subst hi; simp [firstPart]
  · rw [firstPart, mapHost_other hi, mapOthers_other hi]
    unfold companionTidalAcceleration
    split <;> rfl

theorem ctl_dl (m : OtherModels ℝ) (hc : AllCtl h p) :
    (∀ i, i ≠ h → (tidalDL m h p i).tides.dAngularMomentumDt = -ctlTorque (p h) (p i) false)
      ∧ (tidalDL m h p h).tides.dAngularMomentumDt
        = -∑ i ∈ univ.erase h, ctlTorque (p h) (p i) true := by
  have e1 : ∀ i, i ≠ h → companionTidalDL m (p h) (p i) = { p i with tides := { (p i).tides with
      dAngularMomentumDt := (lit (-1) : ℝ) • ctlTorque (p h) (p i) false } } := by
    intro i hi
    obtain ⟨a, b, c, e⟩ := hc.2 i hi
    simp [companionTidalDL, tidalTorque, e]
  constructor
  · intro i hi
    unfold tidalDL
    dsimp only
    rw [mapHost_other hi, mapOthers_other hi, e1 i hi]
    simp
  · unfold tidalDL
    dsimp only
    rw [mapHost_host, sumOthers_real, mapOthers_host]
    dsimp only
    rw [← sum_neg_distrib]
    refine sum_congr rfl fun i hi => ?_
    have hi' := ne_of_mem_erase hi
    rw [mapOthers_other hi', e1 i hi']
    obtain ⟨a, b, c, e⟩ := hc.1
    simp [hostTidalDLTerm, e, tidalTorque, ctlTorque]

/-- ... and the torque the only thing `calculate_dangular_momentum_dt_due_to_tides` changes. -/
theorem dl_tides (m : OtherModels ℝ) (i : Fin n) :
    { (tidalDL m h p i).tides with dAngularMomentumDt := (p i).tides.dAngularMomentumDt } = (p i).tides := by
  unfold tidalDL
  dsimp only
  by_cases hi : i = h
  · subst hi; simp
  · rw [mapHost_other hi, mapOthers_other hi]
    unfold companionTidalDL
    split <;> rfl

end

/-- The balance after `calculate_tidal_acceleration`, anything that changes neither tides nor spins, and
`calculate_dangular_momentum_dt_due_to_tides`. -/
theorem ctl_balance (m : OtherModels ℝ) (h : Fin n) (p q : Fin n → Particle ℝ) (x : Fin n → Axes ℝ)
    (hc : AllCtl h p) (hm : ∀ i, (p i).mass ≠ 0)
    (hq : ∀ i, (q i).tides = (tidalAcceleration m h p i).tides) (hs : ∀ i, (q i).spin = (p i).spin)
    (hx : ∀ i, i ≠ h → (p i).tides.position = x i - x h)
    (hd : ∀ i, i ≠ h → (p i).tides.distance ≠ 0)
    (hr : ∀ i, i ≠ h → (p i).tides.distance ^ 2 = (p i).tides.position.norm2) :
    ∑ i, ((p i).mass • (x i).cross (tidalDL m h q i).tides.acceleration
        + (tidalDL m h q i).tides.dAngularMomentumDt)
      = ∑ i ∈ univ.erase h, pairDefect (p h) (p i) := by
  have hqt : ∀ i, { (q i).tides with acceleration := (p i).tides.acceleration } = (p i).tides := by
    intro i; rw [hq]; exact ctl_acceleration_tides m hc i
  have hcq : AllCtl h q := hc.congr fun i => by rw [← hqt i]
  have ha : ∀ i, (tidalDL m h q i).tides.acceleration = (tidalAcceleration m h p i).tides.acceleration := by
    intro i
    rw [← hq i]
    conv_rhs => rw [← dl_tides m i (p := q) (h := h)]
  have ht : ∀ i b, ctlTorque (q h) (q i) b = ctlTorque (p h) (p i) b := by
    intro i b
    rw [ctlTorque, ctlTorque, ← hqt i, hs, hs]
  obtain ⟨a1, a2⟩ := ctl_acceleration m hc hm
  obtain ⟨d1, d2⟩ := ctl_dl m hcq
  rw [sum_add_distrib]
  simp only [ha]
  rw [torque_of_recoil h (fun i => (p i).mass) x _ _ hm a1 a2, ← add_sum_erase univ _ (mem_univ h), d2,
    sum_congr rfl (fun i hi => d1 i (ne_of_mem_erase hi)), ← sum_neg_distrib, ← sum_add_distrib,
    ← sum_add_distrib]
  refine sum_congr rfl fun i hi => ?_
  have hi' := ne_of_mem_erase hi
  rw [ht, ht, ← pair_balance _ _ (hd i hi') (hr i hi'), ← hx i hi']
  abel

/-! ### Amplitudes -/

/-- The amplitudes of the tidal force of a pair (Bolmont et al. 2015, equations 5-7). -/
structure Amplitudes (k : Consts ℝ) (t : Table ℝ) (host p : Particle ℝ) (a : Tides ℝ) : Prop where
  stellar : a.orthogonalStellar
    = 9 / 2 * p.mass ^ 2 * host.radius ^ 10 * hostSigma t host p / p.tides.distance ^ 7
  planetary : a.orthogonalPlanetary
    = 9 / 2 * host.mass ^ 2 * p.radius ^ 10 * particleSigma t host p / p.tides.distance ^ 7

theorem ctl_orthogonal (k : Consts ℝ) (t : Table ℝ) {h i : Fin n} {p : Fin n → Particle ℝ} (hi : i ≠ h)
    (hc : AllCtl h p) : Amplitudes k t (p h) (p i) (orthogonalComponent t h p i).tides := by
  obtain ⟨a, b, c, e⟩ := hc.2 i hi
  unfold orthogonalComponent
  rw [mapOthers_other hi, mapOthers_other hi, mapOthers_host]
  have e1 : (orthogonalStellarStep t (p h) (p i)) = { p i with tides := { (p i).tides with
      orthogonalStellar := lit (9/2) * ipow (p i).mass 2 * ipow (p h).radius 10 * hostSigma t (p h) (p i)
        / ipow (p i).tides.distance 7 } } := by
    unfold orthogonalStellarStep
    rw [e]
    rfl
  rw [e1]
  unfold orthogonalPlanetaryStep
  dsimp only
  rw [e]
  dsimp only [TidesEffect.orbitingCtl]
  constructor
  · simp
  · simp [particleSigma]

/-- The radial part, and that it leaves the orthogonal one alone. -/
theorem ctl_radial (k : Consts ℝ) (t : Table ℝ) {h i : Fin n} {p : Fin n → Particle ℝ} (hi : i ≠ h)
    (hc : AllCtl h p) :
    (radialComponent k t h p i).tides.orthogonalStellar = (p i).tides.orthogonalStellar
      ∧ (radialComponent k t h p i).tides.orthogonalPlanetary = (p i).tides.orthogonalPlanetary
      ∧ (radialComponent k t h p i).tides.radialDissipativePlanet
        = -27 / 2 * (p i).tides.radialVelocity / (p i).tides.distance ^ 8
          * ((p h).mass ^ 2 * (p i).radius ^ 10 * particleSigma t (p h) (p i)) := by
  obtain ⟨a, b, c, e⟩ := hc.2 i hi
  unfold radialComponent
  rw [mapOthers_other hi]
  unfold radialStep
  rw [e]
  dsimp only [TidesEffect.orbitingCtl]
  refine ⟨rfl, rfl, ?_⟩
  simp only [ipow_real, lit_real]
  push_cast
  ring

end Posidonius.Univ
