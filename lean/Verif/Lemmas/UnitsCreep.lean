import Verif.Lemmas.UnitsEffects
import Verif.Model.CreepUniverse

/-! The creep tides in other units. -/

namespace Posidonius.Univ
variable (o : Units)

theorem ltb_scale {c : ℝ} (hc : 0 < c) (a b : ℝ) : ltb (c * a) (c * b) = ltb a b := by
  rw [Bool.eq_iff_iff, ltb_real, ltb_real]
  exact mul_lt_mul_iff_right₀ hc

theorem ltb_scale_zero {c : ℝ} (hc : 0 < c) (a : ℝ) : ltb (c * a) (lit 0) = ltb a (lit 0) := by
  have := ltb_scale hc a (lit 0)
  simpa using this

theorem zero_ltb_scale {c : ℝ} (hc : 0 < c) (a : ℝ) : ltb (lit 0) (c * a) = ltb (lit 0) a := by
  have := ltb_scale hc (lit 0) a
  simpa using this

theorem atan2_scale {c : ℝ} (hc : 0 < c) (y x : ℝ) : FTrig.atan2 (c * y) (c * x) = FTrig.atan2 y x := by
  rw [atan2_real, atan2_real, ← Complex.arg_real_mul ⟨x, y⟩ hc]
  congr 1
  apply Complex.ext <;> simp

theorem inclinationAndNode_units {c : ℝ} (hc : 0 < c) (hx hy hz h : ℝ) :
    Tools.inclinationAndNode (c * hx) (c * hy) (c * hz) (c * h) = Tools.inclinationAndNode hx hy hz h := by
  unfold Tools.inclinationAndNode
  rw [mul_div_mul_left _ _ hc.ne', ← mul_neg, atan2_scale hc, zero_ltb_scale hc]

theorem meanAnomaly_units {c d : ℝ} (hc : 0 < c) (hd : 0 < d) (e f r a rv : ℝ) :
    Tools.meanAnomaly e f (c * r) (c * a) (d * rv) = Tools.meanAnomaly e f r a rv := by
  unfold Tools.meanAnomaly
  rw [mul_div_mul_left _ _ hc.ne', ltb_scale_zero hd]

theorem eccentricityVector_units (gm : ℝ) (x v : Axes ℝ) :
    Tools.eccentricityVector (o.length ^ 3 / o.time ^ 2 * gm) (o.length • x) (o.velocity • v)
      = Tools.eccentricityVector gm x v := by
  have hL := o.length_pos
  have hT := o.time_pos
  have e : ∀ (gm : ℝ) (x v : Axes ℝ), Tools.eccentricityVector gm x v
      = (v.cross (x.cross v)).sdiv gm - x.sdiv (FOps.sqrt x.norm2) := fun gm x v => rfl
  rw [e, e, Axes.norm2_smul, sqrt_real, sqrt_real, sqrt_units hL.le]
  dims
  ext <;> parts <;> field_simp

/-- The elements of an orbit. -/
theorem keplerianElements_units (gm : ℝ) (x v : Axes ℝ) :
    let el := Tools.keplerianElements gm x v
    let el' := Tools.keplerianElements (o.length ^ 3 / o.time ^ 2 * gm) (o.length • x) (o.velocity • v)
    el'.semiMajorAxis = o.length * el.semiMajorAxis ∧ el'.eccentricity = el.eccentricity
      ∧ el'.meanAnomaly = el.meanAnomaly ∧ el'.orbitalPeriod = o.time * el.orbitalPeriod := by
  have hL := o.length_pos
  have hT := o.time_pos
  have hV : 0 < o.length ^ 2 / o.time := by positivity
  have ev := eccentricityVector_units o gm x v
  have r : FOps.sqrt (o.length • x).norm2 = o.length * FOps.sqrt x.norm2 := by
    rw [Axes.norm2_smul, sqrt_real, sqrt_real, sqrt_units hL.le]
  have v2 : (o.velocity • v).norm2 = o.velocity ^ 2 * v.norm2 := Axes.norm2_smul _ _
  have hh : (o.length • x).cross (o.velocity • v) = (o.length ^ 2 / o.time) • x.cross v := by
    dims
    ext <;> parts <;> field_simp
  have h2 : ((o.length • x).cross (o.velocity • v)).norm2 = (o.length ^ 2 / o.time) ^ 2 * (x.cross v).norm2 := by
    rw [hh, Axes.norm2_smul]
  have h : FOps.sqrt ((o.length • x).cross (o.velocity • v)).norm2
      = o.length ^ 2 / o.time * FOps.sqrt (x.cross v).norm2 := by
    rw [h2, sqrt_real, sqrt_real, sqrt_units hV.le]
  have rv : (o.length • x).dot (o.velocity • v) = o.length ^ 2 / o.time * x.dot v := by
    dims
    parts
    field_simp
  set L := o.length
  set T := o.time
  have ha : (Tools.keplerianElements (L ^ 3 / T ^ 2 * gm) (L • x) (o.velocity • v)).semiMajorAxis
      = L * (Tools.keplerianElements gm x v).semiMajorAxis := by
    have e : ∀ (gm : ℝ) (x v : Axes ℝ), (Tools.keplerianElements gm x v).semiMajorAxis
      = gm * FOps.sqrt x.norm2 / (lit 2 * gm - FOps.sqrt x.norm2 * v.norm2) := fun gm x v => rfl
    rw [e, e, r, v2]
    dims
    change L ^ 3 / T ^ 2 * gm * (L * FOps.sqrt x.norm2) / (lit 2 * (L ^ 3 / T ^ 2 * gm)
      - L * FOps.sqrt x.norm2 * ((L / T) ^ 2 * v.norm2)) = _
    rw [show lit 2 * (L ^ 3 / T ^ 2 * gm) - L * FOps.sqrt x.norm2 * ((L / T) ^ 2 * v.norm2)
      = L ^ 3 / T ^ 2 * (lit 2 * gm - FOps.sqrt x.norm2 * v.norm2) by ring]
    rw [mul_assoc, mul_div_mul_left _ _ (by positivity)]
    ring
  have he : (Tools.keplerianElements (L ^ 3 / T ^ 2 * gm) (L • x) (o.velocity • v)).eccentricity
      = (Tools.keplerianElements gm x v).eccentricity := by
    have e : ∀ (gm : ℝ) (x v : Axes ℝ), (Tools.keplerianElements gm x v).eccentricity
      = (let temp := lit 1 + (x.cross v).norm2 / gm * (v.norm2 / gm - lit 2 / FOps.sqrt x.norm2)
         let e := if leb temp (lit 0) then lit 0 else FOps.sqrt temp
         if ltb e (lit (3 / 100000000)) then lit 0 else e) := fun gm x v => rfl
    rw [e, e, r, v2, h2]
    have : (L ^ 2 / T) ^ 2 * (x.cross v).norm2 / (L ^ 3 / T ^ 2 * gm)
          * (o.velocity ^ 2 * v.norm2 / (L ^ 3 / T ^ 2 * gm) - lit 2 / (L * FOps.sqrt x.norm2))
        = (x.cross v).norm2 / gm * (v.norm2 / gm - lit 2 / FOps.sqrt x.norm2) := by
      rw [show o.velocity = L / T from rfl]
      field_simp
    rw [this]
  refine ⟨ha, he, ?_, ?_⟩
  · have e : ∀ (gm : ℝ) (x v : Axes ℝ), (Tools.keplerianElements gm x v).meanAnomaly
      = (let el := Tools.keplerianElements gm x v
         let ev := Tools.eccentricityVector gm x v
         let h := x.cross v
         let node := (Tools.inclinationAndNode h.x h.y h.z (FOps.sqrt h.norm2)).2
         let f := if eqb el.eccentricity (lit 0) then
             FTrig.acos (Tools.clamp ((x.x * FTrig.cos node + x.y * FTrig.sin node) / FOps.sqrt x.norm2)
               (-(lit 1)) (lit 1))
           else
             let f := FTrig.acos (Tools.clamp ((ev.x * x.x + ev.y * x.y + ev.z * x.z)
               / (el.eccentricity * FOps.sqrt x.norm2)) (-(lit 1)) (lit 1))
             if ltb (x.dot v) (lit 0) then Tools.twoPi - f else f
         let m := Tools.meanAnomaly el.eccentricity f (FOps.sqrt x.norm2) el.semiMajorAxis (x.dot v)
         let m := if ltb m (lit 0) then m + Tools.twoPi else m
         if ltb Tools.twoPi m then Tools.modulus m Tools.twoPi else m) := fun gm x v => rfl
    rw [e gm, e (L ^ 3 / T ^ 2 * gm)]
    simp only [ha, he, ev, r, h, rv, meanAnomaly_units hL hV, ltb_scale_zero hV]
    have hx : ((L • x).cross (o.velocity • v)).x = L ^ 2 / T * (x.cross v).x := by rw [hh]; rfl
    have hy : ((L • x).cross (o.velocity • v)).y = L ^ 2 / T * (x.cross v).y := by rw [hh]; rfl
    have hz : ((L • x).cross (o.velocity • v)).z = L ^ 2 / T * (x.cross v).z := by rw [hh]; rfl
    rw [hx, hy, hz, inclinationAndNode_units hV]
    have d1 : ∀ a b : ℝ, ((L • x).x * a + (L • x).y * b) / (L * FOps.sqrt x.norm2)
        = (x.x * a + x.y * b) / FOps.sqrt x.norm2 := fun a b => by
      rw [Axes.smul_x, Axes.smul_y, mul_assoc, mul_assoc, ← mul_add, mul_div_mul_left _ _ hL.ne']
    have d2 : ∀ a b c d : ℝ, (a * (L • x).x + b * (L • x).y + c * (L • x).z) / (d * (L * FOps.sqrt x.norm2))
        = (a * x.x + b * x.y + c * x.z) / (d * FOps.sqrt x.norm2) := fun a b c d => by
      rw [Axes.smul_x, Axes.smul_y, Axes.smul_z, show a * (L * x.x) + b * (L * x.y) + c * (L * x.z)
        = L * (a * x.x + b * x.y + c * x.z) by ring, mul_left_comm, mul_div_mul_left _ _ hL.ne']
    simp only [d1, d2]
  · have e : ∀ (gm : ℝ) (x v : Axes ℝ), (Tools.keplerianElements gm x v).orbitalPeriod
      = Tools.twoPi / FOps.sqrt gm * FPow.powf (Tools.keplerianElements gm x v).semiMajorAxis (lit 3 / lit 2) :=
      fun gm x v => rfl
    rw [e, e, ha, powf_real, powf_real, rpow_units hL, sqrt_real, sqrt_real, Real.sqrt_mul (by positivity),
      Real.sqrt_div (by positivity), Real.sqrt_sq hT.le]
    have q : L ^ ((lit 3 : ℝ) / lit 2) = Real.sqrt (L ^ 3) := by
      rw [Real.sqrt_eq_rpow, ← Real.rpow_natCast, ← Real.rpow_mul hL.le]
      norm_num
    have q0 : Real.sqrt (L ^ 3) ≠ 0 := (Real.sqrt_pos.2 (by positivity)).ne'
    rw [q]
    field_simp

/-! ### The shape -/

theorem relaxationFactor_units (k : Consts ℝ) (m r eta : ℝ) :
    Creep.relaxationFactor (o.consts k) (o.mass * m) (o.length * r) (o.viscosity * eta)
      = 1 / o.time * Creep.relaxationFactor k m r eta := by
  have hL := o.length_pos
  have hT := o.time_pos
  have hM := o.mass_pos
  unfold Creep.relaxationFactor
  simp only [Units.consts]
  dims
  field_simp

theorem epsilonRhoBar_units (b : Bool) (a m c r : ℝ) :
    Creep.epsilonRhoBar b (o.length * a) (o.mass * m) (o.mass * c) (o.length * r) = Creep.epsilonRhoBar b a m c r := by
  have hL := o.length_pos
  have hM := o.mass_pos
  unfold Creep.epsilonRhoBar
  dims
  rw [show lit 15 * (o.mass * c) * (o.length * r * (o.length * r) * (o.length * r))
      / (lit 4 * (o.mass * m) * (o.length * a * (o.length * a) * (o.length * a)))
    = lit 15 * c * (r * r * r) / (lit 4 * m * (a * a * a)) by field_simp]

theorem epsilonZBar_units (b : Bool) (k : Consts ℝ) (m r w : ℝ) :
    Creep.epsilonZBar b (o.consts k) (o.mass * m) (o.length * r) (1 / o.time * w) = Creep.epsilonZBar b k m r w := by
  have hL := o.length_pos
  have hT := o.time_pos
  have hM := o.mass_pos
  unfold Creep.epsilonZBar
  simp only [Units.consts]
  dims
  cases b
  · rfl
  · simp only [if_true]
    field_simp

theorem pseudoSynchronization_units {c : ℝ} (hc : 0 < c) (gamma n e : ℝ) :
    Creep.pseudoSynchronization (c * gamma) (c * n) e = c * Creep.pseudoSynchronization gamma n e := by
  unfold Creep.pseudoSynchronization
  rw [ltb_scale hc]
  split <;> ring

theorem slowShape_units {c : ℝ} (hc : 0 < c) (rho z mu gamma n e m : ℝ) :
    Creep.slowShape rho z mu (c * gamma) (c * n) e m = Creep.slowShape rho z mu gamma n e m := by
  unfold Creep.slowShape
  rw [mul_div_mul_left _ _ hc.ne']

theorem fastTerm_units {c : ℝ} (hc : 0 < c) (gamma n w m f j c0 c2 : ℝ) (s : Axes ℝ) :
    Creep.fastTerm (c * gamma) (c * n) (c * w) m f j c0 c2 s = Creep.fastTerm gamma n w m f j c0 c2 s := by
  unfold Creep.fastTerm
  have e : lit 2 * (c * w) - (lit 9 - j) * (c * n) = c * (lit 2 * w - (lit 9 - j) * n) := by ring
  simp only [e]
  generalize lit 2 * w - (lit 9 - j) * n = nu
  have d : ipow (c * gamma) 2 + ipow (c * nu) 2 = c ^ 2 * (ipow gamma 2 + ipow nu 2) := by dims; ring
  have d' : ipow (j - lit 7) 2 * ipow (c * n) 2 + ipow (c * gamma) 2
      = c ^ 2 * (ipow (j - lit 7) 2 * ipow n 2 + ipow gamma 2) := by dims; ring
  have q : ∀ y : ℝ, ipow (j - lit 7) 2 * ipow (c * n) 2 * y = c ^ 2 * (ipow (j - lit 7) 2 * ipow n 2 * y) := fun y => by
    dims; ring
  have q' : ∀ y : ℝ, ipow (c * gamma) 2 * y = c ^ 2 * (ipow gamma 2 * y) := fun y => by dims; ring
  simp only [d, d', q, q']
  generalize ipow gamma 2 + ipow nu 2 = D
  generalize ipow (j - lit 7) 2 * ipow n 2 + ipow gamma 2 = D'
  congr 1 <;> field_simp

theorem fastShape_units {c : ℝ} (hc : 0 < c) (rho z gamma n w e m f : ℝ) :
    Creep.fastShape rho z (c * gamma) (c * n) (c * w) e m f = Creep.fastShape rho z gamma n w e m f := by
  unfold Creep.fastShape Creep.fastSums
  simp only [fastTerm_units hc]

variable [FTan ℝ]

theorem particleShape_units (k : Consts ℝ) (fuel : Nat) (a e m period pm cm r eta w : ℝ) (t f : Bool) :
    Creep.particleShape (o.consts k) fuel (o.length * a) e m (o.time * period) (o.mass * pm) (o.mass * cm) (o.length * r)
        (o.viscosity * eta) (1 / o.time * w) t f
      = Creep.particleShape k fuel a e m period pm cm r eta w t f := by
  have hT := o.time_pos
  have hc : 0 < 1 / o.time := by positivity
  have hM := o.mass_pos
  unfold Creep.particleShape
  have n : lit 2 * FTrig.pi / (o.time * period) = 1 / o.time * (lit 2 * FTrig.pi / period) := by
    rw [pi_real]; field_simp
  rw [n]
  simp only [relaxationFactor_units, epsilonRhoBar_units, epsilonZBar_units, pseudoSynchronization_units hc, ltb_scale hc,
    slowShape_units hc, fastShape_units hc, ← mul_add, mul_div_mul_left _ _ hM.ne']

theorem orbitingViscosity_units (e : TidesEffect ℝ) :
    Creep.orbitingViscosity (o.tidesEffect e) = o.viscosity * Creep.orbitingViscosity e := by
  have z : (lit 0 : ℝ) = o.viscosity * lit 0 := by simp
  rcases e with m | m | _
  · exact z
  · cases m <;> first | rfl | exact z
  · exact z

theorem centralViscosity_units (e : TidesEffect ℝ) :
    Creep.centralViscosity (o.tidesEffect e) = o.viscosity * Creep.centralViscosity e := by
  have z : (lit 0 : ℝ) = o.viscosity * lit 0 := by simp
  rcases e with m | m | _
  · cases m <;> first | rfl | exact z
  · exact z
  · exact z

theorem shape_units (k : Consts ℝ) (fuel : Nat) (host p : Particle ℝ) (t f c : Bool) :
    Creep.shape (o.consts k) fuel (o.sees host) (o.sees p) t f c = Creep.shape k fuel host p t f c := by
  unfold Creep.shape
  obtain ⟨e1, e2, e3, e4⟩ := keplerianElements_units o (host.massG + p.massG) p.tides.position p.tides.velocity
  have g : (o.sees host).massG + (o.sees p).massG = o.length ^ 3 / o.time ^ 2 * (host.massG + p.massG) :=
    (mul_add _ _ _).symm
  have x : (o.sees p).tides.position = o.length • p.tides.position := rfl
  have v : (o.sees p).tides.velocity = o.velocity • p.tides.velocity := rfl
  rw [g, x, v]
  dsimp only at *
  rw [e1, e2, e3, e4]
  cases c
  · exact (congrArg (fun v => Creep.particleShape (o.consts k) fuel _ _ _ _ _ _ _ v _ t f)
      (orbitingViscosity_units o p.tides.effect)).trans (particleShape_units o k fuel _ _ _ _ p.mass host.mass p.radius
        (Creep.orbitingViscosity p.tides.effect) p.spin.z t f)
  · exact (congrArg (fun v => Creep.particleShape (o.consts k) fuel _ _ _ _ _ _ _ v _ t f)
      (centralViscosity_units o host.tides.effect)).trans (particleShape_units o k fuel _ _ _ _ host.mass p.mass
        host.radius (Creep.centralViscosity host.tides.effect) host.spin.z t f)

/-! ### Forces and torques -/

omit [FTan ℝ] in
theorem getD_map_smul (c : ℝ) (x : Option (Axes ℝ)) (f g : Axes ℝ → Axes ℝ) (h : ∀ s, f s = c • g s) :
    (x.map f).getD Axes.zero = c • (x.map g).getD Axes.zero := by
  cases x
  · show Axes.zero = c • Axes.zero
    rw [Axes.zero_def, smul_zero]
  · exact h _

theorem creepTides_units (k : Consts ℝ) (fuel : Nat) (m m' : Models ℝ) (eta : ℝ) :
    TidalUnits o (withCreep k fuel m) (withCreep (o.consts k) fuel m') (.creepCoplanar eta) := by
  have hL := o.length_pos
  have hT := o.time_pos
  have hM := o.mass_pos
  refine ⟨fun host q b => ?_, fun host q => ?_, (fun h => by cases h), fun v _ host q => ?_⟩
  · cases b
    · show Creep.companionTorque _ _ _ = o.torque • Creep.companionTorque _ _ _
      unfold Creep.companionTorque
      simp only [Units.sees, Units.tides, Units.consts]
      dims
      ext <;> parts
      · simp
      · simp
      · field_simp
    · show (Creep.hostTorque _ _ _ _).getD _ = o.torque • (Creep.hostTorque _ _ _ _).getD _
      unfold Creep.hostTorque
      rw [shape_units]
      refine getD_map_smul _ _ _ _ fun s => ?_
      simp only [Units.sees, Units.tides, Units.consts]
      dims
      ext <;> parts
      · simp
      · simp
      · field_simp
  · show Creep.force _ _ _ = o.force • Creep.force _ _ _
    unfold Creep.force
    simp only [Units.sees, Units.tides, Units.consts]
    dims
    ext <;> parts
    · field_simp
    · field_simp
    · simp
  · show (Creep.shape _ _ _ _ _ _ _).getD _ = (Creep.shape _ _ _ _ _ _ _).getD _
    rw [shape_units]

theorem creepFlattening_units (k : Consts ℝ) (fuel : Nat) (m m' : Models ℝ) (eta : ℝ) :
    FlatteningModelUnits o (withCreep k fuel m) (withCreep (o.consts k) fuel m') (.creepCoplanar eta) := by
  have hL := o.length_pos
  have hT := o.time_pos
  have hM := o.mass_pos
  refine ⟨fun host q b => ?_, fun host q => ?_, fun v _ host q => ?_⟩
  · cases b
    · show Creep.companionFlatteningTorque _ _ _ = o.torque • Creep.companionFlatteningTorque _ _ _
      unfold Creep.companionFlatteningTorque
      simp only [Units.sees, Units.flattening, Units.consts]
      dims
      ext <;> parts
      · simp
      · simp
      · field_simp
    · show (Creep.hostFlatteningTorque _ _ _ _).getD _ = o.torque • (Creep.hostFlatteningTorque _ _ _ _).getD _
      unfold Creep.hostFlatteningTorque
      rw [shape_units]
      refine getD_map_smul _ _ _ _ fun s => ?_
      simp only [Units.sees, Units.flattening, Units.consts]
      dims
      ext <;> parts
      · simp
      · simp
      · field_simp
  · show Creep.flatteningForce _ _ _ = o.force • Creep.flatteningForce _ _ _
    unfold Creep.flatteningForce
    simp only [Units.sees, Units.flattening, Units.consts]
    dims
    ext <;> parts
    · field_simp
    · field_simp
    · simp
  · show (Creep.shape _ _ _ _ _ _ _).getD _ = (Creep.shape _ _ _ _ _ _ _).getD _
    rw [shape_units]

end Posidonius.Univ
