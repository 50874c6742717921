import Verif.Model.Vec
import Verif.Model.Interp

/-!
# Orbital elements, Kepler's equation and small helpers

/repo/src/tools.rs.  `powi(2)`, `powf(2.)` are written as a product.  `TWO_PI` (constants.rs 32) is
`PI*2.`.  Messages printed to the terminal are left out.
-/

namespace Posidonius.Tools

variable {F : Type} [Add F] [Sub F] [Mul F] [Div F] [Neg F] [FOps F] [FTrig F]

/-- constants.rs 31-32. -/
def pi : F := FTrig.pi
def twoPi : F := FTrig.pi * lit 2

/-- `f64::clamp(lo, hi)`. -/
def clamp (x lo hi : F) : F := if ltb x lo then lo else if ltb hi x then hi else x

/-- tools.rs 832-838 `modulus`. -/
def modulus (a b : F) : F := a - FOps.floor (a / b) * b

/-- tools.rs 862-882 `cosine_interpolation`: value and left index; `none`: panic. -/
def cosineInterpolation (target : F) (x y : List F) : Option (F × Nat) :=
  match Interp.findIndices x target with
  | none => none
  | some (left, right) =>
    if left = right then
      match y[left]? with
      | some v => some (v, left)
      | none => none
    else
      match x[left]?, x[right]?, y[left]?, y[right]? with
      | some xl, some xr, some yl, some yr =>
        let percent := (target - xl) / (xr - xl)
        let percent := (lit 1 - FTrig.cos (percent * pi)) / lit 2
        some (yl * (lit 1 - percent) + yr * percent, left)
      | _, _, _, _ => none

/-- tools.rs 8-44 `calculate_inclination_orbital_equatorial_plane`. -/
def inclinationOrbitalEquatorial (position velocity spin : Axes F) : F :=
  let s := FOps.sqrt (spin.x * spin.x + spin.y * spin.y + spin.z * spin.z)
  let hx := position.y * velocity.z - position.z * velocity.y
  let hy := position.z * velocity.x - position.x * velocity.z
  let hz := position.x * velocity.y - position.y * velocity.x
  let h := FOps.sqrt (hx * hx + hy * hy + hz * hz)
  let hxRel := hx / h
  let hyRel := hy / h
  let hzRel := hz / h
  let hRel := FOps.sqrt (hxRel * hxRel + hyRel * hyRel + hzRel * hzRel)
  let numerator := hxRel * spin.x + hyRel * spin.y + hzRel * spin.z
  let denominator := hRel * s
  let cosInclination := clamp (numerator / denominator) (-(lit 1)) (lit 1)
  FTrig.acos cosInclination

/-- tools.rs 46-75 `calculate_eccentricity_vector`. -/
def eccentricityVector (gm : F) (position velocity : Axes F) : Axes F :=
  let x := position.x; let y := position.y; let z := position.z
  let u := velocity.x; let v := velocity.y; let w := velocity.z
  let hx := y * w - z * v
  let hy := z * u - x * w
  let hz := x * v - y * u
  let vhx := v * hz - w * hy
  let vhy := w * hx - u * hz
  let vhz := u * hy - v * hx
  let r := FOps.sqrt (x * x + y * y + z * z)
  ⟨(vhx / gm) - (x / r), (vhy / gm) - (y / r), (vhz / gm) - (z / r)⟩

/-- tools.rs 251-285 `calculate_perihelion_distance_and_eccentricity`. -/
def perihelionDistanceAndEccentricity (gm : F) (position velocity : Axes F) : F × F :=
  let x := position.x; let y := position.y; let z := position.z
  let u := velocity.x; let v := velocity.y; let w := velocity.z
  let hx := y * w - z * v
  let hy := z * u - x * w
  let hz := x * v - y * u
  let h2 := hx * hx + hy * hy + hz * hz
  let v2 := u * u + v * v + w * w
  let r := FOps.sqrt (x * x + y * y + z * z)
  let s := h2 / gm
  let temp := lit 1 + s * (v2 / gm - lit 2 / r)
  let eccentricity := if leb temp (lit 0) then lit 0 else FOps.sqrt temp
  (s / (lit 1 + eccentricity), eccentricity)

/-- What `calculate_keplerian_orbital_elements` returns. -/
structure Elements (F : Type) where
  semiMajorAxis : F
  perihelionDistance : F
  eccentricity : F
  inclination : F
  /-- longitude, not argument, of perihelion -/
  longitudeOfPerihelion : F
  longitudeOfAscendingNode : F
  meanAnomaly : F
  orbitalPeriod : F

/-- tools.rs 117-143: inclination and longitude of the ascending node. -/
def inclinationAndNode (hx hy hz h : F) : F × F :=
  let cosI := clamp (hz / h) (-(lit 1)) (lit 1)
  if ltb (FOps.abs cosI) (lit 1) then
    let i := FTrig.acos cosI
    let i := if ltb (lit 0) hy then twoPi - i else i
    let node := FTrig.atan2 hx (-hy)
    let node := if ltb node (lit 0) then node + twoPi else node
    let node := if eqb i (lit 0) then lit 0 else node
    (i, node)
  else
    -- `i` is initialized with 0 (line 91) and set to 0 if `cos_i > 0.`
    let i := if ltb cosI (lit 0) then pi else lit 0
    (i, lit 0)

/-- tools.rs 201-231: mean anomaly of an ellipse (or parabola/hyperbola) before the reduction of lines
233-238.  The parabola (`eccentricity` exactly 1) uses the formula of the hyperbola. -/
def meanAnomaly (eccentricity trueAnomaly r a rv : F) : F :=
  if eqb eccentricity (lit 0) then trueAnomaly
  else
    let cosE := clamp ((lit 1 / eccentricity) * (lit 1 - (r / a))) (-(lit 1)) (lit 1)
    if ltb eccentricity (lit 1) then
      -- lines 208-210: `if cos_bige.abs() > 1. { cos_bige = cos_bige.signum(); }` never fires after clamp
      let bigE := FTrig.acos cosE
      let bigE := if ltb rv (lit 0) then twoPi - bigE else bigE
      bigE - eccentricity * FTrig.sin bigE
    else
      let cosE := if ltb cosE (lit 1) then lit 1 else cosE
      let bigE := FTrig.ln (cosE + FOps.sqrt (cosE * cosE - lit 1))
      let bigE := if ltb rv (lit 0) then -bigE else bigE
      eccentricity * FTrig.sinh bigE - bigE

/-- tools.rs 77-249 `calculate_keplerian_orbital_elements`. -/
def keplerianElements [FPow F] (gm : F) (position velocity : Axes F) : Elements F :=
  let x := position.x; let y := position.y; let z := position.z
  let u := velocity.x; let v := velocity.y; let w := velocity.z
  let ev := eccentricityVector gm position velocity
  let eScalR := ev.x * x + ev.y * y + ev.z * z
  let hx := y * w - z * v
  let hy := z * u - x * w
  let hz := x * v - y * u
  let h2 := hx * hx + hy * hy + hz * hz
  let v2 := u * u + v * v + w * w
  let rv := x * u + y * v + z * w
  let r := FOps.sqrt (x * x + y * y + z * z)
  let h := FOps.sqrt h2
  let s := h2 / gm
  let a := gm * r / (lit 2 * gm - r * v2)
  let (i, node) := inclinationAndNode hx hy hz h
  let temp := lit 1 + s * (v2 / gm - lit 2 / r)
  let eccentricity := if leb temp (lit 0) then lit 0 else FOps.sqrt temp
  let q := s / (lit 1 + eccentricity)
  let eccentricity := if ltb eccentricity (lit (3 / 100000000)) then lit 0 else eccentricity
  let argument :=
    if eqb eccentricity (lit 0) then lit 0
    else
      let exRot := ev.x * FTrig.cos node + ev.y * FTrig.sin node
      let eyRot := -ev.x * FTrig.sin node + ev.y * FTrig.cos node
      let ezRot := ev.z
      let eyRot2 := eyRot * FTrig.cos i + ezRot * FTrig.sin i
      FTrig.atan2 eyRot2 exRot
  let trueAnomaly :=
    if eqb eccentricity (lit 0) then
      let xRot := x * FTrig.cos node + y * FTrig.sin node
      FTrig.acos (clamp (xRot / r) (-(lit 1)) (lit 1))
    else
      let f := FTrig.acos (clamp (eScalR / (eccentricity * r)) (-(lit 1)) (lit 1))
      if ltb rv (lit 0) then twoPi - f else f
  let m := meanAnomaly eccentricity trueAnomaly r a rv
  let m := if ltb m (lit 0) then m + twoPi else m
  let m := if ltb twoPi m then modulus m twoPi else m
  { semiMajorAxis := a
    perihelionDistance := q
    eccentricity := eccentricity
    inclination := i
    longitudeOfPerihelion := argument + node
    longitudeOfAscendingNode := node
    meanAnomaly := m
    orbitalPeriod := (twoPi / FOps.sqrt gm) * FPow.powf a (lit 3 / lit 2) }

/-! ## Kepler's equation -/

/-- tools.rs 432-441: reduction of the mean anomaly: (l, sign). -/
def reduceMeanAnomaly (oldl : F) : F × F :=
  let l := if leb (lit 0) oldl then modulus oldl twoPi else modulus oldl twoPi + twoPi
  if ltb pi l then (twoPi - l, -(lit 1)) else (l, lit 1)

/-- tools.rs 443-492: starting value `u2`. -/
def keplerStart (e l : F) : F :=
  let piby2 : F := lit (1 / 2) * pi
  let ome := lit 1 - e
  if leb (lit 0.45) l || ltb e (lit 0.55) then
    let u1 := if ltb l ome then ome
      else if ltb (pi - lit 1 - e) l then (l + e * pi) / (lit 1 + e) else l + e
    let flag := ltb piby2 u1
    let x := if flag then pi - u1 else u1
    let x2 := x * x
    let sn := x * (lit 1 + x2 * (-(lit 0.16605) + x2 * lit 0.00761))
    let dsn := lit 1 + x2 * (-(lit 0.49815) + x2 * lit 0.03805)
    let dsn := if flag then -dsn else dsn
    let f2 := e * sn
    let f0 := u1 - f2 - l
    let f1 := lit 1 - e * dsn
    u1 - f0 / (f1 - lit (1 / 2) * f0 * f2 / f1)
  else
    let z1 := lit 4 * e + lit (1 / 2)
    let p := ome / z1
    let q := lit (1 / 2) * l / z1
    let p2 := p * p
    let z2 := FTrig.exp (FTrig.ln (FOps.sqrt (p2 * p + q * q) + q) / lit 1.5)
    let u1 := lit 2 * q / (z2 + p + p2 / z2)
    let z2 := u1 * u1
    let z3 := z2 * z2
    let u2 := u1 - lit 0.075 * u1 * z3 / (ome + z1 * z2 + lit 0.375 * z3)
    l + e * u2 * (lit 3 - lit 4 * u2 * u2)

/-- tools.rs 513-514: series of `x - sin x` and `1 - cos x`. -/
def seriesSS (x : F) : F :=
  let x2 := x * x
  x * x2 / lit 6 * (lit 1 - x2 / lit 20 * (lit 1 - x2 / lit 42 * (lit 1 - x2 / lit 72 * (lit 1 -
    x2 / lit 110 * (lit 1 - x2 / lit 156 * (lit 1 - x2 / lit 210 * (lit 1 - x2 / lit 272)))))))
def seriesCC (x : F) : F :=
  let x2 := x * x
  x2 / lit 2 * (lit 1 - x2 / lit 12 * (lit 1 - x2 / lit 30 * (lit 1 - x2 / lit 56 * (lit 1 -
    x2 / lit 90 * (lit 1 - x2 / lit 132 * (lit 1 - x2 / lit 182 * (lit 1 - x2 / lit 240 * (lit 1 -
    x2 / lit 306))))))))

/-- tools.rs 494-527: `u2 - sin u2` and `1 - cos u2` by series. -/
def sinCosDefects (u2 : F) : F × F :=
  let piby2 : F := lit (1 / 2) * pi
  let bigg := ltb piby2 u2
  let z3 := if bigg then pi - u2 else u2
  let big := ltb (lit (1 / 2) * piby2) z3
  let x := if big then piby2 - z3 else z3
  let ss := seriesSS x
  let cc := seriesCC x
  let (z1, z2) := if big then (cc + z3 - lit 1, ss + z3 + lit 1 - piby2) else (ss, cc)
  if bigg then (lit 2 * u2 + z1 - pi, lit 2 - z2) else (z1, z2)

/-- tools.rs 529-536: the final step from `u2` (without the sign). -/
def keplerFinish (e l u2 : F) : F :=
  let ome := lit 1 - e
  let (z1, z2) := sinCosDefects u2
  let f0 := l - u2 * ome - e * z1
  let f1 := ome + e * z2
  let f2 := lit (1 / 2) * e * (u2 - z1)
  let f3 := e / lit 6 * (lit 1 - z2)
  let z1 := f0 / f1
  let z2 := f0 / (f2 * z1 + f1)
  u2 + f0 / ((f3 * z1 + f2) * z2 + f1)

/-- tools.rs 391-536 `kepler_solution_for_eccentrities_smaller_than_one`. -/
def keplerEllipse (e oldl : F) : F :=
  let (l, sign) := reduceMeanAnomaly oldl
  sign * keplerFinish e l (keplerStart e l)

/-- tools.rs 539-583 `kepler_solution_for_a_parabola`. -/
def keplerParabola [FPow F] (q0 : F) : F × F :=
  let negative := ltb q0 (lit 0)
  let q := if negative then -q0 else q0
  let anomaly :=
    if ltb q (lit (1 / 1000)) then q * (lit 1 - (q * q / lit 3) * (lit 1 - q * q))
    else
      let x := lit (1 / 2) * (lit 3 * q + FOps.sqrt (lit 9 * (q * q) + lit 4))
      let tmp := FPow.powf x (lit 1 / lit 3)
      tmp - lit 1 / tmp
  if negative then (-q, -anomaly) else (q, anomaly)

/-- tools.rs 704-718: the loop of the solver for low N; `k` turns are left.  Returns the last value
`orbel_flon` and whether it converged. -/
def lowNLoop (a0 a1 : F) : Nat → F → F → F × Bool
  | 0, _, flon => (flon, false)
  | k + 1, x, _ =>
    let x2 := x * x
    let f := a0 + x * (a1 + x2 * (lit 1037836800 + x2 * (lit 51891840 + x2 * (lit 1235520 + x2 *
      (lit 17160 + x2 * (lit 156 + x2))))))
    let fp := a1 + x2 * (lit 3 * lit 1037836800 + x2 * (lit 5 * lit 51891840 + x2 *
      (lit 7 * lit 1235520 + x2 * (lit 9 * lit 17160 + x2 * (lit 11 * lit 156 + lit 13 * x2)))))
    let dx := -f / fp
    let flon := x + dx
    if ltb (FOps.abs dx) (lit (4 / 1000000000000000)) then (flon, true)
    else lowNLoop a0 a1 k flon flon

/-- tools.rs 623-746 `kepler_solution_for_a_hyperbola_hybrid_approach_for_low_n`: the pair
(anomaly, mean anomaly). -/
def hyperbolaLowN [FPow F] (e capn0 : F) : F × F :=
  let negative := ltb capn0 (lit 0)
  let capn := if negative then -capn0 else capn0
  let a1 := lit 6227020800 * (lit 1 - lit 1 / e)
  let a0 := -(lit 6227020800) * capn / e
  let a := lit 6 * (e - lit 1) / e
  let b := -(lit 6) * capn / e
  let sq := FOps.sqrt (lit (1 / 4) * b * b + a * a * a / lit 27)
  let biga := FPow.powf (-(lit (1 / 2)) * b + sq) (lit 0.3333333333333333)
  let bigb := -(FPow.powf (lit (1 / 2) * b + sq) (lit 0.3333333333333333))
  let x := biga + bigb
  let flon := if leb (lit (4 / 1000000000000000)) capn then (lowNLoop a0 a1 9 x x).1 else x
  if negative then (-flon, -capn) else (flon, capn)

/-- tools.rs 779-797: the loop for large N. -/
def hyperbolaLoop (e capn : F) : Nat → F → F → F × Bool
  | 0, _, fget => (fget, false)
  | k + 1, x, _ =>
    let shx := FTrig.sinh x
    let chx := FTrig.cosh x
    let esh := e * shx
    let ech := e * chx
    let f := esh - x - capn
    let fp := ech - lit 1
    let fpp := esh
    let fppp := ech
    let dx := -f / fp
    let dx := -f / (fp + dx * fpp / lit 2)
    let dx := -f / (fp + dx * fpp / lit 2 + dx * dx * fppp / lit 6)
    let fget := x + dx
    if leb (FOps.abs dx) (lit (4 / 1000000000000000)) then (fget, true)
    else hyperbolaLoop e capn k fget fget

/-- tools.rs 749-801 `kepler_solution_for_a_hyperbola_hybrid_approach`. -/
def hyperbolaHighN (e capn : F) : F :=
  let x := if ltb capn (lit 0) then -(FTrig.ln (-(lit 2) * capn / e + lit 1.8))
    else FTrig.ln (lit 2 * capn / e + lit 1.8)
  (hyperbolaLoop e capn 9 x x).1

/-- tools.rs 586-620 `kepler_solution_for_a_hyperbola`.  In the first branch the second member of the pair
is returned (line 613 `orbel_fhybrid = tmp.1`). -/
def keplerHyperbola [FPow F] (e n : F) : F :=
  let abn := if ltb n (lit 0) then -n else n
  if ltb abn (lit 0.636 * e - lit 0.6) then (hyperbolaLowN e n).2
  else hyperbolaHighN e n

/-! ## From elements to coordinates -/

/-- tools.rs 346-377: position (z1, z2) and velocity (z3, z4) in the plane of the orbit. -/
def inPlane [FPow F] (gm q e l : F) : F × F × F × F :=
  let a := q / (lit 1 - e)
  if ltb e (lit 1) then
    let romes := FOps.sqrt (lit 1 - e * e)
    let temp0 := keplerEllipse e l
    let se := FTrig.sin temp0
    let ce := FTrig.cos temp0
    let temp := FOps.sqrt (gm / a) / (lit 1 - e * ce)
    (a * (ce - e), a * romes * se, -se * temp, romes * ce * temp)
  else if eqb e (lit 1) then
    let ce := (keplerParabola l).2
    let z4 := FOps.sqrt (lit 2 * gm / q) / (lit 1 + ce * ce)
    (q * (lit 1 - ce * ce), lit 2 * q * ce, -ce * z4, z4)
  else
    let romes := FOps.sqrt (e * e - lit 1)
    let temp := keplerHyperbola e l
    let se := FTrig.sinh temp
    let ce := FTrig.cosh temp
    let temp := FOps.sqrt (gm / FOps.abs a) / (e * ce - lit 1)
    (a * (ce - e), -a * romes * se, -se * temp, romes * ce * temp)

/-- tools.rs 318-337 and 379-386: rotation of the in-plane vectors; `g0` is the argument of perihelion. -/
def rotate (i0 g0 n0 : F) (z : F × F × F × F) : Axes F × Axes F :=
  let si := FTrig.sin i0
  let ci := FTrig.cos i0
  let sg := FTrig.sin g0
  let cg := FTrig.cos g0
  let sn := FTrig.sin n0
  let cn := FTrig.cos n0
  let z1 := cg * cn
  let z2 := cg * sn
  let z3 := sg * cn
  let z4 := sg * sn
  let d11 := z1 - z4 * ci
  let d12 := z2 + z3 * ci
  let d13 := sg * si
  let d21 := -z3 - z2 * ci
  let d22 := -z4 + z1 * ci
  let d23 := cg * si
  let (z1, z2, z3, z4) := z
  (⟨d11 * z1 + d21 * z2, d12 * z1 + d22 * z2, d13 * z1 + d23 * z2⟩,
   ⟨d11 * z3 + d21 * z4, d12 * z3 + d22 * z4, d13 * z3 + d23 * z4⟩)

/-- tools.rs 289-386 `calculate_cartesian_coordinates`: position and velocity. -/
def cartesian [FPow F] (gm q e i0 p n0 l : F) : Axes F × Axes F :=
  rotate i0 (p - n0) n0 (inPlane gm q e l)

/-! ## Spin -/

/-- tools.rs 919-927 `calculate_spin`. -/
def spinVector (angularFrequency inclination obliquity node : F) : Axes F :=
  ⟨angularFrequency * FTrig.sin (obliquity + inclination) * FTrig.sin node,
   -angularFrequency * FTrig.sin (obliquity + inclination) * FTrig.cos node,
   angularFrequency * FTrig.cos (obliquity + inclination)⟩

/-- tools.rs 909-917 `calculate_pseudo_synchronization_period`; `gSi`, `mSun`, `au`, `hour` are the
constants `G_SI`, `M_SUN`, `AU`, `HOUR` of constants.rs. -/
def pseudoSynchronizationPeriod [FPow F] (gSi mSun au hour : F)
    (semiMajorAxis eccentricity starMass planetMass : F) : F :=
  let e2 := eccentricity * eccentricity
  let alpha := (lit 1 + lit 15 / lit 2 * e2 + lit 45 / lit 8 * (e2 * e2) + lit 5 / lit 16 * (e2 * e2 * e2))
    * lit 1 / (lit 1 + lit 3 * e2 + lit 3 / lit 8 * (e2 * e2)) * lit 1
    / FPow.powf (lit 1 - e2) (lit 1.5)
  let pseudoRot := alpha * FOps.sqrt (gSi * mSun * (starMass + planetMass))
  let angularFrequency := pseudoRot * FPow.powf (semiMajorAxis * au) (-(lit 3) / lit 2) * hour * lit 24
  twoPi / angularFrequency

end Posidonius.Tools
