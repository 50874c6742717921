import Verif.Model.Tools

/-!
# The Python front end: orbital elements

/repo/posidonius/tools.py 6-31, 79-129, 154-208, 210-482, 484-632 and 636-986.  `none` is an exception.  Arrays of several
snapshots are left out: positions and velocities are single numbers, which the code wraps into arrays of length one, so
that `np.any` of a mask is the mask.  Divisions of numpy numbers by zero give infinities or NaN and raise nothing; the
divisions of the centre of mass, of Python numbers, raise.  Printing is left out.
-/

namespace Posidonius.Tools.Py

variable {F : Type} [Add F] [Sub F] [Mul F] [Div F] [Neg F] [FOps F] [FTrig F]

/-- What `calculate_keplerian_orbital_elements` returns. -/
structure Elements (F : Type) where
  semiMajorAxis : F
  perihelionDistance : F
  eccentricity : F
  inclination : F
  longitudeOfPerihelion : F
  longitudeOfAscendingNode : F
  meanAnomaly : F
  trueAnomaly : F

/-- `np.sign`. -/
def sign (x : F) : F := if ltb (lit 0) x then lit 1 else if ltb x (lit 0) then -(lit 1) else lit 0

/-- tools.py 450, 453 and 477: `modulus(x + TWO_PI + TWO_PI, TWO_PI)`. -/
def turn (x : F) : F := modulus (x + twoPi + twoPi) twoPi

/-- tools.py 6-31 `_calculate_eccentricity_vector`. -/
def eccentricityVector (gm : F) (position velocity : Axes F) : Axes F :=
  let x := position.x; let y := position.y; let z := position.z
  let u := velocity.x; let v := velocity.y; let w := velocity.z
  let hx := y * w - z * v
  let hy := z * u - x * w
  let hz := x * v - y * u
  let r := FOps.sqrt (x * x + y * y + z * z)
  ⟨(v * hz - w * hy) / gm - x / r, (w * hx - u * hz) / gm - y / r, (u * hy - v * hx) / gm - z / r⟩

/-- tools.py 266-284: inclination and longitude of the ascending node. -/
def inclinationAndNode (hx hy ci : F) : F × F :=
  if ltb (FOps.abs ci) (lit 1) then
    let n := FTrig.atan2 hx (-hy)
    (FTrig.acos ci, if ltb n (lit 0) then n + twoPi else n)
  else (if ltb ci (lit 0) then pi else lit 0, lit 0)

/-- tools.py 325-343: true longitude. -/
def trueLongitude (x y hx hy ci : F) : F :=
  let l :=
    if eqb hy (lit 0) then FTrig.atan2 (y * ci) x
    else
      let tangent := -hx / hy
      let temp := (lit 1 - ci) * tangent
      let tmp2 := tangent * tangent
      FTrig.atan2 (y * (lit 1 + tmp2 * ci) - x * temp) (x * (tmp2 + ci) - y * temp)
  if ltb ci (lit 0) then l + pi else l

/-- tools.py 374-403: mean anomaly before the reduction. -/
def meanAnomaly (eccentricity gm r v2 rv trueLongitude : F) : F :=
  if ltb eccentricity (lit (3 / 100000000)) then trueLongitude
  else
    let ce := (v2 * r - gm) / (eccentricity * gm)
    if ltb eccentricity (lit 1) then
      let ce := if ltb (lit 1) (FOps.abs ce) then sign ce else ce
      let bige := FTrig.acos ce
      let bige := if ltb rv (lit 0) then twoPi - bige else bige
      bige - eccentricity * FTrig.sin bige
    else
      let ce := if ltb ce (lit 1) then lit 1 else ce
      let bige := FTrig.ln (ce + FOps.sqrt (ce * ce - lit 1))
      let bige := if ltb rv (lit 0) then -bige else bige
      eccentricity * FTrig.sinh bige - bige

/-- tools.py 411-416: reduction of the mean anomaly, of whatever conic. -/
def reduce (l : F) : F :=
  let l := if ltb l (lit 0) then l + twoPi else l
  if ltb twoPi l then modulus l twoPi else l

/-- tools.py 440-450 and 457-458: true anomaly; `l` is the mean anomaly. -/
def trueAnomaly (eccentricity s r rv l : F) : F :=
  if ltb eccentricity (lit (3 / 100000000)) then l
  else
    let cf := (s - r) / (eccentricity * r)
    let cf := if ltb (lit 1) (FOps.abs cf) then sign cf else cf
    let f := FTrig.acos cf
    turn (if ltb rv (lit 0) then twoPi - f else f)

/-- tools.py 306-310, 452-453 and 461-477: longitude of perihelion. -/
def longitudeOfPerihelion (eccentricity i n : F) (ev : Axes F) : F :=
  let small := ltb eccentricity (lit (3 / 100000000))
  let ex := if small then lit 0 else ev.x
  let ey := if small then lit 0 else ev.y
  let ez := if small then lit 0 else ev.z
  if leb (lit (1 / 100000000)) n then
    let exRot := ex * FTrig.cos n + ey * FTrig.sin n
    let eyRot := -ex * FTrig.sin n + ey * FTrig.cos n
    let eyRot2 := eyRot * FTrig.cos i + ez * FTrig.sin i
    turn (n + FTrig.atan2 eyRot2 exRot)
  else if small then lit 0
  else turn (FTrig.atan2 ey ex)

/-- tools.py 210-482 `_calculate_keplerian_orbital_elements`. -/
def elementsOfOrbit (gm : F) (position velocity : Axes F) : Elements F :=
  let x := position.x; let y := position.y; let z := position.z
  let u := velocity.x; let v := velocity.y; let w := velocity.z
  let hx := y * w - z * v
  let hy := z * u - x * w
  let hz := x * v - y * u
  let h2 := hx * hx + hy * hy + hz * hz
  let v2 := u * u + v * v + w * w
  let rv := x * u + y * v + z * w
  let r := FOps.sqrt (x * x + y * y + z * z)
  let h := FOps.sqrt h2
  let s := h2 / gm
  let ci := hz / h
  let (i, n) := inclinationAndNode hx hy ci
  let temp := lit 1 + s * (v2 / gm - lit 2 / r)
  let eccentricity := if ltb (lit 0) temp then FOps.sqrt temp else lit 0
  let l := reduce (meanAnomaly eccentricity gm r v2 rv (trueLongitude x y hx hy ci))
  { semiMajorAxis := gm * r / (lit 2 * gm - r * v2)
    perihelionDistance := s / (lit 1 + eccentricity)
    eccentricity := eccentricity
    inclination := i
    longitudeOfPerihelion := longitudeOfPerihelion eccentricity i n (eccentricityVector gm position velocity)
    longitudeOfAscendingNode := n
    meanAnomaly := l
    trueAnomaly := trueAnomaly eccentricity s r rv l }

/-! ## Several central bodies -/

/-- A central body: mass, position, velocity. -/
structure Body (F : Type) where
  mass : F
  position : Axes F
  velocity : Axes F

/-- tools.py 113-128: one turn of the loop of `calculate_center_of_mass` on (mass, position, velocity). -/
def centerStep (c : Option (F × Axes F × Axes F)) (b : Body F) : Option (F × Axes F × Axes F) :=
  match c with
  | none => none
  | some (m, r, v) =>
    let m' := m + b.mass
    if eqb m' (lit 0) then none
    else some (m',
      ⟨(r.x * m + b.position.x * b.mass) / m', (r.y * m + b.position.y * b.mass) / m',
        (r.z * m + b.position.z * b.mass) / m'⟩,
      ⟨(v.x * m + b.velocity.x * b.mass) / m', (v.y * m + b.velocity.y * b.mass) / m',
        (v.z * m + b.velocity.z * b.mass) / m'⟩)

/-- tools.py 79-129 `calculate_center_of_mass`: mass, position and velocity. -/
def center (bodies : List (Body F)) : Option (F × Axes F × Axes F) :=
  bodies.foldl centerStep (some (lit 0, ⟨lit 0, lit 0, lit 0⟩, ⟨lit 0, lit 0, lit 0⟩))

/-- `G*(sum(masses)+target_mass)`, tools.py 200 and 523; `sum` starts with 0. -/
def gravitationalParameter (G mass : F) (bodies : List (Body F)) : F :=
  G * (bodies.foldl (fun s b => s + b.mass) (lit 0) + mass)

/-- tools.py 204 and 519: distance of the centre of mass from the origin. -/
def distance (r : Axes F) : F := FOps.sqrt (r.x * r.x + r.y * r.y + r.z * r.z)

/-- tools.py 154-208 `calculate_keplerian_orbital_elements`. -/
def keplerianElements (G mass : F) (position velocity : Axes F) (bodies : List (Body F)) : Option (Elements F) :=
  let gm := gravitationalParameter G mass bodies
  if bodies.isEmpty then some (elementsOfOrbit gm position velocity)
  else match center bodies with
    | none => none
    | some (_, r, v) =>
      let e := elementsOfOrbit gm ⟨position.x - r.x, position.y - r.y, position.z - r.z⟩
        ⟨velocity.x - v.x, velocity.y - v.y, velocity.z - v.z⟩
      some { e with
        semiMajorAxis := e.semiMajorAxis + distance r
        perihelionDistance := e.perihelionDistance + distance r * (lit 1 - e.eccentricity) }

/-! ## From elements to coordinates -/

/-- tools.py 755-793 `kepler_solution_for_a_parabola`: as in tools.rs, but `.sqrt()` of a number raises (line 784). -/
def keplerParabola [FPow F] (q0 : F) : Option (F × F) :=
  let q := if ltb q0 (lit 0) then -q0 else q0
  if ltb q (lit (1 / 1000)) then some (Tools.keplerParabola q0) else none

/-- tools.py 830-919 `kepler_solution_for_a_hyperbola_hybrid_approach_for_low_n`: as in tools.rs, but `.abs()` of a number
raises in the first turn of the loop (line 895). -/
def hyperbolaLowN [FPow F] (e capn0 : F) : Option (F × F) :=
  let capn := if ltb capn0 (lit 0) then -capn0 else capn0
  if leb (lit (4 / 1000000000000000)) capn then none else some (Tools.hyperbolaLowN e capn0)

/-- tools.py 923-976 `kepler_solution_for_a_hyperbola_hybrid_approach`: ten turns of the loop, unlike in tools.rs. -/
def hyperbolaHighN (e capn : F) : F :=
  let x := if ltb capn (lit 0) then -(FTrig.ln (-(lit 2) * capn / e + lit 1.8))
    else FTrig.ln (lit 2 * capn / e + lit 1.8)
  (hyperbolaLoop e capn 10 x x).1

/-- tools.py 796-826 `kepler_solution_for_a_hyperbola`; the second member of the pair is used for low N. -/
def keplerHyperbola [FPow F] (e n : F) : Option F :=
  let abn := if ltb n (lit 0) then -n else n
  if ltb abn (lit 0.636 * e - lit 0.6) then (hyperbolaLowN e n).map (·.2) else some (hyperbolaHighN e n)

/-- tools.py 587-623: position and velocity in the plane of the orbit.  `keplerEllipse` (lines 636-751) has the operations of
tools.rs. -/
def inPlane [FPow F] (gm q e l : F) : Option (F × F × F × F) :=
  let a := q / (lit 1 - e)
  if ltb e (lit 1) then
    let romes := FOps.sqrt (lit 1 - e * e)
    let temp0 := keplerEllipse e l
    let se := FTrig.sin temp0
    let ce := FTrig.cos temp0
    let temp := FOps.sqrt (gm / a) / (lit 1 - e * ce)
    some (a * (ce - e), a * romes * se, -se * temp, romes * ce * temp)
  else if eqb e (lit 1) then
    (keplerParabola l).map fun tmp =>
      let ce := tmp.2
      let z4 := FOps.sqrt (lit 2 * gm / q) / (lit 1 + ce * ce)
      (q * (lit 1 - ce * ce), lit 2 * q * ce, -ce * z4, z4)
  else
    (keplerHyperbola e l).map fun temp =>
      let romes := FOps.sqrt (e * e - lit 1)
      let se := FTrig.sinh temp
      let ce := FTrig.cosh temp
      let temp := FOps.sqrt (gm / FOps.abs a) / (e * ce - lit 1)
      (a * (ce - e), -a * romes * se, -se * temp, romes * ce * temp)

/-- tools.py 539-632 `_calculate_cartesian_coordinates`; lines 563-585 and 625-630 are `rotate`. -/
def coordinatesOnOrbit [FPow F] (gm q e i0 p n0 l : F) : Option (Axes F × Axes F) :=
  (inPlane gm q e l).map fun z => rotate i0 (p - n0) n0 z

/-- tools.py 484-537 `calculate_cartesian_coordinates`: position and velocity. -/
def cartesian [FPow F] (G mass q e i0 p n0 l : F) (bodies : List (Body F)) : Option (Axes F × Axes F) :=
  let gm := gravitationalParameter G mass bodies
  if bodies.isEmpty then coordinatesOnOrbit gm q e i0 p n0 l
  else match center bodies with
    | none => none
    | some (_, r, v) =>
      (coordinatesOnOrbit gm (q - distance r * (lit 1 - e)) e i0 p n0 l).map fun c =>
        (⟨c.1.x + r.x, c.1.y + r.y, c.1.z + r.z⟩, ⟨c.2.x + v.x, c.2.y + v.y, c.2.z + v.z⟩)

end Posidonius.Tools.Py
