import Verif.Model.Evolver

/-!
# Loading the tables of an evolving body

/repo/src/effects/evolution.rs 60-444 `Evolver::new`.  A panic is an error value.  The text of a file is
modelled after the csv reader: a list of records, each a list of fields, each field the number it parses to
(`none`: `parse::<f64>()` fails).  The constants `R_SUN` and `M2AU` (constants.rs 46, 52) and the rounding
`math::round::half_up(_, 7)` of the crate `math` are parameters.
-/

namespace Posidonius.Evolution
open Posidonius.Interp

/-- evolution.rs 9-17, with the masses. -/
inductive Kind (F : Type) where
  | galletBolmont2017 (mass : F)
  | bolmontMathis2016 (mass : F)
  | baraffe2015 (mass : F)
  | leconte2011 (mass : F)
  | baraffe1998 (mass : F)
  | leconteChabrier2013 (dynamicalTides : Bool)
  | nonEvolving

/-- The model of evolution, without its mass. -/
def Kind.type {F : Type} : Kind F → EvolutionType
  | .galletBolmont2017 _ => .galletBolmont2017
  | .bolmontMathis2016 _ => .bolmontMathis2016
  | .baraffe2015 _ => .baraffe2015
  | .leconte2011 _ => .leconte2011
  | .baraffe1998 _ => .baraffe1998
  | .leconteChabrier2013 b => .leconteChabrier2013 b
  | .nonEvolving => .nonEvolving

/-- The panics of `Evolver::new`. -/
inductive LoadPanic where
  /-- lines 90, 153, 182, 191, 221, 396: no table for this mass. -/
  | unsupportedMass
  /-- lines 233, 399: `from_path(..).unwrap()`. -/
  | missingFile
  /-- an index out of bounds, or `parse::<f64>().unwrap()` of a field that is no number; line 408:
  `first().unwrap()` of an empty auxiliary table. -/
  | badRecord
  /-- lines 429-431: the table starts after the initial time. -/
  | startsLate
  /-- lines 432-434: the table ends before the time limit. -/
  | endsEarly
deriving DecidableEq, Repr

/-- The external inputs: the files, two constants and the rounding. -/
structure LoadEnv (F : Type) where
  files : String → Option (List (List (Option F)))
  rSun : F
  m2au : F
  halfUp7 : F → F

variable {F : Type} [Add F] [Sub F] [Mul F] [Div F] [FOps F] [FPow F]

/-- `mass <= hi && mass >= lo`. -/
def inWindow (hi lo : ℚ) (mass : F) : Bool := leb mass (lit hi) && leb (lit lo) mass

/-- `(mass - c).abs() < 1e-7`. -/
def isNear (c : ℚ) (mass : F) : Bool := ltb (FOps.abs (mass - lit c)) (lit (1 / 10000000))

/-- `(mass - c).abs() <= 1.0e-7`. -/
def isNearEq (c : ℚ) (mass : F) : Bool := leb (FOps.abs (mass - lit c)) (lit (1 / 10000000))

/-- evolution.rs 68-92. -/
def galletFile (mass : F) : Except LoadPanic String :=
  if inWindow (301/1000) (299/1000) mass then .ok "input/Gallet_Bolmont_2017/M_03_Z_0134.dat"
  else if inWindow (401/1000) (399/1000) mass then .ok "input/Gallet_Bolmont_2017/M_04_Z_0134.dat"
  else if inWindow (601/1000) (599/1000) mass then .ok "input/Gallet_Bolmont_2017/M_06_Z_0134.dat"
  else if inWindow (701/1000) (699/1000) mass then .ok "input/Gallet_Bolmont_2017/M_07_Z_0134.dat"
  else if inWindow (801/1000) (799/1000) mass then .ok "input/Gallet_Bolmont_2017/M_08_Z_0134.dat"
  else if inWindow (901/1000) (899/1000) mass then .ok "input/Gallet_Bolmont_2017/M_09_Z_0134.dat"
  else if inWindow (1001/1000) (999/1000) mass then .ok "input/Gallet_Bolmont_2017/M_10_Z_0134.dat"
  else if inWindow (1101/1000) (1099/1000) mass then .ok "input/Gallet_Bolmont_2017/M_11_Z_0134.dat"
  else if inWindow (1201/1000) (1199/1000) mass then .ok "input/Gallet_Bolmont_2017/M_12_Z_0134.dat"
  else if inWindow (1401/1000) (1399/1000) mass then .ok "input/Gallet_Bolmont_2017/M_14_Z_0134.dat"
  else .error .unsupportedMass

/-- evolution.rs 93-155. -/
def baraffe2015File (mass : F) : Except LoadPanic String :=
  if inWindow (101/10000) (99/10000) mass then .ok "input/Baraffe_2015/0010_Msun.dat"
  else if inWindow (151/10000) (149/10000) mass then .ok "input/Baraffe_2015/0015_Msun.dat"
  else if inWindow (201/10000) (199/10000) mass then .ok "input/Baraffe_2015/0020_Msun.dat"
  else if inWindow (301/10000) (299/10000) mass then .ok "input/Baraffe_2015/0030_Msun.dat"
  else if inWindow (401/10000) (399/10000) mass then .ok "input/Baraffe_2015/0040_Msun.dat"
  else if inWindow (501/10000) (499/10000) mass then .ok "input/Baraffe_2015/0050_Msun.dat"
  else if inWindow (601/10000) (599/10000) mass then .ok "input/Baraffe_2015/0060_Msun.dat"
  else if inWindow (701/10000) (699/10000) mass then .ok "input/Baraffe_2015/0070_Msun.dat"
  else if inWindow (721/10000) (719/10000) mass then .ok "input/Baraffe_2015/0072_Msun.dat"
  else if inWindow (751/10000) (749/10000) mass then .ok "input/Baraffe_2015/0075_Msun.dat"
  else if inWindow (801/10000) (799/10000) mass then .ok "input/Baraffe_2015/0080_Msun.dat"
  else if isNear (9/100) mass then .ok "input/Baraffe_2015/0090_Msun.dat"
  else if isNear (11/100) mass then .ok "input/Baraffe_2015/0110_Msun.dat"
  else if isNear (13/100) mass then .ok "input/Baraffe_2015/0130_Msun.dat"
  else if isNear (15/100) mass then .ok "input/Baraffe_2015/0150_Msun.dat"
  else if isNear (17/100) mass then .ok "input/Baraffe_2015/0170_Msun.dat"
  else if isNear (20/100) mass then .ok "input/Baraffe_2015/0200_Msun.dat"
  else if isNear (30/100) mass then .ok "input/Baraffe_2015/0300_Msun.dat"
  else if isNear (40/100) mass then .ok "input/Baraffe_2015/0400_Msun.dat"
  else if isNear (50/100) mass then .ok "input/Baraffe_2015/0500_Msun.dat"
  else if isNear (60/100) mass then .ok "input/Baraffe_2015/0600_Msun.dat"
  else if isNear (70/100) mass then .ok "input/Baraffe_2015/0700_Msun.dat"
  else if isNear (80/100) mass then .ok "input/Baraffe_2015/0800_Msun.dat"
  else if isNear (90/100) mass then .ok "input/Baraffe_2015/0900_Msun.dat"
  else if isNear (100/100) mass then .ok "input/Baraffe_2015/1000_Msun.dat"
  else if isNear (110/100) mass then .ok "input/Baraffe_2015/1100_Msun.dat"
  else if isNear (120/100) mass then .ok "input/Baraffe_2015/1200_Msun.dat"
  else if isNear (130/100) mass then .ok "input/Baraffe_2015/1300_Msun.dat"
  else if isNear (140/100) mass then .ok "input/Baraffe_2015/1400_Msun.dat"
  else .error .unsupportedMass

/-- evolution.rs 156-184. -/
def leconteFile (mass : F) : Except LoadPanic String :=
  if inWindow (101/10000) (99/10000) mass then .ok "input/Leconte_2011/mass_10.0000.dat"
  else if inWindow (121/10000) (119/10000) mass then .ok "input/Leconte_2011/mass_12.0000.dat"
  else if inWindow (151/10000) (149/10000) mass then .ok "input/Leconte_2011/mass_15.0000.dat"
  else if inWindow (201/10000) (199/10000) mass then .ok "input/Leconte_2011/mass_20.0000.dat"
  else if inWindow (301/10000) (299/10000) mass then .ok "input/Leconte_2011/mass_30.0000.dat"
  else if inWindow (401/10000) (399/10000) mass then .ok "input/Leconte_2011/mass_40.0000.dat"
  else if inWindow (501/10000) (499/10000) mass then .ok "input/Leconte_2011/mass_50.0000.dat"
  else if inWindow (601/10000) (599/10000) mass then .ok "input/Leconte_2011/mass_60.0000.dat"
  else if inWindow (701/10000) (699/10000) mass then .ok "input/Leconte_2011/mass_70.0000.dat"
  else if inWindow (721/10000) (719/10000) mass then .ok "input/Leconte_2011/mass_72.0000.dat"
  else if inWindow (751/10000) (749/10000) mass then .ok "input/Leconte_2011/mass_75.0000.dat"
  else if inWindow (801/10000) (799/10000) mass then .ok "input/Leconte_2011/mass_80.0000.dat"
  else .error .unsupportedMass

/-- evolution.rs 185-193. -/
def baraffe1998File (mass : F) : Except LoadPanic String :=
  if isNearEq (1/10) mass then .ok "input/Baraffe_1998/01Msun.dat"
  else if isNearEq 1 mass then .ok "input/Baraffe_1998/SRad_Spli_M-1_0000.dat"
  else .error .unsupportedMass

/-- evolution.rs 195-223. -/
def bolmontMathisFile (mass : F) : Except LoadPanic String :=
  if inWindow (401/1000) (399/1000) mass then .ok "input/Bolmont_Mathis_2016/L04Z02r.dat"
  else if inWindow (501/1000) (499/1000) mass then .ok "input/Bolmont_Mathis_2016/L05Z02r.dat"
  else if inWindow (601/1000) (599/1000) mass then .ok "input/Bolmont_Mathis_2016/L06Z02r.dat"
  else if inWindow (701/1000) (699/1000) mass then .ok "input/Bolmont_Mathis_2016/L07Z02r.dat"
  else if inWindow (801/1000) (799/1000) mass then .ok "input/Bolmont_Mathis_2016/L08Z02r.dat"
  else if inWindow (901/1000) (899/1000) mass then .ok "input/Bolmont_Mathis_2016/L09Z02r.dat"
  else if inWindow (1001/1000) (999/1000) mass then .ok "input/Bolmont_Mathis_2016/L10Z02r.dat"
  else if inWindow (1101/1000) (1099/1000) mass then .ok "input/Bolmont_Mathis_2016/L11Z02r.dat"
  else if inWindow (1201/1000) (1199/1000) mass then .ok "input/Bolmont_Mathis_2016/L12Z02r.dat"
  else if inWindow (1301/1000) (1299/1000) mass then .ok "input/Bolmont_Mathis_2016/L13Z02r.dat"
  else if inWindow (1401/1000) (1399/1000) mass then .ok "input/Bolmont_Mathis_2016/L14Z02r.dat"
  else if inWindow (1501/1000) (1499/1000) mass then .ok "input/Bolmont_Mathis_2016/L15Z02r.dat"
  else .error .unsupportedMass

/-- evolution.rs 67-230: the file of a model. -/
def tableFile : Kind F → Except LoadPanic String
  | .galletBolmont2017 m => galletFile m
  | .baraffe2015 m => baraffe2015File m
  | .leconte2011 m => leconteFile m
  | .baraffe1998 m => baraffe1998File m
  | .bolmontMathis2016 m => bolmontMathisFile m
  | .leconteChabrier2013 _ => .ok "input/Leconte_Chabrier_2013/Jupiter.dat"
  | .nonEvolving => .ok "input/empty.dat"

/-- evolution.rs 370-398: the column of the auxiliary file. -/
def auxColumn (mass : F) : Except LoadPanic Nat :=
  if inWindow (101/10000) (99/10000) mass then .ok 1
  else if inWindow (121/10000) (119/10000) mass then .ok 2
  else if inWindow (151/10000) (149/10000) mass then .ok 3
  else if inWindow (201/10000) (199/10000) mass then .ok 4
  else if inWindow (301/10000) (299/10000) mass then .ok 5
  else if inWindow (401/10000) (399/10000) mass then .ok 6
  else if inWindow (501/10000) (499/10000) mass then .ok 7
  else if inWindow (601/10000) (599/10000) mass then .ok 8
  else if inWindow (701/10000) (699/10000) mass then .ok 9
  else if inWindow (721/10000) (719/10000) mass then .ok 10
  else if inWindow (751/10000) (749/10000) mass then .ok 11
  else if inWindow (801/10000) (799/10000) mass then .ok 12
  else .error .unsupportedMass

/-- `row[i].parse::<f64>().unwrap()`. -/
def number (row : List (Option F)) (i : Nat) : Except LoadPanic F :=
  match row[i]? with
  | some (some v) => .ok v
  | _ => .error .badRecord

/-- evolution.rs 235: `row[0].parse::<f64>().unwrap_or(-1.)`. -/
def numberOrMinusOne (row : List (Option F)) : Except LoadPanic F :=
  match row[0]? with
  | some (some v) => .ok v
  | some none => .ok (lit (-1))
  | none => .error .badRecord

/-- evolution.rs 61-65: the five columns. -/
structure Tables (F : Type) where
  time : List F
  radius : List F
  radiusOfGyration2 : List F
  loveNumber : List F
  inverseTidalQFactor : List F

/-- evolution.rs 252-280: `(current_time, current_radius)`. -/
def timeAndRadius (env : LoadEnv F) (kind : Kind F) (initialTime rawTime rawRadius : F) : F × F :=
  match kind with
  | .leconte2011 _ => (rawTime, rawRadius * env.rSun)
  | .baraffe1998 mass =>
    if isNearEq (1/10) mass then (rawTime * lit (36525/100) - initialTime, rawRadius * env.rSun)
    else if isNearEq 1 mass then (rawTime * lit (36525/100) - initialTime, rawRadius * env.m2au)
    else (lit 0, lit 0)
  | .baraffe2015 _ => (rawTime * lit (36525/100) - initialTime, rawRadius * env.rSun)
  | .bolmontMathis2016 _ => (rawTime * lit (36525/100) - initialTime, rawRadius * env.rSun)
  | .galletBolmont2017 _ =>
    (FPow.powf (lit 10) rawTime * lit (36525/100) - initialTime, rawRadius * env.rSun)
  | .leconteChabrier2013 _ => (rawTime * lit (36525/100) - initialTime, rawRadius * env.m2au)
  | .nonEvolving => (lit 0, lit 0)

/-- evolution.rs 240-250: the radius field. -/
def rawRadiusOf (kind : Kind F) (row : List (Option F)) : Except LoadPanic F :=
  match kind with
  | .baraffe2015 _ => number row 2
  | .galletBolmont2017 _ => number row 3
  | _ => number row 1

/-- evolution.rs 281-294. -/
def radiusOfGyration2Of (kind : Kind F) (row : List (Option F)) : Except LoadPanic F :=
  match kind with
  | .leconteChabrier2013 _ => number row 3
  | .baraffe2015 _ => number row 3
  | _ => .ok (lit 0)

/-- evolution.rs 295-303. -/
def loveNumberOf (kind : Kind F) (row : List (Option F)) : Except LoadPanic F :=
  match kind with
  | .leconteChabrier2013 _ => number row 2
  | _ => .ok (lit 0)

/-- evolution.rs 304-320. -/
def inverseTidalQFactorOf (kind : Kind F) (row : List (Option F)) : Except LoadPanic F :=
  match kind with
  | .bolmontMathis2016 _ => number row 2
  | .galletBolmont2017 _ => do
    let raw ← number row 10
    .ok (lit 1 / FPow.powf (lit 10) raw)
  | .leconteChabrier2013 true => number row 5
  | _ => .ok (lit 0)

/-- evolution.rs 324-361: `push` of the values the model needs. -/
def Tables.push (t : Tables F) (kind : Kind F) (time radius rg2 love q : F) : Tables F :=
  match kind with
  | .galletBolmont2017 _ =>
    { t with time := t.time ++ [time], radius := t.radius ++ [radius],
             inverseTidalQFactor := t.inverseTidalQFactor ++ [q] }
  | .baraffe2015 _ =>
    { t with time := t.time ++ [time], radius := t.radius ++ [radius],
             radiusOfGyration2 := t.radiusOfGyration2 ++ [rg2] }
  | .leconte2011 _ => { t with time := t.time ++ [time], radius := t.radius ++ [radius] }
  | .baraffe1998 _ => { t with time := t.time ++ [time], radius := t.radius ++ [radius] }
  | .bolmontMathis2016 _ =>
    { t with time := t.time ++ [time], radius := t.radius ++ [radius],
             inverseTidalQFactor := t.inverseTidalQFactor ++ [q] }
  | .leconteChabrier2013 dynamicalTides =>
    { t with time := t.time ++ [time], radius := t.radius ++ [radius],
             radiusOfGyration2 := t.radiusOfGyration2 ++ [rg2], loveNumber := t.loveNumber ++ [love],
             inverseTidalQFactor :=
               if dynamicalTides then t.inverseTidalQFactor ++ [q] else t.inverseTidalQFactor }
  | .nonEvolving => t

/-- evolution.rs 234-362: the loop over the records, from the record number `i` on. -/
def readRecords (env : LoadEnv F) (kind : Kind F) (initialTime : F) :
    Nat → List (List (Option F)) → Tables F → Except LoadPanic (Tables F)
  | _, [], t => .ok t
  | i, row :: rows, t => do
    let rawTime ← numberOrMinusOne row
    if i == 0 && ltb rawTime (lit 0) then readRecords env kind initialTime (i + 1) rows t
    else do
      let rawRadius ← rawRadiusOf kind row
      let (time, radius) := timeAndRadius env kind initialTime rawTime rawRadius
      let rg2 ← radiusOfGyration2Of kind row
      let love ← loveNumberOf kind row
      let q ← inverseTidalQFactorOf kind row
      readRecords env kind initialTime (i + 1) rows (t.push kind time radius rg2 love q)

/-- evolution.rs 399-405: the auxiliary columns. -/
def readAux (column : Nat) : List (List (Option F)) → Except LoadPanic (List F × List F)
  | [] => .ok ([], [])
  | row :: rows => do
    let time ← number row 0
    let rg2 ← number row column
    let (times, rg2s) ← readAux column rows
    .ok (time :: times, rg2 :: rg2s)

/-- evolution.rs 408-411: `drain(0..lower_limit)`. -/
def dropBefore (first : F) (time radius : List F) : List F × List F :=
  match time.findIdx? (fun x => leb first x) with
  | some lower => (time.drop lower, radius.drop lower)
  | none => (time, radius)

/-- evolution.rs 412-415: `drain(upper_limit..)`. -/
def cutAfter (last : F) (time radius : List F) : List F × List F :=
  match time.findIdx? (fun x => ltb last x) with
  | some upper => (time.take upper, radius.take upper)
  | none => (time, radius)

/-- evolution.rs 406-415: the times and radii are restricted to the range of the auxiliary file. The
`unwrap` of `first()` and `last()` is only reached if there is a time to compare with. -/
def restrictRange (aux : List F) (time radius : List F) : Except LoadPanic (List F × List F) :=
  match time with
  | [] => .ok ([], radius)
  | _ :: _ =>
    match aux.head?, aux.getLast? with
    | some first, some last =>
      let kept := dropBefore first time radius
      .ok (cutAfter last kept.1 kept.2)
    | _, _ => .error .badRecord

/-- evolution.rs 417-423: the radius of gyration at the times of the main file. -/
def interpolateAux (env : LoadEnv F) (auxTime auxRg2 : List F) : List F → Except LoadPanic (List F)
  | [] => .ok []
  | t :: ts =>
    match linearInterpolation t auxTime auxRg2 with
    | none => .error .badRecord
    | some (v, _) => do
      let rest ← interpolateAux env auxTime auxRg2 ts
      .ok (env.halfUp7 v :: rest)

/-- evolution.rs 364-427: the second file of the brown dwarfs. -/
def addAux (env : LoadEnv F) (mass initialTime : F) (t : Tables F) : Except LoadPanic (Tables F) := do
  let column ← auxColumn mass
  match env.files "input/Leconte_2011/rg2BD.dat" with
  | none => .error .missingFile
  | some rows => do
    let (auxTime, auxRg2) ← readAux column rows
    let (time, radius) ← restrictRange auxTime t.time t.radius
    let rg2 ← interpolateAux env auxTime auxRg2 time
    .ok { t with time := time.map (fun x => x * lit (36525/100) - initialTime), radius := radius,
                 radiusOfGyration2 := t.radiusOfGyration2 ++ rg2 }

/-- evolution.rs 364-427: `if let EvolutionType::Leconte2011(mass) = evolution`. -/
def secondFile (env : LoadEnv F) (kind : Kind F) (initialTime : F) (t : Tables F) :
    Except LoadPanic (Tables F) :=
  match kind with
  | .leconte2011 mass => addAux env mass initialTime t
  | _ => .ok t

/-- evolution.rs 429: `time.len() > 0 && time[0] > 0.`. -/
def startsLate (time : List F) : Bool :=
  match time.head? with
  | some first => ltb (lit 0) first
  | none => false

/-- evolution.rs 432: `time.len() > 0 && time[time.len()-1] < time_limit`. -/
def endsEarly (timeLimit : F) (time : List F) : Bool :=
  match time.getLast? with
  | some last => ltb last timeLimit
  | none => false

/-- evolution.rs 60-444 `Evolver::new`. -/
def evolverNew (env : LoadEnv F) (kind : Kind F) (initialTime timeLimit : F) :
    Except LoadPanic (Evolver F) := do
  let filename ← tableFile kind
  match env.files filename with
  | none => .error .missingFile
  | some rows => do
    let t0 ← readRecords env kind initialTime 0 rows ⟨[], [], [], [], []⟩
    let t ← secondFile env kind initialTime t0
    if startsLate t.time then .error .startsLate
    else if endsEarly timeLimit t.time then .error .endsEarly
    else .ok { evolution := kind.type, time := t.time, radius := t.radius,
               radiusOfGyration2 := t.radiusOfGyration2, loveNumber := t.loveNumber,
               inverseTidalQFactor := t.inverseTidalQFactor, leftIndex := 0 }

end Posidonius.Evolution
