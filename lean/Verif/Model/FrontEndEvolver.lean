import Verif.Model.FrontEnd
import Verif.Model.EvolverLoad

/-!
# The Python front end: evolving bodies

/repo/posidonius/effects/evolution.py 41-368, particles/universe.py 130-159, tools.py 33-60 and 989-1073.  `none` is an
exception.  The files are the records of Model/EvolverLoad: both readers are supposed to see the same fields (a file in
which single blanks separate the fields; the csv reader of Rust splits at every blank, `np.loadtxt` at any white space and
drops comments).  The constants, and the files, are those of `LoadEnv`; `np.around(_, 7)` is a parameter.  Printing is left
out, including the square root of a printed value, which raises if it is negative.
-/

namespace Posidonius.Univ.Py
open Evolution (EvolutionType Evolver Kind LoadEnv Tables inWindow isNear startsLate endsEarly)

section
variable {F : Type} [Add F] [Sub F] [Mul F] [Div F] [FOps F] [FPow F]

/-! ## Choice of the table by mass -/

/-- `None` instead of a panic. -/
def ofExcept {ε α : Type} : Except ε α → Option α
  | .ok a => some a
  | .error _ => none

/-- evolution.py 211-226: unlike in Rust, the masses have to be nearer than 1e-7. -/
def baraffe1998File (mass : F) : Option String :=
  if isNear (1/10) mass then some "input/Baraffe_1998/01Msun.dat"
  else if isNear 1 mass then some "input/Baraffe_1998/SRad_Spli_M-1_0000.dat"
  else none

/-- evolution.py 278-303: there is no table for 1.5 solar masses. -/
def bolmontMathisFile (mass : F) : Option String :=
  if inWindow (401/1000) (399/1000) mass then some "input/Bolmont_Mathis_2016/L04Z02r.dat"
  else if inWindow (501/1000) (499/1000) mass then some "input/Bolmont_Mathis_2016/L05Z02r.dat"
  else if inWindow (601/1000) (599/1000) mass then some "input/Bolmont_Mathis_2016/L06Z02r.dat"
  else if inWindow (701/1000) (699/1000) mass then some "input/Bolmont_Mathis_2016/L07Z02r.dat"
  else if inWindow (801/1000) (799/1000) mass then some "input/Bolmont_Mathis_2016/L08Z02r.dat"
  else if inWindow (901/1000) (899/1000) mass then some "input/Bolmont_Mathis_2016/L09Z02r.dat"
  else if inWindow (1001/1000) (999/1000) mass then some "input/Bolmont_Mathis_2016/L10Z02r.dat"
  else if inWindow (1101/1000) (1099/1000) mass then some "input/Bolmont_Mathis_2016/L11Z02r.dat"
  else if inWindow (1201/1000) (1199/1000) mass then some "input/Bolmont_Mathis_2016/L12Z02r.dat"
  else if inWindow (1301/1000) (1299/1000) mass then some "input/Bolmont_Mathis_2016/L13Z02r.dat"
  else if inWindow (1401/1000) (1399/1000) mass then some "input/Bolmont_Mathis_2016/L14Z02r.dat"
  else none

/-- evolution.py 47-86, 129-190 and 328-351: these choices are literally those of Rust (Model/EvolverLoad). -/
def tableFile : Kind F → Option String
  | .galletBolmont2017 m => ofExcept (Evolution.galletFile m)
  | .baraffe2015 m => ofExcept (Evolution.baraffe2015File m)
  | .leconte2011 m => ofExcept (Evolution.leconteFile m)
  | .baraffe1998 m => baraffe1998File m
  | .bolmontMathis2016 m => bolmontMathisFile m
  | .leconteChabrier2013 _ => some "input/Leconte_Chabrier_2013/Jupiter.dat"
  | .nonEvolving => none

/-! ## Reading -/

/-- A row of numbers. -/
def numbers : List (Option F) → Option (List F)
  | [] => some []
  | none :: _ => none
  | some x :: l => (numbers l).map (x :: ·)

/-- The rows, all of width `w`. -/
def numberRows (w : Nat) : List (List (Option F)) → Option (List (List F))
  | [] => some []
  | r :: l =>
    match numbers r, numberRows w l with
    | some a, some rest => if a.length = w then some (a :: rest) else none
    | _, _ => none

/-- `np.loadtxt(file, skiprows=skip)` with `data[:, i]` in mind: every field has to be a number and all rows have to
have the same width; with a single row (or none) the result has one dimension only and `data[:, i]` fails. -/
def loadtxt (skip : Nat) (rows : List (List (Option F))) : Option (List (List F)) :=
  match rows.drop skip with
  | a :: b :: l => numberRows a.length (a :: b :: l)
  | _ => none

/-- `data[:, i]`. -/
def column (i : Nat) : List (List F) → Option (List F)
  | [] => some []
  | r :: l =>
    match r[i]?, column i l with
    | some x, some rest => some (x :: rest)
    | _, _ => none

/-- `data[:,0] * 365.25 - initial_time`. -/
def ages (initialTime : F) (raw : List F) : List F := raw.map fun x => x * lit (36525/100) - initialTime

/-- tools.py 1065-1073 with `searchsorted`, for sorted data: the first index whose value is not smaller. -/
def findIndicesSorted (data : List F) (target : F) : Nat × Nat :=
  match data.findIdx? (fun x => leb target x) with
  | none => (data.length - 1, data.length - 1)
  | some i => if i = 0 then (0, 0) else (i - 1, i)

/-- tools.py 1040, 1060: the value beyond the end of the table. -/
def phantom : Option F → Option F → Option F
  | some a, some b => some (lit 2 * a - b)
  | _, _ => none

/-- tools.py 989-1062 `interpolate_b_spline`. -/
def bSpline (tdata ydata : List F) (t : F) : Option F :=
  let (left, right) := findIndicesSorted tdata t
  if left = right then ydata[left]?
  else
    match tdata[left]?, tdata[right]?, ydata[left]?, ydata[right]? with
    | some tl, some tr, some yl, some yr =>
      let u := (t - tl) / (tr - tl)
      let b0 := (lit 1 - lit 3 * u + lit 3 * ipow u 2 - ipow u 3) / lit 6
      let b1 := (lit 4 - lit 6 * ipow u 2 + lit 3 * ipow u 3) / lit 6
      let b2 := (lit 1 + lit 3 * u + lit 3 * ipow u 2 - lit 3 * ipow u 3) / lit 6
      let b3 := ipow u 3 / lit 6
      let before : Option F :=
        if left > 0 then ydata[left - 1]?
        else phantom ydata[0]? ydata[1]?
      let n := ydata.length
      let after : Option F :=
        if right + 1 < n then ydata[right + 1]?
        else phantom ydata[n - 1]? ydata[n - 2]?
      match before, after with
      | some a, some b => some (lit 0 + a * b0 + yl * b1 + yr * b2 + b * b3)
      | _, _ => none
    | _, _, _, _ => none

/-- evolution.py 97-102: `np.where(time >= aux_time[0])[0][0]` and `np.where(time > aux_time[-1])[0][0]`; where there is no
such time, `[0]` fails. -/
def restrictRange (aux time radius : List F) : Option (List F × List F) :=
  match aux.head?, aux.getLast? with
  | some first, some last =>
    match time.findIdx? (fun x => leb first x), time.findIdx? (fun x => ltb last x) with
    | some lower, some upper => some ((time.take upper).drop lower, (radius.take upper).drop lower)
    | _, _ => none
  | _, _ => none

/-- The spline at each of the times. -/
def bSplines (around7 : F → F) (aux rg2 : List F) : List F → Option (List F)
  | [] => some []
  | t :: ts =>
    match bSpline aux rg2 t, bSplines around7 aux rg2 ts with
    | some v, some rest => some (around7 v :: rest)
    | _, _ => none

/-- evolution.py 47-368: the methods `get_evolver`. -/
def tables (env : LoadEnv F) (around7 : F → F) (kind : Kind F) (initialTime : F) : Option (Tables F) :=
  match tableFile kind with
  | none => none
  | some f =>
    match env.files f with
    | none => none
    | some rows =>
      match kind with
      | .leconte2011 mass =>
        match loadtxt 0 rows, env.files "input/Leconte_2011/rg2BD.dat", ofExcept (Evolution.auxColumn mass) with
        | some data, some auxRows, some i =>
          match loadtxt 0 auxRows with
          | none => none
          | some auxData =>
            match column 0 data, column 1 data, column 0 auxData, column i auxData with
            | some time, some radius, some auxTime, some auxRg2 =>
              match restrictRange auxTime time (radius.map (· * env.rSun)) with
              | none => none
              | some (time, radius) =>
                (bSplines around7 auxTime auxRg2 time).map fun rg2 => ⟨ages initialTime time, radius, rg2, [], []⟩
            | _, _, _, _ => none
        | _, _, _ => none
      | .baraffe2015 _ =>
        match loadtxt 1 rows with
        | none => none
        | some data =>
          match column 0 data, column 2 data, column 3 data with
          | some t, some r, some g => some ⟨ages initialTime t, r.map (· * env.rSun), g, [], []⟩
          | _, _, _ => none
      | .baraffe1998 mass =>
        match loadtxt 0 rows with
        | none => none
        | some data =>
          match column 0 data, column 1 data with
          | some t, some r =>
            some ⟨ages initialTime t, r.map (· * if isNear (1/10) mass then env.rSun else env.m2au), [], [], []⟩
          | _, _ => none
      | .leconteChabrier2013 dynamicalTides =>
        match loadtxt 0 rows with
        | none => none
        | some data =>
          match column 0 data, column 1 data, column 2 data, column 3 data,
            (if dynamicalTides then column 5 data else some []) with
          | some t, some r, some l, some g, some q => some ⟨ages initialTime t, r.map (· * env.m2au), g, l, q⟩
          | _, _, _, _, _ => none
      | .bolmontMathis2016 _ =>
        match loadtxt 0 rows with
        | none => none
        | some data =>
          match column 0 data, column 1 data, column 2 data with
          | some t, some r, some q => some ⟨ages initialTime t, r.map (· * env.rSun), [], [], q⟩
          | _, _, _ => none
      | .galletBolmont2017 _ =>
        match loadtxt 0 rows with
        | none => none
        | some data =>
          match column 0 data, column 3 data, column 10 data with
          | some t, some r, some q =>
            some ⟨ages initialTime (t.map fun x => FPow.powf (lit 10) x), r.map (· * env.rSun), [], [],
              q.map fun x => lit 1 / FPow.powf (lit 10) x⟩
          | _, _, _ => none
      | .nonEvolving => none

/-- universe.py 130-134: the evolver in the file.  The second test compares the end of the table, counted from the
initial time, with the initial time. -/
def evolver (env : LoadEnv F) (around7 : F → F) (kind : Kind F) (initialTime : F) : Option (Evolver F) :=
  match tables env around7 kind initialTime with
  | none => none
  | some t =>
    if startsLate t.time then none
    else if endsEarly initialTime t.time then none
    else some { evolution := kind.type, time := t.time, radius := t.radius, radiusOfGyration2 := t.radiusOfGyration2,
                loveNumber := t.loveNumber, inverseTidalQFactor := t.inverseTidalQFactor, leftIndex := 0 }

/-- tools.py 33-44 `_find_indices_around_target_value`. -/
def findIndices (target : F) (x : List F) : Nat × Nat :=
  match x.findIdx? (fun r => leb target r) with
  | some right => if right > 0 then (right - 1, right) else (right, right)
  | none => (x.length - 1, x.length - 1)

/-- tools.py 46-60 `linear_interpolation`; a division by zero is an exception. -/
def linearInterpolation (target : F) (x y : List F) : Option F :=
  let (left, right) := findIndices target x
  if left = right then y[left]?
  else
    match x[left]?, x[right]?, y[left]?, y[right]? with
    | some xl, some xr, some yl, some yr =>
      if eqb (xr - xl) (lit 0) then none
      else
        let percent := (target - xl) / (xr - xl)
        some (yl * (lit 1 - percent) + yr * percent)
    | _, _, _, _ => none

/-- universe.py 140, 147: the value at time zero, where the column is not empty. -/
def valueAtStart (time col : List F) (current : F) : Option F :=
  if col = [] then some current else linearInterpolation (lit 0) time col

/-- universe.py 136-159: the radius and the radius of gyration of the tables at the beginning, if they differ by more
than one millionth. -/
def matchEvolver (p : Particle F) (e : Evolver F) : Option (Particle F) :=
  match valueAtStart e.time e.radius p.radius, valueAtStart e.time e.radiusOfGyration2 p.radiusOfGyration2 with
  | some newRadius, some newRg2 =>
    let updateRadius := ltb (lit (1 / 1000000)) (FOps.abs (newRadius - p.radius))
    let radius := if updateRadius then newRadius else p.radius
    let updateRg2 := ltb (lit (1 / 1000000)) (FOps.abs (newRg2 - p.radiusOfGyration2))
    let rg2 := if updateRg2 then newRg2 else p.radiusOfGyration2
    if updateRadius || updateRg2 then
      let inertia := p.mass * rg2 * radius * radius
      some { p with radius := radius, radiusOfGyration2 := rg2, momentOfInertia := inertia
                    angularMomentum := ⟨p.spin.x * inertia, p.spin.y * inertia, p.spin.z * inertia⟩ }
    else some { p with radius := radius, radiusOfGyration2 := rg2 }
  | _, _ => none

/-- universe.py 130-159: what `add_particle` does with an evolving body. -/
def evolve (env : LoadEnv F) (around7 : F → F) (kindOf : Particle F → Kind F) (c : Consider) (initialTime : F)
    (p : Particle F) : Option (Particle F) :=
  match evolver env around7 (kindOf p) initialTime with
  | none => none
  | some e => if c.evolution then matchEvolver p e else some p

end
end Posidonius.Univ.Py
