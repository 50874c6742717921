import Verif.Model.Vec

/-!
# IAS15

/repo/src/integrator/ias15.rs 420-463 (the part after the output) and 475-1476.  The code keeps flat arrays with
three entries per particle for every quantity; here every particle has three components `Comp` with all quantities
of that component, and the loops over the entries are maps over the components.  Gravity, change of frame and
additional effects (the evaluation of accelerations and torques from positions, velocities and angular momenta) are
a parameter that may read and change a hidden state of any type.  INTEGRATOR_FORCE_IS_VELOCITYDEPENDENT and
INTEGRATOR_EPSILON_GLOBAL are true, INTEGRATOR_MIN_DT and INTEGRATOR_MAX_DT are zero (constants.rs 10-16), so the
other branches are left out.  The counter and warning of sweeps that do not converge (601-607) are left out.
-/

namespace Posidonius.Ias15

/-- `f64::is_normal`: neither zero, subnormal, infinite nor NaN. -/
class FNormal (F : Type) where
  isNormal : F → Bool
export FNormal (isNormal)

/-- ias15.rs 484: Gauss-Radau spacings. -/
def hTable : List ℚ :=
  [0.0, 0.0562625605369221464656521910318, 0.180240691736892364987579942780,
   0.352624717113169637373907769648, 0.547153626330555383001448554766, 0.734210177215410531523210605558,
   0.885320946839095768090359771030, 0.977520613561287501891174488626]

/-- ias15.rs 498: differences of the spacings. -/
def rTable : List ℚ :=
  [0.0562625605369221464656522, 0.1802406917368923649875799, 0.1239781311999702185219278,
   0.3526247171131696373739078, 0.2963621565762474909082556, 0.1723840253762772723863278,
   0.5471536263305553830014486, 0.4908910657936332365357964, 0.3669129345936630180138686,
   0.1945289092173857456275408, 0.7342101772154105315232106, 0.6779476166784883850575584,
   0.5539694854785181665356307, 0.3815854601022408941493028, 0.1870565508848551485217621,
   0.8853209468390957680903598, 0.8290583863021736216247076, 0.7050802551022034031027798,
   0.5326962297259261307164520, 0.3381673205085403850889112, 0.1511107696236852365671492,
   0.9775206135612875018911745, 0.9212580530243653554255223, 0.7972799218243951369035945,
   0.6248958964481178645172667, 0.4303669872307321188897259, 0.2433104363458769703679639,
   0.0921996667221917338008147]

/-- ias15.rs 522: from g to b. -/
def cTable : List ℚ :=
  [-0.0562625605369221464656522, 0.0101408028300636299864818, -0.2365032522738145114532321,
   -0.0035758977292516175949345, 0.0935376952594620658957485, -0.5891279693869841488271399,
   0.0019565654099472210769006, -0.0547553868890686864408084, 0.4158812000823068616886219,
   -1.1362815957175395318285885, -0.0014365302363708915424460, 0.0421585277212687077072973,
   -0.3600995965020568122897665, 1.2501507118406910258505441, -1.8704917729329500633517991,
   0.0012717903090268677492943, -0.0387603579159067703699046, 0.3609622434528459832253398,
   -1.4668842084004269643701553, 2.9061362593084293014237913, -2.7558127197720458314421588]

/-- ias15.rs 524: from b to g. -/
def dTable : List ℚ :=
  [0.0562625605369221464656522, 0.0031654757181708292499905, 0.2365032522738145114532321,
   0.0001780977692217433881125, 0.0457929855060279188954539, 0.5891279693869841488271399,
   0.0000100202365223291272096, 0.0084318571535257015445000, 0.2535340690545692665214616,
   1.1362815957175395318285885, 0.0000005637641639318207610, 0.0015297840025004658189490,
   0.0978342365324440053653648, 0.8752546646840910912297246, 1.8704917729329500633517991,
   0.0000000317188154017613665, 0.0002762930909826476593130, 0.0360285539837364596003871,
   0.5767330002770787313544596, 2.2485887607691597933926895, 2.7558127197720458314421588]

/-- Seven coefficients (`b_0` ... `b_6` and the like) of one component. -/
@[ext] structure Seven (F : Type) where
  c0 : F
  c1 : F
  c2 : F
  c3 : F
  c4 : F
  c5 : F
  c6 : F

/-- Predictor-corrector data of one component of an acceleration or of a torque: the value at the beginning of the
step (`a0`), the last evaluated one (`at`), and the coefficients `b`, `g`, `csb`, `e`, `br`, `er`. -/
@[ext] structure Series (F : Type) where
  a0 : F
  now : F
  b : Seven F
  g : Seven F
  cs : Seven F
  e : Seven F
  br : Seven F
  er : Seven F

/-- One component of a particle: position, velocity, acceleration, angular momentum and its derivative in the
universe; the same at the beginning of the step; the compensations; the series of acceleration and torque. -/
@[ext] structure Comp (F : Type) where
  x : F
  v : F
  a : F
  l : F
  dl : F
  x0 : F
  v0 : F
  l0 : F
  csx : F
  csv : F
  css : F
  acc : Series F
  tor : Series F

/-- The tables as functions of the index. -/
structure Tables (F : Type) where
  h : ℕ → F
  r : ℕ → F
  c : ℕ → F
  d : ℕ → F

/-- What the evaluation reads of a particle. -/
structure Place (F : Type) where
  position : Axes F
  velocity : Axes F
  angular : Axes F

/-- ias15.rs 442-451 and 691-700: accelerations and torques of all particles, `none`: panic. -/
abbrev Evaluate (S F : Type) := S → F → List (Place F) → Option (S × List (Axes F × Axes F))

/-- The three components of a particle. -/
abbrev Particle (F : Type) := Axes (Comp F)

def Axes.map {A B : Type} (f : A → B) (a : Axes A) : Axes B := ⟨f a.x, f a.y, f a.z⟩
def Axes.toList {A : Type} (a : Axes A) : List A := [a.x, a.y, a.z]

section
variable {F : Type} [Add F] [Sub F] [Mul F] [Div F] [Neg F] [FOps F]

/-- The literal tables. -/
def tables : Tables F :=
  { h := fun n => lit (hTable.getD n 0), r := fun n => lit (rTable.getD n 0),
    c := fun n => lit (cTable.getD n 0), d := fun n => lit (dTable.getD n 0) }

/-- All coefficients zero. -/
def Seven.zero : Seven F := ⟨lit 0, lit 0, lit 0, lit 0, lit 0, lit 0, lit 0⟩

/-- ias15.rs 1471-1476 `add_cs`: compensated addition. -/
def addCs (p csp inp : F) : F × F :=
  let y := inp - csp
  let newP := p + y
  (newP, (newP - p) - y)

/-- ias15.rs 560-567: g from b (Eqs. 7 of Everhart). -/
def Series.start (T : Tables F) (s : Series F) : Series F :=
  let b := s.b
  { s with
    cs := Seven.zero,
    g := { c0 := b.c6 * T.d 15 + b.c5 * T.d 10 + b.c4 * T.d 6 + b.c3 * T.d 3 + b.c2 * T.d 1 + b.c1 * T.d 0 + b.c0,
           c1 := b.c6 * T.d 16 + b.c5 * T.d 11 + b.c4 * T.d 7 + b.c3 * T.d 4 + b.c2 * T.d 2 + b.c1,
           c2 := b.c6 * T.d 17 + b.c5 * T.d 12 + b.c4 * T.d 8 + b.c3 * T.d 5 + b.c2,
           c3 := b.c6 * T.d 18 + b.c5 * T.d 13 + b.c4 * T.d 9 + b.c3,
           c4 := b.c6 * T.d 19 + b.c5 * T.d 14 + b.c4,
           c5 := b.c6 * T.d 20 + b.c5,
           c6 := b.c6 } }

/-- ias15.rs 535-556: remember the beginning of the step, and 560-577. -/
def Comp.start (T : Tables F) (spin : Bool) (p : Comp F) : Comp F :=
  { p with
    x0 := p.x, v0 := p.v, acc := Series.start T { p.acc with a0 := p.a },
    l0 := if spin then p.l else p.l0,
    tor := if spin then Series.start T { p.tor with a0 := p.dl } else p.tor }

/-! ### Predictor -/

/-- ias15.rs 615-644: position at the fraction `h` of the step. -/
def Comp.predictPosition (dt h : F) (p : Comp F) : F :=
  let s0 := dt * h
  let s1 := s0 * s0 / lit 2
  let s2 := s1 * h / lit 3
  let s3 := s2 * h / lit 2
  let s4 := lit 3 * s3 * h / lit 5
  let s5 := lit 2 * s4 * h / lit 3
  let s6 := lit 5 * s5 * h / lit 7
  let s7 := lit 3 * s6 * h / lit 4
  let s8 := lit 7 * s7 * h / lit 9
  let b := p.acc.b
  let xk := -p.csx + (s8 * b.c6 + s7 * b.c5 + s6 * b.c4 + s5 * b.c3 + s4 * b.c2 + s3 * b.c1 + s2 * b.c0
    + s1 * p.acc.a0 + s0 * p.v0)
  xk + p.x0

/-- ias15.rs 646-688: velocity (or angular momentum) at the fraction `h` of the step. -/
def predictVelocity (dt h cs v0 : F) (s : Series F) : F :=
  let s0 := dt * h
  let s1 := s0 * h / lit 2
  let s2 := lit 2 * s1 * h / lit 3
  let s3 := lit 3 * s2 * h / lit 4
  let s4 := lit 4 * s3 * h / lit 5
  let s5 := lit 5 * s4 * h / lit 6
  let s6 := lit 6 * s5 * h / lit 7
  let s7 := lit 7 * s6 * h / lit 8
  let b := s.b
  let vk := -cs + s7 * b.c6 + s6 * b.c5 + s5 * b.c4 + s4 * b.c3 + s3 * b.c2 + s2 * b.c1 + s1 * b.c0 + s0 * s.a0
  vk + v0

/-- ias15.rs 615-689. -/
def Comp.predict (spin : Bool) (dt h : F) (p : Comp F) : Comp F :=
  { p with
    x := p.predictPosition dt h,
    v := predictVelocity dt h p.csv p.v0 p.acc,
    l := if spin then predictVelocity dt h p.css p.l0 p.tor else p.l }

/-! ### Corrector -/

/-- ias15.rs 722-723 and others: difference to the acceleration at the beginning. -/
def Series.difference (s : Series F) : F :=
  let (gk, gkcs) := addCs s.now (lit 0) (-s.a0)
  (addCs gk gkcs (lit 0)).1

/-! Compensated addition to one coefficient b. -/

/-- ias15.rs 725-727 and the like: `add_cs` on `b_0` and `csb[0]`. -/
def Series.add0 (s : Series F) (inp : F) : Series F :=
  let (p, q) := addCs s.b.c0 s.cs.c0 inp
  { s with b := { s.b with c0 := p }, cs := { s.cs with c0 := q } }

/-- ias15.rs 725-727 and the like: `add_cs` on `b_1` and `csb[1]`. -/
def Series.add1 (s : Series F) (inp : F) : Series F :=
  let (p, q) := addCs s.b.c1 s.cs.c1 inp
  { s with b := { s.b with c1 := p }, cs := { s.cs with c1 := q } }

/-- ias15.rs 725-727 and the like: `add_cs` on `b_2` and `csb[2]`. -/
def Series.add2 (s : Series F) (inp : F) : Series F :=
  let (p, q) := addCs s.b.c2 s.cs.c2 inp
  { s with b := { s.b with c2 := p }, cs := { s.cs with c2 := q } }

/-- ias15.rs 725-727 and the like: `add_cs` on `b_3` and `csb[3]`. -/
def Series.add3 (s : Series F) (inp : F) : Series F :=
  let (p, q) := addCs s.b.c3 s.cs.c3 inp
  { s with b := { s.b with c3 := p }, cs := { s.cs with c3 := q } }

/-- ias15.rs 725-727 and the like: `add_cs` on `b_4` and `csb[4]`. -/
def Series.add4 (s : Series F) (inp : F) : Series F :=
  let (p, q) := addCs s.b.c4 s.cs.c4 inp
  { s with b := { s.b with c4 := p }, cs := { s.cs with c4 := q } }

/-- ias15.rs 725-727 and the like: `add_cs` on `b_5` and `csb[5]`. -/
def Series.add5 (s : Series F) (inp : F) : Series F :=
  let (p, q) := addCs s.b.c5 s.cs.c5 inp
  { s with b := { s.b with c5 := p }, cs := { s.cs with c5 := q } }

/-- ias15.rs 725-727 and the like: `add_cs` on `b_6` and `csb[6]`. -/
def Series.add6 (s : Series F) (inp : F) : Series F :=
  let (p, q) := addCs s.b.c6 s.cs.c6 inp
  { s with b := { s.b with c6 := p }, cs := { s.cs with c6 := q } }

/-! ias15.rs 716-984: new g (Eqs. 4 of Everhart) and b (Eqs. 5) at the spacings 1 to 7. -/

/-- ias15.rs 719 and following lines. -/
def Series.correct1 (T : Tables F) (s : Series F) : Series F :=
  let g := s.difference / T.r 0
  let tmp := g - s.g.c0
  let s := { s with g := { s.g with c0 := g } }
  s.add0 tmp

/-- ias15.rs 740 and following lines. -/
def Series.correct2 (T : Tables F) (s : Series F) : Series F :=
  let g := (s.difference / T.r 1 - s.g.c0) / T.r 2
  let tmp := g - s.g.c1
  let s := { s with g := { s.g with c1 := g } }
  let s := s.add0 (tmp * T.c 0)
  s.add1 tmp

/-- ias15.rs 769 and following lines. -/
def Series.correct3 (T : Tables F) (s : Series F) : Series F :=
  let g := ((s.difference / T.r 3 - s.g.c0) / T.r 4 - s.g.c1) / T.r 5
  let tmp := g - s.g.c2
  let s := { s with g := { s.g with c2 := g } }
  let s := s.add0 (tmp * T.c 1)
  let s := s.add1 (tmp * T.c 2)
  s.add2 tmp

/-- ias15.rs 804 and following lines. -/
def Series.correct4 (T : Tables F) (s : Series F) : Series F :=
  let g := (((s.difference / T.r 6 - s.g.c0) / T.r 7 - s.g.c1) / T.r 8 - s.g.c2) / T.r 9
  let tmp := g - s.g.c3
  let s := { s with g := { s.g with c3 := g } }
  let s := s.add0 (tmp * T.c 3)
  let s := s.add1 (tmp * T.c 4)
  let s := s.add2 (tmp * T.c 5)
  s.add3 tmp

/-- ias15.rs 845 and following lines. -/
def Series.correct5 (T : Tables F) (s : Series F) : Series F :=
  let g := ((((s.difference / T.r 10 - s.g.c0) / T.r 11 - s.g.c1) / T.r 12 - s.g.c2) / T.r 13 - s.g.c3) / T.r 14
  let tmp := g - s.g.c4
  let s := { s with g := { s.g with c4 := g } }
  let s := s.add0 (tmp * T.c 6)
  let s := s.add1 (tmp * T.c 7)
  let s := s.add2 (tmp * T.c 8)
  let s := s.add3 (tmp * T.c 9)
  s.add4 tmp

/-- ias15.rs 892 and following lines. -/
def Series.correct6 (T : Tables F) (s : Series F) : Series F :=
  let g := (((((s.difference / T.r 15 - s.g.c0) / T.r 16 - s.g.c1) / T.r 17 - s.g.c2) / T.r 18 - s.g.c3) / T.r 19 - s.g.c4) / T.r 20
  let tmp := g - s.g.c5
  let s := { s with g := { s.g with c5 := g } }
  let s := s.add0 (tmp * T.c 10)
  let s := s.add1 (tmp * T.c 11)
  let s := s.add2 (tmp * T.c 12)
  let s := s.add3 (tmp * T.c 13)
  let s := s.add4 (tmp * T.c 14)
  s.add5 tmp

/-- ias15.rs 945 and following lines. -/
def Series.correct7 (T : Tables F) (s : Series F) : Series F :=
  let g := ((((((s.difference / T.r 21 - s.g.c0) / T.r 22 - s.g.c1) / T.r 23 - s.g.c2) / T.r 24 - s.g.c3) / T.r 25 - s.g.c4) / T.r 26 - s.g.c5) / T.r 27
  let tmp := g - s.g.c6
  let s := { s with g := { s.g with c6 := g } }
  let s := s.add0 (tmp * T.c 15)
  let s := s.add1 (tmp * T.c 16)
  let s := s.add2 (tmp * T.c 17)
  let s := s.add3 (tmp * T.c 18)
  let s := s.add4 (tmp * T.c 19)
  let s := s.add5 (tmp * T.c 20)
  s.add6 tmp

/-- ias15.rs 718-1057. -/
def Series.correct (T : Tables F) : ℕ → Series F → Series F
  | 1, s => s.correct1 T
  | 2, s => s.correct2 T
  | 3, s => s.correct3 T
  | 4, s => s.correct4 T
  | 5, s => s.correct5 T
  | 6, s => s.correct6 T
  | 7, s => s.correct7 T
  | _, s => s

/-- ias15.rs 703-714 and 718-1057 for one component: `a` and `dl` are the evaluated ones. -/
def Comp.correct (T : Tables F) (spin : Bool) (n : ℕ) (a dl : F) (p : Comp F) : Comp F :=
  { p with
    a := a, dl := dl,
    acc := Series.correct T n { p.acc with now := a },
    tor := if spin then Series.correct T n { p.tor with now := dl } else p.tor }

section
variable [FNormal F]

/-- ias15.rs 1463-1469 `max`. -/
def fmax (a b : F) : F := if ltb b a then a else b

/-- The running maximum of normal numbers, starting with zero. -/
def normalMax (l : List F) : F := l.foldl (fun m v => if isNormal v && ltb m v then v else m) (lit 0)

/-- ias15.rs 946-949, 1009-1031 and 1051-1053: the change of `b_6` (`old`: `g_6` of the components before the correction
at spacing 7, with that of the torque) relative to the accelerations. -/
def sweepError (spin : Bool) (old : List (F × F)) (l : List (Comp F)) : F :=
  let maxak := normalMax (l.map fun p => FOps.abs p.acc.now)
  let maxb6 := normalMax (List.zipWith (fun (o : F × F) (p : Comp F) => FOps.abs (p.acc.g.c6 - o.1)) old l)
  let maxdl := if spin then normalMax (l.map fun p => FOps.abs p.tor.now) else lit 0
  let maxb6s := if spin then normalMax (List.zipWith (fun (o : F × F) (p : Comp F) => FOps.abs (p.tor.g.c6 - o.2)) old l)
    else lit 0
  fmax maxb6 maxb6s / fmax maxak maxdl

end

/-- Positions, velocities and angular momenta seen by the evaluation. -/
def places (l : List (Particle F)) : List (Place F) :=
  l.map fun p => ⟨Axes.map Comp.x p, Axes.map Comp.v p, Axes.map Comp.l p⟩

/-- All components in the order of the arrays. -/
def components (l : List (Particle F)) : List (Comp F) := l.flatMap Axes.toList

/-- The correction of all particles with the evaluated accelerations and torques. -/
def correctAll (T : Tables F) (spin : Bool) (n : ℕ) (r : List (Axes F × Axes F)) (l : List (Particle F)) :
    List (Particle F) :=
  List.zipWith (fun (q : Axes F × Axes F) (p : Particle F) =>
    ⟨p.x.correct T spin n q.1.x q.2.x, p.y.correct T spin n q.1.y q.2.y, p.z.correct T spin n q.1.z q.2.z⟩) r l

section
variable {S : Type}

/-- ias15.rs 613-700: prediction and evaluation at spacing `n`; `t` is the time at the beginning of the step. -/
def evaluateAt (T : Tables F) (spin : Bool) (eval : Evaluate S F) (t dt : F) (n : ℕ) (s : S) (l : List (Particle F)) :
    Option (S × List (Particle F) × List (Axes F × Axes F)) :=
  let l := l.map (Axes.map (Comp.predict spin dt (T.h n)))
  match eval s (t + dt * T.h n) (places l) with
  | none => none
  | some (s, r) => some (s, l, r)

/-- ias15.rs 613-1057: prediction, evaluation and correction at spacing `n`. -/
def substep (T : Tables F) (spin : Bool) (eval : Evaluate S F) (t dt : F) (n : ℕ) (s : S) (l : List (Particle F)) :
    Option (S × List (Particle F)) :=
  match evaluateAt T spin eval t dt n s l with
  | none => none
  | some (s, l, r) => some (s, correctAll T spin n r l)

/-- ias15.rs 613: `for n in 1..8`, here from `n` on. -/
def substeps (T : Tables F) (spin : Bool) (eval : Evaluate S F) (t dt : F) :
    List ℕ → S → List (Particle F) → Option (S × List (Particle F))
  | [], s, l => some (s, l)
  | n :: ns, s, l =>
    match substep T spin eval t dt n s l with
    | none => none
    | some (s, l) => substeps T spin eval t dt ns s l

section
variable [FNormal F]

/-- ias15.rs 609-1058: one sweep; also the error. -/
def sweep (T : Tables F) (spin : Bool) (eval : Evaluate S F) (t dt : F) (s : S) (l : List (Particle F)) :
    Option (S × List (Particle F) × F) :=
  match substeps T spin eval t dt [1, 2, 3, 4, 5, 6] s l with
  | none => none
  | some (s, l) =>
    match substep T spin eval t dt 7 s l with
    | none => none
    | some (s, l') =>
      some (s, l', sweepError spin ((components l).map fun p => (p.acc.g.c6, p.tor.g.c6)) (components l'))

/-- ias15.rs 594-1059: sweeps until converged, oscillating or 12 (the first argument counts those left, the second
those done). -/
def sweeps (T : Tables F) (spin : Bool) (eval : Evaluate S F) (t dt : F) :
    ℕ → ℕ → F → F → S → List (Particle F) → Option (S × List (Particle F))
  | 0, _, _, _, s, l => some (s, l)
  | left + 1, done, err, last, s, l =>
    if ltb err (lit 1e-16) || (decide (2 < done) && leb last err) then some (s, l)
    else
      match sweep T spin eval t dt s l with
      | none => none
      | some (s, l, err') => sweeps T spin eval t dt left (done + 1) err' err s l

/-! ### Step size -/

/-- ias15.rs 1453-1461 `sqrt7`. -/
def sqrt7 (a : F) : F :=
  (fun x => x + (a / (x * x * x * x * x * x) - x) / lit 7)^[20] (lit 1)

/-- ias15.rs 1086-1111: particles with slowly varying acceleration (and spin) are skipped. -/
def slow (spin : Bool) (dt : F) (p : Particle F) : Bool :=
  let v2 := (Axes.map Comp.v p).norm2
  let x2 := (Axes.map Comp.x p).norm2
  let still := ltb (FOps.abs (v2 * dt * dt / x2)) (lit 1e-16)
  if spin then
    let dl2 := (Axes.map Comp.dl p).norm2
    let l2 := (Axes.map Comp.l p).norm2
    still && ltb (FOps.abs (dl2 * dt * dt / l2)) (lit 1e-16)
  else still

/-- The maxima of ias15.rs 1080-1083. -/
structure Maxima (F : Type) where
  ak : F
  b6 : F
  dl : F
  b6s : F

/-- ias15.rs 1115-1133.  Line 1126 compares the torque with the largest acceleration. -/
def Maxima.see (spin : Bool) (m : Maxima F) (p : Comp F) : Maxima F :=
  let ak := FOps.abs p.acc.now
  let m := if isNormal ak && ltb m.ak ak then { m with ak := ak } else m
  let b6 := FOps.abs p.acc.b.c6
  let m := if isNormal b6 && ltb m.b6 b6 then { m with b6 := b6 } else m
  if spin then
    let dl := FOps.abs p.tor.now
    let m := if isNormal dl && ltb m.ak dl then { m with dl := dl } else m
    let b6s := FOps.abs p.tor.b.c6
    if isNormal b6s && ltb m.b6s b6s then { m with b6s := b6s } else m
  else m

/-- ias15.rs 1075-1136: the global error estimate. -/
def integratorError (spin : Bool) (dt : F) (l : List (Particle F)) : F :=
  let m := l.foldl (fun m p => if slow spin dt p then m else (Axes.toList p).foldl (Maxima.see spin) m)
    ⟨lit 0, lit 0, lit 0, lit 0⟩
  fmax m.b6 m.b6s / fmax m.ak m.dl

/-- ias15.rs 1160-1168: the time step the error asks for. -/
def wanted (err dt : F) : F :=
  if isNormal err then sqrt7 (lit 1e-6 / err) * dt else dt / lit 0.25

/-- ias15.rs 1186: the step is rejected. -/
def rejected (new dt : F) : Bool := ltb (FOps.abs (new / dt)) (lit 0.25)

/-- ias15.rs 1220-1226: the next step after an accepted one. -/
def capped (new dt : F) : F :=
  if ltb (lit 1) (FOps.abs (new / dt)) && ltb (lit 1 / lit 0.25) (new / dt) then dt / lit 0.25 else new

end

/-! ### End of the step -/

/-- ias15.rs 1240-1252: new position and compensation. -/
def finishPosition (dt : F) (p : Comp F) : F × F :=
  let dt2 := dt * dt
  let b := p.acc.b
  let (x, cs) := addCs p.x0 p.csx (b.c6 / lit 72 * dt2)
  let (x, cs) := addCs x cs (b.c5 / lit 56 * dt2)
  let (x, cs) := addCs x cs (b.c4 / lit 42 * dt2)
  let (x, cs) := addCs x cs (b.c3 / lit 30 * dt2)
  let (x, cs) := addCs x cs (b.c2 / lit 20 * dt2)
  let (x, cs) := addCs x cs (b.c1 / lit 12 * dt2)
  let (x, cs) := addCs x cs (b.c0 / lit 6 * dt2)
  let (x, cs) := addCs x cs (p.acc.a0 / lit 2 * dt2)
  addCs x cs (p.v0 * dt)

/-- ias15.rs 1253-1264 and 1266-1279: new velocity or angular momentum and compensation. -/
def finishVelocity (dt v cs : F) (s : Series F) : F × F :=
  let b := s.b
  let (v, cs) := addCs v cs (b.c6 / lit 8 * dt)
  let (v, cs) := addCs v cs (b.c5 / lit 7 * dt)
  let (v, cs) := addCs v cs (b.c4 / lit 6 * dt)
  let (v, cs) := addCs v cs (b.c3 / lit 5 * dt)
  let (v, cs) := addCs v cs (b.c2 / lit 4 * dt)
  let (v, cs) := addCs v cs (b.c1 / lit 3 * dt)
  let (v, cs) := addCs v cs (b.c0 / lit 2 * dt)
  addCs v cs (s.a0 * dt)

/-- ias15.rs 1237-1298 for one component. -/
def Comp.finish (spin : Bool) (dt : F) (p : Comp F) : Comp F :=
  let (x, csx) := finishPosition dt p
  let (v, csv) := finishVelocity dt p.v0 p.csv p.acc
  let (l, css) := finishVelocity dt p.l0 p.css p.tor
  { p with
    x := x, x0 := x, csx := csx, v := v, v0 := v, csv := csv,
    l := if spin then l else p.l, l0 := if spin then l else p.l0, css := if spin then css else p.css }

/-- ias15.rs 1188-1209 for one component: back to the beginning of the step. -/
def Comp.restore (spin : Bool) (p : Comp F) : Comp F :=
  { p with
    x := p.x0, v := p.v0, a := p.acc.a0,
    dl := if spin then p.tor.a0 else p.dl, l := if spin then p.l0 else p.l }

/-- ias15.rs 1299-1333: remember the coefficients of a successful step (both series, whatever `spin`). -/
def Series.remember (s : Series F) : Series F := { s with er := s.e, br := s.b }

/-- ias15.rs 1342-1451 `predict_next_step` for one series. -/
def Series.next (ratio : F) (s : Series F) : Series F :=
  if ltb (lit 20) ratio then { s with e := Seven.zero, b := Seven.zero }
  else
    let q1 := ratio
    let q2 := q1 * q1
    let q3 := q1 * q2
    let q4 := q2 * q2
    let q5 := q2 * q3
    let q6 := q3 * q3
    let q7 := q3 * q4
    let br := s.br
    let er := s.er
    let e : Seven F :=
      { c0 := q1 * (br.c6 * lit 7 + br.c5 * lit 6 + br.c4 * lit 5 + br.c3 * lit 4 + br.c2 * lit 3 + br.c1 * lit 2 + br.c0),
        c1 := q2 * (br.c6 * lit 21 + br.c5 * lit 15 + br.c4 * lit 10 + br.c3 * lit 6 + br.c2 * lit 3 + br.c1),
        c2 := q3 * (br.c6 * lit 35 + br.c5 * lit 20 + br.c4 * lit 10 + br.c3 * lit 4 + br.c2),
        c3 := q4 * (br.c6 * lit 35 + br.c5 * lit 15 + br.c4 * lit 5 + br.c3),
        c4 := q5 * (br.c6 * lit 21 + br.c5 * lit 6 + br.c4),
        c5 := q6 * (br.c6 * lit 7 + br.c5),
        c6 := q7 * br.c6 }
    { s with
      e := e,
      b := { c0 := e.c0 + (br.c0 - er.c0), c1 := e.c1 + (br.c1 - er.c1), c2 := e.c2 + (br.c2 - er.c2),
             c3 := e.c3 + (br.c3 - er.c3), c4 := e.c4 + (br.c4 - er.c4), c5 := e.c5 + (br.c5 - er.c5),
             c6 := e.c6 + (br.c6 - er.c6) } }

/-- ias15.rs 1342-1451 for one component. -/
def Comp.next (spin : Bool) (ratio : F) (p : Comp F) : Comp F :=
  { p with acc := p.acc.next ratio, tor := if spin then p.tor.next ratio else p.tor }

/-- ias15.rs 1299-1333 for one component. -/
def Comp.remember (p : Comp F) : Comp F := { p with acc := p.acc.remember, tor := p.tor.remember }

/-- What the integrator changes; `last` is `time_step_last_success`. -/
structure State (S F : Type) where
  particles : List (Particle F)
  hidden : S
  time : F
  dt : F
  last : F

section
variable [FNormal F]

/-- ias15.rs 533-1338: one round of the main loop.  The result says whether the step was accepted. -/
def attempt (T : Tables F) (spin : Bool) (eval : Evaluate S F) (u : State S F) : Option (Bool × State S F) :=
  let l := u.particles.map (Axes.map (Comp.start T spin))
  match sweeps T spin eval u.time u.dt 12 0 (lit 1e300) (lit 2) u.hidden l with
  | none => none
  | some (s, l) =>
    let new := wanted (integratorError spin u.dt l) u.dt
    if rejected new u.dt then
      let l := l.map (Axes.map (Comp.restore spin))
      let l := if eqb u.last (lit 0) then l else l.map (Axes.map (Comp.next spin (new / u.last)))
      some (false, { u with particles := l, hidden := s, dt := new })
    else
      let new := capped new u.dt
      let l := l.map (Axes.map (Comp.finish spin u.dt))
      let l := l.map (Axes.map fun p => (Comp.remember p).next spin (new / u.dt))
      some (true, { particles := l, hidden := s, time := u.time + u.dt, dt := new, last := u.dt })

/-- ias15.rs 533-1338: the main loop; `none` also if no step is accepted within `fuel` rounds. -/
def integrate (T : Tables F) (spin : Bool) (eval : Evaluate S F) : ℕ → State S F → Option (State S F)
  | 0, _ => none
  | fuel + 1, u =>
    match attempt T spin eval u with
    | none => none
    | some (true, u) => some u
    | some (false, u) => integrate T spin eval fuel u

/-- ias15.rs 441-453: the evaluation at the beginning and the step. -/
def iterate (T : Tables F) (spin : Bool) (eval : Evaluate S F) (fuel : ℕ) (u : State S F) : Option (State S F) :=
  match eval u.hidden u.time (places u.particles) with
  | none => none
  | some (s, r) =>
    let l := List.zipWith (fun (q : Axes F × Axes F) (p : Particle F) =>
      ⟨{ p.x with a := q.1.x, dl := q.2.x }, { p.y with a := q.1.y, dl := q.2.y },
       { p.z with a := q.1.z, dl := q.2.z }⟩) r u.particles
    integrate T spin eval fuel { u with particles := l, hidden := s }

end
end
end
end Posidonius.Ias15
