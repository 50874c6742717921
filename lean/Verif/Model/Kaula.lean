import Verif.Model.Tides
import Verif.Model.Tools

/-!
# Kaula tides

/repo/src/effects/tides/kaula.rs.  The table of Love numbers is an argument (in the code it is stored in the tidal
effect of the deformed body), and so is the secular force that the code stores there between the computation of the
force and of the torque.  The working arrays of `Polynomials` are values here.  `none` is a panic.
The `println!` in comments, `_cot_theta` and the functions marked `dead_code` are left out.
-/

namespace Posidonius

/-- `f64::total_cmp`. -/
class FTotal (F : Type) where
  cmp : F → F → Ordering

namespace Kaula
open Posidonius.Univ

/-- The loop of `slice::binary_search_by` of the standard library: the last place of the stretch of length `size`
from `base` whose entry does not compare as greater, if the entries are sorted. -/
def searchLoop (cmp : Nat → Ordering) (size base : Nat) : Nat :=
  if _h : 1 < size then
    let half := size / 2
    let mid := base + half
    searchLoop cmp (size - half) (if cmp mid = .gt then base else mid)
  else base
termination_by size
decreasing_by omega

/-- `slice::binary_search_by` on `n` entries: `inr i` is `Ok(i)`, `inl i` is `Err(i)`. -/
def binarySearch (cmp : Nat → Ordering) (n : Nat) : Nat ⊕ Nat :=
  if n = 0 then .inl 0
  else
    let base := searchLoop cmp n 0
    match cmp base with
    | .eq => .inr base
    | .lt => .inl (base + 1)
    | .gt => .inl base

section
variable {F : Type} [Add F] [Sub F] [Mul F] [Div F] [Neg F] [FOps F]

/-- kaula.rs 14-26: the three arrays of 1024 numbers.  Lists, so that other lengths can be considered as well;
`num_datapoints` is never read. -/
structure LoveTable (F : Type) where
  frequency : List F
  re : List F
  im : List F

/-- The closure `|val| val.total_cmp(&wk2)` at the place `i`. -/
def probe [FTotal F] (f : List F) (w : F) (i : Nat) : Ordering :=
  match f[i]? with
  | some v => FTotal.cmp v w
  | none => .eq

/-- kaula.rs 1043-1057: the search and the interpolation, (imaginary, real). -/
def interpolated [FTotal F] (t : LoveTable F) (w : F) : Option (F × F) :=
  match binarySearch (probe t.frequency w) t.frequency.length with
  | .inr i =>
    match t.im[i]?, t.re[i]? with
    | some im, some re => some (im, re)
    | _, _ => none
  | .inl 0 => none
  | .inl (i + 1) =>
    match t.frequency[i]?, t.frequency[i + 1]?, t.im[i]?, t.im[i + 1]?, t.re[i]?, t.re[i + 1]? with
    | some prev, some next, some im0, some im1, some re0, some re1 =>
      let delta := (w - prev) / (next - prev)
      some ((lit 1 - delta) * im0 + delta * im1, (lit 1 - delta) * re0 + delta * re1)
    | _, _, _, _, _, _ => none

/-- kaula.rs 1028-1058: first entry, last entry or interpolation. -/
def lookup [FTotal F] (t : LoveTable F) (w : F) : Option (F × F) :=
  let last := t.frequency.length - 1
  match t.frequency[0]?, t.frequency[last]? with
  | some first, some final =>
    if leb w first then
      match t.im[0]?, t.re[0]? with
      | some im, some re => some (im, re)
      | _, _ => none
    else if leb final w then
      match t.im[last]?, t.re[last]? with
      | some im, some re => some (im, re)
      | _, _ => none
    else interpolated t w
  | _, _ => none

/-- kaula.rs 1016-1064 `calculate_kaula_numbers`: (minus the real part, the imaginary part up to parity). -/
def loveNumber [FTotal F] (t : LoveTable F) (centralBody : Bool) (w : F) : Option (F × F) :=
  let parity := !centralBody && ltb w (lit 0)
  let w := if parity then FOps.abs w else w
  match lookup t w with
  | none => none
  | some (im, re) => some (if parity then (-re, -im) else (-re, im))

/-- kaula.rs 989-991: sigma_2mpq. -/
def sigma (m p q spin frequency : F) : F := (lit 2 - lit 2 * p + q) * frequency - m * spin

/-- kaula.rs 994-996. -/
def alpha (p q k j meanAnomaly argumentPerihelion : F) : F :=
  (lit 2 * p - lit 2 * k + j - q) * meanAnomaly + lit 2 * (p - k) * argumentPerihelion

/-- kaula.rs 999-1001. -/
def phaseBeta (p q k j meanAnomaly spinAngle argumentPerihelion node varphi : F) : F :=
  (lit 4 - lit 2 * p - lit 2 * k + q - j) * meanAnomaly + (lit 4 - lit 2 * (k + p)) * argumentPerihelion + spinAngle
    - node + varphi

/-- kaula.rs 1002-1004. -/
def phaseAlpha1 (p q k j meanAnomaly spinAngle argumentPerihelion node varphi : F) : F :=
  (lit 2 * k - lit 2 * p + q - j) * meanAnomaly + lit 2 * (k - p) * argumentPerihelion + spinAngle - node - varphi

/-- kaula.rs 1005-1007. -/
def phaseAlpha2 (p q k j meanAnomaly spinAngle argumentPerihelion node varphi : F) : F :=
  (lit 2 * k - lit 2 * p + q - j) * meanAnomaly + lit 2 * (k - p) * argumentPerihelion - spinAngle + node + varphi

/-- kaula.rs 1008-1010. -/
def phaseAlpha3 (p q k j meanAnomaly spinAngle argumentPerihelion node varphi : F) : F :=
  (lit 2 * k - lit 2 * p + q - j - lit 1) * meanAnomaly + lit 2 * (k - p - lit 1) * argumentPerihelion + spinAngle
    - node - varphi

/-- kaula.rs 1011-1013. -/
def phaseAlpha4 (p q k j meanAnomaly spinAngle argumentPerihelion node varphi : F) : F :=
  (lit 2 * k - lit 2 * p + q - j - lit 1) * meanAnomaly + lit 2 * (k - p - lit 1) * argumentPerihelion - spinAngle
    + node - varphi

/-- kaula.rs 203-212 (and 287-296, 446-455, 698-707, 757-766): the order of the sums.  The last case (a NaN) is 0. -/
def order (e : F) : Nat :=
  if ltb (lit (3 / 10)) e then 7
  else if ltb (lit (25 / 100)) e then 6
  else if ltb (lit (2 / 10)) e then 5
  else if ltb (lit (15 / 100)) e then 4
  else if ltb (lit (1 / 10)) e then 3
  else if leb e (lit (1 / 10)) then 2
  else 0

/-- `.iter().skip(7 - order).take(2*order + 1)`. -/
def window {α : Type} (o : Nat) (l : List α) : List α := (l.drop (7 - o)).take (2 * o + 1)

/-- `let mut s = 0.; for (i, a) in l.iter().enumerate() { s += f(i, a) }`. -/
def sumOver {α : Type} (l : List α) (f : Nat → α → F) : F := l.zipIdx.foldl (fun s a => s + f a.2 a.1) (lit 0)

/-- `q as f64 - order as f64`. -/
def shift (q o : Nat) : F := lit q - lit o

end

section
variable {F : Type} [Add F] [Sub F] [Mul F] [Div F] [Neg F] [FOps F] [FPow F]

/-- kaula.rs 1283-1324: `calculate_eccentricity_function_g_20q`; the same rows as `g_2pq[0]`, lines 1207-1280. -/
def g20 (e : F) : List F :=
  let e2 := e * e
  let e3 := e2 * e
  let e4 := e3 * e
  let e5 := e4 * e
  let e6 := e5 * e
  let e7 := e6 * e
  let c0 := lit 15625 / lit 129024 * e7
  let c1 := lit 4 / lit 45 * e6
  let c2 := lit 81 / lit 1280 * e5 + lit 81 / lit 2048 * e7
  let c3 := lit 1 / lit 24 * e4 + lit 7 / lit 240 * e6
  let c4 := lit 1 / lit 48 * e3 + lit 11 / lit 768 * e5 + lit 313 / lit 30720 * e7
  let c5 := lit 0
  let c6 := -(lit (1 / 2)) * e + lit 1 / lit 16 * e3 - lit 5 / lit 384 * e5 - lit 143 / lit 18432 * e7
  let c7 := lit 1 - lit 5 / lit 2 * e2 + lit 13 / lit 16 * e4 - lit 35 / lit 288 * e6
  let c8 := lit 7 / lit 2 * e - lit 123 / lit 16 * e3 + lit 489 / lit 128 * e5 - lit 1763 / lit 2048 * e7
  let c9 := lit 17 / lit 2 * e2 - lit 115 / lit 16 * e4 + lit 601 / lit 48 * e6
  let c10 := lit 845 / lit 48 * e3 - lit 32525 / lit 768 * e5 + lit 208225 / lit 6144 * e7
  let c11 := lit 533 / lit 16 * e4 - lit 13827 / lit 160 * e6
  let c12 := lit 228347 / lit 3840 * e5 - lit 3071075 / lit 18432 * e7
  let c13 := lit 73369 / lit 720 * e6
  let c14 := lit 12144273 / lit 71680 * e7
  [c0, c1, c2, c3, c4, c5, c6, c7, c8, c9, c10, c11, c12, c13, c14]

/-- kaula.rs 1327-1368: `calculate_eccentricity_function_g_21q`; the same rows as `g_2pq[1]`. -/
def g21 (e : F) : List F :=
  let e2 := e * e
  let e3 := e2 * e
  let e4 := e3 * e
  let e5 := e4 * e
  let e6 := e5 * e
  let e7 := e6 * e
  let c0 := lit 432091 / lit 30720 * e7
  let c1 := lit 3167 / lit 320 * e6
  let c2 := lit 1773 / lit 256 * e5 - lit 4987 / lit 6144 * e7
  let c3 := lit 77 / lit 16 * e4 + lit 129 / lit 160 * e6
  let c4 := lit 53 / lit 16 * e3 + lit 393 / lit 256 * e5 + lit 24753 / lit 10240 * e7
  let c5 := lit 9 / lit 4 * e2 + lit 7 / lit 4 * e4 + lit 141 / lit 64 * e6
  let c6 := lit 3 / lit 2 * e + lit 27 / lit 16 * e3 + lit 261 / lit 128 * e5 + lit 14309 / lit 6144 * e7
  let c7 := FPow.powf (lit 1 - e2) (-(lit 3) / lit 2)
  [c0, c1, c2, c3, c4, c5, c6, c7, c6, c5, c4, c3, c2, c1, c0]

/-- kaula.rs 1371-1460: the row `g_3pq[0]`. -/
def g30 (e : F) : List F :=
  let e2 := ipow e 2
  let e3 := ipow e 3
  let e4 := ipow e 4
  let e5 := ipow e 5
  let e6 := ipow e 6
  let e7 := ipow e 7
  let c0 := lit 8 / lit 315 * e7
  let c1 := lit 81 / lit 5120 * e6
  let c2 := lit 1 / lit 120 * e5 + lit 13 / lit 1440 * e7
  let c3 := lit 1 / lit 384 * e4 + lit 1 / lit 384 * e6
  let c4 := lit 0
  let c5 := lit 1 / lit 8 * e2 + lit 1 / lit 48 * e4 + lit 55 / lit 3072 * e6
  let c6 := -e + lit 5 / lit 4 * e3 - lit 7 / lit 48 * e5 + lit 23 / lit 288 * e7
  let c7 := lit 1 - lit 6 * e2 + lit 423 / lit 64 * e4 - lit 125 / lit 64 * e6
  let c8 := lit 5 * e - lit 22 * e3 + lit 607 / lit 24 * e5 - lit 98 / lit 9 * e7
  let c9 := lit 127 / lit 8 * e2 - lit 3065 / lit 48 * e4 + lit 243805 / lit 3072 * e6
  let c10 := lit 163 / lit 4 * e3 - lit 2577 / lit 16 * e5 + lit 1089 / lit 5 * e7
  let c11 := lit 35413 / lit 384 * e4 - lit 709471 / lit 1920 * e6
  let c12 := lit 23029 / lit 120 * e5 - lit 35614 / lit 45 * e7
  let c13 := lit 385095 / lit 1024 * e6
  let c14 := lit 44377 / lit 63 * e7
  [c0, c1, c2, c3, c4, c5, c6, c7, c8, c9, c10, c11, c12, c13, c14]

/-- The row `g_3pq[1]`. -/
def g31 (e : F) : List F :=
  let e2 := ipow e 2
  let e3 := ipow e 3
  let e4 := ipow e 4
  let e5 := ipow e 5
  let e6 := ipow e 6
  let e7 := ipow e 7
  let c0 := lit 16337 / lit 2240 * e7
  let c1 := lit 48203 / lit 9240 * e6
  let c2 := lit 899 / lit 240 * e5 + lit 2441 / lit 480 * e7
  let c3 := lit 343 / lit 128 * e4 + lit 2819 / lit 640 * e6
  let c4 := lit 23 / lit 12 * e3 + lit 89 / lit 24 * e5 + lit 5663 / lit 960 * e7
  let c5 := lit 11 / lit 8 * e2 + lit 49 / lit 16 * e4 + lit 15665 / lit 3072 * e6
  let c6 := e * FPow.powf (lit 1 - e2) (-(lit 5) / lit 2)
  let c7 := lit 1 + lit 1 / lit 2 * e2 + lit 239 / lit 64 * e4 - lit 3323 / lit 576 * e6
  let c8 := lit 3 * e + lit 11 / lit 4 * e3 + lit 245 / lit 48 * e5 + lit 463 / lit 64 * e7
  let c9 := lit 53 / lit 8 * e2 + lit 39 / lit 16 * e4 + lit 7041 / lit 1024 * e6
  let c10 := lit 163 / lit 4 * e3 - lit 2577 / lit 16 * e5 + lit 1089 / lit 5 * e7
  let c11 := lit 35413 / lit 384 * e4 - lit 709471 / lit 1920 * e6
  let c12 := lit 23029 / lit 120 * e5 - lit 35614 / lit 45 * e7
  let c13 := lit 385095 / lit 1024 * e6
  let c14 := lit 44377 / lit 63 * e7
  [c0, c1, c2, c3, c4, c5, c6, c7, c8, c9, c10, c11, c12, c13, c14]

/-- `eccentricity_function_g_2pq`: the third row is the first reversed. -/
def g2 (e : F) : List (List F) := [g20 e, g21 e, (g20 e).reverse]

/-- `eccentricity_function_g_3pq`: lines 1427-1459. -/
def g3 (e : F) : List (List F) := [g30 e, g31 e, (g31 e).reverse, (g30 e).reverse]

end

section
variable {F : Type} [Add F] [Sub F] [Mul F] [Div F] [Neg F] [FOps F] [FTrig F]

/-- kaula.rs 1127-1135. -/
def f20 (i : F) : List F :=
  let s := FTrig.sin i
  let s2 := s * s
  [-(lit 3 / lit 8) * s2, lit 3 / lit 4 * s2 - lit 1 / lit 2, -(lit 3 / lit 8) * s2]

/-- kaula.rs 1137-1144. -/
def f21 (i : F) : List F :=
  let s := FTrig.sin i
  let c := FTrig.cos i
  [lit 3 / lit 4 * s * (lit 1 + c), -(lit 3 / lit 2) * s * c, lit 3 / lit 4 * s * (c - lit 1)]

/-- kaula.rs 1146-1153. -/
def f22 (i : F) : List F :=
  let s := FTrig.sin i
  let c := FTrig.cos i
  [lit 3 / lit 4 * ipow (lit 1 + c) 2, lit 3 / lit 2 * ipow s 2, lit 3 / lit 4 * ipow (lit 1 - c) 2]

/-- kaula.rs 1156-1165. -/
def f30 (i : F) : List F :=
  let s := FTrig.sin i
  let a := lit 5 / lit 16 * ipow s 3
  let b := lit 3 / lit 4 * s
  [-a, a - b, -a + b, - -a]

/-- kaula.rs 1167-1179. -/
def f31 (i : F) : List F :=
  let s := FTrig.sin i
  let a := lit 15 / lit 16 * ipow s 2
  let b := a - lit 3 / lit 4
  let c := FTrig.cos i
  let c1 := lit 1 + lit 3 * c
  let c2 := lit 1 - lit 3 * c
  [-a * c1, b * c1, b * c2, -a * c2]

/-- kaula.rs 1181-1191. -/
def f32 (i : F) : List F :=
  let s := FTrig.sin i
  let a := lit 15 / lit 8 * ipow s 2
  let c := FTrig.cos i
  let c2 := ipow c 2
  [a * ipow (lit 1 + c) 2, a * (lit 1 - lit 2 * c - lit 3 * c2), -a * (lit 1 + lit 2 * c - lit 3 * c2),
    -a * ipow (lit 1 - c) 2]

/-- kaula.rs 1193-1204. -/
def f33 (i : F) : List F :=
  let s := FTrig.sin i
  let a := lit 48 / lit 8 * ipow s 2
  let c := FTrig.cos i
  let c1 := lit 1 + c
  let c2 := lit 1 - c
  [lit 15 / lit 8 * ipow c1 3, a * c1, a * c2, lit 15 / lit 8 * ipow c2 3]

end

section
variable {F : Type} [Add F] [Sub F] [Mul F] [Div F] [Neg F] [FOps F] [FPow F] [FTrig F]

/-- The angles and frequencies that enter the sums (kaula.rs 165-167): mean motion and spin in rad/s, mean anomaly,
argument of the perihelion and longitude of the node. -/
structure Orbit (F : Type) where
  frequency : F
  spin : F
  eccentricity : F
  meanAnomaly : F
  argumentPerihelion : F
  node : F

/-- kaula.rs 183-189: circular planar orbit.  `love` is the Love number as a function of the frequency. -/
def radialCircular (love : F → F × F) (o : Orbit F) : F :=
  let k2010 := love (sigma (lit 0) (lit 1) (lit 0) o.spin o.frequency)
  let k2200 := love (sigma (lit 2) (lit 0) (lit 0) o.spin o.frequency)
  lit 3 / lit 4 * k2010.1 + lit 9 / lit 4 * k2200.2

/-- kaula.rs 192-249: the sums for an eccentric planar orbit, (full, secular).  The loop over j keeps for the secular
part only the entry with j = q. -/
def radialEccentric (love : F → F × F) (o : Orbit F) : F × F :=
  let n := order o.eccentricity
  let w := window n ((g20 o.eccentricity).zip (g21 o.eccentricity))
  let term (full : Bool) (q : Nat) (g : F × F) : F :=
    let k201 := love (sigma (lit 0) (lit 1) (shift q n) o.spin o.frequency)
    let k220 := love (sigma (lit 2) (lit 0) (shift q n) o.spin o.frequency)
    let angle (j : Nat) := alpha (lit 0) (shift q n) (lit 0) (shift j n) o.meanAnomaly o.argumentPerihelion
    let s1 := if full then
        sumOver w fun j h => h.2 * (FTrig.cos (angle j) * k201.1 - FTrig.sin (angle j) * k201.2)
      else lit 0 + g.2 * k201.1
    let s3 := if full then
        sumOver w fun j h => h.1 * (FTrig.cos (angle j) * k220.1 - FTrig.sin (angle j) * k220.2)
      else lit 0 + g.1 * k220.1
    lit 3 / lit 4 * g.2 * s1 + lit 9 / lit 4 * g.1 * s3
  (sumOver w (term true), sumOver w (term false))

/-- kaula.rs 682-685. -/
def orthogonalCircular (love : F → F × F) (o : Orbit F) : F :=
  (love (sigma (lit 2) (lit 0) (lit 0) o.spin o.frequency)).2

/-- kaula.rs 687-734. -/
def orthogonalEccentric (love : F → F × F) (o : Orbit F) : F × F :=
  let n := order o.eccentricity
  let w := window n (g20 o.eccentricity)
  let term (full : Bool) (q : Nat) (g : F) : F :=
    let k220 := love (sigma (lit 2) (lit 0) (shift q n) o.spin o.frequency)
    let angle (j : Nat) := alpha (lit 0) (shift q n) (lit 0) (shift j n) o.meanAnomaly o.argumentPerihelion
    let s2 := if full then
        sumOver w fun j h => h * (FTrig.sin (angle j) * k220.1 + FTrig.cos (angle j) * k220.2)
      else lit 0 + g * k220.2
    g * (lit 3 / lit 2) * s2
  (sumOver w (term true), sumOver w (term false))

/-- The pattern of all sums of the inclined case: sum over p of `f[p]` times the sum over q of `g[p][q]` times a term. -/
def series (n : Nat) (f : List F) (g : List (List F)) (term : F → F → F) : F :=
  sumOver (f.zip g) fun p fg => fg.1 * sumOver (window n fg.2) fun q h => h * term (lit p) (shift q n)

/-- kaula.rs 251-366: the inclined case of the radial component, without the factor `cste`; (full, secular). -/
def radialInclined (love : F → F × F) (o : Orbit F) (obliquity : F) : F × F :=
  let n := order o.eccentricity
  let g := g2 o.eccentricity
  let full (m : F) (f : List F) := series n f g fun p q =>
    let z := love (sigma m p q o.spin o.frequency)
    series n f g fun k j =>
      let a := alpha p q k j o.meanAnomaly o.argumentPerihelion
      FTrig.cos a * z.1 - FTrig.sin a * z.2
  let secular (m : F) (f : List F) := series n (f.map (ipow · 2)) (g.map (·.map (ipow · 2))) fun p q =>
    (love (sigma m p q o.spin o.frequency)).1
  let total (s : F → List F → F) :=
    s (lit 0) (f20 obliquity) + lit 1 / lit 3 * s (lit 1) (f21 obliquity) + lit 1 / lit 12 * s (lit 2) (f22 obliquity)
  (total full, total secular)

/-- kaula.rs 411-617: the inclined case of the normal component; the spin angle and the longitude are 0. -/
def normalInclined (love : F → F × F) (o : Orbit F) (obliquity : F) : F × F :=
  let n := order o.eccentricity
  let g := g2 o.eccentricity
  let rot (z : F × F) (a : F) : F := FTrig.cos a * z.1 - FTrig.sin a * z.2
  let a1 p q k j := phaseAlpha1 p q k j o.meanAnomaly (lit 0) o.argumentPerihelion o.node (lit 0)
  let a2 p q k j := phaseAlpha2 p q k j o.meanAnomaly (lit 0) o.argumentPerihelion o.node (lit 0)
  let b p q k j := phaseBeta p q k j o.meanAnomaly (lit 0) o.argumentPerihelion o.node (lit 0)
  let z m p q := love (sigma m p q o.spin o.frequency)
  let m0 := series n (f20 obliquity) g fun p q => series n (f21 obliquity) g fun k j =>
    lit (1 / 2) * rot (z (lit 0) p q) (a1 p q k j) + lit (3 / 2) * rot (z (lit 0) p q) (b p q k j)
  let m0s := series n (f20 obliquity) g fun p q => series n (f21 obliquity) g fun _ _ =>
    lit (1 / 2) * (z (lit 0) p q).1 + lit (3 / 2) * (z (lit 0) p q).1
  let m1 := series n (f21 obliquity) g fun p q =>
    lit (1 / 2) * series n (f22 obliquity) g (fun k j => rot (z (lit 1) p q) (a1 p q k j))
      - lit 3 * series n (f20 obliquity) g (fun k j => rot (z (lit 1) p q) (a2 p q k j))
  let m1s := series n (f21 obliquity) g fun p q =>
    lit (1 / 2) * series n (f22 obliquity) g (fun _ _ => (z (lit 1) p q).1)
      - lit 3 * series n (f20 obliquity) g (fun _ _ => (z (lit 1) p q).1)
  let m2 := series n (f22 obliquity) g fun p q => series n (f21 obliquity) g fun k j =>
    rot (z (lit 2) p q) (a2 p q k j)
  let m2s := series n (f22 obliquity) g fun p q => series n (f21 obliquity) g fun _ _ => (z (lit 2) p q).1
  (m0 + lit 1 / lit 3 * m1 + -(lit 1 / lit 6) * m2, m0s + lit 1 / lit 3 * m1s + -(lit 1 / lit 6) * m2s)

/-- kaula.rs 737-905: the inclined case of the orthogonal component. -/
def orthogonalInclined (love : F → F × F) (o : Orbit F) (obliquity : F) : F × F :=
  let n := order o.eccentricity
  let g := g2 o.eccentricity
  let h := g3 o.eccentricity
  let rot (z : F × F) (a : F) : F := FTrig.sin a * z.1 - FTrig.cos a * z.2
  let a3 p q k j := phaseAlpha3 p q k j o.meanAnomaly (lit 0) o.argumentPerihelion o.node (lit 0)
  let a4 p q k j := phaseAlpha4 p q k j o.meanAnomaly (lit 0) o.argumentPerihelion o.node (lit 0)
  let z m p q := love (sigma m p q o.spin o.frequency)
  let m1 := series n (f21 obliquity) g fun p q =>
    lit 1 / lit 6 * series n (f32 obliquity) h (fun k j => rot (z (lit 1) p q) (a3 p q k j))
      + series n (f30 obliquity) h (fun k j => rot (z (lit 1) p q) (a4 p q k j))
  let m1s := series n (f21 obliquity) g fun p q =>
    lit 1 / lit 6 * series n (f32 obliquity) h (fun _ _ => -(z (lit 1) p q).2)
      + series n (f30 obliquity) h (fun _ _ => -(z (lit 1) p q).2)
  let m2 := series n (f22 obliquity) g fun p q =>
    series n (f33 obliquity) h (fun k j => rot (z (lit 2) p q) (a3 p q k j))
      + lit 2 * series n (f31 obliquity) h (fun k j => rot (z (lit 2) p q) (a4 p q k j))
  let m2s := series n (f22 obliquity) g fun p q =>
    series n (f33 obliquity) h (fun _ _ => -(z (lit 2) p q).2)
      + lit 2 * series n (f31 obliquity) h (fun _ _ => -(z (lit 2) p q).2)
  let c1 := -(lit 4) / FOps.sqrt (lit 15)
  let c2 := -(lit 5) / (lit 48 * FOps.sqrt (lit 6))
  (c1 * m1 + c2 * m2, c1 * m1s + c2 * m2s)

/-- constants.rs: `DAY`. -/
def day : F := lit 86400

/-- kaula.rs 146-167: the orbit as seen by the sums.  `p` is the deformed body. -/
def orbit (el : Tools.Elements F) (p : Particle F) : Orbit F where
  frequency := Tools.twoPi / (el.orbitalPeriod * day)
  spin := FOps.sqrt p.normSpin2 / day
  eccentricity := el.eccentricity
  meanAnomaly := el.meanAnomaly
  argumentPerihelion := el.longitudeOfPerihelion - el.longitudeOfAscendingNode
  node := el.longitudeOfAscendingNode

/-- The companion whose coordinates are used: the deformed body `p` itself, or, if it is the central body, the other
one (`tidal_host_particle`, lines 64-80). -/
def mover (host p : Particle F) (centralBody : Bool) : Particle F := if centralBody then host else p

/-- kaula.rs 158-164. -/
def obliquity (host p : Particle F) (centralBody : Bool) : F :=
  let m := mover host p centralBody
  Tools.inclinationOrbitalEquatorial m.heliocentricPosition m.heliocentricVelocity p.spin

/-- `tem_radius`, kaula.rs 158-164. -/
def signedRadius (host p : Particle F) (centralBody : Bool) : F :=
  if centralBody then -host.heliocentricDistance else p.heliocentricDistance

/-- kaula.rs 133-368. -/
def radial (k : Consts F) (love : F → F × F) (host p : Particle F) (el : Tools.Elements F) (centralBody : Bool) :
    F × F :=
  let o := orbit el p
  let i := obliquity host p centralBody
  if leb i (lit (1 / 10 ^ 8)) then
    let c := -(k.g * ipow host.mass 2 * ipow p.radius 5)
      / (ipow el.semiMajorAxis 6 * signedRadius host p centralBody)
    if eqb el.eccentricity (lit 0) then
      let f := c * radialCircular love o
      (f, f)
    else
      let s := radialEccentric love o
      (c * s.1, c * s.2)
  else
    let mass := if centralBody then p.mass else host.mass
    let r := if centralBody then host.heliocentricDistance else p.heliocentricDistance
    let c := k.g * ipow mass 2 * ipow p.radius 5 * lit 3 / (ipow el.semiMajorAxis 6 * r)
    let s := radialInclined love o i
    (s.1 * c, s.2 * c)

/-- kaula.rs 371-620. -/
def normal (k : Consts F) (love : F → F × F) (host p : Particle F) (el : Tools.Elements F) (centralBody : Bool) :
    F × F :=
  let o := orbit el p
  let i := obliquity host p centralBody
  if leb i (lit (1 / 10 ^ 8)) then (lit 0, lit 0)
  else
    let mass := if centralBody then p.mass else host.mass
    let radius := if centralBody then host.radius else p.radius
    let r := if centralBody then host.heliocentricDistance else p.heliocentricDistance
    let c := k.g * ipow mass 2 * ipow radius 5 / (ipow el.semiMajorAxis 6 * r)
    let s := normalInclined love o i
    (c * s.1, c * s.2)

/-- kaula.rs 658-673: sin theta. -/
def sinTheta (m : Particle F) : F :=
  let x := m.tides.position
  let distance := FOps.sqrt (ipow x.x 2 + ipow x.y 2 + ipow x.z 2)
  FOps.sqrt (ipow x.x 2 + ipow x.y 2) / distance

/-- kaula.rs 623-907. -/
def orthogonal (k : Consts F) (love : F → F × F) (host p : Particle F) (el : Tools.Elements F)
    (centralBody : Bool) : F × F :=
  let o := orbit el p
  let i := obliquity host p centralBody
  let mass := if centralBody then p.mass else host.mass
  let radius := if centralBody then host.radius else p.radius
  if leb i (lit (1 / 10 ^ 8)) then
    let c := -(k.g * ipow mass 2 * ipow radius 5)
      / (ipow el.semiMajorAxis 6 * signedRadius host p centralBody * sinTheta (mover host p centralBody))
    if eqb el.eccentricity (lit 0) then
      let f := c * (lit 3 / lit 2) * orthogonalCircular love o
      (f, f)
    else
      let s := orthogonalEccentric love o
      (c * s.1, c * s.2)
  else
    let c := -(k.g * ipow mass 2 * ipow radius 5) / ipow el.semiMajorAxis 7
    let s := orthogonalInclined love o i
    (c * s.1, c * s.2)

/-- kaula.rs 100-102, 114-116: from spherical to Cartesian components. -/
def project (cosTheta sinTheta cosPhi sinPhi radial normal orthogonal : F) : Axes F :=
  ⟨radial * sinTheta * cosPhi + normal * cosTheta * cosPhi - orthogonal * sinPhi,
   radial * sinTheta * sinPhi + normal * cosTheta * sinPhi + orthogonal * cosPhi,
   radial * cosTheta - normal * sinTheta⟩

/-- kaula.rs 62-83: the elements of the orbit. -/
def elements (k : Consts F) (host p : Particle F) (centralBody : Bool) : Tools.Elements F :=
  let m := mover host p centralBody
  Tools.keplerianElements (k.g * (host.mass + p.mass)) m.heliocentricPosition m.heliocentricVelocity

/-- kaula.rs 47-124: the force on the deformed body, its secular part (stored as `kaula_tidal_force`) and the
orthogonal component (stored for the tidal heating). -/
def force (k : Consts F) (love : F → F × F) (host p : Particle F) (centralBody : Bool) : Axes F × Axes F × F :=
  let el := elements k host p centralBody
  let m := mover host p centralBody
  let x := m.tides.position
  let r := m.tides.distance
  let coplanar := FOps.sqrt (ipow x.x 2 + ipow x.y 2)
  let cosTheta := x.z / r
  let cosPhi := x.x / coplanar
  let sinPhi := x.y / coplanar
  let sinTheta := coplanar / r
  let fr := radial k love host p el centralBody
  let fn := normal k love host p el centralBody
  let fo := orthogonal k love host p el centralBody
  (project cosTheta sinTheta cosPhi sinPhi fr.1 fn.1 fo.1, project cosTheta sinTheta cosPhi sinPhi fr.2 fn.2 fo.2, fo.1)

/-- kaula.rs 911-965: the torque from the stored force, that of the companion `p` or, for the central body, of the
host. -/
def torque (stored : Axes F) (p : Particle F) (centralBody : Bool) : Axes F :=
  let x := p.tides.position
  let r : Axes F := if centralBody then ⟨-x.x, -x.y, -x.z⟩ else x
  ⟨r.y * stored.z - r.z * stored.y, r.z * stored.x - r.x * stored.z, r.x * stored.y - r.y * stored.x⟩

/-- common.rs 355-356 and 241-255 for a star with Kaula tides: every companion replaces the stored force, and the
torque on the star is minus the sum of the torques from the force that is stored in the end.  `stored` is what was
stored before. -/
def starTorque (k : Consts F) (love : F → F × F) (star : Particle F) (stored : Axes F) (l : List (Particle F)) :
    Axes F :=
  let f := l.foldl (fun _ p => (force k love p star true).2.1) stored
  l.foldl (fun s p => s + (lit (-1) : F) • torque f p true) Axes.zero

end
end Kaula
end Posidonius
