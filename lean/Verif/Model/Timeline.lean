import Verif.Model.Resonances
import Mathlib.Data.List.Sort

/-!
# Resonances in the course of time

/repo/scripts/explore_timed_resonances.py, without the figure.  The four lists of a planet (type, range of indices, partner and
rank of its resonances) are appended to and shortened together and are one list of entries here, the newest first.
-/

namespace Posidonius.Analysis

variable {F : Type} [Add F] [Sub F] [Mul F] [Div F] [Neg F] [FOps F] [FTrig F] [FPow F]

/-- One sample of a planet: semi-major axis and angles in degrees (line 65). -/
structure Sample (F : Type) where
  a : F
  angles : Angles F

/-- Lines 89-95: a resonance of a planet with an outer one, from the sample `first` to the sample `last`; `rank` is the place of
the planet, counted from the star. -/
structure Entry where
  kind : ℚ
  first : Nat
  last : Nat
  partner : Nat
  rank : Nat
  deriving DecidableEq

/-- What a successful test reports: the sample at which the window ends, and the resonance. -/
structure Detection where
  instant : Nat
  kind : ℚ
  partner : Nat
  rank : Nat
  deriving DecidableEq

/-- Line 26, `NB_LAST_POINTS`; it is extended for long histories only, which end before (see `instants`). -/
def window : Nat := 15

/-- Lines 66-72 and 109: the samples at which resonances are tested.  For more than 500 samples the step is the quotient of
Python 3, a float, which `range` does not accept: `none`.  (`NB_LAST_POINTS` is extended at lines 76-79 in this case only.) -/
def instants (samples : Nat) : Option (List Nat) :=
  if 500 < samples then none else some (List.range' window (samples - window))

/-- `np.argsort` (lines 101-102 and 136-137), stable as numpy's for short lists. -/
def argsort {A : Type} (le : A → A → Bool) (d : List A) : List Nat :=
  (d.zipIdx.insertionSort fun x y => le x.1 y.1 = true).map Prod.snd

/-- Lines 102 and 137: places of the planets, counted from one. -/
def ordering (le : F → F → Bool) (d : List F) : List Nat :=
  (argsort (fun i j : Nat => decide (i ≤ j)) (argsort le d)).map (1 + ·)

/-- Lines 171-197: what a detection does to the list of the inner planet. -/
def record (l : List Entry) (d : Detection) : List Entry :=
  let new : Entry := ⟨d.kind, d.instant, d.instant, d.partner, d.rank⟩
  match l with
  | [] => [new]
  | e :: rest =>
    if e.kind = d.kind ∧ d.instant - (window - 1) - 1 ≤ e.last then { e with last := d.instant } :: rest
    else if e.first = e.last then new :: rest
    else new :: e :: rest

/-- Lines 115-116 and 128-131: the samples of a planet in the window that ends at `instant`. -/
def lastSamples (series : List (Sample F)) (instant : Nat) : List (Sample F) :=
  (series.drop (instant - (window - 1))).take window

/-- Lines 154-170 and 199-201: the first of the proposed resonances of two planets that the test accepts.  `proposals` is
`get_possible_resonances` with the parameters of lines 22-25.  Both windows have the end that is compared. -/
def findResonance (proposals : F → List ℚ) (inner outer : List (Sample F)) : Option ℚ :=
  match inner.head?, outer.head?, inner.getLast?, outer.getLast? with
  | some i0, some o0, some i1, some o1 =>
    let ratioBegin := FPow.powf (o0.a / i0.a) (lit 1.5)
    let ratioEnd := FPow.powf (o1.a / i1.a) (lit 1.5)
    if ltb (lit 0.02) (FOps.abs (ratioBegin - ratioEnd)) then none
    else (proposals ratioEnd).find? fun r =>
      isResonance (lit 90) (lit 70) r.num.toNat r.den ((inner.zip outer).map fun s => (s.1.angles, s.2.angles))
  | _, _, _, _ => none

/-- Lines 118-201: the detections at one instant, each with the inner planet, from the star outwards.  `still` are the planets
whose series reach the instant. -/
def detectAt (proposals : F → List ℚ) (planets : List (List (Sample F))) (instant : Nat) : List (Nat × Detection) :=
  let still := (List.range planets.length).filter fun p => decide (instant < (planets.getD p []).length)
  let windows := still.map fun p => lastSamples (planets.getD p []) instant
  let ends := windows.filterMap fun w => w.getLast?.map Sample.a
  let sorted := argsort leb ends
  let order := ordering leb ends
  (sorted.zip sorted.tail).filterMap fun (inner, outer) =>
    (findResonance proposals (windows.getD inner []) (windows.getD outer [])).map fun r =>
      (still.getD inner 0, ⟨instant, r, still.getD outer 0, order.getD inner 0⟩)

/-- The lists of all planets after some detections (lines 89-95 and 171-197). -/
def timelines (detections : List (Nat × Detection)) : Nat → List Entry :=
  detections.foldl (fun s d => Function.update s d.1 (record (s d.1) d.2)) fun _ => []

/-- The script: the resonances of all planets; `none` if it ends with an exception (also at line 66, without planets). -/
def timedResonances (proposals : F → List ℚ) (planets : List (List (Sample F))) : Option (Nat → List Entry) :=
  match planets with
  | [] => none
  | p :: _ => (instants p.length).map fun is => timelines (is.flatMap (detectAt proposals planets))

end Posidonius.Analysis
