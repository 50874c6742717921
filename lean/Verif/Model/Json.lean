import Verif.Model.Output

/-!
# JSON snapshots: serde's derived serialization, and the choice of the integrator

/repo/src/integrator/output.rs 46-48 (writing), 205-241 (reading); the structures are
/repo/src/integrator/leapfrog.rs 41-54, whfast.rs 99-120, ias15.rs 30-204.

serde's derive macros are modelled on a small universe of types: numbers, booleans, arrays, vectors, maps
with integer keys, structures (with `serde(default)` fields) and enumerations (externally tagged).  Not
modelled: the text (white space, escapes), and forms that serde reads but neither the simulator nor the front
end writes (a structure given as an array, a unit variant given as `{"Name": null}`, a key twice in a map).
The type of `Universe` is an arbitrary `Ty` here; it is written down in Model/CaseJson.
-/

namespace Posidonius.Json

open Posidonius.Output

mutual
/-- Values. -/
inductive Val where
  | f64 (x : F64)
  | int (i : Int)
  | bool (b : Bool)
  | arr (l : Vals)
  /-- a structure, or a map -/
  | record (l : VFields)
  /-- a unit variant -/
  | tag (s : String)
  /-- a variant with payload -/
  | variant (s : String) (v : Val)
inductive Vals where
  | nil
  | cons (v : Val) (rest : Vals)
inductive VFields where
  | nil
  | cons (name : String) (v : Val) (rest : VFields)
end

mutual
/-- Types. -/
inductive Ty where
  | f64
  | bool
  /-- integers from `lo` to `hi` -/
  | int (lo hi : Int)
  /-- `[T; n]` -/
  | array (n : Nat) (t : Ty)
  /-- `Vec<T>` -/
  | vec (t : Ty)
  /-- `HashMap<usize, T>` -/
  | map (t : Ty)
  | struct (fields : TFields)
  /-- enumeration of unit variants -/
  | tags (names : List String)
  /-- enumeration -/
  | enum (variants : TVariants)
/-- Declared fields of a structure. -/
inductive TFields where
  | nil
  | cons (name : String) (t : Ty) (rest : TFields)
  /-- with `serde(default)` -/
  | dflt (name : String) (t : Ty) (default : Val) (rest : TFields)
/-- Declared variants of an enumeration. -/
inductive TVariants where
  | nil
  | unit (name : String) (rest : TVariants)
  | payload (name : String) (t : Ty) (rest : TVariants)
end

mutual
/-- JSON values; `N` is the type of number literals with a fraction or exponent. -/
inductive Js (N : Type) where
  | null
  | float (n : N)
  | int (i : Int)
  | bool (b : Bool)
  | str (s : String)
  | arr (l : JsList N)
  | obj (l : JsFields N)
inductive JsList (N : Type) where
  | nil
  | cons (j : Js N) (rest : JsList N)
inductive JsFields (N : Type) where
  | nil
  | cons (name : String) (j : Js N) (rest : JsFields N)
end

/-- The printer and parser of floating point literals. -/
structure FloatText (N : Type) where
  print : F64 → N
  parse : N → Option F64
  /-- conversion of an integer literal where a float is expected -/
  ofInt : Int → F64

/-- A finite double: the exponent bits are not all ones. -/
def finite (x : F64) : Bool := x.extractLsb' 52 11 != 0x7FF#11

variable {N : Type}

mutual
/-- serde_json serialization; a double that is not finite is written as `null`. -/
def ser (c : FloatText N) : Val → Js N
  | .f64 x => if finite x then .float (c.print x) else .null
  | .int i => .int i
  | .bool b => .bool b
  | .arr l => .arr (serList c l)
  | .record l => .obj (serFields c l)
  | .tag s => .str s
  | .variant s v => .obj (.cons s (ser c v) .nil)
def serList (c : FloatText N) : Vals → JsList N
  | .nil => .nil
  | .cons v r => .cons (ser c v) (serList c r)
def serFields (c : FloatText N) : VFields → JsFields N
  | .nil => .nil
  | .cons n v r => .cons n (ser c v) (serFields c r)
end

def JsList.length : JsList N → Nat
  | .nil => 0
  | .cons _ r => r.length + 1

/-- All the values of a key. -/
def JsFields.get (name : String) : JsFields N → List (Js N)
  | .nil => []
  | .cons n j r => if n = name then j :: r.get name else r.get name

/-- Deserialize every element. -/
def JsList.mapM (f : Js N → Option Val) : JsList N → Option Vals
  | .nil => some .nil
  | .cons j r =>
    match f j, r.mapM f with
    | some v, some vs => some (.cons v vs)
    | _, _ => none

/-- A key of a map is read as an integer: decimal digits without a leading zero, and not too big. -/
def mapKey (s : String) : Bool :=
  match s.toList with
  | [] => false
  | ['0'] => true
  | '0' :: _ => false
  | l => l.all Char.isDigit && decide (l.foldl (fun n d => 10 * n + (d.toNat - 48)) 0 ≤ 18446744073709551615)

/-- Deserialize every value of a map. -/
def JsFields.mapM (f : Js N → Option Val) : JsFields N → Option VFields
  | .nil => some .nil
  | .cons n j r =>
    match mapKey n, f j, r.mapM f with
    | true, some v, some vs => some (.cons n v vs)
    | _, _, _ => none

/-- The names of the unit variants. -/
def TVariants.units : TVariants → List String
  | .nil => []
  | .unit n r => n :: r.units
  | .payload _ _ r => r.units

mutual
/-- serde's derived deserialization from JSON.  In a structure every declared field must be present
exactly once, or may be missing if it has a default; fields that are not declared are ignored (no
`deny_unknown_fields`). -/
def de (c : FloatText N) : Ty → Js N → Option Val
  | .f64, .float n => (c.parse n).map .f64
  | .f64, .int i => some (.f64 (c.ofInt i))
  | .bool, .bool b => some (.bool b)
  | .int lo hi, .int i => if lo ≤ i ∧ i ≤ hi then some (.int i) else none
  | .array n t, .arr l => if l.length = n then (l.mapM (de c t)).map .arr else none
  | .vec t, .arr l => (l.mapM (de c t)).map .arr
  | .map t, .obj l => (l.mapM (de c t)).map .record
  | .struct fs, .obj l => (deFields c fs l).map .record
  | .tags names, .str s => if s ∈ names then some (.tag s) else none
  | .enum vs, .str s => if s ∈ vs.units then some (.tag s) else none
  | .enum vs, .obj (.cons n j .nil) => deVariant c vs n j
  | _, _ => none
def deFields (c : FloatText N) : TFields → JsFields N → Option VFields
  | .nil, _ => some .nil
  | .cons n t r, l =>
    match l.get n with
    | [j] =>
      match de c t j, deFields c r l with
      | some v, some vs => some (.cons n v vs)
      | _, _ => none
    | _ => none
  | .dflt n t d r, l =>
    match l.get n with
    | [] => (deFields c r l).map (.cons n d)
    | [j] =>
      match de c t j, deFields c r l with
      | some v, some vs => some (.cons n v vs)
      | _, _ => none
    | _ => none
/-- The variant `name` with the payload `j`. -/
def deVariant (c : FloatText N) : TVariants → String → Js N → Option Val
  | .nil, _, _ => none
  | .unit _ r, name, j => deVariant c r name j
  | .payload n t r, name, j => if n = name then (de c t j).map (.variant n) else deVariant c r name j
end

/-! ## The three integrators -/

/-- u32, usize = u64, i32. -/
def u32 : Ty := .int 0 4294967295
def u64 : Ty := .int 0 18446744073709551615
def i32 : Ty := .int (-2147483648) 2147483647

/-- Fields from a list. -/
def fields : List (String × Ty) → TFields
  | [] => .nil
  | (n, t) :: r => .cons n t (fields r)

def axes : Ty := .struct (fields [("x", .f64), ("y", .f64), ("z", .f64)])

/-- whfast.rs 124-132. -/
def alternativeCoordinates : Ty :=
  .struct (fields [("mass", .f64), ("mass_g", .f64), ("position", axes), ("velocity", axes),
    ("acceleration", axes)])

/-- Field names and types of `LeapFrog` (leapfrog.rs 41-54); `u` is the type `Universe`. -/
def leapfrogFields (u : Ty) : List (String × Ty) :=
  [("time_step", .f64), ("half_time_step", .f64), ("universe", u), ("current_time", .f64),
   ("current_iteration", u32), ("recovery_snapshot_period", .f64),
   ("historic_snapshot_period", .f64), ("last_recovery_snapshot_time", .f64),
   ("last_historic_snapshot_time", .f64), ("n_historic_snapshots", u64), ("hash", u64)]

/-- `WHFast` (whfast.rs 99-120). -/
def whfastFields (u : Ty) : List (String × Ty) :=
  [("time_step", .f64), ("half_time_step", .f64), ("universe", u), ("current_time", .f64),
   ("current_iteration", u64), ("recovery_snapshot_period", .f64),
   ("historic_snapshot_period", .f64), ("last_recovery_snapshot_time", .f64),
   ("last_historic_snapshot_time", .f64), ("n_historic_snapshots", u64), ("hash", u64),
   ("particles_alternative_coordinates", .array 10 alternativeCoordinates),
   ("alternative_coordinates_type", .tags ["Jacobi", "DemocraticHeliocentric", "WHDS"]),
   ("timestep_warning", u64), ("inertial_velocity_errors", .array 10 axes),
   ("particle_angular_momentum_errors", .array 10 axes)]

/-- The arrays of `Ias15` with 3*MAX_PARTICLES elements (ias15.rs 45-203). -/
def ias15Arrays : List String :=
  ["b_0", "b_1", "b_2", "b_3", "b_4", "b_5", "b_6", "br_0", "br_1", "br_2", "br_3", "br_4",
   "br_5", "br_6", "g_0", "g_1", "g_2", "g_3", "g_4", "g_5", "g_6", "e_0", "e_1", "e_2", "e_3",
   "e_4", "e_5", "e_6", "er_0", "er_1", "er_2", "er_3", "er_4", "er_5", "er_6", "at", "x0", "v0",
   "a0", "sb_0", "sb_1", "sb_2", "sb_3", "sb_4", "sb_5", "sb_6", "sbr_0", "sbr_1", "sbr_2",
   "sbr_3", "sbr_4", "sbr_5", "sbr_6", "sg_0", "sg_1", "sg_2", "sg_3", "sg_4", "sg_5", "sg_6",
   "se_0", "se_1", "se_2", "se_3", "se_4", "se_5", "se_6", "ser_0", "ser_1", "ser_2", "ser_3",
   "ser_4", "ser_5", "ser_6", "dangular_momentum_dtt", "dangular_momentum_dt0",
   "angular_momentum0", "csx", "csv", "css"]

/-- `Ias15` (ias15.rs 30-204). -/
def ias15Fields (u : Ty) : List (String × Ty) :=
  [("time_step", .f64), ("universe", u), ("current_time", .f64),
   ("current_iteration", u32), ("recovery_snapshot_period", .f64),
   ("historic_snapshot_period", .f64), ("last_recovery_snapshot_time", .f64),
   ("last_historic_snapshot_time", .f64), ("n_historic_snapshots", u64), ("hash", u64),
   ("n_particles", u64), ("integrator_iterations_max_exceeded", i32),
   ("time_step_last_success", .f64)] ++
  ias15Arrays.map (fun n => (n, .array 30 .f64)) ++ [("s", .array 9 .f64)]

inductive Kind where
  | whfast
  | ias15
  | leapfrog
deriving DecidableEq, Repr

def Kind.fields (u : Ty) : Kind → List (String × Ty)
  | .whfast => whfastFields u
  | .ias15 => ias15Fields u
  | .leapfrog => leapfrogFields u

def Kind.ty (u : Ty) (k : Kind) : Ty := .struct (Json.fields (k.fields u))

/-- output.rs 205-241 `deserialize_json_snapshot`: try WHFast, then IAS15, then LeapFrog.
`none`: "Unknown integrator!" (and a panic in `restore_snapshot`). -/
def restore (c : FloatText N) (u : Ty) (j : Js N) : Option (Kind × Val) :=
  match de c (Kind.whfast.ty u) j with
  | some v => some (.whfast, v)
  | none =>
    match de c (Kind.ias15.ty u) j with
    | some v => some (.ias15, v)
    | none =>
      match de c (Kind.leapfrog.ty u) j with
      | some v => some (.leapfrog, v)
      | none => none

end Posidonius.Json
