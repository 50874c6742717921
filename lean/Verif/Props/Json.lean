import Verif.Lemmas.Json

/-!
# C18: a JSON snapshot is restored as the integrator that wrote it

`c : FloatText N` is the text of doubles; `c.Exact` says that parsing the text of a finite double
gives the same double.  (serde_json without its feature `float_roundtrip`, as in /repo/Cargo.toml,
does not promise this for the last bit; the restored *kind* does not depend on it.)
`u` is the type of the field `universe`, any type whatever.
-/

namespace Posidonius.Json
open Posidonius.Output
variable {N : Type}

/-- Concatenation of fields. -/
def VFields.append : VFields → VFields → VFields
  | .nil, l => l
  | .cons n v r, l => .cons n v (r.append l)

theorem find_append (n : String) (v : Val) : ∀ a b : VFields, a.find n = some v →
    (a.append b).find n = some v
  | .nil, _, h => by simp [VFields.find] at h
  | .cons m w r, b, h => by
    by_cases hm : m = n
    · simpa [VFields.append, VFields.find, hm] using h
    · simp [VFields.find, hm] at h
      simp [VFields.append, VFields.find, hm, find_append n v r b h]

theorem finite_append : ∀ a b : VFields, FiniteFields (a.append b) → FiniteFields b
  | .nil, _, h => h
  | .cons _ _ r, b, h => finite_append r b h.2

/-- **C18, for finite states** (missing: states with an infinite or NaN double): whatever the
integrator and its contents, the restored integrator is of the same kind and has the same contents. -/
theorem C18_partial (c : FloatText N) (hc : c.Exact) (u : Ty) (hu : WellFormed u) (k : Kind) (v : Val)
    (hv : HasTy (k.ty u) v) (hf : Finite v) : restore c u (ser c v) = some (k, v) := by
  have own := de_ser c hc (k.ty u) v (kind_wellFormed u hu k) hv hf
  cases k with
  | whfast => simp [restore, own]
  | ias15 =>
    have h1 := de_missing c u .ias15 .whfast v hv "half_time_step" (by simp [Kind.fields, whfastFields])
      (by simp [Kind.fields, ias15Fields, ias15Arrays])
    simp [restore, own, h1]
  | leapfrog =>
    have h1 := de_missing c u .leapfrog .whfast v hv "timestep_warning"
      (by simp [Kind.fields, whfastFields]) (by simp [Kind.fields, leapfrogFields])
    have h2 := de_missing c u .leapfrog .ias15 v hv "n_particles" (by simp [Kind.fields, ias15Fields])
      (by simp [Kind.fields, leapfrogFields])
    simp [restore, own, h1, h2]

/-- **C18 is violated**: a WHFast state whose only doubles that are not finite are among the fields
LeapFrog does not have (the alternative coordinates and the compensation terms) is restored, without any
error, as a LeapFrog integrator.  (`lf`: the fields shared with LeapFrog; `rest`: the others.) -/
theorem C18_violated (c : FloatText N) (hc : c.Exact) (u : Ty) (hu : WellFormed u) (lf rest : VFields)
    (hv : HasTy (Kind.whfast.ty u) (.record (lf.append rest)))
    (hlf : HasFields (fields (leapfrogFields u)) lf) (hfin : FiniteFields lf)
    (hnf : ¬ FiniteFields rest) :
    restore c u (ser c (.record (lf.append rest))) = some (.leapfrog, .record lf) := by
  have h0 := de_nonfinite c _ _ (kind_wellFormed u hu .whfast) hv
    (fun h => hnf (finite_append lf rest (by simpa [Finite] using h)))
  have h1 := de_missing c u .whfast .ias15 _ hv "n_particles" (by simp [Kind.fields, ias15Fields])
      (by simp [Kind.fields, whfastFields])
  have hn := names_of_hasFields _ _ (by simpa [Kind.ty, HasTy] using hv)
  have h2 := deFields_ser c hc (fields (leapfrogFields u)) lf (lf.append rest)
    (kind_names_nodup u .leapfrog) (kind_wellFormed u hu .leapfrog).2 hlf hfin
    (hn ▸ kind_names_nodup u .whfast) (fun n v h => find_append n v lf rest h)
  have h3 : de c (Kind.leapfrog.ty u) (ser c (.record (lf.append rest))) = some (.record lf) := by
    simp [Kind.ty, ser, de, Kind.fields, h2]
  simp [restore, h0, h1, h3]

/-- An IAS15 or LeapFrog state with a double that is not finite is not restored at all ("Unknown
integrator!" and a panic). -/
theorem C18_partial_nonfinite (c : FloatText N) (u : Ty) (hu : WellFormed u) (k : Kind)
    (hk : k ≠ .whfast) (v : Val) (hv : HasTy (k.ty u) v) (hf : ¬ Finite v) :
    restore c u (ser c v) = none := by
  have own := de_nonfinite c _ _ (kind_wellFormed u hu k) hv hf
  cases k with
  | whfast => exact absurd rfl hk
  | ias15 =>
    have h1 := de_missing c u .ias15 .whfast v hv "half_time_step" (by simp [Kind.fields, whfastFields])
      (by simp [Kind.fields, ias15Fields, ias15Arrays])
    have h2 := de_missing c u .ias15 .leapfrog v hv "half_time_step"
      (by simp [Kind.fields, leapfrogFields]) (by simp [Kind.fields, ias15Fields, ias15Arrays])
    simp [restore, own, h1, h2]
  | leapfrog =>
    have h1 := de_missing c u .leapfrog .whfast v hv "timestep_warning"
      (by simp [Kind.fields, whfastFields]) (by simp [Kind.fields, leapfrogFields])
    have h2 := de_missing c u .leapfrog .ias15 v hv "n_particles" (by simp [Kind.fields, ias15Fields])
      (by simp [Kind.fields, leapfrogFields])
    simp [restore, own, h1, h2]

/-- Whatever the state and whatever the text of doubles does, the only possible confusion is
WHFast read as LeapFrog. -/
theorem C18_partial_kind (c : FloatText N) (u : Ty) (k k' : Kind) (v v' : Val)
    (hv : HasTy (k.ty u) v) (h : restore c u (ser c v) = some (k', v')) :
    k' = k ∨ (k = .whfast ∧ k' = .leapfrog) := by
  cases k with
  | whfast =>
    have h1 := de_missing c u .whfast .ias15 _ hv "n_particles" (by simp [Kind.fields, ias15Fields])
      (by simp [Kind.fields, whfastFields])
    cases k'
    · exact Or.inl rfl
    · simp only [restore, h1] at h
      split at h
      · simp at h
      · split at h <;> simp at h
    · exact Or.inr ⟨rfl, rfl⟩
  | ias15 =>
    have h1 := de_missing c u .ias15 .whfast v hv "half_time_step" (by simp [Kind.fields, whfastFields])
      (by simp [Kind.fields, ias15Fields, ias15Arrays])
    have h2 := de_missing c u .ias15 .leapfrog v hv "half_time_step"
      (by simp [Kind.fields, leapfrogFields]) (by simp [Kind.fields, ias15Fields, ias15Arrays])
    simp only [restore, h1, h2] at h
    split at h
    · simp at h; exact Or.inl h.1.symm
    · simp at h
  | leapfrog =>
    have h1 := de_missing c u .leapfrog .whfast v hv "timestep_warning"
      (by simp [Kind.fields, whfastFields]) (by simp [Kind.fields, leapfrogFields])
    have h2 := de_missing c u .leapfrog .ias15 v hv "n_particles" (by simp [Kind.fields, ias15Fields])
      (by simp [Kind.fields, leapfrogFields])
    simp only [restore, h1, h2] at h
    split at h
    · simp at h; exact Or.inl h.1.symm
    · simp at h

/-! ## Concrete cases -/

/-- Text of doubles: the bits themselves. -/
def bitsText : FloatText F64 := ⟨id, some, fun _ => 0⟩

theorem bitsText_exact : bitsText.Exact := fun _ _ => rfl

def Vals.replicate (v : Val) : Nat → Vals
  | 0 => .nil
  | n + 1 => .cons v (Vals.replicate v n)

/-- A default value of each type. -/
def zero3 (x : F64) : Val := .record (.cons "x" (.f64 x) (.cons "y" (.f64 0) (.cons "z" (.f64 0) .nil)))

/-- A LeapFrog state with empty universe, time step 1, at iteration 7. -/
def demoLeapfrog : VFields :=
  .cons "time_step" (.f64 0x3FF0000000000000) <| .cons "half_time_step" (.f64 0x3FE0000000000000) <|
  .cons "universe" (.record .nil) <| .cons "current_time" (.f64 0x401C000000000000) <|
  .cons "current_iteration" (.int 7) <| .cons "recovery_snapshot_period" (.f64 0) <|
  .cons "historic_snapshot_period" (.f64 0) <| .cons "last_recovery_snapshot_time" (.f64 0) <|
  .cons "last_historic_snapshot_time" (.f64 0) <| .cons "n_historic_snapshots" (.int 3) <|
  .cons "hash" (.int 12345) .nil

/-- The other fields of WHFast, with `x` as one of the compensation terms. -/
def demoRest (x : F64) : VFields :=
  .cons "particles_alternative_coordinates" (.arr (Vals.replicate (.record
    (.cons "mass" (.f64 0) <| .cons "mass_g" (.f64 0) <| .cons "position" (zero3 0) <|
     .cons "velocity" (zero3 0) <| .cons "acceleration" (zero3 0) .nil)) 10)) <|
  .cons "alternative_coordinates_type" (.tag "WHDS") <| .cons "timestep_warning" (.int 0) <|
  .cons "inertial_velocity_errors" (.arr (.cons (zero3 x) (Vals.replicate (zero3 0) 9))) <|
  .cons "particle_angular_momentum_errors" (.arr (Vals.replicate (zero3 0) 10)) .nil

theorem demo_leapfrog_typed : HasFields (fields (leapfrogFields (.struct .nil))) demoLeapfrog := by
  simp [leapfrogFields, fields, demoLeapfrog, HasFields, HasTy, u32, u64]

theorem demo_whfast_typed (x : F64) :
    HasTy (Kind.whfast.ty (.struct .nil)) (.record (demoLeapfrog.append (demoRest x))) := by
  simp [Kind.ty, Kind.fields, whfastFields, fields, demoLeapfrog, demoRest, VFields.append, HasFields,
    HasTy, u64, axes, alternativeCoordinates, Vals.replicate, Vals.length, Vals.All, zero3]

theorem demo_leapfrog_finite : FiniteFields demoLeapfrog := by
  simp [demoLeapfrog, FiniteFields, Finite, finite]

/-- C18_partial applies to a WHFast state. -/
example : restore bitsText (.struct .nil) (ser bitsText (.record (demoLeapfrog.append (demoRest 0)))) =
    some (.whfast, .record (demoLeapfrog.append (demoRest 0))) :=
  C18_partial _ bitsText_exact _ (by simp [WellFormed, TFields.names, WellFormedFields]) _ _
    (demo_whfast_typed 0)
    (by simp [demoLeapfrog, demoRest, VFields.append, Finite, FiniteFields, FiniteList, finite, zero3,
      Vals.replicate])

/-- C18_partial applies to a LeapFrog state. -/
example : restore bitsText (.struct .nil) (ser bitsText (.record demoLeapfrog)) =
    some (.leapfrog, .record demoLeapfrog) :=
  C18_partial _ bitsText_exact _ (by simp [WellFormed, TFields.names, WellFormedFields]) .leapfrog _
    (by simpa [Kind.ty, HasTy, Kind.fields] using demo_leapfrog_typed)
    (by simpa [Finite] using demo_leapfrog_finite)

/-- C18_violated applies: one NaN among the compensation terms, and WHFast comes back as LeapFrog. -/
example : restore bitsText (.struct .nil)
      (ser bitsText (.record (demoLeapfrog.append (demoRest 0x7FF8000000000000)))) =
    some (.leapfrog, .record demoLeapfrog) :=
  C18_violated _ bitsText_exact _ (by simp [WellFormed, TFields.names, WellFormedFields]) _ _
    (demo_whfast_typed _) demo_leapfrog_typed demo_leapfrog_finite
    (by simp [demoRest, FiniteFields, Finite, FiniteList, finite, zero3, Vals.replicate])

end Posidonius.Json
