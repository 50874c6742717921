import Verif.Model.Creep
import Verif.Model.Universe

/-! # The creep model in the universe

The universe model takes the creep and Kaula formulas as arguments; here the creep ones are those of Model/Creep.lean. -/

namespace Posidonius.Univ
variable {F : Type} [Add F] [Sub F] [Mul F] [Div F] [Neg F] [FOps F] [FPow F] [FTrig F] [FTan F]

/-- tides/creep_coplanar.rs and rotational_flattening/creep_coplanar.rs, with the Kaula tides of `m`.  A loop for the
eccentric anomaly that does not end within `fuel` turns (the code would go on) gives the zero vector. -/
def withCreep (k : Consts F) (fuel : Nat) (m : Models F) : Models F where
  tides :=
    { m.tides with
      creepTorque := fun host p centralBody =>
        if centralBody then (Creep.hostTorque k fuel host p).getD Axes.zero else Creep.companionTorque k host p
      creepForce := Creep.force k }
  flattening :=
    { creepTorque := fun host p centralBody =>
        if centralBody then (Creep.hostFlatteningTorque k fuel host p).getD Axes.zero
        else Creep.companionFlatteningTorque k host p
      creepForce := Creep.flatteningForce k }
  tideShape := fun host p => (Creep.shape k fuel host p true false false).getD Axes.zero
  flatteningShape := fun host p => (Creep.shape k fuel host p false true false).getD Axes.zero

end Posidonius.Univ
