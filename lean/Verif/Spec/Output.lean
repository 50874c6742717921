import Verif.Model.Output

/-!
# Specification of the history file

What the columns of a history are supposed to be, independently of bytes.
-/

namespace Posidonius.Output

/-- One historic snapshot: the time, the time step and the state of the particles. -/
structure Snapshot where
  time : F64
  timeStep : F64
  particles : List HistParticle

/-- The Love number shown to the user: that of the constant-time-lag model, or +0. -/
def specLove (p : HistParticle) : F64 :=
  match p.tides with
  | .centralBody (.constantTimeLag k) => k
  | .orbitingBody (.constantTimeLag k) => k
  | _ => 0

/-- The row of the table that describes particle `p` of a snapshot. -/
def specRow (time timeStep : F64) (p : HistParticle) : Row where
  currentTime := time
  timeStep := timeStep
  particle := p.id
  position := p.position
  spin := p.spin
  velocity := p.velocity
  mass := p.mass
  radius := p.radius
  radiusOfGyration2 := p.radiusOfGyration2
  loveNumber := specLove p
  scaledDissipationFactor := p.scaledDissipationFactor
  lagAngle := p.lagAngle
  denergyDt := p.denergyDt
  migrationTimescale := p.migrationTimescale

/-- The rows of a snapshot. -/
def Snapshot.rows (s : Snapshot) : List Row := s.particles.map (specRow s.time s.timeStep)

/-- The table of a history: all rows of all snapshots in order. -/
def specTable (ss : List Snapshot) : List Row := ss.flatMap Snapshot.rows

/-- The history file produced by writing the snapshots one after another. -/
def historyFile (ss : List Snapshot) : Bytes :=
  ss.flatMap fun s => writeHistoricSnapshot s.particles s.time s.timeStep

/-- The snapshot is one of an `n`-particle universe: `n` particles, numbered by their position
(universe.rs 117-119). -/
def Snapshot.WellNumbered (n : Nat) (s : Snapshot) : Prop :=
  s.particles.map HistParticle.id = List.range n

end Posidonius.Output
