import Verif.Model.Scalar

/-!
# History file: writer and reader

Byte-level model of the historic snapshots (/repo/src/integrator/output.rs) and of the Python
reader (/repo/posidonius/analysis/history.py).

An `f64` is its 64-bit pattern.  bincode (default configuration, as used through
`bincode::serialize_into`) writes a tuple as the concatenation of its members, an `f64` as its
8 bytes in little-endian order and an `i32` as its 4 bytes in little-endian order.
-/

namespace Posidonius.Output

/-- The bit pattern of an `f64`. -/
abbrev F64 := BitVec 64

abbrev Bytes := List UInt8

/-- The `n` little-endian bytes of a natural number (higher digits are dropped). -/
def leBytes : Nat → Nat → Bytes
  | 0, _ => []
  | n + 1, v => UInt8.ofNat (v % 256) :: leBytes n (v / 256)

/-- bincode encoding of an `f64`. -/
def encF64 (v : F64) : Bytes := leBytes 8 v.toNat

/-- bincode encoding of an `i32` given by its bit pattern. -/
def encI32 (v : BitVec 32) : Bytes := leBytes 4 v.toNat

/-- /repo/src/effects/tides/common.rs `TidalModel` (payload kept: the Love number of the constant
time lag model, the only one read by the history writer). -/
inductive TidalModel where
  | constantTimeLag (loveNumber : F64)
  | creepCoplanar
  | kaula

/-- /repo/src/effects/tides/common.rs `TidesEffect`. -/
inductive TidesEffect where
  | centralBody (m : TidalModel)
  | orbitingBody (m : TidalModel)
  | disabled

/-- The fields of `Particle` read by `write_historic_snapshot` (output.rs 99-135).  `id` is a
`usize`.  All other fields of `Particle` are irrelevant here and left out. -/
structure HistParticle where
  id : Nat
  position : Axes F64
  spin : Axes F64
  velocity : Axes F64
  mass : F64
  radius : F64
  radiusOfGyration2 : F64
  tides : TidesEffect
  scaledDissipationFactor : F64
  lagAngle : F64
  denergyDt : F64
  migrationTimescale : F64

/-- output.rs 118-126: the Love number column (0 unless the body uses constant time lag tides). -/
def loveNumberColumn : TidesEffect → F64
  | .centralBody m | .orbitingBody m =>
      match m with
      | .constantTimeLag k => k
      | _ => 0
  | .disabled => 0

/-- output.rs 101-117, 127: the first tuple (time, step, id as i32, position, spin, velocity,
mass, radius, radius of gyration squared).  `as i32` keeps the low 32 bits of the `usize`. -/
def encFirst (time timeStep : F64) (p : HistParticle) : Bytes :=
  encF64 time ++ encF64 timeStep ++ encI32 (BitVec.ofNat 32 p.id) ++
  encF64 p.position.x ++ encF64 p.position.y ++ encF64 p.position.z ++
  encF64 p.spin.x ++ encF64 p.spin.y ++ encF64 p.spin.z ++
  encF64 p.velocity.x ++ encF64 p.velocity.y ++ encF64 p.velocity.z ++
  encF64 p.mass ++ encF64 p.radius ++ encF64 p.radiusOfGyration2

/-- output.rs 128-135: the second tuple. -/
def encSecond (p : HistParticle) : Bytes :=
  encF64 (loveNumberColumn p.tides) ++ encF64 p.scaledDissipationFactor ++ encF64 p.lagAngle ++
  encF64 p.denergyDt ++ encF64 p.migrationTimescale

/-- output.rs 91-172 `write_historic_snapshot`: bytes handed to the writer, for the first
`n_particles` particles.  The check on the orbital period (137-168) is disabled by the constant
`MIN_ORBITAL_PERIOD_TIME_STEP_RATIO = -1` (constants.rs) and left out. -/
def writeHistoricSnapshot (particles : List HistParticle) (time timeStep : F64) : Bytes :=
  particles.flatMap fun p => encFirst time timeStep p ++ encSecond p

/-- output.rs 57-61 `n_bytes_per_particle_in_historic_snapshot`. -/
def nBytesPerParticle : Nat :=
  let nStoredFields := 20
  8 + 8 + 4 + 8 * (nStoredFields - 3)

/-- main.rs 139-141: the number of bytes that a restored integrator expects in the history. -/
def expectedNBytes (nHistoricSnapshots nParticles : Nat) : Nat :=
  nHistoricSnapshots * nBytesPerParticle * nParticles

/-! ## Reader -/

/-- The number written in little-endian bytes. -/
def leNat : Bytes → Nat
  | [] => 0
  | b :: bs => b.toNat + 256 * leNat bs

/-- One row as unpacked by `struct.unpack('< d d i' + ' d'*17, row)` (history.py 21, 28); `d` is
an 8-byte little-endian double, `i` a 4-byte little-endian signed integer, no padding. -/
structure Row where
  currentTime : F64
  timeStep : F64
  particle : Int
  position : Axes F64
  spin : Axes F64
  velocity : Axes F64
  mass : F64
  radius : F64
  radiusOfGyration2 : F64
  loveNumber : F64
  scaledDissipationFactor : F64
  lagAngle : F64
  denergyDt : F64
  migrationTimescale : F64
deriving DecidableEq

/-- `d` at byte offset `o` of the row. -/
def getD (row : Bytes) (o : Nat) : F64 := BitVec.ofNat 64 (leNat ((row.drop o).take 8))

/-- `i` at byte offset `o` of the row. -/
def getI (row : Bytes) (o : Nat) : Int := (BitVec.ofNat 32 (leNat ((row.drop o).take 4))).toInt

/-- history.py 28: unpacking of one 156 byte row. -/
def unpackRow (row : Bytes) : Row where
  currentTime := getD row 0
  timeStep := getD row 8
  particle := getI row 16
  position := ⟨getD row 20, getD row 28, getD row 36⟩
  spin := ⟨getD row 44, getD row 52, getD row 60⟩
  velocity := ⟨getD row 68, getD row 76, getD row 84⟩
  mass := getD row 92
  radius := getD row 100
  radiusOfGyration2 := getD row 108
  loveNumber := getD row 116
  scaledDissipationFactor := getD row 124
  lagAngle := getD row 132
  denergyDt := getD row 140
  migrationTimescale := getD row 148

/-- history.py 23-32: `f.read(8+8+4+8*(len(fields)-3))` until `struct.unpack` fails because fewer
bytes than a whole row were read. -/
def readRows (file : Bytes) : List Row :=
  if h : file.length < 8 + 8 + 4 + 8 * (20 - 3) then []
  else unpackRow (file.take (8 + 8 + 4 + 8 * (20 - 3))) ::
    readRows (file.drop (8 + 8 + 4 + 8 * (20 - 3)))
termination_by file.length
decreasing_by simp only [List.length_drop]; omega

/-- history.py 39: `data['particle'].max()` of a non-empty list. -/
def maxParticle (r : Row) (rows : List Row) : Int :=
  rows.foldl (fun m x => max m x.particle) r.particle

/-- history.py 14-46 `read`.  `none`: the exception "Empty file!" (line 36), or the
`ZeroDivisionError` of line 42 when the largest id is -1.  Python's `%` has the sign of the divisor
(`Int.fmod`); `data[:-1*excess]` keeps all but the last `excess` rows. -/
def readHistory (file : Bytes) : Option (Int × List Row) :=
  match readRows file with
  | [] => none
  | r :: rs =>
    let data := r :: rs
    let nParticles := maxParticle r rs + 1
    let outerParticles := nParticles - 1
    let lastParticle := ((r :: rs).getLast (by simp)).particle
    if nParticles = 0 then none
    else
      let excess := (nParticles - (outerParticles - lastParticle)).fmod nParticles
      let data := if excess > 0 then data.take (data.length - excess.toNat) else data
      some (nParticles, data)

end Posidonius.Output
