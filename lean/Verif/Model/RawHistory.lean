import Verif.Model.Output
import Mathlib.Data.List.Dedup
import Mathlib.Data.List.Sort

/-!
# The history as text

/repo/scripts/raw_history.py.  The text of a number is left out: the files hold the numbers themselves.
-/

namespace Posidonius.Output

/-- One of the text files: the particle of its name (line 22), the names of the columns and the lines below. -/
structure TextFile where
  particle : Int
  header : List String
  lines : List (List F64)

/-- history.py 21: the columns of a record, without `particle` and the `index` that `to_records` adds, which are deleted at lines
20-21 of the script. -/
def textColumns (r : Row) : List (String × F64) :=
  [("current_time", r.currentTime), ("time_step", r.timeStep),
   ("position_x", r.position.x), ("position_y", r.position.y), ("position_z", r.position.z),
   ("spin_x", r.spin.x), ("spin_y", r.spin.y), ("spin_z", r.spin.z),
   ("velocity_x", r.velocity.x), ("velocity_y", r.velocity.y), ("velocity_z", r.velocity.z),
   ("mass", r.mass), ("radius", r.radius), ("radius_of_gyration_2", r.radiusOfGyration2), ("love_number", r.loveNumber),
   ("scaled_dissipation_factor", r.scaledDissipationFactor), ("lag_angle", r.lagAngle), ("denergy_dt", r.denergyDt),
   ("migration_timescale", r.migrationTimescale)]

/-- Line 17, `np.unique`: the sorted values without repetitions. -/
def unique (l : List Int) : List Int := l.dedup.mergeSort fun a b => decide (a ≤ b)

/-- Lines 18-23: the file of one particle.  The names of the columns are those of any record; there is one, as the particle
comes from the records. -/
def textFile (data : List Row) (particle : Int) : TextFile :=
  let subdata := data.filter fun r => decide (r.particle = particle)
  { particle := particle,
    header := (subdata.head?.map fun r => (textColumns r).map Prod.fst).getD [],
    lines := subdata.map fun r => (textColumns r).map Prod.snd }

/-- The script; `none` if the history cannot be read. -/
def rawHistory (file : Bytes) : Option (List TextFile) :=
  (readHistory file).map fun h => (unique (h.2.map Row.particle)).map (textFile h.2)

end Posidonius.Output
