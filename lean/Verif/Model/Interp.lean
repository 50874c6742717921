import Verif.Model.Scalar

/-!
# Table interpolation

/repo/src/tools.rs 840-860 `linear_interpolation`, 884-907 `find_indices_around_target_value`.
An index out of bounds is a panic, modelled by `none`.
-/

namespace Posidonius.Interp
variable {F : Type} [FOps F]

/-- tools.rs 884-907.  For empty data `data[last_idx]` panics. -/
def findIndices (data : List F) (target : F) : Option (Nat × Nat) :=
  let ndata := data.length
  match data.findIdx? (fun r => ltb target r) with
  | none =>
    match data[ndata - 1]? with
    | none => none
    | some last => if ltb target last then some (0, 0) else some (ndata - 1, ndata - 1)
  | some i =>
    if i = 0 then some (0, 0)
    else if i = ndata then some (ndata - 1, ndata - 1)
    else some (i - 1, i)

/-- tools.rs 840-860: value and left index. -/
def linearInterpolation [Add F] [Sub F] [Mul F] [Div F] (target : F) (x y : List F) : Option (F × Nat) :=
  match findIndices x target with
  | none => none
  | some (left, right) =>
    if left = right then
      match y[left]? with
      | some v => some (v, left)
      | none => none
    else
      match x[left]?, x[right]?, y[left]?, y[right]? with
      | some xl, some xr, some yl, some yr =>
        let percent := (target - xl) / (xr - xl)
        some (yl * (lit 1 - percent) + yr * percent, left)
      | _, _, _, _ => none

end Posidonius.Interp
