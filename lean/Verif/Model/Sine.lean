import Verif.Model.Tools

/-! # Sine and cosine of a reduced angle

Model of /repo/src/tools.rs 805-830, a private function that is kept but only mentioned in comments (lines 323-349). -/

namespace Posidonius.Tools

variable {F : Type} [Add F] [Sub F] [Mul F] [Div F] [Neg F] [FOps F] [FTrig F]

/-- tools.rs 806-830 `mco_sine`: the reduced angle, its sine and its cosine. -/
def mcoSine (x0 : F) : F × F × F :=
  let x := if ltb (lit 0) x0 then modulus x0 twoPi else modulus x0 (twoPi + twoPi)
  let cx := FTrig.cos x
  let sx := if ltb pi x then -FOps.sqrt (lit 1 - cx * cx) else FOps.sqrt (lit 1 - cx * cx)
  (x, sx, cx)

end Posidonius.Tools
