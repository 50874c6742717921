import Verif.Model.Scalar

/-!
# Vector notation

`Axes F` with componentwise operations.  The Rust code writes three lines, one per component; the
model writes one vector expression.  Products keep the order `scalar * component`.
-/

namespace Posidonius
namespace Axes
variable {F : Type}

instance [Add F] : Add (Axes F) := ⟨Axes.add⟩
instance [Sub F] : Sub (Axes F) := ⟨Axes.sub⟩
instance [Neg F] : Neg (Axes F) := ⟨Axes.neg⟩
instance [Mul F] : SMul F (Axes F) := ⟨Axes.smul⟩
instance [FOps F] : Zero (Axes F) := ⟨Axes.zero⟩

/-- Scalar product. -/
def dot [Add F] [Mul F] (a b : Axes F) : F := a.x * b.x + a.y * b.y + a.z * b.z
/-- Vector product. -/
def cross [Sub F] [Mul F] (a b : Axes F) : Axes F :=
  ⟨a.y * b.z - a.z * b.y, a.z * b.x - a.x * b.z, a.x * b.y - a.y * b.x⟩
/-- Sum of the squares of the components. -/
def norm2 [Add F] [Mul F] (a : Axes F) : F := dot a a
/-- Divide every component. -/
def sdiv [Div F] (a : Axes F) (k : F) : Axes F := ⟨a.x / k, a.y / k, a.z / k⟩

end Axes
end Posidonius
