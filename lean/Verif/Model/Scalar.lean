import Mathlib.Data.Rat.Defs
import Mathlib.Data.Rat.Sqrt
import Mathlib.Data.Rat.Floor
import Mathlib.Algebra.Order.Ring.Rat

/-!
# Scalars and vectors

The Rust code computes with `f64`.  The model is generic in the scalar type `F`: the arithmetic
operators are the usual Lean classes, and `FOps F` gives the remaining primitive operations of
`f64` that the code uses.  No law is assumed of any of them, so a theorem about an arbitrary `F`
holds for IEEE 754 doubles as well (NaN, infinities, rounding and all).
-/

namespace Posidonius

/-- Primitive `f64` operations used by the code, besides `+ - * /` and unary `-`.
`lit q` is the literal `q`; comparisons are Boolean valued (`a < b` in Rust is `ltb a b`;
`a > b` is `ltb b a`; `a >= b` is `leb b a`; `a != b` is `!(eqb a b)`). -/
class FOps (F : Type) where
  lit : ℚ → F
  sqrt : F → F
  abs : F → F
  floor : F → F
  ltb : F → F → Bool
  leb : F → F → Bool
  eqb : F → F → Bool

export FOps (lit ltb leb eqb)

/-- `f64::powf`. -/
class FPow (F : Type) where
  powf : F → F → F

/-- Elementary functions of `f64` and the constant `std::f64::consts::PI`.  `ln x` also stands for
`x.log(std::f64::consts::E)`. -/
class FTrig (F : Type) where
  sin : F → F
  cos : F → F
  acos : F → F
  atan2 : F → F → F
  sinh : F → F
  cosh : F → F
  exp : F → F
  ln : F → F
  pi : F

/-- /repo/src/particles/axes.rs: three components. -/
@[ext]
structure Axes (F : Type) where
  x : F
  y : F
  z : F
deriving DecidableEq, Repr

namespace Axes
variable {F : Type}

/-- All components zero (`Axes{x:0., y:0., z:0.}`). -/
def zero [FOps F] : Axes F := ⟨lit 0, lit 0, lit 0⟩
/-- Component-wise sum (`a.x += b.x; ...`). -/
def add [Add F] (a b : Axes F) : Axes F := ⟨a.x + b.x, a.y + b.y, a.z + b.z⟩
/-- Component-wise difference. -/
def sub [Sub F] (a b : Axes F) : Axes F := ⟨a.x - b.x, a.y - b.y, a.z - b.z⟩
/-- Scalar times vector, in the order `k * a.x`. -/
def smul [Mul F] (k : F) (a : Axes F) : Axes F := ⟨k * a.x, k * a.y, k * a.z⟩
/-- Component-wise negation. -/
def neg [Neg F] (a : Axes F) : Axes F := ⟨-a.x, -a.y, -a.z⟩

end Axes

/-! ## Exact rationals with the IEEE special values

`XQ` is used to exhibit NaN/infinity behaviour of the formulas of the code.  Finite values are
exact rationals (no rounding, no overflow, one unsigned zero); `x/0` is `+inf` for `x>0` and
`-inf` for `x<0`, `0/0 = inf/inf = inf-inf = 0*inf = NaN`; every comparison with NaN is false;
`sqrt` is exact on squares of rationals and rounded down otherwise (only used on squares). -/

inductive XQ where
  | fin (q : ℚ)
  | pinf
  | ninf
  | nan
deriving DecidableEq, Repr

namespace XQ

def neg : XQ → XQ
  | fin q => fin (-q)
  | pinf => ninf
  | ninf => pinf
  | nan => nan

def add : XQ → XQ → XQ
  | nan, _ => nan
  | _, nan => nan
  | fin a, fin b => fin (a + b)
  | pinf, ninf => nan
  | ninf, pinf => nan
  | pinf, _ => pinf
  | _, pinf => pinf
  | ninf, _ => ninf
  | _, ninf => ninf

def sub (a b : XQ) : XQ := add a (neg b)

/-- `+inf` or `-inf` times a finite rational. -/
def infMul (positive : Bool) (q : ℚ) : XQ :=
  if q = 0 then nan
  else if 0 < q then (if positive then pinf else ninf)
  else (if positive then ninf else pinf)

def mul : XQ → XQ → XQ
  | nan, _ => nan
  | _, nan => nan
  | fin a, fin b => fin (a * b)
  | fin a, pinf => infMul true a
  | fin a, ninf => infMul false a
  | pinf, fin b => infMul true b
  | ninf, fin b => infMul false b
  | pinf, pinf => pinf
  | ninf, ninf => pinf
  | pinf, ninf => ninf
  | ninf, pinf => ninf

def div : XQ → XQ → XQ
  | nan, _ => nan
  | _, nan => nan
  | fin a, fin b =>
      if b = 0 then (if a = 0 then nan else if 0 < a then pinf else ninf) else fin (a / b)
  | fin _, _ => fin 0
  | pinf, fin b => if b < 0 then ninf else pinf
  | ninf, fin b => if b < 0 then pinf else ninf
  | _, _ => nan

def sqrt : XQ → XQ
  | fin q => if q < 0 then nan else fin (Rat.sqrt q)
  | pinf => pinf
  | ninf => nan
  | nan => nan

def abs : XQ → XQ
  | fin q => fin |q|
  | pinf => pinf
  | ninf => pinf
  | nan => nan

def floor : XQ → XQ
  | fin q => fin (⌊q⌋ : ℤ)
  | x => x

def ltb : XQ → XQ → Bool
  | fin a, fin b => decide (a < b)
  | fin _, pinf => true
  | ninf, fin _ => true
  | ninf, pinf => true
  | _, _ => false

def eqb : XQ → XQ → Bool
  | fin a, fin b => decide (a = b)
  | pinf, pinf => true
  | ninf, ninf => true
  | _, _ => false

def leb (a b : XQ) : Bool := ltb a b || eqb a b

instance : Neg XQ := ⟨neg⟩
instance : Add XQ := ⟨add⟩
instance : Sub XQ := ⟨sub⟩
instance : Mul XQ := ⟨mul⟩
instance : Div XQ := ⟨div⟩
instance : FOps XQ where
  lit := fin
  sqrt := sqrt
  abs := abs
  floor := floor
  ltb := ltb
  leb := leb
  eqb := eqb

end XQ

end Posidonius
