import Verif.Model.Json

/-! # Specification: well-typed values -/

namespace Posidonius.Json

def Vals.length : Vals → Nat
  | .nil => 0
  | .cons _ r => r.length + 1

/-- Every element satisfies `P`. -/
def Vals.All (P : Val → Prop) : Vals → Prop
  | .nil => True
  | .cons v r => P v ∧ r.All P

/-- Every key is one of a map, and every value satisfies `P`. -/
def VFields.AllMap (P : Val → Prop) : VFields → Prop
  | .nil => True
  | .cons n v r => mapKey n = true ∧ P v ∧ r.AllMap P

mutual
/-- `HasTy t v`: `v` is a value of type `t`. -/
def HasTy : Ty → Val → Prop
  | .f64, .f64 _ => True
  | .int lo hi, .int i => lo ≤ i ∧ i ≤ hi
  | .bool, .bool _ => True
  | .array n t, .arr l => l.length = n ∧ l.All (HasTy t)
  | .vec t, .arr l => l.All (HasTy t)
  | .map t, .record l => l.AllMap (HasTy t)
  | .struct fs, .record l => HasFields fs l
  | .tags names, .tag s => s ∈ names
  | .enum vs, .tag s => s ∈ vs.units
  | .enum vs, .variant s v => HasVariant vs s v
  | _, _ => False
/-- The record has exactly the declared fields, in order. -/
def HasFields : TFields → VFields → Prop
  | .nil, .nil => True
  | .cons n t r, .cons n' v r' => n = n' ∧ HasTy t v ∧ HasFields r r'
  | .dflt n t _ r, .cons n' v r' => n = n' ∧ HasTy t v ∧ HasFields r r'
  | _, _ => False
/-- The enumeration has a variant of that name whose payload has the type of the value. -/
def HasVariant : TVariants → String → Val → Prop
  | .nil, _, _ => False
  | .unit _ r, s, v => HasVariant r s v
  | .payload n t r, s, v => if n = s then HasTy t v else HasVariant r s v
end

def TFields.names : TFields → List String
  | .nil => []
  | .cons n _ r => n :: r.names
  | .dflt n _ _ r => n :: r.names

mutual
/-- No structure declares a field twice. -/
def WellFormed : Ty → Prop
  | .array _ t => WellFormed t
  | .vec t => WellFormed t
  | .map t => WellFormed t
  | .struct fs => fs.names.Nodup ∧ WellFormedFields fs
  | .enum vs => WellFormedVariants vs
  | _ => True
def WellFormedFields : TFields → Prop
  | .nil => True
  | .cons _ t r => WellFormed t ∧ WellFormedFields r
  | .dflt _ t _ r => WellFormed t ∧ WellFormedFields r
def WellFormedVariants : TVariants → Prop
  | .nil => True
  | .unit _ r => WellFormedVariants r
  | .payload _ t r => WellFormed t ∧ WellFormedVariants r
end

mutual
/-- Every double in the value is finite. -/
def Finite : Val → Prop
  | .f64 x => finite x = true
  | .arr l => FiniteList l
  | .record l => FiniteFields l
  | .variant _ v => Finite v
  | _ => True
def FiniteList : Vals → Prop
  | .nil => True
  | .cons v r => Finite v ∧ FiniteList r
def FiniteFields : VFields → Prop
  | .nil => True
  | .cons _ v r => Finite v ∧ FiniteFields r
end

end Posidonius.Json
