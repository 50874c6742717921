import Verif.Lemmas.Vec

/-! # Sums with rounding -/

namespace Posidonius

/-- Real numbers whose sums are rounded in any way, while products and differences are exact. -/
@[ext] structure Rounded (rnd : ℝ → ℝ) where
  val : ℝ

namespace Rounded
variable {rnd : ℝ → ℝ}
noncomputable instance : Add (Rounded rnd) := ⟨fun a b => ⟨rnd (a.val + b.val)⟩⟩
noncomputable instance : Sub (Rounded rnd) := ⟨fun a b => ⟨a.val - b.val⟩⟩
noncomputable instance : Mul (Rounded rnd) := ⟨fun a b => ⟨a.val * b.val⟩⟩
noncomputable instance : Div (Rounded rnd) := ⟨fun a b => ⟨a.val / b.val⟩⟩
noncomputable instance : Neg (Rounded rnd) := ⟨fun a => ⟨-a.val⟩⟩
noncomputable instance : FOps (Rounded rnd) where
  lit q := ⟨lit q⟩
  sqrt a := ⟨FOps.sqrt a.val⟩
  abs a := ⟨FOps.abs a.val⟩
  floor a := ⟨FOps.floor a.val⟩
  ltb a b := ltb a.val b.val
  leb a b := leb a.val b.val
  eqb a b := eqb a.val b.val

/-- The real components. -/
def vals (a : Axes (Rounded rnd)) : Axes ℝ := ⟨a.x.val, a.y.val, a.z.val⟩

theorem vals_sub (a b : Axes (Rounded rnd)) : vals (a - b) = vals a - vals b := by
  ext <;> rfl

theorem vals_smul (k : Rounded rnd) (a : Axes (Rounded rnd)) : vals (k • a) = k.val • vals a := by
  ext <;> rfl

theorem add_val (a b : Rounded rnd) : (a + b).val = rnd (a.val + b.val) := rfl
theorem sub_val (a b : Rounded rnd) : (a - b).val = a.val - b.val := rfl
theorem mul_val (a b : Rounded rnd) : (a * b).val = a.val * b.val := rfl
theorem div_val (a b : Rounded rnd) : (a / b).val = a.val / b.val := rfl
theorem lit_val (q : ℚ) : (lit q : Rounded rnd).val = lit q := rfl

end Rounded

end Posidonius
