import Verif.Model.Particle

/-! NaN absorbs everything. -/

namespace Posidonius.XQ

@[simp] theorem nan_add (a : XQ) : nan + a = nan := by cases a <;> rfl
@[simp] theorem add_nan (a : XQ) : a + nan = nan := by cases a <;> rfl
@[simp] theorem nan_sub (a : XQ) : nan - a = nan := by cases a <;> rfl
@[simp] theorem sub_nan (a : XQ) : a - nan = nan := by cases a <;> rfl
@[simp] theorem nan_mul (a : XQ) : nan * a = nan := by cases a <;> rfl
@[simp] theorem mul_nan (a : XQ) : a * nan = nan := by cases a <;> rfl
@[simp] theorem nan_div (a : XQ) : nan / a = nan := by cases a <;> rfl
@[simp] theorem div_nan (a : XQ) : a / nan = nan := by cases a <;> rfl
@[simp] theorem neg_nan : -nan = nan := rfl
@[simp] theorem lit_eq (q : ℚ) : (lit q : XQ) = fin q := rfl
@[simp] theorem zero_div_zero : fin 0 / fin 0 = nan := by rfl
@[simp] theorem fin_mul (a b : ℚ) : fin a * fin b = fin (a * b) := rfl
@[simp] theorem fin_add (a b : ℚ) : fin a + fin b = fin (a + b) := rfl
@[simp] theorem fin_sub (a b : ℚ) : fin a - fin b = fin (a - b) := by
  show fin (a + -b) = _
  rw [sub_eq_add_neg]
@[simp] theorem fin_neg (a : ℚ) : -fin a = fin (-a) := rfl

@[simp] theorem ipow_fin (q : ℚ) (k : Nat) : ipow (XQ.fin q) k = XQ.fin (q ^ k) := by
  match k with
  | 0 => simp [ipow]
  | 1 => simp [ipow]
  | k + 2 => simp [ipow, XQ.ipow_fin q (k + 1), pow_succ]

theorem fin_div {a b : ℚ} (h : b ≠ 0) : XQ.fin a / XQ.fin b = XQ.fin (a / b) := by
  show XQ.div _ _ = _
  simp [XQ.div, h]

section
variable (a b : Axes XQ) (k : XQ)
@[simp] theorem axes_add_x : (a + b).x = a.x + b.x := rfl
@[simp] theorem axes_sub_x : (a - b).x = a.x - b.x := rfl
@[simp] theorem axes_neg_x : (-a).x = -a.x := rfl
@[simp] theorem axes_smul_x : (k • a).x = k * a.x := rfl
@[simp] theorem axes_sdiv_x : (a.sdiv k).x = a.x / k := rfl
@[simp] theorem axes_zero_x : (Axes.zero : Axes XQ).x = fin 0 := rfl
@[simp] theorem axes_add_y : (a + b).y = a.y + b.y := rfl
@[simp] theorem axes_sub_y : (a - b).y = a.y - b.y := rfl
@[simp] theorem axes_neg_y : (-a).y = -a.y := rfl
@[simp] theorem axes_smul_y : (k • a).y = k * a.y := rfl
@[simp] theorem axes_sdiv_y : (a.sdiv k).y = a.y / k := rfl
@[simp] theorem axes_zero_y : (Axes.zero : Axes XQ).y = fin 0 := rfl
@[simp] theorem axes_add_z : (a + b).z = a.z + b.z := rfl
@[simp] theorem axes_sub_z : (a - b).z = a.z - b.z := rfl
@[simp] theorem axes_neg_z : (-a).z = -a.z := rfl
@[simp] theorem axes_smul_z : (k • a).z = k * a.z := rfl
@[simp] theorem axes_sdiv_z : (a.sdiv k).z = a.z / k := rfl
@[simp] theorem axes_zero_z : (Axes.zero : Axes XQ).z = fin 0 := rfl
end

end Posidonius.XQ
