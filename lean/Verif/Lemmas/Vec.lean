import Verif.Model.Vec
import Verif.Model.RealScalar
import Mathlib.Algebra.Module.Defs
import Mathlib.Algebra.BigOperators.Group.Finset.Basic
import Mathlib.Algebra.BigOperators.Ring.Finset
import Mathlib.Algebra.BigOperators.Fin
import Mathlib.Tactic.Ring
import Mathlib.Tactic.Module

/-! # Real vectors -/

namespace Posidonius
namespace Axes

@[simp] theorem add_x (a b : Axes ℝ) : (a + b).x = a.x + b.x := rfl
@[simp] theorem add_y (a b : Axes ℝ) : (a + b).y = a.y + b.y := rfl
@[simp] theorem add_z (a b : Axes ℝ) : (a + b).z = a.z + b.z := rfl
@[simp] theorem sub_x (a b : Axes ℝ) : (a - b).x = a.x - b.x := rfl
@[simp] theorem sub_y (a b : Axes ℝ) : (a - b).y = a.y - b.y := rfl
@[simp] theorem sub_z (a b : Axes ℝ) : (a - b).z = a.z - b.z := rfl
@[simp] theorem neg_x (a : Axes ℝ) : (-a).x = -a.x := rfl
@[simp] theorem neg_y (a : Axes ℝ) : (-a).y = -a.y := rfl
@[simp] theorem neg_z (a : Axes ℝ) : (-a).z = -a.z := rfl
@[simp] theorem smul_x (k : ℝ) (a : Axes ℝ) : (k • a).x = k * a.x := rfl
@[simp] theorem smul_y (k : ℝ) (a : Axes ℝ) : (k • a).y = k * a.y := rfl
@[simp] theorem smul_z (k : ℝ) (a : Axes ℝ) : (k • a).z = k * a.z := rfl
@[simp] theorem zero_x : (0 : Axes ℝ).x = 0 := by show ((0 : ℚ) : ℝ) = 0; simp
@[simp] theorem zero_y : (0 : Axes ℝ).y = 0 := by show ((0 : ℚ) : ℝ) = 0; simp
@[simp] theorem zero_z : (0 : Axes ℝ).z = 0 := by show ((0 : ℚ) : ℝ) = 0; simp
@[simp] theorem sdiv_x (k : ℝ) (a : Axes ℝ) : (a.sdiv k).x = a.x / k := rfl
@[simp] theorem sdiv_y (k : ℝ) (a : Axes ℝ) : (a.sdiv k).y = a.y / k := rfl
@[simp] theorem sdiv_z (k : ℝ) (a : Axes ℝ) : (a.sdiv k).z = a.z / k := rfl
@[simp] theorem cross_x (a b : Axes ℝ) : (a.cross b).x = a.y * b.z - a.z * b.y := rfl
@[simp] theorem cross_y (a b : Axes ℝ) : (a.cross b).y = a.z * b.x - a.x * b.z := rfl
@[simp] theorem cross_z (a b : Axes ℝ) : (a.cross b).z = a.x * b.y - a.y * b.x := rfl
@[simp] theorem zero_def : (Axes.zero : Axes ℝ) = 0 := rfl

noncomputable instance : AddCommGroup (Axes ℝ) where
  add_assoc a b c := by ext <;> simp [add_assoc]
  zero_add a := by ext <;> simp
  add_zero a := by ext <;> simp
  add_comm a b := by ext <;> simp [add_comm]
  neg_add_cancel a := by ext <;> simp
  sub_eq_add_neg a b := by ext <;> simp [sub_eq_add_neg]
  nsmul := nsmulRec
  zsmul := zsmulRec

noncomputable instance : Module ℝ (Axes ℝ) where
  one_smul a := by ext <;> simp
  mul_smul k l a := by ext <;> simp [mul_assoc]
  smul_zero k := by ext <;> simp
  smul_add k a b := by ext <;> simp [mul_add]
  add_smul k l a := by ext <;> simp [add_mul]
  zero_smul a := by ext <;> simp

/-- The components as additive maps. -/
def xHom : Axes ℝ →+ ℝ := ⟨⟨Axes.x, zero_x⟩, add_x⟩
def yHom : Axes ℝ →+ ℝ := ⟨⟨Axes.y, zero_y⟩, add_y⟩
def zHom : Axes ℝ →+ ℝ := ⟨⟨Axes.z, zero_z⟩, add_z⟩

theorem sum_x {ι : Type} (s : Finset ι) (f : ι → Axes ℝ) : (∑ i ∈ s, f i).x = ∑ i ∈ s, (f i).x :=
  map_sum xHom f s
theorem sum_y {ι : Type} (s : Finset ι) (f : ι → Axes ℝ) : (∑ i ∈ s, f i).y = ∑ i ∈ s, (f i).y :=
  map_sum yHom f s
theorem sum_z {ι : Type} (s : Finset ι) (f : ι → Axes ℝ) : (∑ i ∈ s, f i).z = ∑ i ∈ s, (f i).z :=
  map_sum zHom f s

theorem cross_add (a b c : Axes ℝ) : a.cross (b + c) = a.cross b + a.cross c := by
  ext <;> simp <;> ring
theorem add_cross (a b c : Axes ℝ) : (a + b).cross c = a.cross c + b.cross c := by
  ext <;> simp <;> ring
theorem cross_sub (a b c : Axes ℝ) : a.cross (b - c) = a.cross b - a.cross c := by
  ext <;> simp <;> ring
theorem sub_cross (a b c : Axes ℝ) : (a - b).cross c = a.cross c - b.cross c := by
  ext <;> simp <;> ring
theorem cross_smul (k : ℝ) (a b : Axes ℝ) : a.cross (k • b) = k • a.cross b := by
  ext <;> simp <;> ring
theorem smul_cross (k : ℝ) (a b : Axes ℝ) : (k • a).cross b = k • a.cross b := by
  ext <;> simp <;> ring
theorem cross_self (a : Axes ℝ) : a.cross a = 0 := by
  ext <;> simp <;> ring
theorem cross_comm (a b : Axes ℝ) : a.cross b = -b.cross a := by
  ext <;> simp <;> ring
theorem cross_zero (a : Axes ℝ) : a.cross 0 = 0 := by
  ext <;> simp
theorem zero_cross (a : Axes ℝ) : (0 : Axes ℝ).cross a = 0 := by
  ext <;> simp
theorem cross_neg (a b : Axes ℝ) : a.cross (-b) = -a.cross b := by
  ext <;> simp <;> ring
theorem neg_cross (a b : Axes ℝ) : (-a).cross b = -a.cross b := by
  ext <;> simp <;> ring

/-- Cross product with a fixed left factor, as an additive map. -/
def crossHom (a : Axes ℝ) : Axes ℝ →+ Axes ℝ := ⟨⟨fun b => a.cross b, cross_zero a⟩, cross_add a⟩

theorem cross_sum {ι : Type} (s : Finset ι) (a : Axes ℝ) (f : ι → Axes ℝ) :
    a.cross (∑ i ∈ s, f i) = ∑ i ∈ s, a.cross (f i) :=
  map_sum (crossHom a) f s

theorem dot_comm (a b : Axes ℝ) : a.dot b = b.dot a := by simp [dot]; ring
theorem dot_add (a b c : Axes ℝ) : a.dot (b + c) = a.dot b + a.dot c := by simp [dot]; ring
theorem add_dot (a b c : Axes ℝ) : (a + b).dot c = a.dot c + b.dot c := by simp [dot]; ring
theorem dot_sub (a b c : Axes ℝ) : a.dot (b - c) = a.dot b - a.dot c := by simp [dot]; ring
theorem sub_dot (a b c : Axes ℝ) : (a - b).dot c = a.dot c - b.dot c := by simp [dot]; ring
theorem dot_smul (k : ℝ) (a b : Axes ℝ) : a.dot (k • b) = k * a.dot b := by simp [dot]; ring
theorem smul_dot (k : ℝ) (a b : Axes ℝ) : (k • a).dot b = k * a.dot b := by simp [dot]; ring
theorem dot_neg (a b : Axes ℝ) : a.dot (-b) = -a.dot b := by simp [dot]; ring
theorem neg_dot (a b : Axes ℝ) : (-a).dot b = -a.dot b := by simp [dot]; ring
theorem dot_zero (a : Axes ℝ) : a.dot 0 = 0 := by simp [dot]
theorem zero_dot (a : Axes ℝ) : (0 : Axes ℝ).dot a = 0 := by simp [dot]
theorem dot_cross_self_left (a b : Axes ℝ) : a.dot (a.cross b) = 0 := by simp [dot]; ring
theorem dot_cross_self_right (a b : Axes ℝ) : b.dot (a.cross b) = 0 := by simp [dot]; ring
theorem dot_self_nonneg (a : Axes ℝ) : 0 ≤ a.dot a := by
  simp only [dot]; nlinarith [mul_self_nonneg a.x, mul_self_nonneg a.y, mul_self_nonneg a.z]
theorem dot_self_eq_zero {a : Axes ℝ} (h : a.dot a = 0) : a = 0 := by
  simp only [dot] at h
  have hx := mul_self_nonneg a.x
  have hy := mul_self_nonneg a.y
  have hz := mul_self_nonneg a.z
  ext
  · simpa using mul_self_eq_zero.mp (by linarith)
  · simpa using mul_self_eq_zero.mp (by linarith)
  · simpa using mul_self_eq_zero.mp (by linarith)

theorem sdiv_eq_smul (a : Axes ℝ) (k : ℝ) : a.sdiv k = k⁻¹ • a := by
  ext <;> simp <;> ring

end Axes

/-- A loop that adds up vectors is a sum. -/
theorem foldl_add_eq_sum {M : Type} [AddCommMonoid M] {ι : Type} (f : ι → M) (l : List ι) (a : M) :
    l.foldl (fun acc j => acc + f j) a = a + (l.map f).sum := by
  induction l generalizing a with
  | nil => simp
  | cons b l ih => simp [ih, add_assoc]

theorem foldl_finRange {M : Type} [AddCommMonoid M] {n : Nat} (f : Fin n → M) (a : M) :
    (List.finRange n).foldl (fun acc j => acc + f j) a = a + ∑ j, f j := by
  rw [foldl_add_eq_sum, ← List.ofFn_eq_map, List.sum_ofFn]

/-- Pairwise terms that are antisymmetric add up to zero. -/
theorem sum_antisymm {M : Type} [AddCommGroup M] [Module ℝ M] {ι : Type} (s : Finset ι)
    (f : ι → ι → M) (h : ∀ i j, f i j = -f j i) : ∑ i ∈ s, ∑ j ∈ s, f i j = 0 := by
  have h1 : ∑ i ∈ s, ∑ j ∈ s, f i j = -∑ i ∈ s, ∑ j ∈ s, f i j := by
    calc ∑ i ∈ s, ∑ j ∈ s, f i j = ∑ i ∈ s, ∑ j ∈ s, -f j i := by
          refine Finset.sum_congr rfl fun i _ => Finset.sum_congr rfl fun j _ => h i j
      _ = -∑ i ∈ s, ∑ j ∈ s, f j i := by simp
      _ = -∑ i ∈ s, ∑ j ∈ s, f i j := by rw [Finset.sum_comm]
  have h2 : (2 : ℝ) • (∑ i ∈ s, ∑ j ∈ s, f i j) = 0 := by
    rw [two_smul]
    nth_rewrite 1 [h1]
    simp
  have := congrArg (fun x => (1 / 2 : ℝ) • x) h2
  simpa [smul_smul] using this

end Posidonius
