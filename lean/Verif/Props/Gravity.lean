import Verif.Model.Gravity
import Verif.Spec.Gravity
import Verif.Model.RealTrig

/-! # C19, C20, C45, C54: gravity, collisions and Roche radii -/

namespace Posidonius.Gravity
open Axes

section Real
variable {n : Nat} (G : ℝ) (p : Fin n → Body ℝ) (roche : Fin n → Fin n → ℝ) (ig : Ignore) (mm : Nat)

theorem norm2_sub_comm (a b : Axes ℝ) : norm2 (a - b) = norm2 (b - a) := by
  simp [norm2, dot]; ring

theorem pairAcceleration_eq_newton (a b : Body ℝ) :
    pairAcceleration G a b = newton G b.mass a.position b.position := by
  unfold pairAcceleration newton
  have h : (b.position - a.position).dot (b.position - a.position)
      = norm2 (a.position - b.position) := by
    rw [norm2_sub_comm]; rfl
  rw [h]
  simp only [sqrt_real]
  have h2 : a.position - b.position = (-1 : ℝ) • (b.position - a.position) := by module
  generalize hs : Real.sqrt (norm2 (a.position - b.position)) = s
  rw [h2, smul_smul]
  congr 1
  rw [show s ^ 3 = s * s * s by ring]
  ring

theorem newton_antisymm (r s : Axes ℝ) (m k : ℝ) : m • newton G k r s = -(k • newton G m s r) := by
  unfold newton
  have h : (r - s).dot (r - s) = (s - r).dot (s - r) := by simp [dot]; ring
  rw [h]
  generalize Real.sqrt ((s - r).dot (s - r)) ^ 3 = q
  have h2 : r - s = (-1 : ℝ) • (s - r) := by module
  rw [h2]
  simp only [smul_smul, ← neg_smul]
  congr 1
  ring

theorem acceleration_eq_sum (i : Fin n) :
    acceleration G p ig mm i = ∑ j, (if i = j ∨ ignored ig mm i j = true then 0
      else newton G (p j).mass (p i).position (p j).position) := by
  have h : (fun (acc : Axes ℝ) (j : Fin n) => if i = j then acc else if ignored ig mm i j then acc
      else acc + pairAcceleration G (p i) (p j)) =
      fun acc j => acc + (if i = j ∨ ignored ig mm i j = true then 0
        else newton G (p j).mass (p i).position (p j).position) := by
    funext acc j
    by_cases h1 : i = j
    · simp [h1]
    · by_cases h2 : ignored ig mm i j = true
      · simp [h1, h2]
      · simp [h1, h2, pairAcceleration_eq_newton]
  unfold acceleration
  rw [h, foldl_finRange]
  simp

theorem ignored_symm (i j : Nat) : ignored ig mm i j = ignored ig mm j i := by
  cases ig <;> simp [ignored]
  · generalize (i == mm) = a
    generalize (j == mm) = b
    generalize (mm == 0) = c
    generalize decide (0 < mm) = c'
    generalize (i == 0) = d
    generalize (j == 0) = e
    generalize (i == 1) = f
    generalize (j == 1) = g
    cases a <;> cases b <;> cases c <;> cases c' <;> cases d <;> cases e <;> cases f <;> cases g <;> rfl
  · exact Bool.or_comm _ _

/-- **C19, Newton's law**: unless the program stops, the acceleration of every body is the sum of the
Newtonian accelerations caused by all the other bodies. -/
theorem C19_newtons_law (a : Fin n → Axes ℝ) (h : gravity G p roche .none mm = .ok a) (i : Fin n) :
    a i = ∑ j, if j = i then 0 else newton G (p j).mass (p i).position (p j).position := by
  unfold gravity at h
  split at h
  · simp at h
  · simp only [Except.ok.injEq] at h
    rw [← h, acceleration_eq_sum]
    refine Finset.sum_congr rfl fun j _ => ?_
    simp [ignored, eq_comm]

/-- **C19, linear momentum**: `sum m_i a_i = 0`, also with the terms left out for WHFast. -/
theorem C19_forces_balance (a : Fin n → Axes ℝ) (h : gravity G p roche ig mm = .ok a) :
    ∑ i, (p i).mass • a i = 0 := by
  unfold gravity at h
  split at h
  · simp at h
  · simp only [Except.ok.injEq] at h
    subst h
    simp only [acceleration_eq_sum, Finset.smul_sum]
    refine sum_antisymm _ _ fun i j => ?_
    by_cases h1 : i = j ∨ ignored ig mm i j = true
    · have h2 : j = i ∨ ignored ig mm j i = true := by
        rw [ignored_symm ig mm j i]; exact h1.imp Eq.symm id
      simp [h1, h2]
    · have h2 : ¬ (j = i ∨ ignored ig mm j i = true) := by
        rw [ignored_symm ig mm j i]; exact fun h => h1 (h.imp Eq.symm id)
      simp only [h1, h2, if_false]
      exact newton_antisymm G _ _ _ _

/-- **C19, angular momentum**: `sum m_i r_i x a_i = 0`, also with the terms left out for WHFast. -/
theorem C19_torques_balance (a : Fin n → Axes ℝ) (h : gravity G p roche ig mm = .ok a) :
    ∑ i, (p i).mass • ((p i).position.cross (a i)) = 0 := by
  unfold gravity at h
  split at h
  · simp at h
  · simp only [Except.ok.injEq] at h
    subst h
    simp only [acceleration_eq_sum, cross_sum, Finset.smul_sum]
    refine sum_antisymm _ _ fun i j => ?_
    by_cases h1 : i = j ∨ ignored ig mm i j = true
    · have h2 : j = i ∨ ignored ig mm j i = true := by
        rw [ignored_symm ig mm j i]; exact h1.imp Eq.symm id
      simp [h1, h2, cross_zero]
    · have h2 : ¬ (j = i ∨ ignored ig mm j i = true) := by
        rw [ignored_symm ig mm j i]; exact fun h => h1 (h.imp Eq.symm id)
      simp only [h1, h2, if_false]
      rw [← cross_smul, ← cross_smul, newton_antisymm G _ _ (p i).mass, cross_neg, cross_smul, cross_smul,
        neg_inj]
      unfold newton
      rw [cross_smul, cross_smul]
      congr 2
      rw [cross_sub, cross_sub, cross_self, cross_self, cross_comm (p i).position]
      module

/-- Every body moved by the same vector. -/
def translate (t : Axes ℝ) (b : Body ℝ) : Body ℝ := { b with position := b.position + t }
/-- Every body rotated or reflected. -/
def rotate (R : Isometry) (b : Body ℝ) : Body ℝ :=
  { b with position := R.map b.position, velocity := R.map b.velocity }

theorem Isometry.map_sub (R : Isometry) (u v : Axes ℝ) : R.map (u - v) = R.map u - R.map v := by
  have h : u - v = u + (-1 : ℝ) • v := by module
  rw [h, R.map_add, R.map_smul]; module

theorem Isometry.map_zero (R : Isometry) : R.map 0 = 0 := by
  have := R.map_smul 0 0
  simpa using this

/-- The isometry as an additive map. -/
def Isometry.hom (R : Isometry) : Axes ℝ →+ Axes ℝ := ⟨⟨R.map, R.map_zero⟩, R.map_add⟩

theorem check_congr {q : Fin n → Body ℝ} (hd : ∀ i j, distance2 (q i) (q j) = distance2 (p i) (p j))
    (hr : ∀ i, (q i).radius = (p i).radius) : firstStop q roche mm = firstStop p roche mm := by
  unfold firstStop check
  simp only [hd, hr]

/-- **C20, translations**: translating all bodies changes neither the accelerations nor whether the
program stops. -/
theorem C20_translation (t : Axes ℝ) :
    gravity G (fun i => translate t (p i)) roche ig mm = gravity G p roche ig mm := by
  have hsub : ∀ u v : Axes ℝ, (u + t) - (v + t) = u - v := fun u v => by module
  have h1 : firstStop (fun i => translate t (p i)) roche mm = firstStop p roche mm :=
    check_congr p roche mm (fun i j => by simp [distance2, translate, hsub]) (fun i => rfl)
  have h2 : acceleration G (fun i => translate t (p i)) ig mm = acceleration G p ig mm := by
    funext i
    simp only [acceleration, pairAcceleration, translate, hsub]
  unfold gravity
  rw [h1, h2]

/-- **C20, rotations and reflections**: rotating or reflecting all bodies rotates or reflects the
accelerations, and does not change whether the program stops. -/
theorem C20_rotation (R : Isometry) :
    gravity G (fun i => rotate R (p i)) roche ig mm =
      (gravity G p roche ig mm).map (fun a i => R.map (a i)) := by
  have hn : ∀ u v : Axes ℝ, norm2 (R.map u - R.map v) = norm2 (u - v) := fun u v => by
    rw [norm2, ← R.map_sub, R.dot]; rfl
  have h1 : firstStop (fun i => rotate R (p i)) roche mm = firstStop p roche mm :=
    check_congr p roche mm (fun i j => by simp [distance2, rotate, hn]) (fun i => rfl)
  have h2 : ∀ i, acceleration G (fun i => rotate R (p i)) ig mm i = R.map (acceleration G p ig mm i) := by
    intro i
    rw [acceleration_eq_sum, acceleration_eq_sum]
    have : ∀ s, R.map s = R.hom s := fun _ => rfl
    rw [this, map_sum]
    refine Finset.sum_congr rfl fun j _ => ?_
    by_cases h : i = j ∨ ignored ig mm i j = true
    · simp [h]
    · simp only [h, if_false]
      rw [← this]
      simp only [newton, rotate]
      rw [← R.map_sub, R.dot, R.map_smul]
  unfold gravity
  rw [h1]
  split
  · rfl
  · simp only [Except.map]
    congr 1
    funext i
    exact h2 i

/-- The order in which the bodies are listed does not matter for the accelerations. -/
theorem C20_permutation (σ : Equiv.Perm (Fin n)) (i : Fin n) :
    acceleration G (fun i => p (σ i)) .none mm i = acceleration G p .none mm (σ i) := by
  rw [acceleration_eq_sum, acceleration_eq_sum]
  refine Fintype.sum_equiv σ _ _ fun j => ?_
  simp [ignored]

end Real

/-! ## Collisions and ejections -/

section Any
set_option linter.unusedSectionVars false
variable {F : Type} [Add F] [Sub F] [Mul F] [Div F] [Neg F] [FOps F]
variable {n : Nat} (g : F) (p : Fin n → Body F) (roche : Fin n → Fin n → F) (ig : Ignore) (mm : Nat)

/-- At or inside the Roche radius stored for the pair. -/
def InsideRoche (i j : Fin n) : Prop := leb (distance2 (p i) (p j)) (roche i j * roche i j) = true
/-- Overlapping. -/
def Overlap (i j : Fin n) : Prop :=
  leb (distance2 (p i) (p j)) (((p i).radius + (p j).radius) * ((p i).radius + (p j).radius)) = true
/-- Farther apart than the maximal distance. -/
def Far (i j : Fin n) : Prop := ltb (maxDistance2 : F) (distance2 (p i) (p j)) = true

theorem check_eq_none (h0 : ltb (lit 0 : F) maxDistance2 = true) (i j : Fin n) (hij : i < j) :
    check p roche mm i j = none ↔
      ¬ InsideRoche p roche i j ∧ ¬ Overlap p i j ∧ ¬ (i.val = mm ∧ Far p i j) := by
  unfold check InsideRoche Overlap Far
  rw [if_pos hij, h0]
  generalize leb (distance2 (p i) (p j)) (roche i j * roche i j) = a
  generalize leb (distance2 (p i) (p j))
    (((p i).radius + (p j).radius) * ((p i).radius + (p j).radius)) = b
  generalize ltb (maxDistance2 : F) (distance2 (p i) (p j)) = c
  by_cases hm : i.val = mm <;> cases a <;> cases b <;> cases c <;> simp [hm]

theorem firstStop_eq_none : firstStop p roche mm = none ↔ ∀ i j, i < j → check p roche mm i j = none := by
  unfold firstStop
  simp only [List.findSome?_eq_none_iff, List.mem_finRange, forall_const]
  constructor
  · intro h i j hij
    have := h i j
    rwa [if_neg (ne_of_lt hij)] at this
  · intro h i j
    by_cases he : i = j
    · simp [he]
    · rw [if_neg he]
      by_cases hl : i < j
      · exact h i j hl
      · simp [check, hl]

/-- **C45, when the program goes on**, for any arithmetic (NaN included): the accelerations are
computed exactly if no pair is inside its Roche radius, no pair overlaps, and no body listed *after*
the most massive one is too far from it. -/
theorem C45_partial_goes_on_iff (h0 : ltb (lit 0 : F) maxDistance2 = true) :
    (∃ a, gravity g p roche ig mm = .ok a) ↔
      ∀ i j, i < j → ¬ InsideRoche p roche i j ∧ ¬ Overlap p i j ∧ ¬ (i.val = mm ∧ Far p i j) := by
  have : (∃ a, gravity g p roche ig mm = .ok a) ↔ firstStop p roche mm = none := by
    unfold gravity
    cases firstStop p roche mm <;> simp
  rw [this, firstStop_eq_none]
  exact forall_congr' fun i => forall_congr' fun j => imp_congr_right fun hij =>
    check_eq_none p roche mm h0 i j hij

/-- **C45, the message is right**: the reported pair is a pair in the reported situation. -/
theorem C45_partial_message (s : Stop) (h : gravity g p roche ig mm = .error s) :
    ∃ i j : Fin n, i < j ∧
      ((s = .destroyed i j ∧ InsideRoche p roche i j) ∨ (s = .collision i j ∧ Overlap p i j) ∨
       (s = .ejected j ∧ i.val = mm ∧ Far p i j)) := by
  unfold gravity at h
  split at h
  · rename_i t ht
    simp only [Except.error.injEq] at h
    subst h
    unfold firstStop at ht
    obtain ⟨i, _, hi⟩ := List.exists_of_findSome?_eq_some ht
    obtain ⟨j, _, hj⟩ := List.exists_of_findSome?_eq_some hi
    by_cases he : i = j
    · simp [he] at hj
    · rw [if_neg he] at hj
      unfold check at hj
      by_cases hl : i < j
      · rw [if_pos hl] at hj
        refine ⟨i, j, hl, ?_⟩
        by_cases c1 : leb (distance2 (p i) (p j)) (roche i j * roche i j) = true
        · rw [if_pos c1] at hj
          simp only [Option.some.injEq] at hj
          exact Or.inl ⟨hj.symm, c1⟩
        · rw [if_neg c1] at hj
          by_cases c2 : leb (distance2 (p i) (p j))
              (((p i).radius + (p j).radius) * ((p i).radius + (p j).radius)) = true
          · rw [if_pos c2] at hj
            simp only [Option.some.injEq] at hj
            exact Or.inr (Or.inl ⟨hj.symm, c2⟩)
          · rw [if_neg c2] at hj
            split at hj
            · rename_i c3
              simp only [Option.some.injEq] at hj
              simp only [Bool.and_eq_true, decide_eq_true_eq] at c3
              exact Or.inr (Or.inr ⟨hj.symm, c3.1.2, c3.2⟩)
            · simp at hj
      · rw [if_neg hl] at hj
        simp at hj
  · simp at h

end Any

section RealCollisions
variable {n : Nat} (G : ℝ) (p : Fin n → Body ℝ) (roche : Fin n → Fin n → ℝ) (ig : Ignore) (mm : Nat)

theorem maxDistance2_pos : ltb (lit 0 : ℝ) maxDistance2 = true := by
  simp [maxDistance2]

/-- Distance between two bodies. -/
noncomputable def dist (a b : Body ℝ) : ℝ :=
  Real.sqrt ((a.position - b.position).dot (a.position - b.position))

theorem dist_comm (a b : Body ℝ) : dist a b = dist b a := by
  unfold dist; congr 1; simp [dot]; ring

theorem distance2_eq (a b : Body ℝ) : distance2 a b = dist a b ^ 2 := by
  unfold distance2 dist norm2
  rw [Real.sq_sqrt (dot_self_nonneg _)]

theorem dist_nonneg (a b : Body ℝ) : 0 ≤ dist a b := Real.sqrt_nonneg _

/-- **C45, collisions**: if any two bodies are at most their Roche radius or the sum of their radii
apart, the program stops. (Missing for C45: ejections when the most massive body is not listed
first.) -/
theorem C45_partial_collisions (i j : Fin n) (hij : i ≠ j) (hsym : roche i j = roche j i)
    (h : dist (p i) (p j) ≤ roche i j ∨ dist (p i) (p j) ≤ (p i).radius + (p j).radius) :
    ∃ s, gravity G p roche ig mm = .error s := by
  by_contra hcon
  have hok : ∃ a, gravity G p roche ig mm = .ok a := by
    cases hg : gravity G p roche ig mm with
    | error s => exact absurd ⟨s, hg⟩ hcon
    | ok a => exact ⟨a, rfl⟩
  rw [C45_partial_goes_on_iff G p roche ig mm maxDistance2_pos] at hok
  have key : ∀ i j : Fin n, i < j →
      (dist (p i) (p j) ≤ roche i j ∨ dist (p i) (p j) ≤ (p i).radius + (p j).radius) → False := by
    intro i j hl h
    obtain ⟨h1, h2, _⟩ := hok i j hl
    have hd := dist_nonneg (p i) (p j)
    rcases h with h | h
    · apply h1
      simp only [InsideRoche, leb_real, distance2_eq]
      nlinarith
    · apply h2
      simp only [Overlap, leb_real, distance2_eq]
      nlinarith
  rcases lt_or_gt_of_ne hij with hl | hl
  · exact key i j hl h
  · refine key j i hl ?_
    rw [dist_comm, ← hsym, add_comm]
    exact h

/-- **C45, ejections, when the most massive body is listed first** (`mm = 0`): a body farther than 100
from it stops the program. -/
theorem C45_partial_ejection (i j : Fin n) (hi : i.val = 0) (hmm : mm = 0) (hij : i ≠ j)
    (h : 100 < dist (p i) (p j)) : ∃ s, gravity G p roche ig mm = .error s := by
  by_contra hcon
  have hok : ∃ a, gravity G p roche ig mm = .ok a := by
    cases hg : gravity G p roche ig mm with
    | error s => exact absurd ⟨s, hg⟩ hcon
    | ok a => exact ⟨a, rfl⟩
  rw [C45_partial_goes_on_iff G p roche ig mm maxDistance2_pos] at hok
  have hl : i < j := by
    have : i.val ≠ j.val := fun h => hij (Fin.ext h)
    exact Fin.lt_def.mpr (by omega)
  refine (hok i j hl).2.2 ⟨by omega, ?_⟩
  simp only [Far, ltb_real, distance2_eq, maxDistance2, lit_real]
  push_cast
  nlinarith

/-- **C45 is violated** whenever the most massive body is listed last: however far the bodies are
from it, the program goes on (if no two of them touch). -/
theorem C45_violated (hmm : mm + 1 = n)
    (h : ∀ i j, i < j → roche i j ^ 2 < dist (p i) (p j) ^ 2 ∧
      ((p i).radius + (p j).radius) ^ 2 < dist (p i) (p j) ^ 2) :
    ∃ a, gravity G p roche ig mm = .ok a := by
  rw [C45_partial_goes_on_iff G p roche ig mm maxDistance2_pos]
  intro i j hij
  obtain ⟨h1, h2⟩ := h i j hij
  refine ⟨?_, ?_, ?_⟩
  · simp only [InsideRoche, leb_real, distance2_eq]; nlinarith
  · simp only [Overlap, leb_real, distance2_eq]; nlinarith
  · rintro ⟨h3, _⟩
    have := Fin.lt_def.mp hij
    have := j.2
    omega

end RealCollisions

/-! ## Roche radii -/

section Roche
variable (a b : Body ℝ)

/-- **C54, symmetry for different masses** (missing: equal masses with different radii). -/
theorem C54_partial_symmetric (h : a.mass ≠ b.mass) : rocheRadius a b = rocheRadius b a := by
  unfold rocheRadius
  rcases lt_or_gt_of_ne h with h1 | h1
  · have h2 : ¬ (b.mass < a.mass) := not_lt.mpr h1.le
    simp [h1, h2]
  · have h2 : ¬ (a.mass < b.mass) := not_lt.mpr h1.le
    simp [h1, h2]

/-- ... and for equal masses with equal radii. -/
theorem C54_partial_symmetric_equal (h : a.mass = b.mass) (hr : a.radius = b.radius) :
    rocheRadius a b = rocheRadius b a := by
  simp [rocheRadius, h, hr]

/-- **C54 is violated**: for two bodies with equal positive masses and different radii, the value
depends on which of them is listed first. -/
theorem C54_violated (h : a.mass = b.mass) (hm : 0 < a.mass) (hr : a.radius ≠ b.radius) :
    rocheRadius a b ≠ rocheRadius b a := by
  have h1 : b.mass / b.mass = 1 := div_self (by rw [← h]; exact hm.ne')
  simp only [rocheRadius, h, ltb_real, lt_irrefl, if_false, h1, FPow.powf, Real.one_rpow, mul_one,
    lit_real]
  intro h2
  apply hr
  have : ((0.462 : ℚ) : ℝ) ≠ 0 := by norm_num
  exact (div_left_inj' this).mp h2

/-- **C54, positive**: for bodies with positive mass and radius the collision radius is positive, and at
least the radius of one of the bodies divided by 0.462. -/
theorem C54_partial_positive (ha : 0 < a.mass) (hb : 0 < b.mass) (hra : 0 < a.radius)
    (hrb : 0 < b.radius) :
    0 < rocheRadius a b ∧ min a.radius b.radius / (462 / 1000) ≤ rocheRadius a b := by
  have key : ∀ (r m k : ℝ), 0 < r → 0 < k → k ≤ m →
      r / (462 / 1000) ≤ (r / (462 / 1000)) * (m / k) ^ ((1 : ℝ) / 3) := by
    intro r m k hr hk hkm
    have h1 : (1 : ℝ) ≤ (m / k) ^ ((1 : ℝ) / 3) :=
      Real.one_le_rpow (by rw [le_div_iff₀ hk]; linarith) (by norm_num)
    have h2 : 0 < r / (462 / 1000) := by positivity
    nlinarith
  have hlit : ((0.462 : ℚ) : ℝ) = 462 / 1000 := by norm_num
  have hmin : 0 < min a.radius b.radius / (462 / 1000) := by
    have := lt_min hra hrb
    positivity
  have main : min a.radius b.radius / (462 / 1000) ≤ rocheRadius a b := by
    unfold rocheRadius
    by_cases h : b.mass < a.mass
    · simp only [ltb_real, h, if_true, lit_real, hlit, FPow.powf]
      refine le_trans ?_ (by simpa using key b.radius a.mass b.mass hrb hb h.le)
      have := min_le_right a.radius b.radius
      gcongr
    · simp only [ltb_real, h, if_false, lit_real, hlit, FPow.powf]
      refine le_trans ?_ (by simpa using key a.radius b.mass a.mass hra ha (not_lt.mp h))
      have := min_le_left a.radius b.radius
      gcongr
  exact ⟨lt_of_lt_of_le hmin main, main⟩

/-- With the table computed by the program, a pair of bodies with different masses is symmetric as
needed by `C45_partial_collisions`. -/
theorem rocheRadii_symm {n : Nat} (p : Fin n → Body ℝ) (i j : Fin n)
    (h : (p i).mass ≠ (p j).mass) : rocheRadii p i j = rocheRadii p j i := by
  unfold rocheRadii
  by_cases he : i = j
  · simp [he]
  · rw [if_neg he, if_neg (Ne.symm he), C54_partial_symmetric _ _ h]

end Roche

/-! ## Concrete cases -/

/-- A body of mass `m` and radius 1/1000 at rest at `(x, 0, 0)`. -/
noncomputable def demo (m x : ℝ) : Body ℝ := ⟨m, 1 / 1000, ⟨x, 0, 0⟩, 0⟩
/-- Star, planet at distance 1 and planet at distance 2. -/
noncomputable def demo3 : Fin 3 → Body ℝ := ![demo 1 0, demo (1 / 1000) 1, demo (1 / 500) (-2)]

theorem demo_dist (m m' x y : ℝ) : dist (demo m x) (demo m' y) = |x - y| := by
  simp [dist, demo, dot, Real.sqrt_mul_self_eq_abs]

theorem demo3_ok (ig : Ignore) : ∃ a, gravity 1 demo3 (fun _ _ => 0) ig 0 = .ok a := by
  rw [C45_partial_goes_on_iff _ _ _ _ _ maxDistance2_pos]
  intro i j hij
  fin_cases i <;> fin_cases j <;> simp at hij <;>
    simp [InsideRoche, Overlap, Far, distance2_eq, maxDistance2, demo3, demo_dist] <;>
    norm_num [demo]

/-- C19 applies to three bodies (the accelerations are not all zero). -/
example : ∃ a, gravity 1 demo3 (fun _ _ => 0) .none 0 = .ok a ∧
    ∑ i, (demo3 i).mass • a i = 0 ∧ ∑ i, (demo3 i).mass • ((demo3 i).position.cross (a i)) = 0 ∧
    (a 0).x = 1 / 1000 - 1 / 2000 := by
  obtain ⟨a, h⟩ := demo3_ok .none
  refine ⟨a, h, C19_forces_balance _ _ _ _ _ a h, C19_torques_balance _ _ _ _ _ a h, ?_⟩
  rw [C19_newtons_law 1 demo3 (fun _ _ => 0) 0 a h 0, sum_x, Fin.sum_univ_three]
  have e1 : Real.sqrt ((1 : ℝ) * 1) = 1 := by simp
  have e2 : Real.sqrt ((2 : ℝ) * 2) = 2 := Real.sqrt_mul_self (by norm_num)
  simp [newton, demo3, demo, dot, e2]
  norm_num

/-- The quarter turn about the z axis, as an instance of `Isometry`. -/
def quarterTurn : Isometry where
  map v := ⟨-v.y, v.x, v.z⟩
  map_add u v := by ext <;> simp; ring
  map_smul k u := by ext <;> simp
  dot u v := by simp [dot]; ring

/-- C45: two bodies touching; two bodies too far apart; and the same two listed the other way round. -/
example : ∃ s, gravity 1 ![demo 1 0, demo 1 (1 / 1000)] (fun _ _ => 0) .none 0 = .error s :=
  C45_partial_collisions 1 _ _ _ _ 0 1 (by simp) rfl
    (Or.inr (by simp [demo_dist]; norm_num [demo, abs_of_pos]))
example : ∃ s, gravity 1 ![demo 1 0, demo (1 / 2) 200] (fun _ _ => 0) .none 0 = .error s :=
  C45_partial_ejection 1 _ _ _ _ 0 1 rfl rfl (by simp) (by simp [demo_dist]; norm_num)
example : ∃ a, gravity 1 ![demo (1 / 2) 200, demo 1 0] (fun _ _ => 0) .none 1 = .ok a :=
  C45_violated 1 _ _ _ _ rfl (by
    intro i j hij
    fin_cases i <;> fin_cases j <;> simp at hij
    simp [demo_dist]
    norm_num [demo])

/-- C54: two stars of one mass, radii 1 and 2. -/
example : rocheRadius (⟨1, 1, 0, 0⟩ : Body ℝ) ⟨1, 2, 0, 0⟩ ≠ rocheRadius ⟨1, 2, 0, 0⟩ ⟨1, 1, 0, 0⟩ :=
  C54_violated _ _ rfl (by norm_num) (by norm_num)
example : rocheRadius (⟨1, 1, 0, 0⟩ : Body ℝ) ⟨3, 2, 0, 0⟩ = rocheRadius ⟨3, 2, 0, 0⟩ ⟨1, 1, 0, 0⟩ :=
  C54_partial_symmetric _ _ (by norm_num)

end Posidonius.Gravity
