import Verif.Lemmas.UnitsEffects
import Verif.Lemmas.ObserverNewhall

/-! The corrections of Newhall in other units. -/

namespace Posidonius.Univ
open Gravity (Ignore)

variable {n : Nat} (o : Units) (p : Fin n → Particle ℝ)

theorem newhallDr_units (i j : Fin n) : newhallDr (fun i => o.sees (p i)) i j = o.length • newhallDr p i j := by
  unfold newhallDr
  show (if j ≠ i ∧ grPair (p i) (p j) then o.length • _ - o.length • _ else _) = _
  split
  · rw [smul_sub]
  · rw [Axes.zero_def, smul_zero]

theorem newhallR_units (i j : Fin n) : newhallR (fun i => o.sees (p i)) i j = o.length * newhallR p i j := by
  unfold newhallR
  rw [newhallDr_units, Axes.norm2_smul]
  show (if j ≠ i ∧ grPair (p i) (p j) then _ else _) = _
  split
  · simp only [sqrt_real]
    rw [Real.sqrt_mul (sq_nonneg _), Real.sqrt_sq o.length_pos.le]
  · simp

theorem newhallA1_units (k : Consts ℝ) (h i : Fin n) :
    newhallA1 (o.consts k) h (fun i => o.sees (p i)) i = newhallA1 k h p i := by
  have hL := o.length_pos
  have hT := o.time_pos
  have hM := o.mass_pos
  unfold newhallA1
  congr 1
  funext a l
  split
  · rfl
  · rw [newhallR_units]
    simp only [Units.consts, Units.sees, Units.velocity]
    congr 1
    field_simp

theorem newhallA2_units (k : Consts ℝ) (h i : Fin n) :
    newhallA2 (o.consts k) h (fun i => o.sees (p i)) i = newhallA2 k h p i := by
  have hL := o.length_pos
  have hT := o.time_pos
  have hM := o.mass_pos
  unfold newhallA2
  congr 1
  funext a l
  split
  · rfl
  · rw [newhallR_units]
    simp only [Units.consts, Units.sees, Units.velocity]
    congr 1
    field_simp

theorem newhallConstPair_units (k : Consts ℝ) (h i j : Fin n) (acc : Axes ℝ) :
    newhallConstPair (o.consts k) h (fun i => o.sees (p i)) i j (o.acceleration • acc)
      = o.acceleration • newhallConstPair k h p i j acc := by
  have hL := o.length_pos
  have hT := o.time_pos
  have hM := o.mass_pos
  unfold newhallConstPair
  dsimp only
  rw [newhallDr_units, newhallR_units, newhallA1_units, newhallA2_units]
  generalize newhallDr p i j = d
  generalize newhallR p i j = r
  generalize newhallA1 k h p i = a1
  generalize newhallA2 k h p j = a2
  simp only [Units.sees, Units.consts]
  generalize (p i).inertialVelocity = v
  generalize (p j).inertialVelocity = w
  have e3 : -(o.velocity • v).norm2 / (o.velocity ^ 2 * k.c2) = -v.norm2 / k.c2 := by
    rw [Axes.norm2_smul]
    simp only [Units.velocity]
    field_simp
  have e4 : lit (-2) * (o.velocity • w).norm2 / (o.velocity ^ 2 * k.c2) = lit (-2) * w.norm2 / k.c2 := by
    rw [Axes.norm2_smul]
    simp only [Units.velocity]
    field_simp
  have e5 : lit 4 / (o.velocity ^ 2 * k.c2) * (o.velocity • v).dot (o.velocity • w) = lit 4 / k.c2 * v.dot w := by
    rw [Axes.dot_smul, Axes.smul_dot]
    simp only [Units.velocity]
    field_simp
  have e6 : lit 3 / (lit 2 * (o.velocity ^ 2 * k.c2)) * ipow ((o.length • d).dot (o.velocity • w)) 2 / ipow (o.length * r) 2
      = lit 3 / (lit 2 * k.c2) * ipow (d.dot w) 2 / ipow r 2 := by
    rw [Axes.dot_smul, Axes.smul_dot]
    simp only [Units.velocity, ipow_real]
    field_simp
  rw [e3, e4, e5, e6]
  generalize a1 + a2 + -v.norm2 / k.c2 + lit (-2) * w.norm2 / k.c2 + lit 4 / k.c2 * v.dot w
    + lit 3 / (lit 2 * k.c2) * ipow (d.dot w) 2 / ipow r 2 = f
  have e7 : (lit 4 : ℝ) • o.velocity • v - (lit 3 : ℝ) • o.velocity • w
      = o.velocity • ((lit 4 : ℝ) • v - (lit 3 : ℝ) • w) := by
    rw [smul_sub, smul_comm, smul_comm (lit 3 : ℝ)]
  rw [e7, ← smul_sub, Axes.dot_smul, Axes.smul_dot]
  generalize d.dot ((lit 4 : ℝ) • v - (lit 3 : ℝ) • w) = q
  generalize v - w = x
  simp only [ipow_real]
  ext <;> parts <;> simp only [Units.velocity, Units.acceleration] <;> field_simp

theorem newhallConst_units (k : Consts ℝ) (h i : Fin n) :
    newhallConst (o.consts k) h (fun i => o.sees (p i)) i = o.acceleration • newhallConst k h p i := by
  unfold newhallConst
  suffices H : ∀ (l : List (Fin n)) (a : Axes ℝ),
      l.foldl (fun acc j => if j ≠ i ∧ grPair (o.sees (p i)) (o.sees (p j)) then
        newhallConstPair (o.consts k) h (fun i => o.sees (p i)) i j acc else acc) (o.acceleration • a)
      = o.acceleration • l.foldl (fun acc j => if j ≠ i ∧ grPair (p i) (p j) then newhallConstPair k h p i j acc else acc) a by
    have := H (hostFirst h) Axes.zero
    rwa [Axes.zero_def, smul_zero, ← Axes.zero_def] at this
  intro l
  induction l with
  | nil => intro a; rfl
  | cons j l ih =>
    intro a
    rw [List.foldl_cons, List.foldl_cons, ← ih]
    congr 1
    show (if j ≠ i ∧ grPair (p i) (p j) then _ else _) = _
    split
    · exact newhallConstPair_units o p k h i j a
    · rfl

/-- A sweep in other units. -/
theorem newhallSweep_units (k : Consts ℝ) (h : Fin n) (newton old : Fin n → Axes ℝ) (i : Fin n) :
    newhallSweep (o.consts k) h (fun i => o.sees (p i)) (fun j => o.acceleration • newton j)
      (fun j => o.acceleration • old j) i = o.acceleration • newhallSweep k h p newton old i := by
  have hL := o.length_pos
  have hT := o.time_pos
  have hM := o.mass_pos
  unfold newhallSweep
  dsimp only
  rw [newhallConst_units, smul_add]
  congr 1
  suffices H : ∀ (l : List (Fin n)) (a : Axes ℝ),
      l.foldl (fun acc j => if j ≠ i ∧ grPair (o.sees (p i)) (o.sees (p j)) then
        acc + ((smulRight ((((o.consts k).g * (o.sees (p j)).mass) • newhallDr (fun i => o.sees (p i)) i j).sdiv
            (ipow (newhallR (fun i => o.sees (p i)) i j) 2 * newhallR (fun i => o.sees (p i)) i j))
            ((newhallDr (fun i => o.sees (p i)) i j).dot (o.acceleration • newton j + o.acceleration • old j))).sdiv
              (lit 2 * (o.consts k).c2)
          + ((lit 7 / (lit 2 * (o.consts k).c2) * (o.consts k).g * (o.sees (p j)).mass)
            • (o.acceleration • newton j + o.acceleration • old j)).sdiv
            (newhallR (fun i => o.sees (p i)) i j)) else acc) (o.acceleration • a)
      = o.acceleration • (l.foldl (fun acc j => if j ≠ i ∧ grPair (p i) (p j) then
        acc + ((smulRight (((k.g * (p j).mass) • newhallDr p i j).sdiv (ipow (newhallR p i j) 2 * newhallR p i j))
            ((newhallDr p i j).dot (newton j + old j))).sdiv (lit 2 * k.c2)
          + ((lit 7 / (lit 2 * k.c2) * k.g * (p j).mass) • (newton j + old j)).sdiv (newhallR p i j)) else acc) a) by
    have := H (hostFirst h) Axes.zero
    rwa [Axes.zero_def, smul_zero, ← Axes.zero_def] at this
  intro l
  induction l with
  | nil => intro a; rfl
  | cons j l ih =>
    intro a
    rw [List.foldl_cons, List.foldl_cons, ← ih]
    congr 1
    show (if j ≠ i ∧ grPair (p i) (p j) then _ else _) = _
    split
    · rw [newhallDr_units, newhallR_units, ← smul_add]
      generalize newhallDr p i j = d
      generalize newhallR p i j = r
      generalize newton j + old j = b
      rw [Axes.dot_smul, Axes.smul_dot]
      generalize d.dot b = q
      simp only [Units.sees, Units.consts, ipow_real]
      ext <;> parts <;> simp only [Units.velocity, Units.acceleration] <;> field_simp
    · rfl

/-- The corrections of Newhall in other units. -/
theorem newhall_units (k : Consts ℝ) (ignore : Ignore) (h : Fin n)
    (ht : ∀ i, NoTiny (newhallSweep k h p (newtonianAccelerations k ignore h p) (fun _ => Axes.zero) i)
      ∧ NoTiny (o.acceleration • newhallSweep k h p (newtonianAccelerations k ignore h p) (fun _ => Axes.zero) i)) :
    newhall (o.consts k) ignore h (fun i => o.sees (p i)) = fun i => o.sees (newhall k ignore h p i) := by
  have e : newhallSweep (o.consts k) h (fun i => o.sees (p i))
      (newtonianAccelerations (o.consts k) ignore h fun i => o.sees (p i)) (fun _ => Axes.zero)
      = fun i => o.acceleration • newhallSweep k h p (newtonianAccelerations k ignore h p) (fun _ => Axes.zero) i := by
    funext i
    have := newhallSweep_units o p k h (newtonianAccelerations k ignore h p) (fun _ => Axes.zero) i
    rw [Axes.zero_def, smul_zero, ← Axes.zero_def] at this
    rw [newtonianAccelerations_units, this]
  unfold newhall
  dsimp only
  rw [newhallLoop_one (by intro i; rw [e]; exact (ht i).2), newhallLoop_one fun i => (ht i).1, e]
  funext i
  unfold mapHost
  dsimp only
  split
  · rename_i hi
    subst hi
    rfl
  · show (if (p i).gr.effect.isOrbiting then _ else _) = _
    split <;> rfl

end Posidonius.Univ
