import Verif.Lemmas.ObserverGr
import Verif.Lemmas.Relist

/-! The corrections of Newhall in turned and shifted axes, and when a single sweep is made. -/

namespace Posidonius.Univ
open Gravity (Ignore)

variable {n : Nat} (o : Observer)

section
variable (p : Fin n → Particle ℝ)

theorem newhallDr_turned (i j : Fin n) :
    newhallDr (fun i => o.sees (p i)) i j = o.turn.on (newhallDr p i j) := by
  unfold newhallDr
  show (if j ≠ i ∧ grPair (p i) (p j) then o.turn.on _ + o.place - (o.turn.on _ + o.place) else _) = _
  split
  · rw [add_sub_add_right_eq_sub, o.turn.on_sub]
  · exact o.turn.on_zero'.symm

theorem newhallR_turned (i j : Fin n) : newhallR (fun i => o.sees (p i)) i j = newhallR p i j := by
  unfold newhallR
  rw [newhallDr_turned, o.turn.on_norm2]
  rfl

theorem newhallA1_turned (k : Consts ℝ) (h i : Fin n) :
    newhallA1 k h (fun i => o.sees (p i)) i = newhallA1 k h p i := by
  unfold newhallA1
  simp only [newhallR_turned]
  rfl

theorem newhallA2_turned (k : Consts ℝ) (h i : Fin n) :
    newhallA2 k h (fun i => o.sees (p i)) i = newhallA2 k h p i := by
  unfold newhallA2
  simp only [newhallR_turned]
  rfl

theorem velocity_turned (hs : o.speed = 0) (i : Fin n) :
    (o.sees (p i)).inertialVelocity = o.turn.on (p i).inertialVelocity := by
  show o.turn.on _ + o.speed = _
  rw [hs, add_zero]

theorem newhallConstPair_turned (hs : o.speed = 0) (k : Consts ℝ) (h i j : Fin n) (acc : Axes ℝ) :
    newhallConstPair k h (fun i => o.sees (p i)) i j (o.turn.on acc) = o.turn.on (newhallConstPair k h p i j acc) := by
  unfold newhallConstPair
  dsimp only
  have em : (o.sees (p j)).mass = (p j).mass := rfl
  simp only [newhallDr_turned, newhallR_turned, newhallA1_turned, newhallA2_turned, velocity_turned o p hs, em,
    Turn.on_dot, Turn.on_norm2, Turn.on_sub, Turn.on_smul, Turn.on_smulRight, Turn.on_sdiv, Turn.on_add]

theorem newhallConst_turned (hs : o.speed = 0) (k : Consts ℝ) (h i : Fin n) :
    newhallConst k h (fun i => o.sees (p i)) i = o.turn.on (newhallConst k h p i) := by
  unfold newhallConst
  suffices H : ∀ (l : List (Fin n)) (a : Axes ℝ),
      l.foldl (fun acc j => if j ≠ i ∧ grPair (o.sees (p i)) (o.sees (p j)) then
        newhallConstPair k h (fun i => o.sees (p i)) i j acc else acc) (o.turn.on a)
      = o.turn.on (l.foldl (fun acc j => if j ≠ i ∧ grPair (p i) (p j) then newhallConstPair k h p i j acc else acc) a) by
    have := H (hostFirst h) Axes.zero
    rwa [o.turn.on_zero'] at this
  intro l
  induction l with
  | nil => intro a; rfl
  | cons j l ih =>
    intro a
    rw [List.foldl_cons, List.foldl_cons, ← ih]
    congr 1
    show (if j ≠ i ∧ grPair (p i) (p j) then _ else _) = _
    split
    · exact newhallConstPair_turned o p hs k h i j a
    · rfl

/-- A sweep in other axes is the sweep, seen in these axes. -/
theorem newhallSweep_turned (hs : o.speed = 0) (k : Consts ℝ) (h : Fin n) (newton old : Fin n → Axes ℝ) (i : Fin n) :
    newhallSweep k h (fun i => o.sees (p i)) (fun j => o.turn.on (newton j)) (fun j => o.turn.on (old j)) i
      = o.turn.on (newhallSweep k h p newton old i) := by
  unfold newhallSweep
  dsimp only
  rw [newhallConst_turned o p hs, ← o.turn.on_add]
  congr 1
  suffices H : ∀ (l : List (Fin n)) (a : Axes ℝ),
      l.foldl (fun acc j => if j ≠ i ∧ grPair (o.sees (p i)) (o.sees (p j)) then
        acc + ((smulRight (((k.g * (o.sees (p j)).mass) • newhallDr (fun i => o.sees (p i)) i j).sdiv
            (ipow (newhallR (fun i => o.sees (p i)) i j) 2 * newhallR (fun i => o.sees (p i)) i j))
            ((newhallDr (fun i => o.sees (p i)) i j).dot (o.turn.on (newton j) + o.turn.on (old j)))).sdiv (lit 2 * k.c2)
          + ((lit 7 / (lit 2 * k.c2) * k.g * (o.sees (p j)).mass) • (o.turn.on (newton j) + o.turn.on (old j))).sdiv
            (newhallR (fun i => o.sees (p i)) i j)) else acc) (o.turn.on a)
      = o.turn.on (l.foldl (fun acc j => if j ≠ i ∧ grPair (p i) (p j) then
        acc + ((smulRight (((k.g * (p j).mass) • newhallDr p i j).sdiv (ipow (newhallR p i j) 2 * newhallR p i j))
            ((newhallDr p i j).dot (newton j + old j))).sdiv (lit 2 * k.c2)
          + ((lit 7 / (lit 2 * k.c2) * k.g * (p j).mass) • (newton j + old j)).sdiv (newhallR p i j)) else acc) a) by
    have := H (hostFirst h) Axes.zero
    rwa [o.turn.on_zero'] at this
  intro l
  induction l with
  | nil => intro a; rfl
  | cons j l ih =>
    intro a
    rw [List.foldl_cons, List.foldl_cons, ← ih]
    congr 1
    have em : (o.sees (p j)).mass = (p j).mass := rfl
    show (if j ≠ i ∧ grPair (p i) (p j) then _ else _) = _
    split
    · simp only [newhallDr_turned, newhallR_turned, em,
        Turn.on_dot, Turn.on_norm2, Turn.on_sub, Turn.on_smul, Turn.on_smulRight, Turn.on_sdiv, Turn.on_add]
    · rfl

end

/-- No component that the test of convergence divides by and that is positive. -/
def NoTiny (v : Axes ℝ) : Prop :=
  ∀ x ∈ [v.x, v.y, v.z], ¬ (0 < x ∧ x < 1 / 10 ^ 30)

theorem deviation_nonpos {new old : ℝ} (h : ¬ (0 < new ∧ new < 1 / 10 ^ 30)) : deviation new old ≤ 0 := by
  unfold deviation
  split
  · rename_i hl
    simp only [lit_real, ltb_real, abs_real, decide_eq_true_eq] at hl ⊢
    push_cast at hl
    rcases le_or_gt new 0 with h0 | h0
    · exact div_nonpos_of_nonneg_of_nonpos (abs_nonneg _) h0
    · rw [abs_of_pos h0] at hl
      exact absurd ⟨h0, by norm_num at hl ⊢; linarith⟩ h
  · exact le_rfl

/-- Without such components there is one sweep. -/
theorem newhallLoop_one {k : Consts ℝ} {h : Fin n} {p : Fin n → Particle ℝ} {newton a : Fin n → Axes ℝ} {fuel : Nat}
    (ht : ∀ i, NoTiny (newhallSweep k h p newton a i)) :
    newhallLoop k h p newton (fuel + 1) a = newhallSweep k h p newton a := by
  have hm : newhallMaxDev h p (newhallSweep k h p newton a) a = 0 := by
    rw [newhallMaxDev_eq]
    have : ∀ l : List (Fin n), l.foldl (fun m i => max m (bodyDeviation p (newhallSweep k h p newton a) a i)) 0 = 0 := by
      intro l
      induction l with
      | nil => rfl
      | cons i l ih =>
        rw [List.foldl_cons, max_eq_left, ih]
        unfold bodyDeviation
        split
        · have := ht i
          simp only [NoTiny, List.mem_cons, List.not_mem_nil, or_false, forall_eq_or_imp, forall_eq] at this
          exact max_le (max_le (deviation_nonpos this.1) (deviation_nonpos this.2.1)) (deviation_nonpos this.2.2)
        · exact le_rfl
    exact this _
  unfold newhallLoop
  dsimp only
  rw [hm, if_pos]
  simp only [lit_real, ltb_real, decide_eq_true_eq]
  norm_num

/-- The corrections of Newhall in turned and shifted axes. -/
theorem newhall_turned (hs : o.speed = 0) (k : Consts ℝ) {ignore : Ignore} (hp : ignore = .none ∨ o.place = 0)
    (h : Fin n) (p : Fin n → Particle ℝ)
    (ht : ∀ i, NoTiny (newhallSweep k h p (newtonianAccelerations k ignore h p) (fun _ => Axes.zero) i)
      ∧ NoTiny (o.turn.on (newhallSweep k h p (newtonianAccelerations k ignore h p) (fun _ => Axes.zero) i))) :
    newhall k ignore h (fun i => o.sees (p i)) = fun i => o.sees (newhall k ignore h p i) := by
  have e : newhallSweep k h (fun i => o.sees (p i)) (newtonianAccelerations k ignore h fun i => o.sees (p i))
      (fun _ => Axes.zero)
      = fun i => o.turn.on (newhallSweep k h p (newtonianAccelerations k ignore h p) (fun _ => Axes.zero) i) := by
    funext i
    have := newhallSweep_turned o p hs k h (newtonianAccelerations k ignore h p) (fun _ => Axes.zero) i
    rw [o.turn.on_zero'] at this
    rw [newtonianAccelerations_seen o k hp, this]
  unfold newhall
  dsimp only
  rw [newhallLoop_one (by intro i; rw [e]; exact (ht i).2), newhallLoop_one fun i => (ht i).1, e]
  funext i
  unfold mapHost
  dsimp only
  split
  · rename_i hi
    subst hi
    rfl
  · show (if (p i).gr.effect.isOrbiting then _ else _) = _
    split <;> rfl

end Posidonius.Univ
