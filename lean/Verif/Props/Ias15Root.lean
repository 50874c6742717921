import Verif.Props.Ias15Control
import Mathlib.Tactic.NormNum
import Mathlib.Algebra.Order.Ring.Pow

/-! # C79: the seventh root and the error estimate of IAS15 -/

namespace Posidonius.Ias15
open Posidonius

/-- One step of Newton's method for the ratio to the root. -/
noncomputable def rootStep (u : ℝ) : ℝ := (6 * u + (u⁻¹) ^ 6) / 7

theorem rootStep_ge (u : ℝ) (hu : 0 < u) : 1 ≤ rootStep u := by
  have h : 1 + (7 : ℕ) * (u⁻¹ - 1) ≤ (1 + (u⁻¹ - 1)) ^ 7 :=
    one_add_mul_le_pow (by have := inv_pos.2 hu; linarith) 7
  have e : (1 + (u⁻¹ - 1)) ^ 7 = u⁻¹ * (u⁻¹) ^ 6 := by ring
  rw [e] at h
  have hm : u * (1 + (7 : ℕ) * (u⁻¹ - 1)) ≤ u * (u⁻¹ * (u⁻¹) ^ 6) := mul_le_mul_of_nonneg_left h hu.le
  rw [← mul_assoc, mul_inv_cancel₀ hu.ne', one_mul, mul_add, mul_one, Nat.cast_ofNat, mul_left_comm, mul_sub,
    mul_inv_cancel₀ hu.ne', mul_one] at hm
  unfold rootStep
  linarith

theorem rootStep_mono (u v : ℝ) (hu : 1 ≤ u) (huv : u ≤ v) : rootStep u ≤ rootStep v := by
  have hu0 : 0 < u := by linarith
  have hv0 : 0 < v := by linarith
  have hq : 0 < v⁻¹ := inv_pos.2 hv0
  have hp1 : u⁻¹ ≤ 1 := inv_le_one_of_one_le₀ hu
  have hqp : v⁻¹ ≤ u⁻¹ := by gcongr
  have e : u⁻¹ - v⁻¹ = (v - u) * (u⁻¹ * v⁻¹) := by field_simp
  have hle : u⁻¹ - v⁻¹ ≤ v - u := by
    rw [e]
    have : u⁻¹ * v⁻¹ ≤ 1 := mul_le_one₀ hp1 hq.le (hqp.trans hp1)
    nlinarith
  unfold rootStep
  generalize u⁻¹ = p at *
  generalize v⁻¹ = q at *
  have hp0 : 0 < p := by linarith
  have f : p ^ 6 - q ^ 6 = (p - q) * (p ^ 5 + p ^ 4 * q + p ^ 3 * q ^ 2 + p ^ 2 * q ^ 3 + p * q ^ 4 + q ^ 5) := by ring
  have hq1 : q ≤ 1 := hqp.trans hp1
  have m : ∀ i j : ℕ, p ^ i * q ^ j ≤ 1 := fun i j =>
    mul_le_one₀ (pow_le_one₀ hp0.le hp1) (pow_nonneg hq.le _) (pow_le_one₀ hq.le hq1)
  have hs : p ^ 5 + p ^ 4 * q + p ^ 3 * q ^ 2 + p ^ 2 * q ^ 3 + p * q ^ 4 + q ^ 5 ≤ 6 := by
    have h0 := m 5 0
    have h1 := m 4 1
    have h2 := m 3 2
    have h3 := m 2 3
    have h4 := m 1 4
    have h5 := m 0 5
    simp only [pow_zero, pow_one, mul_one, one_mul] at h0 h1 h2 h3 h4 h5
    linarith
  have : p ^ 6 - q ^ 6 ≤ (p - q) * 6 := by
    rw [f]
    exact mul_le_mul_of_nonneg_left hs (by linarith)
  linarith

/-- Newton's method in terms of the ratio. -/
theorem iterate_ratio (r : ℝ) (hr : 0 < r) (n : ℕ) (x : ℝ) (hx : 0 < x) :
    (fun x => x + (r ^ 7 / (x * x * x * x * x * x) - x) / 7)^[n] x = r * rootStep^[n] (x / r) := by
  induction n generalizing x with
  | zero => simp only [Function.iterate_zero, id]; field_simp
  | succ n ih =>
    rw [Function.iterate_succ_apply, Function.iterate_succ_apply]
    have hn := (sqrt7_step (r ^ 7) x (by positivity) hx).2
    rw [ih _ hn]
    congr 2
    unfold rootStep
    field_simp
    ring

theorem sqrt7_ratio (r : ℝ) (hr : 0 < r) : sqrt7 (r ^ 7) = r * rootStep^[20] (1 / r) := by
  have h : sqrt7 (r ^ 7) = (fun x => x + (r ^ 7 / (x * x * x * x * x * x) - x) / 7)^[20] 1 := by
    simp only [sqrt7, lit_real, Rat.cast_one, Rat.cast_ofNat]
  rw [h, iterate_ratio r hr 20 1 one_pos]

theorem rootStep_pos (u : ℝ) (hu : 0 < u) : 0 < rootStep u := lt_of_lt_of_le one_pos (rootStep_ge u hu)

theorem iterate_pos (n : ℕ) (u : ℝ) (hu : 0 < u) : 0 < rootStep^[n] u := by
  induction n generalizing u with
  | zero => exact hu
  | succ n ih => rw [Function.iterate_succ_apply]; exact ih _ (rootStep_pos u hu)

/-- **C79, never below**: the approximate seventh root is never smaller than the root. -/
theorem C79_above (r : ℝ) (hr : 0 < r) : r ≤ sqrt7 (r ^ 7) := by
  rw [sqrt7_ratio r hr, Function.iterate_succ_apply']
  have := rootStep_ge _ (iterate_pos 19 (1 / r) (by positivity))
  nlinarith

/-- **C79, accuracy where it decides (partial)**: for factors between a tenth (steps are rejected below a quarter) and
two the approximate root exceeds the root by less than two parts in 10¹².  What is missing are the factors from two to
four, where the step grows too much. -/
theorem C79_accuracy_partial (r : ℝ) (h1 : 1 / 10 ≤ r) (h2 : r ≤ 2) : sqrt7 (r ^ 7) ≤ r * (1 + 2e-12) := by
  have hr : 0 < r := by linarith
  rw [sqrt7_ratio r hr]
  apply mul_le_mul_of_nonneg_left _ hr.le
  have step : ∀ {n : ℕ} {b v : ℝ}, rootStep^[n + 1] (1 / r) ≤ b → rootStep b ≤ v → rootStep^[n + 2] (1 / r) ≤ v := by
    intro n b v hb hv
    rw [Function.iterate_succ_apply']
    refine (rootStep_mono _ _ ?_ hb).trans hv
    rw [Function.iterate_succ_apply']
    exact rootStep_ge _ (iterate_pos n (1 / r) (by positivity))
  have b1 : rootStep^[0 + 1] (1 / r) ≤ 10 := by
    simp only [zero_add, Function.iterate_one, rootStep, one_div, inv_inv]
    have hi : r⁻¹ ≤ 10 := by
      rw [inv_le_comm₀ hr (by norm_num)]
      linarith
    rcases le_total r 1 with h | h
    · have : r ^ 6 ≤ 1 := pow_le_one₀ hr.le h
      linarith
    · have : r ^ 6 ≤ 2 ^ 6 := by gcongr
      have : r⁻¹ ≤ 1 := inv_le_one_of_one_le₀ h
      linarith
  have b2 := step b1 (v := 8.5714287142857144) (by norm_num [rootStep])
  have b3 := step b2 (v := 7.3469392581914867) (by norm_num [rootStep])
  have b4 := step b3 (v := 6.2973774153922819) (by norm_num [rootStep])
  have b5 := step b4 (v := 5.3977543609065471) (by norm_num [rootStep])
  have b6 := step b5 (v := 4.6266523710105366) (by norm_num [rootStep])
  have b7 := step b6 (v := 3.9657165969678977) (by norm_num [rootStep])
  have b8 := step b7 (v := 3.3992223803985314) (by norm_num [rootStep])
  have b9 := step b8 (v := 2.9137117860790499) (by norm_num [rootStep])
  have b10 := step b9 (v := 2.4977007105511145) (by norm_num [rootStep])
  have b11 := step b10 (v := 2.1414747055970670) (by norm_num [rootStep])
  have b12 := step b11 (v := 1.8370309836794217) (by norm_num [rootStep])
  have b13 := step b12 (v := 1.5783150759758069) (by norm_num [rootStep])
  have b14 := step b13 (v := 1.3620829354474919) (by norm_num [rootStep])
  have b15 := step b14 (v := 1.1898704142860933) (by norm_num [rootStep])
  have b16 := step b15 (v := 1.0702278546227152) (by norm_num [rootStep])
  have b17 := step b16 (v := 1.0124083724708792) (by norm_num [rootStep])
  have b18 := step b17 (v := 1.0004470355681707) (by norm_num [rootStep])
  have b19 := step b18 (v := 1.0000005988084284) (by norm_num [rootStep])
  have b20 := step b19 (v := 1.0000000000010759) (by norm_num [rootStep])
  refine b20.trans ?_
  norm_num

/-- An error estimate that asks for an eighth of the step leads to rejection. -/
example [FNormal ℝ] (dt : ℝ) (hdt : dt ≠ 0) (h : isNormal ((lit 1e-6 : ℝ) / (1 / 8) ^ 7) = true) :
    rejected (wanted (lit 1e-6 / (1 / 8) ^ 7) dt) dt = true := by
  have h1 := C79_accuracy_partial (1 / 8) (by norm_num) (by norm_num)
  have h2 := C79_above (1 / 8) (by norm_num)
  have e : (lit 1e-6 : ℝ) / (lit 1e-6 / (1 / 8) ^ 7) = (1 / 8) ^ 7 := by
    simp only [lit_real]
    field_simp
  rw [rejected, wanted, if_pos h, e, mul_div_cancel_right₀ _ hdt, abs_real, ltb_real, lit_real, abs_of_pos (by linarith)]
  norm_num at h1 ⊢
  linarith

/-- **C79 violated**: it is not the seventh root: for the factor 3 the result exceeds 16, and the step grows by the
factor 4. -/
theorem C79_violated_large : 16 < sqrt7 ((3 : ℝ) ^ 7) := by
  have step : ∀ (n : ℕ) (b : ℝ), b ≤ rootStep^[n] (1 / 3) → 6 / 7 * b ≤ rootStep^[n + 1] (1 / 3) := by
    intro n b hb
    rw [Function.iterate_succ_apply']
    have hp := iterate_pos n (1 / 3) (by norm_num)
    generalize rootStep^[n] (1 / 3) = u at *
    have : 0 < (u⁻¹) ^ 6 := by positivity
    unfold rootStep
    linarith
  have key : ∀ n : ℕ, (6 / 7) ^ n * 104 ≤ rootStep^[n + 1] (1 / 3) := by
    intro n
    induction n with
    | zero => norm_num [rootStep]
    | succ n ih =>
      have := step (n + 1) _ ih
      rw [pow_succ]
      linarith
  rw [sqrt7_ratio 3 (by norm_num)]
  have := key 19
  norm_num at this ⊢
  linarith

/-! ### The error estimate -/

/-- The components of the particles that are not skipped. -/
noncomputable def moving (spin : Bool) (dt : ℝ) (l : List (Particle ℝ)) : List (Comp ℝ) :=
  (l.filter fun p => !slow spin dt p).flatMap Axes.toList

/-- The largest of the normal numbers, 0 if there is none. -/
def Largest [FNormal ℝ] (vs : List ℝ) (m : ℝ) : Prop :=
  (∀ v ∈ vs, isNormal v = true → v ≤ m) ∧ (m = 0 ∨ (m ∈ vs ∧ isNormal m = true))

/-- Running maximum. -/
noncomputable def keep [FNormal ℝ] (m v : ℝ) : ℝ := if isNormal v && ltb m v then v else m

theorem foldl_keep [FNormal ℝ] (vs : List ℝ) (m : ℝ) :
    m ≤ vs.foldl keep m ∧ (∀ v ∈ vs, isNormal v = true → v ≤ vs.foldl keep m)
      ∧ (vs.foldl keep m = m ∨ (vs.foldl keep m ∈ vs ∧ isNormal (vs.foldl keep m) = true)) := by
  induction vs generalizing m with
  | nil => exact ⟨le_rfl, by simp, Or.inl rfl⟩
  | cons v vs ih =>
    obtain ⟨h1, h2, h3⟩ := ih (keep m v)
    rw [List.foldl_cons]
    have hm : m ≤ keep m v ∧ (isNormal v = true → v ≤ keep m v) ∧ (keep m v = m ∨ (keep m v = v ∧ isNormal v = true)) := by
      unfold keep
      split
      · next h =>
        simp only [Bool.and_eq_true, ltb_real] at h
        exact ⟨h.2.le, fun _ => le_rfl, Or.inr ⟨rfl, h.1⟩⟩
      · next h =>
        simp only [Bool.and_eq_true, ltb_real, not_and, not_lt] at h
        exact ⟨le_rfl, h, Or.inl rfl⟩
    refine ⟨hm.1.trans h1, ?_, ?_⟩
    · intro w hw hn
      rcases List.mem_cons.1 hw with rfl | hw
      · exact (hm.2.1 hn).trans h1
      · exact h2 w hw hn
    · rcases h3 with h3 | h3
      · rcases hm.2.2 with h4 | h4
        · exact Or.inl (h3.trans h4)
        · refine Or.inr ⟨?_, ?_⟩
          · rw [h3, h4.1]; simp
          · rw [h3, h4.1]; exact h4.2
      · exact Or.inr ⟨List.mem_cons_of_mem _ h3.1, h3.2⟩

theorem see_ak [FNormal ℝ] (spin : Bool) (m : Maxima ℝ) (c : Comp ℝ) : (m.see spin c).ak = keep m.ak |c.acc.now| := by
  unfold Maxima.see keep
  simp only [abs_real]
  split_ifs <;> rfl

theorem see_b6 [FNormal ℝ] (spin : Bool) (m : Maxima ℝ) (c : Comp ℝ) : (m.see spin c).b6 = keep m.b6 |c.acc.b.c6| := by
  unfold Maxima.see keep
  simp only [abs_real]
  split_ifs <;> simp_all

theorem see_b6s [FNormal ℝ] (m : Maxima ℝ) (c : Comp ℝ) : (m.see true c).b6s = keep m.b6s |c.tor.b.c6| := by
  unfold Maxima.see keep
  simp only [abs_real, if_true]
  split_ifs <;> simp_all

theorem see_false [FNormal ℝ] (m : Maxima ℝ) (c : Comp ℝ) : (m.see false c).b6s = m.b6s ∧ (m.see false c).dl = m.dl := by
  unfold Maxima.see
  simp only [Bool.false_eq_true, if_false]
  split_ifs <;> exact ⟨rfl, rfl⟩

theorem see_dl [FNormal ℝ] (m : Maxima ℝ) (c : Comp ℝ) :
    (m.see true c).dl = m.dl ∨ ((m.see true c).dl = |c.tor.now| ∧ isNormal |c.tor.now| = true) := by
  unfold Maxima.see
  simp only [abs_real, if_true]
  split_ifs <;> simp_all

theorem fold_field {A : Type} (f : Maxima ℝ → Comp ℝ → Maxima ℝ) (π : Maxima ℝ → A) (g : A → ℝ → A) (val : Comp ℝ → ℝ)
    (h : ∀ m c, π (f m c) = g (π m) (val c)) (cs : List (Comp ℝ)) (m : Maxima ℝ) :
    π (cs.foldl f m) = (cs.map val).foldl g (π m) := by
  induction cs generalizing m with
  | nil => rfl
  | cons c cs ih => rw [List.foldl_cons, ih, h, List.map_cons, List.foldl_cons]

theorem estimate_fold [FNormal ℝ] (spin : Bool) (dt : ℝ) (l : List (Particle ℝ)) (m : Maxima ℝ) :
    l.foldl (fun m p => if slow spin dt p then m else (Axes.toList p).foldl (Maxima.see spin) m) m
      = (moving spin dt l).foldl (Maxima.see spin) m := by
  unfold moving
  induction l generalizing m with
  | nil => rfl
  | cons p l ih =>
    rw [List.foldl_cons, ih, List.filter_cons]
    cases h : slow spin dt p with
    | true => simp
    | false => simp [List.foldl_append]

theorem fmax_real (a b : ℝ) : fmax a b = max a b := by
  unfold fmax
  split
  · next h => rw [ltb_real] at h; exact (max_eq_left h.le).symm
  · next h => rw [ltb_real, not_lt] at h; exact (max_eq_right h).symm

/-- **C79, the estimate (partial)**: the error is the largest sixth coefficient (of accelerations and, if the spin is
integrated, torques) of the particles that are not skipped, divided by the largest acceleration or one of the torques
`D`.  What is missing is that `D` is the largest torque. -/
theorem C79_estimate_partial [FNormal ℝ] (spin : Bool) (dt : ℝ) (l : List (Particle ℝ)) :
    ∃ A B B' D : ℝ, integratorError spin dt l = max B B' / max A D
      ∧ Largest ((moving spin dt l).map fun c => |c.acc.now|) A
      ∧ Largest ((moving spin dt l).map fun c => |c.acc.b.c6|) B
      ∧ (if spin then Largest ((moving spin dt l).map fun c => |c.tor.b.c6|) B'
          ∧ (D = 0 ∨ ∃ c ∈ moving spin dt l, D = |c.tor.now| ∧ isNormal D = true)
        else B' = 0 ∧ D = 0) := by
  unfold integratorError
  simp only [estimate_fold, fmax_real]
  refine ⟨_, _, _, _, rfl, ?_, ?_, ?_⟩
  · rw [fold_field _ Maxima.ak keep (fun c => |c.acc.now|) (see_ak spin)]
    obtain ⟨-, h2, h3⟩ := foldl_keep ((moving spin dt l).map fun c => |c.acc.now|) (lit 0)
    exact ⟨h2, h3.imp (fun h => h.trans (by simp)) id⟩
  · rw [fold_field _ Maxima.b6 keep (fun c => |c.acc.b.c6|) (see_b6 spin)]
    obtain ⟨-, h2, h3⟩ := foldl_keep ((moving spin dt l).map fun c => |c.acc.b.c6|) (lit 0)
    exact ⟨h2, h3.imp (fun h => h.trans (by simp)) id⟩
  · generalize moving spin dt l = cs
    cases spin with
    | true =>
      rw [if_pos rfl]
      constructor
      · rw [fold_field _ Maxima.b6s keep (fun c => |c.tor.b.c6|) see_b6s]
        obtain ⟨-, h2, h3⟩ := foldl_keep (cs.map fun c => |c.tor.b.c6|) (lit 0)
        exact ⟨h2, h3.imp (fun h => h.trans (by simp)) id⟩
      · have key : ∀ (cs : List (Comp ℝ)) (m : Maxima ℝ), (cs.foldl (Maxima.see true) m).dl = m.dl
            ∨ ∃ c ∈ cs, (cs.foldl (Maxima.see true) m).dl = |c.tor.now| ∧ isNormal |c.tor.now| = true := by
          intro cs
          induction cs with
          | nil => intro m; exact Or.inl rfl
          | cons c cs ih =>
            intro m
            rw [List.foldl_cons]
            rcases ih (m.see true c) with h | ⟨d, hd, h⟩
            · rcases see_dl m c with h' | h'
              · exact Or.inl (h.trans h')
              · exact Or.inr ⟨c, by simp, h.trans h'.1, h'.2⟩
            · exact Or.inr ⟨d, by simp [hd], h⟩
        rcases key cs ⟨lit 0, lit 0, lit 0, lit 0⟩ with h | ⟨c, hc, h, hn⟩
        · exact Or.inl (h.trans (by simp))
        · exact Or.inr ⟨c, hc, h, by rw [h]; exact hn⟩
    | false =>
      rw [if_neg (by simp)]
      have key : ∀ (cs : List (Comp ℝ)) (m : Maxima ℝ), (cs.foldl (Maxima.see false) m).b6s = m.b6s
          ∧ (cs.foldl (Maxima.see false) m).dl = m.dl := by
        intro cs
        induction cs with
        | nil => intro m; exact ⟨rfl, rfl⟩
        | cons c cs ih =>
          intro m
          rw [List.foldl_cons]
          exact ⟨(ih _).1.trans (see_false m c).1, (ih _).2.trans (see_false m c).2⟩
      exact ⟨(key cs _).1.trans (by simp), (key cs _).2.trans (by simp)⟩

/-- A component with these velocity, torque and sixth coefficient of the torque. -/
def Comp.turning (v dl b6 : XQ) : Comp XQ :=
  let c : Comp XQ := Comp.rest (.fin 1)
  { c with v := v, tor := { c.tor with now := dl, b := { c.tor.b with c6 := b6 } } }

/-- **C79 violated**: line 1126 compares the torque with the largest acceleration, so that the last torque above it
counts instead of the largest.  For a body without acceleration and the torques 5 and 1 the estimate of a coefficient
1 is 1 instead of 1/5, and with the torques exchanged 1/5. -/
theorem C79_violated_torque :
    integratorError true (.fin 1) [⟨.turning (.fin 1) (.fin 5) (.fin 1), .turning (.fin 1) (.fin 1) (.fin 0), .turning (.fin 1) (.fin 0) (.fin 0)⟩]
      = .fin 1
    ∧ integratorError true (.fin 1) [⟨.turning (.fin 1) (.fin 1) (.fin 0), .turning (.fin 1) (.fin 5) (.fin 1), .turning (.fin 1) (.fin 0) (.fin 0)⟩]
      = .fin (1 / 5) := by
  decide +kernel

end Posidonius.Ias15
