import Verif.Lemmas.Schedule
import Verif.Props.Output

/-!
# A concrete instance for the examples

One particle whose state is a counter; time step 1 day, a record every 2 days, limit 5 days.
-/

namespace Posidonius.Driver
open Posidonius.Output

/-- The counter advanced by WHFast's clock. -/
noncomputable def toy : Physics ℝ ℕ where
  scheme := .whfast fun _ _ _ u => some (u + 1)
  observe := fun _ u => some u
  view := fun u => [exampleParticle 0 (BitVec.ofNat 64 u)]
  bits := fun t => BitVec.ofInt 64 ⌊t⌋
  init := some
  nParticles := 1
  view_length := fun _ => rfl
  hashOf := fun s => s.nHistoric + 17

/-- The same with an adaptive step: 1/2 day, proposing 1/2 day again. -/
noncomputable def toyAdaptive : Physics ℝ ℕ :=
  { toy with scheme := .ias15 fun _ _ u => some (u + 1, 1/2, 1/2) }

/-- Initial state. -/
noncomputable def toyStart : State ℝ ℕ := State.fresh 1 3 2 5 0

theorem toy_fixed : toy.FixedStep := trivial
theorem toy_total : toy.Total := ⟨by simp [toy], by simp [toy]⟩
theorem toyAdaptive_total : toyAdaptive.Total := ⟨by simp [toyAdaptive, toy], by simp [toyAdaptive]⟩

theorem toy_floor : max 1 ⌊(5 : ℝ) / 1⌋₊ = 5 := by
  have : ⌊(5 : ℝ) / 1⌋₊ = 5 := by norm_num
  rw [this]; rfl

/-- The toy run completes after 5 iterations. -/
theorem toy_completes : ∃ s h, uninterrupted toy toyStart 5 = some (s, h, true) := by
  have := fixed_completes toy_fixed toy_total (dt := 1) one_pos 3 2 5 0
  rw [toy_floor] at this
  exact this

theorem toy_running (k : Nat) (hk : k ≤ 4) :
    ∃ s h, uninterrupted toy toyStart k = some (s, h, false) := by
  apply fixed_running toy_fixed toy_total one_pos 3 2 5 0 k
  right
  have : ((k : Nat) : ℝ) ≤ (4 : Nat) := by exact_mod_cast hk
  push_cast at this
  linarith

end Posidonius.Driver
