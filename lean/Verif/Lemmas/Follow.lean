import Verif.Model.Ias15
import Verif.Model.Midpoint

/-! IAS15 and the midpoint iteration with a changed hidden state that the evaluation carries along. -/

namespace Posidonius.Ias15

section
variable {F : Type} [Add F] [Sub F] [Mul F] [Div F] [Neg F] [FOps F] {S : Type}

/-- The evaluation carries the change of the hidden state along. -/
def Carries (f : S → S) (eval : Evaluate S F) : Prop :=
  ∀ s t l, eval (f s) t l = (eval s t l).map fun x => (f x.1, x.2)

variable {f : S → S} {eval : Evaluate S F} {T : Tables F} {spin : Bool}

theorem substep_carries (h : Carries f eval) (t dt : F) (n : ℕ) (s : S) (l : List (Particle F)) :
    substep T spin eval t dt n (f s) l = (substep T spin eval t dt n s l).map fun x => (f x.1, x.2) := by
  unfold substep evaluateAt
  dsimp only
  rw [h]
  cases eval s (t + dt * T.h n) (places (l.map (Axes.map (Comp.predict spin dt (T.h n))))) <;> rfl

theorem substeps_carries (h : Carries f eval) (t dt : F) (ns : List ℕ) (s : S) (l : List (Particle F)) :
    substeps T spin eval t dt ns (f s) l = (substeps T spin eval t dt ns s l).map fun x => (f x.1, x.2) := by
  induction ns generalizing s l with
  | nil => rfl
  | cons n ns ih =>
    unfold substeps
    rw [substep_carries h]
    cases substep T spin eval t dt n s l with
    | none => rfl
    | some x => exact ih x.1 x.2

variable [FNormal F]

theorem sweep_carries (h : Carries f eval) (t dt : F) (s : S) (l : List (Particle F)) :
    sweep T spin eval t dt (f s) l = (sweep T spin eval t dt s l).map fun x => (f x.1, x.2) := by
  unfold sweep
  rw [substeps_carries h]
  cases substeps T spin eval t dt [1, 2, 3, 4, 5, 6] s l with
  | none => rfl
  | some x =>
    obtain ⟨s1, l1⟩ := x
    dsimp only [Option.map_some]
    rw [substep_carries h]
    cases substep T spin eval t dt 7 s1 l1 <;> rfl

theorem sweeps_carries (h : Carries f eval) (t dt : F) (left done : ℕ) (err last : F) (s : S) (l : List (Particle F)) :
    sweeps T spin eval t dt left done err last (f s) l
      = (sweeps T spin eval t dt left done err last s l).map fun x => (f x.1, x.2) := by
  induction left generalizing done err last s l with
  | zero => rfl
  | succ left ih =>
    unfold sweeps
    split
    · rfl
    · rw [sweep_carries h]
      cases sweep T spin eval t dt s l with
      | none => rfl
      | some x => exact ih _ _ _ x.1 x.2.1

theorem attempt_carries (h : Carries f eval) (u : State S F) :
    attempt T spin eval { u with hidden := f u.hidden }
      = (attempt T spin eval u).map fun x => (x.1, { x.2 with hidden := f x.2.hidden }) := by
  unfold attempt
  dsimp only
  rw [sweeps_carries h]
  cases sweeps T spin eval u.time u.dt 12 0 (lit 1e300) (lit 2) u.hidden
      (u.particles.map (Axes.map (Comp.start T spin))) with
  | none => rfl
  | some x =>
    dsimp only [Option.map_some]
    split <;> rfl

theorem integrate_carries (h : Carries f eval) (fuel : ℕ) (u : State S F) :
    integrate T spin eval fuel { u with hidden := f u.hidden }
      = (integrate T spin eval fuel u).map fun x => { x with hidden := f x.hidden } := by
  induction fuel generalizing u with
  | zero => rfl
  | succ fuel ih =>
    unfold integrate
    rw [attempt_carries h]
    cases attempt T spin eval u with
    | none => rfl
    | some x =>
      obtain ⟨ok, v⟩ := x
      cases ok
      · exact ih v
      · rfl

theorem iterate_carries (h : Carries f eval) (fuel : ℕ) (u : State S F) :
    iterate T spin eval fuel { u with hidden := f u.hidden }
      = (iterate T spin eval fuel u).map fun x => { x with hidden := f x.hidden } := by
  unfold iterate
  dsimp only
  rw [h]
  cases eval u.hidden u.time (places u.particles) with
  | none => rfl
  | some x => exact integrate_carries h fuel { u with particles := _, hidden := x.1 }

/-- An iteration depends on the hidden state by the first evaluation only. -/
theorem iterate_congr {fuel : ℕ} {u : State S F} {s : S}
    (h : eval s u.time (places u.particles) = eval u.hidden u.time (places u.particles)) :
    iterate T spin eval fuel { u with hidden := s } = iterate T spin eval fuel u := by
  unfold iterate
  dsimp only
  rw [h]

end
end Posidonius.Ias15

namespace Posidonius.WHFast

section
variable {F : Type} [Add F] [Sub F] [Mul F] [Div F] [FOps F] {S : Type}

/-- The evaluation carries the change of the hidden state along. -/
def Carries (f : S → S) (eval : Evaluate S F) : Prop :=
  ∀ s b l, eval (f s) b l = (eval s b l).map fun x => (f x.1, x.2)

variable {f : S → S} {eval : Evaluate S F} {spin evolution : Bool}

theorem midpointLoop_carries (h : Carries f eval) (dt : F) (orig errors : List (Motion F)) (left i : ℕ) (s : S)
    (avg prev change : List (Motion F)) :
    midpointLoop eval dt spin evolution orig errors left i (f s) avg prev change
      = (midpointLoop eval dt spin evolution orig errors left i s avg prev change).map fun x => (f x.1, x.2) := by
  induction left generalizing i s avg prev change with
  | zero => rfl
  | succ left ih =>
    unfold midpointLoop
    rw [h]
    cases eval s (evolution && i == 0) avg with
    | none => rfl
    | some x =>
      dsimp only [Option.map_some]
      split
      · rfl
      · exact ih ..

theorem midpoint_carries (h : Carries f eval) (dt : F) (s : S) (orig errors : List (Motion F)) :
    midpoint eval dt spin evolution (f s) orig errors
      = (midpoint eval dt spin evolution s orig errors).map fun x => (f x.1, x.2) := by
  unfold midpoint
  rw [midpointLoop_carries h]
  cases midpointLoop eval dt spin evolution orig errors 10 0 s orig orig [] <;> rfl

/-- The result depends on the hidden state by the first evaluation only. -/
theorem midpoint_congr {dt : F} {s s' : S} {orig errors : List (Motion F)}
    (h : eval s evolution orig = eval s' evolution orig) :
    midpoint eval dt spin evolution s orig errors = midpoint eval dt spin evolution s' orig errors := by
  unfold midpoint midpointLoop
  simp only [beq_self_eq_true, Bool.and_true]
  rw [h]

end
end Posidonius.WHFast
