import Verif.Model.Midpoint
import Verif.Lemmas.Vec
import Verif.Spec.Rounded
import Verif.Lemmas.WHFastAngular

/-! # C49, C50, C75: the implicit midpoint step of WHFast -/

namespace Posidonius.WHFast
open Posidonius

section
variable {F : Type} [Add F] [Sub F] [Mul F] [Div F] [Neg F] [FOps F] {S : Type}

/-- The same evaluation, keeping a record of the flags `evolution` of all calls. -/
def recorded (eval : Evaluate S F) : Evaluate (S × List Bool) F := fun s b l =>
  match eval s.1 b l with
  | none => none
  | some (t, r) => some ((t, s.2 ++ [b]), r)

theorem recorded_loop (eval : Evaluate S F) (dt : F) (spin evolution : Bool) (orig errors : List (Motion F))
    (left i : ℕ) (s s' : S × List Bool) (avg prev change final' change' : List (Motion F))
    (h : midpointLoop (recorded eval) dt spin evolution orig errors left i s avg prev change = some (s', final', change')) :
    ∃ n, n ≤ left ∧ (min left (3 - i) ≤ n)
      ∧ s'.2 = s.2 ++ (List.range' i n).map fun j => evolution && j == 0 := by
  induction left generalizing i s avg prev change with
  | zero =>
    simp only [midpointLoop, Option.some.injEq, Prod.mk.injEq] at h
    exact ⟨0, le_rfl, by simp, by simp [h.1]⟩
  | succ left ih =>
    unfold midpointLoop at h
    split at h
    · cases h
    · next t rates e =>
      unfold recorded at e
      split at e
      · cases e
      · next t' r e' =>
        cases e
        dsimp only at h
        split at h
        · next hc =>
          cases h
          simp only [Bool.and_eq_true, decide_eq_true_eq] at hc
          exact ⟨1, by omega, by omega, by simp⟩
        · obtain ⟨n, h1, h2, h3⟩ := ih _ _ _ _ _ h
          refine ⟨n + 1, by omega, by omega, ?_⟩
          rw [h3, List.range'_succ, List.map_cons]
          simp

/-- **C49, number of evaluations**: for every force (any arithmetic, NaN included) the forces are evaluated between
3 and 10 times, and the evolving quantities at most at the first of these. -/
theorem C49_evaluations (eval : Evaluate S F) (dt : F) (spin evolution : Bool) (s s' : S) (orig errors : List (Motion F))
    (flags : List Bool) (r : List (Motion F) × List (Motion F))
    (h : midpoint (recorded eval) dt spin evolution (s, []) orig errors = some ((s', flags), r)) :
    ∃ n, 2 ≤ n ∧ n ≤ 9 ∧ flags = evolution :: List.replicate n false := by
  unfold midpoint at h
  split at h
  · cases h
  · next t f c e =>
    cases h
    obtain ⟨n, h1, h2, h3⟩ := recorded_loop eval dt spin evolution orig errors 10 0 _ _ _ _ _ _ _ e
    obtain ⟨k, rfl⟩ : ∃ k, n = k + 1 := ⟨n - 1, by omega⟩
    refine ⟨k, by omega, by omega, ?_⟩
    dsimp only at h3
    rw [h3, List.nil_append, List.range'_succ, List.map_cons]
    simp only [beq_self_eq_true, Bool.and_true, List.cons.injEq, true_and]
    rw [List.eq_replicate_iff]
    refine ⟨by simp, ?_⟩
    intro b hb
    obtain ⟨j, hj, rfl⟩ := List.mem_map.1 hb
    have : j ≠ 0 := by
      have := List.mem_range'_1.1 hj
      omega
    simp [this]

/-- **C49, no panic of its own**: if the forces can be evaluated, the step succeeds. -/
theorem C49_succeeds (eval : Evaluate S F) (he : ∀ s b l, (eval s b l).isSome) (dt : F) (spin evolution : Bool) (s : S)
    (orig errors : List (Motion F)) : (midpoint eval dt spin evolution s orig errors).isSome := by
  have key : ∀ left i s avg prev change,
      (midpointLoop eval dt spin evolution orig errors left i s avg prev change).isSome := by
    intro left
    induction left with
    | zero => intros; rfl
    | succ left ih =>
      intro i s avg prev change
      unfold midpointLoop
      have := he s (evolution && i == 0) avg
      split
      · next e => rw [e] at this; cases this
      · dsimp only
        split
        · rfl
        · exact ih _ _ _ _ _
  unfold midpoint
  have := key 10 0 s orig orig []
  split
  · next e => rw [e] at this; cases this
  · rfl

end

/-! ### The midpoint equation -/

/-- The motion of a particle after a step of length `dt` with the rate at the middle. -/
noncomputable def advanced (dt : ℝ) (spin : Bool) (orig : Motion ℝ) (r : Rate ℝ) (error : Motion ℝ) : Motion ℝ :=
  { velocity := orig.velocity + (dt • r.acceleration - error.velocity),
    angular := if spin then orig.angular + (dt • r.torque - error.angular) else orig.angular }

/-- The mean of two motions. -/
noncomputable def mean (spin : Bool) (a b : Motion ℝ) : Motion ℝ :=
  { velocity := (1 / 2 : ℝ) • (a.velocity + b.velocity),
    angular := if spin then (1 / 2 : ℝ) • (a.angular + b.angular) else a.angular }

/-- Squared size of the difference of two lists of vectors, relative to the first. -/
noncomputable def relative2 (f : Motion ℝ → Axes ℝ) (a b : List (Motion ℝ)) : ℝ :=
  (List.zipWith (fun x y => (f x - f y).dot (f x - f y)) a b).sum / (a.map fun x => (f x).dot (f x)).sum

theorem averageOf_eq (spin : Bool) (a b : Motion ℝ) : averageOf spin a b = mean spin a b := by
  unfold averageOf mean
  have : (lit 0.5 : ℝ) = 1 / 2 := by simp; norm_num
  rw [this]

theorem finalOf_changeOf (dt : ℝ) (spin : Bool) (o : Motion ℝ) (r : Rate ℝ) (e : Motion ℝ) :
    finalOf spin o (changeOf dt spin r e) = advanced dt spin o r e := by
  unfold finalOf changeOf advanced
  cases spin <;> rfl

theorem mean_self (spin : Bool) (a : Motion ℝ) : mean spin a a = a := by
  unfold mean
  have : ∀ v : Axes ℝ, (1 / 2 : ℝ) • (v + v) = v := by intro v; module
  cases spin <;> simp only [this, if_true, Bool.false_eq_true, if_false]

theorem total2_eq (l : List (Axes ℝ)) : total2 l = (l.map fun v => v.dot v).sum := by
  have : ∀ (s : ℝ) (l : List (Axes ℝ)), l.foldl (fun s v => s + v.norm2) s = s + (l.map fun v => v.dot v).sum := by
    intro s l
    induction l generalizing s with
    | nil => simp
    | cons v l ih => rw [List.foldl_cons, ih, List.map_cons, List.sum_cons, ← add_assoc]; rfl
  unfold total2
  rw [this]
  simp

theorem converged_eq (spin : Bool) (a b : List (Motion ℝ)) (h : convergedMotion spin a b = true) :
    relative2 Motion.velocity a b < 2.2204460492503131e-16 ^ 2
    ∧ (spin = true → relative2 Motion.angular a b < 2.2204460492503131e-16 ^ 2) := by
  unfold convergedMotion at h
  have he : (epsilon2 : ℝ) = 2.2204460492503131e-16 ^ 2 := by
    unfold epsilon2
    simp only [lit_real]
    norm_num
  simp only [total2_eq, he, ltb_real, List.map_zipWith, List.map_map] at h
  unfold relative2
  cases spin <;> simp_all [Function.comp_def]

variable {S : Type}

/-- All particles after a step with the rates at the middle of `orig` and `prev`. -/
noncomputable def stepFrom (f : List (Motion ℝ) → List (Rate ℝ)) (dt : ℝ) (spin : Bool) (orig errors prev : List (Motion ℝ)) :
    List (Motion ℝ) :=
  List.zipWith (fun o x => finalOf spin o x) orig
    (List.zipWith (changeOf dt spin) (f (List.zipWith (mean spin) orig prev)) errors)

/-- An evaluation without memory. -/
def pureForce (f : List (Motion ℝ) → List (Rate ℝ)) : Evaluate Unit ℝ := fun _ _ l => some ((), f l)

theorem zipWith_mean_self (spin : Bool) (l : List (Motion ℝ)) : List.zipWith (mean spin) l l = l := by
  induction l with
  | nil => rfl
  | cons a l ih => simp [ih, mean_self]

theorem loop_equation (f : List (Motion ℝ) → List (Rate ℝ)) (dt : ℝ) (spin evolution : Bool)
    (orig errors : List (Motion ℝ)) (left i : ℕ) (avg prev change final' change' : List (Motion ℝ))
    (ha : avg = List.zipWith (mean spin) orig prev) (hl : 0 < left)
    (h : midpointLoop (pureForce f) dt spin evolution orig errors left i () avg prev change
      = some ((), final', change')) :
    ∃ n, n + 1 ≤ left ∧ final' = (stepFrom f dt spin orig errors)^[n + 1] prev
      ∧ change' = List.zipWith (changeOf dt spin) (f (List.zipWith (mean spin) orig
          ((stepFrom f dt spin orig errors)^[n] prev))) errors
      ∧ (n + 1 = left ∨ 2 ≤ n + i ∧ convergedMotion spin final' ((stepFrom f dt spin orig errors)^[n] prev) = true) := by
  induction left generalizing i avg prev change with
  | zero => omega
  | succ left ih =>
    unfold midpointLoop pureForce at h
    dsimp only at h
    have e : List.zipWith (finalOf spin) orig (List.zipWith (changeOf dt spin) (f avg) errors)
        = stepFrom f dt spin orig errors prev := by rw [stepFrom, ha]
    split at h
    · next hc =>
      cases h
      simp only [Bool.and_eq_true, decide_eq_true_eq] at hc
      exact ⟨0, by omega, e, by rw [ha]; rfl, Or.inr ⟨by omega, hc.2⟩⟩
    · rw [e] at h
      by_cases h0 : left = 0
      · subst h0
        simp only [midpointLoop, Option.some.injEq, Prod.mk.injEq, true_and] at h
        exact ⟨0, by omega, h.1.symm, by rw [← h.2, ha]; rfl, Or.inl rfl⟩
      · have hm : List.zipWith (averageOf spin) orig (stepFrom f dt spin orig errors prev)
            = List.zipWith (mean spin) orig (stepFrom f dt spin orig errors prev) := by
          congr 1
          funext a b
          exact averageOf_eq spin a b
        obtain ⟨n, h1, h2, h3, h4⟩ := ih (i + 1) _ _ _ hm (by omega) h
        exact ⟨n + 1, by omega, h2, h3, h4.imp (by omega) fun h => ⟨by omega, h.2⟩⟩

/-- **C49, midpoint equation**: in exact arithmetic, with forces that depend on the motions only, the step iterates
`x ↦ orig + dt * force((orig + x) / 2) - error` from `orig`, between 3 and 10 times, and stops before the tenth time
only when the relative change is below the square root of the tolerance. -/
theorem C49_iteration (f : List (Motion ℝ) → List (Rate ℝ)) (dt : ℝ) (spin evolution : Bool)
    (orig errors final errors' : List (Motion ℝ))
    (h : midpoint (pureForce f) dt spin evolution () orig errors = some ((), final, errors')) :
    ∃ n, 3 ≤ n ∧ n ≤ 10 ∧ final = (stepFrom f dt spin orig errors)^[n] orig
      ∧ (n = 10 ∨ relative2 Motion.velocity final ((stepFrom f dt spin orig errors)^[n - 1] orig)
            < 2.2204460492503131e-16 ^ 2
          ∧ (spin = true → relative2 Motion.angular final ((stepFrom f dt spin orig errors)^[n - 1] orig)
            < 2.2204460492503131e-16 ^ 2)) := by
  unfold midpoint at h
  split at h
  · cases h
  · next t fin c e =>
    cases h
    obtain ⟨n, h1, h2, _, h4⟩ := loop_equation f dt spin evolution orig errors 10 0 orig orig [] _ _
      (zipWith_mean_self spin orig).symm (by omega) e
    refine ⟨n + 1, ?_, h1, h2, ?_⟩
    · rcases h4 with h | h <;> omega
    · exact h4.imp id fun h => converged_eq spin _ _ h.2

/-- **C49, exact fixed point**: if the last two iterates are equal, every particle satisfies the implicit midpoint
equation. -/
theorem C49_fixed_point (f : List (Motion ℝ) → List (Rate ℝ)) (dt : ℝ) (spin : Bool) (orig errors x : List (Motion ℝ))
    (h : stepFrom f dt spin orig errors x = x) (i : ℕ) (o e y : Motion ℝ) (r : Rate ℝ) (ho : orig[i]? = some o)
    (he : errors[i]? = some e) (hr : (f (List.zipWith (mean spin) orig x))[i]? = some r) (hy : x[i]? = some y) :
    y = advanced dt spin o r e := by
  rw [← h, stepFrom, List.getElem?_zipWith, List.getElem?_zipWith, hr, he, ho] at hy
  simp only [Option.some.injEq] at hy
  rw [← hy, finalOf_changeOf]

theorem iterate_contracts {d : List (Motion ℝ) → List (Motion ℝ) → ℝ} {g : List (Motion ℝ) → List (Motion ℝ)} {q : ℝ}
    {z : List (Motion ℝ)} (hq : 0 ≤ q) (hg : ∀ x, d (g x) z ≤ q * d x z) (n : ℕ) (x : List (Motion ℝ)) :
    d (g^[n] x) z ≤ q ^ n * d x z := by
  induction n with
  | zero => simp
  | succ n ih =>
    rw [Function.iterate_succ_apply', pow_succ', mul_assoc]
    exact (hg _).trans (mul_le_mul_of_nonneg_left ih hq)

/-- **C49, accuracy**: if the forces are weak enough for the iteration to contract towards the solution `z` of the
midpoint equation (in any distance), the result is at least `q³` times closer to it than the start; its distance is
bounded by the last change, and unless that is below the tolerance it is `q¹⁰` times closer than the start. -/
theorem C49_accuracy (f : List (Motion ℝ) → List (Rate ℝ)) (dt : ℝ) (spin evolution : Bool)
    (orig errors final errors' : List (Motion ℝ))
    (h : midpoint (pureForce f) dt spin evolution () orig errors = some ((), final, errors'))
    (d : List (Motion ℝ) → List (Motion ℝ) → ℝ) (q : ℝ) (z : List (Motion ℝ)) (hq : 0 ≤ q) (hq1 : q ≤ 1)
    (hd : ∀ x, 0 ≤ d x z) (ht : ∀ x y, d x z ≤ d x y + d y z)
    (hg : ∀ x, d (stepFrom f dt spin orig errors x) z ≤ q * d x z) :
    d final z ≤ q ^ 3 * d orig z
    ∧ ∃ prev, final = stepFrom f dt spin orig errors prev ∧ (1 - q) * d final z ≤ q * d prev final
      ∧ (d final z ≤ q ^ 10 * d orig z ∨ relative2 Motion.velocity final prev < 2.2204460492503131e-16 ^ 2) := by
  obtain ⟨n, h1, h2, h3, h4⟩ := C49_iteration f dt spin evolution orig errors final errors' h
  have hc := iterate_contracts hq hg n orig
  rw [← h3] at hc
  refine ⟨hc.trans (mul_le_mul_of_nonneg_right (pow_le_pow_of_le_one hq hq1 h1) (hd _)),
    (stepFrom f dt spin orig errors)^[n - 1] orig, ?_, ?_, ?_⟩
  · rw [h3]
    obtain ⟨k, rfl⟩ : ∃ k, n = k + 1 := ⟨n - 1, by omega⟩
    rw [Function.iterate_succ_apply']
    rfl
  · have e : final = stepFrom f dt spin orig errors ((stepFrom f dt spin orig errors)^[n - 1] orig) := by
      rw [h3]
      obtain ⟨k, rfl⟩ : ∃ k, n = k + 1 := ⟨n - 1, by omega⟩
      rw [Function.iterate_succ_apply']
      rfl
    have h5 := hg ((stepFrom f dt spin orig errors)^[n - 1] orig)
    rw [← e] at h5
    have h6 := mul_le_mul_of_nonneg_left (ht ((stepFrom f dt spin orig errors)^[n - 1] orig) final) hq
    linarith
  · rcases h4 with h | h
    · left; rwa [h] at hc
    · exact Or.inr h.1

/-! ### Compensated summation -/

section
variable {F : Type} [Add F] [Sub F] [Mul F] [Div F] [Neg F] [FOps F] {S : Type}

/-- The changes belong to the last evaluation. -/
theorem loop_last (eval : Evaluate S F) (dt : F) (spin evolution : Bool) (orig errors : List (Motion F))
    (left i : ℕ) (s s' : S) (avg prev change final' change' : List (Motion F))
    (h : midpointLoop eval dt spin evolution orig errors (left + 1) i s avg prev change = some (s', final', change')) :
    ∃ t b l rates, eval t b l = some (s', rates) ∧ change' = List.zipWith (changeOf dt spin) rates errors
      ∧ final' = List.zipWith (finalOf spin) orig change' := by
  induction left generalizing i s avg prev change with
  | zero =>
    unfold midpointLoop at h
    split at h
    · cases h
    · next t r e =>
      dsimp only [midpointLoop] at h
      rw [ite_self] at h
      cases h
      exact ⟨_, _, _, _, e, rfl, rfl⟩
  | succ left ih =>
    unfold midpointLoop at h
    split at h
    · cases h
    · next t r e =>
      dsimp only at h
      split at h
      · cases h
        exact ⟨_, _, _, _, e, rfl, rfl⟩
      · exact ih _ _ _ _ _ h

theorem errorsOf_getElem (spin : Bool) (os fs cs es : List (Motion F)) (i : ℕ) {o f c e : Motion F}
    (ho : os[i]? = some o) (hf : fs[i]? = some f) (hc : cs[i]? = some c) (he : es[i]? = some e) :
    (errorsOf spin os fs cs es)[i]? = some (errorOf spin o f c e) := by
  induction i generalizing os fs cs es with
  | zero =>
    cases os <;> cases fs <;> cases cs <;> cases es <;> simp_all [errorsOf]
  | succ i ih =>
    cases os <;> cases fs <;> cases cs <;> cases es <;> simp_all [errorsOf]

theorem midpoint_last (eval : Evaluate S F) (dt : F) (spin evolution : Bool) (s s' : S)
    (orig errors final errors' : List (Motion F))
    (h : midpoint eval dt spin evolution s orig errors = some (s', final, errors')) :
    ∃ t b l rates, eval t b l = some (s', rates)
      ∧ final = List.zipWith (finalOf spin) orig (List.zipWith (changeOf dt spin) rates errors)
      ∧ errors' = errorsOf spin orig final (List.zipWith (changeOf dt spin) rates errors) errors := by
  unfold midpoint at h
  split at h
  · cases h
  · next t fin c e =>
    cases h
    obtain ⟨t, b, l, rates, h1, h2, h3⟩ := loop_last eval dt spin evolution orig errors 9 0 _ _ _ _ _ _ _ e
    exact ⟨t, b, l, rates, h1, by rw [h3, h2], by rw [h2]⟩

end

/-- **C50, velocity dependent forces**: however the new velocities and angular momenta are rounded, value minus
compensation advances by exactly time step times the rate of the last evaluation.  (The other operations are taken as
exact, which holds for floating point numbers if the change is smaller than the value.) -/
theorem C50_midpoint {rnd : ℝ → ℝ} {S : Type} (eval : Evaluate S (Rounded rnd)) (dt : Rounded rnd) (spin evolution : Bool)
    (s s' : S) (orig errors final errors' : List (Motion (Rounded rnd)))
    (h : midpoint eval dt spin evolution s orig errors = some (s', final, errors')) :
    ∃ t b l rates, eval t b l = some (s', rates) ∧
      ∀ (i : ℕ) (o e : Motion (Rounded rnd)) (r : Rate (Rounded rnd)),
        orig[i]? = some o → errors[i]? = some e → rates[i]? = some r →
        ∃ f e', final[i]? = some f ∧ errors'[i]? = some e'
          ∧ Rounded.vals f.velocity - Rounded.vals e'.velocity
            = Rounded.vals o.velocity - Rounded.vals e.velocity + dt.val • Rounded.vals r.acceleration
          ∧ (spin = true → Rounded.vals f.angular - Rounded.vals e'.angular
            = Rounded.vals o.angular - Rounded.vals e.angular + dt.val • Rounded.vals r.torque) := by
  obtain ⟨t, b, l, rates, h1, h2, h3⟩ := midpoint_last eval dt spin evolution s s' orig errors final errors' h
  refine ⟨t, b, l, rates, h1, fun i o e r ho he hr => ?_⟩
  have hc : (List.zipWith (changeOf dt spin) rates errors)[i]? = some (changeOf dt spin r e) := by
    rw [List.getElem?_zipWith, hr, he]
  have hf : final[i]? = some (finalOf spin o (changeOf dt spin r e)) := by
    rw [h2, List.getElem?_zipWith, ho, hc]
  refine ⟨_, _, hf, by rw [h3]; exact errorsOf_getElem spin _ _ _ _ i ho hf hc he, ?_, ?_⟩
  · simp only [errorOf, changeOf, Rounded.vals_sub, Rounded.vals_smul]
    module
  · intro hs
    subst hs
    simp only [errorOf, changeOf, if_true, Rounded.vals_sub, Rounded.vals_smul]
    module

/-- **C50, exact arithmetic**: without rounding the compensations are zero after every step. -/
theorem C50_midpoint_exact {S : Type} (eval : Evaluate S ℝ) (dt : ℝ) (spin evolution : Bool)
    (s s' : S) (orig errors final errors' : List (Motion ℝ))
    (h : midpoint eval dt spin evolution s orig errors = some (s', final, errors')) :
    ∀ e ∈ errors', e.velocity = 0 ∧ (spin = true → e.angular = 0) := by
  obtain ⟨t, b, l, rates, h1, h2, h3⟩ := midpoint_last eval dt spin evolution s s' orig errors final errors' h
  rw [h3, h2]
  generalize List.zipWith (changeOf dt spin) rates errors = c
  clear h h1 h2 h3
  induction orig generalizing errors c with
  | nil => simp [errorsOf]
  | cons o orig ih =>
    cases c with
    | nil => simp [errorsOf]
    | cons c cs =>
      cases errors with
      | nil => simp [errorsOf]
      | cons e es =>
        intro x hx
        simp only [List.zipWith_cons_cons, errorsOf, List.mem_cons] at hx
        rcases hx with rfl | hx
        · constructor
          · simp only [errorOf, finalOf]; module
          · intro hs
            subst hs
            simp only [errorOf, finalOf, if_true]; module
        · exact ih es cs x hx

/-! ### Momentum -/

/-- Mass weighted sum. -/
noncomputable def weightedSum (masses : List ℝ) (v : List (Axes ℝ)) : Axes ℝ := (List.zipWith (fun m x => m • x) masses v).sum

/-- **C75, momentum**: if the rates returned by every evaluation balance, the step changes the total momentum at most
by the compensations it takes in, whatever the number of iterations.  With the zero compensations of exact arithmetic
(C50) momentum is conserved. -/
theorem C75_momentum {S : Type} (eval : Evaluate S ℝ) (masses : List ℝ)
    (hf : ∀ s b l s' r, eval s b l = some (s', r) → r.length = masses.length
      ∧ weightedSum masses (r.map Rate.acceleration) = 0)
    (dt : ℝ) (spin evolution : Bool) (s s' : S) (orig errors final errors' : List (Motion ℝ))
    (h1 : orig.length = masses.length) (h2 : errors.length = masses.length)
    (h : midpoint eval dt spin evolution s orig errors = some (s', final, errors')) :
    final.length = masses.length ∧ errors'.length = masses.length
    ∧ weightedSum masses (final.map Motion.velocity)
      = weightedSum masses (orig.map Motion.velocity) - weightedSum masses (errors.map Motion.velocity) := by
  obtain ⟨t, b, l, rates, h3, h4, h5⟩ := midpoint_last eval dt spin evolution s s' orig errors final errors' h
  obtain ⟨h6, h7⟩ := hf t b l s' rates h3
  have key : ∀ (masses : List ℝ) (orig errors : List (Motion ℝ)) (rates : List (Rate ℝ)),
      orig.length = masses.length → errors.length = masses.length → rates.length = masses.length →
      weightedSum masses ((List.zipWith (finalOf spin) orig (List.zipWith (changeOf dt spin) rates errors)).map Motion.velocity)
        = weightedSum masses (orig.map Motion.velocity) - weightedSum masses (errors.map Motion.velocity)
          + dt • weightedSum masses (rates.map Rate.acceleration) := by
    intro masses
    induction masses with
    | nil => intro orig errors rates _ _ _; simp [weightedSum]
    | cons m ms ih =>
      intro orig errors rates e1 e2 e3
      match orig, errors, rates, e1, e2, e3 with
      | o :: os, e :: es, r :: rs, e1, e2, e3 =>
        have := ih os es rs (by simpa using e1) (by simpa using e2) (by simpa using e3)
        simp only [weightedSum] at this
        simp only [weightedSum, List.zipWith_cons_cons, List.map_cons, List.sum_cons, this, finalOf, changeOf]
        module
  have elen : ∀ (os fs cs es : List (Motion ℝ)) (n : ℕ), os.length = n → fs.length = n → cs.length = n → es.length = n →
      (errorsOf spin os fs cs es).length = n := by
    intro os
    induction os with
    | nil => intro fs cs es n e1 _ _ _; subst e1; simp [errorsOf]
    | cons o os ih =>
      intro fs cs es n e1 e2 e3 e4
      match fs, cs, es, n, e1, e2, e3, e4 with
      | f :: fs, c :: cs, e :: es, n + 1, e1, e2, e3, e4 =>
        simp only [errorsOf, List.length_cons]
        rw [ih fs cs es n (by simpa using e1) (by simpa using e2) (by simpa using e3) (by simpa using e4)]
  have l2 : (List.zipWith (changeOf dt spin) rates errors).length = masses.length := by simp [h6, h2]
  have l1 : final.length = masses.length := by rw [h4]; simp [h1, l2]
  refine ⟨l1, ?_, ?_⟩
  · rw [h5]
    exact elen _ _ _ _ _ h1 l1 l2 h2
  · rw [h4, key masses orig errors rates h1 h2 h6, h7, smul_zero, add_zero]

/-- Two bodies pulled together by friction: the hypotheses of C75, C50 and C49 are met by real forces. -/
noncomputable def friction : List (Motion ℝ) → List (Rate ℝ)
  | [a, b] => [⟨b.velocity - a.velocity, 0⟩, ⟨a.velocity - b.velocity, 0⟩]
  | _ => [⟨0, 0⟩, ⟨0, 0⟩]

example : ∀ s b l s' r, pureForce friction s b l = some (s', r) → r.length = [1, (1 : ℝ)].length
    ∧ weightedSum [1, 1] (r.map Rate.acceleration) = 0 := by
  intro s b l s' r h
  simp only [pureForce, Option.some.injEq, Prod.mk.injEq] at h
  rw [← h.2]
  unfold friction
  split
  · refine ⟨rfl, ?_⟩
    simp only [weightedSum, List.map_cons, List.map_nil, List.zipWith_cons_cons, List.zipWith_nil_right, List.sum_cons,
      List.sum_nil]
    module
  · simp [weightedSum]

example : (midpoint (pureForce friction) (1 / 10) false true () [⟨⟨1, 0, 0⟩, 0⟩, ⟨0, 0⟩] [⟨0, 0⟩, ⟨0, 0⟩]).isSome :=
  C49_succeeds _ (fun _ _ _ => rfl) _ _ _ _ _ _

/-- A contraction for `C49_accuracy`: one body slowed down in proportion to its velocity. -/
example : ∃ (f : List (Motion ℝ) → List (Rate ℝ)) (z : List (Motion ℝ)) (d : List (Motion ℝ) → List (Motion ℝ) → ℝ),
    (∀ x, 0 ≤ d x z) ∧ (∀ x y, d x z ≤ d x y + d y z)
    ∧ (∀ x, d (stepFrom f 1 false [⟨⟨1, 0, 0⟩, 0⟩] [⟨0, 0⟩] x) z ≤ 1 / 2 * d x z) ∧ 0 < d [⟨⟨1, 0, 0⟩, 0⟩] z := by
  let vx : List (Motion ℝ) → ℝ := fun l => match l with
    | [] => 1
    | a :: _ => a.velocity.x
  refine ⟨fun l => [⟨⟨-vx l, 0, 0⟩, 0⟩], [⟨⟨1 / 3, 0, 0⟩, 0⟩], fun x y => |vx x - vx y|, fun _ => abs_nonneg _,
    fun x y => abs_sub_le _ _ _, ?_, ?_⟩
  · intro x
    have : vx (stepFrom (fun l => [⟨⟨-vx l, 0, 0⟩, 0⟩]) 1 false [⟨⟨1, 0, 0⟩, 0⟩] [⟨0, 0⟩] x)
        = 1 - (1 + vx x) / 2 ∨ x = [] := by
      cases x with
      | nil => right; rfl
      | cons a l =>
        left
        simp [stepFrom, vx, mean, changeOf, finalOf]
        ring
    rcases this with h | rfl
    · beta_reduce
      rw [h]
      change |1 - (1 + vx x) / 2 - 1 / 3| ≤ 1 / 2 * |vx x - 1 / 3|
      have : 1 - (1 + vx x) / 2 - 1 / 3 = -(1 / 2) * (vx x - 1 / 3) := by ring
      rw [this, abs_mul]
      norm_num
    · simp [stepFrom, vx, finalOf, changeOf]
      norm_num
  · simp only [vx]
    norm_num

/-- Why `C49_evaluations` allows ten evaluations at rest: without spin and torque the convergence criterion divides
zero by zero, so all ten are made although nothing changes (numbers with NaN). -/
example : (midpoint (recorded fun (s : Unit) _ (l : List (Motion XQ)) =>
      some (s, l.map fun _ => ⟨Axes.zero, Axes.zero⟩)) (.fin 1) true true ((), [])
      [⟨⟨.fin 1, .fin 0, .fin 0⟩, Axes.zero⟩] [⟨Axes.zero, Axes.zero⟩]).map (fun r => r.1.2.length) = some 10 := by
  decide +kernel

/-- A spinning body ends the iteration after three. -/
example : (midpoint (recorded fun (s : Unit) _ (l : List (Motion XQ)) =>
      some (s, l.map fun _ => ⟨Axes.zero, Axes.zero⟩)) (.fin 1) true true ((), [])
      [⟨⟨.fin 1, .fin 0, .fin 0⟩, ⟨.fin 0, .fin 0, .fin 1⟩⟩] [⟨Axes.zero, Axes.zero⟩]).map (fun r => r.1.2.length)
      = some 3 := by
  decide +kernel

end Posidonius.WHFast
