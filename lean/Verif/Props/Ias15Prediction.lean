import Verif.Props.Ias15
import Verif.Props.Ias15Control

/-! # C46, C48: predictions after accepted and rejected steps; the test of convergence is relative -/

namespace Posidonius.Ias15

/-- What is predicted for a step of the length `dt`: the continuation of the polynomial of the last successful step, of the length
`last`, with the error of the prediction before. -/
def Continues (dt last : ℝ) (s : Series ℝ) : Prop :=
  dt / last ≤ 20 → ∀ a0 τ : ℝ, poly (poly a0 s.br 1) s.e τ = poly a0 s.br ((last + dt * τ) / last)
    ∧ poly a0 s.b τ = poly a0 s.e τ + (poly a0 s.br τ - poly a0 s.er τ)

theorem next_continues {dt last : ℝ} (h : last ≠ 0) (s : Series ℝ) : Continues dt last (s.next (dt / last)) := by
  intro hq a0 τ
  have e1 : (s.next (dt / last)).br = s.br := by unfold Series.next; split <;> rfl
  have e2 : (s.next (dt / last)).er = s.er := by unfold Series.next; split <;> rfl
  rw [e1, e2, C46_continuation s _ hq, C46_correction s _ hq]
  refine ⟨?_, rfl⟩
  congr 1
  field_simp

/-- **C46**: after an accepted step, and after a rejected one if there was a successful step before, the prediction for the next
attempt continues the polynomial of the last successful step over the length of the next attempt. -/
theorem C46_attempt [FNormal ℝ] {S : Type} (T : Tables ℝ) (spin : Bool) (eval : Evaluate S ℝ) (u u' : State S ℝ) (ok : Bool)
    (hdt : u.dt ≠ 0) (hl : ok = false → u.last ≠ 0) (h : attempt T spin eval u = some (ok, u')) :
    ∀ p ∈ u'.particles, ∀ c ∈ [p.x, p.y, p.z], Continues u'.dt u'.last c.acc ∧ (spin = true → Continues u'.dt u'.last c.tor) := by
  have key : ∀ (dt last : ℝ), last ≠ 0 → ∀ c : Comp ℝ, Continues dt last (c.next spin (dt / last)).acc
      ∧ (spin = true → Continues dt last (c.next spin (dt / last)).tor) := by
    intro dt last h0 c
    refine ⟨next_continues h0 _, fun hs => ?_⟩
    simp only [Comp.next, hs, if_true]
    exact next_continues h0 _
  unfold attempt at h
  dsimp only at h
  split at h
  · cases h
  · next s l hp =>
    split at h
    · cases h
      have h0 : u.last ≠ 0 := hl rfl
      intro p hpm c hc
      have hb : eqb u.last (lit 0 : ℝ) = false := by simp [h0]
      simp only [hb, Bool.false_eq_true, if_false, List.map_map, List.mem_map] at hpm
      obtain ⟨q, -, rfl⟩ := hpm
      simp only [Function.comp_apply, Axes.map, List.mem_cons, List.not_mem_nil, or_false] at hc
      rcases hc with rfl | rfl | rfl <;> exact key _ _ h0 _
    · cases h
      intro p hpm c hc
      simp only [List.map_map, List.mem_map] at hpm
      obtain ⟨q, -, rfl⟩ := hpm
      simp only [Function.comp_apply, Axes.map, List.mem_cons, List.not_mem_nil, or_false] at hc
      rcases hc with rfl | rfl | rfl <;> exact key _ _ hdt _

/-- The hypotheses for a body at rest without forces, its last step as long as the next one. -/
example [FNormal ℝ] : ∃ r, attempt (tables : Tables ℝ) false free ⟨[⟨.rest 1, .rest 2, .rest 3⟩], (), 0, 1, 1⟩ = some r := by
  obtain ⟨l, h1, -⟩ := sweeps_idle (tables : Tables ℝ) 0 1 12 0 (lit 1e300) (lit 2)
    ([(⟨.rest 1, .rest 2, .rest 3⟩ : Particle ℝ)].map (Axes.map (Comp.start (tables : Tables ℝ) false))) (by
      intro p hp
      simp only [List.map_cons, List.map_nil, List.mem_singleton] at hp
      subst hp
      simp [Comp.Idle, Axes.map, Comp.start, Series.start, Comp.rest, Seven.zero])
  unfold attempt
  dsimp only
  rw [h1]
  dsimp only
  split <;> exact ⟨_, rfl⟩

/-- After a step of the length 2 with the acceleration `3 + τ`, the acceleration at the end of a next step of the length 1 is
predicted to be 9/2. -/
example (s : Series ℝ) (h : s.br = ⟨1, 0, 0, 0, 0, 0, 0⟩) : poly 4 (s.next (1 / 2)).e 1 = 9 / 2 := by
  have h1 := (next_continues (dt := 1) (last := 2) two_ne_zero s (by norm_num) 3 1).1
  rw [show (s.next (1 / 2)).br = s.br by unfold Series.next; split <;> rfl, h] at h1
  simp only [poly] at h1 ⊢
  norm_num at h1 ⊢
  exact h1

/-- Accelerations and torques in another unit. -/
def Comp.inUnit (k : ℝ) (c : Comp ℝ) : Comp ℝ :=
  { c with acc := { c.acc with now := k * c.acc.now, g := { c.acc.g with c6 := k * c.acc.g.c6 } },
           tor := { c.tor with now := k * c.tor.now, g := { c.tor.g with c6 := k * c.tor.g.c6 } } }

theorem normalMax_unit [FNormal ℝ] {k : ℝ} (hk : 0 < k) (hN : ∀ x : ℝ, isNormal (k * x) = isNormal x) (l : List ℝ) :
    normalMax (l.map (k * ·)) = k * normalMax l := by
  have : ∀ m : ℝ, (l.map (k * ·)).foldl (fun m v => if isNormal v && ltb m v then v else m) (k * m)
      = k * l.foldl (fun m v => if isNormal v && ltb m v then v else m) m := by
    induction l with
    | nil => intro m; rfl
    | cons a l ih =>
      intro m
      rw [List.map_cons, List.foldl_cons, List.foldl_cons, ← ih]
      congr 1
      rw [hN, show ltb (k * m) (k * a) = ltb m a by
        rw [Bool.eq_iff_iff, ltb_real, ltb_real]
        exact mul_lt_mul_iff_right₀ hk]
      split <;> rfl
  have h := this 0
  rw [mul_zero] at h
  simpa [normalMax] using h

theorem fmax_unit {k : ℝ} (hk : 0 < k) (a b : ℝ) : fmax (k * a) (k * b) = k * fmax a b := by
  unfold fmax
  rw [show ltb (k * b) (k * a) = ltb b a by
    rw [Bool.eq_iff_iff, ltb_real, ltb_real]
    exact mul_lt_mul_iff_right₀ hk]
  split <;> rfl

/-- **C48**: the error by which the sweeps are ended is relative to the accelerations and torques: it is the same in every unit. -/
theorem C48_relative [FNormal ℝ] {k : ℝ} (hk : 0 < k) (hN : ∀ x : ℝ, isNormal (k * x) = isNormal x) (spin : Bool)
    (old : List (ℝ × ℝ)) (l : List (Comp ℝ)) :
    sweepError spin (old.map fun o => (k * o.1, k * o.2)) (l.map (Comp.inUnit k)) = sweepError spin old l := by
  have ab : ∀ x : ℝ, (FOps.abs (k * x) : ℝ) = k * FOps.abs x := fun x => by
    simp only [abs_real, abs_mul, abs_of_pos hk]
  have a1 : ((l.map (Comp.inUnit k)).map fun p => (FOps.abs p.acc.now : ℝ))
      = (l.map fun p => (FOps.abs p.acc.now : ℝ)).map (k * ·) := by
    rw [List.map_map, List.map_map]
    exact List.map_congr_left fun p _ => ab _
  have a2 : ((l.map (Comp.inUnit k)).map fun p => (FOps.abs p.tor.now : ℝ))
      = (l.map fun p => (FOps.abs p.tor.now : ℝ)).map (k * ·) := by
    rw [List.map_map, List.map_map]
    exact List.map_congr_left fun p _ => ab _
  have b1 : List.zipWith (fun (o : ℝ × ℝ) (p : Comp ℝ) => (FOps.abs (p.acc.g.c6 - o.1) : ℝ))
        (old.map fun o => (k * o.1, k * o.2)) (l.map (Comp.inUnit k))
      = (List.zipWith (fun (o : ℝ × ℝ) (p : Comp ℝ) => (FOps.abs (p.acc.g.c6 - o.1) : ℝ)) old l).map (k * ·) := by
    rw [List.zipWith_map, List.map_zipWith]
    congr 1
    funext o p
    rw [← ab, mul_sub]
    rfl
  have b2 : List.zipWith (fun (o : ℝ × ℝ) (p : Comp ℝ) => (FOps.abs (p.tor.g.c6 - o.2) : ℝ))
        (old.map fun o => (k * o.1, k * o.2)) (l.map (Comp.inUnit k))
      = (List.zipWith (fun (o : ℝ × ℝ) (p : Comp ℝ) => (FOps.abs (p.tor.g.c6 - o.2) : ℝ)) old l).map (k * ·) := by
    rw [List.zipWith_map, List.map_zipWith]
    congr 1
    funext o p
    rw [← ab, mul_sub]
    rfl
  have z : (lit 0 : ℝ) = k * lit 0 := by simp
  unfold sweepError
  dsimp only
  rw [a1, a2, b1, b2, normalMax_unit hk hN, normalMax_unit hk hN, normalMax_unit hk hN, normalMax_unit hk hN]
  have s : ∀ x : ℝ, (if spin then k * x else lit 0) = k * (if spin then x else lit 0) := by
    intro x; split
    · rfl
    · exact z
  rw [s, s, fmax_unit hk, fmax_unit hk, mul_div_mul_left _ _ hk.ne']

/-- All numbers but zero are normal: twice the unit. -/
example (old : List (ℝ × ℝ)) (l : List (Comp ℝ)) :
    letI : FNormal ℝ := ⟨fun x => !(eqb x 0)⟩
    sweepError true (old.map fun o => (2 * o.1, 2 * o.2)) (l.map (Comp.inUnit 2)) = sweepError true old l := by
  letI : FNormal ℝ := ⟨fun x => !(eqb x 0)⟩
  refine C48_relative (by norm_num) (fun x => ?_) true old l
  change (!(eqb (2 * x) 0)) = !(eqb x 0)
  congr 1
  rw [Bool.eq_iff_iff]
  simp

end Posidonius.Ias15
