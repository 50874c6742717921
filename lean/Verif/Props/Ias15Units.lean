import Verif.Props.Ias15Prediction
import Verif.Props.Ias15Order

/-! # C142: IAS15 in other units -/

namespace Posidonius.Ias15

/-- All coefficients in another unit. -/
def Seven.scale (k : ℝ) (b : Seven ℝ) : Seven ℝ := ⟨k * b.c0, k * b.c1, k * b.c2, k * b.c3, k * b.c4, k * b.c5, k * b.c6⟩

/-- All accelerations (or torques) in another unit. -/
def Series.scale (k : ℝ) (s : Series ℝ) : Series ℝ :=
  ⟨k * s.a0, k * s.now, s.b.scale k, s.g.scale k, s.cs.scale k, s.e.scale k, s.br.scale k, s.er.scale k⟩

theorem zero_scale (k : ℝ) : (Seven.zero : Seven ℝ).scale k = Seven.zero := by simp [Seven.scale, Seven.zero]

theorem addCs_scale (k p c i : ℝ) : addCs (k * p) (k * c) (k * i) = (k * (addCs p c i).1, k * (addCs p c i).2) := by
  simp only [addCs, Prod.mk.injEq]
  constructor <;> ring

theorem start_scale (k : ℝ) (T : Tables ℝ) (s : Series ℝ) : (s.scale k).start T = (s.start T).scale k := by
  simp only [Series.start, Series.scale, zero_scale, Series.mk.injEq, true_and, and_true]
  simp only [Seven.scale, Seven.mk.injEq]
  refine ⟨?_, ?_, ?_, ?_, ?_, ?_, ?_⟩ <;> first | trivial | ring

theorem difference_scale (k : ℝ) (s : Series ℝ) : (s.scale k).difference = k * s.difference := by
  simp [Series.difference, addCs, Series.scale]
  ring

section
variable (k : ℝ) (T : Tables ℝ) (s : Series ℝ) (i : ℝ)

theorem add0_scale : (s.scale k).add0 (k * i) = (s.add0 i).scale k := by
  simp only [Series.add0, Series.scale, Seven.scale, addCs_scale]
theorem add1_scale : (s.scale k).add1 (k * i) = (s.add1 i).scale k := by
  simp only [Series.add1, Series.scale, Seven.scale, addCs_scale]
theorem add2_scale : (s.scale k).add2 (k * i) = (s.add2 i).scale k := by
  simp only [Series.add2, Series.scale, Seven.scale, addCs_scale]
theorem add3_scale : (s.scale k).add3 (k * i) = (s.add3 i).scale k := by
  simp only [Series.add3, Series.scale, Seven.scale, addCs_scale]
theorem add4_scale : (s.scale k).add4 (k * i) = (s.add4 i).scale k := by
  simp only [Series.add4, Series.scale, Seven.scale, addCs_scale]
theorem add5_scale : (s.scale k).add5 (k * i) = (s.add5 i).scale k := by
  simp only [Series.add5, Series.scale, Seven.scale, addCs_scale]
theorem add6_scale : (s.scale k).add6 (k * i) = (s.add6 i).scale k := by
  simp only [Series.add6, Series.scale, Seven.scale, addCs_scale]

theorem correct1_scale : (s.scale k).correct1 T = (s.correct1 T).scale k := by
  have h : (s.scale k).difference / T.r 0 = k * (s.difference / T.r 0) := by rw [difference_scale, mul_div_assoc]
  unfold Series.correct1
  rw [h]
  generalize s.difference / T.r 0 = g
  dsimp only
  rw [show k * g - (s.scale k).g.c0 = k * (g - s.g.c0) from (mul_sub ..).symm]
  exact add0_scale k { s with g := { s.g with c0 := g } } _
theorem correct2_scale : (s.scale k).correct2 T = (s.correct2 T).scale k := by
  have h : ((s.scale k).difference / T.r 1 - (s.scale k).g.c0) / T.r 2 = k * ((s.difference / T.r 1 - s.g.c0) / T.r 2) := by
    rw [difference_scale]
    simp only [Series.scale, Seven.scale]
    ring
  unfold Series.correct2
  rw [h]
  generalize (s.difference / T.r 1 - s.g.c0) / T.r 2 = g
  dsimp only
  rw [show k * g - (s.scale k).g.c1 = k * (g - s.g.c1) from (mul_sub ..).symm]
  have e := add0_scale k { s with g := { s.g with c1 := g } } ((g - s.g.c1) * T.c 0)
  rw [← mul_assoc] at e
  rw [← add1_scale, ← e]
  rfl
theorem correct3_scale : (s.scale k).correct3 T = (s.correct3 T).scale k := by
  have h : (((s.scale k).difference / T.r 3 - (s.scale k).g.c0) / T.r 4 - (s.scale k).g.c1) / T.r 5
      = k * (((s.difference / T.r 3 - s.g.c0) / T.r 4 - s.g.c1) / T.r 5) := by
    rw [difference_scale]
    simp only [Series.scale, Seven.scale]
    ring
  unfold Series.correct3
  rw [h]
  generalize ((s.difference / T.r 3 - s.g.c0) / T.r 4 - s.g.c1) / T.r 5 = g
  dsimp only
  rw [show k * g - (s.scale k).g.c2 = k * (g - s.g.c2) from (mul_sub ..).symm]
  simp only [← add0_scale, ← add1_scale, ← add2_scale, ← mul_assoc]
  rfl
theorem correct4_scale : (s.scale k).correct4 T = (s.correct4 T).scale k := by
  have h : ((((s.scale k).difference / T.r 6 - (s.scale k).g.c0) / T.r 7 - (s.scale k).g.c1) / T.r 8 - (s.scale k).g.c2) / T.r 9
      = k * ((((s.difference / T.r 6 - s.g.c0) / T.r 7 - s.g.c1) / T.r 8 - s.g.c2) / T.r 9) := by
    rw [difference_scale]
    simp only [Series.scale, Seven.scale]
    simp only [mul_div_assoc, ← mul_sub]
  unfold Series.correct4
  rw [h]
  generalize (((s.difference / T.r 6 - s.g.c0) / T.r 7 - s.g.c1) / T.r 8 - s.g.c2) / T.r 9 = g
  dsimp only
  rw [show k * g - (s.scale k).g.c3 = k * (g - s.g.c3) from (mul_sub ..).symm]
  simp only [← add0_scale, ← add1_scale, ← add2_scale, ← add3_scale, ← mul_assoc]
  rfl
theorem correct5_scale : (s.scale k).correct5 T = (s.correct5 T).scale k := by
  have h : (((((s.scale k).difference / T.r 10 - (s.scale k).g.c0) / T.r 11 - (s.scale k).g.c1) / T.r 12 - (s.scale k).g.c2) / T.r 13 - (s.scale k).g.c3) / T.r 14
      = k * (((((s.difference / T.r 10 - s.g.c0) / T.r 11 - s.g.c1) / T.r 12 - s.g.c2) / T.r 13 - s.g.c3) / T.r 14) := by
    rw [difference_scale]
    simp only [Series.scale, Seven.scale]
    simp only [mul_div_assoc, ← mul_sub]
  unfold Series.correct5
  rw [h]
  generalize ((((s.difference / T.r 10 - s.g.c0) / T.r 11 - s.g.c1) / T.r 12 - s.g.c2) / T.r 13 - s.g.c3) / T.r 14 = g
  dsimp only
  rw [show k * g - (s.scale k).g.c4 = k * (g - s.g.c4) from (mul_sub ..).symm]
  simp only [← add0_scale, ← add1_scale, ← add2_scale, ← add3_scale, ← add4_scale, ← mul_assoc]
  rfl
theorem correct6_scale : (s.scale k).correct6 T = (s.correct6 T).scale k := by
  have h : ((((((s.scale k).difference / T.r 15 - (s.scale k).g.c0) / T.r 16 - (s.scale k).g.c1) / T.r 17 - (s.scale k).g.c2) / T.r 18 - (s.scale k).g.c3) / T.r 19 - (s.scale k).g.c4) / T.r 20
      = k * ((((((s.difference / T.r 15 - s.g.c0) / T.r 16 - s.g.c1) / T.r 17 - s.g.c2) / T.r 18 - s.g.c3) / T.r 19 - s.g.c4) / T.r 20) := by
    rw [difference_scale]
    simp only [Series.scale, Seven.scale]
    simp only [mul_div_assoc, ← mul_sub]
  unfold Series.correct6
  rw [h]
  generalize (((((s.difference / T.r 15 - s.g.c0) / T.r 16 - s.g.c1) / T.r 17 - s.g.c2) / T.r 18 - s.g.c3) / T.r 19 - s.g.c4) / T.r 20 = g
  dsimp only
  rw [show k * g - (s.scale k).g.c5 = k * (g - s.g.c5) from (mul_sub ..).symm]
  simp only [← add0_scale, ← add1_scale, ← add2_scale, ← add3_scale, ← add4_scale, ← add5_scale, ← mul_assoc]
  rfl
theorem correct7_scale : (s.scale k).correct7 T = (s.correct7 T).scale k := by
  have h : ((((((((s.scale k).difference / T.r 21 - (s.scale k).g.c0) / T.r 22 - (s.scale k).g.c1) / T.r 23 - (s.scale k).g.c2) / T.r 24
        - (s.scale k).g.c3) / T.r 25 - (s.scale k).g.c4) / T.r 26 - (s.scale k).g.c5) / T.r 27)
      = k * (((((((s.difference / T.r 21 - s.g.c0) / T.r 22 - s.g.c1) / T.r 23 - s.g.c2) / T.r 24
        - s.g.c3) / T.r 25 - s.g.c4) / T.r 26 - s.g.c5) / T.r 27) := by
    rw [difference_scale]
    simp only [Series.scale, Seven.scale]
    simp only [mul_div_assoc, ← mul_sub]
  unfold Series.correct7
  rw [h]
  generalize ((((((s.difference / T.r 21 - s.g.c0) / T.r 22 - s.g.c1) / T.r 23 - s.g.c2) / T.r 24
        - s.g.c3) / T.r 25 - s.g.c4) / T.r 26 - s.g.c5) / T.r 27 = g
  dsimp only
  rw [show k * g - (s.scale k).g.c6 = k * (g - s.g.c6) from (mul_sub ..).symm]
  simp only [← add0_scale, ← add1_scale, ← add2_scale, ← add3_scale, ← add4_scale, ← add5_scale, ← add6_scale, ← mul_assoc]
  rfl

theorem correct_scale (n : ℕ) : (s.scale k).correct T n = (s.correct T n).scale k := by
  unfold Series.correct
  split
  · exact correct1_scale k T s
  · exact correct2_scale k T s
  · exact correct3_scale k T s
  · exact correct4_scale k T s
  · exact correct5_scale k T s
  · exact correct6_scale k T s
  · exact correct7_scale k T s
  · rfl

theorem next_scale (q : ℝ) : (s.scale k).next q = (s.next q).scale k := by
  unfold Series.next
  split
  · simp only [Series.scale, zero_scale]
  · simp only [Series.scale, Seven.scale, Series.mk.injEq, Seven.mk.injEq, true_and, and_true]
    refine ⟨⟨?_, ?_, ?_, ?_, ?_, ?_, ?_⟩, ?_, ?_, ?_, ?_, ?_, ?_, ?_⟩ <;> ring

end

/-! ### Components -/

/-- A component in other units: `ka` of acceleration, `τ` of time and `kd` of torque, hence `ka * τ * τ` of length and `kd * τ` of
angular momentum. -/
def Comp.inUnits (ka τ kd : ℝ) (c : Comp ℝ) : Comp ℝ :=
  { x := ka * τ * τ * c.x, v := ka * τ * c.v, a := ka * c.a, l := kd * τ * c.l, dl := kd * c.dl,
    x0 := ka * τ * τ * c.x0, v0 := ka * τ * c.v0, l0 := kd * τ * c.l0,
    csx := ka * τ * τ * c.csx, csv := ka * τ * c.csv, css := kd * τ * c.css,
    acc := c.acc.scale ka, tor := c.tor.scale kd }

section
variable (ka τ kd : ℝ) (T : Tables ℝ) (spin : Bool) (c : Comp ℝ)

theorem comp_start : (c.inUnits ka τ kd).start T spin = (c.start T spin).inUnits ka τ kd := by
  cases spin
  · simp only [Comp.start, Comp.inUnits, Bool.false_eq_true, if_false, ← start_scale]
    rfl
  · simp only [Comp.start, Comp.inUnits, if_true, ← start_scale]
    rfl

theorem comp_correct (n : ℕ) (a dl : ℝ) :
    (c.inUnits ka τ kd).correct T spin n (ka * a) (kd * dl) = (c.correct T spin n a dl).inUnits ka τ kd := by
  cases spin
  · simp only [Comp.correct, Comp.inUnits, Bool.false_eq_true, if_false, ← correct_scale]
    rfl
  · simp only [Comp.correct, Comp.inUnits, if_true, ← correct_scale]
    rfl

theorem velocity_scale (k dt h cs v : ℝ) (s : Series ℝ) :
    predictVelocity (τ * dt) h (k * τ * cs) (k * τ * v) (s.scale k) = k * τ * predictVelocity dt h cs v s := by
  simp only [predictVelocity, Series.scale, Seven.scale, lit_real]
  push_cast
  ring

theorem comp_predict (dt h : ℝ) :
    (c.inUnits ka τ kd).predict spin (τ * dt) h = (c.predict spin dt h).inUnits ka τ kd := by
  have e : (c.inUnits ka τ kd).predictPosition (τ * dt) h = ka * τ * τ * c.predictPosition dt h := by
    simp only [Comp.predictPosition, Comp.inUnits, Series.scale, Seven.scale, lit_real]
    push_cast
    ring
  unfold Comp.predict
  rw [e]
  cases spin <;> simp only [Comp.inUnits, velocity_scale, Bool.false_eq_true, if_false, if_true]

theorem finishVelocity_scale (k dt v cs : ℝ) (s : Series ℝ) : finishVelocity (τ * dt) (k * τ * v) (k * τ * cs) (s.scale k)
    = (k * τ * (finishVelocity dt v cs s).1, k * τ * (finishVelocity dt v cs s).2) := by
  simp only [finishVelocity, C50_add_exact, Series.scale, Seven.scale, Prod.mk.injEq]
  constructor <;> ring

theorem finishPosition_scale (dt : ℝ) : finishPosition (τ * dt) (c.inUnits ka τ kd)
    = (ka * τ * τ * (finishPosition dt c).1, ka * τ * τ * (finishPosition dt c).2) := by
  simp only [finishPosition, C50_add_exact, Comp.inUnits, Series.scale, Seven.scale, Prod.mk.injEq]
  constructor <;> ring

theorem comp_finish (dt : ℝ) : (c.inUnits ka τ kd).finish spin (τ * dt) = (c.finish spin dt).inUnits ka τ kd := by
  unfold Comp.finish
  rw [finishPosition_scale]
  cases spin <;> simp only [Comp.inUnits, finishVelocity_scale, Bool.false_eq_true, if_false, if_true]

theorem comp_restore : (c.inUnits ka τ kd).restore spin = (c.restore spin).inUnits ka τ kd := by cases spin <;> rfl
theorem comp_remember : (c.inUnits ka τ kd).remember = c.remember.inUnits ka τ kd := rfl

theorem comp_next (q : ℝ) : (c.inUnits ka τ kd).next spin q = (c.next spin q).inUnits ka τ kd := by
  cases spin <;> simp only [Comp.next, Comp.inUnits, next_scale, Bool.false_eq_true, if_false, if_true]

end

/-! ### Errors and lengths of steps -/

/-- A particle in other units. -/
def inUnits (ka τ kd : ℝ) (p : Particle ℝ) : Particle ℝ := Axes.map (Comp.inUnits ka τ kd) p

theorem components_inUnits (ka τ kd : ℝ) (l : List (Particle ℝ)) :
    components (l.map (inUnits ka τ kd)) = (components l).map (Comp.inUnits ka τ kd) := by
  induction l with
  | nil => rfl
  | cons p l ih =>
    simp only [components, List.map_cons, List.flatMap_cons, List.map_append] at ih ⊢
    rw [ih]
    rfl

section
variable {ka τ kd : ℝ}

theorem slow_inUnits (ha : 0 < ka) (ht : 0 < τ) (hd : 0 < kd) (spin : Bool) (dt : ℝ) (p : Particle ℝ) :
    slow spin (τ * dt) (inUnits ka τ kd p) = slow spin dt p := by
  have e1 : (Axes.map Comp.v (inUnits ka τ kd p)).norm2 * (τ * dt) * (τ * dt) / (Axes.map Comp.x (inUnits ka τ kd p)).norm2
      = (Axes.map Comp.v p).norm2 * dt * dt / (Axes.map Comp.x p).norm2 := by
    have a : (Axes.map Comp.v (inUnits ka τ kd p)).norm2 * (τ * dt) * (τ * dt)
        = (ka * τ * τ) ^ 2 * ((Axes.map Comp.v p).norm2 * dt * dt) := by
      simp only [Axes.norm2, Axes.dot, Axes.map, inUnits, Comp.inUnits]
      ring
    have b : (Axes.map Comp.x (inUnits ka τ kd p)).norm2 = (ka * τ * τ) ^ 2 * (Axes.map Comp.x p).norm2 := by
      simp only [Axes.norm2, Axes.dot, Axes.map, inUnits, Comp.inUnits]
      ring
    rw [a, b, mul_div_mul_left _ _ (by positivity)]
  have e2 : (Axes.map Comp.dl (inUnits ka τ kd p)).norm2 * (τ * dt) * (τ * dt) / (Axes.map Comp.l (inUnits ka τ kd p)).norm2
      = (Axes.map Comp.dl p).norm2 * dt * dt / (Axes.map Comp.l p).norm2 := by
    have a : (Axes.map Comp.dl (inUnits ka τ kd p)).norm2 * (τ * dt) * (τ * dt)
        = (kd * τ) ^ 2 * ((Axes.map Comp.dl p).norm2 * dt * dt) := by
      simp only [Axes.norm2, Axes.dot, Axes.map, inUnits, Comp.inUnits]
      ring
    have b : (Axes.map Comp.l (inUnits ka τ kd p)).norm2 = (kd * τ) ^ 2 * (Axes.map Comp.l p).norm2 := by
      simp only [Axes.norm2, Axes.dot, Axes.map, inUnits, Comp.inUnits]
      ring
    rw [a, b, mul_div_mul_left _ _ (by positivity)]
  unfold slow
  dsimp only
  rw [e1, e2]

variable [FNormal ℝ]

theorem sweepError_inUnits (ha : 0 < ka) (hN : ∀ k x : ℝ, 0 < k → isNormal (k * x) = isNormal x) (spin : Bool)
    (hs : spin = true → kd = ka) (a b : List (Particle ℝ)) :
    sweepError spin ((components (a.map (inUnits ka τ kd))).map fun c => (c.acc.g.c6, c.tor.g.c6))
        (components (b.map (inUnits ka τ kd)))
      = sweepError spin ((components a).map fun c => (c.acc.g.c6, c.tor.g.c6)) (components b) := by
  rw [← C48_relative ha (fun x => hN ka x ha) spin ((components a).map fun c => (c.acc.g.c6, c.tor.g.c6)) (components b),
    components_inUnits, components_inUnits]
  cases spin
  · unfold sweepError
    dsimp only
    simp only [List.map_map, List.zipWith_map, Bool.false_eq_true, if_false]
    rfl
  · obtain rfl := hs rfl
    unfold sweepError
    dsimp only
    simp only [List.map_map, List.zipWith_map, if_true]
    rfl

/-- The largest values in another unit. -/
def Maxima.scale (k : ℝ) (m : Maxima ℝ) : Maxima ℝ := ⟨k * m.ak, k * m.b6, k * m.dl, k * m.b6s⟩

theorem see_inUnits (ha : 0 < ka) (hN : ∀ k x : ℝ, 0 < k → isNormal (k * x) = isNormal x) (spin : Bool)
    (hs : spin = true → kd = ka) (m : Maxima ℝ) (c : Comp ℝ) :
    (m.scale ka).see spin (c.inUnits ka τ kd) = (m.see spin c).scale ka := by
  have ab : ∀ x : ℝ, (FOps.abs (ka * x) : ℝ) = ka * FOps.abs x := fun x => by
    simp only [abs_real, abs_mul, abs_of_pos ha]
  have lt : ∀ x y : ℝ, ltb (ka * x) (ka * y) = ltb x y := fun x y => by
    rw [Bool.eq_iff_iff, ltb_real, ltb_real]
    exact mul_lt_mul_iff_right₀ ha
  have s1 : ∀ (m : Maxima ℝ) (v : ℝ), (if isNormal (ka * v) && ltb (m.scale ka).ak (ka * v) then { m.scale ka with ak := ka * v }
      else m.scale ka) = (if isNormal v && ltb m.ak v then { m with ak := v } else m).scale ka := by
    intro m v
    rw [hN _ _ ha, show ltb (m.scale ka).ak (ka * v) = ltb m.ak v from lt _ _]
    split <;> rfl
  have s2 : ∀ (m : Maxima ℝ) (v : ℝ), (if isNormal (ka * v) && ltb (m.scale ka).b6 (ka * v) then { m.scale ka with b6 := ka * v }
      else m.scale ka) = (if isNormal v && ltb m.b6 v then { m with b6 := v } else m).scale ka := by
    intro m v
    rw [hN _ _ ha, show ltb (m.scale ka).b6 (ka * v) = ltb m.b6 v from lt _ _]
    split <;> rfl
  have s3 : ∀ (m : Maxima ℝ) (v : ℝ), (if isNormal (ka * v) && ltb (m.scale ka).ak (ka * v) then { m.scale ka with dl := ka * v }
      else m.scale ka) = (if isNormal v && ltb m.ak v then { m with dl := v } else m).scale ka := by
    intro m v
    rw [hN _ _ ha, show ltb (m.scale ka).ak (ka * v) = ltb m.ak v from lt _ _]
    split <;> rfl
  have s4 : ∀ (m : Maxima ℝ) (v : ℝ), (if isNormal (ka * v) && ltb (m.scale ka).b6s (ka * v) then { m.scale ka with b6s := ka * v }
      else m.scale ka) = (if isNormal v && ltb m.b6s v then { m with b6s := v } else m).scale ka := by
    intro m v
    rw [hN _ _ ha, show ltb (m.scale ka).b6s (ka * v) = ltb m.b6s v from lt _ _]
    split <;> rfl
  have t1 : (FOps.abs (c.inUnits ka τ kd).acc.now : ℝ) = ka * FOps.abs c.acc.now := ab _
  have t2 : (FOps.abs (c.inUnits ka τ kd).acc.b.c6 : ℝ) = ka * FOps.abs c.acc.b.c6 := ab _
  cases spin
  · unfold Maxima.see
    simp only [t1, t2, s1, s2, Bool.false_eq_true, if_false]
  · obtain rfl := hs rfl
    have t3 : (FOps.abs (c.inUnits kd τ kd).tor.now : ℝ) = kd * FOps.abs c.tor.now := ab _
    have t4 : (FOps.abs (c.inUnits kd τ kd).tor.b.c6 : ℝ) = kd * FOps.abs c.tor.b.c6 := ab _
    unfold Maxima.see
    simp only [t1, t2, t3, t4, s1, s2, s3, s4, if_true]

/-- **C142, error**: without spins, or if accelerations and torques change by the same factor, the estimated error is the same in all
units. -/
theorem C142_error_partial (ha : 0 < ka) (ht : 0 < τ) (hd : 0 < kd) (hN : ∀ k x : ℝ, 0 < k → isNormal (k * x) = isNormal x)
    (spin : Bool) (hs : spin = true → kd = ka) (dt : ℝ) (l : List (Particle ℝ)) :
    integratorError spin (τ * dt) (l.map (inUnits ka τ kd)) = integratorError spin dt l := by
  have fold : ∀ (l : List (Particle ℝ)) (m : Maxima ℝ),
      (l.map (inUnits ka τ kd)).foldl (fun m p => if slow spin (τ * dt) p then m else (Axes.toList p).foldl (Maxima.see spin) m)
        (m.scale ka)
      = (l.foldl (fun m p => if slow spin dt p then m else (Axes.toList p).foldl (Maxima.see spin) m) m).scale ka := by
    intro l
    induction l with
    | nil => intro m; rfl
    | cons p l ih =>
      intro m
      rw [List.map_cons, List.foldl_cons, List.foldl_cons, ← ih, slow_inUnits ha ht hd]
      congr 1
      split
      · rfl
      · simp only [Axes.toList, inUnits, Axes.map, List.foldl_cons, List.foldl_nil, see_inUnits ha hN spin hs]
  have z : (⟨lit 0, lit 0, lit 0, lit 0⟩ : Maxima ℝ) = Maxima.scale ka ⟨lit 0, lit 0, lit 0, lit 0⟩ := by
    simp [Maxima.scale]
  unfold integratorError
  dsimp only
  rw [z, fold, ← z]
  generalize List.foldl _ _ l = m
  simp only [Maxima.scale, fmax_unit ha, mul_div_mul_left _ _ ha.ne']

theorem wanted_scale (err dt : ℝ) : wanted err (τ * dt) = τ * wanted err dt := by
  unfold wanted
  split <;> ring

theorem rejected_scale (ht : 0 < τ) (new dt : ℝ) : rejected (τ * new) (τ * dt) = rejected new dt := by
  unfold rejected
  rw [mul_div_mul_left _ _ ht.ne']

theorem capped_scale (ht : 0 < τ) (new dt : ℝ) : capped (τ * new) (τ * dt) = τ * capped new dt := by
  unfold capped
  rw [mul_div_mul_left _ _ ht.ne']
  split
  · ring
  · rfl

/-! ### Steps -/

/-- What the evaluation reads, in other units. -/
def Place.inUnits (ka τ kd : ℝ) (q : Place ℝ) : Place ℝ :=
  ⟨Axes.map (ka * τ * τ * ·) q.position, Axes.map (ka * τ * ·) q.velocity, Axes.map (kd * τ * ·) q.angular⟩

/-- Accelerations and torques in other units. -/
def forces (ka kd : ℝ) (q : Axes ℝ × Axes ℝ) : Axes ℝ × Axes ℝ := (Axes.map (ka * ·) q.1, Axes.map (kd * ·) q.2)

variable {S S' : Type} {R : S → S' → Prop} {eval : Evaluate S ℝ} {eval' : Evaluate S' ℝ}

/-- Two evaluations of the same forces in two systems of units. -/
def Converts (ka τ kd : ℝ) (R : S → S' → Prop) (eval : Evaluate S ℝ) (eval' : Evaluate S' ℝ) : Prop :=
  ∀ s s' t l, R s s' → Option.Rel (fun a b => R a.1 b.1 ∧ b.2 = a.2.map (forces ka kd)) (eval s t l)
    (eval' s' (τ * t) (l.map (Place.inUnits ka τ kd)))

omit [FNormal ℝ] in
theorem map_inUnits {f g : Comp ℝ → Comp ℝ} (h : ∀ c : Comp ℝ, f (c.inUnits ka τ kd) = (g c).inUnits ka τ kd) (l : List (Particle ℝ)) :
    (l.map (inUnits ka τ kd)).map (Axes.map f) = (l.map (Axes.map g)).map (inUnits ka τ kd) := by
  rw [List.map_map, List.map_map]
  refine List.map_congr_left fun p _ => ?_
  simp only [Function.comp_apply, inUnits, Axes.map, h]

omit [FNormal ℝ] in
theorem places_inUnits (l : List (Particle ℝ)) :
    places (l.map (inUnits ka τ kd)) = (places l).map (Place.inUnits ka τ kd) := by
  unfold places
  rw [List.map_map, List.map_map]
  rfl

omit [FNormal ℝ] in
theorem substep_inUnits (he : Converts ka τ kd R eval eval') (T : Tables ℝ) (spin : Bool) (t dt : ℝ) (k : ℕ)
    {s : S} {s' : S'} {l : List (Particle ℝ)} (hs : R s s') :
    Option.Rel (fun a b => R a.1 b.1 ∧ b.2 = a.2.map (inUnits ka τ kd)) (substep T spin eval t dt k s l)
      (substep T spin eval' (τ * t) (τ * dt) k s' (l.map (inUnits ka τ kd))) := by
  unfold substep evaluateAt
  dsimp only
  rw [map_inUnits (fun c => comp_predict ka τ kd spin c dt (T.h k))]
  generalize l.map (Axes.map (Comp.predict spin dt (T.h k))) = m
  have h := he s s' (t + dt * T.h k) (places m) hs
  rw [places_inUnits, show τ * t + τ * dt * T.h k = τ * (t + dt * T.h k) by ring]
  revert h
  generalize eval s (t + dt * T.h k) (places m) = x
  generalize eval' s' (τ * (t + dt * T.h k)) _ = y
  intro h
  cases h with
  | none => exact .none
  | @some a b h =>
    obtain ⟨h1, h2⟩ := h
    refine .some ⟨h1, ?_⟩
    dsimp only
    rw [h2]
    unfold correctAll
    rw [List.zipWith_map, List.map_zipWith]
    congr 1
    funext q p
    simp only [forces, inUnits, Axes.map, comp_correct]

omit [FNormal ℝ] in
theorem substeps_inUnits (he : Converts ka τ kd R eval eval') (T : Tables ℝ) (spin : Bool) (t dt : ℝ) (ks : List ℕ)
    {s : S} {s' : S'} {l : List (Particle ℝ)} (hs : R s s') :
    Option.Rel (fun a b => R a.1 b.1 ∧ b.2 = a.2.map (inUnits ka τ kd)) (substeps T spin eval t dt ks s l)
      (substeps T spin eval' (τ * t) (τ * dt) ks s' (l.map (inUnits ka τ kd))) := by
  induction ks generalizing s s' l with
  | nil => exact .some ⟨hs, rfl⟩
  | cons k ks ih =>
    have h := substep_inUnits he T spin t dt k (l := l) hs
    unfold substeps
    revert h
    generalize substep T spin eval t dt k s l = x
    generalize substep T spin eval' (τ * t) (τ * dt) k s' _ = y
    intro h
    cases h with
    | none => exact .none
    | @some a b h =>
      obtain ⟨a1, a2⟩ := a
      obtain ⟨b1, b2⟩ := b
      obtain ⟨h1, rfl⟩ := h
      exact ih h1

theorem sweep_inUnits (ha : 0 < ka) (hN : ∀ k x : ℝ, 0 < k → isNormal (k * x) = isNormal x) (he : Converts ka τ kd R eval eval')
    (T : Tables ℝ) (spin : Bool) (hk : spin = true → kd = ka) (t dt : ℝ) {s : S} {s' : S'} {l : List (Particle ℝ)} (hs : R s s') :
    Option.Rel (fun a b => R a.1 b.1 ∧ b.2.1 = a.2.1.map (inUnits ka τ kd) ∧ a.2.2 = b.2.2) (sweep T spin eval t dt s l)
      (sweep T spin eval' (τ * t) (τ * dt) s' (l.map (inUnits ka τ kd))) := by
  have h := substeps_inUnits he T spin t dt [1, 2, 3, 4, 5, 6] (l := l) hs
  unfold sweep
  revert h
  generalize substeps T spin eval t dt [1, 2, 3, 4, 5, 6] s l = x
  generalize substeps T spin eval' (τ * t) (τ * dt) [1, 2, 3, 4, 5, 6] s' _ = y
  intro h
  cases h with
  | none => exact .none
  | @some a b h =>
    obtain ⟨a1, a2⟩ := a
    obtain ⟨b1, b2⟩ := b
    obtain ⟨h1, rfl⟩ := h
    dsimp only at h1 ⊢
    have h := substep_inUnits he T spin t dt 7 (l := a2) h1
    revert h
    generalize substep T spin eval t dt 7 a1 a2 = x
    generalize substep T spin eval' (τ * t) (τ * dt) 7 b1 _ = y
    intro h
    cases h with
    | none => exact .none
    | @some c d h =>
      obtain ⟨c1, c2⟩ := c
      obtain ⟨d1, d2⟩ := d
      obtain ⟨g1, rfl⟩ := h
      exact .some ⟨g1, rfl, (sweepError_inUnits ha hN spin hk a2 c2).symm⟩

theorem sweeps_inUnits (ha : 0 < ka) (hN : ∀ k x : ℝ, 0 < k → isNormal (k * x) = isNormal x) (he : Converts ka τ kd R eval eval')
    (T : Tables ℝ) (spin : Bool) (hk : spin = true → kd = ka) (t dt : ℝ) (left done : ℕ) (err last : ℝ) {s : S} {s' : S'}
    {l : List (Particle ℝ)} (hs : R s s') :
    Option.Rel (fun a b => R a.1 b.1 ∧ b.2 = a.2.map (inUnits ka τ kd)) (sweeps T spin eval t dt left done err last s l)
      (sweeps T spin eval' (τ * t) (τ * dt) left done err last s' (l.map (inUnits ka τ kd))) := by
  induction left generalizing done err last s s' l with
  | zero => exact .some ⟨hs, rfl⟩
  | succ left ih =>
    unfold sweeps
    split
    · exact .some ⟨hs, rfl⟩
    · have h := sweep_inUnits ha hN he T spin hk t dt (l := l) hs
      revert h
      generalize sweep T spin eval t dt s l = x
      generalize sweep T spin eval' (τ * t) (τ * dt) s' _ = y
      intro h
      cases h with
      | none => exact .none
      | @some a b h =>
        obtain ⟨a1, a2, a3⟩ := a
        obtain ⟨b1, b2, b3⟩ := b
        obtain ⟨h1, h3, h4⟩ := h
        dsimp only at h1 h3 h4 ⊢
        subst h3 h4
        exact ih _ _ _ h1

/-- The same state in two systems of units. -/
structure Converted (ka τ kd : ℝ) (R : S → S' → Prop) (u : State S ℝ) (v : State S' ℝ) : Prop where
  hidden : R u.hidden v.hidden
  particles : v.particles = u.particles.map (inUnits ka τ kd)
  time : v.time = τ * u.time
  dt : v.dt = τ * u.dt
  last : v.last = τ * u.last

/-- **C142, one attempt**: accepted or rejected together, and the same state, converted. -/
theorem C142_attempt_partial (ha : 0 < ka) (ht : 0 < τ) (hd : 0 < kd) (hN : ∀ k x : ℝ, 0 < k → isNormal (k * x) = isNormal x)
    (he : Converts ka τ kd R eval eval') (T : Tables ℝ) (spin : Bool) (hk : spin = true → kd = ka) {u : State S ℝ} {v : State S' ℝ}
    (h : Converted ka τ kd R u v) :
    Option.Rel (fun a b => a.1 = b.1 ∧ Converted ka τ kd R a.2 b.2) (attempt T spin eval u) (attempt T spin eval' v) := by
  have hs := sweeps_inUnits ha hN he T spin hk u.time u.dt 12 0 (lit 1e300) (lit 2)
    (l := u.particles.map (Axes.map (Comp.start T spin))) h.hidden
  have hz : eqb (τ * u.last) (lit 0) = eqb u.last (lit 0) := by
    rw [Bool.eq_iff_iff]
    simp [ht.ne']
  unfold attempt
  dsimp only
  rw [h.time, h.dt, h.last, h.particles, map_inUnits (fun c => comp_start ka τ kd T spin c)]
  revert hs
  generalize sweeps T spin eval u.time u.dt 12 0 (lit 1e300) (lit 2) u.hidden _ = x
  generalize sweeps T spin eval' (τ * u.time) (τ * u.dt) 12 0 (lit 1e300) (lit 2) v.hidden _ = y
  intro hs
  cases hs with
  | none => exact .none
  | @some a b hs =>
    obtain ⟨a1, a2⟩ := a
    obtain ⟨b1, b2⟩ := b
    obtain ⟨h1, rfl⟩ := hs
    dsimp only at h1 ⊢
    rw [C142_error_partial ha ht hd hN spin hk, wanted_scale, rejected_scale ht, hz]
    split
    · refine .some ⟨rfl, h1, ?_, rfl, rfl, rfl⟩
      dsimp only
      rw [map_inUnits (fun c => comp_restore ka τ kd spin c)]
      split
      · rfl
      · rw [mul_div_mul_left _ _ ht.ne', map_inUnits (fun c => comp_next ka τ kd spin c _)]
    · refine .some ⟨rfl, h1, ?_, (mul_add ..).symm, capped_scale ht _ _, rfl⟩
      dsimp only
      rw [capped_scale ht, mul_div_mul_left _ _ ht.ne', map_inUnits (fun c => comp_finish ka τ kd spin c u.dt)]
      exact map_inUnits (fun c => comp_next ka τ kd spin c.remember _) _

theorem integrate_inUnits (ha : 0 < ka) (ht : 0 < τ) (hd : 0 < kd) (hN : ∀ k x : ℝ, 0 < k → isNormal (k * x) = isNormal x)
    (he : Converts ka τ kd R eval eval') (T : Tables ℝ) (spin : Bool) (hk : spin = true → kd = ka) (fuel : ℕ) {u : State S ℝ}
    {v : State S' ℝ} (h : Converted ka τ kd R u v) :
    Option.Rel (Converted ka τ kd R) (integrate T spin eval fuel u) (integrate T spin eval' fuel v) := by
  induction fuel generalizing u v with
  | zero => exact .none
  | succ fuel ih =>
    have g := C142_attempt_partial ha ht hd hN he T spin hk h
    unfold integrate
    revert g
    generalize attempt T spin eval u = x
    generalize attempt T spin eval' v = y
    intro g
    cases g with
    | none => exact .none
    | @some a b g =>
      obtain ⟨a1, a2⟩ := a
      obtain ⟨b1, b2⟩ := b
      obtain ⟨g1, g2⟩ := g
      dsimp only at g1 g2
      subst g1
      cases a1
      · exact ih g2
      · exact .some g2

/-- **C142, one step**: without spins in all units, with spins if accelerations and torques change by the same factor. -/
theorem C142_iterate_partial (ha : 0 < ka) (ht : 0 < τ) (hd : 0 < kd) (hN : ∀ k x : ℝ, 0 < k → isNormal (k * x) = isNormal x)
    (he : Converts ka τ kd R eval eval') (T : Tables ℝ) (spin : Bool) (hk : spin = true → kd = ka) (fuel : ℕ) {u : State S ℝ}
    {v : State S' ℝ} (h : Converted ka τ kd R u v) :
    Option.Rel (Converted ka τ kd R) (iterate T spin eval fuel u) (iterate T spin eval' fuel v) := by
  have g := he u.hidden v.hidden u.time (places u.particles) h.hidden
  unfold iterate
  rw [h.particles, places_inUnits, h.time]
  revert g
  generalize eval u.hidden u.time (places u.particles) = x
  generalize eval' v.hidden (τ * u.time) _ = y
  intro g
  cases g with
  | none => exact .none
  | @some a b g =>
    obtain ⟨a1, a2⟩ := a
    obtain ⟨b1, b2⟩ := b
    obtain ⟨g1, rfl⟩ := g
    dsimp only at g1 ⊢
    refine integrate_inUnits ha ht hd hN he T spin hk fuel ⟨g1, ?_, rfl, h.dt, h.last⟩
    dsimp only
    rw [List.zipWith_map, List.map_zipWith]
    rfl

end

/-- **C142 is violated** with spins: with a ten times smaller unit of torque the estimated error is ten times smaller. -/
theorem C142_violated :
    integratorError true (.fin 1) [⟨.pushed (.fin 1) (.fin 1) (.fin 5) (.fin 1), .rest (.fin 0), .rest (.fin 0)⟩] = XQ.fin (1 / 5)
    ∧ integratorError true (.fin 1) [⟨{ Comp.pushed (.fin 1) (.fin 1) (.fin 50) (.fin 1) with l := .fin 10 }, .rest (.fin 0),
        .rest (.fin 0)⟩] = XQ.fin (1 / 50) := by
  constructor <;> decide +kernel

/-- A spring with the constant 4 in units of time half as large has the constant 1. -/
example : Converts (ka := 1) (τ := 2) (kd := 1) (fun _ _ => True)
    (fun (_ : Unit) _ l => some ((), l.map fun q => (Axes.map (-4 * ·) q.position, Axes.map (0 * ·) q.position)))
    (fun (_ : Unit) _ l => some ((), l.map fun q => (Axes.map (-1 * ·) q.position, Axes.map (0 * ·) q.position))) := by
  intro s s' t l _
  refine .some ⟨trivial, ?_⟩
  simp only [List.map_map]
  refine List.map_congr_left fun q _ => ?_
  simp only [Function.comp_apply, forces, Place.inUnits, Axes.map, Prod.mk.injEq, Axes.mk.injEq]
  refine ⟨⟨?_, ?_, ?_⟩, ?_, ?_, ?_⟩ <;> ring

end Posidonius.Ias15
