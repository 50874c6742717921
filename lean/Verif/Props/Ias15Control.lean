import Verif.Model.Ias15
import Verif.Model.RealScalar
import Verif.Lemmas.Vec
import Mathlib.Data.List.GetD
import Mathlib.Tactic.Linarith
import Mathlib.Tactic.Positivity
import Mathlib.Tactic.FieldSimp

/-! # C48: step-size control of IAS15 -/

namespace Posidonius.Ias15
open Posidonius

set_option linter.unusedSectionVars false

section any
variable {F : Type} [Add F] [Sub F] [Mul F] [Div F] [Neg F] [FOps F] [FNormal F] {S : Type}

/-- Successive sweeps with these errors. -/
def SweepRun (T : Tables F) (spin : Bool) (eval : Evaluate S F) (t dt : F) :
    List F → S → List (Particle F) → S → List (Particle F) → Prop
  | [], s, l, s', l' => s = s' ∧ l = l'
  | e :: es, s, l, s', l' => ∃ s1 l1, sweep T spin eval t dt s l = some (s1, l1, e) ∧ SweepRun T spin eval t dt es s1 l1 s' l'

/-- Converged, or oscillating after more than two sweeps. -/
def Stops (err last : F) (done : ℕ) : Prop :=
  ltb err (lit 1e-16) = true ∨ (2 < done ∧ leb last err = true)

theorem sweeps_run (T : Tables F) (spin : Bool) (eval : Evaluate S F) (t dt : F) (left done : ℕ) (err last : F)
    (s s' : S) (l l' : List (Particle F)) (h : sweeps T spin eval t dt left done err last s l = some (s', l')) :
    ∃ es : List F, SweepRun T spin eval t dt es s l s' l' ∧ es.length ≤ left
      ∧ (∀ k < es.length, ¬Stops ((last :: err :: es).getD (k + 1) err) ((last :: err :: es).getD k err) (done + k))
      ∧ (es.length < left → Stops ((last :: err :: es).getD (es.length + 1) err)
          ((last :: err :: es).getD es.length err) (done + es.length)) := by
  induction left generalizing done err last s l with
  | zero =>
    cases h
    exact ⟨[], ⟨rfl, rfl⟩, le_rfl, by simp, by simp⟩
  | succ left ih =>
    unfold sweeps at h
    split at h
    · next hs =>
      cases h
      refine ⟨[], ⟨rfl, rfl⟩, by simp, by simp, fun _ => ?_⟩
      simpa [Stops] using hs
    · next hs =>
      split at h
      · cases h
      · next s1 l1 e1 h1 =>
        obtain ⟨es, r1, r2, r3, r4⟩ := ih _ _ _ _ _ h
        refine ⟨e1 :: es, ⟨s1, l1, h1, r1⟩, by simpa using r2, ?_, ?_⟩
        · intro k hk
          cases k with
          | zero => simpa [Stops] using hs
          | succ k =>
            have hk' : k < es.length := by simpa using hk
            have := r3 k hk'
            have e1' : ((err :: e1 :: es).getD (k + 1) e1) = ((err :: e1 :: es).getD (k + 1) err) := by
              rw [List.getD_eq_getElem _ _ (by simp; omega), List.getD_eq_getElem _ _ (by simp; omega)]
            have e2' : ((err :: e1 :: es).getD k e1) = ((err :: e1 :: es).getD k err) := by
              rw [List.getD_eq_getElem _ _ (by simp; omega), List.getD_eq_getElem _ _ (by simp; omega)]
            rw [e1', e2', show done + 1 + k = done + (k + 1) by omega] at this
            exact this
        · intro hl
          have := r4 (by simpa using hl)
          have e1' : ((err :: e1 :: es).getD (es.length + 1) e1) = ((err :: e1 :: es).getD (es.length + 1) err) := by
            rw [List.getD_eq_getElem _ _ (by simp), List.getD_eq_getElem _ _ (by simp)]
          have e2' : ((err :: e1 :: es).getD es.length e1) = ((err :: e1 :: es).getD es.length err) := by
            rw [List.getD_eq_getElem _ _ (by simp), List.getD_eq_getElem _ _ (by simp)]
          rw [e1', e2', show done + 1 + es.length = done + (es.length + 1) by omega] at this
          exact this

/-- The particles after the predictor-corrector sequence of one round. -/
def Predicted (T : Tables F) (spin : Bool) (eval : Evaluate S F) (u : State S F) (s : S) (l : List (Particle F)) : Prop :=
  sweeps T spin eval u.time u.dt 12 0 (lit 1e300) (lit 2) u.hidden (u.particles.map (Axes.map (Comp.start T spin)))
    = some (s, l)

/-- **C48, sweeps** (any arithmetic, NaN included): the predictor-corrector sequence is between 1 and 12 sweeps; it goes
on as long as the last error is at least 1e-16 and it is not oscillating, and stops then or after the 12th. -/
theorem C48_sweeps (T : Tables F) (spin : Bool) (eval : Evaluate S F) (u : State S F) (s : S) (l : List (Particle F))
    (hF : ltb (lit 1e300 : F) (lit 1e-16) = false) (h : Predicted T spin eval u s l) :
    ∃ es : List F, SweepRun T spin eval u.time u.dt es u.hidden (u.particles.map (Axes.map (Comp.start T spin))) s l
      ∧ 1 ≤ es.length ∧ es.length ≤ 12
      ∧ (∀ k < es.length, ¬Stops ((lit 2 :: lit 1e300 :: es).getD (k + 1) (lit 0)) ((lit 2 :: lit 1e300 :: es).getD k (lit 0)) k)
      ∧ (es.length < 12 → Stops ((lit 2 :: lit 1e300 :: es).getD (es.length + 1) (lit 0))
          ((lit 2 :: lit 1e300 :: es).getD es.length (lit 0)) es.length) := by
  obtain ⟨es, r1, r2, r3, r4⟩ := sweeps_run _ _ _ _ _ _ _ _ _ _ _ _ _ h
  have conv : ∀ k d d', k < es.length + 2 →
      ((lit 2 :: lit 1e300 :: es : List F).getD k d) = ((lit 2 :: lit 1e300 :: es).getD k d') := by
    intro k d d' hk
    rw [List.getD_eq_getElem _ _ (by simp; omega), List.getD_eq_getElem _ _ (by simp; omega)]
  refine ⟨es, r1, ?_, r2, ?_, ?_⟩
  · by_contra hc
    have h0 : es = [] := List.length_eq_zero_iff.1 (by omega)
    subst h0
    have := r4 (by simp)
    simp [Stops, hF] at this
  · intro k hk
    have := r3 k hk
    rw [zero_add] at this
    rw [conv (k + 1) _ (lit 1e300) (by omega), conv k _ (lit 1e300) (by omega)]
    exact this
  · intro hk
    have := r4 hk
    rw [zero_add] at this
    rw [conv (es.length + 1) _ (lit 1e300) (by omega), conv es.length _ (lit 1e300) (by omega)]
    exact this

/-- The frame of a step: the beginning and the compensations. -/
structure Comp.Kept (spin : Bool) (c d : Comp F) : Prop where
  x0 : d.x0 = c.x0
  v0 : d.v0 = c.v0
  l0 : d.l0 = c.l0
  csx : d.csx = c.csx
  csv : d.csv = c.csv
  css : d.css = c.css
  a0 : d.acc.a0 = c.acc.a0
  dl0 : d.tor.a0 = c.tor.a0
  l : spin = false → d.l = c.l

def Kept (spin : Bool) (l m : List (Particle F)) : Prop :=
  List.Forall₂ (fun p q => Comp.Kept spin p.x q.x ∧ Comp.Kept spin p.y q.y ∧ Comp.Kept spin p.z q.z) l m

theorem Series.correct_a0' (T : Tables F) (n : ℕ) (s : Series F) : (s.correct T n).a0 = s.a0 := by
  unfold Series.correct
  split <;> rfl

theorem Comp.substep_kept (T : Tables F) (spin : Bool) (n : ℕ) (dt h a dl : F) (c : Comp F) :
    Comp.Kept spin c ((c.predict spin dt h).correct T spin n a dl) := by
  refine ⟨rfl, rfl, rfl, rfl, rfl, rfl, ?_, ?_, fun hs => ?_⟩
  · simp only [Comp.correct, Series.correct_a0']; rfl
  · simp only [Comp.correct]
    split
    · rw [Series.correct_a0']; rfl
    · rfl
  · simp [Comp.correct, Comp.predict, hs]

theorem Comp.Kept.trans {spin : Bool} {c d e : Comp F} (h : Comp.Kept spin c d) (k : Comp.Kept spin d e) : Comp.Kept spin c e :=
  ⟨k.x0.trans h.x0, k.v0.trans h.v0, k.l0.trans h.l0, k.csx.trans h.csx, k.csv.trans h.csv, k.css.trans h.css,
    k.a0.trans h.a0, k.dl0.trans h.dl0, fun hs => (k.l hs).trans (h.l hs)⟩

theorem Kept.trans {spin : Bool} {l m n : List (Particle F)} (h : Kept spin l m) (k : Kept spin m n) : Kept spin l n := by
  unfold Kept at *
  induction h generalizing n with
  | nil => cases k; exact .nil
  | cons a _ ih =>
    cases k with
    | cons b k => exact .cons ⟨a.1.trans b.1, a.2.1.trans b.2.1, a.2.2.trans b.2.2⟩ (ih k)

theorem kept_refl (spin : Bool) (l : List (Particle F)) : Kept spin l l :=
  List.forall₂_same.2 fun _ _ =>
    ⟨⟨rfl, rfl, rfl, rfl, rfl, rfl, rfl, rfl, fun _ => rfl⟩, ⟨rfl, rfl, rfl, rfl, rfl, rfl, rfl, rfl, fun _ => rfl⟩,
      ⟨rfl, rfl, rfl, rfl, rfl, rfl, rfl, rfl, fun _ => rfl⟩⟩

/-- The evaluation returns values for all particles. -/
def Total (eval : Evaluate S F) : Prop := ∀ s t l s' r, eval s t l = some (s', r) → r.length = l.length

theorem substep_kept {T : Tables F} {spin : Bool} {eval : Evaluate S F} (he : Total eval) {t dt : F} {n : ℕ} {s s' : S}
    {l l' : List (Particle F)} (h : substep T spin eval t dt n s l = some (s', l')) : Kept spin l l' := by
  unfold substep evaluateAt at h
  dsimp only at h
  split at h
  · cases h
  · next s1 l1 r e =>
    split at e
    · cases e
    · next s2 r2 e2 =>
      cases e
      cases h
      have hlen := he _ _ _ _ _ e2
      rw [places, List.length_map, List.length_map] at hlen
      clear e2
      unfold correctAll
      induction l generalizing r with
      | nil =>
        have : r = [] := List.length_eq_zero_iff.1 (by simpa using hlen)
        subst this
        exact .nil
      | cons p l ih =>
        match r, hlen with
        | q :: r, hlen =>
          exact .cons ⟨Comp.substep_kept T spin n dt _ _ _ p.x, Comp.substep_kept T spin n dt _ _ _ p.y,
            Comp.substep_kept T spin n dt _ _ _ p.z⟩ (ih r (by simpa using hlen))

theorem substeps_kept {T : Tables F} {spin : Bool} {eval : Evaluate S F} (he : Total eval) {t dt : F} {ns : List ℕ} {s s' : S}
    {l l' : List (Particle F)} (h : substeps T spin eval t dt ns s l = some (s', l')) : Kept spin l l' := by
  induction ns generalizing s l with
  | nil => cases h; exact kept_refl _ _
  | cons n ns ih =>
    unfold substeps at h
    split at h
    · cases h
    · next s1 l1 e => exact (substep_kept he e).trans (ih h)

theorem sweep_kept {T : Tables F} {spin : Bool} {eval : Evaluate S F} (he : Total eval) {t dt : F} {s s' : S}
    {l l' : List (Particle F)} {e : F} (h : sweep T spin eval t dt s l = some (s', l', e)) : Kept spin l l' := by
  unfold sweep at h
  split at h
  · cases h
  · next s1 l1 e1 =>
    split at h
    · cases h
    · next s2 l2 e2 =>
      cases h
      exact (substeps_kept he e1).trans (substep_kept he e2)

theorem sweeps_kept {T : Tables F} {spin : Bool} {eval : Evaluate S F} (he : Total eval) {t dt : F} {left done : ℕ}
    {err last : F} {s s' : S} {l l' : List (Particle F)}
    (h : sweeps T spin eval t dt left done err last s l = some (s', l')) : Kept spin l l' := by
  induction left generalizing done err last s l with
  | zero => cases h; exact kept_refl _ _
  | succ left ih =>
    unfold sweeps at h
    split at h
    · cases h; exact kept_refl _ _
    · split at h
      · cases h
      · next s1 l1 e1 h1 => exact (sweep_kept he h1).trans (ih h)

/-- The state of a body in the universe: position, velocity, acceleration, angular momentum and, if the spin is
integrated, torque; with the compensations of the sums. -/
structure Comp.SameBody (spin : Bool) (c d : Comp F) : Prop where
  x : d.x = c.x
  v : d.v = c.v
  a : d.a = c.a
  l : d.l = c.l
  dl : spin = true → d.dl = c.dl
  csx : d.csx = c.csx
  csv : d.csv = c.csv
  css : d.css = c.css

def SameBodies (spin : Bool) (l m : List (Particle F)) : Prop :=
  List.Forall₂ (fun p q => Comp.SameBody spin p.x q.x ∧ Comp.SameBody spin p.y q.y ∧ Comp.SameBody spin p.z q.z) l m

theorem Comp.restore_same (T : Tables F) (spin : Bool) (c d : Comp F) (h : Comp.Kept spin (c.start T spin) d) :
    Comp.SameBody spin c (d.restore spin) := by
  refine ⟨h.x0, h.v0, h.a0, ?_, fun hs => ?_, h.csx, h.csv, h.css⟩
  · cases spin with
    | false => exact h.l rfl
    | true => exact h.l0
  · subst hs; exact h.dl0

theorem Comp.next_same (spin : Bool) (q : F) (c d : Comp F) (h : Comp.SameBody spin c d) : Comp.SameBody spin c (d.next spin q) :=
  ⟨h.x, h.v, h.a, h.l, h.dl, h.csx, h.csv, h.css⟩

/-- **C48, a rejected step** (any arithmetic, NaN included): a step is rejected exactly when the wanted step divided by
the tried one is less than a quarter in absolute value; then bodies, compensations, time and the last successful step
are as before, and the wanted step is tried next. -/
theorem C48_rejected (T : Tables F) (spin : Bool) (eval : Evaluate S F) (he : Total eval) (u u' : State S F) (ok : Bool)
    (h : attempt T spin eval u = some (ok, u')) :
    ∃ s l, Predicted T spin eval u s l
      ∧ (ok = false ↔ ltb (FOps.abs (wanted (integratorError spin u.dt l) u.dt / u.dt)) (lit 0.25) = true)
      ∧ (ok = false → SameBodies spin u.particles u'.particles ∧ u'.time = u.time ∧ u'.last = u.last
          ∧ u'.dt = wanted (integratorError spin u.dt l) u.dt)
      ∧ (ok = true → u'.time = u.time + u.dt ∧ u'.last = u.dt
          ∧ u'.dt = capped (wanted (integratorError spin u.dt l) u.dt) u.dt) := by
  unfold attempt at h
  dsimp only at h
  split at h
  · cases h
  · next s l hp =>
    refine ⟨s, l, hp, ?_⟩
    split at h
    · next hr =>
      cases h
      unfold rejected at hr
      refine ⟨by simp [hr], fun _ => ⟨?_, rfl, rfl, rfl⟩, by simp⟩
      have hk := sweeps_kept he hp
      have base : SameBodies spin u.particles (l.map (Axes.map (Comp.restore spin))) := by
        generalize u.particles = ps at hk
        clear hp hr
        unfold Kept at hk
        unfold SameBodies
        induction ps generalizing l with
        | nil => cases hk; exact .nil
        | cons p ps ih =>
          cases hk with
          | cons a b =>
            exact .cons ⟨Comp.restore_same T spin _ _ a.1, Comp.restore_same T spin _ _ a.2.1,
              Comp.restore_same T spin _ _ a.2.2⟩ (ih _ b)
      split
      · exact base
      · generalize l.map (Axes.map (Comp.restore spin)) = m at base
        generalize u.particles = ps at base
        clear hp hr hk
        unfold SameBodies at *
        induction base with
        | nil => exact .nil
        | cons a _ ih =>
          exact .cons ⟨Comp.next_same spin _ _ _ a.1, Comp.next_same spin _ _ _ a.2.1, Comp.next_same spin _ _ _ a.2.2⟩ ih
    · next hr =>
      cases h
      unfold rejected at hr
      exact ⟨by simpa using hr, by simp, fun _ => ⟨rfl, rfl, rfl⟩⟩

/-! ### The error estimate is a quotient of maxima of normal numbers -/

theorem see_inv (spin : Bool) (P : F → Prop) (ha : ∀ v : F, isNormal (FOps.abs v) = true → P (FOps.abs v)) (m : Maxima F)
    (hm : P m.ak ∧ P m.b6 ∧ P m.dl ∧ P m.b6s) (c : Comp F) :
    P (m.see spin c).ak ∧ P (m.see spin c).b6 ∧ P (m.see spin c).dl ∧ P (m.see spin c).b6s := by
  obtain ⟨h1, h2, h3, h4⟩ := hm
  unfold Maxima.see
  dsimp only
  have sel : ∀ (b : Bool) (v : F), (isNormal (FOps.abs v) && b) = true → P (FOps.abs v) := by
    intro b v h
    exact ha v (by simp at h; exact h.1)
  split_ifs <;> refine ⟨?_, ?_, ?_, ?_⟩ <;> first | assumption | (apply sel <;> assumption)

theorem estimate_inv (spin : Bool) (P : F → Prop) (h0 : P (lit 0)) (ha : ∀ v : F, isNormal (FOps.abs v) = true → P (FOps.abs v))
    (dt : F) (l : List (Particle F)) : ∃ a b, P a ∧ P b ∧ integratorError spin dt l = a / b := by
  have key : ∀ (l : List (Particle F)) (m : Maxima F), (P m.ak ∧ P m.b6 ∧ P m.dl ∧ P m.b6s) →
      let m := l.foldl (fun m p => if slow spin dt p then m else (Axes.toList p).foldl (Maxima.see spin) m) m
      P m.ak ∧ P m.b6 ∧ P m.dl ∧ P m.b6s := by
    intro l
    induction l with
    | nil => intro m hm; exact hm
    | cons p l ih =>
      intro m hm
      rw [List.foldl_cons]
      apply ih
      split
      · exact hm
      · have := see_inv spin P ha _ (see_inv spin P ha _ (see_inv spin P ha _ hm p.x) p.y) p.z
        exact this
  obtain ⟨h1, h2, h3, h4⟩ := key l ⟨lit 0, lit 0, lit 0, lit 0⟩ ⟨h0, h0, h0, h0⟩
  refine ⟨_, _, ?_, ?_, rfl⟩
  · unfold fmax; split <;> assumption
  · unfold fmax; split <;> assumption

end any

/-! ### Real numbers -/

theorem sqrt7_step (a x : ℝ) (ha : 0 < a) (hx : 0 < x) :
    6 / 7 * x ≤ x + (a / (x * x * x * x * x * x) - x) / 7 ∧ 0 < x + (a / (x * x * x * x * x * x) - x) / 7 := by
  have h : 0 < a / (x * x * x * x * x * x) := by positivity
  generalize a / (x * x * x * x * x * x) = w at h
  constructor <;> linarith

theorem sqrt7_lower (a : ℝ) (ha : 0 < a) : (6 / 7) ^ 20 ≤ sqrt7 a := by
  have key : ∀ n : ℕ, (6 / 7) ^ n ≤ (fun x => x + (a / (x * x * x * x * x * x) - x) / 7)^[n] 1 := by
    intro n
    induction n with
    | zero => simp
    | succ n ih =>
      rw [Function.iterate_succ_apply']
      have hp : (0 : ℝ) < (6 / 7) ^ n := by positivity
      calc (6 / 7 : ℝ) ^ (n + 1) = 6 / 7 * (6 / 7) ^ n := by ring
        _ ≤ 6 / 7 * _ := by linarith
        _ ≤ _ := (sqrt7_step a _ ha (lt_of_lt_of_le hp ih)).1
  have := key 20
  simp only [sqrt7, lit_real, Rat.cast_one, Rat.cast_ofNat]
  exact this

/-- The wanted step is a positive multiple of the tried one. -/
theorem wanted_real [FNormal ℝ] (hN : isNormal (0 : ℝ) = false) (spin : Bool) (dt : ℝ) (l : List (Particle ℝ)) :
    ∃ w : ℝ, (6 / 7) ^ 20 ≤ w ∧ wanted (integratorError spin dt l) dt = w * dt := by
  obtain ⟨a, b, ha, hb, e⟩ := estimate_inv spin (fun v : ℝ => 0 ≤ v) (by simp) (fun v _ => by simp) dt l
  unfold wanted
  split
  · next hn =>
    refine ⟨_, sqrt7_lower _ ?_, rfl⟩
    have h0 : integratorError spin dt l ≠ 0 := by
      intro h
      rw [h, hN] at hn
      cases hn
    have h1 : 0 ≤ integratorError spin dt l := by rw [e]; positivity
    have : 0 < integratorError spin dt l := lt_of_le_of_ne h1 (Ne.symm h0)
    simp only [lit_real]
    positivity
  · refine ⟨4, ?_, ?_⟩
    · norm_num
    · simp only [lit_real]; push_cast; ring

/-- **C48, the new step**: after an accepted step it is between a quarter and four times the last one, after a
rejected one less than a quarter (but not less than a constant part). -/
theorem C48_step [FNormal ℝ] (hN : isNormal (0 : ℝ) = false) {S : Type} (T : Tables ℝ) (spin : Bool) (eval : Evaluate S ℝ)
    (he : Total eval) (u u' : State S ℝ) (ok : Bool) (hdt : u.dt ≠ 0) (h : attempt T spin eval u = some (ok, u')) :
    (ok = true → 1 / 4 ≤ u'.dt / u.dt ∧ u'.dt / u.dt ≤ 4) ∧ (ok = false → (6 / 7) ^ 20 ≤ u'.dt / u.dt ∧ u'.dt / u.dt < 1 / 4) := by
  obtain ⟨s, l, hp, h1, h2, h3⟩ := C48_rejected T spin eval he u u' ok h
  obtain ⟨w, hw, e⟩ := wanted_real hN spin u.dt l
  have hw0 : 0 < w := lt_of_lt_of_le (by positivity) hw
  rw [e] at h1 h2 h3
  have hq : w * u.dt / u.dt = w := by field_simp
  simp only [hq, abs_real, ltb_real, lit_real, abs_of_pos hw0] at h1
  constructor
  · intro hok
    have hge : ¬w < ((0.25 : ℚ) : ℝ) := fun hlt => by
      rw [h1.2 hlt] at hok; cases hok
    rw [(h3 hok).2.2]
    unfold capped
    simp only [hq, abs_real, lit_real, abs_of_pos hw0, Bool.and_eq_true, ltb_real]
    norm_num at hge
    split
    · next hc =>
      have : u.dt / ((0.25 : ℚ) : ℝ) / u.dt = 4 := by
        push_cast
        field_simp
        norm_num
      rw [this]
      norm_num
    · next hc =>
      rw [hq]
      norm_num at hc ⊢
      refine ⟨by linarith, ?_⟩
      by_contra h4
      have := hc (by linarith)
      linarith
  · intro hok
    rw [(h2 hok).2.2.2, hq]
    have := h1.1 hok
    norm_num at this
    refine ⟨hw, by linarith⟩

/-- **C48, an iteration**: the time advances by the step that was accepted at last, which is not longer than the one
tried first and in the same direction; the next one is between a quarter and four times of it. -/
theorem C48_iteration [FNormal ℝ] (hN : isNormal (0 : ℝ) = false) {S : Type} (T : Tables ℝ) (spin : Bool) (eval : Evaluate S ℝ)
    (he : Total eval) (fuel : ℕ) (u u' : State S ℝ) (hdt : u.dt ≠ 0) (h : integrate T spin eval fuel u = some u') :
    u'.time = u.time + u'.last ∧ 0 < u'.last / u.dt ∧ u'.last / u.dt ≤ 1
      ∧ 1 / 4 ≤ u'.dt / u'.last ∧ u'.dt / u'.last ≤ 4 := by
  induction fuel generalizing u with
  | zero => cases h
  | succ fuel ih =>
    unfold integrate at h
    split at h
    · cases h
    · next v e =>
      cases h
      obtain ⟨s, l, hp, h1, h2, h3⟩ := C48_rejected T spin eval he u u' true e
      obtain ⟨a, b, c⟩ := h3 rfl
      obtain ⟨d, f⟩ := (C48_step hN T spin eval he u u' true hdt e).1 rfl
      rw [b, div_self hdt]
      exact ⟨a, one_pos, le_rfl, d, f⟩
    · next v e =>
      obtain ⟨s, l, hp, h1, h2, h3⟩ := C48_rejected T spin eval he u v false e
      obtain ⟨-, a, b, c⟩ := h2 rfl
      obtain ⟨d, f⟩ := (C48_step hN T spin eval he u v false hdt e).2 rfl
      have hv0 : 0 < v.dt / u.dt := lt_of_lt_of_le (by positivity) d
      have hv : v.dt ≠ 0 := by
        intro h0
        rw [h0, zero_div] at hv0
        exact lt_irrefl _ hv0
      obtain ⟨i1, i2, i3, i4, i5⟩ := ih v hv h
      rw [a] at i1
      have hm : u'.last / u.dt = u'.last / v.dt * (v.dt / u.dt) := by field_simp
      refine ⟨i1, ?_, ?_, i4, i5⟩
      · rw [hm]; positivity
      · rw [hm]
        calc u'.last / v.dt * (v.dt / u.dt) ≤ 1 * (v.dt / u.dt) := by
              apply mul_le_mul_of_nonneg_right i3 hv0.le
          _ ≤ 1 := by linarith

/-- **C48, end of the loop**: if in the states `I`, which rejections do not leave, steps shorter than `δ` are accepted
(the estimate falls with the step), the main loop ends, after at most as many rejections as quarterings lead from the
first step below `δ`. -/
theorem C48_ends [FNormal ℝ] (hN : isNormal (0 : ℝ) = false) {S : Type} (T : Tables ℝ) (spin : Bool) (eval : Evaluate S ℝ)
    (he : Total eval) (I : State S ℝ → Prop) (hd : ∀ u, I u → ∃ r, attempt T spin eval u = some r)
    (hi : ∀ u u', I u → attempt T spin eval u = some (false, u') → I u') (δ : ℝ)
    (ha : ∀ u u', I u → |u.dt| < δ → attempt T spin eval u ≠ some (false, u')) (n : ℕ) (u : State S ℝ) (hu : I u)
    (hdt : u.dt ≠ 0) (hn : |u.dt| < δ * 4 ^ n) : ∃ u', integrate T spin eval (n + 1) u = some u' := by
  induction n generalizing u with
  | zero =>
    obtain ⟨⟨ok, u'⟩, h⟩ := hd u hu
    cases ok with
    | true => exact ⟨u', by simp [integrate, h]⟩
    | false => exact absurd h (ha u u' hu (by simpa using hn))
  | succ n ih =>
    obtain ⟨⟨ok, u'⟩, h⟩ := hd u hu
    cases ok with
    | true => exact ⟨u', by rw [integrate, h]⟩
    | false =>
      obtain ⟨d, f⟩ := (C48_step hN T spin eval he u u' false hdt h).2 rfl
      have hv0 : 0 < u'.dt / u.dt := lt_of_lt_of_le (by positivity) d
      have hv : u'.dt ≠ 0 := by
        intro h0
        rw [h0, zero_div] at hv0
        exact lt_irrefl _ hv0
      obtain ⟨w, hw⟩ := ih u' (hi u u' hu h) hv (by
        have e : |u'.dt| = u'.dt / u.dt * |u.dt| := by
          rw [← abs_of_pos hv0, abs_div, div_mul_cancel₀ _ (abs_ne_zero.2 hdt)]
        have hpos : 0 < |u.dt| := abs_pos.2 hdt
        have : |u'.dt| ≤ 1 / 4 * |u.dt| := by
          rw [e]
          exact mul_le_mul_of_nonneg_right f.le hpos.le
        rw [pow_succ] at hn
        linarith)
      exact ⟨w, by rw [integrate, h]; exact hw⟩

/-! ### NaN and infinities -/

instance : FNormal XQ where
  isNormal
    | .fin q => decide (q ≠ 0)
    | _ => false

theorem sqrt7_XQ (a : ℚ) (ha : 0 < a) : ∃ r : ℚ, (6 / 7) ^ 20 ≤ r ∧ sqrt7 (XQ.fin a) = XQ.fin r := by
  have key : ∀ n : ℕ, ∃ r : ℚ, (6 / 7) ^ n ≤ r
      ∧ (fun x : XQ => x + (XQ.fin a / (x * x * x * x * x * x) - x) / lit 7)^[n] (lit 1) = XQ.fin r := by
    intro n
    induction n with
    | zero => exact ⟨1, by simp, rfl⟩
    | succ n ih =>
      obtain ⟨r, h1, h2⟩ := ih
      have hr : 0 < r := lt_of_lt_of_le (by positivity) h1
      rw [Function.iterate_succ_apply', h2]
      have hx : r * r * r * r * r * r ≠ 0 := by positivity
      have h7 : (7 : ℚ) ≠ 0 := by norm_num
      refine ⟨r + (a / (r * r * r * r * r * r) + -r) / 7, ?_, ?_⟩
      · have hw : 0 < a / (r * r * r * r * r * r) := by positivity
        rw [pow_succ]
        linarith
      · change XQ.add (XQ.fin r) (XQ.div (XQ.add (XQ.div (XQ.fin a) (XQ.fin (r * r * r * r * r * r))) (XQ.fin (-r))) (XQ.fin 7)) = _
        simp only [XQ.div, if_neg hx, XQ.add, if_neg h7]
  exact key 20

/-- Finite and not negative. -/
def XQ.Size (v : XQ) : Prop := ∃ q : ℚ, 0 ≤ q ∧ v = XQ.fin q

theorem wanted_XQ (spin : Bool) (d : ℚ) (l : List (Particle XQ)) :
    ∃ w : ℚ, (6 / 7) ^ 20 ≤ w ∧ wanted (integratorError spin (XQ.fin d) l) (XQ.fin d) = XQ.fin (w * d) := by
  obtain ⟨a, b, ⟨a, ha, rfl⟩, ⟨b, hb, rfl⟩, e⟩ := estimate_inv spin XQ.Size ⟨0, le_rfl, rfl⟩
    (fun v hv => by
      cases v with
      | fin q => exact ⟨|q|, abs_nonneg q, rfl⟩
      | pinf => cases hv
      | ninf => cases hv
      | nan => cases hv) (XQ.fin d) l
  unfold wanted
  split
  · next hn =>
    rw [e] at hn ⊢
    change isNormal (XQ.div (XQ.fin a) (XQ.fin b)) = true at hn
    change ∃ w : ℚ, _ ∧ sqrt7 (lit 1e-6 / XQ.div (XQ.fin a) (XQ.fin b)) * XQ.fin d = _
    unfold XQ.div at hn ⊢
    dsimp only at hn ⊢
    split at hn
    · exfalso
      split at hn
      · cases hn
      · split at hn <;> cases hn
    · next hb0 =>
      rw [if_neg hb0]
      have hq : a / b ≠ 0 := of_decide_eq_true hn
      have hpos : 0 < a / b := lt_of_le_of_ne (by positivity) (Ne.symm hq)
      have : (lit 1e-6 / XQ.fin (a / b) : XQ) = XQ.fin (1e-6 / (a / b)) := by
        change XQ.div (XQ.fin 1e-6) (XQ.fin (a / b)) = _
        simp only [XQ.div, if_neg hq]
      rw [this]
      obtain ⟨r, h1, h2⟩ := sqrt7_XQ (1e-6 / (a / b)) (by positivity)
      rw [h2]
      exact ⟨r, h1, rfl⟩
  · refine ⟨4, by norm_num, ?_⟩
    change XQ.div (XQ.fin d) (XQ.fin 0.25) = _
    simp only [XQ.div]
    rw [if_neg (by norm_num)]
    congr 1
    ring

/-- **C48, NaN included**: with the special values of floating point numbers (infinite or NaN positions, forces and
error estimates) the step stays finite: between a quarter and four times the last one if accepted, less than a
quarter if rejected. -/
theorem C48_nan {S : Type} (T : Tables XQ) (spin : Bool) (eval : Evaluate S XQ) (he : Total eval) (u u' : State S XQ) (ok : Bool)
    (d : ℚ) (hd : d ≠ 0) (hu : u.dt = XQ.fin d) (h : attempt T spin eval u = some (ok, u')) :
    ∃ q : ℚ, u'.dt = XQ.fin (q * d) ∧ (ok = true → 1 / 4 ≤ q ∧ q ≤ 4) ∧ (ok = false → (6 / 7) ^ 20 ≤ q ∧ q < 1 / 4) := by
  obtain ⟨s, l, hp, h1, h2, h3⟩ := C48_rejected T spin eval he u u' ok h
  obtain ⟨w, hw, e⟩ := wanted_XQ spin d l
  have hw0 : 0 < w := lt_of_lt_of_le (by positivity) hw
  rw [hu, e] at h1 h2 h3
  have hq : (XQ.fin (w * d) / XQ.fin d : XQ) = XQ.fin w := by
    change XQ.div (XQ.fin (w * d)) (XQ.fin d) = _
    simp only [XQ.div, if_neg hd]
    rw [mul_div_cancel_right₀ _ hd]
  rw [hq] at h1
  have habs : (FOps.abs (XQ.fin w) : XQ) = XQ.fin w := by
    change XQ.fin |w| = _
    rw [abs_of_pos hw0]
  rw [habs] at h1
  change (ok = false ↔ decide (w < 0.25) = true) at h1
  rw [decide_eq_true_iff] at h1
  cases ok with
  | false =>
    refine ⟨w, (h2 rfl).2.2.2, by simp, fun _ => ⟨hw, ?_⟩⟩
    have := h1.1 rfl
    norm_num at this
    linarith
  | true =>
    have hge : ¬w < 0.25 := fun hlt => by
      have := h1.2 hlt
      cases this
    norm_num at hge
    have hc := (h3 rfl).2.2
    unfold capped at hc
    rw [hq, habs] at hc
    have h4 : (lit 1 / lit 0.25 : XQ) = XQ.fin 4 := by
      change XQ.div (XQ.fin 1) (XQ.fin 0.25) = _
      simp only [XQ.div]
      rw [if_neg (by norm_num)]
      congr 1
      norm_num
    rw [h4] at hc
    change u'.dt = if (decide (1 < w) && decide (4 < w)) = true then XQ.div (XQ.fin d) (XQ.fin 0.25) else _ at hc
    split at hc
    · refine ⟨4, ?_, fun _ => by norm_num, by simp⟩
      rw [hc]
      simp only [XQ.div]
      rw [if_neg (by norm_num)]
      congr 1
      ring
    · next hn =>
      refine ⟨w, hc, fun _ => ⟨by linarith, ?_⟩, by simp⟩
      by_contra h5
      exact hn (by simp; constructor <;> linarith)

/-- One component at rest in `x`, with all coefficients zero. -/
def Comp.rest {F : Type} [FOps F] (x : F) : Comp F :=
  let z : Seven F := Seven.zero
  let s : Series F := ⟨lit 0, lit 0, z, z, z, z, z, z⟩
  ⟨x, lit 0, lit 0, lit 0, lit 0, lit 0, lit 0, lit 0, lit 0, lit 0, lit 0, s, s⟩

/-- Forces that are not a number. -/
def lost : Evaluate Unit XQ := fun _ _ l => some ((), l.map fun _ => (⟨.nan, .nan, .nan⟩, ⟨.nan, .nan, .nan⟩))

example : Total lost := by
  intro s t l s' r h
  cases h
  simp

/-- A step with NaN forces is accepted, its length quadrupled and the position lost. -/
example : (attempt tables false lost ⟨[⟨.rest (.fin 1), .rest (.fin 0), .rest (.fin 0)⟩], (), .fin 5, .fin 2, .fin 0⟩).map
    (fun r => (r.1, r.2.dt, r.2.time, r.2.particles.map fun p => p.x.x)) = some (true, .fin 8, .fin 7, [.nan]) := by
  decide +kernel

/-! A body without forces: every step is accepted. -/

/-- No force. -/
noncomputable def free : Evaluate Unit ℝ := fun _ _ l => some ((), l.map fun _ => (⟨0, 0, 0⟩, ⟨0, 0, 0⟩))

/-- No acceleration now or predicted. -/
def Comp.Idle (c : Comp ℝ) : Prop :=
  c.acc.a0 = 0 ∧ c.acc.b = ⟨0, 0, 0, 0, 0, 0, 0⟩ ∧ c.acc.g = ⟨0, 0, 0, 0, 0, 0, 0⟩ ∧ c.acc.cs = ⟨0, 0, 0, 0, 0, 0, 0⟩

def Idle (l : List (Particle ℝ)) : Prop := ∀ p ∈ l, p.x.Idle ∧ p.y.Idle ∧ p.z.Idle

theorem Comp.correct_idle (T : Tables ℝ) (n : ℕ) (dt h : ℝ) (c : Comp ℝ) (hc : c.Idle) :
    ((c.predict false dt h).correct T false n 0 0).Idle := by
  obtain ⟨h1, h2, h3, h4⟩ := hc
  unfold Comp.Idle
  dsimp only [Comp.correct, Comp.predict]
  unfold Series.correct
  split <;>
    simp [Series.correct1, Series.correct2, Series.correct3, Series.correct4, Series.correct5, Series.correct6,
      Series.correct7, Series.add0, Series.add1, Series.add2, Series.add3, Series.add4, Series.add5, Series.add6,
      Series.difference, addCs, h1, h2, h3, h4]

theorem substep_idle (T : Tables ℝ) (t dt : ℝ) (n : ℕ) (l : List (Particle ℝ)) (hl : Idle l) :
    ∃ l', substep T false free t dt n () l = some ((), l') ∧ Idle l' := by
  refine ⟨_, rfl, ?_⟩
  intro p hp
  simp only [correctAll, places, List.map_map, List.zipWith_map, List.zipWith_self, List.mem_map] at hp
  obtain ⟨q, hq, rfl⟩ := hp
  obtain ⟨a, b, c⟩ := hl q hq
  exact ⟨Comp.correct_idle T n dt _ _ a, Comp.correct_idle T n dt _ _ b, Comp.correct_idle T n dt _ _ c⟩

theorem substeps_idle (T : Tables ℝ) (t dt : ℝ) (ns : List ℕ) (l : List (Particle ℝ)) (hl : Idle l) :
    ∃ l', substeps T false free t dt ns () l = some ((), l') ∧ Idle l' := by
  induction ns generalizing l with
  | nil => exact ⟨l, rfl, hl⟩
  | cons n ns ih =>
    obtain ⟨l1, h1, h2⟩ := substep_idle T t dt n l hl
    obtain ⟨l', h3, h4⟩ := ih l1 h2
    exact ⟨l', by rw [substeps, h1]; exact h3, h4⟩

theorem sweeps_idle [FNormal ℝ] (T : Tables ℝ) (t dt : ℝ) (left done : ℕ) (err last : ℝ) (l : List (Particle ℝ)) (hl : Idle l) :
    ∃ l', sweeps T false free t dt left done err last () l = some ((), l') ∧ Idle l' := by
  induction left generalizing done err last l with
  | zero => exact ⟨l, rfl, hl⟩
  | succ left ih =>
    unfold sweeps
    split
    · exact ⟨l, rfl, hl⟩
    · obtain ⟨l1, h1, h2⟩ := substeps_idle T t dt [1, 2, 3, 4, 5, 6] l hl
      obtain ⟨l2, h3, h4⟩ := substep_idle T t dt 7 l1 h2
      unfold sweep
      rw [h1]
      dsimp only
      rw [h3]
      dsimp only
      exact ih _ _ _ _ h4

/-- The largest sixth coefficient of idle particles. -/
theorem idle_b6 [FNormal ℝ] (hN : isNormal (0 : ℝ) = false) (dt : ℝ) (m : List (Particle ℝ)) (hm : Idle m) (M : Maxima ℝ)
    (ha : M.b6 = 0) (hb : M.b6s = 0) :
    let M' := m.foldl (fun m p => if slow false dt p then m else (Axes.toList p).foldl (Maxima.see false) m) M
    M'.b6 = 0 ∧ M'.b6s = 0 := by
  induction m generalizing M with
  | nil => exact ⟨ha, hb⟩
  | cons p m ih =>
    rw [List.foldl_cons]
    have step : ∀ (c : Comp ℝ) (M : Maxima ℝ), c.Idle → M.b6 = 0 → M.b6s = 0 →
        (M.see false c).b6 = 0 ∧ (M.see false c).b6s = 0 := by
      intro c M hc ha hb
      simp only [Maxima.see, hc.2.1, abs_real, abs_zero, hN, Bool.false_and, Bool.false_eq_true, if_false]
      split <;> exact ⟨ha, hb⟩
    obtain ⟨p1, p2, p3⟩ := hm p (by simp)
    obtain ⟨a1, a2⟩ := step _ _ p1 ha hb
    obtain ⟨b1, b2⟩ := step _ _ p2 a1 a2
    obtain ⟨c1, c2⟩ := step _ _ p3 b1 b2
    refine ih (fun q hq => hm q (by simp [hq])) _ ?_ ?_ <;> split
    · exact ha
    · exact c1
    · exact hb
    · exact c2

/-- The hypotheses of `C48_ends` hold for bodies without forces at the beginning of a simulation. -/
example [FNormal ℝ] (hN : isNormal (0 : ℝ) = false) :
    let I : State Unit ℝ → Prop := fun u => u.dt ≠ 0
      ∧ ∀ p ∈ u.particles, ∀ c ∈ Axes.toList p, c.a = 0 ∧ c.acc.b = ⟨0, 0, 0, 0, 0, 0, 0⟩
    Total free ∧ (∀ u, I u → ∃ r, attempt (tables : Tables ℝ) false free u = some r)
    ∧ (∀ u u', I u → attempt (tables : Tables ℝ) false free u = some (false, u') → I u')
    ∧ (∀ u u', I u → |u.dt| < 1 → attempt (tables : Tables ℝ) false free u ≠ some (false, u'))
    ∧ I ⟨[⟨.rest 1, .rest 2, .rest 3⟩], (), 0, 1, 0⟩ := by
  intro I
  have hid : ∀ u, I u → Idle (u.particles.map (Axes.map (Comp.start (tables : Tables ℝ) false))) := by
    intro u hu p hp
    obtain ⟨q, hq, rfl⟩ := List.mem_map.1 hp
    have one : ∀ c ∈ Axes.toList q, (c.start (tables : Tables ℝ) false).Idle := by
      intro c hc
      obtain ⟨h1, h2⟩ := hu.2 q hq c hc
      refine ⟨h1, h2, ?_, ?_⟩
      · simp [Comp.start, Series.start, h2]
      · simp [Comp.start, Series.start, Seven.zero]
    exact ⟨one _ (by simp [Axes.toList]), one _ (by simp [Axes.toList]), one _ (by simp [Axes.toList])⟩
  have acc : ∀ u, I u → ∃ u', attempt (tables : Tables ℝ) false free u = some (true, u') := by
    intro u hu
    obtain ⟨l, h1, h2⟩ := sweeps_idle (tables : Tables ℝ) u.time u.dt 12 0 (lit 1e300) (lit 2) _ (hid u hu)
    have herr : integratorError false u.dt l = 0 := by
      obtain ⟨a, b⟩ := idle_b6 hN u.dt l h2 ⟨lit 0, lit 0, lit 0, lit 0⟩ (by simp) (by simp)
      unfold integratorError
      dsimp only at a b ⊢
      rw [a, b]
      simp [fmax]
    have hw : wanted (integratorError false u.dt l) u.dt = u.dt / lit 0.25 := by
      rw [herr, wanted, hN]
      simp
    have hr : rejected (u.dt / lit 0.25) u.dt = false := by
      rw [rejected, ltb_real_false]
      simp only [abs_real, lit_real]
      have hd := hu.1
      rw [show u.dt / ((0.25 : ℚ) : ℝ) / u.dt = 4 by push_cast; field_simp; norm_num]
      norm_num
    unfold attempt
    dsimp only
    rw [h1]
    dsimp only
    rw [hw, if_neg (by rw [hr]; simp)]
    exact ⟨_, rfl⟩
  refine ⟨fun s t l s' r h => by cases h; simp, fun u hu => ?_, fun u u' hu h => ?_, fun u u' hu _ h => ?_, ?_⟩
  · obtain ⟨u', h⟩ := acc u hu
    exact ⟨_, h⟩
  · obtain ⟨v, h'⟩ := acc u hu
    rw [h'] at h
    simp at h
  · obtain ⟨v, h'⟩ := acc u hu
    rw [h'] at h
    simp at h
  · refine ⟨one_ne_zero, ?_⟩
    simp [Axes.toList, Comp.rest, Seven.zero]

end Posidonius.Ias15
