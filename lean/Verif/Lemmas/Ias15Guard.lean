import Verif.Model.Ias15
import Verif.Lemmas.Ias15

/-! IAS15 with an evaluation that is only used on states with an invariant. -/

namespace Posidonius.Ias15

section
variable {F : Type} [Add F] [Sub F] [Mul F] [Div F] [Neg F] [FOps F] {S : Type}

open Classical in
/-- The evaluation on states with `P` and `N` places only. -/
noncomputable def guarded (P : S → Prop) (N : ℕ) (eval : Evaluate S F) : Evaluate S F := fun s t l =>
  if P s ∧ l.length = N then eval s t l else none

/-- The evaluation keeps the invariant. -/
def Keeps (P : S → Prop) (N : ℕ) (eval : Evaluate S F) : Prop :=
  ∀ s t l s' r, P s → l.length = N → eval s t l = some (s', r) → P s' ∧ r.length = N

variable {P : S → Prop} {N : ℕ} {eval : Evaluate S F} {T : Tables F} {spin : Bool}

theorem guarded_eq {s : S} (hs : P s) {l : List (Place F)} (hl : l.length = N) (t : F) :
    guarded P N eval s t l = eval s t l := by
  unfold guarded
  rw [if_pos ⟨hs, hl⟩]

theorem substep_guarded (he : Keeps P N eval) {t dt : F} {n : ℕ} {s : S} {l : List (Particle F)} (hs : P s)
    (hl : l.length = N) :
    substep T spin (guarded P N eval) t dt n s l = substep T spin eval t dt n s l
      ∧ ∀ s' l', substep T spin eval t dt n s l = some (s', l') → P s' ∧ l'.length = N := by
  have hp : (places (l.map (Axes.map (Comp.predict spin dt (T.h n))))).length = N := by simp [places, hl]
  unfold substep evaluateAt
  dsimp only
  rw [guarded_eq hs hp]
  refine ⟨rfl, fun s' l' h => ?_⟩
  split at h
  · cases h
  · next s1 l1 r e =>
    split at e
    · cases e
    · next s2 r2 e2 =>
      cases e
      cases h
      obtain ⟨a, b⟩ := he _ _ _ _ _ hs hp e2
      exact ⟨a, by simp [correctAll, b, hl]⟩

theorem substeps_guarded (he : Keeps P N eval) {t dt : F} {ns : List ℕ} {s : S} {l : List (Particle F)} (hs : P s)
    (hl : l.length = N) :
    substeps T spin (guarded P N eval) t dt ns s l = substeps T spin eval t dt ns s l
      ∧ ∀ s' l', substeps T spin eval t dt ns s l = some (s', l') → P s' ∧ l'.length = N := by
  induction ns generalizing s l with
  | nil => exact ⟨rfl, fun s' l' h => by cases h; exact ⟨hs, hl⟩⟩
  | cons n ns ih =>
    obtain ⟨a, b⟩ := substep_guarded (T := T) (spin := spin) (t := t) (dt := dt) (n := n) he hs hl
    unfold substeps
    rw [a]
    cases e : substep T spin eval t dt n s l with
    | none => exact ⟨rfl, fun s' l' h => by cases h⟩
    | some p =>
      obtain ⟨s1, l1⟩ := p
      obtain ⟨c, d⟩ := b s1 l1 e
      exact ih c d

variable [FNormal F]

theorem sweep_guarded (he : Keeps P N eval) {t dt : F} {s : S} {l : List (Particle F)} (hs : P s) (hl : l.length = N) :
    sweep T spin (guarded P N eval) t dt s l = sweep T spin eval t dt s l
      ∧ ∀ s' l' x, sweep T spin eval t dt s l = some (s', l', x) → P s' ∧ l'.length = N := by
  obtain ⟨a, b⟩ := substeps_guarded (T := T) (spin := spin) (t := t) (dt := dt) (ns := [1, 2, 3, 4, 5, 6]) he hs hl
  unfold sweep
  rw [a]
  cases e : substeps T spin eval t dt [1, 2, 3, 4, 5, 6] s l with
  | none => exact ⟨rfl, fun s' l' x h => by cases h⟩
  | some p =>
    obtain ⟨s1, l1⟩ := p
    obtain ⟨c, d⟩ := b s1 l1 e
    obtain ⟨a', b'⟩ := substep_guarded (T := T) (spin := spin) (t := t) (dt := dt) (n := 7) he c d
    dsimp only
    rw [a']
    refine ⟨rfl, fun s' l' x h => ?_⟩
    split at h
    · cases h
    · next s2 l2 e2 =>
      cases h
      exact b' _ _ e2

theorem sweeps_guarded (he : Keeps P N eval) {t dt : F} {left done : ℕ} {err last : F} {s : S} {l : List (Particle F)}
    (hs : P s) (hl : l.length = N) :
    sweeps T spin (guarded P N eval) t dt left done err last s l = sweeps T spin eval t dt left done err last s l
      ∧ ∀ s' l', sweeps T spin eval t dt left done err last s l = some (s', l') → P s' ∧ l'.length = N := by
  induction left generalizing done err last s l with
  | zero => exact ⟨rfl, fun s' l' h => by cases h; exact ⟨hs, hl⟩⟩
  | succ left ih =>
    obtain ⟨a, b⟩ := sweep_guarded (T := T) (spin := spin) (t := t) (dt := dt) he hs hl
    unfold sweeps
    rw [a]
    split
    · exact ⟨rfl, fun s' l' h => by cases h; exact ⟨hs, hl⟩⟩
    · cases e : sweep T spin eval t dt s l with
      | none => exact ⟨rfl, fun s' l' h => by cases h⟩
      | some p =>
        obtain ⟨s1, l1, x⟩ := p
        obtain ⟨c, d⟩ := b s1 l1 x e
        exact ih c d

theorem attempt_guarded (he : Keeps P N eval) {u : State S F} (hs : P u.hidden) (hl : u.particles.length = N) :
    attempt T spin (guarded P N eval) u = attempt T spin eval u
      ∧ ∀ ok u', attempt T spin eval u = some (ok, u') → P u'.hidden ∧ u'.particles.length = N := by
  have hp : (u.particles.map (Axes.map (Comp.start T spin))).length = N := by simp [hl]
  obtain ⟨a, b⟩ := sweeps_guarded (T := T) (spin := spin) (t := u.time) (dt := u.dt) (left := 12) (done := 0)
    (err := lit 1e300) (last := lit 2) he hs hp
  unfold attempt
  dsimp only
  rw [a]
  refine ⟨rfl, fun ok u' h => ?_⟩
  split at h
  · cases h
  · next s l e =>
    obtain ⟨c, d⟩ := b s l e
    split at h
    · cases h
      refine ⟨c, ?_⟩
      dsimp only
      split <;> simp [d]
    · cases h
      exact ⟨c, by simp [d]⟩

theorem integrate_guarded (he : Keeps P N eval) {fuel : ℕ} {u : State S F} (hs : P u.hidden)
    (hl : u.particles.length = N) :
    integrate T spin (guarded P N eval) fuel u = integrate T spin eval fuel u
      ∧ ∀ u', integrate T spin eval fuel u = some u' → P u'.hidden ∧ u'.particles.length = N := by
  induction fuel generalizing u with
  | zero => exact ⟨rfl, fun u' h => by cases h⟩
  | succ fuel ih =>
    obtain ⟨a, b⟩ := attempt_guarded (T := T) (spin := spin) he hs hl
    unfold integrate
    rw [a]
    cases e : attempt T spin eval u with
    | none => exact ⟨rfl, fun u' h => by cases h⟩
    | some p =>
      obtain ⟨ok, u1⟩ := p
      obtain ⟨c, d⟩ := b ok u1 e
      cases ok
      · exact ih c d
      · exact ⟨rfl, fun u' h => by cases h; exact ⟨c, d⟩⟩

/-- On states with the invariant nothing changes, and the invariant is kept. -/
theorem iterate_guarded (he : Keeps P N eval) {fuel : ℕ} {u : State S F} (hs : P u.hidden)
    (hl : u.particles.length = N) :
    iterate T spin (guarded P N eval) fuel u = iterate T spin eval fuel u
      ∧ ∀ u', iterate T spin eval fuel u = some u' → P u'.hidden ∧ u'.particles.length = N := by
  have hp : (places u.particles).length = N := by simp [places, hl]
  unfold iterate
  rw [guarded_eq hs hp]
  cases e : eval u.hidden u.time (places u.particles) with
  | none => exact ⟨rfl, fun u' h => by cases h⟩
  | some p =>
    obtain ⟨s, r⟩ := p
    obtain ⟨c, d⟩ := he _ _ _ _ _ hs hp e
    exact integrate_guarded he c (by simp [d, hl])

end
end Posidonius.Ias15
