import Verif.Model.Ias15
import Verif.Lemmas.Ias15

/-! IAS15 without integration of the spins: the angular momenta stay. -/

namespace Posidonius.Ias15

section
variable {F S : Type}

/-- The angular momenta of all particles. -/
def angulars (l : List (Particle F)) : List (Axes F) := l.map (Axes.map Comp.l)

/-- One result for each place. -/
def Even (eval : Evaluate S F) : Prop := ∀ s t l s' r, eval s t l = some (s', r) → r.length = l.length

theorem angulars_map (f : Comp F → Comp F) (hf : ∀ c, (f c).l = c.l) (l : List (Particle F)) :
    angulars (l.map (Axes.map f)) = angulars l := by
  unfold angulars
  rw [List.map_map]
  refine List.map_congr_left fun p _ => ?_
  simp [Axes.map, hf]

theorem angulars_zipWith {A : Type} (f : A → Particle F → Particle F)
    (hf : ∀ a p, Axes.map Comp.l (f a p) = Axes.map Comp.l p) (r : List A) (l : List (Particle F))
    (h : r.length = l.length) : angulars (List.zipWith f r l) = angulars l := by
  induction l generalizing r with
  | nil => simp [angulars]
  | cons p l ih =>
    cases r with
    | nil => simp at h
    | cons a r =>
      have := ih r (by simpa using h)
      unfold angulars at *
      simp only [List.zipWith_cons_cons, List.map_cons, hf, this]

end

section
variable {F : Type} [Add F] [Sub F] [Mul F] [Div F] [Neg F] [FOps F] {S : Type}
variable {T : Tables F} {eval : Evaluate S F}

theorem substep_still (he : Even eval) {t dt : F} {n : ℕ} {s s' : S} {l l' : List (Particle F)}
    (h : substep T false eval t dt n s l = some (s', l')) : angulars l' = angulars l := by
  unfold substep evaluateAt at h
  dsimp only at h
  split at h
  · cases h
  · next s1 l1 r e =>
    split at e
    · cases e
    · next s2 r2 e2 =>
      cases e
      cases h
      have hr := he _ _ _ _ _ e2
      unfold correctAll
      refine Eq.trans (angulars_zipWith _ ?_ _ _ (by rw [hr]; simp [places])) (angulars_map (Comp.predict false dt (T.h n)) (fun c => rfl) l)
      intro a p
      rfl

theorem substeps_still (he : Even eval) {t dt : F} {ns : List ℕ} {s s' : S} {l l' : List (Particle F)}
    (h : substeps T false eval t dt ns s l = some (s', l')) : angulars l' = angulars l := by
  induction ns generalizing s l with
  | nil => cases h; rfl
  | cons n ns ih =>
    unfold substeps at h
    split at h
    · cases h
    · next s1 l1 e => exact (ih h).trans (substep_still he e)

variable [FNormal F]

theorem sweeps_still (he : Even eval) {t dt : F} {left done : ℕ} {err last : F} {s s' : S} {l l' : List (Particle F)}
    (h : sweeps T false eval t dt left done err last s l = some (s', l')) : angulars l' = angulars l := by
  induction left generalizing done err last s l with
  | zero => cases h; rfl
  | succ left ih =>
    unfold sweeps at h
    split at h
    · cases h; rfl
    · split at h
      · cases h
      · next s1 l1 x e =>
        refine (ih h).trans ?_
        unfold sweep at e
        split at e
        · cases e
        · next s2 l2 e2 =>
          split at e
          · cases e
          · next s3 l3 e3 =>
            cases e
            exact (substep_still he e3).trans (substeps_still he e2)

theorem integrate_still (he : Even eval) {fuel : ℕ} {u u' : State S F}
    (h : integrate T false eval fuel u = some u') : angulars u'.particles = angulars u.particles := by
  have key : ∀ {u u' : State S F} {ok : Bool}, attempt T false eval u = some (ok, u') →
      angulars u'.particles = angulars u.particles := by
    intro u u' ok h
    unfold attempt at h
    dsimp only at h
    split at h
    · cases h
    · next s l e =>
      have e1 := (sweeps_still he e).trans (angulars_map (Comp.start T false) (fun c => rfl) u.particles)
      split at h
      · cases h
        dsimp only
        split
        · exact (angulars_map (Comp.restore false) (fun c => rfl) l).trans e1
        · rw [angulars_map (Comp.next false _) (fun c => rfl), angulars_map (Comp.restore false) (fun c => rfl)]
          exact e1
      · cases h
        dsimp only
        rw [angulars_map (fun p => Comp.next false _ p.remember) (fun c => rfl), angulars_map (Comp.finish false _) (fun c => rfl)]
        exact e1
  induction fuel generalizing u with
  | zero => cases h
  | succ fuel ih =>
    unfold integrate at h
    split at h
    · cases h
    · next e => cases h; exact key e
    · next e => exact (ih h).trans (key e)

theorem iterate_still (he : Even eval) {fuel : ℕ} {u u' : State S F}
    (h : iterate T false eval fuel u = some u') : angulars u'.particles = angulars u.particles := by
  unfold iterate at h
  split at h
  · cases h
  · next s r e =>
    refine (integrate_still he h).trans ?_
    refine angulars_zipWith _ ?_ _ _ (by rw [he _ _ _ _ _ e]; simp [places])
    intro a p
    rfl

end
end Posidonius.Ias15
