import Verif.Lemmas.Ias15
import Verif.Props.Ias15

/-! # C76: the sweeps of IAS15 -/

namespace Posidonius.Ias15
open Posidonius

/-- Componentwise relation. -/
def Axes.Rel {A B : Type} (P : A → B → Prop) (a : Axes A) (b : Axes B) : Prop := P a.x b.x ∧ P a.y b.y ∧ P a.z b.z

/-- The polynomials of a particle take the evaluated acceleration (and, if the spin is integrated, torque) `q` at the
fraction `τ` of the step. -/
def Passes (spin : Bool) (τ : ℝ) (p : Particle ℝ) (q : Axes ℝ × Axes ℝ) : Prop :=
  Axes.Rel (fun (c : Comp ℝ) a => poly c.acc.a0 c.acc.b τ = a) p q.1
  ∧ (spin = true → Axes.Rel (fun (c : Comp ℝ) a => poly c.tor.a0 c.tor.b τ = a) p q.2)

/-- Coefficients `b` and `g` belong together and there are no compensations. -/
def Comp.Good (T : Tables ℝ) (spin : Bool) (c : Comp ℝ) : Prop :=
  (c.acc.Clean ∧ c.acc.Linked T.h) ∧ (spin = true → c.tor.Clean ∧ c.tor.Linked T.h)

def Good (T : Tables ℝ) (spin : Bool) (l : List (Particle ℝ)) : Prop :=
  ∀ p ∈ l, p.x.Good T spin ∧ p.y.Good T spin ∧ p.z.Good T spin

/-- Every evaluation gives as many accelerations as there are particles. -/
def Complete {S : Type} (eval : Evaluate S ℝ) : Prop := ∀ s t l s' r, eval s t l = some (s', r) → r.length = l.length

section
variable {T : Tables ℝ} {spin : Bool}

theorem correct_spec (hT : Exact T) {n : ℕ} (hn : 1 ≤ n) (hn' : n ≤ 7) (s : Series ℝ) (hc : s.Clean)
    (hl : s.Linked T.h) :
    (s.correct T n).Clean ∧ (s.correct T n).Linked T.h ∧ (s.correct T n).a0 = s.a0
    ∧ poly s.a0 (s.correct T n).b (T.h n) = s.now
    ∧ ∃ k, ∀ τ, poly s.a0 (s.correct T n).b τ = poly s.a0 s.b τ + k * newtonBasis T.h (n - 1) τ := by
  interval_cases n
  · obtain ⟨h1, h2, h3, h4, h5⟩ := correct1_spec hT s hc hl; exact ⟨h1, h2, h3, h4, _, h5⟩
  · obtain ⟨h1, h2, h3, h4, h5⟩ := correct2_spec hT s hc hl; exact ⟨h1, h2, h3, h4, _, h5⟩
  · obtain ⟨h1, h2, h3, h4, h5⟩ := correct3_spec hT s hc hl; exact ⟨h1, h2, h3, h4, _, h5⟩
  · obtain ⟨h1, h2, h3, h4, h5⟩ := correct4_spec hT s hc hl; exact ⟨h1, h2, h3, h4, _, h5⟩
  · obtain ⟨h1, h2, h3, h4, h5⟩ := correct5_spec hT s hc hl; exact ⟨h1, h2, h3, h4, _, h5⟩
  · obtain ⟨h1, h2, h3, h4, h5⟩ := correct6_spec hT s hc hl; exact ⟨h1, h2, h3, h4, _, h5⟩
  · obtain ⟨h1, h2, h3, h4, h5⟩ := correct7_spec hT s hc hl; exact ⟨h1, h2, h3, h4, _, h5⟩

/-- What a correction does to a component: the polynomial passes through the new value and keeps its values at the
spacings before. -/
theorem Comp.correct_spec (hT : Exact T) {n : ℕ} (hn : 1 ≤ n) (hn' : n ≤ 7) (c : Comp ℝ) (a dl : ℝ)
    (hc : c.Good T spin) :
    (c.correct T spin n a dl).Good T spin
    ∧ poly (c.correct T spin n a dl).acc.a0 (c.correct T spin n a dl).acc.b (T.h n) = a
    ∧ (spin = true → poly (c.correct T spin n a dl).tor.a0 (c.correct T spin n a dl).tor.b (T.h n) = dl)
    ∧ (∃ k, ∀ τ, poly (c.correct T spin n a dl).acc.a0 (c.correct T spin n a dl).acc.b τ
        = poly c.acc.a0 c.acc.b τ + k * newtonBasis T.h (n - 1) τ)
    ∧ (spin = true → ∃ k, ∀ τ, poly (c.correct T spin n a dl).tor.a0 (c.correct T spin n a dl).tor.b τ
        = poly c.tor.a0 c.tor.b τ + k * newtonBasis T.h (n - 1) τ) := by
  obtain ⟨⟨c1, c2⟩, c3⟩ := hc
  obtain ⟨h1, h2, h3, h4, h5⟩ := Ias15.correct_spec hT hn hn' { c.acc with now := a } c1 c2
  have key : spin = true → _ := fun hs =>
    Ias15.correct_spec hT hn hn' { c.tor with now := dl } (c3 hs).1 (c3 hs).2
  refine ⟨⟨⟨h1, h2⟩, ?_⟩, ?_, ?_, ?_, ?_⟩
  · intro hs
    simp only [Comp.correct, hs, if_true]
    exact ⟨(key hs).1, (key hs).2.1⟩
  · simp only [Comp.correct]; rw [h3]; exact h4
  · intro hs
    simp only [Comp.correct, hs, if_true]
    rw [(key hs).2.2.1]; exact (key hs).2.2.2.1
  · simp only [Comp.correct]; rw [h3]; exact h5
  · intro hs
    simp only [Comp.correct, hs, if_true]
    rw [(key hs).2.2.1]; exact (key hs).2.2.2.2

theorem predict_passes (dt h τ : ℝ) (p : Particle ℝ) (q : Axes ℝ × Axes ℝ) :
    Passes spin τ (Axes.map (Comp.predict spin dt h) p) q ↔ Passes spin τ p q := Iff.rfl

theorem predict_good (dt h : ℝ) {l : List (Particle ℝ)} (hl : Good T spin l) :
    Good T spin (l.map (Axes.map (Comp.predict spin dt h))) := by
  intro p hp
  obtain ⟨q, hq, rfl⟩ := List.mem_map.1 hp
  exact hl q hq

/-- The correction of one particle. -/
noncomputable def correctParticle (T : Tables ℝ) (spin : Bool) (n : ℕ) (q : Axes ℝ × Axes ℝ) (p : Particle ℝ) : Particle ℝ :=
  ⟨p.x.correct T spin n q.1.x q.2.x, p.y.correct T spin n q.1.y q.2.y, p.z.correct T spin n q.1.z q.2.z⟩

theorem correctParticle_good (hT : Exact T) {n : ℕ} (hn : 1 ≤ n) (hn' : n ≤ 7) (q : Axes ℝ × Axes ℝ) (p : Particle ℝ)
    (hp : p.x.Good T spin ∧ p.y.Good T spin ∧ p.z.Good T spin) :
    ((correctParticle T spin n q p).x.Good T spin ∧ (correctParticle T spin n q p).y.Good T spin
      ∧ (correctParticle T spin n q p).z.Good T spin)
    ∧ Passes spin (T.h n) (correctParticle T spin n q p) q
    ∧ ∀ i, 1 ≤ i → i < n → ∀ r, Passes spin (T.h i) p r → Passes spin (T.h i) (correctParticle T spin n q p) r := by
  obtain ⟨x1, x2, x3, ⟨kx, x4⟩, x5⟩ := Comp.correct_spec hT hn hn' p.x q.1.x q.2.x hp.1
  obtain ⟨y1, y2, y3, ⟨ky, y4⟩, y5⟩ := Comp.correct_spec hT hn hn' p.y q.1.y q.2.y hp.2.1
  obtain ⟨z1, z2, z3, ⟨kz, z4⟩, z5⟩ := Comp.correct_spec hT hn hn' p.z q.1.z q.2.z hp.2.2
  refine ⟨⟨x1, y1, z1⟩, ⟨⟨x2, y2, z2⟩, fun hs => ⟨x3 hs, y3 hs, z3 hs⟩⟩, ?_⟩
  intro i hi hin r ⟨⟨rx, ry, rz⟩, hr⟩
  have hz : newtonBasis T.h (n - 1) (T.h i) = 0 := newtonBasis_root T.h hi (by omega)
  refine ⟨⟨?_, ?_, ?_⟩, fun hs => ?_⟩
  · exact (x4 _).trans (by rw [hz, mul_zero, add_zero, rx])
  · exact (y4 _).trans (by rw [hz, mul_zero, add_zero, ry])
  · exact (z4 _).trans (by rw [hz, mul_zero, add_zero, rz])
  · obtain ⟨sx, sy, sz⟩ := hr hs
    obtain ⟨k, x6⟩ := x5 hs
    obtain ⟨k', y6⟩ := y5 hs
    obtain ⟨k'', z6⟩ := z5 hs
    refine ⟨?_, ?_, ?_⟩
    · exact (x6 _).trans (by rw [hz, mul_zero, add_zero, sx])
    · exact (y6 _).trans (by rw [hz, mul_zero, add_zero, sy])
    · exact (z6 _).trans (by rw [hz, mul_zero, add_zero, sz])

theorem correctAll_eq (n : ℕ) (r : List (Axes ℝ × Axes ℝ)) (l : List (Particle ℝ)) :
    correctAll T spin n r l = List.zipWith (correctParticle T spin n) r l := rfl

theorem correctAll_spec (hT : Exact T) {n : ℕ} (hn : 1 ≤ n) (hn' : n ≤ 7) (r : List (Axes ℝ × Axes ℝ))
    (l : List (Particle ℝ)) (hlen : r.length = l.length) (hg : Good T spin l) :
    Good T spin (correctAll T spin n r l)
    ∧ List.Forall₂ (Passes spin (T.h n)) (correctAll T spin n r l) r
    ∧ ∀ i, 1 ≤ i → i < n → ∀ r', List.Forall₂ (Passes spin (T.h i)) l r' →
        List.Forall₂ (Passes spin (T.h i)) (correctAll T spin n r l) r' := by
  rw [correctAll_eq]
  induction l generalizing r with
  | nil =>
    have : r = [] := List.length_eq_zero_iff.1 (by simpa using hlen)
    subst this
    exact ⟨fun p hp => by simp at hp, .nil, fun i _ _ r' h => h⟩
  | cons p l ih =>
    match r, hlen with
    | q :: r, hlen =>
      obtain ⟨i1, i2, i3⟩ := ih r (by simpa using hlen) fun p hp => hg p (by simp [hp])
      obtain ⟨j1, j2, j3⟩ := correctParticle_good hT hn hn' q p (hg p (by simp))
      refine ⟨?_, .cons j2 i2, ?_⟩
      · intro x hx
        rcases List.mem_cons.1 hx with rfl | hx
        · exact j1
        · exact i1 x hx
      · intro i hi hin r' h
        cases h with
        | cons h h' => exact .cons (j3 i hi hin _ h) (i3 i hi hin _ h')

variable {S : Type}

/-- An evaluation at spacing `n` from particles `l`, with result `r`. -/
def EvaluatedAt (T : Tables ℝ) (spin : Bool) (eval : Evaluate S ℝ) (t dt : ℝ) (n : ℕ) (r : List (Axes ℝ × Axes ℝ)) : Prop :=
  ∃ s l s' l', evaluateAt T spin eval t dt n s l = some (s', l', r)

theorem substep_spec (hT : Exact T) (eval : Evaluate S ℝ) (he : Complete eval) (t dt : ℝ) {n : ℕ} (hn : 1 ≤ n) (hn' : n ≤ 7)
    (s s' : S) (l l' : List (Particle ℝ)) (hg : Good T spin l) (h : substep T spin eval t dt n s l = some (s', l')) :
    ∃ r, EvaluatedAt T spin eval t dt n r ∧ Good T spin l' ∧ List.Forall₂ (Passes spin (T.h n)) l' r
      ∧ ∀ i, 1 ≤ i → i < n → ∀ r', List.Forall₂ (Passes spin (T.h i)) l r' → List.Forall₂ (Passes spin (T.h i)) l' r' := by
  unfold substep at h
  split at h
  · cases h
  · next s1 l1 r e =>
    cases h
    have e0 := e
    unfold evaluateAt at e
    dsimp only at e
    split at e
    · cases e
    · next s2 r2 e2 =>
      cases e
      have hlen := he _ _ _ _ _ e2
      rw [places, List.length_map] at hlen
      obtain ⟨h1, h2, h3⟩ := correctAll_spec (spin := spin) hT hn hn' r _ hlen (predict_good dt (T.h n) hg)
      refine ⟨r, ⟨_, _, _, _, e0⟩, h1, h2, fun i hi hin r' h => h3 i hi hin r' ?_⟩
      rw [List.forall₂_map_left_iff]
      exact h

/-- Substeps `m+1`, `m+2`, ... `m+k`. -/
theorem substeps_spec (hT : Exact T) (eval : Evaluate S ℝ) (he : Complete eval) (t dt : ℝ) (k m : ℕ) (hk : m + k ≤ 7)
    (s s' : S) (l l' : List (Particle ℝ)) (hg : Good T spin l) (rs : ℕ → List (Axes ℝ × Axes ℝ))
    (hr : ∀ i, 1 ≤ i → i ≤ m → EvaluatedAt T spin eval t dt i (rs i) ∧ List.Forall₂ (Passes spin (T.h i)) l (rs i))
    (h : substeps T spin eval t dt (List.range' (m + 1) k) s l = some (s', l')) :
    Good T spin l' ∧ ∃ rs' : ℕ → List (Axes ℝ × Axes ℝ), ∀ i, 1 ≤ i → i ≤ m + k →
      EvaluatedAt T spin eval t dt i (rs' i) ∧ List.Forall₂ (Passes spin (T.h i)) l' (rs' i) := by
  induction k generalizing m s l rs with
  | zero =>
    cases h
    exact ⟨hg, rs, hr⟩
  | succ k ih =>
    rw [List.range'_succ] at h
    unfold substeps at h
    split at h
    · cases h
    · next s1 l1 e =>
      obtain ⟨r, h1, h2, h3, h4⟩ := substep_spec hT eval he t dt (by omega) (by omega) s s1 l l1 hg e
      have := ih (m + 1) (by omega) s1 l1 h2 (fun i => if i = m + 1 then r else rs i) (by
        intro i hi hi'
        rcases eq_or_ne i (m + 1) with rfl | hne
        · simp only [if_true]; exact ⟨h1, h3⟩
        · simp only [if_neg hne]
          obtain ⟨a, b⟩ := hr i hi (by omega)
          exact ⟨a, h4 i hi (by omega) _ b⟩) h
      rw [show m + 1 + k = m + (k + 1) by omega] at this
      exact this

/-- A sweep is the seven sub-steps. -/
theorem sweep_substeps [FNormal ℝ] {eval : Evaluate S ℝ} {t dt : ℝ} {s s' : S} {l l' : List (Particle ℝ)} {err : ℝ}
    (h : sweep T spin eval t dt s l = some (s', l', err)) :
    substeps T spin eval t dt (List.range' (0 + 1) 7) s l = some (s', l') := by
  unfold sweep at h
  split at h
  · cases h
  · next s1 l1 e1 =>
    split at h
    · cases h
    · next s2 l2 e2 =>
      cases h
      have key : ∀ (ns : List ℕ) (s0 : S) (l0 : List (Particle ℝ)), substeps T spin eval t dt ns s0 l0 = some (s1, l1) →
          substeps T spin eval t dt (ns ++ [7]) s0 l0 = some (s', l') := by
        intro ns
        induction ns with
        | nil =>
          intro s0 l0 e
          cases e
          simp [substeps, e2]
        | cons n ns ih =>
          intro s0 l0 e
          rw [List.cons_append]
          unfold substeps at e ⊢
          split at e
          · cases e
          · next s3 l3 e3 =>
            exact ih _ _ e
      exact key [1, 2, 3, 4, 5, 6] s l e1

/-- **C76, interpolation**: after every sweep the acceleration and torque polynomials of all particles pass through
the values evaluated during that sweep, at all seven spacings. -/
theorem C76_interpolates [FNormal ℝ] (hT : Exact T) (eval : Evaluate S ℝ) (he : Complete eval) (t dt : ℝ)
    (s s' : S) (l l' : List (Particle ℝ)) (err : ℝ) (hg : Good T spin l) (h : sweep T spin eval t dt s l = some (s', l', err)) :
    Good T spin l' ∧ ∃ rs : ℕ → List (Axes ℝ × Axes ℝ), ∀ n, 1 ≤ n → n ≤ 7 →
      EvaluatedAt T spin eval t dt n (rs n) ∧ List.Forall₂ (Passes spin (T.h n)) l' (rs n) :=
  substeps_spec hT eval he t dt 7 0 (by norm_num) s s' l l' hg (fun _ => []) (by intro i h1 h2; omega)
    (sweep_substeps h)

/-- The step begins with coefficients that belong together. -/
theorem start_good (hT : Exact T) (l : List (Particle ℝ)) : Good T spin (l.map (Axes.map (Comp.start T spin))) := by
  have key : ∀ c : Comp ℝ, (c.start T spin).Good T spin := by
    intro c
    refine ⟨⟨rfl, start_linked hT _⟩, fun hs => ?_⟩
    simp only [Comp.start, hs, if_true]
    exact ⟨rfl, start_linked hT _⟩
  intro p hp
  obtain ⟨q, _, rfl⟩ := List.mem_map.1 hp
  exact ⟨key _, key _, key _⟩

/-- **C76, the whole loop of sweeps**: at least one sweep is made (C48), and the polynomials the step integrates pass
through values evaluated at all seven spacings. -/
theorem C76_step [FNormal ℝ] (hT : Exact T) (eval : Evaluate S ℝ) (he : Complete eval) (t dt : ℝ)
    (s s' : S) (l l' : List (Particle ℝ)) (h : sweeps T spin eval t dt 12 0 (lit 1e300) (lit 2) s
      (l.map (Axes.map (Comp.start T spin))) = some (s', l')) :
    Good T spin l' ∧ ∃ rs : ℕ → List (Axes ℝ × Axes ℝ), ∀ n, 1 ≤ n → n ≤ 7 →
      EvaluatedAt T spin eval t dt n (rs n) ∧ List.Forall₂ (Passes spin (T.h n)) l' (rs n) := by
  have rest : ∀ (left done : ℕ) (err last : ℝ) (s0 : S) (l0 : List (Particle ℝ)), Good T spin l0 →
      (∃ rs : ℕ → List (Axes ℝ × Axes ℝ), ∀ n, 1 ≤ n → n ≤ 7 →
        EvaluatedAt T spin eval t dt n (rs n) ∧ List.Forall₂ (Passes spin (T.h n)) l0 (rs n)) →
      sweeps T spin eval t dt left done err last s0 l0 = some (s', l') →
      Good T spin l' ∧ ∃ rs : ℕ → List (Axes ℝ × Axes ℝ), ∀ n, 1 ≤ n → n ≤ 7 →
        EvaluatedAt T spin eval t dt n (rs n) ∧ List.Forall₂ (Passes spin (T.h n)) l' (rs n) := by
    intro left
    induction left with
    | zero => intro done err last s0 l0 hg hr h; cases h; exact ⟨hg, hr⟩
    | succ left ih =>
      intro done err last s0 l0 hg hr h
      unfold sweeps at h
      split at h
      · cases h; exact ⟨hg, hr⟩
      · split at h
        · cases h
        · next s1 l1 e1 h1 =>
          obtain ⟨a, b⟩ := C76_interpolates hT eval he t dt s0 s1 l0 l1 e1 hg h1
          exact ih _ _ _ _ _ a b h
  unfold sweeps at h
  rw [if_neg (by simp only [lit_real, ltb_real]; norm_num)] at h
  split at h
  · cases h
  · next s1 l1 e1 h1 =>
    obtain ⟨a, b⟩ := C76_interpolates hT eval he t dt s s1 _ l1 e1 (start_good hT l) h1
    exact rest _ _ _ _ _ _ a b h

end
end Posidonius.Ias15
