import Verif.Props.Ias15Sweep

/-! # C76: a converged step of IAS15 is the collocation solution -/

namespace Posidonius.Ias15
open Posidonius

/-- Position, velocity and angular momentum at the fraction `τ` of the step, as exact integrals. -/
noncomputable def exactPlace (spin : Bool) (dt τ : ℝ) (p : Particle ℝ) : Place ℝ :=
  { position := Axes.map (fun c : Comp ℝ =>
      c.x0 - c.csx + ∫ t in (0 : ℝ)..dt * τ, (c.v0 + ∫ u in (0 : ℝ)..t, c.acc.at dt u)) p,
    velocity := Axes.map (fun c : Comp ℝ => c.v0 - c.csv + ∫ t in (0 : ℝ)..dt * τ, c.acc.at dt t) p,
    angular := Axes.map (fun c : Comp ℝ => if spin then c.l0 - c.css + ∫ t in (0 : ℝ)..dt * τ, c.tor.at dt t else c.l) p }

/-- **C47, all particles**: the evaluation at a spacing sees exactly the integrals of the polynomials. -/
theorem C47_places (spin : Bool) (dt h : ℝ) (hdt : dt ≠ 0) (l : List (Particle ℝ)) :
    places (l.map (Axes.map (Comp.predict spin dt h))) = l.map (exactPlace spin dt h) := by
  rw [places, List.map_map]
  apply List.map_congr_left
  intro p _
  have hl : ∀ c : Comp ℝ, (c.predict spin dt h).l
      = if spin then c.l0 - c.css + ∫ t in (0 : ℝ)..dt * h, c.tor.at dt t else c.l := by
    intro c
    rw [Comp.predict]
    split
    · exact C47_velocity dt h _ _ _ hdt
    · rfl
  simp only [Function.comp_apply, exactPlace, Axes.map, hl]
  congr 2 <;> first | exact C47_position dt h _ hdt | exact C47_velocity dt h _ _ _ hdt

/-- What prediction and correction leave alone. -/
structure Comp.Frame (spin : Bool) (c d : Comp ℝ) : Prop where
  x0 : c.x0 = d.x0
  v0 : c.v0 = d.v0
  l0 : c.l0 = d.l0
  csx : c.csx = d.csx
  csv : c.csv = d.csv
  css : c.css = d.css
  a0 : c.acc.a0 = d.acc.a0
  dl0 : c.tor.a0 = d.tor.a0
  l : spin = false → c.l = d.l

/-- The same polynomials of acceleration and, if the spin is integrated, torque. -/
def Comp.SameCurve (spin : Bool) (c d : Comp ℝ) : Prop :=
  (∀ τ, poly c.acc.a0 c.acc.b τ = poly d.acc.a0 d.acc.b τ)
  ∧ (spin = true → ∀ τ, poly c.tor.a0 c.tor.b τ = poly d.tor.a0 d.tor.b τ)

section
variable {T : Tables ℝ} {spin : Bool} {S : Type}

theorem Series.correct_a0 (n : ℕ) (s : Series ℝ) : (s.correct T n).a0 = s.a0 := by
  unfold Series.correct
  split <;> rfl

theorem Comp.correct_frame (n : ℕ) (a dl : ℝ) (c : Comp ℝ) : Comp.Frame spin c (c.correct T spin n a dl) := by
  refine ⟨rfl, rfl, rfl, rfl, rfl, rfl, ?_, ?_, fun _ => rfl⟩
  · simp only [Comp.correct, Series.correct_a0]
  · simp only [Comp.correct]
    split
    · rw [Series.correct_a0]
    · rfl

theorem Comp.predict_frame (dt h : ℝ) (c : Comp ℝ) : Comp.Frame spin c (c.predict spin dt h) := by
  refine ⟨rfl, rfl, rfl, rfl, rfl, rfl, rfl, rfl, fun hs => ?_⟩
  simp [Comp.predict, hs]

theorem Comp.Frame.trans {c d e : Comp ℝ} (h : Comp.Frame spin c d) (k : Comp.Frame spin d e) : Comp.Frame spin c e :=
  ⟨h.x0.trans k.x0, h.v0.trans k.v0, h.l0.trans k.l0, h.csx.trans k.csx, h.csv.trans k.csv, h.css.trans k.css,
    h.a0.trans k.a0, h.dl0.trans k.dl0, fun hs => (h.l hs).trans (k.l hs)⟩

/-- All components. -/
def Frames (spin : Bool) : List (Particle ℝ) → List (Particle ℝ) → Prop := List.Forall₂ (Axes.Rel (Comp.Frame spin))
def SameCurves (spin : Bool) : List (Particle ℝ) → List (Particle ℝ) → Prop := List.Forall₂ (Axes.Rel (Comp.SameCurve spin))

theorem Frames.trans {l m n : List (Particle ℝ)} (h : Frames spin l m) (k : Frames spin m n) : Frames spin l n := by
  unfold Frames at *
  induction h generalizing n with
  | nil => cases k; exact .nil
  | cons a _ ih =>
    cases k with
    | cons b k =>
      exact .cons ⟨a.1.trans b.1, a.2.1.trans b.2.1, a.2.2.trans b.2.2⟩ (ih k)

theorem substep_frame (eval : Evaluate S ℝ) (he : Complete eval) (t dt : ℝ) (n : ℕ) (s s' : S)
    (l l' : List (Particle ℝ)) (h : substep T spin eval t dt n s l = some (s', l')) : Frames spin l l' := by
  unfold substep evaluateAt at h
  dsimp only at h
  split at h
  · cases h
  · next s1 l1 r e =>
    split at e
    · cases e
    · next s2 r2 e2 =>
      cases e
      cases h
      have hlen := he _ _ _ _ _ e2
      rw [places, List.length_map, List.length_map] at hlen
      clear e2
      rw [correctAll_eq]
      induction l generalizing r with
      | nil =>
        have : r = [] := List.length_eq_zero_iff.1 (by simpa using hlen)
        subst this
        exact .nil
      | cons p l ih =>
        match r, hlen with
        | q :: r, hlen =>
          exact .cons ⟨(Comp.predict_frame dt (T.h n) p.x).trans (Comp.correct_frame n _ _ _),
            (Comp.predict_frame dt (T.h n) p.y).trans (Comp.correct_frame n _ _ _),
            (Comp.predict_frame dt (T.h n) p.z).trans (Comp.correct_frame n _ _ _)⟩ (ih r (by simpa using hlen))

theorem frames_refl (l : List (Particle ℝ)) : Frames spin l l :=
  List.forall₂_same.2 fun _ _ =>
    ⟨⟨rfl, rfl, rfl, rfl, rfl, rfl, rfl, rfl, fun _ => rfl⟩, ⟨rfl, rfl, rfl, rfl, rfl, rfl, rfl, rfl, fun _ => rfl⟩,
      ⟨rfl, rfl, rfl, rfl, rfl, rfl, rfl, rfl, fun _ => rfl⟩⟩

/-- The same curves from the same beginning lead to the same places. -/
theorem exactPlace_congr (dt τ : ℝ) {l m : List (Particle ℝ)} (h : Frames spin l m) (k : SameCurves spin l m) :
    l.map (exactPlace spin dt τ) = m.map (exactPlace spin dt τ) := by
  have key : ∀ c d : Comp ℝ, Comp.Frame spin c d → Comp.SameCurve spin c d →
      (c.x0 - c.csx + ∫ t in (0 : ℝ)..dt * τ, (c.v0 + ∫ u in (0 : ℝ)..t, c.acc.at dt u)
        = d.x0 - d.csx + ∫ t in (0 : ℝ)..dt * τ, (d.v0 + ∫ u in (0 : ℝ)..t, d.acc.at dt u))
      ∧ (c.v0 - c.csv + ∫ t in (0 : ℝ)..dt * τ, c.acc.at dt t = d.v0 - d.csv + ∫ t in (0 : ℝ)..dt * τ, d.acc.at dt t)
      ∧ ((if spin then c.l0 - c.css + ∫ t in (0 : ℝ)..dt * τ, c.tor.at dt t else c.l)
        = if spin then d.l0 - d.css + ∫ t in (0 : ℝ)..dt * τ, d.tor.at dt t else d.l) := by
    intro c d f g
    have ha : c.acc.at dt = d.acc.at dt := by funext t; exact g.1 _
    refine ⟨by rw [f.x0, f.csx, f.v0, ha], by rw [f.v0, f.csv, ha], ?_⟩
    split
    · next hs =>
      have ht : c.tor.at dt = d.tor.at dt := by funext t; exact g.2 hs _
      rw [f.l0, f.css, ht]
    · next hs => exact f.l (by simpa using hs)
  unfold Frames SameCurves at *
  induction h with
  | nil => rfl
  | cons a _ ih =>
    cases k with
    | cons b k =>
      rw [List.map_cons, List.map_cons, ih k]
      congr 1
      obtain ⟨x1, x2, x3⟩ := key _ _ a.1 b.1
      obtain ⟨y1, y2, y3⟩ := key _ _ a.2.1 b.2.1
      obtain ⟨z1, z2, z3⟩ := key _ _ a.2.2 b.2.2
      simp only [exactPlace, Axes.map, x1, x2, x3, y1, y2, y3, z1, z2, z3]

theorem newtonBasis_ne (hT : Exact T) {n : ℕ} (hn : 1 ≤ n) (hn' : n ≤ 7) : newtonBasis T.h (n - 1) (T.h n) ≠ 0 := by
  unfold newtonBasis
  apply mul_ne_zero
  · have := hT.distinct n hn' 0 (by omega)
    rwa [hT.first] at this
  · rw [Ne, List.prod_eq_zero_iff, List.mem_map]
    rintro ⟨i, hi, h⟩
    rw [List.mem_range] at hi
    exact hT.distinct n hn' (i + 1) (by omega) (sub_eq_zero.1 h)

/-- If the curve already has the value to be corrected to, the correction does not change it. -/
theorem Comp.correct_same (hT : Exact T) {n : ℕ} (hn : 1 ≤ n) (hn' : n ≤ 7) (c d : Comp ℝ) (a dl : ℝ) (hc : c.Good T spin)
    (h : Comp.SameCurve spin c d) (ha : poly d.acc.a0 d.acc.b (T.h n) = a)
    (hdl : spin = true → poly d.tor.a0 d.tor.b (T.h n) = dl) :
    Comp.SameCurve spin (c.correct T spin n a dl) d := by
  obtain ⟨_, x2, x3, ⟨k, x4⟩, x5⟩ := Comp.correct_spec hT hn hn' c a dl hc
  have hne := newtonBasis_ne hT hn hn'
  constructor
  · have : k = 0 := by
      have e := x4 (T.h n)
      rw [x2, h.1, ha] at e
      have e' : k * newtonBasis T.h (n - 1) (T.h n) = 0 := by linarith
      exact (mul_eq_zero.1 e').resolve_right hne
    intro τ
    rw [x4, this, zero_mul, add_zero, h.1]
  · intro hs
    obtain ⟨k', x6⟩ := x5 hs
    have : k' = 0 := by
      have e := x6 (T.h n)
      rw [x3 hs, h.2 hs, hdl hs] at e
      have e' : k' * newtonBasis T.h (n - 1) (T.h n) = 0 := by linarith
      exact (mul_eq_zero.1 e').resolve_right hne
    intro τ
    rw [x6, this, zero_mul, add_zero, h.2 hs]

theorem correctAll_same (hT : Exact T) {n : ℕ} (hn : 1 ≤ n) (hn' : n ≤ 7) (dt : ℝ) (r : List (Axes ℝ × Axes ℝ))
    (l m : List (Particle ℝ)) (hlen : r.length = l.length) (hg : Good T spin l) (h : SameCurves spin l m)
    (hp : List.Forall₂ (Passes spin (T.h n)) m r) :
    SameCurves spin (correctAll T spin n r (l.map (Axes.map (Comp.predict spin dt (T.h n))))) m := by
  rw [correctAll_eq]
  unfold SameCurves at *
  induction h generalizing r with
  | nil => cases hp; exact .nil
  | @cons p q l m a _ ih =>
    cases hp with
    | @cons _ v _ r b c =>
      refine .cons ?_ (ih r (by simpa using hlen) (fun x hx => hg x (by simp [hx])) c)
      obtain ⟨g1, g2, g3⟩ := hg p (by simp)
      exact ⟨Comp.correct_same hT hn hn' (p.x.predict spin dt (T.h n)) _ _ _ g1 a.1 b.1.1 (fun hs => (b.2 hs).1),
        Comp.correct_same hT hn hn' (p.y.predict spin dt (T.h n)) _ _ _ g2 a.2.1 b.1.2.1 (fun hs => (b.2 hs).2.1),
        Comp.correct_same hT hn hn' (p.z.predict spin dt (T.h n)) _ _ _ g3 a.2.2 b.1.2.2 (fun hs => (b.2 hs).2.2)⟩

/-- Later sub-steps keep the values at earlier spacings, the beginning and the good order of the coefficients. -/
theorem substeps_keep (hT : Exact T) (eval : Evaluate S ℝ) (he : Complete eval) (t dt : ℝ) (k m : ℕ) (hk : m + k ≤ 7)
    (s s' : S) (l l' : List (Particle ℝ)) (hg : Good T spin l)
    (h : substeps T spin eval t dt (List.range' (m + 1) k) s l = some (s', l')) :
    Frames spin l l' ∧ ∀ i, 1 ≤ i → i ≤ m → ∀ r', List.Forall₂ (Passes spin (T.h i)) l r' →
      List.Forall₂ (Passes spin (T.h i)) l' r' := by
  induction k generalizing m s l with
  | zero =>
    cases h
    exact ⟨frames_refl _, fun _ _ _ _ h => h⟩
  | succ k ih =>
    rw [List.range'_succ] at h
    unfold substeps at h
    split at h
    · cases h
    · next s1 l1 e =>
      obtain ⟨r, h1, h2, h3, h4⟩ := substep_spec hT eval he t dt (by omega) (by omega) s s1 l l1 hg e
      obtain ⟨j1, j2⟩ := ih (m + 1) (by omega) s1 l1 h2 h
      exact ⟨(substep_frame eval he t dt _ _ _ _ _ e).trans j1,
        fun i hi hi' r' hr => j2 i hi (by omega) r' (h4 i hi (by omega) r' hr)⟩

/-- The forces at the places of the exact integrals are those of the polynomials. -/
def Collocates (T : Tables ℝ) (spin : Bool) (eval : Evaluate S ℝ) (t dt : ℝ) (n : ℕ) (l : List (Particle ℝ)) : Prop :=
  ∃ s s' r, eval s (t + dt * T.h n) (l.map (exactPlace spin dt (T.h n))) = some (s', r)
    ∧ List.Forall₂ (Passes spin (T.h n)) l r

theorem substeps_collocate (hT : Exact T) (eval : Evaluate S ℝ) (he : Complete eval) (t dt : ℝ) (hdt : dt ≠ 0)
    (k m : ℕ) (hk : m + k ≤ 7) (s s' : S) (l l' : List (Particle ℝ)) (hg : Good T spin l)
    (h : substeps T spin eval t dt (List.range' (m + 1) k) s l = some (s', l')) (hs : SameCurves spin l l') :
    ∀ n, m < n → n ≤ m + k → Collocates T spin eval t dt n l' := by
  induction k generalizing m s l with
  | zero => intro n h1 h2; omega
  | succ k ih =>
    have h0 := h
    rw [List.range'_succ] at h
    unfold substeps at h
    split at h
    · cases h
    · next s1 l1 e =>
      have e0 := e
      unfold substep evaluateAt at e
      dsimp only at e
      split at e
      · cases e
      · next s2 l2 r e1 =>
        split at e1
        · cases e1
        · next s3 r3 e2 =>
          cases e1
          cases e
          have hlen := he _ _ _ _ _ e2
          have hlen' : r.length = l.length := by simpa [places] using hlen
          obtain ⟨g1, g2, -⟩ := correctAll_spec (spin := spin) hT (by omega : 1 ≤ m + 1) (by omega) r _
            (by simpa [places] using hlen) (predict_good dt (T.h (m + 1)) hg)
          obtain ⟨f1, f2⟩ := substeps_keep hT eval he t dt k (m + 1) (by omega) _ _ _ _ g1 h
          have f0 := substep_frame eval he t dt _ _ _ _ _ e0
          have hp := f2 (m + 1) (by omega) le_rfl r g2
          have hs' := correctAll_same hT (by omega : 1 ≤ m + 1) (by omega) dt r l l' hlen' hg hs hp
          intro n h1 h2
          rcases Nat.lt_or_ge (m + 1) n with h3 | h3
          · exact ih (m + 1) (by omega) _ _ g1 h hs' n h3 (by omega)
          · have : n = m + 1 := by omega
            subst this
            rw [C47_places spin dt _ hdt, exactPlace_congr dt _ (f0.trans f1) hs] at e2
            exact ⟨s, s1, r, e2, hp⟩

/-- **C76, collocation**: a sweep that does not change the polynomials any more has found the solution of the
collocation equations: at each of the seven spacings the forces at the exact integrals of the polynomials are the
values of the polynomials. -/
theorem C76_collocation [FNormal ℝ] (hT : Exact T) (eval : Evaluate S ℝ) (he : Complete eval) (t dt : ℝ) (hdt : dt ≠ 0)
    (s s' : S) (l l' : List (Particle ℝ)) (err : ℝ) (hg : Good T spin l)
    (h : sweep T spin eval t dt s l = some (s', l', err)) (hs : SameCurves spin l l') :
    ∀ n, 1 ≤ n → n ≤ 7 → Collocates T spin eval t dt n l' := by
  have := sweep_substeps h
  intro n h1 h2
  exact substeps_collocate hT eval he t dt hdt 7 0 (by norm_num) s s' l l' hg this hs n (by omega) (by omega)

end
end Posidonius.Ias15
