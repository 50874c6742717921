import Verif.Model.Ias15
import Verif.Model.RealScalar
import Verif.Lemmas.Ias15
import Verif.Lemmas.Ias15Guard

/-! IAS15 without forces: a step that ends. -/

namespace Posidonius.Ias15

/-- No acceleration. -/
structure Quiet (s : Series ℝ) : Prop where
  a0 : s.a0 = 0
  now : s.now = 0
  b : s.b = Seven.zero
  g : s.g = Seven.zero
  cs : s.cs = Seven.zero

theorem Quiet.correct {T : Tables ℝ} {s : Series ℝ} (h : Quiet s) (n : ℕ) : Quiet (Series.correct T n s) := by
  obtain ⟨a0, now, b, g, cs, e, br, er⟩ := s
  obtain ⟨h1, h2, h3, h4, h5⟩ := h
  dsimp only at h1 h2 h3 h4 h5
  subst h1 h2 h3 h4 h5
  unfold Series.correct
  split <;> constructor <;>
    simp [Series.correct1, Series.correct2, Series.correct3, Series.correct4, Series.correct5, Series.correct6,
      Series.correct7, Series.difference, addCs, Series.add0, Series.add1, Series.add2, Series.add3, Series.add4,
      Series.add5, Series.add6, Seven.zero]

theorem Quiet.start {T : Tables ℝ} {s : Series ℝ} (h : s.b = Seven.zero) (hn : s.now = 0) :
    Quiet (Series.start T { s with a0 := 0 }) := by
  constructor <;> simp [Series.start, h, hn, Seven.zero]

variable [FNormal ℝ]

theorem normalMax_zero (l : List ℝ) (h : ∀ x ∈ l, x = 0) : normalMax l = 0 := by
  unfold normalMax
  induction l with
  | nil => simp
  | cons x l ih =>
    rw [List.foldl_cons, h x (by simp)]
    simp only [lit_real, ltb_real]
    have := ih fun y hy => h y (by simp [hy])
    simpa using this

/-- No acceleration of any particle. -/
def Coasting (l : List (Particle ℝ)) : Prop := ∀ p ∈ l, Quiet p.x.acc ∧ Quiet p.y.acc ∧ Quiet p.z.acc

/-- An evaluation that always finds no acceleration. -/
def Free {S : Type} (P : S → Prop) (N : ℕ) (eval : Evaluate S ℝ) : Prop :=
  ∀ s t l, P s → l.length = N → ∃ s' r, eval s t l = some (s', r) ∧ P s' ∧ r.length = N ∧ ∀ q ∈ r, q.1 = ⟨0, 0, 0⟩

variable {S : Type} {P : S → Prop} {N : ℕ} {eval : Evaluate S ℝ} {T : Tables ℝ}

omit [FNormal ℝ] in
theorem calm_zipWith (f : Axes ℝ × Axes ℝ → Particle ℝ → Particle ℝ)
    (hf : ∀ (q : Axes ℝ × Axes ℝ) (p : Particle ℝ), q.1 = ⟨0, 0, 0⟩ → Quiet p.x.acc ∧ Quiet p.y.acc ∧ Quiet p.z.acc →
      Quiet (f q p).x.acc ∧ Quiet (f q p).y.acc ∧ Quiet (f q p).z.acc)
    {r : List (Axes ℝ × Axes ℝ)} (hr : ∀ q ∈ r, q.1 = ⟨0, 0, 0⟩) {l : List (Particle ℝ)} (hl : Coasting l) :
    Coasting (List.zipWith f r l) := by
  induction r generalizing l with
  | nil => intro p hp; simp at hp
  | cons q r ih =>
    cases l with
    | nil => intro p hp; simp at hp
    | cons p l =>
      intro x hx
      rw [List.zipWith_cons_cons, List.mem_cons] at hx
      rcases hx with rfl | hx
      · exact hf q p (hr q (by simp)) (hl p (by simp))
      · exact ih (fun q hq => hr q (by simp [hq])) (fun p hp => hl p (by simp [hp])) x hx

omit [FNormal ℝ] in
theorem substep_free (he : Free P N eval) {t dt : ℝ} {n : ℕ} {s : S} {l : List (Particle ℝ)} (hs : P s)
    (hl : l.length = N) (hc : Coasting l) :
    ∃ s' l', substep T false eval t dt n s l = some (s', l') ∧ P s' ∧ l'.length = N ∧ Coasting l' := by
  obtain ⟨s', r, e, p, k, z⟩ := he s (t + dt * T.h n) (places (l.map (Axes.map (Comp.predict false dt (T.h n))))) hs
    (by simp [places, hl])
  refine ⟨s', correctAll T false n r (l.map (Axes.map (Comp.predict false dt (T.h n)))), ?_, p, ?_, ?_⟩
  · unfold substep evaluateAt
    dsimp only
    rw [e]
  · simp [correctAll, k, hl]
  · refine calm_zipWith _ ?_ z ?_
    · rintro ⟨q1, q2⟩ ⟨x, y, w⟩ hq ⟨h1, h2, h3⟩
      dsimp only at hq
      subst hq
      refine ⟨?_, ?_, ?_⟩
      · exact Quiet.correct (s := { x.acc with now := 0 }) ⟨h1.a0, rfl, h1.b, h1.g, h1.cs⟩ n
      · exact Quiet.correct (s := { y.acc with now := 0 }) ⟨h2.a0, rfl, h2.b, h2.g, h2.cs⟩ n
      · exact Quiet.correct (s := { w.acc with now := 0 }) ⟨h3.a0, rfl, h3.b, h3.g, h3.cs⟩ n
    · intro p hp
      obtain ⟨q, hq, rfl⟩ := List.mem_map.1 hp
      exact hc q hq

omit [FNormal ℝ] in
theorem substeps_free (he : Free P N eval) {t dt : ℝ} {ns : List ℕ} {s : S} {l : List (Particle ℝ)} (hs : P s)
    (hl : l.length = N) (hc : Coasting l) :
    ∃ s' l', substeps T false eval t dt ns s l = some (s', l') ∧ P s' ∧ l'.length = N ∧ Coasting l' := by
  induction ns generalizing s l with
  | nil => exact ⟨s, l, rfl, hs, hl, hc⟩
  | cons n ns ih =>
    obtain ⟨s1, l1, e, a, b, c⟩ := substep_free (T := T) (t := t) (dt := dt) (n := n) he hs hl hc
    unfold substeps
    rw [e]
    exact ih a b c

omit [FNormal ℝ] in
theorem Coasting.components {l : List (Particle ℝ)} (h : Coasting l) : ∀ c ∈ components l, Quiet c.acc := by
  intro c hc
  unfold Ias15.components at hc
  obtain ⟨p, hp, hc⟩ := List.mem_flatMap.1 hc
  obtain ⟨h1, h2, h3⟩ := h p hp
  simp only [Axes.toList, List.mem_cons, List.not_mem_nil, or_false] at hc
  rcases hc with rfl | rfl | rfl
  · exact h1
  · exact h2
  · exact h3

theorem sweep_free (he : Free P N eval) {t dt : ℝ} {s : S} {l : List (Particle ℝ)} (hs : P s)
    (hl : l.length = N) (hc : Coasting l) :
    ∃ s' l', sweep T false eval t dt s l = some (s', l', 0) ∧ P s' ∧ l'.length = N ∧ Coasting l' := by
  obtain ⟨s1, l1, e1, a1, b1, c1⟩ := substeps_free (T := T) (t := t) (dt := dt) (ns := [1, 2, 3, 4, 5, 6]) he hs hl hc
  obtain ⟨s2, l2, e2, a2, b2, c2⟩ := substep_free (T := T) (t := t) (dt := dt) (n := 7) he a1 b1 c1
  refine ⟨s2, l2, ?_, a2, b2, c2⟩
  unfold sweep
  rw [e1]
  dsimp only
  rw [e2]
  dsimp only
  have : sweepError false ((components l1).map fun p => (p.acc.g.c6, p.tor.g.c6)) (components l2) = 0 := by
    unfold sweepError
    have n1 := normalMax_zero ((components l2).map fun p => FOps.abs p.acc.now) (by
      intro x hx
      obtain ⟨c, hc, rfl⟩ := List.mem_map.1 hx
      rw [(c2.components c hc).now]
      simp)
    rw [n1]
    simp [fmax]
  rw [this]

theorem attempt_free (hn : isNormal (0 : ℝ) = false) (he : Free P N eval) {u : State S ℝ} (hs : P u.hidden)
    (hl : u.particles.length = N) (hd : u.dt ≠ 0)
    (hc : ∀ p ∈ u.particles, (p.x.acc.b = Seven.zero ∧ p.x.acc.now = 0 ∧ p.x.a = 0)
      ∧ (p.y.acc.b = Seven.zero ∧ p.y.acc.now = 0 ∧ p.y.a = 0) ∧ (p.z.acc.b = Seven.zero ∧ p.z.acc.now = 0 ∧ p.z.a = 0)) :
    ∃ u', attempt T false eval u = some (true, u') ∧ P u'.hidden ∧ u'.time = u.time + u.dt := by
  have c0 : Coasting (u.particles.map (Axes.map (Comp.start T false))) := by
    intro p hp
    obtain ⟨q, hq, rfl⟩ := List.mem_map.1 hp
    obtain ⟨⟨a1, a2, a3⟩, ⟨b1, b2, b3⟩, ⟨c1, c2, c3⟩⟩ := hc q hq
    refine ⟨?_, ?_, ?_⟩
    · show Quiet (Series.start T { q.x.acc with a0 := q.x.a })
      rw [a3]; exact Quiet.start a1 a2
    · show Quiet (Series.start T { q.y.acc with a0 := q.y.a })
      rw [b3]; exact Quiet.start b1 b2
    · show Quiet (Series.start T { q.z.acc with a0 := q.z.a })
      rw [c3]; exact Quiet.start c1 c2
  obtain ⟨s1, l1, e1, a1, b1, c1⟩ := sweep_free (T := T) (t := u.time) (dt := u.dt) he hs (by simp [hl]) c0
  have sw : sweeps T false eval u.time u.dt 12 0 (lit 1e300) (lit 2) u.hidden
      (u.particles.map (Axes.map (Comp.start T false))) = some (s1, l1) := by
    unfold sweeps
    rw [if_neg (by simp; norm_num), e1]
    dsimp only
    unfold sweeps
    rw [if_pos (by simp; norm_num)]
  have err : integratorError false u.dt l1 = 0 := by
    have fold : ∀ (cs : List (Comp ℝ)) (m : Maxima ℝ), (∀ c ∈ cs, Quiet c.acc) → m = ⟨0, 0, 0, 0⟩ →
        cs.foldl (Maxima.see false) m = ⟨0, 0, 0, 0⟩ := by
      intro cs
      induction cs with
      | nil => intro m _ hm; exact hm
      | cons c cs ih =>
        intro m h hm
        rw [List.foldl_cons]
        refine ih _ (fun d hd => h d (by simp [hd])) ?_
        have q := h c (by simp)
        unfold Maxima.see
        simp [hm, q.now, q.b, Seven.zero]
    have outer : ∀ (l : List (Particle ℝ)), Coasting l →
        l.foldl (fun m p => if slow false u.dt p then m else (Axes.toList p).foldl (Maxima.see false) m)
          (⟨0, 0, 0, 0⟩ : Maxima ℝ) = ⟨0, 0, 0, 0⟩ := by
      intro l
      induction l with
      | nil => intro _; rfl
      | cons p l ih =>
        intro h
        rw [List.foldl_cons]
        have h' : Coasting l := fun q hq => h q (by simp [hq])
        have hp : (Axes.toList p).foldl (Maxima.see false) ⟨0, 0, 0, 0⟩ = ⟨0, 0, 0, 0⟩ := by
          refine fold _ _ (fun c hc => ?_) rfl
          obtain ⟨h1, h2, h3⟩ := h p (by simp)
          simp only [Axes.toList, List.mem_cons, List.not_mem_nil, or_false] at hc
          rcases hc with rfl | rfl | rfl
          · exact h1
          · exact h2
          · exact h3
        rw [hp, ite_self]
        exact ih h'
    have := outer l1 c1
    unfold integratorError
    simp only [lit_real, Rat.cast_zero] at this ⊢
    rw [this]
    simp [fmax]
  unfold attempt
  dsimp only
  rw [sw]
  dsimp only
  rw [err]
  have hw : wanted (0 : ℝ) u.dt = u.dt / 0.25 := by
    unfold wanted
    rw [hn]
    simp
  rw [hw, if_neg (by
    have : u.dt / 0.25 / u.dt = 4 := by field_simp; norm_num
    unfold rejected
    rw [this]
    simp
    norm_num)]
  exact ⟨_, rfl, a1, rfl⟩

/-- A step without forces ends at once. -/
theorem iterate_free (hn : isNormal (0 : ℝ) = false) (he : Free P N eval) {u : State S ℝ} (hs : P u.hidden)
    (hl : u.particles.length = N) (hd : u.dt ≠ 0)
    (hc : ∀ p ∈ u.particles, (p.x.acc.b = Seven.zero ∧ p.x.acc.now = 0) ∧ (p.y.acc.b = Seven.zero ∧ p.y.acc.now = 0)
      ∧ (p.z.acc.b = Seven.zero ∧ p.z.acc.now = 0)) :
    ∃ u', iterate T false eval 1 u = some u' ∧ P u'.hidden ∧ u'.time = u.time + u.dt := by
  obtain ⟨s, r, e, a, b, c⟩ := he u.hidden u.time (places u.particles) hs (by simp [places, hl])
  have key : ∀ (r : List (Axes ℝ × Axes ℝ)) (l : List (Particle ℝ)), (∀ q ∈ r, q.1 = ⟨0, 0, 0⟩) →
      (∀ p ∈ l, (p.x.acc.b = Seven.zero ∧ p.x.acc.now = 0) ∧ (p.y.acc.b = Seven.zero ∧ p.y.acc.now = 0)
        ∧ (p.z.acc.b = Seven.zero ∧ p.z.acc.now = 0)) →
      ∀ p ∈ List.zipWith (fun (q : Axes ℝ × Axes ℝ) (p : Particle ℝ) =>
        (⟨{ p.x with a := q.1.x, dl := q.2.x }, { p.y with a := q.1.y, dl := q.2.y },
          { p.z with a := q.1.z, dl := q.2.z }⟩ : Particle ℝ)) r l,
        (p.x.acc.b = Seven.zero ∧ p.x.acc.now = 0 ∧ p.x.a = 0) ∧ (p.y.acc.b = Seven.zero ∧ p.y.acc.now = 0 ∧ p.y.a = 0)
          ∧ (p.z.acc.b = Seven.zero ∧ p.z.acc.now = 0 ∧ p.z.a = 0) := by
    intro r
    induction r with
    | nil => intro l _ _ p hp; simp at hp
    | cons q r ih =>
      intro l hr hl p hp
      cases l with
      | nil => simp at hp
      | cons x l =>
        rw [List.zipWith_cons_cons, List.mem_cons] at hp
        rcases hp with rfl | hp
        · obtain ⟨⟨a1, a2⟩, ⟨b1, b2⟩, ⟨c1, c2⟩⟩ := hl x (by simp)
          rw [hr q (by simp)]
          exact ⟨⟨a1, a2, rfl⟩, ⟨b1, b2, rfl⟩, ⟨c1, c2, rfl⟩⟩
        · exact ih l (fun q hq => hr q (by simp [hq])) (fun p hp => hl p (by simp [hp])) p hp
  unfold iterate
  rw [e]
  dsimp only
  obtain ⟨u', f1, f2, f3⟩ := attempt_free (T := T) hn he (u := { u with hidden := s, particles := _ }) a
    (by simp [b, hl]) hd (key r u.particles c hc)
  refine ⟨u', ?_, f2, f3⟩
  unfold integrate
  rw [f1]

end Posidonius.Ias15
