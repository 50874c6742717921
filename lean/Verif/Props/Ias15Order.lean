import Verif.Props.Ias15Control

/-! # C141: IAS15 and the order of the bodies -/

namespace Posidonius.Ias15

/-- The entries of `l` with the numbers `p`, in the order of `p`. -/
def relist {α : Type} (p : List ℕ) (l : List α) : List α := p.filterMap fun i => l[i]?

section
variable {α β γ : Type} {p : List ℕ} {n : ℕ}

theorem relist_map (p : List ℕ) (f : α → β) (l : List α) : relist p (l.map f) = (relist p l).map f := by
  unfold relist
  rw [List.map_filterMap]
  exact List.filterMap_congr fun i _ => by simp

theorem relist_zipWith (hp : p.Perm (List.range n)) (f : α → β → γ) {a : List α} {b : List β} (ha : a.length = n)
    (hb : b.length = n) : relist p (List.zipWith f a b) = List.zipWith f (relist p a) (relist p b) := by
  have h : ∀ i ∈ p, i < n := fun i hi => List.mem_range.1 (hp.subset hi)
  clear hp
  induction p with
  | nil => rfl
  | cons i p ih =>
    have hi := h i (by simp)
    have e1 : a[i]? = some a[i] := List.getElem?_eq_getElem (by omega)
    have e2 : b[i]? = some b[i] := List.getElem?_eq_getElem (by omega)
    have e3 : (List.zipWith f a b)[i]? = some (f a[i] b[i]) := by simp [List.getElem?_zipWith, e1, e2]
    have := ih fun j hj => h j (by simp [hj])
    unfold relist at this ⊢
    simp only [List.filterMap_cons, e1, e2, e3, List.zipWith_cons_cons, this]

theorem relist_range (l : List α) : relist (List.range l.length) l = l := by
  induction l with
  | nil => rfl
  | cons a l ih =>
    unfold relist at ih ⊢
    rw [List.length_cons, List.range_succ_eq_map, List.filterMap_cons]
    simp only [List.getElem?_cons_zero, List.filterMap_map]
    exact congrArg (a :: ·) ih

theorem relist_perm (hp : p.Perm (List.range n)) {l : List α} (hl : l.length = n) : (relist p l).Perm l := by
  subst hl
  exact (hp.filterMap _).trans (by rw [show List.filterMap (fun i => l[i]?) (List.range l.length) = l from relist_range l])

theorem relist_length (hp : p.Perm (List.range n)) {l : List α} (hl : l.length = n) : (relist p l).length = n :=
  (relist_perm hp hl).length_eq.trans hl

end

/-! ### Largest values -/

section
variable [FNormal ℝ]

theorem larger_comm (m x y : ℝ) :
    (if isNormal y && ltb (if isNormal x && ltb m x then x else m) y then y else (if isNormal x && ltb m x then x else m))
      = if isNormal x && ltb (if isNormal y && ltb m y then y else m) x then x else (if isNormal y && ltb m y then y else m) := by
  cases hx : isNormal x <;> cases hy : isNormal y <;> simp only [Bool.true_and, Bool.false_and, Bool.false_eq_true, if_false, ltb_real]
  split_ifs <;> linarith

theorem normalMax_perm {a b : List ℝ} (h : a.Perm b) : normalMax a = normalMax b := by
  haveI : RightCommutative (fun (m v : ℝ) => if isNormal v && ltb m v then v else m) := ⟨larger_comm⟩
  exact h.foldl_eq _

theorem see_eq (m : Maxima ℝ) (c : Comp ℝ) : m.see false c
    = ⟨if isNormal (FOps.abs c.acc.now : ℝ) && ltb m.ak (FOps.abs c.acc.now) then FOps.abs c.acc.now else m.ak,
       if isNormal (FOps.abs c.acc.b.c6 : ℝ) && ltb m.b6 (FOps.abs c.acc.b.c6) then FOps.abs c.acc.b.c6 else m.b6, m.dl, m.b6s⟩ := by
  unfold Maxima.see
  dsimp only
  rw [if_neg Bool.false_ne_true]
  cases h1 : isNormal (FOps.abs c.acc.now : ℝ) && ltb m.ak (FOps.abs c.acc.now) <;>
    cases h2 : isNormal (FOps.abs c.acc.b.c6 : ℝ) && ltb m.b6 (FOps.abs c.acc.b.c6) <;>
    simp only [h2, Bool.false_eq_true, if_true, if_false]

/-- The components of two lists of particles, side by side. -/
theorem components_zip {γ : Type} (f : ℝ × ℝ → Comp ℝ → γ) (g : Comp ℝ → ℝ × ℝ) (a b : List (Particle ℝ)) (h : a.length = b.length) :
    List.zipWith f ((components a).map g) (components b)
      = (List.zip a b).flatMap fun q => List.zipWith f ((Axes.toList q.1).map g) (Axes.toList q.2) := by
  induction a generalizing b with
  | nil => simp [components]
  | cons x a ih =>
    cases b with
    | nil => simp at h
    | cons y b =>
      have := ih b (by simpa using h)
      simp only [components, List.flatMap_cons, List.map_append, List.zip_cons_cons] at this ⊢
      rw [List.zipWith_append (by simp [Axes.toList]), this]

theorem sweepError_relist {p : List ℕ} {n : ℕ} (hp : p.Perm (List.range n)) (spin : Bool) {a b : List (Particle ℝ)} (ha : a.length = n)
    (hb : b.length = n) :
    sweepError spin ((components (relist p a)).map fun c => (c.acc.g.c6, c.tor.g.c6)) (components (relist p b))
      = sweepError spin ((components a).map fun c => (c.acc.g.c6, c.tor.g.c6)) (components b) := by
  have pc : (components (relist p b)).Perm (components b) := (relist_perm hp hb).flatMap_right _
  have pz : (List.zip (relist p a) (relist p b)).Perm (List.zip a b) := by
    have e : List.zip (relist p a) (relist p b) = relist p (List.zip a b) := (relist_zipWith hp _ ha hb).symm
    rw [e]
    exact relist_perm hp (by simp [ha, hb])
  have l1 : (relist p a).length = (relist p b).length := by rw [relist_length hp ha, relist_length hp hb]
  have l2 : a.length = b.length := by omega
  unfold sweepError
  dsimp only
  rw [components_zip _ _ _ _ l1, components_zip _ _ _ _ l1, components_zip _ _ _ _ l2, components_zip _ _ _ _ l2,
    normalMax_perm (pc.map _), normalMax_perm (pc.map _), normalMax_perm (pz.flatMap_right _), normalMax_perm (pz.flatMap_right _)]

theorem integratorError_perm (dt : ℝ) {a b : List (Particle ℝ)} (h : a.Perm b) :
    integratorError false dt a = integratorError false dt b := by
  have flat : ∀ (l : List (Particle ℝ)) (M : Maxima ℝ),
      l.foldl (fun m p => if slow false dt p then m else (Axes.toList p).foldl (Maxima.see false) m) M
        = ((l.filter fun p => !slow false dt p).flatMap Axes.toList).foldl (Maxima.see false) M := by
    intro l
    induction l with
    | nil => intro M; rfl
    | cons x l ih =>
      intro M
      rw [List.foldl_cons, ih]
      cases hs : slow false dt x <;> simp [hs]
  haveI : RightCommutative (Maxima.see (F := ℝ) false) := by
    constructor
    intro m x y
    simp only [see_eq]
    rw [larger_comm, larger_comm m.b6]
  unfold integratorError
  dsimp only
  rw [flat, flat, ((h.filter _).flatMap_right _).foldl_eq _]

end

/-! ### Steps -/

section
variable {S S' : Type} {R : S → S' → Prop} {p : List ℕ} {n : ℕ}

/-- Two evaluations of the same forces for `n` bodies in two orders. -/
def Relists (R : S → S' → Prop) (p : List ℕ) (n : ℕ) (eval : Evaluate S ℝ) (eval' : Evaluate S' ℝ) : Prop :=
  ∀ s s' t l, R s s' → l.length = n →
    Option.Rel (fun a b => R a.1 b.1 ∧ a.2.length = n ∧ b.2 = relist p a.2) (eval s t l) (eval' s' t (relist p l))

variable {eval : Evaluate S ℝ} {eval' : Evaluate S' ℝ}

theorem substep_relist (hp : p.Perm (List.range n)) (he : Relists R p n eval eval') (T : Tables ℝ) (spin : Bool) (t dt : ℝ) (k : ℕ)
    {s : S} {s' : S'} {l : List (Particle ℝ)} (hs : R s s') (hl : l.length = n) :
    Option.Rel (fun a b => R a.1 b.1 ∧ a.2.length = n ∧ b.2 = relist p a.2) (substep T spin eval t dt k s l)
      (substep T spin eval' t dt k s' (relist p l)) := by
  unfold substep evaluateAt
  dsimp only
  rw [← relist_map]
  have hm : (l.map (Axes.map (Comp.predict spin dt (T.h k)))).length = n := by simpa using hl
  generalize l.map (Axes.map (Comp.predict spin dt (T.h k))) = m at hm
  have h := he s s' (t + dt * T.h k) (places m) hs (by simpa [places] using hm)
  have e : places (relist p m) = relist p (places m) := (relist_map p _ m).symm
  rw [e]
  revert h
  generalize eval s (t + dt * T.h k) (places m) = x
  generalize eval' s' (t + dt * T.h k) (relist p (places m)) = y
  intro h
  cases h with
  | none => exact .none
  | some h =>
    obtain ⟨h1, h2, h3⟩ := h
    refine .some ⟨h1, ?_, ?_⟩
    · simp [correctAll, h2, hm]
    · rw [h3]
      exact (relist_zipWith hp _ h2 hm).symm

theorem substeps_relist (hp : p.Perm (List.range n)) (he : Relists R p n eval eval') (T : Tables ℝ) (spin : Bool) (t dt : ℝ)
    (ks : List ℕ) {s : S} {s' : S'} {l : List (Particle ℝ)} (hs : R s s') (hl : l.length = n) :
    Option.Rel (fun a b => R a.1 b.1 ∧ a.2.length = n ∧ b.2 = relist p a.2) (substeps T spin eval t dt ks s l)
      (substeps T spin eval' t dt ks s' (relist p l)) := by
  induction ks generalizing s s' l with
  | nil => exact .some ⟨hs, hl, rfl⟩
  | cons k ks ih =>
    have h := substep_relist hp he T spin t dt k hs hl
    unfold substeps
    revert h
    generalize substep T spin eval t dt k s l = x
    generalize substep T spin eval' t dt k s' (relist p l) = y
    intro h
    cases h with
    | none => exact .none
    | @some a b h =>
      obtain ⟨a1, a2⟩ := a
      obtain ⟨b1, b2⟩ := b
      obtain ⟨h1, h2, rfl⟩ := h
      exact ih h1 h2

variable [FNormal ℝ]

theorem sweep_relist (hp : p.Perm (List.range n)) (he : Relists R p n eval eval') (T : Tables ℝ) (spin : Bool) (t dt : ℝ)
    {s : S} {s' : S'} {l : List (Particle ℝ)} (hs : R s s') (hl : l.length = n) :
    Option.Rel (fun a b => R a.1 b.1 ∧ a.2.1.length = n ∧ b.2.1 = relist p a.2.1 ∧ a.2.2 = b.2.2) (sweep T spin eval t dt s l)
      (sweep T spin eval' t dt s' (relist p l)) := by
  have h := substeps_relist hp he T spin t dt [1, 2, 3, 4, 5, 6] hs hl
  unfold sweep
  revert h
  generalize substeps T spin eval t dt [1, 2, 3, 4, 5, 6] s l = x
  generalize substeps T spin eval' t dt [1, 2, 3, 4, 5, 6] s' (relist p l) = y
  intro h
  cases h with
  | none => exact .none
  | @some a b h =>
    obtain ⟨a1, a2⟩ := a
    obtain ⟨b1, b2⟩ := b
    obtain ⟨h1, h2, rfl⟩ := h
    dsimp only at h1 h2 ⊢
    have h := substep_relist hp he T spin t dt 7 h1 h2
    revert h
    generalize substep T spin eval t dt 7 a1 a2 = x
    generalize substep T spin eval' t dt 7 b1 (relist p a2) = y
    intro h
    cases h with
    | none => exact .none
    | @some c d h =>
      obtain ⟨c1, c2⟩ := c
      obtain ⟨d1, d2⟩ := d
      obtain ⟨g1, g2, rfl⟩ := h
      exact .some ⟨g1, g2, rfl, (sweepError_relist hp spin h2 g2).symm⟩

/-- **C141, sweeps**: with and without spins the corrections are repeated equally often and give the same coefficients, body by
body. -/
theorem C141_sweeps (hp : p.Perm (List.range n)) (he : Relists R p n eval eval') (T : Tables ℝ) (spin : Bool) (t dt : ℝ)
    (left done : ℕ) (err last : ℝ) {s : S} {s' : S'} {l : List (Particle ℝ)} (hs : R s s') (hl : l.length = n) :
    Option.Rel (fun a b => R a.1 b.1 ∧ a.2.length = n ∧ b.2 = relist p a.2) (sweeps T spin eval t dt left done err last s l)
      (sweeps T spin eval' t dt left done err last s' (relist p l)) := by
  induction left generalizing done err last s s' l with
  | zero => exact .some ⟨hs, hl, rfl⟩
  | succ left ih =>
    unfold sweeps
    split
    · exact .some ⟨hs, hl, rfl⟩
    · have h := sweep_relist hp he T spin t dt hs hl
      revert h
      generalize sweep T spin eval t dt s l = x
      generalize sweep T spin eval' t dt s' (relist p l) = y
      intro h
      cases h with
      | none => exact .none
      | @some a b h =>
        obtain ⟨a1, a2, a3⟩ := a
        obtain ⟨b1, b2, b3⟩ := b
        obtain ⟨h1, h2, h3, h4⟩ := h
        dsimp only at h1 h2 h3 h4 ⊢
        subst h3 h4
        exact ih _ _ _ h1 h2

/-- The same state, the bodies in two orders. -/
structure Same (R : S → S' → Prop) (p : List ℕ) (n : ℕ) (u : State S ℝ) (v : State S' ℝ) : Prop where
  hidden : R u.hidden v.hidden
  length : u.particles.length = n
  particles : v.particles = relist p u.particles
  time : v.time = u.time
  dt : v.dt = u.dt
  last : v.last = u.last

/-- **C141, one attempt** without spins: accepted or rejected together, with the same next step, and the same bodies. -/
theorem C141_attempt_partial (hp : p.Perm (List.range n)) (he : Relists R p n eval eval') (T : Tables ℝ) {u : State S ℝ}
    {v : State S' ℝ} (h : Same R p n u v) :
    Option.Rel (fun a b => a.1 = b.1 ∧ Same R p n a.2 b.2) (attempt T false eval u) (attempt T false eval' v) := by
  have hs := C141_sweeps hp he T false u.time u.dt 12 0 (lit 1e300) (lit 2) h.hidden
    (l := u.particles.map (Axes.map (Comp.start T false))) (by simpa using h.length)
  unfold attempt
  dsimp only
  rw [h.time, h.dt, h.last, h.particles, ← relist_map]
  revert hs
  generalize sweeps T false eval u.time u.dt 12 0 (lit 1e300) (lit 2) u.hidden _ = x
  generalize sweeps T false eval' u.time u.dt 12 0 (lit 1e300) (lit 2) v.hidden _ = y
  intro hs
  cases hs with
  | none => exact .none
  | @some a b hs =>
    obtain ⟨a1, a2⟩ := a
    obtain ⟨b1, b2⟩ := b
    obtain ⟨h1, h2, rfl⟩ := hs
    dsimp only at h1 h2 ⊢
    rw [integratorError_perm u.dt (relist_perm hp h2)]
    split
    · refine .some ⟨rfl, h1, ?_, ?_, rfl, rfl, rfl⟩
      · dsimp only
        split <;> simpa using h2
      · dsimp only
        split <;> simp only [relist_map]
    · refine .some ⟨rfl, h1, ?_, ?_, rfl, rfl, rfl⟩
      · simpa using h2
      · simp only [relist_map]

theorem integrate_relist (hp : p.Perm (List.range n)) (he : Relists R p n eval eval') (T : Tables ℝ) (fuel : ℕ) {u : State S ℝ}
    {v : State S' ℝ} (h : Same R p n u v) :
    Option.Rel (Same R p n) (integrate T false eval fuel u) (integrate T false eval' fuel v) := by
  induction fuel generalizing u v with
  | zero => exact .none
  | succ fuel ih =>
    have g := C141_attempt_partial hp he T h
    unfold integrate
    revert g
    generalize attempt T false eval u = x
    generalize attempt T false eval' v = y
    intro g
    cases g with
    | none => exact .none
    | @some a b g =>
      obtain ⟨a1, a2⟩ := a
      obtain ⟨b1, b2⟩ := b
      obtain ⟨g1, g2⟩ := g
      dsimp only at g1 g2
      subst g1
      cases a1
      · exact ih g2
      · exact .some g2

/-- **C141, one step** without spins: the same bodies, the same length of the step, as many attempts. -/
theorem C141_iterate_partial (hp : p.Perm (List.range n)) (he : Relists R p n eval eval') (T : Tables ℝ) (fuel : ℕ) {u : State S ℝ}
    {v : State S' ℝ} (h : Same R p n u v) :
    Option.Rel (Same R p n) (iterate T false eval fuel u) (iterate T false eval' fuel v) := by
  have g := he u.hidden v.hidden u.time (places u.particles) h.hidden (by simpa [places] using h.length)
  have e : places v.particles = relist p (places u.particles) := by rw [h.particles]; exact (relist_map p _ _).symm
  unfold iterate
  rw [e, h.time]
  revert g
  generalize eval u.hidden u.time (places u.particles) = x
  generalize eval' v.hidden u.time (relist p (places u.particles)) = y
  intro g
  cases g with
  | none => exact .none
  | @some a b g =>
    obtain ⟨a1, a2⟩ := a
    obtain ⟨b1, b2⟩ := b
    obtain ⟨g1, g2, rfl⟩ := g
    dsimp only at g1 g2 ⊢
    refine integrate_relist hp he T fuel ⟨g1, ?_, ?_, rfl, h.dt, h.last⟩
    · simp [g2, h.length]
    · dsimp only
      rw [h.particles]
      exact (relist_zipWith hp _ g2 h.length).symm

end

/-! ### With spins the order matters -/

/-- A component with an acceleration, a torque and last coefficients. -/
def Comp.pushed {F : Type} [FOps F] (v acc tor b6 : F) : Comp F :=
  let c : Comp F := .rest v
  { c with v := v, dl := tor, l := v, acc := { c.acc with now := acc, b := { c.acc.b with c6 := b6 } },
           tor := { c.tor with now := tor } }

/-- Acceleration 1 and torque 5. -/
def first : Particle XQ := ⟨.pushed (.fin 1) (.fin 1) (.fin 5) (.fin 1), .rest (.fin 0), .rest (.fin 0)⟩
/-- Acceleration 2 and torque 4. -/
def second : Particle XQ := ⟨.pushed (.fin 1) (.fin 2) (.fin 4) (.fin 1), .rest (.fin 0), .rest (.fin 0)⟩

/-- **C141 is violated** with spins: of two bodies that come in two orders, the estimated error is once 1/4 and once 1/5, because
torques are compared with the largest acceleration and the last one that is larger is kept. -/
theorem C141_violated : integratorError true (.fin 1) [first, second] = XQ.fin (1 / 4)
    ∧ integratorError true (.fin 1) [second, first] = XQ.fin (1 / 5) := by
  constructor <;> decide +kernel

/-! ### Example -/

/-- The attraction of two bodies by the origin and by each other, on a spring. -/
noncomputable def springs : Evaluate Unit ℝ := fun _ _ l =>
  some ((), l.map fun q => (⟨(l.map fun r => r.position.x).sum - 3 * q.position.x, -q.position.y, -q.position.z⟩, ⟨0, 0, 0⟩))

example : Relists (fun _ _ => True) [1, 0] 2 springs springs := by
  intro s s' t l _ hl
  obtain ⟨a, b, rfl⟩ := List.length_eq_two.1 hl
  refine .some ⟨trivial, by simp, ?_⟩
  simp [relist, add_comm]

end Posidonius.Ias15
