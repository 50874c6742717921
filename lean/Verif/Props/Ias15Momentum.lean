import Verif.Props.Ias15Control
import Verif.Lemmas.Ias15Total
import Mathlib.Logic.Relation
import Mathlib.Tactic.Module

/-! # C77: linear momentum and centre of mass in IAS15 -/

namespace Posidonius.Ias15
open Posidonius

/-- Accelerations without net force: the weighted sum vanishes, whatever the state. -/
def Balanced {S : Type} (ms : List ℝ) (eval : Evaluate S ℝ) : Prop :=
  ∀ s t l s' r, eval s t l = some (s', r) → (List.zipWith (fun (m : ℝ) (q : Axes ℝ × Axes ℝ) => m • q.1) ms r).sum = 0

/-- Weighted sum of a vector of the particles. -/
noncomputable def weighted (ms : List ℝ) (f : Comp ℝ → ℝ) (l : List (Particle ℝ)) : Axes ℝ :=
  (List.zipWith (fun (m : ℝ) (p : Particle ℝ) => m • Axes.map f p) ms l).sum

inductive Ax where
  | x | y | z

def Ax.get {A : Type} : Ax → Axes A → A
  | .x, a => a.x
  | .y, a => a.y
  | .z, a => a.z

theorem Ax.get_map {A B : Type} (α : Ax) (f : A → B) (a : Axes A) : α.get (Axes.map f a) = f (α.get a) := by
  cases α <;> rfl

/-- The weighted sum of the components of one axis. -/
def total (ms : List ℝ) (α : Ax) (l : List (Particle ℝ)) : Comp ℝ := tot ms (l.map α.get)

theorem total_map {f : Comp ℝ → Comp ℝ} (hf : Linear f) (ms : List ℝ) (α : Ax) (l : List (Particle ℝ)) :
    total ms α (l.map (Axes.map f)) = f (total ms α l) := by
  unfold total
  rw [← tot_map hf, List.map_map, List.map_map]
  congr 1
  exact List.map_congr_left fun p _ => α.get_map f p

theorem total_correct (T : Tables ℝ) (spin : Bool) (n : ℕ) (ms : List ℝ) (α : Ax) (r : List (Axes ℝ × Axes ℝ))
    (l : List (Particle ℝ)) (h : r.length = l.length) :
    total ms α (correctAll T spin n r l)
      = (total ms α l).correct T spin n (wsum ms (r.map fun q => α.get q.1)) (wsum ms (r.map fun q => α.get q.2)) := by
  unfold total
  rw [← tot_correct T spin n _ _ ms r _ (by simpa using h)]
  congr 1
  unfold correctAll
  rw [List.map_zipWith, List.zipWith_map_right]
  cases α <;> rfl

theorem get_sum (α : Ax) (ms : List ℝ) (vs : List (Axes ℝ)) :
    α.get (List.zipWith (fun (m : ℝ) (v : Axes ℝ) => m • v) ms vs).sum = wsum ms (vs.map α.get) := by
  induction ms generalizing vs with
  | nil => rw [wsum_nil, List.zipWith_nil_left, List.sum_nil]; cases α <;> simp [Ax.get]
  | cons m ms ih =>
    cases vs with
    | nil => rw [List.map_nil, wsum_nil', List.zipWith_nil_right, List.sum_nil]; cases α <;> simp [Ax.get]
    | cons v vs =>
      rw [List.zipWith_cons_cons, List.sum_cons, List.map_cons, wsum, ← ih]
      cases α <;> rfl

theorem Balanced.wsum {S : Type} {ms : List ℝ} {eval : Evaluate S ℝ} (h : Balanced ms eval) {s s' : S} {t : ℝ}
    {l : List (Place ℝ)} {r : List (Axes ℝ × Axes ℝ)} (e : eval s t l = some (s', r)) (α : Ax) :
    wsum ms (r.map fun q => α.get q.1) = 0 := by
  have h1 := get_sum α ms (r.map Prod.fst)
  rw [List.zipWith_map_right, h s t l s' r e, List.map_map] at h1
  have h2 : α.get (0 : Axes ℝ) = 0 := by cases α <;> simp [Ax.get]
  rw [h2] at h1
  exact h1.symm

theorem weighted_get (ms : List ℝ) (f : Comp ℝ → ℝ) (l : List (Particle ℝ)) (α : Ax) :
    α.get (weighted ms f l) = wsum ms (l.map fun p => f (α.get p)) := by
  have h1 := get_sum α ms (l.map (Axes.map f))
  rw [List.zipWith_map_right, List.map_map] at h1
  unfold weighted
  rw [h1]
  congr 1
  exact List.map_congr_left fun p _ => α.get_map f p

theorem wsum_tot (ms : List ℝ) (cs : List (Comp ℝ)) :
    (tot ms cs).x = wsum ms (cs.map Comp.x) ∧ (tot ms cs).v = wsum ms (cs.map Comp.v)
      ∧ (tot ms cs).csx = wsum ms (cs.map Comp.csx) ∧ (tot ms cs).csv = wsum ms (cs.map Comp.csv)
      ∧ (tot ms cs).a = wsum ms (cs.map Comp.a) := by
  induction ms generalizing cs with
  | nil => simp only [tot_nil, wsum_nil]; exact ⟨rfl, rfl, rfl, rfl, rfl⟩
  | cons m ms ih =>
    cases cs with
    | nil => simp only [tot_nil', List.map_nil, wsum_nil']; exact ⟨rfl, rfl, rfl, rfl, rfl⟩
    | cons c cs =>
      obtain ⟨h1, h2, h3, h4, h5⟩ := ih cs
      simp only [tot, List.map_cons, wsum, ← h1, ← h2, ← h3, ← h4, ← h5]
      exact ⟨rfl, rfl, rfl, rfl, rfl⟩

theorem total_fields (ms : List ℝ) (α : Ax) (l : List (Particle ℝ)) :
    (total ms α l).x = α.get (weighted ms Comp.x l) ∧ (total ms α l).v = α.get (weighted ms Comp.v l)
      ∧ (total ms α l).csx = α.get (weighted ms Comp.csx l) ∧ (total ms α l).csv = α.get (weighted ms Comp.csv l) := by
  obtain ⟨h1, h2, h3, h4, -⟩ := wsum_tot ms (l.map α.get)
  simp only [weighted_get, total, h1, h2, h3, h4, List.map_map]
  exact ⟨rfl, rfl, rfl, rfl⟩

/-- Between iterations: no predicted acceleration. -/
structure Rested (c : Comp ℝ) : Prop where
  b : c.acc.b = .nil
  e : c.acc.e = .nil
  br : c.acc.br = .nil
  er : c.acc.er = .nil
  csx : c.csx = 0
  csv : c.csv = 0

/-- During an iteration. -/
structure Calm (x v : ℝ) (c : Comp ℝ) : Prop where
  acc : { c.acc with now := 0 } = Series.nil
  x0 : c.x0 = x
  v0 : c.v0 = v
  csx : c.csx = 0
  csv : c.csv = 0

theorem start_calm (T : Tables ℝ) (spin : Bool) (c : Comp ℝ) (h : Rested c) (ha : c.a = 0) : Calm c.x c.v (c.start T spin) := by
  refine ⟨?_, rfl, rfl, h.csx, h.csv⟩
  simp only [Comp.start, Series.start, h.b, h.e, h.br, h.er, ha]
  ext <;> simp [Series.nil, Seven.nil, Seven.zero]

theorem substep_calm (T : Tables ℝ) (spin : Bool) (n : ℕ) (dt h dl x v : ℝ) (c : Comp ℝ) (hc : Calm x v c) :
    Calm x v ((c.predict spin dt h).correct T spin n 0 dl) := by
  refine ⟨?_, hc.x0, hc.v0, hc.csx, hc.csv⟩
  simp only [Comp.correct, Comp.predict]
  rw [hc.acc, Series.correct_nil]
  rfl

section
variable {S : Type} {T : Tables ℝ} {spin : Bool} {eval : Evaluate S ℝ} {ms : List ℝ} {α : Ax} {x v : ℝ}

theorem substep_total (he : Total eval) (hb : Balanced ms eval) {t dt : ℝ} {n : ℕ} {s s' : S} {l l' : List (Particle ℝ)}
    (h : substep T spin eval t dt n s l = some (s', l')) (hc : Calm x v (total ms α l)) : Calm x v (total ms α l') := by
  unfold substep evaluateAt at h
  dsimp only at h
  split at h
  · cases h
  · next s1 l1 r e =>
    split at e
    · cases e
    · next s2 r2 e2 =>
      cases e
      cases h
      have hlen := he _ _ _ _ _ e2
      rw [places, List.length_map] at hlen
      rw [total_correct T spin n ms α r _ hlen, hb.wsum e2, total_map (predict_linear spin dt (T.h n))]
      exact substep_calm T spin n dt _ _ x v _ hc

theorem substeps_total (he : Total eval) (hb : Balanced ms eval) {t dt : ℝ} {ns : List ℕ} {s s' : S} {l l' : List (Particle ℝ)}
    (h : substeps T spin eval t dt ns s l = some (s', l')) (hc : Calm x v (total ms α l)) : Calm x v (total ms α l') := by
  induction ns generalizing s l with
  | nil => cases h; exact hc
  | cons n ns ih =>
    unfold substeps at h
    split at h
    · cases h
    · next s1 l1 e => exact ih h (substep_total he hb e hc)

variable [FNormal ℝ]

theorem sweeps_total (he : Total eval) (hb : Balanced ms eval) {t dt : ℝ} {left done : ℕ} {err last : ℝ} {s s' : S}
    {l l' : List (Particle ℝ)} (h : sweeps T spin eval t dt left done err last s l = some (s', l'))
    (hc : Calm x v (total ms α l)) : Calm x v (total ms α l') := by
  induction left generalizing done err last s l with
  | zero => cases h; exact hc
  | succ left ih =>
    unfold sweeps at h
    split at h
    · cases h; exact hc
    · split at h
      · cases h
      · next s1 l1 e1 h1 =>
        unfold sweep at h1
        split at h1
        · cases h1
        · next s2 l2 e2 =>
          split at h1
          · cases h1
          · next s3 l3 e3 =>
            cases h1
            exact ih h (substep_total he hb e3 (substeps_total he hb e2 hc))

omit [FNormal ℝ] in
theorem Calm.fields {c : Comp ℝ} (h : Calm x v c) :
    c.acc.a0 = 0 ∧ c.acc.b = .nil ∧ c.acc.e = .nil ∧ c.acc.br = .nil ∧ c.acc.er = .nil := by
  have := h.acc
  simp only [Series.nil, Series.mk.injEq] at this
  obtain ⟨h1, -, h2, -, -, h3, h4, h5⟩ := this
  exact ⟨h1, h2, h3, h4, h5⟩

omit [FNormal ℝ] in
theorem next_rested (spin : Bool) (q : ℝ) (c : Comp ℝ) (hb : c.acc.b = .nil) (he : c.acc.e = .nil) (hbr : c.acc.br = .nil)
    (her : c.acc.er = .nil) (hx : c.csx = 0) (hv : c.csv = 0) : Rested (c.next spin q) := by
  refine ⟨?_, ?_, ?_, ?_, hx, hv⟩ <;> simp only [Comp.next, Series.next] <;> split
  · simp [Seven.zero, Seven.nil]
  · simp [hbr, her, Seven.nil]
  · simp [Seven.zero, Seven.nil]
  · simp [hbr, Seven.nil]
  · exact hbr
  · exact hbr
  · exact her
  · exact her

/-- One round of the main loop. -/
theorem attempt_total (he : Total eval) (hb : Balanced ms eval) {u u' : State S ℝ} {ok : Bool}
    (h : attempt T spin eval u = some (ok, u')) (hr : Rested (total ms α u.particles)) (ha : (total ms α u.particles).a = 0) :
    Rested (total ms α u'.particles)
    ∧ (ok = false → (total ms α u'.particles).a = 0 ∧ (total ms α u'.particles).x = (total ms α u.particles).x
        ∧ (total ms α u'.particles).v = (total ms α u.particles).v ∧ u'.time = u.time)
    ∧ (ok = true → (total ms α u'.particles).v = (total ms α u.particles).v
        ∧ (total ms α u'.particles).x = (total ms α u.particles).x + (u'.time - u.time) * (total ms α u.particles).v) := by
  have hs := start_calm T spin _ hr ha
  rw [← total_map (start_linear T spin)] at hs
  unfold attempt at h
  dsimp only at h
  split at h
  · cases h
  · next s l hp =>
    have hc := sweeps_total (α := α) he hb hp hs
    obtain ⟨c1, c2, c3, c4, c5⟩ := hc.fields
    split at h
    · cases h
      have base : total ms α (l.map (Axes.map (Comp.restore spin))) = (total ms α l).restore spin :=
        total_map (restore_linear spin) ms α l
      dsimp only
      split
      · rw [base]
        exact ⟨⟨c2, c3, c4, c5, hc.csx, hc.csv⟩, fun _ => ⟨c1, hc.x0, hc.v0, rfl⟩, by simp⟩
      · rw [total_map (next_linear spin _), base]
        exact ⟨next_rested _ _ _ c2 c3 c4 c5 hc.csx hc.csv, fun _ => ⟨c1, hc.x0, hc.v0, rfl⟩, by simp⟩
    · cases h
      dsimp only
      rw [total_map ((next_linear spin _).comp remember_linear), total_map (finish_linear spin _)]
      refine ⟨next_rested _ _ _ c2 c3 c2 c3 ?_ ?_, by simp, fun _ => ⟨?_, ?_⟩⟩
      · simp [Comp.remember, Comp.finish, finishPosition, addCs]
      · simp [Comp.remember, Comp.finish, finishVelocity, addCs]
      · simp [Comp.next, Comp.remember, Comp.finish, finishVelocity, addCs, c1, c2, Seven.nil, hc.v0, hc.csv]
      · simp [Comp.next, Comp.remember, Comp.finish, finishPosition, addCs, c1, c2, Seven.nil, hc.x0, hc.v0, hc.csx]
        ring

theorem integrate_total (he : Total eval) (hb : Balanced ms eval) {fuel : ℕ} {u u' : State S ℝ}
    (h : integrate T spin eval fuel u = some u') (hr : Rested (total ms α u.particles)) (ha : (total ms α u.particles).a = 0) :
    Rested (total ms α u'.particles) ∧ (total ms α u'.particles).v = (total ms α u.particles).v
      ∧ (total ms α u'.particles).x = (total ms α u.particles).x + (u'.time - u.time) * (total ms α u.particles).v := by
  induction fuel generalizing u with
  | zero => cases h
  | succ fuel ih =>
    unfold integrate at h
    split at h
    · cases h
    · next w e =>
      cases h
      obtain ⟨h1, -, h3⟩ := attempt_total (α := α) he hb e hr ha
      exact ⟨h1, h3 rfl⟩
    · next w e =>
      obtain ⟨h1, h2, -⟩ := attempt_total (α := α) he hb e hr ha
      obtain ⟨k1, k2, k3, k4⟩ := h2 rfl
      obtain ⟨i1, i2, i3⟩ := ih h h1 k1
      rw [k3] at i2 i3
      rw [k2, k4] at i3
      exact ⟨i1, i2, i3⟩

/-- The total of the predicted accelerations vanishes, as at the beginning of a simulation. -/
def Settled (ms : List ℝ) (l : List (Particle ℝ)) : Prop := ∀ α, Rested (total ms α l)

theorem iterate_total (he : Total eval) (hb : Balanced ms eval) {fuel : ℕ} {u u' : State S ℝ}
    (h : iterate T spin eval fuel u = some u') (hr : Rested (total ms α u.particles)) :
    Rested (total ms α u'.particles) ∧ (total ms α u'.particles).v = (total ms α u.particles).v
      ∧ (total ms α u'.particles).x = (total ms α u.particles).x + (u'.time - u.time) * (total ms α u.particles).v := by
  unfold iterate at h
  split at h
  · cases h
  · next s r e =>
    have hlen := he _ _ _ _ _ e
    rw [places, List.length_map] at hlen
    have key : ∀ (ms : List ℝ) (r : List (Axes ℝ × Axes ℝ)) (cs : List (Particle ℝ)), r.length = cs.length →
        total ms α (List.zipWith (fun (q : Axes ℝ × Axes ℝ) (p : Particle ℝ) =>
          ⟨{ p.x with a := q.1.x, dl := q.2.x }, { p.y with a := q.1.y, dl := q.2.y },
           { p.z with a := q.1.z, dl := q.2.z }⟩) r cs)
        = { total ms α cs with a := wsum ms (r.map fun q => α.get q.1), dl := wsum ms (r.map fun q => α.get q.2) } := by
      intro ms
      induction ms with
      | nil =>
        intro r cs _
        simp only [total, tot_nil, wsum_nil]
        rfl
      | cons m ms ih =>
        intro r cs hl
        match r, cs, hl with
        | [], [], _ =>
          simp only [total, List.zipWith_nil_left, List.map_nil, tot_nil', wsum_nil']
          rfl
        | q :: r, p :: cs, hl =>
          have := ih r cs (by simpa using hl)
          unfold total at this ⊢
          rw [List.zipWith_cons_cons, List.map_cons, tot, this]
          cases α <;> rfl
    have hk := key ms r u.particles hlen
    rw [hb.wsum e] at hk
    have h1 := integrate_total (α := α) he hb h
    dsimp only at h1
    rw [hk] at h1
    exact h1 ⟨hr.b, hr.e, hr.br, hr.er, hr.csx, hr.csv⟩ rfl

/-- One iteration. -/
def Iterates (T : Tables ℝ) (spin : Bool) (eval : Evaluate S ℝ) (u u' : State S ℝ) : Prop :=
  ∃ fuel, iterate T spin eval fuel u = some u'

/-- **C77, momentum and centre of mass**: if the forces have no net force, any number of iterations of IAS15 (with any
sequence of sweeps, rejected and accepted steps, changes of the step and any tables) conserve the linear momentum, and
the centre of mass moves uniformly. -/
theorem C77_momentum (he : Total eval) (hb : Balanced ms eval) {u u' : State S ℝ}
    (h : Relation.ReflTransGen (Iterates T spin eval) u u') (hr : Settled ms u.particles) :
    Settled ms u'.particles ∧ weighted ms Comp.v u'.particles = weighted ms Comp.v u.particles
      ∧ weighted ms Comp.x u'.particles
        = weighted ms Comp.x u.particles + (u'.time - u.time) • weighted ms Comp.v u.particles := by
  induction h with
  | refl => exact ⟨hr, rfl, by simp⟩
  | tail _ hs ih =>
    obtain ⟨fuel, hs⟩ := hs
    obtain ⟨i1, i2, i3⟩ := ih
    have key := fun α => iterate_total (α := α) he hb hs (i1 α)
    have ext3 : ∀ a b : Axes ℝ, (∀ α : Ax, α.get a = α.get b) → a = b := by
      intro a b hab
      ext
      · exact hab .x
      · exact hab .y
      · exact hab .z
    rename_i w w' _
    have hv : weighted ms Comp.v w'.particles = weighted ms Comp.v w.particles := ext3 _ _ fun α => by
      have := (key α).2.1
      rw [(total_fields ms α _).2.1, (total_fields ms α _).2.1] at this
      exact this
    refine ⟨fun α => (key α).1, hv.trans i2, ?_⟩
    have hx : weighted ms Comp.x w'.particles
        = weighted ms Comp.x w.particles + (w'.time - w.time) • weighted ms Comp.v w.particles := ext3 _ _ fun α => by
      have := (key α).2.2
      rw [(total_fields ms α _).1, (total_fields ms α _).1, (total_fields ms α _).2.1] at this
      rw [this]
      cases α <;> rfl
    rw [hx, i3, i2]
    module

end

/-- Two bodies of masses 2 and 3 connected by a spring: forces without net force and a settled beginning. -/
noncomputable def spring : Evaluate Unit ℝ := fun _ _ l =>
  match l with
  | [p, q] => some ((), [((3 : ℝ) • (q.position - p.position), 0), ((2 : ℝ) • (p.position - q.position), 0)])
  | _ => none

example : Total spring ∧ Balanced [2, 3] spring
    ∧ Settled [2, 3] [⟨.rest 1, .rest 0, .rest 0⟩, ⟨{ (.rest 4 : Comp ℝ) with v := 7 }, .rest 0, .rest 0⟩] := by
  refine ⟨?_, ?_, ?_⟩
  · intro s t l s' r h
    unfold spring at h
    split at h
    · cases h; rfl
    · cases h
  · intro s t l s' r h
    unfold spring at h
    split at h
    · cases h
      simp only [List.zipWith_cons_cons, List.zipWith_nil_left, List.sum_cons, List.sum_nil]
      module
    · cases h
  · intro α
    cases α <;>
      exact ⟨by simp [total, tot, Ax.get, Comp.comb, Series.comb, Seven.comb, Comp.rest, Seven.zero, Comp.nil, Series.nil, Seven.nil],
        by simp [total, tot, Ax.get, Comp.comb, Series.comb, Seven.comb, Comp.rest, Seven.zero, Comp.nil, Series.nil, Seven.nil],
        by simp [total, tot, Ax.get, Comp.comb, Series.comb, Seven.comb, Comp.rest, Seven.zero, Comp.nil, Series.nil, Seven.nil],
        by simp [total, tot, Ax.get, Comp.comb, Series.comb, Seven.comb, Comp.rest, Seven.zero, Comp.nil, Series.nil, Seven.nil],
        by simp [total, tot, Ax.get, Comp.comb, Comp.rest, Comp.nil], by simp [total, tot, Ax.get, Comp.comb, Comp.rest, Comp.nil]⟩

end Posidonius.Ias15
