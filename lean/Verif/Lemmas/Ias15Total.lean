import Verif.Model.Ias15
import Verif.Lemmas.Vec
import Mathlib.Tactic.Ring

/-! # Weighted sums of the particles of IAS15

In exact arithmetic all operations on a component are linear, so that a weighted sum of particles is treated like a
particle of its own. -/

namespace Posidonius.Ias15
open Posidonius

/-- `m s + t`. -/
def Seven.comb (m : ℝ) (s t : Seven ℝ) : Seven ℝ :=
  ⟨m * s.c0 + t.c0, m * s.c1 + t.c1, m * s.c2 + t.c2, m * s.c3 + t.c3, m * s.c4 + t.c4, m * s.c5 + t.c5, m * s.c6 + t.c6⟩

def Series.comb (m : ℝ) (s t : Series ℝ) : Series ℝ :=
  ⟨m * s.a0 + t.a0, m * s.now + t.now, s.b.comb m t.b, s.g.comb m t.g, s.cs.comb m t.cs, s.e.comb m t.e,
    s.br.comb m t.br, s.er.comb m t.er⟩

def Comp.comb (m : ℝ) (c d : Comp ℝ) : Comp ℝ :=
  ⟨m * c.x + d.x, m * c.v + d.v, m * c.a + d.a, m * c.l + d.l, m * c.dl + d.dl, m * c.x0 + d.x0, m * c.v0 + d.v0,
    m * c.l0 + d.l0, m * c.csx + d.csx, m * c.csv + d.csv, m * c.css + d.css, c.acc.comb m d.acc, c.tor.comb m d.tor⟩

def Seven.nil : Seven ℝ := ⟨0, 0, 0, 0, 0, 0, 0⟩
def Series.nil : Series ℝ := ⟨0, 0, .nil, .nil, .nil, .nil, .nil, .nil⟩
def Comp.nil : Comp ℝ := ⟨0, 0, 0, 0, 0, 0, 0, 0, 0, 0, 0, .nil, .nil⟩

attribute [local simp] Seven.comb Series.comb Seven.nil Series.nil addCs Seven.zero

theorem Series.start_comb (T : Tables ℝ) (m : ℝ) (s t : Series ℝ) :
    (s.comb m t).start T = (s.start T).comb m (t.start T) := by
  ext <;> simp [Series.start] <;> ring

theorem Series.start_nil (T : Tables ℝ) : Series.nil.start T = Series.nil := by
  ext <;> simp [Series.start]

theorem Series.difference_comb (m : ℝ) (s t : Series ℝ) : (s.comb m t).difference = m * s.difference + t.difference := by
  simp [Series.difference]; ring

theorem Series.add0_comb (m i j : ℝ) (s t : Series ℝ) : (s.comb m t).add0 (m * i + j) = (s.add0 i).comb m (t.add0 j) := by
  ext <;> simp [Series.add0] <;> ring
theorem Series.add1_comb (m i j : ℝ) (s t : Series ℝ) : (s.comb m t).add1 (m * i + j) = (s.add1 i).comb m (t.add1 j) := by
  ext <;> simp [Series.add1] <;> ring
theorem Series.add2_comb (m i j : ℝ) (s t : Series ℝ) : (s.comb m t).add2 (m * i + j) = (s.add2 i).comb m (t.add2 j) := by
  ext <;> simp [Series.add2] <;> ring
theorem Series.add3_comb (m i j : ℝ) (s t : Series ℝ) : (s.comb m t).add3 (m * i + j) = (s.add3 i).comb m (t.add3 j) := by
  ext <;> simp [Series.add3] <;> ring
theorem Series.add4_comb (m i j : ℝ) (s t : Series ℝ) : (s.comb m t).add4 (m * i + j) = (s.add4 i).comb m (t.add4 j) := by
  ext <;> simp [Series.add4] <;> ring
theorem Series.add5_comb (m i j : ℝ) (s t : Series ℝ) : (s.comb m t).add5 (m * i + j) = (s.add5 i).comb m (t.add5 j) := by
  ext <;> simp [Series.add5] <;> ring
theorem Series.add6_comb (m i j : ℝ) (s t : Series ℝ) : (s.comb m t).add6 (m * i + j) = (s.add6 i).comb m (t.add6 j) := by
  ext <;> simp [Series.add6] <;> ring

set_option maxHeartbeats 1000000 in
theorem Series.correct1_comb (T : Tables ℝ) (m : ℝ) (s t : Series ℝ) :
    (s.comb m t).correct1 T = (s.correct1 T).comb m (t.correct1 T) := by
  have hd := Series.difference_comb m s t
  simp only [Series.correct1, hd]
  generalize s.difference = p
  generalize t.difference = q
  ext <;> simp only [Series.comb, Seven.comb, addCs, Series.add0] <;> ring

set_option maxHeartbeats 1000000 in
theorem Series.correct2_comb (T : Tables ℝ) (m : ℝ) (s t : Series ℝ) :
    (s.comb m t).correct2 T = (s.correct2 T).comb m (t.correct2 T) := by
  have hd := Series.difference_comb m s t
  simp only [Series.correct2, hd]
  generalize s.difference = p
  generalize t.difference = q
  ext <;> simp only [Series.comb, Seven.comb, addCs, Series.add0, Series.add1] <;> ring

set_option maxHeartbeats 1000000 in
theorem Series.correct3_comb (T : Tables ℝ) (m : ℝ) (s t : Series ℝ) :
    (s.comb m t).correct3 T = (s.correct3 T).comb m (t.correct3 T) := by
  have hd := Series.difference_comb m s t
  simp only [Series.correct3, hd]
  generalize s.difference = p
  generalize t.difference = q
  ext <;> simp only [Series.comb, Seven.comb, addCs, Series.add0, Series.add1, Series.add2] <;> ring

set_option maxHeartbeats 1000000 in
theorem Series.correct4_comb (T : Tables ℝ) (m : ℝ) (s t : Series ℝ) :
    (s.comb m t).correct4 T = (s.correct4 T).comb m (t.correct4 T) := by
  have hd := Series.difference_comb m s t
  simp only [Series.correct4, hd]
  generalize s.difference = p
  generalize t.difference = q
  ext <;> simp only [Series.comb, Seven.comb, addCs, Series.add0, Series.add1, Series.add2, Series.add3] <;> ring

set_option maxHeartbeats 1000000 in
theorem Series.correct5_comb (T : Tables ℝ) (m : ℝ) (s t : Series ℝ) :
    (s.comb m t).correct5 T = (s.correct5 T).comb m (t.correct5 T) := by
  have hd := Series.difference_comb m s t
  simp only [Series.correct5, hd]
  generalize s.difference = p
  generalize t.difference = q
  ext <;> simp only [Series.comb, Seven.comb, addCs, Series.add0, Series.add1, Series.add2, Series.add3, Series.add4] <;> ring

set_option maxHeartbeats 1000000 in
theorem Series.correct6_comb (T : Tables ℝ) (m : ℝ) (s t : Series ℝ) :
    (s.comb m t).correct6 T = (s.correct6 T).comb m (t.correct6 T) := by
  have hd := Series.difference_comb m s t
  simp only [Series.correct6, hd]
  generalize s.difference = p
  generalize t.difference = q
  ext <;> simp only [Series.comb, Seven.comb, addCs, Series.add0, Series.add1, Series.add2, Series.add3, Series.add4, Series.add5] <;> ring

set_option maxHeartbeats 1000000 in
theorem Series.correct7_comb (T : Tables ℝ) (m : ℝ) (s t : Series ℝ) :
    (s.comb m t).correct7 T = (s.correct7 T).comb m (t.correct7 T) := by
  have hd := Series.difference_comb m s t
  simp only [Series.correct7, hd]
  generalize s.difference = p
  generalize t.difference = q
  ext <;> simp only [Series.comb, Seven.comb, addCs, Series.add0, Series.add1, Series.add2, Series.add3, Series.add4, Series.add5, Series.add6] <;> ring

theorem Series.correct_comb (T : Tables ℝ) (n : ℕ) (m : ℝ) (s t : Series ℝ) :
    (s.comb m t).correct T n = (s.correct T n).comb m (t.correct T n) := by
  unfold Series.correct
  split
  · exact Series.correct1_comb T m s t
  · exact Series.correct2_comb T m s t
  · exact Series.correct3_comb T m s t
  · exact Series.correct4_comb T m s t
  · exact Series.correct5_comb T m s t
  · exact Series.correct6_comb T m s t
  · exact Series.correct7_comb T m s t
  · rfl

theorem Series.correct_nil (T : Tables ℝ) (n : ℕ) : Series.nil.correct T n = Series.nil := by
  unfold Series.correct
  split <;>
    ext <;> simp [Series.correct1, Series.correct2, Series.correct3, Series.correct4, Series.correct5, Series.correct6,
      Series.correct7, Series.add0, Series.add1, Series.add2, Series.add3, Series.add4, Series.add5, Series.add6,
      Series.difference]

theorem Series.next_comb (q m : ℝ) (s t : Series ℝ) : (s.comb m t).next q = (s.next q).comb m (t.next q) := by
  unfold Series.next
  split
  · ext <;> simp
  · ext <;> simp <;> ring

theorem Series.next_nil (q : ℝ) : Series.nil.next q = Series.nil := by
  unfold Series.next
  split <;> ext <;> simp

theorem predictVelocity_comb (dt h m cs v cs' v' : ℝ) (s t : Series ℝ) :
    predictVelocity dt h (m * cs + cs') (m * v + v') (s.comb m t)
      = m * predictVelocity dt h cs v s + predictVelocity dt h cs' v' t := by
  simp [predictVelocity]; ring

theorem finishVelocity_comb (dt m cs v cs' v' : ℝ) (s t : Series ℝ) :
    finishVelocity dt (m * v + v') (m * cs + cs') (s.comb m t)
      = (m * (finishVelocity dt v cs s).1 + (finishVelocity dt v' cs' t).1,
         m * (finishVelocity dt v cs s).2 + (finishVelocity dt v' cs' t).2) := by
  ext <;> simp [finishVelocity] <;> ring

attribute [local simp] Comp.comb Comp.nil

theorem Comp.predictPosition_comb (dt h m : ℝ) (c d : Comp ℝ) :
    (c.comb m d).predictPosition dt h = m * c.predictPosition dt h + d.predictPosition dt h := by
  simp [Comp.predictPosition]; ring

theorem Comp.finishPosition_comb (dt m : ℝ) (c d : Comp ℝ) :
    finishPosition dt (c.comb m d) = (m * (finishPosition dt c).1 + (finishPosition dt d).1,
      m * (finishPosition dt c).2 + (finishPosition dt d).2) := by
  ext <;> simp [finishPosition] <;> ring

/-- Operations that treat a weighted sum like a particle. -/
structure Linear (f : Comp ℝ → Comp ℝ) : Prop where
  comb : ∀ m c d, f (Comp.comb m c d) = Comp.comb m (f c) (f d)
  nil : f Comp.nil = Comp.nil

theorem start_linear (T : Tables ℝ) (spin : Bool) : Linear (Comp.start T spin) where
  comb m c d := by
    have h1 := Series.start_comb T m { c.acc with a0 := c.a } { d.acc with a0 := d.a }
    have h2 := Series.start_comb T m { c.tor with a0 := c.dl } { d.tor with a0 := d.dl }
    have e1 : { c.acc.comb m d.acc with a0 := m * c.a + d.a } = Series.comb m { c.acc with a0 := c.a } { d.acc with a0 := d.a } := rfl
    have e2 : { c.tor.comb m d.tor with a0 := m * c.dl + d.dl } = Series.comb m { c.tor with a0 := c.dl } { d.tor with a0 := d.dl } := rfl
    cases spin
    · simp only [Comp.start, Comp.comb, e1, h1, Bool.false_eq_true, if_false]
    · simp only [Comp.start, Comp.comb, e1, e2, h1, h2, if_true]
  nil := by
    have h := Series.start_nil T
    have e : { Series.nil with a0 := 0 } = Series.nil := rfl
    cases spin
    · simp only [Comp.start, Comp.nil, e, h, Bool.false_eq_true, if_false]
    · simp only [Comp.start, Comp.nil, e, h, if_true]

theorem predict_linear (spin : Bool) (dt h : ℝ) : Linear (Comp.predict spin dt h) where
  comb m c d := by
    have h1 := Comp.predictPosition_comb dt h m c d
    have h2 := predictVelocity_comb dt h m c.csv c.v0 d.csv d.v0 c.acc d.acc
    have h3 := predictVelocity_comb dt h m c.css c.l0 d.css d.l0 c.tor d.tor
    unfold Comp.predict
    rw [h1]
    cases spin
    · simp only [Comp.comb, h2, Bool.false_eq_true, if_false]
    · simp only [Comp.comb, h2, h3, if_true]
  nil := by
    cases spin <;> simp [Comp.predict, Comp.predictPosition, predictVelocity]

theorem finish_linear (spin : Bool) (dt : ℝ) : Linear (Comp.finish spin dt) where
  comb m c d := by
    have h1 := Comp.finishPosition_comb dt m c d
    have h2 := finishVelocity_comb dt m c.csv c.v0 d.csv d.v0 c.acc d.acc
    have h3 := finishVelocity_comb dt m c.css c.l0 d.css d.l0 c.tor d.tor
    unfold Comp.finish
    rw [h1]
    cases spin
    · simp only [Comp.comb, h2, Bool.false_eq_true, if_false]
    · simp only [Comp.comb, h2, h3, if_true]
  nil := by
    cases spin <;> simp [Comp.finish, finishPosition, finishVelocity]

theorem restore_linear (spin : Bool) : Linear (Comp.restore spin) where
  comb m c d := by cases spin <;> simp [Comp.restore]
  nil := by cases spin <;> simp [Comp.restore]

theorem next_linear (spin : Bool) (q : ℝ) : Linear (Comp.next spin q) where
  comb m c d := by
    have h1 := Series.next_comb q m c.acc d.acc
    have h2 := Series.next_comb q m c.tor d.tor
    cases spin <;> simp only [Comp.next, Comp.comb, h1, h2, if_true, Bool.false_eq_true, if_false]
  nil := by
    have h := Series.next_nil q
    cases spin <;> simp only [Comp.next, Comp.nil, h, if_true, Bool.false_eq_true, if_false]

theorem remember_linear : Linear Comp.remember where
  comb m c d := by simp [Comp.remember, Series.remember]
  nil := by simp [Comp.remember, Series.remember]

theorem Linear.comp {f g : Comp ℝ → Comp ℝ} (hf : Linear f) (hg : Linear g) : Linear fun c => f (g c) :=
  ⟨fun m c d => by rw [hg.comb, hf.comb], by rw [hg.nil, hf.nil]⟩

theorem correct_comb (T : Tables ℝ) (spin : Bool) (n : ℕ) (m a dl a' dl' : ℝ) (c d : Comp ℝ) :
    (c.comb m d).correct T spin n (m * a + a') (m * dl + dl')
      = (c.correct T spin n a dl).comb m (d.correct T spin n a' dl') := by
  have h1 := Series.correct_comb T n m { c.acc with now := a } { d.acc with now := a' }
  have h2 := Series.correct_comb T n m { c.tor with now := dl } { d.tor with now := dl' }
  have e1 : { c.acc.comb m d.acc with now := m * a + a' } = Series.comb m { c.acc with now := a } { d.acc with now := a' } := rfl
  have e2 : { c.tor.comb m d.tor with now := m * dl + dl' } = Series.comb m { c.tor with now := dl } { d.tor with now := dl' } := rfl
  cases spin
  · simp only [Comp.correct, Comp.comb, e1, h1, Bool.false_eq_true, if_false]
  · simp only [Comp.correct, Comp.comb, e1, h1, e2, h2, if_true]

theorem correct_nil (T : Tables ℝ) (spin : Bool) (n : ℕ) : Comp.nil.correct T spin n 0 0 = Comp.nil := by
  have h := Series.correct_nil T n
  have e : { Series.nil with now := 0 } = Series.nil := rfl
  cases spin
  · simp only [Comp.correct, Comp.nil, e, h, Bool.false_eq_true, if_false]
  · simp only [Comp.correct, Comp.nil, e, h, if_true]

/-- The weighted sum of components. -/
def tot : List ℝ → List (Comp ℝ) → Comp ℝ
  | m :: ms, c :: cs => Comp.comb m c (tot ms cs)
  | _, _ => Comp.nil

/-- The weighted sum of numbers. -/
def wsum : List ℝ → List ℝ → ℝ
  | m :: ms, a :: as => m * a + wsum ms as
  | _, _ => 0

theorem tot_nil (cs : List (Comp ℝ)) : tot [] cs = Comp.nil := by cases cs <;> rfl
theorem tot_nil' (ms : List ℝ) : tot ms [] = Comp.nil := by cases ms <;> rfl
theorem wsum_nil (as : List ℝ) : wsum [] as = 0 := by cases as <;> rfl
theorem wsum_nil' (ms : List ℝ) : wsum ms [] = 0 := by cases ms <;> rfl

theorem tot_map {f : Comp ℝ → Comp ℝ} (hf : Linear f) (ms : List ℝ) (cs : List (Comp ℝ)) :
    tot ms (cs.map f) = f (tot ms cs) := by
  induction ms generalizing cs with
  | nil => rw [tot_nil, tot_nil, hf.nil]
  | cons m ms ih =>
    cases cs with
    | nil => rw [List.map_nil, tot_nil', hf.nil]
    | cons c cs => rw [List.map_cons, tot, tot, ih, hf.comb]

theorem tot_correct (T : Tables ℝ) (spin : Bool) (n : ℕ) (A B : (Axes ℝ × Axes ℝ) → ℝ) (ms : List ℝ)
    (r : List (Axes ℝ × Axes ℝ)) (cs : List (Comp ℝ)) (h : r.length = cs.length) :
    tot ms (List.zipWith (fun q c => Comp.correct T spin n (A q) (B q) c) r cs)
      = (tot ms cs).correct T spin n (wsum ms (r.map A)) (wsum ms (r.map B)) := by
  induction ms generalizing r cs with
  | nil => rw [tot_nil, tot_nil, wsum_nil, wsum_nil, correct_nil]
  | cons m ms ih =>
    match r, cs, h with
    | [], [], _ => rw [List.zipWith_nil_left, List.map_nil, List.map_nil, tot_nil', wsum_nil', correct_nil]
    | q :: r, c :: cs, h =>
      rw [List.zipWith_cons_cons, tot, tot, List.map_cons, List.map_cons, wsum, wsum, ih r cs (by simpa using h), correct_comb]

end Posidonius.Ias15
