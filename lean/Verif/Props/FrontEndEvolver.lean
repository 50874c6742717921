import Verif.Lemmas.FrontEndEvolver
import Verif.Props.FrontEndCases

/-! Property C124: the tables of evolving bodies that the Python front end writes into the case file. -/

namespace Posidonius.Univ
open Evolution (EvolutionType Evolver Kind LoadEnv Tables LoadPanic startsLate endsEarly readRecords numberOrMinusOne
  evolverNew Consistent Tabulated Quantity query tableValue)
open Interp (Increasing)

/-- The first line of the table of `Baraffe2015`, and only of that, is a header: no number, or a negative one. -/
def FirstLine (kind : Kind ℝ) (rows : List (List (Option ℝ))) : Prop :=
  ∃ row rest x, rows = row :: rest ∧ numberOrMinusOne row = .ok x ∧ (x < 0 ↔ kind.type = .baraffe2015)

theorem py_tables_read (env : LoadEnv ℝ) (around7 : ℝ → ℝ) (kind : Kind ℝ) (T : ℝ) (t : Tables ℝ)
    (hk : ∀ m, kind ≠ .leconte2011 m) (h : Py.tables env around7 kind T = some t)
    (hh : ∀ f rows, Evolution.tableFile kind = .ok f → env.files f = some rows → FirstLine kind rows) :
    ∃ f rows, Evolution.tableFile kind = .ok f ∧ env.files f = some rows ∧
      readRecords env kind T 0 rows ⟨[], [], [], [], []⟩ = .ok t := by
  obtain ⟨f, rows, data, hf, hr, hd, hc⟩ := Py.tables_some env around7 kind T t hk h
  have hf' := Py.py_tableFile kind f hf
  refine ⟨f, rows, hf', hr, ?_⟩
  obtain ⟨row, rest, x, rfl, hx, hlt⟩ := hh f rows hf' hr
  obtain ⟨hd1, hd2⟩ := Py.loadtxt_eq _ _ _ hd
  have hread := fun i => Py.readRecords_fromColumns env kind T f hf data i ⟨[], [], [], [], []⟩ t hc
  simp only [List.nil_append] at hread
  by_cases hb : kind.type = .baraffe2015
  · have hs : Py.skipped kind = 1 := by
      cases kind <;> simp [Kind.type] at hb
      rfl
    rw [hs, List.drop_succ_cons, List.drop_zero] at hd1
    rw [Evolution.readRecords_cons]
    refine ⟨x, hx, Or.inl ⟨by simpa using hlt.2 hb, ?_⟩⟩
    rw [hd1]
    exact hread 0
  · have hs : Py.skipped kind = 0 := by
      cases kind <;> first | rfl | exact absurd rfl hb
    rw [hs, List.drop_zero] at hd1
    have h1 := hread 0
    rw [← hd1, Evolution.readRecords_cons] at h1
    obtain ⟨x', hx', ⟨h2, -⟩ | ⟨-, h2⟩⟩ := h1
    · simp at h2
    rw [hx] at hx'
    injection hx' with hx'
    subst hx'
    rw [Evolution.readRecords_cons]
    refine ⟨x, hx, Or.inr ⟨?_, ?_⟩⟩
    · have : ¬ x < 0 := fun h => hb (hlt.1 h)
      simpa using this
    · simpa only [Evolution.readRecords_index env kind T rest 1 0] using h2

/-- **C124** (missing: `Leconte2011`, unexpected first lines, and the test of the end of the tables, see the
violations): if the front end accepts an evolving body, the tables in its file are those of `Evolver::new`, which accepts
them unless they end before the time limit. -/
theorem C124_partial (env : LoadEnv ℝ) (around7 : ℝ → ℝ) (kind : Kind ℝ) (T L : ℝ) (e : Evolver ℝ)
    (hk : ∀ m, kind ≠ .leconte2011 m) (h : Py.evolver env around7 kind T = some e)
    (hh : ∀ f rows, Evolution.tableFile kind = .ok f → env.files f = some rows → FirstLine kind rows) :
    evolverNew env kind T L = if endsEarly L e.time then .error .endsEarly else .ok e := by
  unfold Py.evolver at h
  split at h
  · cases h
  rename_i t ht
  obtain ⟨f, rows, h1, h2, h3⟩ := py_tables_read env around7 kind T t hk ht hh
  split at h
  · cases h
  rename_i hs
  split at h
  · cases h
  injection h with h
  subst h
  have hsec : Evolution.secondFile env kind T t = .ok t := by
    cases kind with
    | leconte2011 m => exact absurd rfl (hk m)
    | _ => rfl
  simp only [evolverNew, h1, h2, h3, hsec, bind, Except.bind, if_neg hs]

/-! ## The size at the beginning -/

/-- The columns that a model does not tabulate are empty. -/
theorem py_rg2_empty (env : LoadEnv ℝ) (around7 : ℝ → ℝ) (kind : Kind ℝ) (T : ℝ) (e : Evolver ℝ)
    (hk : ∀ m, kind ≠ .leconte2011 m) (h : Py.evolver env around7 kind T = some e) :
    e.evolution = kind.type ∧ e.leftIndex = 0 ∧ e.time ≠ [] ∧
      (Tabulated kind.type .radiusOfGyration2 = false → e.radiusOfGyration2 = []) := by
  unfold Py.evolver at h
  split at h
  · cases h
  rename_i t ht
  split at h
  · cases h
  split at h
  · cases h
  injection h with h
  subst h
  obtain ⟨f, rows, data, -, -, hd, hc⟩ := Py.tables_some env around7 kind T t hk ht
  obtain ⟨-, hne⟩ := Py.loadtxt_eq _ _ _ hd
  have key : t.time.length = data.length ∧
      (Tabulated kind.type .radiusOfGyration2 = false → t.radiusOfGyration2 = []) := by
    unfold Py.fromColumns at hc
    cases kind with
    | leconte2011 m => exact absurd rfl (hk m)
    | nonEvolving => cases hc
    | _ =>
      dsimp only at hc
      split at hc
      · injection hc with hc
        subst hc
        refine ⟨?_, ?_⟩
        · simp only [Py.ages, List.length_map]
          exact Py.column_length 0 data _ ‹_›
        · intro h
          first
            | rfl
            | simp [Tabulated, Kind.type] at h
      · cases hc
  refine ⟨rfl, rfl, ?_, key.2⟩
  intro h0
  dsimp only at h0
  rw [h0] at key
  exact hne (List.length_eq_zero_iff.1 key.1.symm)

theorem matchEvolution_values (p : Particle ℝ) (e : Evolver ℝ) (w1 w2 : ℝ) (e1 e2 : Evolver ℝ)
    (hne : p.evolution ≠ .nonEvolving) (hr : e.queryRadius (lit 0) p.radius = some (w1, e1))
    (hg : e1.queryRadiusOfGyration2 (lit 0) p.radiusOfGyration2 = some (w2, e2)) :
    (matchEvolution p e).map Prod.fst =
      let updateRadius := ltb (lit (1 / 1000000)) (FOps.abs (w1 - p.radius))
      let radius := if updateRadius then w1 else p.radius
      let updateRg2 := ltb (lit (1 / 1000000)) (FOps.abs (w2 - p.radiusOfGyration2))
      let rg2 := if updateRg2 then w2 else p.radiusOfGyration2
      if updateRadius || updateRg2 then
        let inertia := p.mass * rg2 * ipow radius 2
        some { p with radius := radius, radiusOfGyration2 := rg2, momentOfInertia := inertia
                      angularMomentum := ⟨p.spin.x * inertia, p.spin.y * inertia, p.spin.z * inertia⟩ }
      else some { p with radius := radius, radiusOfGyration2 := rg2 } := by
  unfold matchEvolution
  split
  · rename_i h
    exact absurd h hne
  · rw [hr]
    dsimp only
    rw [hg]
    dsimp only
    generalize ltb (lit (1 / 1000000)) (FOps.abs (w1 - p.radius)) = u1
    generalize ltb (lit (1 / 1000000)) (FOps.abs (w2 - p.radiusOfGyration2)) = u2
    cases u1 <;> cases u2 <;> rfl

theorem py_matchEvolver (p : Particle ℝ) (e : Evolver ℝ) (hc : Consistent e) (h0 : e.leftIndex = 0)
    (hev : e.evolution ≠ .nonEvolving) (hp : p.evolution = e.evolution) (hx : Increasing e.time)
    (hrg : Tabulated e.evolution .radiusOfGyration2 = false → e.radiusOfGyration2 = []) :
    Py.matchEvolver p e = (matchEvolution p e).map Prod.fst := by
  have hne := hc.nonempty hev
  -- the two lookups of the library are those of the complete tables
  obtain ⟨vs, e', hq, hall⟩ := Evolution.C28_cached_equals_full e hc h0
    [(.radius, 0, p.radius), (.radiusOfGyration2, 0, p.radiusOfGyration2)] (by simp)
  cases hall with
  | cons hv1 hrest =>
    rename_i v1 vs
    cases hrest with
    | cons hv2 hnil =>
      rename_i v2 vs
      cases hnil
      dsimp only at hv1 hv2
      -- the state between them
      simp only [Evolution.queries, query] at hq
      cases hr : e.queryRadius 0 p.radius with
      | none => rw [hr] at hq; cases hq
      | some a =>
        obtain ⟨w1, e1⟩ := a
        rw [hr] at hq
        dsimp only at hq
        cases hg : e1.queryRadiusOfGyration2 0 p.radiusOfGyration2 with
        | none => rw [hg] at hq; cases hq
        | some b =>
          obtain ⟨w2, e2⟩ := b
          rw [hg] at hq
          simp only [Option.some.injEq, Prod.mk.injEq, List.cons.injEq, and_true] at hq
          obtain ⟨⟨rfl, rfl⟩, -⟩ := hq
          -- the values of the front end
          have tr : Tabulated e.evolution .radius = true := by
            cases he : e.evolution <;> first | rfl | exact absurd he hev
          have a1 : Py.valueAtStart e.time e.radius p.radius = some w1 := by
            have hlen := hc.lengths .radius tr
            unfold Py.valueAtStart
            rw [if_neg, Py.py_linearInterpolation _ _ _ hne hx (by exact hlen)]
            · rw [tableValue, if_pos tr] at hv1
              simpa [Evolver.column] using hv1
            · intro h
              rw [Evolver.column, h] at hlen
              exact hne (List.length_eq_zero_iff.1 hlen.symm)
          have a2 : Py.valueAtStart e.time e.radiusOfGyration2 p.radiusOfGyration2 = some w2 := by
            unfold Py.valueAtStart
            cases tg : Tabulated e.evolution .radiusOfGyration2 with
            | false =>
              rw [tableValue, tg] at hv2
              rw [if_pos (hrg tg)]
              simpa using hv2
            | true =>
              have hlen := hc.lengths .radiusOfGyration2 tg
              rw [if_neg, Py.py_linearInterpolation _ _ _ hne hx (by exact hlen)]
              · rw [tableValue, if_pos tg] at hv2
                simpa [Evolver.column] using hv2
              · intro h
                rw [Evolver.column, h] at hlen
                exact hne (List.length_eq_zero_iff.1 hlen.symm)
          have z : (lit 0 : ℝ) = 0 := by simp
          rw [matchEvolution_values p e w1 w2 e1 e2 (by rw [hp]; exact hev) (by rw [z]; exact hr) (by rw [z]; exact hg)]
          unfold Py.matchEvolver
          rw [a1, a2]
          dsimp only
          have hi : ∀ a b c : ℝ, a * b * ipow c 2 = a * b * c * c := by
            intro a b c
            simp only [ipow]
            ring
          simp only [hi]

/-- **C124, the size of an evolving body**: the front end gives it the size that the constructor of the library would
give it. -/
theorem C124_prepares (env : LoadEnv ℝ) (around7 : ℝ → ℝ) (kindOf : Particle ℝ → Kind ℝ) (c0 : Consider) (T L : ℝ)
    {n : Nat} (p : Fin n → Particle ℝ) (hkind : ∀ i, (kindOf (p i)).type = (p i).evolution)
    (hacc : ∀ i, (p i).evolution ≠ .nonEvolving → ∃ e, Py.evolver env around7 (kindOf (p i)) T = some e ∧
      Increasing e.time)
    (hk : ∀ i, (p i).evolution ≠ .leconte2011)
    (hh : ∀ i f rows, Evolution.tableFile (kindOf (p i)) = .ok f → env.files f = some rows →
      (p i).evolution ≠ .nonEvolving → FirstLine (kindOf (p i)) rows) :
    Prepares (Py.evolve env around7 kindOf c0 T) c0 (fun i => Py.ofExcept (evolverNew env (kindOf (p i)) T L)) p := by
  intro i e he hne
  obtain ⟨e', h1, h2⟩ := hacc i hne
  have hk' : ∀ m, kindOf (p i) ≠ .leconte2011 m := by
    intro m h
    apply hk i
    rw [← hkind i, h]
    rfl
  have h3 := C124_partial env around7 (kindOf (p i)) T L e' hk' h1 (fun f rows a b => hh i f rows a b hne)
  obtain ⟨t1, t2, t3, t4⟩ := py_rg2_empty env around7 _ T e' hk' h1
  dsimp only at he
  rw [h3] at he
  split at he
  · cases he
  rename_i hend
  rw [if_neg hend] at h3
  simp only [Py.ofExcept, Option.some.injEq] at he
  subst he
  have hev : e'.evolution ≠ .nonEvolving := by
    rw [t1, hkind i]
    exact hne
  have hcons : Consistent e' := ⟨fun _ => t3, fun q hq => Evolution.C88_lengths env _ T L e' h3 q hq⟩
  unfold Py.evolve
  rw [h1]
  dsimp only
  split
  · exact py_matchEvolver (p i) e' hcons t2 hev (by rw [t1, hkind i]) h2 (by rw [t1]; exact t4)
  · rfl

/-- **C124, a whole case with evolving bodies** (missing: as above): where the constructor of the library accepts a system
and the front end its evolving bodies, the file describes the universe of the constructor. -/
theorem C124_partial_case (k : Consts ℝ) (env : LoadEnv ℝ) (around7 : ℝ → ℝ) (kindOf : Particle ℝ → Kind ℝ)
    (c0 : Consider) (T L : ℝ) {n : Nat} (p : Fin n → Particle ℝ) (u : Universe ℝ n)
    (hu : newUniverse c0 (fun i => Py.ofExcept (evolverNew env (kindOf (p i)) T L)) p = some u)
    (hkind : ∀ i, (kindOf (p i)).type = (p i).evolution)
    (hacc : ∀ i, (p i).evolution ≠ .nonEvolving → ∃ e, Py.evolver env around7 (kindOf (p i)) T = some e ∧
      Increasing e.time)
    (hk : ∀ i, (p i).evolution ≠ .leconte2011)
    (hh : ∀ i f rows, Evolution.tableFile (kindOf (p i)) = .ok f → env.files f = some rows →
      (p i).evolution ≠ .nonEvolving → FirstLine (kindOf (p i)) rows)
    (hm : Py.MassesPositive (List.ofFn p) (lit 0))
    (hd : ∀ i, (p i).disk.effect.isCentral = true → (p i).disk.effect.hasDisk = true) :
    ∃ f, Py.caseFile k (Py.evolve env around7 kindOf c0 T) c0 (List.ofFn p) = some f ∧ Describes f u :=
  C123_partial k _ c0 _ p u hu (C124_prepares env around7 kindOf c0 T L p hkind hacc hk hh) hm hd

/-! ## Brown dwarfs -/

/-- The front end restricts the table to the range of the auxiliary times as the library does. -/
theorem py_restrictRange (aux time radius time' radius' : List ℝ) (first last : ℝ) (hf : aux.head? = some first)
    (hl : aux.getLast? = some last) (hfl : first ≤ last) (h : Py.restrictRange aux time radius = some (time', radius')) :
    Evolution.restrictRange aux time radius = .ok (time', radius') ∧
      (Increasing time → time' = time.filter fun x => decide (first ≤ x ∧ x ≤ last)) := by
  unfold Py.restrictRange at h
  rw [hf, hl] at h
  dsimp only at h
  cases h1 : time.findIdx? (fun x => leb first x) with
  | none => rw [h1] at h; cases h
  | some lower =>
    cases h2 : time.findIdx? (fun x => ltb last x) with
    | none => rw [h1, h2] at h; cases h
    | some upper =>
      rw [h1, h2] at h
      simp only [Option.some.injEq, Prod.mk.injEq] at h
      obtain ⟨rfl, rfl⟩ := h
      obtain ⟨hlow, l1, l2⟩ := List.findIdx?_eq_some_iff_getElem.1 h1
      obtain ⟨hup, u1, u2⟩ := List.findIdx?_eq_some_iff_getElem.1 h2
      simp only [leb_real, ltb_real, not_le, not_lt] at l1 l2 u1 u2
      have hle : lower ≤ upper := by
        by_contra hc
        have := l2 upper (not_le.1 hc)
        linarith
      have h3 : (time.drop lower).findIdx? (fun x => ltb last x) = some (upper - lower) := by
        rw [List.findIdx?_eq_some_iff_getElem]
        refine ⟨by rw [List.length_drop]; omega, ?_, ?_⟩
        · rw [List.getElem_drop, ltb_real]
          have : lower + (upper - lower) = upper := by omega
          simp only [this]
          exact u1
        · intro j hj
          rw [List.getElem_drop]
          simpa using u2 (lower + j) (by omega)
      constructor
      · unfold Evolution.restrictRange
        cases time with
        | nil => simp at hlow
        | cons a l =>
          dsimp only
          rw [hf, hl]
          simp only [Evolution.dropBefore, h1, Evolution.cutAfter, h3, List.drop_take]
      · intro hinc
        have e1 : time = time.take lower ++ ((time.take upper).drop lower ++ time.drop upper) := by
          rw [← List.drop_append_of_le_length (by rw [List.length_take]; omega), List.take_append_drop, List.take_append_drop]
        conv_rhs => rw [e1]
        rw [List.filter_append, List.filter_append, List.filter_eq_nil_iff.2, List.filter_eq_self.2, List.filter_eq_nil_iff.2,
          List.nil_append, List.append_nil]
        · intro x hx
          obtain ⟨j, hj, rfl⟩ := List.mem_iff_getElem.1 hx
          rw [List.length_drop] at hj
          rw [List.getElem_drop]
          have : time[upper] ≤ time[upper + j] := by
            rcases Nat.eq_zero_or_pos j with rfl | h0
            · exact le_refl _
            · exact (hinc upper (upper + j) (by omega) (by omega)).le
          simp only [decide_eq_true_eq, not_and, not_le]
          intro _
          linarith
        · intro x hx
          obtain ⟨j, hj, rfl⟩ := List.mem_iff_getElem.1 hx
          rw [List.length_drop, List.length_take] at hj
          rw [List.getElem_drop, List.getElem_take, decide_eq_true_eq]
          have : time[lower] ≤ time[lower + j]'(by omega) := by
            rcases Nat.eq_zero_or_pos j with rfl | h0
            · exact le_refl _
            · exact (hinc lower (lower + j) (by omega) (by omega)).le
          exact ⟨le_trans l1 this, u2 (lower + j) (by omega)⟩
        · intro x hx
          obtain ⟨j, hj, rfl⟩ := List.mem_iff_getElem.1 hx
          rw [List.length_take] at hj
          rw [List.getElem_take, decide_eq_true_eq]
          have := l2 j (by omega)
          exact fun hc => absurd hc.1 (not_le.2 this)

theorem column_spec (i : Nat) (data : List (List ℝ)) (c : List ℝ) (h : Py.column i data = some c) :
    List.Forall₂ (fun a x => a[i]? = some x) data c := by
  induction data generalizing c with
  | nil =>
    simp only [Py.column, Option.some.injEq] at h
    subst h
    exact List.Forall₂.nil
  | cons a l ih =>
    obtain ⟨x, rest, h1, h2, rfl⟩ := (Py.column_cons i a l c).1 h
    exact List.Forall₂.cons h1 (ih rest h2)

theorem forall₂_column {A : Type} {f : List ℝ → Option A} {data : List (List ℝ)} {c d : List A}
    (h : List.Forall₂ (fun a x => f a = some x) data c) (h' : List.Forall₂ (fun a x => f a = some x) data d) : c = d := by
  induction h generalizing d with
  | nil => cases h'; rfl
  | cons h1 _ ih =>
    cases h' with
    | cons h2 h3 =>
      rw [h1] at h2
      injection h2 with h2
      rw [h2, ih h3]

/-- **C124 for brown dwarfs** (missing: the radius of gyration, see `C124_violated_spline`): the times and radii in the file are
those of `Evolver::new`. -/
theorem C124_partial_leconte (env : LoadEnv ℝ) (around7 : ℝ → ℝ) (m T L : ℝ) (e e' : Evolver ℝ)
    (h : Py.evolver env around7 (.leconte2011 m) T = some e) (h' : evolverNew env (.leconte2011 m) T L = .ok e')
    (hh : ∀ f rows, Evolution.tableFile (.leconte2011 m) = .ok f → env.files f = some rows → FirstLine (.leconte2011 m) rows)
    (ha : ∀ rows, env.files "input/Leconte_2011/rg2BD.dat" = some rows →
      (rows.map Evolution.timeField).Pairwise (· ≤ ·)) :
    e'.evolution = e.evolution ∧ e'.time = e.time ∧ e'.radius = e.radius := by
  obtain ⟨f, rows, t0, t, g1, g2, g3, g4, -, -, rfl⟩ := Evolution.evolverNew_ok env _ T L e' h'
  obtain ⟨col, aux, auxTime, auxRg2, time, radius, rg2, a1, a2, a3, a4, a5, rfl⟩ := Evolution.addAux_ok env m T t0 t g4
  obtain ⟨r1, -, rcol, r2, r3⟩ :=
    Evolution.readRecords_leconte env m T _ 0 _ _ (Evolution.readRecords_zero env _ T rows _ _ g3)
  simp only [List.nil_append] at r1 r2
  obtain ⟨c1, -⟩ := Evolution.readAux_ok col aux auxTime auxRg2 a3
  -- the front end
  unfold Py.evolver at h
  split at h
  · cases h
  rename_i tp htp
  split at h
  · cases h
  split at h
  · cases h
  injection h with h
  subst h
  unfold Py.tables at htp
  split at htp
  · cases htp
  rename_i f' hf'
  rw [Py.py_tableFile _ _ hf'] at g1
  injection g1 with g1
  subst g1
  rw [g2] at htp
  dsimp only at htp
  rw [a2] at htp
  split at htp
  · rename_i data auxRows i hd haux hi
    injection haux with haux
    subst haux
    split at htp
    · cases htp
    rename_i auxData had
    split at htp
    · rename_i timeP radiusP auxTimeP auxRg2P k1 k2 k3 k4
      split at htp
      · cases htp
      rename_i timeQ radiusQ hq
      rw [Option.map_eq_some_iff] at htp
      obtain ⟨rgP, -, rfl⟩ := htp
      obtain ⟨d1, -⟩ := Py.loadtxt_eq _ _ _ hd
      obtain ⟨d2, -⟩ := Py.loadtxt_eq _ _ _ had
      rw [List.drop_zero] at d1 d2
      -- the first line is no header
      have hrows : Evolution.dataRows rows = rows := by
        obtain ⟨row, rest, x, e1, hx, hlt⟩ := hh f' rows (Py.py_tableFile _ _ hf') g2
        rw [e1, Evolution.dataRows, if_neg]
        rw [← Evolution.numberOrMinusOne_ok row x hx]
        intro hneg
        have := hlt.1 hneg
        simp [Kind.type] at this
      rw [hrows] at r1 r3
      subst d1 d2
      have tf : ∀ (a : List ℝ) (x : ℝ), a[0]? = some x → Evolution.timeField (a.map some) = x := by
        intro a x hx
        simp [Evolution.timeField, hx]
      have times : ∀ (data : List (List ℝ)) (c : List ℝ), Py.column 0 data = some c →
          (data.map (List.map some)).map Evolution.timeField = c := by
        intro data c hc
        have := column_spec 0 data c hc
        induction this with
        | nil => rfl
        | cons h1 _ ih =>
          obtain ⟨x, rest, -, q2, q3⟩ := (Py.column_cons 0 _ _ _).1 hc
          injection q3 with _ q3
          rw [← q3] at q2
          simp only [List.map_cons, tf _ _ h1]
          rw [ih q2]
      have e1 : t0.time = timeP := by rw [r1]; exact times _ _ k1
      have e2 : t0.radius = radiusP.map (· * env.rSun) := by
        rw [r2]
        rw [List.forall₂_map_left_iff] at r3
        refine forall₂_column (f := fun a => a[1]?.map (· * env.rSun)) (data := data) (r3.imp ?_) ?_
        · rintro a v ⟨raw, q1, rfl⟩
          rw [List.getElem?_map] at q1
          cases q : a[1]? with
          | none => rw [q] at q1; simp at q1
          | some y =>
            rw [q] at q1
            simp only [Option.map_some, Option.some.injEq] at q1
            simp [q1]
        · rw [List.forall₂_map_right_iff]
          exact (column_spec 1 data _ k2).imp fun a x hx => by rw [hx]; rfl
      have e3 : auxTime = auxTimeP := by
        rw [List.forall₂_map_left_iff] at c1
        refine forall₂_column (f := fun a => a[0]?) (c1.imp ?_) (column_spec 0 auxData _ k3)
        intro a x hx
        rw [List.getElem?_map] at hx
        cases q : a[0]? with
        | none => rw [q] at hx; simp at hx
        | some y => rw [q] at hx; simpa using hx
      have hsorted := ha _ a2
      rw [times _ _ k3] at hsorted
      have hne : auxTimeP ≠ [] := by
        rintro rfl
        simp [Py.restrictRange] at hq
      obtain ⟨first, l, rfl⟩ := List.exists_cons_of_ne_nil hne
      have hlast : first ≤ (first :: l).getLast hne := by
        rcases List.mem_cons.1 (List.getLast_mem hne) with hm | hm
        · rw [hm]
        · exact (List.pairwise_cons.1 hsorted).1 _ hm
      have hr := (py_restrictRange _ _ _ _ _ first _ rfl (List.getLast?_eq_getLast_of_ne_nil hne) hlast hq).1
      rw [e1, e2, e3, hr] at a4
      injection a4 with a4
      injection a4 with b1 b2
      subst b1 b2
      exact ⟨rfl, rfl, rfl⟩
    · cases htp
  · cases htp

/-! ## Violations -/

/-- Jupiter with a table of two lines, at birth and at the age of `years`. -/
noncomputable def jupiterEnv (years : ℝ) : LoadEnv ℝ where
  files f :=
    if f = "input/Leconte_Chabrier_2013/Jupiter.dat" then
      some [[some 0, some 70, some 0.5, some 0.25], [some years, some 50, some 0.5, some 0.25]]
    else if f = "input/empty.dat" then some [] else none
  rSun := 0.005
  m2au := 2
  halfUp7 x := x

theorem jupiter_tables (years : ℝ) (around7 : ℝ → ℝ) (T : ℝ) :
    Py.tables (jupiterEnv years) around7 (.leconteChabrier2013 false) T
      = some ⟨[0 * 365.25 - T, years * 365.25 - T], [140, 100], [0.25, 0.25], [0.5, 0.5], []⟩ := by
  have hf : (jupiterEnv years).files "input/Leconte_Chabrier_2013/Jupiter.dat"
      = some [[some 0, some 70, some 0.5, some 0.25], [some years, some 50, some 0.5, some 0.25]] := by
    simp [jupiterEnv]
  simp only [Py.tables, Py.tableFile, hf, Py.loadtxt, List.drop_zero, Py.numberRows, Py.numbers, Py.column,
    Option.map_some, List.length_cons, List.length_nil, if_true, Py.ages, jupiterEnv]
  norm_num [Py.column]

theorem jupiter_firstLine (years : ℝ) (f : String) (rows : List (List (Option ℝ)))
    (hf : Evolution.tableFile (.leconteChabrier2013 false : Kind ℝ) = .ok f) (hr : (jupiterEnv years).files f = some rows) :
    FirstLine (.leconteChabrier2013 false) rows := by
  simp only [Evolution.tableFile, Except.ok.injEq] at hf
  subst hf
  simp only [jupiterEnv, if_true, Option.some.injEq] at hr
  subst hr
  exact ⟨_, _, 0, rfl, rfl, by simp [Kind.type]⟩

/-- **C124 is violated**: the front end compares the end of the table with the initial time instead of the time limit.  It
accepts tables that end before the time limit, at any time limit, where `Evolver::new` panics. -/
theorem C124_violated_limit (T L : ℝ) (around7 : ℝ → ℝ) (hT : 0 ≤ T) (hL : T < L) :
    ∃ env e, Py.evolver env around7 (.leconteChabrier2013 false) T = some e ∧
      evolverNew env (.leconteChabrier2013 false) T L = .error .endsEarly := by
  refine ⟨jupiterEnv (2 * T / 365.25),
    ⟨.leconteChabrier2013 false, [-T, T], [140, 100], [0.25, 0.25], [0.5, 0.5], [], 0⟩, ?_, ?_⟩
  · have h1 : 2 * T / 365.25 * 365.25 - T = T := by
      rw [div_mul_cancel₀ _ (by norm_num)]
      ring
    unfold Py.evolver
    rw [jupiter_tables, h1]
    simp [startsLate, endsEarly, Kind.type, hT]
  · have h1 : 2 * T / 365.25 * 365.25 - T = T := by
      rw [div_mul_cancel₀ _ (by norm_num)]
      ring
    obtain ⟨f, rows, g1, g2, g3⟩ := py_tables_read (jupiterEnv (2 * T / 365.25)) around7 (.leconteChabrier2013 false) T _
      (by intro m h; cases h) (jupiter_tables _ _ _) (jupiter_firstLine _)
    rw [h1] at g3
    simp only [evolverNew, g1, g2, g3, Evolution.secondFile, bind, Except.bind]
    simp [startsLate, endsEarly, hT, hL]

/-- **C124 is violated, the other way round**: the front end refuses a table that reaches the time limit, because what is
left of it is shorter than the age of the body. -/
theorem C124_violated_short (T L : ℝ) (around7 : ℝ → ℝ) (hT : 0 < T) (hL : L ≤ T / 2) :
    ∃ env e, Py.evolver env around7 (.leconteChabrier2013 false) T = none ∧
      evolverNew env (.leconteChabrier2013 false) T L = .ok e := by
  have h1 : 3 * T / 2 / 365.25 * 365.25 - T = T / 2 := by
    rw [div_mul_cancel₀ _ (by norm_num)]
    ring
  refine ⟨jupiterEnv (3 * T / 2 / 365.25),
    ⟨.leconteChabrier2013 false, [-T, T / 2], [140, 100], [0.25, 0.25], [0.5, 0.5], [], 0⟩, ?_, ?_⟩
  · unfold Py.evolver
    rw [jupiter_tables, h1]
    have : T / 2 < T := by linarith
    simp [startsLate, endsEarly, this]
  · obtain ⟨f, rows, g1, g2, g3⟩ := py_tables_read (jupiterEnv (3 * T / 2 / 365.25)) around7
      (.leconteChabrier2013 false) T _ (by intro m h; cases h) (jupiter_tables _ _ _) (jupiter_firstLine _)
    rw [h1] at g3
    simp only [evolverNew, g1, g2, g3, Evolution.secondFile, bind, Except.bind]
    simp [startsLate, endsEarly, not_lt.mpr hT.le, not_lt.mpr hL, Kind.type]

/-- **C124 is violated for `BolmontMathis2016`**: a star of 1.5 solar masses has a table in the library, none in the front
end, whatever the files. -/
theorem C124_violated_mass (env : LoadEnv ℝ) (around7 : ℝ → ℝ) (T : ℝ) :
    Py.evolver env around7 (.bolmontMathis2016 1.5) T = none ∧
      Evolution.tableFile (.bolmontMathis2016 (1.5 : ℝ)) = .ok "input/Bolmont_Mathis_2016/L15Z02r.dat" := by
  constructor
  · have : Py.tableFile (.bolmontMathis2016 (1.5 : ℝ)) = none := by
      norm_num [Py.tableFile, Py.bolmontMathisFile, Evolution.inWindow, FOps.leb, FOps.lit]
    simp [Py.evolver, Py.tables, this]
  · norm_num [Evolution.tableFile, Evolution.bolmontMathisFile, Evolution.inWindow, FOps.leb, FOps.lit]

/-- **C124 is violated for `Leconte2011`**: where a time of the table is a time of the auxiliary table, other than its first
and last, the front end mixes the tabulated radius of gyration with its neighbours, whereas the library takes it as it is. -/
theorem C124_violated_spline (x y : List ℝ) (hx : Increasing x) (hl : y.length = x.length) (i : Nat)
    (hi : i + 2 < x.length) :
    Py.bSpline x y x[i + 1] = some ((y[i] + 4 * y[i + 1] + y[i + 2]) / 6) ∧
      ∃ l, Interp.linearInterpolation x[i + 1] x y = some (y[i + 1], l) := by
  constructor
  · have hf : x.findIdx? (fun v => leb x[i + 1] v) = some (i + 1) := by
      rw [List.findIdx?_eq_some_iff_getElem]
      refine ⟨by omega, by simp, ?_⟩
      intro j hj
      simpa using hx j (i + 1) (by omega) hj
    have e1 : x[i]? = some (x[i]'(by omega)) := List.getElem?_eq_getElem (by omega)
    have e2 : x[i + 1]? = some (x[i + 1]'(by omega)) := List.getElem?_eq_getElem (by omega)
    have e3 : y[i]? = some (y[i]'(by omega)) := List.getElem?_eq_getElem (by omega)
    have e4 : y[i + 1]? = some (y[i + 1]'(by omega)) := List.getElem?_eq_getElem (by omega)
    have e5 : y[i + 2]? = some (y[i + 2]'(by omega)) := List.getElem?_eq_getElem (by omega)
    have hu : (x[i + 1] - x[i]) / (x[i + 1] - x[i]) = 1 := div_self (by
      have := hx i (i + 1) (by omega) (by omega)
      intro h
      linarith)
    have hb : ∃ a, (if i > 0 then y[i - 1]? else Py.phantom y[0]? y[1]?) = some a := by
      split
      · exact ⟨_, List.getElem?_eq_getElem (by omega)⟩
      · rw [List.getElem?_eq_getElem (by omega : 0 < y.length), List.getElem?_eq_getElem (by omega : 1 < y.length)]
        exact ⟨_, rfl⟩
    obtain ⟨a, ha⟩ := hb
    unfold Py.bSpline Py.findIndicesSorted
    rw [hf]
    simp only [Nat.add_eq_zero_iff, Nat.one_ne_zero, and_false, if_false, Nat.add_sub_cancel]
    rw [if_neg (by omega), e1, e2, e3, e4]
    dsimp only
    rw [ha, if_pos (by omega), e5, hu]
    simp [ipow]
    ring
  · obtain ⟨l, h⟩ := Interp.C26_exact_at_nodes x y hx hl (i + 1) (by omega)
    exact ⟨l, h⟩

/-- **C124 is violated for `Baraffe2015`**: the front end leaves out the first line even if it is not a header. -/
theorem C124_violated_header (env : LoadEnv ℝ) (around7 : ℝ → ℝ) (T L m : ℝ) (e : Evolver ℝ) (f : String)
    (a : List ℝ) (x : ℝ) (rest : List (List (Option ℝ))) (hf : Py.tableFile (.baraffe2015 m) = some f)
    (hr : env.files f = some (a.map some :: rest)) (hx : a[0]? = some x) (h0 : 0 ≤ x)
    (h : Py.evolver env around7 (.baraffe2015 m) T = some e) (e' : Evolver ℝ)
    (h' : evolverNew env (.baraffe2015 m) T L = .ok e') :
    e'.time.length = e.time.length + 1 := by
  obtain ⟨f', rows, t0, t, g1, g2, g3, g4, -, -, rfl⟩ := Evolution.evolverNew_ok env _ T L e' h'
  rw [Py.py_tableFile _ _ hf] at g1
  injection g1 with g1
  subst g1
  rw [hr] at g2
  injection g2 with g2
  subst g2
  simp only [Evolution.secondFile, Except.ok.injEq] at g4
  subst g4
  rw [Evolution.readRecords_cons] at g3
  obtain ⟨x', hx', ⟨h2, -⟩ | ⟨-, rr, rg2, love, q, -, -, -, -, g3⟩⟩ := g3
  · rw [Py.numberOrMinusOne_some a x hx] at hx'
    injection hx' with hx'
    subst hx'
    simp at h2
    exact absurd h0 (not_le.mpr h2)
  unfold Py.evolver at h
  split at h
  · cases h
  rename_i t1 ht1
  split at h
  · cases h
  split at h
  · cases h
  injection h with h
  subst h
  obtain ⟨f', rows, data, j1, j2, j3, j4⟩ := Py.tables_some env around7 _ T t1 (by intro m h; cases h) ht1
  rw [hf] at j1
  injection j1 with j1
  subst j1
  rw [hr] at j2
  injection j2 with j2
  subst j2
  obtain ⟨k1, -⟩ := Py.loadtxt_eq _ _ _ j3
  simp only [Py.skipped, List.drop_succ_cons, List.drop_zero] at k1
  rw [k1, Py.readRecords_fromColumns env _ T f hf data 0 _ t1 j4] at g3
  injection g3 with g3
  rw [← g3]
  simp [Tables.push]

/-! ## Examples -/

/-- Jupiter alone, two years after its birth. -/
noncomputable def jupiter : Fin 1 → Particle ℝ := fun _ =>
  { blank ℝ with mass := 1, radius := 5, radiusOfGyration2 := 1, momentOfInertia := 25, spin := ⟨0, 0, 1⟩,
                 angularMomentum := ⟨0, 0, 25⟩, evolution := .leconteChabrier2013 false }

noncomputable def jupiterEvolver : Evolver ℝ :=
  ⟨.leconteChabrier2013 false, [-730.5, 2922], [140, 100], [0.25, 0.25], [0.5, 0.5], [], 0⟩

theorem jupiter_evolver (around7 : ℝ → ℝ) :
    Py.evolver (jupiterEnv 10) around7 (.leconteChabrier2013 false) 730.5 = some jupiterEvolver := by
  unfold Py.evolver
  rw [jupiter_tables]
  norm_num [startsLate, endsEarly, Kind.type, FOps.ltb, FOps.lit, jupiterEvolver]

theorem jupiter_new : evolverNew (jupiterEnv 10) (.leconteChabrier2013 false) 730.5 1000 = .ok jupiterEvolver := by
  rw [C124_partial _ id _ _ _ _ (by intro m h; cases h) (jupiter_evolver id) (jupiter_firstLine 10), if_neg]
  norm_num [endsEarly, jupiterEvolver, FOps.ltb]

theorem jupiter_match (q : Particle ℝ) (hq : q.evolution = .leconteChabrier2013 false) (hr : q.radius = 5) :
    ∃ r, matchEvolution q jupiterEvolver = some r ∧ r.1.radius = 132 := by
  have h1 : Evolver.queryRadius jupiterEvolver (lit 0) q.radius = some (132, jupiterEvolver) := by
    norm_num [Evolver.queryRadius, Evolver.lookup, Evolver.idx, Interp.linearInterpolation, Interp.findIndices,
      List.findIdx?_cons, jupiterEvolver, FOps.ltb, FOps.lit]
  have h2 : Evolver.queryRadiusOfGyration2 jupiterEvolver (lit 0) q.radiusOfGyration2
      = some (0.25, jupiterEvolver) := by
    norm_num [Evolver.queryRadiusOfGyration2, Evolver.lookup, Evolver.idx, Interp.linearInterpolation,
      Interp.findIndices, List.findIdx?_cons, jupiterEvolver, FOps.ltb, FOps.lit]
  have h3 := matchEvolution_values q jupiterEvolver 132 0.25 _ _ (by rw [hq]; simp) h1 h2
  have hu : ltb (lit (1 / 1000000)) (FOps.abs (132 - q.radius)) = true := by
    rw [hr]
    norm_num [FOps.ltb, FOps.lit, FOps.abs]
  rw [hu] at h3
  simp only [Bool.true_or, if_true] at h3
  obtain ⟨r, h4, h5⟩ := Option.map_eq_some_iff.1 h3
  exact ⟨r, h4, by rw [h5]⟩

/-- The constructor gives Jupiter the radius of its table. -/
theorem jupiter_defined (kindOf : Particle ℝ → Kind ℝ) (hk : ∀ p, kindOf p = .leconteChabrier2013 false) :
    ∃ u, newUniverse askAll (fun i => Py.ofExcept (evolverNew (jupiterEnv 10) (kindOf (jupiter i)) 730.5 1000)) jupiter
      = some u := by
  have none : ∀ role : Fin 1 → Bool, role 0 = false → foundOnce role = some false := by
    intro role h
    rw [foundOnce_eq, findHost_empty.2]
    · rfl
    · intro j; rw [Subsingleton.elim j 0]; exact h
  have h0 : disableUnnecessary askAll jupiter = some ⟨false, false, false, false, false, true⟩ := by
    unfold disableUnnecessary
    rw [none _ rfl, none _ rfl, none _ rfl, none _ rfl]
    have hw : foundAny (fun i => (jupiter i).wind.interaction) = false := by
      rw [← Bool.not_eq_true, foundAny_eq]
      simp [jupiter, blank]
    have he : foundAny (fun i => (jupiter i).evolution != .nonEvolving) = true := by
      rw [foundAny_eq]
      exact ⟨0, rfl⟩
    rw [hw, he]
    rfl
  have hm : mostMassive jupiter = some 0 := by
    rw [mostMassive_some]
    simp [jupiter]
  have hi : ∃ hosts, findIndices jupiter ⟨false, false, false, false, false, true⟩ = some hosts := by
    unfold findIndices
    simp only [hm, findIf]
    simp
  obtain ⟨hosts, hi⟩ := hi
  unfold newUniverse
  rw [h0]
  dsimp only
  rw [hi]
  dsimp only
  rw [if_neg (by decide)]
  have ht : (fun i : Fin 1 => Py.ofExcept (evolverNew (jupiterEnv 10) (kindOf (jupiter i)) 730.5 1000))
      = fun _ => some jupiterEvolver := by
    funext i
    rw [hk, jupiter_new]
    rfl
  rw [ht, show traverse (fun _ : Fin 1 => some jupiterEvolver) = some fun _ => jupiterEvolver by unfold traverse; simp]
  dsimp only
  simp only [if_true]
  generalize centerOfMass (grSetup _ hosts.gr jupiter).2 = c
  have hs : (grSetup ⟨false, false, false, false, false, true⟩ hosts.gr jupiter).2 = jupiter := rfl
  rw [hs]
  unfold traverse
  rw [dif_pos fun i => by
    obtain ⟨r, hr, -⟩ := jupiter_match { toInertial c.1 c.2 (jupiter i) with id := i.val } rfl rfl
    dsimp only
    rw [hr]
    rfl]
  exact ⟨_, rfl⟩

/-- The file of the front end has the radius of the table. -/
example (k : Consts ℝ) : ∃ f q, Py.caseFile k
    (Py.evolve (jupiterEnv 10) id (fun _ => .leconteChabrier2013 false) askAll 730.5) askAll (List.ofFn jupiter) = some f
      ∧ f.consider.evolution = true ∧ f.particles[0]? = some q ∧ q.radius = 132 := by
  obtain ⟨u, hu⟩ := jupiter_defined (fun _ => .leconteChabrier2013 false) (fun _ => rfl)
  have inc : Increasing jupiterEvolver.time := by
    intro i j hj hij
    simp only [jupiterEvolver, List.length_cons, List.length_nil] at hj
    have : i = 0 := by omega
    have : j = 1 := by omega
    subst_vars
    norm_num [jupiterEvolver]
  obtain ⟨f, hf, hd⟩ := C124_partial_case k (jupiterEnv 10) id (fun _ => .leconteChabrier2013 false) askAll 730.5 1000
    jupiter u hu (fun _ => rfl) (fun _ _ => ⟨_, jupiter_evolver id, inc⟩) (fun _ => by simp [jupiter])
    (fun _ f rows h1 h2 _ => jupiter_firstLine 10 f rows h1 h2)
    (by simp [Py.MassesPositive, jupiter]) (fun i => by simp [jupiter, blank, DiskEffect.isCentral])
  have hce : u.consider.evolution = true := ((C43_enabled hu).2.2.2.2.2).2 ⟨rfl, 0, by simp [jupiter]⟩
  obtain ⟨ev, -, -, -, hmk, -, hpart⟩ := newUniverse_stages hu
  have hp := hpart 0
  have hmk0 := hmk 0
  rw [jupiter_new] at hmk0
  have hev : ev 0 = jupiterEvolver := (Option.some.inj hmk0).symm
  rw [hce] at hp
  simp only [if_true] at hp
  rw [hev] at hp
  obtain ⟨q, h1, h2, -⟩ := hd.particles 0
  refine ⟨f, q, hf, by rw [hd.consider]; exact hce, h1, ?_⟩
  rw [grSetup_eq] at hp
  have main : ∀ (x : Particle ℝ) (y : Particle ℝ × Evolver ℝ), matchEvolution x jupiterEvolver = some y →
      x.evolution = .leconteChabrier2013 false → x.radius = 5 → y.1.radius = 132 := by
    intro x y hxy e1 e2
    obtain ⟨r, h3, h4⟩ := jupiter_match x e1 e2
    rw [hxy] at h3
    rw [Option.some.inj h3, h4]
  have h5 : (q.withGrFactor (u.particles 0).gr.factor).radius = (u.particles 0).radius := by rw [h2]
  exact h5.trans (main _ _ hp rfl rfl)

/-- The table in which the spline is not the tabulated value: 0.15 instead of 0.1. -/
example : Py.bSpline [1, 2, 4] [0.1, 0.1, 0.4] (2 : ℝ) = some 0.15
    ∧ ∃ l, Interp.linearInterpolation (2 : ℝ) [1, 2, 4] [0.1, 0.1, 0.4] = some (0.1, l) := by
  have h := C124_violated_spline [1, 2, 4] [0.1, 0.1, 0.4] (by
    intro i j hj hij
    simp only [List.length_cons, List.length_nil] at hj
    interval_cases j <;> interval_cases i <;> norm_num) rfl 0 (by simp)
  have e : ((0.1 : ℝ) + 4 * 0.1 + 0.4) / 6 = 0.15 := by norm_num
  simpa [e] using h

/-- A star of `Baraffe2015` whose table has no header. -/
noncomputable def plainEnv : LoadEnv ℝ where
  files _ := some [[some 0, some 0, some 3, some 0.1], [some 1, some 0, some 2, some 0.1],
    [some 2, some 0, some 2, some 0.1]]
  rSun := 1
  m2au := 1
  halfUp7 x := x

example : ∃ e e', Py.evolver plainEnv id (.baraffe2015 1) 365.25 = some e ∧
    evolverNew plainEnv (.baraffe2015 1) 365.25 300 = .ok e' ∧ e'.time.length = e.time.length + 1 := by
  have hf : Py.tableFile (.baraffe2015 (1 : ℝ)) = some "input/Baraffe_2015/1000_Msun.dat" := by
    norm_num [Py.tableFile, Py.ofExcept, Evolution.baraffe2015File, Evolution.inWindow, Evolution.isNear, FOps.leb,
      FOps.ltb, FOps.lit, FOps.abs]
  have h1 : Py.evolver plainEnv id (.baraffe2015 1) 365.25
      = some ⟨.baraffe2015, [0, 365.25], [2, 2], [0.1, 0.1], [], [], 0⟩ := by
    simp only [Py.evolver, Py.tables, hf, plainEnv, Py.loadtxt, List.drop_succ_cons, List.drop_zero, Py.numberRows,
      Py.numbers, Option.map_some, List.length_cons, List.length_nil, if_true, Py.ages]
    norm_num [Py.column, startsLate, endsEarly, FOps.ltb, FOps.lit, Kind.type]
  have h2 : evolverNew plainEnv (.baraffe2015 1) 365.25 300
      = .ok ⟨.baraffe2015, [-365.25, 0, 365.25], [3, 2, 2], [0.1, 0.1, 0.1], [], [], 0⟩ := by
    simp only [evolverNew, Py.py_tableFile _ _ hf, plainEnv, bind, Except.bind, readRecords, numberOrMinusOne,
      Evolution.number, Evolution.rawRadiusOf, Evolution.radiusOfGyration2Of, Evolution.loveNumberOf,
      Evolution.inverseTidalQFactorOf, Evolution.timeAndRadius, Tables.push, FOps.ltb, FOps.lit, Evolution.secondFile]
    norm_num [startsLate, endsEarly, FOps.ltb, FOps.lit, Kind.type]
  exact ⟨_, _, h1, h2, C124_violated_header plainEnv id 365.25 300 1 _ _ [0, 0, 3, 0.1] 0 _ hf rfl rfl le_rfl h1 _ h2⟩

/-- A brown dwarf with auxiliary times that begin later and end earlier. -/
noncomputable def dwarfEnv : LoadEnv ℝ where
  files f :=
    if f = "input/Leconte_2011/mass_10.0000.dat" then
      some [[some 1, some 4], [some 3, some 2], [some 9, some 1], [some 12, some 1]]
    else if f = "input/Leconte_2011/rg2BD.dat" then some [[some 2, some 0.1], [some 10, some 0.5]] else none
  rSun := 0.005
  m2au := 2
  halfUp7 x := x

/-- `C124_partial_leconte` applies to it. -/
example : ∃ e e', Py.evolver dwarfEnv id (.leconte2011 0.01) 1095.75 = some e ∧
    evolverNew dwarfEnv (.leconte2011 0.01) 1095.75 2000 = .ok e' ∧ e'.time = e.time ∧ e'.radius = e.radius ∧ e.time ≠ [] := by
  have hf : Py.tableFile (.leconte2011 (0.01 : ℝ)) = some "input/Leconte_2011/mass_10.0000.dat" := by
    have h := (Evolution.C89_leconte (0.01 : ℝ) "input/Leconte_2011/mass_10.0000.dat").mpr
      ⟨("10", 0.010), by simp [Evolution.leconteGrid], by norm_num, rfl⟩
    simp only [Evolution.tableFile] at h
    simp only [Py.tableFile, h, Py.ofExcept]
  have hc : Evolution.auxColumn (0.01 : ℝ) = .ok 1 :=
    (Evolution.C89_leconte_column _ _).mpr ⟨(("10", 0.010), 0), by simp [Evolution.leconteGrid], by norm_num, rfl⟩
  have f1 : dwarfEnv.files "input/Leconte_2011/mass_10.0000.dat" =
      some [[some 1, some 4], [some 3, some 2], [some 9, some 1], [some 12, some 1]] := by simp [dwarfEnv]
  have f2 : dwarfEnv.files "input/Leconte_2011/rg2BD.dat" = some [[some 2, some 0.1], [some 10, some 0.5]] := by
    simp [dwarfEnv]
  have hx : Py.restrictRange [(2 : ℝ), 10] [1, 3, 9, 12] [0.02, 0.01, 0.005, 0.005] = some ([3, 9], [0.01, 0.005]) := by
    norm_num [Py.restrictRange, List.findIdx?_cons, FOps.leb, FOps.ltb]
  have hr := (py_restrictRange [2, 10] [1, 3, 9, 12] [0.02, 0.01, 0.005, 0.005] _ _ 2 10 rfl rfl (by norm_num) hx).1
  have h1 : ∃ rg, Py.evolver dwarfEnv id (.leconte2011 0.01) 1095.75 =
      some ⟨.leconte2011, [0, 2191.5], [0.01, 0.005], rg, [], [], 0⟩ := by
    have hs : ∃ rg, Py.bSplines id [(2 : ℝ), 10] [0.1, 0.5] [3, 9] = some rg := by
      norm_num [Py.bSplines, Py.bSpline, Py.findIndicesSorted, List.findIdx?_cons, FOps.leb, FOps.lit, Py.phantom]
    obtain ⟨rg, hs⟩ := hs
    refine ⟨rg, ?_⟩
    have hm : [(4 : ℝ), 2, 1, 1].map (· * dwarfEnv.rSun) = [0.02, 0.01, 0.005, 0.005] := by
      simp only [dwarfEnv, List.map_cons, List.map_nil]
      norm_num
    simp only [Py.evolver, Py.tables, hf, f1, f2, hc, Py.ofExcept, Py.loadtxt, List.drop_zero, Py.numberRows, Py.numbers,
      Option.map_some, List.length_cons, List.length_nil, if_true, Py.column, List.getElem?_cons_zero,
      List.getElem?_cons_succ, hm, hx, hs, Py.ages]
    norm_num [startsLate, endsEarly, FOps.ltb, FOps.lit, Kind.type]
  obtain ⟨rg, h1⟩ := h1
  have h2 : ∃ rg', evolverNew dwarfEnv (.leconte2011 0.01) 1095.75 2000 =
      .ok ⟨.leconte2011, [0, 2191.5], [0.01, 0.005], rg', [], [], 0⟩ := by
    have hi : ∃ rg, Evolution.interpolateAux dwarfEnv [(2 : ℝ), 10] [0.1, 0.5] [3, 9] = .ok rg := by
      norm_num [Evolution.interpolateAux, Interp.linearInterpolation, Interp.findIndices, List.findIdx?_cons, FOps.ltb,
        FOps.lit, bind, Except.bind]
    obtain ⟨rg', hi⟩ := hi
    refine ⟨rg', ?_⟩
    have h : readRecords dwarfEnv (.leconte2011 0.01) 1095.75 0
        [[some 1, some 4], [some 3, some 2], [some 9, some 1], [some 12, some 1]] ⟨[], [], [], [], []⟩ =
        .ok ⟨[1, 3, 9, 12], [0.02, 0.01, 0.005, 0.005], [], [], []⟩ := by
      simp only [readRecords, numberOrMinusOne, Evolution.number, Evolution.rawRadiusOf, Evolution.radiusOfGyration2Of,
        Evolution.loveNumberOf, Evolution.inverseTidalQFactorOf, Evolution.timeAndRadius, Tables.push, bind, Except.bind,
        dwarfEnv, FOps.ltb, FOps.lit]
      norm_num
    have ha : Evolution.readAux 1 [[some (2 : ℝ), some 0.1], [some 10, some 0.5]] = .ok ([2, 10], [0.1, 0.5]) := rfl
    simp only [evolverNew, Py.py_tableFile _ _ hf, bind, Except.bind, f1, h, Evolution.secondFile, Evolution.addAux, hc, f2, ha,
      hr, hi, startsLate, endsEarly, FOps.ltb, FOps.lit, Kind.type]
    norm_num
  obtain ⟨rg', h2⟩ := h2
  refine ⟨_, _, h1, h2, ?_⟩
  obtain ⟨-, a, b⟩ := C124_partial_leconte dwarfEnv id 0.01 1095.75 2000 _ _ h1 h2 (by
    intro f rows g1 g2
    rw [Py.py_tableFile _ _ hf] at g1
    injection g1 with g1
    subst g1
    rw [f1] at g2
    injection g2 with g2
    subst g2
    exact ⟨_, _, 1, rfl, rfl, by simp [Kind.type]⟩) (by
    intro rows g
    rw [f2] at g
    injection g with g
    subst g
    norm_num [Evolution.timeField])
  exact ⟨a, b, by simp⟩

end Posidonius.Univ
