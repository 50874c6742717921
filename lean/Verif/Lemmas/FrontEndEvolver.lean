import Verif.Model.FrontEndEvolver
import Verif.Lemmas.FrontEnd
import Verif.Props.EvolverLoad
import Verif.Props.FrontEnd

/-! # Lemmas about the evolving bodies of the Python front end -/

namespace Posidonius.Univ.Py
open Evolution (EvolutionType Evolver Kind LoadEnv Tables LoadPanic inWindow isNear isNearEq startsLate endsEarly
  readRecords numberOrMinusOne number rawRadiusOf radiusOfGyration2Of loveNumberOf inverseTidalQFactorOf timeAndRadius
  evolverNew)

section
variable {F : Type} [Add F] [Sub F] [Mul F] [Div F] [FOps F] [FPow F]

omit [Add F] [Sub F] [Mul F] [Div F] [FOps F] [FPow F] in
theorem numbers_eq (r : List (Option F)) (a : List F) (h : numbers r = some a) : r = a.map some := by
  induction r generalizing a with
  | nil =>
    simp only [numbers, Option.some.injEq] at h
    subst h
    rfl
  | cons x l ih =>
    cases x with
    | none => simp [numbers] at h
    | some x =>
      simp only [numbers, Option.map_eq_some_iff] at h
      obtain ⟨b, hb, rfl⟩ := h
      rw [ih b hb]
      rfl

omit [Add F] [Sub F] [Mul F] [Div F] [FOps F] [FPow F] in
theorem numberRows_eq (w : Nat) (rows : List (List (Option F))) (data : List (List F))
    (h : numberRows w rows = some data) : rows = data.map (List.map some) := by
  induction rows generalizing data with
  | nil =>
    simp only [numberRows, Option.some.injEq] at h
    subst h
    rfl
  | cons r l ih =>
    simp only [numberRows] at h
    split at h
    · rename_i a rest ha hrest
      split at h
      · injection h with h
        subst h
        rw [List.map_cons, numbers_eq r a ha, ih rest hrest]
      · cases h
    · cases h

omit [Add F] [Sub F] [Mul F] [Div F] [FOps F] [FPow F] in
theorem loadtxt_eq (skip : Nat) (rows : List (List (Option F))) (data : List (List F))
    (h : loadtxt skip rows = some data) : rows.drop skip = data.map (List.map some) ∧ data ≠ [] := by
  unfold loadtxt at h
  split at h
  · rename_i a b l hd
    rw [hd]
    have := numberRows_eq _ _ _ h
    refine ⟨this, ?_⟩
    rintro rfl
    cases this
  · cases h

omit [Add F] [Sub F] [Mul F] [Div F] [FOps F] [FPow F] in
theorem column_cons (i : Nat) (a : List F) (l : List (List F)) (c : List F) :
    column i (a :: l) = some c ↔ ∃ x rest, a[i]? = some x ∧ column i l = some rest ∧ c = x :: rest := by
  simp only [column]
  constructor
  · intro h
    split at h
    · rename_i x rest h1 h2
      injection h with h
      exact ⟨x, rest, h1, h2, h.symm⟩
    · cases h
  · rintro ⟨x, rest, h1, h2, rfl⟩
    rw [h1, h2]

omit [Add F] [Sub F] [Mul F] [Div F] [FOps F] [FPow F] in
theorem column_length (i : Nat) (data : List (List F)) (c : List F) (h : column i data = some c) :
    c.length = data.length := by
  induction data generalizing c with
  | nil =>
    simp only [column, Option.some.injEq] at h
    subst h
    rfl
  | cons a l ih =>
    obtain ⟨x, rest, -, h2, rfl⟩ := (column_cons i a l c).1 h
    simp [ih rest h2]

omit [Add F] [Sub F] [Mul F] [Div F] [FOps F] [FPow F] in
theorem number_some (a : List F) (i : Nat) (x : F) (h : a[i]? = some x) : number (a.map some) i = .ok x := by
  simp [number, h]

omit [Add F] [Sub F] [Mul F] [Div F] [FPow F] in
theorem numberOrMinusOne_some (a : List F) (x : F) (h : a[0]? = some x) : numberOrMinusOne (a.map some) = .ok x := by
  unfold numberOrMinusOne
  rw [List.getElem?_map, h]
  rfl

/-- One record of numbers. -/
theorem readRecords_numbers (env : LoadEnv F) (kind : Kind F) (T : F) (i : Nat) (a : List F)
    (rows : List (List (Option F))) (t : Tables F) (x rr rg2 love q : F) (h0 : a[0]? = some x)
    (h1 : rawRadiusOf kind (a.map some) = .ok rr) (h2 : radiusOfGyration2Of kind (a.map some) = .ok rg2)
    (h3 : loveNumberOf kind (a.map some) = .ok love) (h4 : inverseTidalQFactorOf kind (a.map some) = .ok q) :
    readRecords env kind T (i + 1) (a.map some :: rows) t
      = readRecords env kind T (i + 2) rows (t.push kind (timeAndRadius env kind T x rr).1
        (timeAndRadius env kind T x rr).2 rg2 love q) := by
  simp [readRecords, numberOrMinusOne_some a x h0, h1, h2, h3, h4, bind, Except.bind]

/-- The columns that a model needs, as in the methods `get_evolver`. -/
def fromColumns (env : LoadEnv F) (kind : Kind F) (T : F) (data : List (List F)) : Option (Tables F) :=
  match kind with
  | .leconte2011 _ => none
  | .baraffe2015 _ =>
    match column 0 data, column 2 data, column 3 data with
    | some t, some r, some g => some ⟨ages T t, r.map (· * env.rSun), g, [], []⟩
    | _, _, _ => none
  | .baraffe1998 mass =>
    match column 0 data, column 1 data with
    | some t, some r => some ⟨ages T t, r.map (· * if isNear (1/10) mass then env.rSun else env.m2au), [], [], []⟩
    | _, _ => none
  | .leconteChabrier2013 dynamicalTides =>
    match column 0 data, column 1 data, column 2 data, column 3 data,
      (if dynamicalTides then column 5 data else some []) with
    | some t, some r, some l, some g, some q => some ⟨ages T t, r.map (· * env.m2au), g, l, q⟩
    | _, _, _, _, _ => none
  | .bolmontMathis2016 _ =>
    match column 0 data, column 1 data, column 2 data with
    | some t, some r, some q => some ⟨ages T t, r.map (· * env.rSun), [], [], q⟩
    | _, _, _ => none
  | .galletBolmont2017 _ =>
    match column 0 data, column 3 data, column 10 data with
    | some t, some r, some q =>
      some ⟨ages T (t.map fun x => FPow.powf (lit 10) x), r.map (· * env.rSun), [], [],
        q.map fun x => lit 1 / FPow.powf (lit 10) x⟩
    | _, _, _ => none
  | .nonEvolving => none

/-- The first line of a table is left out by the front end only for `Baraffe2015`. -/
def skipped : Kind F → Nat
  | .baraffe2015 _ => 1
  | _ => 0

theorem tables_some (env : LoadEnv F) (around7 : F → F) (kind : Kind F) (T : F) (t : Tables F)
    (hk : ∀ m, kind ≠ .leconte2011 m) (h : tables env around7 kind T = some t) :
    ∃ f rows data, tableFile kind = some f ∧ env.files f = some rows ∧ loadtxt (skipped kind) rows = some data
      ∧ fromColumns env kind T data = some t := by
  unfold tables at h
  split at h
  · cases h
  · rename_i f hf
    split at h
    · cases h
    · rename_i rows hr
      refine ⟨f, rows, ?_⟩
      cases kind with
      | leconte2011 m => exact absurd rfl (hk m)
      | nonEvolving => cases h
      | _ =>
        dsimp only at h
        split at h
        · cases h
        · rename_i data hd
          exact ⟨data, hf, hr, hd, h⟩

end

theorem py_tableFile (kind : Kind ℝ) (f : String) (h : tableFile kind = some f) : Evolution.tableFile kind = .ok f := by
  have of : ∀ {ε : Type} (x : Except ε String), ofExcept x = some f → x = .ok f := by
    intro ε x hx
    cases x with
    | error e => simp [ofExcept] at hx
    | ok a => simp only [ofExcept, Option.some.injEq] at hx; rw [hx]
  cases kind with
  | galletBolmont2017 m => exact of _ h
  | baraffe2015 m => exact of _ h
  | leconte2011 m => exact of _ h
  | leconteChabrier2013 b => simpa [tableFile, Evolution.tableFile] using h
  | nonEvolving => simp [tableFile] at h
  | baraffe1998 m =>
    simp only [tableFile, baraffe1998File] at h
    simp only [Evolution.tableFile, Evolution.baraffe1998File]
    split at h
    · rename_i hn
      rw [Evolution.isNear_real] at hn
      rw [if_pos (by rw [Evolution.isNearEq_real]; exact hn.le)]
      simpa using h
    · split at h
      · rename_i hn
        rw [Evolution.isNear_real] at hn
        rw [if_neg, if_pos (by rw [Evolution.isNearEq_real]; exact hn.le)]
        · simpa using h
        · rw [Evolution.isNearEq_real]
          rw [abs_lt] at hn
          rw [abs_le]
          push_cast at hn ⊢
          intro hc
          linarith [hn.1, hc.2]
      · cases h
  | bolmontMathis2016 m =>
    simp only [tableFile, bolmontMathisFile] at h
    simp only [Evolution.tableFile, Evolution.bolmontMathisFile]
    repeat' split at h
    all_goals first
      | cases h; done
      | (simp only [Option.some.injEq] at h; subst h; simp [*])

/-- The mass of `Baraffe1998` selects the unit of the radius as in Rust. -/
theorem py_unit (m : ℝ) (f : String) (h : tableFile (.baraffe1998 m) = some f) :
    isNear (1/10) m = isNearEq (1/10) m ∧ (isNearEq (1/10) m = false → isNearEq 1 m = true) := by
  simp only [tableFile, baraffe1998File] at h
  split at h
  · rename_i hn
    have hn' := hn
    rw [Evolution.isNear_real] at hn
    have : isNearEq (1/10) m = true := by rw [Evolution.isNearEq_real]; exact hn.le
    rw [hn', this]
    simp
  · rename_i hfar
    split at h
    · rename_i hn
      rw [Evolution.isNear_real] at hn
      have h1 : isNearEq 1 m = true := by rw [Evolution.isNearEq_real]; exact hn.le
      have h2 : isNearEq (1/10) m = false := by
        rw [← Bool.not_eq_true, Evolution.isNearEq_real]
        rw [abs_lt] at hn
        rw [abs_le]
        push_cast at hn ⊢
        intro hc
        linarith [hn.1, hc.2]
      rw [h1, h2]
      simpa using hfar
    · cases h

/-- The rows of numbers are read as columns. -/
theorem readRecords_fromColumns (env : LoadEnv ℝ) (kind : Kind ℝ) (T : ℝ) (f : String) (hf : tableFile kind = some f)
    (data : List (List ℝ)) (i : Nat) (t0 t : Tables ℝ) (h : fromColumns env kind T data = some t) :
    readRecords env kind T (i + 1) (data.map (List.map some)) t0
      = .ok ⟨t0.time ++ t.time, t0.radius ++ t.radius, t0.radiusOfGyration2 ++ t.radiusOfGyration2,
        t0.loveNumber ++ t.loveNumber, t0.inverseTidalQFactor ++ t.inverseTidalQFactor⟩ := by
  cases kind with
  | nonEvolving => cases h
  | leconte2011 m => cases h
  | baraffe2015 m =>
    simp only [fromColumns] at h
    split at h
    · rename_i c0 c2 c3 h0 h2 h3
      injection h with h
      subst h
      induction data generalizing i t0 c0 c2 c3 with
      | nil =>
        simp only [column, Option.some.injEq] at h0 h2 h3
        subst h0 h2 h3
        simp [readRecords, ages]
      | cons a l ih =>
        obtain ⟨x0, r0, a0, b0, rfl⟩ := (column_cons _ a l c0).1 h0
        obtain ⟨x2, r2, a2, b2, rfl⟩ := (column_cons _ a l c2).1 h2
        obtain ⟨x3, r3, a3, b3, rfl⟩ := (column_cons _ a l c3).1 h3
        rw [List.map_cons,
          readRecords_numbers env (.baraffe2015 m) T i a _ t0 x0 x2 x3 (lit 0) (lit 0) a0 (number_some a 2 x2 a2)
          (number_some a 3 x3 a3) rfl rfl, ih (i + 1) _ _ _ _ b0 b2 b3]
        simp [Tables.push, timeAndRadius, ages]
    · cases h
  | baraffe1998 m =>
    obtain ⟨hu1, hu2⟩ := py_unit m f hf
    simp only [fromColumns] at h
    split at h
    · rename_i c0 c1 h0 h1
      injection h with h
      subst h
      induction data generalizing i t0 c0 c1 with
      | nil =>
        simp only [column, Option.some.injEq] at h0 h1
        subst h0 h1
        simp [readRecords, ages]
      | cons a l ih =>
        obtain ⟨x0, r0, a0, b0, rfl⟩ := (column_cons _ a l c0).1 h0
        obtain ⟨x1, r1, a1, b1, rfl⟩ := (column_cons _ a l c1).1 h1
        rw [List.map_cons,
          readRecords_numbers env (.baraffe1998 m) T i a _ t0 x0 x1 (lit 0) (lit 0) (lit 0) a0 (number_some a 1 x1 a1)
          rfl rfl rfl, ih (i + 1) _ _ _ b0 b1]
        rw [hu1]
        cases hn : isNearEq (1/10) m with
        | true => simp only [Tables.push, timeAndRadius, ages, hn, if_true, List.map_cons, List.append_assoc, List.cons_append,
            List.nil_append, List.append_nil]
        | false => simp only [Tables.push, timeAndRadius, ages, hn, hu2 hn, if_true, Bool.false_eq_true, if_false, List.map_cons,
            List.append_assoc, List.cons_append, List.nil_append, List.append_nil]
    · cases h
  | leconteChabrier2013 b =>
    simp only [fromColumns] at h
    split at h
    · rename_i c0 c1 c2 c3 c5 h0 h1 h2 h3 h5
      injection h with h
      subst h
      induction data generalizing i t0 c0 c1 c2 c3 c5 with
      | nil =>
        simp only [column, Option.some.injEq] at h0 h1 h2 h3
        subst h0 h1 h2 h3
        have : c5 = [] := by
          cases b <;> simpa [column, eq_comm] using h5
        subst this
        simp [readRecords, ages]
      | cons a l ih =>
        obtain ⟨x0, r0, a0, b0, rfl⟩ := (column_cons _ a l c0).1 h0
        obtain ⟨x1, r1, a1, b1, rfl⟩ := (column_cons _ a l c1).1 h1
        obtain ⟨x2, r2, a2, b2, rfl⟩ := (column_cons _ a l c2).1 h2
        obtain ⟨x3, r3, a3, b3, rfl⟩ := (column_cons _ a l c3).1 h3
        cases b with
        | true =>
          rw [if_pos rfl] at h5
          obtain ⟨x5, r5, a5, b5, rfl⟩ := (column_cons _ a l c5).1 h5
          rw [List.map_cons,
          readRecords_numbers env (.leconteChabrier2013 true) T i a _ t0 x0 x1 x3 x2 x5 a0 (number_some a 1 x1 a1)
            (number_some a 3 x3 a3) (number_some a 2 x2 a2) (number_some a 5 x5 a5),
            ih (i + 1) _ _ _ _ _ _ b0 b1 b2 b3 (by rw [if_pos rfl]; exact b5)]
          simp [Tables.push, timeAndRadius, ages]
        | false =>
          rw [if_neg (by simp)] at h5
          injection h5 with h5
          subst h5
          rw [List.map_cons,
          readRecords_numbers env (.leconteChabrier2013 false) T i a _ t0 x0 x1 x3 x2 (lit 0) a0 (number_some a 1 x1 a1)
            (number_some a 3 x3 a3) (number_some a 2 x2 a2) rfl,
            ih (i + 1) _ _ _ _ _ _ b0 b1 b2 b3 (by rw [if_neg (by simp)])]
          simp [Tables.push, timeAndRadius, ages]
    · cases h
  | bolmontMathis2016 m =>
    simp only [fromColumns] at h
    split at h
    · rename_i c0 c1 c2 h0 h1 h2
      injection h with h
      subst h
      induction data generalizing i t0 c0 c1 c2 with
      | nil =>
        simp only [column, Option.some.injEq] at h0 h1 h2
        subst h0 h1 h2
        simp [readRecords, ages]
      | cons a l ih =>
        obtain ⟨x0, r0, a0, b0, rfl⟩ := (column_cons _ a l c0).1 h0
        obtain ⟨x1, r1, a1, b1, rfl⟩ := (column_cons _ a l c1).1 h1
        obtain ⟨x2, r2, a2, b2, rfl⟩ := (column_cons _ a l c2).1 h2
        rw [List.map_cons,
          readRecords_numbers env (.bolmontMathis2016 m) T i a _ t0 x0 x1 (lit 0) (lit 0) x2 a0 (number_some a 1 x1 a1)
          rfl rfl (number_some a 2 x2 a2), ih (i + 1) _ _ _ _ b0 b1 b2]
        simp [Tables.push, timeAndRadius, ages]
    · cases h
  | galletBolmont2017 m =>
    simp only [fromColumns] at h
    split at h
    · rename_i c0 c3 c10 h0 h3 h10
      injection h with h
      subst h
      induction data generalizing i t0 c0 c3 c10 with
      | nil =>
        simp only [column, Option.some.injEq] at h0 h3 h10
        subst h0 h3 h10
        simp [readRecords, ages]
      | cons a l ih =>
        obtain ⟨x0, r0, a0, b0, rfl⟩ := (column_cons _ a l c0).1 h0
        obtain ⟨x3, r3, a3, b3, rfl⟩ := (column_cons _ a l c3).1 h3
        obtain ⟨x10, r10, a10, b10, rfl⟩ := (column_cons _ a l c10).1 h10
        rw [List.map_cons,
          readRecords_numbers env (.galletBolmont2017 m) T i a _ t0 x0 x3 (lit 0) (lit 0) (lit 1 / FPow.powf (lit 10) x10) a0
          (number_some a 3 x3 a3) rfl rfl
          (by simp [inverseTidalQFactorOf, number_some a 10 x10 a10, bind, Except.bind]),
          ih (i + 1) _ _ _ _ b0 b3 b10]
        simp [Tables.push, timeAndRadius, ages]
    · cases h

/-! ## Interpolation -/

/-- The interpolation of the front end: the values of the piecewise linear function. -/
theorem py_piecewise (t : ℝ) (x y : List ℝ) (hne : x ≠ []) (hx : Interp.Increasing x) (hl : y.length = x.length) :
    ∃ r, linearInterpolation t x y = some r ∧
      ∀ v, Interp.PiecewiseLinear x y hl t v → r = v := by
  have hlen : 0 < x.length := List.length_pos_iff.mpr hne
  unfold linearInterpolation findIndices
  cases hf : x.findIdx? (fun r => leb t r) with
  | none =>
    rw [List.findIdx?_eq_none_iff] at hf
    have hlast := hf x[x.length - 1] (List.getElem_mem _)
    simp only [leb_real_false] at hlast
    refine ⟨y[x.length - 1]'(by omega), ?_, ?_⟩
    · simp only [if_true]
      exact List.getElem?_eq_getElem (by omega)
    · intro v hv
      exact (hv.above hlen hlast.le).symm
  | some i =>
    rw [List.findIdx?_eq_some_iff_getElem] at hf
    obtain ⟨hi, h1, h2⟩ := hf
    simp only [leb_real] at h1
    cases i with
    | zero =>
      refine ⟨y[0]'(by omega), ?_, ?_⟩
      · simp
      · intro v hv
        exact (hv.below hlen h1).symm
    | succ k =>
      have hk := h2 k (by omega)
      simp only [leb_real, not_le] at hk
      have e1 : x[k]? = some (x[k]'(by omega)) := List.getElem?_eq_getElem (by omega)
      have e2 : x[k + 1]? = some (x[k + 1]'(by omega)) := List.getElem?_eq_getElem (by omega)
      have e3 : y[k]? = some (y[k]'(by omega)) := List.getElem?_eq_getElem (by omega)
      have e4 : y[k + 1]? = some (y[k + 1]'(by omega)) := List.getElem?_eq_getElem (by omega)
      have hd : x[k + 1] - x[k] ≠ 0 := by
        have := hx k (k + 1) hi (by omega)
        intro h
        linarith
      refine ⟨y[k] * (1 - (t - x[k]) / (x[k + 1] - x[k])) + y[k + 1] * ((t - x[k]) / (x[k + 1] - x[k])), ?_, ?_⟩
      · simp [e1, e2, e3, e4, hd]
      · intro v hv
        rw [hv.between k hi hk.le h1]
        ring

theorem py_linearInterpolation (t : ℝ) (x y : List ℝ) (hne : x ≠ []) (hx : Interp.Increasing x)
    (hl : y.length = x.length) :
    linearInterpolation t x y = (Interp.linearInterpolation t x y).map Prod.fst := by
  obtain ⟨r, h1, h2⟩ := py_piecewise t x y hne hx hl
  obtain ⟨v, l, h3, h4⟩ := Interp.C26_piecewise_linear t x y hne hx hl
  rw [h1, h3, h2 v h4]
  rfl

end Posidonius.Univ.Py
