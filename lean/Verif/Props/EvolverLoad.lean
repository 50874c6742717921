import Verif.Spec.EvolverLoad
import Verif.Props.Evolver
import Mathlib.Tactic.NormNum

/-! # C88, C89, C90, C91: loading the tables of an evolving body -/

namespace Posidonius.Evolution
open Posidonius.Interp

section Any
variable {F : Type} [Add F] [Sub F] [Mul F] [Div F] [FOps F] [FPow F]

theorem except_bind_ok {ε α β : Type} (x : Except ε α) (f : α → Except ε β) (b : β) :
    (x >>= f) = .ok b ↔ ∃ a, x = .ok a ∧ f a = .ok b := by
  cases x <;> simp [bind, Except.bind]

/-- One record of a table that was read. -/
theorem readRecords_cons (env : LoadEnv F) (kind : Kind F) (T : F) (i : Nat) (row : List (Option F))
    (rows : List (List (Option F))) (t r : Tables F) :
    readRecords env kind T i (row :: rows) t = .ok r ↔
      ∃ rawTime, numberOrMinusOne row = .ok rawTime ∧
        (((i == 0 && ltb rawTime (lit 0)) = true ∧ readRecords env kind T (i + 1) rows t = .ok r) ∨
          ((i == 0 && ltb rawTime (lit 0)) = false ∧ ∃ rr rg2 love q, rawRadiusOf kind row = .ok rr ∧
            radiusOfGyration2Of kind row = .ok rg2 ∧ loveNumberOf kind row = .ok love ∧
            inverseTidalQFactorOf kind row = .ok q ∧
            readRecords env kind T (i + 1) rows
              (t.push kind (timeAndRadius env kind T rawTime rr).1 (timeAndRadius env kind T rawTime rr).2
                rg2 love q) = .ok r)) := by
  rw [readRecords, except_bind_ok]
  refine exists_congr fun rawTime => and_congr_right fun _ => ?_
  cases h : (i == 0 && ltb rawTime (lit 0))
  · simp only [Bool.false_eq_true, if_false, false_and, true_and, false_or, except_bind_ok]
    constructor
    · rintro ⟨rr, h1, rg2, h2, love, h3, q, h4, h5⟩
      exact ⟨rr, rg2, love, q, h1, h2, h3, h4, h5⟩
    · rintro ⟨rr, rg2, love, q, h1, h2, h3, h4, h5⟩
      exact ⟨rr, h1, rg2, h2, love, h3, q, h4, h5⟩
  · simp

/-- What `Evolver::new` accepts. -/
theorem evolverNew_ok (env : LoadEnv F) (kind : Kind F) (T L : F) (e : Evolver F)
    (h : evolverNew env kind T L = .ok e) :
    ∃ f rows t0 t, tableFile kind = .ok f ∧ env.files f = some rows ∧
      readRecords env kind T 0 rows ⟨[], [], [], [], []⟩ = .ok t0 ∧
      secondFile env kind T t0 = .ok t ∧
      (∀ x, t.time.head? = some x → ltb (lit 0) x = false) ∧
      (∀ x, t.time.getLast? = some x → ltb x L = false) ∧
      e = ⟨kind.type, t.time, t.radius, t.radiusOfGyration2, t.loveNumber, t.inverseTidalQFactor, 0⟩ := by
  rw [evolverNew, except_bind_ok] at h
  obtain ⟨f, hf, h⟩ := h
  cases hr : env.files f with
  | none => simp [hr] at h
  | some rows =>
    simp only [hr, except_bind_ok] at h
    obtain ⟨t0, h0, t, ht, h⟩ := h
    refine ⟨f, rows, t0, t, hf, hr, h0, ht, ?_⟩
    cases h1 : startsLate t.time
    · cases h2 : endsEarly L t.time
      · simp only [h1, h2, Bool.false_eq_true, if_false, Except.ok.injEq] at h
        exact ⟨fun x hx => by simpa [startsLate, hx] using h1, fun x hx => by simpa [endsEarly, hx] using h2,
          h.symm⟩
      · simp [h1, h2] at h
    · simp [h1] at h

/-- The columns of the tables read so far have the length of the column of times; the radius of gyration of
`Leconte2011` is not read from this file. -/
structure Aligned (kind : Kind F) (t : Tables F) : Prop where
  radius : t.radius.length = t.time.length
  rg2 : Tabulated kind.type .radiusOfGyration2 = true → (∀ m, kind ≠ .leconte2011 m) →
    t.radiusOfGyration2.length = t.time.length
  rg2none : ∀ m, kind = .leconte2011 m → t.radiusOfGyration2 = []
  love : Tabulated kind.type .loveNumber = true → t.loveNumber.length = t.time.length
  q : Tabulated kind.type .inverseTidalQFactor = true → t.inverseTidalQFactor.length = t.time.length

theorem Aligned.push {kind : Kind F} {t : Tables F} (h : Aligned kind t) (a b c d e : F) :
    Aligned kind (t.push kind a b c d e) := by
  obtain ⟨h1, h2, h3, h4, h5⟩ := h
  cases kind with
  | leconteChabrier2013 b =>
    cases b <;> constructor <;> simp_all [Tables.push, Tabulated, Kind.type]
  | _ => constructor <;> simp_all [Tables.push, Tabulated, Kind.type]

theorem readRecords_aligned (env : LoadEnv F) (kind : Kind F) (T : F) (rows : List (List (Option F)))
    (i : Nat) (t r : Tables F) (h : readRecords env kind T i rows t = .ok r) (ht : Aligned kind t) :
    Aligned kind r := by
  induction rows generalizing i t with
  | nil => simp only [readRecords, Except.ok.injEq] at h; exact h ▸ ht
  | cons row rows ih =>
    rw [readRecords_cons] at h
    obtain ⟨_, _, ⟨_, h⟩ | ⟨_, _, _, _, _, _, _, _, _, h⟩⟩ := h
    · exact ih _ _ h ht
    · exact ih _ _ h (ht.push _ _ _ _ _)

theorem interpolateAux_length (env : LoadEnv F) (a b ts vs : List F)
    (h : interpolateAux env a b ts = .ok vs) : vs.length = ts.length := by
  induction ts generalizing vs with
  | nil => simp only [interpolateAux, Except.ok.injEq] at h; simp [← h]
  | cons t ts ih =>
    rw [interpolateAux] at h
    split at h
    · simp at h
    · rw [except_bind_ok] at h
      obtain ⟨rest, h1, h2⟩ := h
      injection h2 with h2
      simp [← h2, ih rest h1]

theorem restrictRange_length (aux time radius time' radius' : List F) (hl : radius.length = time.length)
    (h : restrictRange aux time radius = .ok (time', radius')) : radius'.length = time'.length := by
  have h1 : ∀ (first : F) (a b : List F), b.length = a.length →
      (dropBefore first a b).2.length = (dropBefore first a b).1.length := by
    intro first a b hab
    unfold dropBefore
    split <;> simp [hab]
  have h2 : ∀ (last : F) (a b : List F), b.length = a.length →
      (cutAfter last a b).2.length = (cutAfter last a b).1.length := by
    intro last a b hab
    unfold cutAfter
    split <;> simp [hab]
  unfold restrictRange at h
  split at h
  · simp only [Except.ok.injEq, Prod.mk.injEq] at h
    obtain ⟨rfl, rfl⟩ := h
    simpa using hl
  · split at h
    · rename_i first last _ _
      simp only [Except.ok.injEq] at h
      have := h2 last _ _ (h1 first _ _ hl)
      rw [h] at this
      exact this
    · simp at h

theorem addAux_ok (env : LoadEnv F) (mass T : F) (t r : Tables F) (h : addAux env mass T t = .ok r) :
    ∃ column rows auxTime auxRg2 time radius rg2, auxColumn mass = .ok column ∧
      env.files "input/Leconte_2011/rg2BD.dat" = some rows ∧ readAux column rows = .ok (auxTime, auxRg2) ∧
      restrictRange auxTime t.time t.radius = .ok (time, radius) ∧
      interpolateAux env auxTime auxRg2 time = .ok rg2 ∧
      r = { t with time := time.map (fun x => x * lit (36525/100) - T), radius := radius,
                   radiusOfGyration2 := t.radiusOfGyration2 ++ rg2 } := by
  rw [addAux, except_bind_ok] at h
  obtain ⟨column, hc, h⟩ := h
  cases hr : env.files "input/Leconte_2011/rg2BD.dat" with
  | none => simp [hr] at h
  | some rows =>
    simp only [hr, except_bind_ok] at h
    obtain ⟨⟨auxTime, auxRg2⟩, h1, ⟨time, radius⟩, h2, rg2, h3, h4⟩ := h
    injection h4 with h4
    exact ⟨column, rows, auxTime, auxRg2, time, radius, rg2, hc, rfl, h1, h2, h3, h4.symm⟩

/-- **C88, lengths**: whatever the files contain, if the tables are accepted then every column that will be
looked up has exactly one entry for each time. -/
theorem C88_lengths (env : LoadEnv F) (kind : Kind F) (T L : F) (e : Evolver F)
    (h : evolverNew env kind T L = .ok e) (q : Quantity) (hq : Tabulated e.evolution q = true) :
    (e.column q).length = e.time.length := by
  obtain ⟨f, rows, t0, t, _, _, h0, h1, _, _, rfl⟩ := evolverNew_ok env kind T L e h
  have a : Aligned kind t0 := readRecords_aligned env kind T rows 0 _ t0 h0
    ⟨rfl, fun _ _ => rfl, fun _ _ => rfl, fun _ => rfl, fun _ => rfl⟩
  cases kind with
  | leconte2011 m =>
    obtain ⟨column, rows', auxTime, auxRg2, time, radius, rg2, _, _, _, h2, h3, rfl⟩ := addAux_ok env m T t0 t h1
    have hr := a.rg2none m rfl
    cases q with
    | radius => simpa [Evolver.column] using restrictRange_length _ _ _ _ _ a.radius h2
    | radiusOfGyration2 => simpa [Evolver.column, hr] using interpolateAux_length env _ _ _ _ h3
    | loveNumber => simp [Tabulated, Kind.type] at hq
    | inverseTidalQFactor => simp [Tabulated, Kind.type] at hq
  | _ =>
    simp only [secondFile, Except.ok.injEq] at h1
    subst h1
    cases q with
    | radius => exact a.radius
    | radiusOfGyration2 => exact a.rg2 hq (by simp)
    | loveNumber => exact a.love hq
    | inverseTidalQFactor => exact a.q hq

end Any

/-- **C88, range**: the accepted times start at or before the beginning of the run and reach its end. -/
theorem C88_covers (env : LoadEnv ℝ) (kind : Kind ℝ) (T L : ℝ) (e : Evolver ℝ)
    (h : evolverNew env kind T L = .ok e) (hne : e.time ≠ []) :
    e.time.head hne ≤ 0 ∧ L ≤ e.time.getLast hne := by
  obtain ⟨f, rows, t0, t, _, _, _, _, h1, h2, rfl⟩ := evolverNew_ok env kind T L e h
  refine ⟨?_, ?_⟩
  · have := h1 _ (List.head?_eq_some_head hne)
    simpa using this
  · have := h2 _ (List.getLast?_eq_some_getLast hne)
    simpa using this

/-- **C88**: whatever the files contain (times in any order), if the tables were accepted and are not empty,
then at any sequence of non-decreasing times of the run, from 0 to the time limit, all lookups succeed, and
each value looked up is the linear interpolation between two neighbouring records of the table whose times
enclose the time asked for (or the value of the record with exactly this time): no value is extrapolated. -/
theorem C88_no_extrapolation (env : LoadEnv ℝ) (kind : Kind ℝ) (T L : ℝ) (e : Evolver ℝ)
    (h : evolverNew env kind T L = .ok e) (hne : e.time ≠ []) (qs : List (Quantity × ℝ × ℝ))
    (hs : qs.Pairwise fun a b => a.2.1 ≤ b.2.1) (hr : ∀ a ∈ qs, 0 ≤ a.2.1 ∧ a.2.1 ≤ L) :
    ∃ vs e', queries e qs = some (vs, e') ∧
      List.Forall₂ (fun a v => Tabulated e.evolution a.1 = true →
        ∃ i j x x' y y', j ≤ i + 1 ∧ e.time[i]? = some x ∧ e.time[j]? = some x' ∧
          (e.column a.1)[i]? = some y ∧ (e.column a.1)[j]? = some y' ∧ x ≤ a.2.1 ∧ a.2.1 ≤ x' ∧
          (i = j ∧ v = y ∨ x < x' ∧ v = y + (y' - y) * ((a.2.1 - x) / (x' - x)))) qs vs := by
  have hc : Consistent e := ⟨fun _ => hne, C88_lengths env kind T L e h⟩
  have h0 : e.leftIndex = 0 := by
    obtain ⟨f, rows, t0, t, _, _, _, _, _, _, rfl⟩ := evolverNew_ok env kind T L e h
    rfl
  obtain ⟨hfirst, hlast⟩ := C88_covers env kind T L e h hne
  obtain ⟨vs, e', h1, h2⟩ := C28_cached_equals_full e hc h0 qs hs
  refine ⟨vs, e', h1, ?_⟩
  have key : ∀ a ∈ qs, ∀ v, tableValue e a.1 a.2.1 a.2.2 = some v → Tabulated e.evolution a.1 = true →
        ∃ i j x x' y y', j ≤ i + 1 ∧ e.time[i]? = some x ∧ e.time[j]? = some x' ∧
          (e.column a.1)[i]? = some y ∧ (e.column a.1)[j]? = some y' ∧ x ≤ a.2.1 ∧ a.2.1 ≤ x' ∧
          (i = j ∧ v = y ∨ x < x' ∧ v = y + (y' - y) * ((a.2.1 - x) / (x' - x))) := by
    rintro ⟨q, t, c⟩ ha v hv hq
    obtain ⟨ht0, htL⟩ := hr _ ha
    have hlen := hc.lengths q hq
    simp only [tableValue, hq, if_true] at hv
    simp only at ht0 htL ⊢
    have hpos : 0 < e.time.length := List.length_pos_iff.mpr hne
    rw [List.head_eq_getElem] at hfirst
    rw [List.getLast_eq_getElem] at hlast
    rcases findIndices_cases e.time t hne with ⟨hall, g⟩ | ⟨g0, g1, g⟩ | ⟨k, hk, g1, g2, g⟩
    · have hb : e.time.length - 1 < e.time.length := by omega
      have e1 : (e.column q)[e.time.length - 1]? = some ((e.column q)[e.time.length - 1]'(by omega)) :=
        List.getElem?_eq_getElem (by omega)
      simp only [linearInterpolation, g, if_true, e1, Option.map_some, Option.some.injEq] at hv
      have hle : e.time[e.time.length - 1] ≤ t := by simpa using hall _ (List.getElem_mem hb)
      exact ⟨_, _, _, _, _, _, Nat.le_succ _, List.getElem?_eq_getElem hb, List.getElem?_eq_getElem hb, e1, e1,
        hle, htL.trans hlast, Or.inl ⟨rfl, hv.symm⟩⟩
    · simp only [ltb_real] at g1
      linarith
    · simp only [ltb_real] at g1
      have g3 : e.time[k] ≤ t := by simpa using g2 k (by omega)
      have e1 : e.time[k]? = some e.time[k] := List.getElem?_eq_getElem (by omega)
      have e2 : e.time[k + 1]? = some e.time[k + 1] := List.getElem?_eq_getElem hk
      have e3 : (e.column q)[k]? = some ((e.column q)[k]'(by omega)) := List.getElem?_eq_getElem (by omega)
      have e4 : (e.column q)[k + 1]? = some ((e.column q)[k + 1]'(by omega)) :=
        List.getElem?_eq_getElem (by omega)
      have hn : ¬ (k = k + 1) := by omega
      simp only [linearInterpolation, g, e1, e2, e3, e4, if_neg hn, Option.map_some, Option.some.injEq,
        lit_real, Rat.cast_one] at hv
      refine ⟨k, k + 1, _, _, _, _, le_refl _, e1, e2, e3, e4, g3, g1.le, Or.inr ⟨lt_of_le_of_lt g3 g1, ?_⟩⟩
      rw [← hv]; ring
  clear h1 hs
  induction h2 with
  | nil => exact List.Forall₂.nil
  | cons hv _ ih =>
    exact List.Forall₂.cons (key _ (List.mem_cons_self ..) _ hv)
      (ih (fun a ha => hr a (List.mem_cons_of_mem _ ha)) (fun a ha => key a (List.mem_cons_of_mem _ ha)))

/-- **C88 is violated by empty files**: a file without any record (or with nothing but column headers) is
accepted, whatever the initial time and the limit, and then every lookup of the radius panics. -/
theorem C88_violated_empty {F : Type} [Add F] [Sub F] [Mul F] [Div F] [FOps F] [FPow F] (env : LoadEnv F)
    (kind : Kind F) (T L : F) (f : String) (hk : kind.type ≠ .nonEvolving) (hl : ∀ m, kind ≠ .leconte2011 m)
    (hf : tableFile kind = .ok f) (rows : List (List (Option F))) (hr : env.files f = some rows)
    (hempty : rows = [] ∨ ∃ rest, rows = [none :: rest] ∧ ltb (lit (-1) : F) (lit 0) = true) :
    ∃ e, evolverNew env kind T L = .ok e ∧ ∀ t c, e.queryRadius t c = none := by
  have h1 : readRecords env kind T 0 rows ⟨[], [], [], [], []⟩ = .ok ⟨[], [], [], [], []⟩ := by
    rcases hempty with rfl | ⟨rest, rfl, hneg⟩
    · rfl
    · rw [readRecords_cons]
      exact ⟨lit (-1), rfl, Or.inl ⟨by simp [hneg], rfl⟩⟩
  have h2 : secondFile env kind T (⟨[], [], [], [], []⟩ : Tables F) = .ok ⟨[], [], [], [], []⟩ := by
    cases kind <;> first | rfl | exact absurd rfl (hl _)
  refine ⟨⟨kind.type, [], [], [], [], [], 0⟩, ?_, ?_⟩
  · rw [evolverNew, except_bind_ok]
    refine ⟨f, hf, ?_⟩
    simp only [hr, h1, except_bind_ok]
    exact ⟨_, rfl, _, h2, by simp [startsLate, endsEarly]⟩
  · intro t c
    cases hkt : kind.type <;> first | exact absurd hkt hk | simp [Evolver.queryRadius, Evolver.lookup,
      linearInterpolation, findIndices]

/-! ## C89: the choice of the tables -/

theorem inWindow_real (hi lo : ℚ) (m : ℝ) : inWindow hi lo m = true ↔ (lo : ℝ) ≤ m ∧ m ≤ hi := by
  simp [inWindow, and_comm]

theorem isNear_real (c : ℚ) (m : ℝ) : isNear c m = true ↔ |m - c| < 1e-7 := by
  simp [isNear]; norm_num

theorem isNearEq_real (c : ℚ) (m : ℝ) : isNearEq c m = true ↔ |m - c| ≤ 1e-7 := by
  simp [isNearEq]; norm_num

theorem pick_nil {m next : ℝ} {e : LoadPanic} {α : Type} {f : α} :
    ((.error e : Except LoadPanic α) = .ok f ↔ False) ∧ (False → next ≤ m) := by simp

theorem pick {α : Type} {b : Bool} {m lo hi next : ℝ} {a f : α} {rest : Except LoadPanic α} {P Q : Prop}
    (hb : b = true ↔ P) (hP : P → lo ≤ m ∧ m ≤ hi) (hr : (rest = .ok f ↔ Q) ∧ (Q → next ≤ m)) (hn : hi < next)
    (hlo : lo ≤ hi) :
    ((if b = true then .ok a else rest) = .ok f ↔ (P ∧ f = a) ∨ Q) ∧ ((P ∧ f = a) ∨ Q → lo ≤ m) := by
  refine ⟨?_, ?_⟩
  · split_ifs with h
    · have hp := hb.mp h
      simp only [Except.ok.injEq]
      constructor
      · exact fun e => Or.inl ⟨hp, e.symm⟩
      · rintro (⟨_, e⟩ | q)
        · exact e.symm
        · have := (hP hp).2
          have := hr.2 q
          linarith
    · have hp : ¬ P := fun p => h (hb.mpr p)
      simp [hp, hr.1]
  · rintro (⟨p, _⟩ | q)
    · exact (hP p).1
    · have := hr.2 q
      linarith

theorem pick_window {α : Type} {hi lo : ℚ} {m c w next : ℝ} {a f : α} {rest : Except LoadPanic α} {Q : Prop}
    (h1 : (hi : ℝ) = c + w) (h2 : (lo : ℝ) = c - w) (hr : (rest = .ok f ↔ Q) ∧ (Q → next ≤ m))
    (hn : c + w < next ∧ 0 ≤ w) :
    ((if inWindow hi lo m = true then .ok a else rest) = .ok f ↔ (|m - c| ≤ w ∧ f = a) ∨ Q) ∧
      ((|m - c| ≤ w ∧ f = a) ∨ Q → c - w ≤ m) := by
  refine pick (hi := c + w) ?_ ?_ hr hn.1 (by linarith [hn.2])
  · rw [inWindow_real, h1, h2, abs_le]
    constructor <;> rintro ⟨a, b⟩ <;> constructor <;> linarith
  · rw [abs_le]
    rintro ⟨a, b⟩
    constructor <;> linarith

theorem pick_near {α : Type} {c' : ℚ} {m c w next : ℝ} {a f : α} {rest : Except LoadPanic α} {Q : Prop}
    (h1 : (c' : ℝ) = c) (h2 : w = 1e-7) (hr : (rest = .ok f ↔ Q) ∧ (Q → next ≤ m)) (hn : c + w < next) :
    ((if isNear c' m = true then .ok a else rest) = .ok f ↔ (|m - c| < w ∧ f = a) ∨ Q) ∧
      ((|m - c| < w ∧ f = a) ∨ Q → c - w ≤ m) := by
  refine pick (hi := c + w) ?_ ?_ hr hn (by rw [h2]; norm_num; linarith)
  · rw [isNear_real, h1, h2]
  · rw [abs_lt]
    rintro ⟨a, b⟩
    constructor <;> linarith

theorem pick_nearEq {α : Type} {c' : ℚ} {m c w next : ℝ} {a f : α} {rest : Except LoadPanic α} {Q : Prop}
    (h1 : (c' : ℝ) = c) (h2 : w = 1e-7) (hr : (rest = .ok f ↔ Q) ∧ (Q → next ≤ m)) (hn : c + w < next) :
    ((if isNearEq c' m = true then .ok a else rest) = .ok f ↔ (|m - c| ≤ w ∧ f = a) ∨ Q) ∧
      ((|m - c| ≤ w ∧ f = a) ∨ Q → c - w ≤ m) := by
  refine pick (hi := c + w) ?_ ?_ hr hn (by rw [h2]; norm_num; linarith)
  · rw [isNearEq_real, h1, h2]
  · rw [abs_le]
    rintro ⟨a, b⟩
    constructor <;> linarith

/-- **C89, Gallet & Bolmont 2017**: a mass is accepted if and only if it is within a thousandth of a solar
mass of one with a published table, and this table is read. -/
theorem C89_gallet (m : ℝ) (f : String) :
    tableFile (.galletBolmont2017 m) = .ok f ↔
      ∃ g ∈ galletGrid, |m - g.2| ≤ 0.001 ∧ f = "input/Gallet_Bolmont_2017/M_" ++ g.1 ++ "_Z_0134.dat" := by
  simp only [tableFile, galletFile, galletGrid, List.mem_cons, List.not_mem_nil, exists_eq_or_imp, false_and,
    exists_false, String.reduceAppend]
  exact And.left (
    pick_window (by norm_num) (by norm_num) (pick_window (by norm_num) (by norm_num) (pick_window (by
      norm_num) (by norm_num) (pick_window (by norm_num) (by norm_num) (pick_window (by norm_num) (by
      norm_num) (pick_window (by norm_num) (by norm_num) (pick_window (by norm_num) (by norm_num)
      (pick_window (by norm_num) (by norm_num) (pick_window (by norm_num) (by norm_num) (pick_window (by
      norm_num) (by norm_num) (pick_nil (next := 10)) (by norm_num)) (by norm_num)) (by norm_num)) (by
      norm_num)) (by norm_num)) (by norm_num)) (by norm_num)) (by norm_num)) (by norm_num)) (by norm_num))

/-- **C89, Bolmont & Mathis 2016**. -/
theorem C89_bolmont (m : ℝ) (f : String) :
    tableFile (.bolmontMathis2016 m) = .ok f ↔
      ∃ g ∈ bolmontGrid, |m - g.2| ≤ 0.001 ∧ f = "input/Bolmont_Mathis_2016/L" ++ g.1 ++ "Z02r.dat" := by
  simp only [tableFile, bolmontMathisFile, bolmontGrid, List.mem_cons, List.not_mem_nil, exists_eq_or_imp, false_and,
    exists_false, String.reduceAppend]
  exact And.left (
    pick_window (by norm_num) (by norm_num) (pick_window (by norm_num) (by norm_num) (pick_window (by
      norm_num) (by norm_num) (pick_window (by norm_num) (by norm_num) (pick_window (by norm_num) (by
      norm_num) (pick_window (by norm_num) (by norm_num) (pick_window (by norm_num) (by norm_num)
      (pick_window (by norm_num) (by norm_num) (pick_window (by norm_num) (by norm_num) (pick_window (by
      norm_num) (by norm_num) (pick_window (by norm_num) (by norm_num) (pick_window (by norm_num) (by
      norm_num) (pick_nil (next := 10)) (by norm_num)) (by norm_num)) (by norm_num)) (by norm_num)) (by
      norm_num)) (by norm_num)) (by norm_num)) (by norm_num)) (by norm_num)) (by norm_num)) (by norm_num))
      (by norm_num))

/-- **C89, Leconte et al. 2011**. -/
theorem C89_leconte (m : ℝ) (f : String) :
    tableFile (.leconte2011 m) = .ok f ↔
      ∃ g ∈ leconteGrid, |m - g.2| ≤ 0.0001 ∧ f = "input/Leconte_2011/mass_" ++ g.1 ++ ".0000.dat" := by
  simp only [tableFile, leconteFile, leconteGrid, List.mem_cons, List.not_mem_nil, exists_eq_or_imp, false_and,
    exists_false, String.reduceAppend]
  exact And.left (
    pick_window (by norm_num) (by norm_num) (pick_window (by norm_num) (by norm_num) (pick_window (by
      norm_num) (by norm_num) (pick_window (by norm_num) (by norm_num) (pick_window (by norm_num) (by
      norm_num) (pick_window (by norm_num) (by norm_num) (pick_window (by norm_num) (by norm_num)
      (pick_window (by norm_num) (by norm_num) (pick_window (by norm_num) (by norm_num) (pick_window (by
      norm_num) (by norm_num) (pick_window (by norm_num) (by norm_num) (pick_window (by norm_num) (by
      norm_num) (pick_nil (next := 10)) (by norm_num)) (by norm_num)) (by norm_num)) (by norm_num)) (by
      norm_num)) (by norm_num)) (by norm_num)) (by norm_num)) (by norm_num)) (by norm_num)) (by norm_num))
      (by norm_num))

/-- **C89, Baraffe et al. 2015**: the tolerance is a ten-thousandth of a solar mass for brown dwarfs, and
less than 10⁻⁷ for stars. -/
theorem C89_baraffe2015 (m : ℝ) (f : String) :
    tableFile (.baraffe2015 m) = .ok f ↔
      (∃ g ∈ baraffeDwarfs, |m - g.2| ≤ 0.0001 ∧ f = "input/Baraffe_2015/" ++ g.1 ++ "_Msun.dat") ∨
      ∃ g ∈ baraffeStars, |m - g.2| < 1e-7 ∧ f = "input/Baraffe_2015/" ++ g.1 ++ "_Msun.dat" := by
  simp only [tableFile, baraffe2015File, baraffeDwarfs, baraffeStars, or_assoc, false_or, List.mem_cons, List.not_mem_nil, exists_eq_or_imp, false_and,
    exists_false, String.reduceAppend]
  exact And.left (
    pick_window (by norm_num) (by norm_num) (pick_window (by norm_num) (by norm_num) (pick_window (by
      norm_num) (by norm_num) (pick_window (by norm_num) (by norm_num) (pick_window (by norm_num) (by
      norm_num) (pick_window (by norm_num) (by norm_num) (pick_window (by norm_num) (by norm_num)
      (pick_window (by norm_num) (by norm_num) (pick_window (by norm_num) (by norm_num) (pick_window (by
      norm_num) (by norm_num) (pick_window (by norm_num) (by norm_num) (pick_near (by norm_num) (by
      norm_num) (pick_near (by norm_num) (by norm_num) (pick_near (by norm_num) (by norm_num) (pick_near
      (by norm_num) (by norm_num) (pick_near (by norm_num) (by norm_num) (pick_near (by norm_num) (by
      norm_num) (pick_near (by norm_num) (by norm_num) (pick_near (by norm_num) (by norm_num) (pick_near
      (by norm_num) (by norm_num) (pick_near (by norm_num) (by norm_num) (pick_near (by norm_num) (by
      norm_num) (pick_near (by norm_num) (by norm_num) (pick_near (by norm_num) (by norm_num) (pick_near
      (by norm_num) (by norm_num) (pick_near (by norm_num) (by norm_num) (pick_near (by norm_num) (by
      norm_num) (pick_near (by norm_num) (by norm_num) (pick_near (by norm_num) (by norm_num) (pick_nil
      (next := 10)) (by norm_num)) (by norm_num)) (by norm_num)) (by norm_num)) (by norm_num)) (by
      norm_num)) (by norm_num)) (by norm_num)) (by norm_num)) (by norm_num)) (by norm_num)) (by norm_num))
      (by norm_num)) (by norm_num)) (by norm_num)) (by norm_num)) (by norm_num)) (by norm_num)) (by
      norm_num)) (by norm_num)) (by norm_num)) (by norm_num)) (by norm_num)) (by norm_num)) (by norm_num))
      (by norm_num)) (by norm_num)) (by norm_num)) (by norm_num))

/-- **C89, Baraffe et al. 1998**: only 0.1 and 1 solar mass. -/
theorem C89_baraffe1998 (m : ℝ) (f : String) :
    tableFile (.baraffe1998 m) = .ok f ↔
      |m - 0.1| ≤ 1e-7 ∧ f = "input/Baraffe_1998/01Msun.dat" ∨
      |m - 1| ≤ 1e-7 ∧ f = "input/Baraffe_1998/SRad_Spli_M-1_0000.dat" := by
  simp only [tableFile, baraffe1998File]
  rw [← or_false (|m - 1| ≤ 1e-7 ∧ _)]
  exact And.left (
    pick_nearEq (by norm_num) (by norm_num) (pick_nearEq (by norm_num) (by norm_num) (pick_nil (next :=
      10)) (by norm_num)) (by norm_num))

/-- **C89, the auxiliary file of Leconte et al. 2011**: its column `i + 1` is read exactly for the masses of the
`i`-th main file. -/
theorem C89_leconte_column (m : ℝ) (n : Nat) :
    auxColumn m = .ok n ↔ ∃ g ∈ leconteGrid.zipIdx, |m - g.1.2| ≤ 0.0001 ∧ n = g.2 + 1 := by
  simp only [auxColumn, leconteGrid, List.zipIdx_cons, List.zipIdx_nil, List.mem_cons, List.not_mem_nil, exists_eq_or_imp, false_and,
    exists_false, Nat.reduceAdd]
  exact And.left (
    pick_window (by norm_num) (by norm_num) (pick_window (by norm_num) (by norm_num) (pick_window (by
      norm_num) (by norm_num) (pick_window (by norm_num) (by norm_num) (pick_window (by norm_num) (by
      norm_num) (pick_window (by norm_num) (by norm_num) (pick_window (by norm_num) (by norm_num)
      (pick_window (by norm_num) (by norm_num) (pick_window (by norm_num) (by norm_num) (pick_window (by
      norm_num) (by norm_num) (pick_window (by norm_num) (by norm_num) (pick_window (by norm_num) (by
      norm_num) (pick_nil (next := 10)) (by norm_num)) (by norm_num)) (by norm_num)) (by norm_num)) (by
      norm_num)) (by norm_num)) (by norm_num)) (by norm_num)) (by norm_num)) (by norm_num)) (by norm_num))
      (by norm_num))

/-- A brown dwarf whose main table exists has a column in the auxiliary file. -/
theorem C89_leconte_consistent (m : ℝ) (f : String) (h : tableFile (.leconte2011 m) = .ok f) :
    ∃ i g, leconteGrid[i]? = some g ∧ f = "input/Leconte_2011/mass_" ++ g.1 ++ ".0000.dat" ∧
      auxColumn m = .ok (i + 1) := by
  rw [C89_leconte] at h
  obtain ⟨g, hg, h1, h2⟩ := h
  obtain ⟨i, hi, rfl⟩ := List.getElem_of_mem hg
  exact ⟨i, _, List.getElem?_eq_getElem hi, h2,
    (C89_leconte_column m (i + 1)).mpr ⟨(leconteGrid[i], i), by simp [List.mk_mem_zipIdx_iff_getElem?, hi], h1, rfl⟩⟩

-- a mass with a table, a mass within the tolerance, and one without
example : tableFile (.baraffe2015 (0.0701 : ℝ)) = .ok "input/Baraffe_2015/0070_Msun.dat" :=
  (C89_baraffe2015 _ _).mpr (Or.inl ⟨("0070", 0.070), by simp [baraffeDwarfs], by norm_num [abs_le], rfl⟩)
example : ∀ f, tableFile (.galletBolmont2017 (0.5 : ℝ)) ≠ .ok f := by
  intro f h
  rw [C89_gallet] at h
  obtain ⟨g, hg, h, _⟩ := h
  simp only [galletGrid, List.mem_cons, List.not_mem_nil, or_false] at hg
  rcases hg with rfl | rfl | rfl | rfl | rfl | rfl | rfl | rfl | rfl | rfl <;> norm_num [abs_le] at h

/-! ## C90: what the tables contain -/

def Tables.column {F : Type} (t : Tables F) : Quantity → List F
  | .radius => t.radius
  | .radiusOfGyration2 => t.radiusOfGyration2
  | .loveNumber => t.loveNumber
  | .inverseTidalQFactor => t.inverseTidalQFactor

theorem numberOrMinusOne_ok (row : List (Option ℝ)) (x : ℝ) (h : numberOrMinusOne row = .ok x) :
    x = timeField row := by
  unfold numberOrMinusOne at h
  unfold timeField
  split at h <;> simp_all

theorem number_ok {F : Type} (row : List (Option F)) (i : Nat) (x : F) (h : number row i = .ok x) :
    row[i]? = some (some x) := by
  unfold number at h
  split at h <;> simp_all

theorem readRecords_index {F : Type} [Add F] [Sub F] [Mul F] [Div F] [FOps F] [FPow F] (env : LoadEnv F)
    (kind : Kind F) (T : F) (rows : List (List (Option F))) (i j : Nat) (t : Tables F) :
    readRecords env kind T (i + 1) rows t = readRecords env kind T (j + 1) rows t := by
  induction rows generalizing i j t with
  | nil => rfl
  | cons row rows ih =>
    rw [readRecords, readRecords]
    congr 1
    funext x
    have e : ∀ n : Nat, (n + 1 == 0) = false := by simp
    simp only [e, Bool.false_and, Bool.false_eq_true, if_false]
    congr 1; funext a
    congr 1; funext b
    congr 1; funext c
    congr 1; funext d
    exact ih _ _ _

theorem readRecords_zero (env : LoadEnv ℝ) (kind : Kind ℝ) (T : ℝ) (rows : List (List (Option ℝ)))
    (t r : Tables ℝ) (h : readRecords env kind T 0 rows t = .ok r) :
    readRecords env kind T 1 (dataRows rows) t = .ok r := by
  cases rows with
  | nil => exact h
  | cons row rows =>
    rw [readRecords_cons] at h
    obtain ⟨x, hx, ⟨h1, h⟩ | ⟨h1, h⟩⟩ := h <;> have hx' := numberOrMinusOne_ok row x hx
    · simp only [beq_self_eq_true, Bool.true_and, ltb_real, lit_real, Rat.cast_zero] at h1
      rw [dataRows, if_pos (by rw [← hx']; exact h1)]
      exact h
    · simp only [beq_self_eq_true, Bool.true_and, ltb_real_false, lit_real, Rat.cast_zero] at h1
      rw [dataRows, if_neg (by rw [← hx']; exact not_lt.mpr h1), readRecords_cons]
      refine ⟨x, hx, Or.inr ⟨rfl, ?_⟩⟩
      simpa only [readRecords_index env kind T rows 1 0] using h

theorem timeAndRadius_ok (env : LoadEnv ℝ) (kind : Kind ℝ) (hk : kind.type ≠ .nonEvolving)
    (hl : ∀ m, kind ≠ .leconte2011 m) (f : String) (hf : tableFile kind = .ok f) (T x rr : ℝ) :
    timeAndRadius env kind T x rr = (ageInDays kind.type x - T, valueOf env kind .radius rr) := by
  have e0 : ((36525 / 100 : ℚ) : ℝ) = 365.25 := by norm_num
  cases kind with
  | nonEvolving => exact absurd rfl hk
  | leconte2011 m => exact absurd rfl (hl m)
  | baraffe1998 m =>
    rw [C89_baraffe1998] at hf
    have e1 := isNearEq_real (1/10) m
    have e2 := isNearEq_real 1 m
    have c1 : ((1 / 10 : ℚ) : ℝ) = 0.1 := by norm_num
    rw [c1] at e1
    rw [Rat.cast_one] at e2
    rcases hf with ⟨hm, _⟩ | ⟨hm, _⟩
    · have hn : ¬ |m - 1| ≤ 1e-7 := by
        rw [abs_le] at hm ⊢
        rintro ⟨a, b⟩
        norm_num at *
        linarith
      simp only [timeAndRadius, e1.mpr hm, if_true, lit_real, e0, ageInDays, Kind.type, valueOf, if_neg hn]
    · have hn : ¬ |m - 0.1| ≤ 1e-7 := by
        rw [abs_le] at hm ⊢
        rintro ⟨a, b⟩
        norm_num at *
        linarith
      have hb : isNearEq (1/10) m = false := by
        rw [← Bool.not_eq_true, e1]; exact hn
      simp only [timeAndRadius, hb, e2.mpr hm, if_true, Bool.false_eq_true, if_false, lit_real, e0, ageInDays,
        Kind.type, valueOf, if_pos hm]
  | galletBolmont2017 m =>
    simp only [timeAndRadius, lit_real, e0, ageInDays, Kind.type, valueOf, powf_real]
    norm_num
  | _ => simp only [timeAndRadius, lit_real, e0, ageInDays, Kind.type, valueOf]

/-- One record pushed. -/
theorem push_columns (env : LoadEnv ℝ) (kind : Kind ℝ) (hk : kind.type ≠ .nonEvolving)
    (hl : ∀ m, kind ≠ .leconte2011 m) (f : String) (hf : tableFile kind = .ok f) (T : ℝ)
    (row : List (Option ℝ)) (t : Tables ℝ) (x rr rg2 love q : ℝ) (h1 : rawRadiusOf kind row = .ok rr)
    (h2 : radiusOfGyration2Of kind row = .ok rg2) (h3 : loveNumberOf kind row = .ok love)
    (h4 : inverseTidalQFactorOf kind row = .ok q) :
    (t.push kind (timeAndRadius env kind T x rr).1 (timeAndRadius env kind T x rr).2 rg2 love q).time =
        t.time ++ [ageInDays kind.type x - T] ∧
      ∀ c, Tabulated kind.type c = true → ∃ raw, row[fieldOf kind.type c]? = some (some raw) ∧
        (t.push kind (timeAndRadius env kind T x rr).1 (timeAndRadius env kind T x rr).2 rg2 love q).column c =
          t.column c ++ [valueOf env kind c raw] := by
  rw [timeAndRadius_ok env kind hk hl f hf T x rr]
  refine ⟨?_, ?_⟩
  · cases kind <;> first | exact absurd rfl hk | rfl
  · intro c hc
    cases kind with
    | nonEvolving => exact absurd rfl hk
    | leconte2011 m => exact absurd rfl (hl m)
    | galletBolmont2017 m =>
      cases c with
      | radius => exact ⟨rr, number_ok _ _ _ h1, rfl⟩
      | inverseTidalQFactor =>
        simp only [inverseTidalQFactorOf, except_bind_ok, Except.ok.injEq] at h4
        obtain ⟨raw, h5, h6⟩ := h4
        refine ⟨raw, number_ok _ _ _ h5, ?_⟩
        simp only [Tables.push, Tables.column, valueOf, ← h6, lit_real, powf_real]
        norm_num
      | _ => simp [Kind.type, Tabulated] at hc
    | leconteChabrier2013 b =>
      cases b <;> cases c <;> first
        | exact ⟨rr, number_ok _ _ _ h1, rfl⟩ | exact ⟨rg2, number_ok _ _ _ h2, rfl⟩
        | exact ⟨love, number_ok _ _ _ h3, rfl⟩ | exact ⟨q, number_ok _ _ _ h4, rfl⟩
        | simp [Kind.type, Tabulated] at hc
    | _ =>
      cases c <;> first
        | exact ⟨rr, number_ok _ _ _ h1, rfl⟩ | exact ⟨rg2, number_ok _ _ _ h2, rfl⟩
        | exact ⟨love, number_ok _ _ _ h3, rfl⟩ | exact ⟨q, number_ok _ _ _ h4, rfl⟩
        | simp [Kind.type, Tabulated] at hc

theorem readRecords_rows (env : LoadEnv ℝ) (kind : Kind ℝ) (hk : kind.type ≠ .nonEvolving)
    (hl : ∀ m, kind ≠ .leconte2011 m) (f : String) (hf : tableFile kind = .ok f) (T : ℝ)
    (rows : List (List (Option ℝ))) (i : Nat) (t r : Tables ℝ)
    (h : readRecords env kind T (i + 1) rows t = .ok r) :
    r.time = t.time ++ rows.map (fun row => ageInDays kind.type (timeField row) - T) ∧
      ∀ c, Tabulated kind.type c = true → ∃ col, r.column c = t.column c ++ col ∧
        List.Forall₂ (fun row v => ∃ raw, row[fieldOf kind.type c]? = some (some raw) ∧
          v = valueOf env kind c raw) rows col := by
  induction rows generalizing i t with
  | nil =>
    simp only [readRecords, Except.ok.injEq] at h
    subst h
    exact ⟨by simp, fun c _ => ⟨[], by simp, List.Forall₂.nil⟩⟩
  | cons row rows ih =>
    rw [readRecords_cons] at h
    obtain ⟨x, hx, ⟨h1, _⟩ | ⟨_, rr, rg2, love, q, h1, h2, h3, h4, h5⟩⟩ := h
    · simp at h1
    · obtain ⟨p1, p2⟩ := push_columns env kind hk hl f hf T row t x rr rg2 love q h1 h2 h3 h4
      obtain ⟨i1, i2⟩ := ih _ _ h5
      refine ⟨?_, ?_⟩
      · rw [i1, p1, numberOrMinusOne_ok row x hx]
        simp
      · intro c hc
        obtain ⟨raw, r1, r2⟩ := p2 c hc
        obtain ⟨col, c1, c2⟩ := i2 c hc
        exact ⟨valueOf env kind c raw :: col, by rw [c1, r2]; simp, List.Forall₂.cons ⟨raw, r1, rfl⟩ c2⟩

/-- **C90**: the accepted table has exactly one entry for each record of the file of the body's mass (after the
column headers), in the same order: its time is the age of the record, in days, counted from the initial time
of the run, and each quantity is the number in its field, converted to the units of the simulation. -/
theorem C90_rows (env : LoadEnv ℝ) (kind : Kind ℝ) (T L : ℝ) (e : Evolver ℝ)
    (h : evolverNew env kind T L = .ok e) (hk : kind.type ≠ .nonEvolving) (hl : ∀ m, kind ≠ .leconte2011 m) :
    e.evolution = kind.type ∧ ∃ f rows, tableFile kind = .ok f ∧ env.files f = some rows ∧
      e.time = (dataRows rows).map (fun row => ageInDays kind.type (timeField row) - T) ∧
      ∀ q, Tabulated kind.type q = true →
        List.Forall₂ (fun row v => ∃ raw, row[fieldOf kind.type q]? = some (some raw) ∧
          v = valueOf env kind q raw) (dataRows rows) (e.column q) := by
  obtain ⟨f, rows, t0, t, h1, h2, h3, h4, _, _, rfl⟩ := evolverNew_ok env kind T L e h
  refine ⟨rfl, f, rows, h1, h2, ?_⟩
  have h5 : t = t0 := by
    cases kind <;> first | exact absurd rfl (hl _) | (simp only [secondFile, Except.ok.injEq] at h4; exact h4.symm)
  subst h5
  obtain ⟨g1, g2⟩ := readRecords_rows env kind hk hl f h1 T _ 0 _ _ (readRecords_zero env kind T rows _ _ h3)
  refine ⟨by simpa using g1, ?_⟩
  intro q hq
  obtain ⟨col, c1, c2⟩ := g2 q hq
  cases q <;> simp only [Tables.column, List.nil_append] at c1 <;> simpa only [Evolver.column, c1] using c2

/-! ## C90: brown dwarfs -/

theorem readRecords_leconte (env : LoadEnv ℝ) (m T : ℝ) (rows : List (List (Option ℝ))) (i : Nat)
    (t r : Tables ℝ) (h : readRecords env (.leconte2011 m) T (i + 1) rows t = .ok r) :
    r.time = t.time ++ rows.map timeField ∧ r.radiusOfGyration2 = t.radiusOfGyration2 ∧
      ∃ col, r.radius = t.radius ++ col ∧
        List.Forall₂ (fun row v => ∃ raw, row[1]? = some (some raw) ∧ v = raw * env.rSun) rows col := by
  induction rows generalizing i t with
  | nil =>
    simp only [readRecords, Except.ok.injEq] at h
    subst h
    exact ⟨by simp, rfl, [], by simp, List.Forall₂.nil⟩
  | cons row rows ih =>
    rw [readRecords_cons] at h
    obtain ⟨x, hx, ⟨h1, _⟩ | ⟨_, rr, rg2, love, q, h1, h2, h3, h4, h5⟩⟩ := h
    · simp at h1
    · obtain ⟨i1, i2, col, i3, i4⟩ := ih _ _ h5
      refine ⟨?_, i2, rr * env.rSun :: col, ?_, List.Forall₂.cons ⟨rr, number_ok _ _ _ h1, rfl⟩ i4⟩
      · rw [i1]
        simp [Tables.push, timeAndRadius, ← numberOrMinusOne_ok row x hx]
      · rw [i3]
        simp [Tables.push, timeAndRadius]

theorem readAux_ok {F : Type} (column : Nat) (rows : List (List (Option F))) (ts vs : List F)
    (h : readAux column rows = .ok (ts, vs)) :
    List.Forall₂ (fun row t => row[0]? = some (some t)) rows ts ∧
      List.Forall₂ (fun row v => row[column]? = some (some v)) rows vs := by
  induction rows generalizing ts vs with
  | nil =>
    simp only [readAux, Except.ok.injEq, Prod.mk.injEq] at h
    obtain ⟨rfl, rfl⟩ := h
    exact ⟨List.Forall₂.nil, List.Forall₂.nil⟩
  | cons row rows ih =>
    simp only [readAux, except_bind_ok] at h
    obtain ⟨t, h1, v, h2, ⟨ts', vs'⟩, h3, h4⟩ := h
    simp only [Except.ok.injEq, Prod.mk.injEq] at h4
    obtain ⟨rfl, rfl⟩ := h4
    obtain ⟨i1, i2⟩ := ih _ _ h3
    exact ⟨List.Forall₂.cons (number_ok _ _ _ h1) i1, List.Forall₂.cons (number_ok _ _ _ h2) i2⟩

theorem restrictRange_ok {F : Type} [FOps F] (aux time radius time' radius' : List F)
    (h : restrictRange aux time radius = .ok (time', radius')) :
    ∃ lo n, time' = (time.drop lo).take n ∧ (radius.length = time.length →
      radius' = (radius.drop lo).take n) := by
  have key : ∀ first last : F, ∃ lo n,
      (cutAfter last (dropBefore first time radius).1 (dropBefore first time radius).2).1 =
        (time.drop lo).take n ∧ (radius.length = time.length →
      (cutAfter last (dropBefore first time radius).1 (dropBefore first time radius).2).2 =
        (radius.drop lo).take n) := by
    intro first last
    have h1 : ∃ lo, dropBefore first time radius = (time.drop lo, radius.drop lo) := by
      unfold dropBefore
      split
      · exact ⟨_, rfl⟩
      · exact ⟨0, rfl⟩
    obtain ⟨lo, h1⟩ := h1
    rw [h1]
    unfold cutAfter
    split
    · exact ⟨lo, _, rfl, fun _ => rfl⟩
    · refine ⟨lo, time.length - lo, ?_, ?_⟩
      · rw [List.take_of_length_le (by simp)]
      · intro hl
        rw [List.take_of_length_le (by simp; omega)]
  unfold restrictRange at h
  split at h
  · simp only [Except.ok.injEq, Prod.mk.injEq] at h
    obtain ⟨rfl, rfl⟩ := h
    exact ⟨0, 0, by simp, fun h => by simpa using h⟩
  · split at h
    · rename_i first last _ _
      obtain ⟨lo, n, h1, h2⟩ := key first last
      simp only [Except.ok.injEq] at h
      rw [h] at h1 h2
      exact ⟨lo, n, h1, h2⟩
    · simp at h

theorem interpolateAux_ok {F : Type} [Add F] [Sub F] [Mul F] [Div F] [FOps F] (env : LoadEnv F)
    (a b ts vs : List F) (h : interpolateAux env a b ts = .ok vs) :
    List.Forall₂ (fun t v => ∃ w l, linearInterpolation t a b = some (w, l) ∧ v = env.halfUp7 w) ts vs := by
  induction ts generalizing vs with
  | nil =>
    simp only [interpolateAux, Except.ok.injEq] at h
    subst h
    exact List.Forall₂.nil
  | cons t ts ih =>
    rw [interpolateAux] at h
    split at h
    · simp at h
    · rename_i v l hv
      rw [except_bind_ok] at h
      obtain ⟨rest, h1, h2⟩ := h
      injection h2 with h2
      subst h2
      exact List.Forall₂.cons ⟨v, l, hv, rfl⟩ (ih rest h1)

/-- **C90, brown dwarfs**: the accepted table consists of consecutive records of the main file; times and radii
are those of the main file, and the radius of gyration is interpolated, at the age of each record, in the column
of the auxiliary file for the body's mass, and rounded to seven decimals. -/
theorem C90_leconte_rows (env : LoadEnv ℝ) (m T L : ℝ) (e : Evolver ℝ)
    (h : evolverNew env (.leconte2011 m) T L = .ok e) :
    e.evolution = .leconte2011 ∧ ∃ f rows column aux auxTime auxRg2 lo n,
      tableFile (.leconte2011 m) = .ok f ∧ env.files f = some rows ∧ auxColumn m = .ok column ∧
      env.files "input/Leconte_2011/rg2BD.dat" = some aux ∧
      List.Forall₂ (fun row t => row[0]? = some (some t)) aux auxTime ∧
      List.Forall₂ (fun row v => row[column]? = some (some v)) aux auxRg2 ∧
      e.time = (((dataRows rows).drop lo).take n).map (fun row => timeField row * 365.25 - T) ∧
      List.Forall₂ (fun row v => ∃ raw, row[1]? = some (some raw) ∧ v = raw * env.rSun)
        (((dataRows rows).drop lo).take n) e.radius ∧
      List.Forall₂ (fun row v => ∃ w l, linearInterpolation (timeField row) auxTime auxRg2 = some (w, l) ∧
        v = env.halfUp7 w) (((dataRows rows).drop lo).take n) e.radiusOfGyration2 := by
  obtain ⟨f, rows, t0, t, h1, h2, h3, h4, _, _, rfl⟩ := evolverNew_ok env _ T L e h
  obtain ⟨column, aux, auxTime, auxRg2, time, radius, rg2, a1, a2, a3, a4, a5, rfl⟩ := addAux_ok env m T t0 t h4
  obtain ⟨g1, g2, col, g3, g4⟩ :=
    readRecords_leconte env m T _ 0 _ _ (readRecords_zero env _ T rows _ _ h3)
  simp only [List.nil_append] at g1 g3
  obtain ⟨lo, n, b1, b2⟩ := restrictRange_ok _ _ _ _ _ a4
  obtain ⟨c1, c2⟩ := readAux_ok column aux auxTime auxRg2 a3
  have hlen : t0.radius.length = t0.time.length := by
    rw [g1, g3, ← g4.length_eq]; simp
  have e0 : ((36525 / 100 : ℚ) : ℝ) = 365.25 := by norm_num
  refine ⟨rfl, f, rows, column, aux, auxTime, auxRg2, lo, n, h1, h2, a1, a2, c1, c2, ?_, ?_, ?_⟩
  · simp only [b1, g1, lit_real, e0, ← List.map_drop, ← List.map_take, List.map_map]
    rfl
  · simp only [b2 hlen, g3]
    exact List.forall₂_take _ (List.forall₂_drop _ g4)
  · have := interpolateAux_ok env _ _ _ _ a5
    simp only [g2, List.nil_append]
    rw [b1, g1, ← List.map_drop, ← List.map_take, List.forall₂_map_left_iff] at this
    exact this

/-! ## C90: range of the auxiliary file, age of the body -/

theorem dropBefore_ge (first : ℝ) (time radius : List ℝ) (hs : time.Pairwise (· ≤ ·))
    (hx : ∃ x ∈ time, first ≤ x) : ∀ x ∈ (dropBefore first time radius).1, first ≤ x := by
  unfold dropBefore
  split
  · rename_i lo hlo
    rw [List.findIdx?_eq_some_iff_getElem] at hlo
    obtain ⟨hl, h1, _⟩ := hlo
    simp only [leb_real] at h1
    intro x hx
    simp only at hx
    rw [List.mem_iff_getElem] at hx
    obtain ⟨i, hi, rfl⟩ := hx
    rw [List.getElem_drop]
    rw [List.length_drop] at hi
    rcases Nat.eq_zero_or_pos i with rfl | hpos
    · exact h1
    · exact h1.trans (List.pairwise_iff_getElem.mp hs lo (lo + i) hl (by omega) (by omega))
  · rename_i hn
    rw [List.findIdx?_eq_none_iff] at hn
    obtain ⟨x, h1, h2⟩ := hx
    have := hn x h1
    simp only [leb_real_false] at this
    linarith

theorem cutAfter_le (last : ℝ) (time radius : List ℝ) : ∀ x ∈ (cutAfter last time radius).1, x ≤ last := by
  unfold cutAfter
  split
  · rename_i up hup
    rw [List.findIdx?_eq_some_iff_getElem] at hup
    obtain ⟨hl, _, h2⟩ := hup
    intro x hx
    simp only at hx
    rw [List.mem_iff_getElem] at hx
    obtain ⟨i, hi, rfl⟩ := hx
    rw [List.length_take] at hi
    rw [List.getElem_take]
    have := h2 i (by omega)
    simpa using this
  · rename_i hn
    rw [List.findIdx?_eq_none_iff] at hn
    intro x hx
    simpa using hn x hx

theorem cutAfter_subset (last : ℝ) (time radius : List ℝ) :
    ∀ x ∈ (cutAfter last time radius).1, x ∈ time := by
  unfold cutAfter
  split
  · exact fun x hx => List.mem_of_mem_take hx
  · exact fun x hx => hx

/-- **C90, brown dwarfs, range**: if the ages of the main file are in order and one of them is not below the
range of the auxiliary file, then all ages kept are within the range of the auxiliary file: the radius of
gyration is not extrapolated. -/
theorem C90_leconte_range_partial (env : LoadEnv ℝ) (m T L : ℝ) (e : Evolver ℝ)
    (h : evolverNew env (.leconte2011 m) T L = .ok e) (f : String) (hf : tableFile (.leconte2011 m) = .ok f)
    (rows aux : List (List (Option ℝ))) (hr : env.files f = some rows)
    (ha : env.files "input/Leconte_2011/rg2BD.dat" = some aux) (r0 r1 : List (Option ℝ)) (a b : ℝ)
    (h0 : aux.head? = some r0) (h1 : aux.getLast? = some r1) (e0 : r0[0]? = some (some a))
    (e1 : r1[0]? = some (some b)) (hs : ((dataRows rows).map timeField).Pairwise (· ≤ ·))
    (hx : ∃ row ∈ dataRows rows, a ≤ timeField row) :
    ∀ x ∈ e.time, a ≤ (x + T) / 365.25 ∧ (x + T) / 365.25 ≤ b := by
  obtain ⟨f', rows', t0, t, g1, g2, g3, g4, _, _, rfl⟩ := evolverNew_ok env _ T L e h
  rw [hf] at g1
  injection g1 with g1
  subst g1
  rw [hr] at g2
  injection g2 with g2
  subst g2
  obtain ⟨column, aux', auxTime, auxRg2, time, radius, rg2, a1, a2, a3, a4, a5, rfl⟩ := addAux_ok env m T t0 t g4
  rw [ha] at a2
  injection a2 with a2
  subst a2
  obtain ⟨k1, k2, _⟩ := readRecords_leconte env m T _ 0 _ _ (readRecords_zero env _ T rows _ _ g3)
  simp only [List.nil_append] at k1
  obtain ⟨c1, _⟩ := readAux_ok column aux auxTime auxRg2 a3
  have hne : auxTime ≠ [] := by
    rintro rfl
    cases c1
    simp at h0
  have hlen := c1.length_eq
  have hfirst : auxTime.head? = some a := by
    cases c1 with
    | nil => simp at h0
    | cons p _ =>
      simp only [List.head?_cons, Option.some.injEq] at h0 ⊢
      subst h0
      rw [e0] at p
      simpa using p.symm
  have hlast : auxTime.getLast? = some b := by
    have hp : 0 < auxTime.length := List.length_pos_iff.mpr hne
    have hp' : 0 < aux.length := by omega
    have := List.forall₂_iff_get.mp c1 |>.2 (aux.length - 1) (by omega) (by omega)
    rw [List.getLast?_eq_getElem?, List.getElem?_eq_getElem (by omega)] at h1
    injection h1 with h1
    simp only [List.get_eq_getElem] at this
    rw [h1, e1] at this
    rw [List.getLast?_eq_getElem?, List.getElem?_eq_getElem (by omega)]
    simp only [Option.some.injEq] at this ⊢
    rw [this]
    congr 1
    omega
  have hrange : ∀ y ∈ time, a ≤ y ∧ y ≤ b := by
    intro y hy
    unfold restrictRange at a4
    split at a4
    · simp only [Except.ok.injEq, Prod.mk.injEq] at a4
      rw [← a4.1] at hy
      simp at hy
    · simp only [hfirst, hlast, Except.ok.injEq] at a4
      have hy' : y ∈ (cutAfter b (dropBefore a t0.time t0.radius).1 (dropBefore a t0.time t0.radius).2).1 := by
        rw [a4]; exact hy
      refine ⟨?_, cutAfter_le _ _ _ y hy'⟩
      refine dropBefore_ge a t0.time t0.radius (by rw [k1]; exact hs) ?_ y (cutAfter_subset _ _ _ y hy')
      obtain ⟨row, hrow, hle⟩ := hx
      exact ⟨timeField row, by rw [k1]; exact List.mem_map_of_mem hrow, hle⟩
  intro x hx
  simp only [List.mem_map] at hx
  obtain ⟨y, hy, rfl⟩ := hx
  have e0 : ((36525 / 100 : ℚ) : ℝ) = 365.25 := by norm_num
  have : (y * (lit (36525 / 100) : ℝ) - T + T) / 365.25 = y := by
    simp only [lit_real, e0]
    norm_num
  rw [this]
  exact hrange y hy

/-- **C90, range, is violated** if the main file ends before the auxiliary file starts: nothing is removed, and
all ages of the table are outside the range of the auxiliary file. -/
theorem C90_violated_leconte_range (env : LoadEnv ℝ) (m T L : ℝ) (e : Evolver ℝ)
    (h : evolverNew env (.leconte2011 m) T L = .ok e) (f : String) (hf : tableFile (.leconte2011 m) = .ok f)
    (rows aux : List (List (Option ℝ))) (hr : env.files f = some rows)
    (ha : env.files "input/Leconte_2011/rg2BD.dat" = some aux)
    (hlow : ∀ row ∈ dataRows rows, ∀ r ∈ aux, ∀ a, r[0]? = some (some a) → timeField row < a) :
    e.time = (dataRows rows).map (fun row => timeField row * 365.25 - T) := by
  obtain ⟨f', rows', t0, t, g1, g2, g3, g4, _, _, rfl⟩ := evolverNew_ok env _ T L e h
  rw [hf] at g1
  injection g1 with g1
  subst g1
  rw [hr] at g2
  injection g2 with g2
  subst g2
  obtain ⟨column, aux', auxTime, auxRg2, time, radius, rg2, a1, a2, a3, a4, a5, rfl⟩ := addAux_ok env m T t0 t g4
  rw [ha] at a2
  injection a2 with a2
  subst a2
  obtain ⟨k1, k2, _⟩ := readRecords_leconte env m T _ 0 _ _ (readRecords_zero env _ T rows _ _ g3)
  simp only [List.nil_append] at k1
  obtain ⟨c1, _⟩ := readAux_ok column aux auxTime auxRg2 a3
  have hlow' : ∀ x ∈ t0.time, ∀ a ∈ auxTime, x < a := by
    intro x hx a ha
    rw [k1, List.mem_map] at hx
    obtain ⟨row, hrow, rfl⟩ := hx
    rw [List.mem_iff_getElem] at ha
    obtain ⟨i, hi, rfl⟩ := ha
    have hi' : i < aux.length := by rw [c1.length_eq]; exact hi
    have := List.forall₂_iff_get.mp c1 |>.2 i hi' hi
    simp only [List.get_eq_getElem] at this
    exact hlow row hrow aux[i] (List.getElem_mem hi') _ this
  have htime : time = t0.time := by
    unfold restrictRange at a4
    split at a4
    · rename_i hnil
      simp only [Except.ok.injEq, Prod.mk.injEq] at a4
      rw [hnil]; exact a4.1.symm
    · split at a4
      · rename_i first last hfirst hlast
        have m1 : first ∈ auxTime := List.mem_of_mem_head? hfirst
        have m2 : last ∈ auxTime := List.mem_of_getLast? hlast
        have d1 : dropBefore first t0.time t0.radius = (t0.time, t0.radius) := by
          unfold dropBefore
          have : t0.time.findIdx? (fun x => leb first x) = none := by
            rw [List.findIdx?_eq_none_iff]
            intro x hx
            simpa using hlow' x hx first m1
          rw [this]
        have d2 : cutAfter last t0.time t0.radius = (t0.time, t0.radius) := by
          unfold cutAfter
          have : t0.time.findIdx? (fun x => ltb last x) = none := by
            rw [List.findIdx?_eq_none_iff]
            intro x hx
            simpa using (hlow' x hx last m2).le
          rw [this]
        simp only [d1, d2, Except.ok.injEq, Prod.mk.injEq] at a4
        exact a4.1.symm
      · simp at a4
  have e0 : ((36525 / 100 : ℚ) : ℝ) = 365.25 := by norm_num
  simp only [htime, k1, lit_real, e0, List.map_map]
  rfl

/-! The age of the body. -/

structure Shifted (d : ℝ) (t1 t2 : Tables ℝ) : Prop where
  time : t2.time = t1.time.map (· + d)
  column : ∀ q, t2.column q = t1.column q

theorem readRecords_shift (env : LoadEnv ℝ) (kind : Kind ℝ) (T1 T2 d : ℝ)
    (hd : ∀ x rr, timeAndRadius env kind T2 x rr =
      ((timeAndRadius env kind T1 x rr).1 + d, (timeAndRadius env kind T1 x rr).2) ∨ kind = .nonEvolving)
    (rows : List (List (Option ℝ))) (i : Nat) (t1 t2 r1 r2 : Tables ℝ) (ht : Shifted d t1 t2)
    (h1 : readRecords env kind T1 i rows t1 = .ok r1) (h2 : readRecords env kind T2 i rows t2 = .ok r2) :
    Shifted d r1 r2 := by
  induction rows generalizing i t1 t2 with
  | nil =>
    simp only [readRecords, Except.ok.injEq] at h1 h2
    subst h1 h2
    exact ht
  | cons row rows ih =>
    rw [readRecords_cons] at h1 h2
    obtain ⟨x, hx, h1⟩ := h1
    obtain ⟨x', hx', h2⟩ := h2
    rw [hx] at hx'
    injection hx' with hx'
    subst hx'
    rcases h1 with ⟨c, h1⟩ | ⟨c, rr, rg2, love, q, p1, p2, p3, p4, h1⟩ <;>
      rcases h2 with ⟨c', h2⟩ | ⟨c', rr', rg2', love', q', p1', p2', p3', p4', h2⟩
    · exact ih _ _ _ ht h1 h2
    · rw [c] at c'
      exact absurd c' (by simp)
    · rw [c] at c'
      exact absurd c' (by simp)
    · rw [p1] at p1'
      rw [p2] at p2'
      rw [p3] at p3'
      rw [p4] at p4'
      injection p1' with p1'
      injection p2' with p2'
      injection p3' with p3'
      injection p4' with p4'
      subst p1' p2' p3' p4'
      refine ih _ _ _ ?_ h1 h2
      rcases hd x rr with e | rfl
      · rw [e]
        obtain ⟨s1, s2⟩ := ht
        have q1 := s2 .radius
        have q2 := s2 .radiusOfGyration2
        have q3 := s2 .loveNumber
        have q4 := s2 .inverseTidalQFactor
        simp only [Tables.column] at q1 q2 q3 q4
        cases kind <;> constructor <;> (try intro c; cases c) <;>
          simp [Tables.push, Tables.column, s1, q1, q2, q3, q4]
      · exact ht

theorem findIndices_shift (x : List ℝ) (t d : ℝ) :
    findIndices (x.map (· + d)) (t + d) = findIndices x t := by
  have e : (fun r => ltb (t + d) r) ∘ (· + d) = fun r => (ltb t r : Bool) := by
    funext r
    simp [ltb]
  simp only [findIndices, List.findIdx?_map, e, List.length_map, List.getElem?_map]
  cases List.findIdx? (fun r => ltb t r) x with
  | none =>
    cases x[x.length - 1]? with
    | none => rfl
    | some y => simp [ltb]
  | some i => rfl

theorem linearInterpolation_shift (x y : List ℝ) (t d : ℝ) :
    linearInterpolation (t + d) (x.map (· + d)) y = linearInterpolation t x y := by
  rw [linearInterpolation, linearInterpolation, findIndices_shift]
  cases findIndices x t with
  | none => rfl
  | some lr =>
    obtain ⟨l, r⟩ := lr
    by_cases h : l = r
    · simp only [h, if_true]
    · simp only [if_neg h, List.getElem?_map]
      cases x[l]? <;> cases x[r]? <;> cases y[l]? <;> cases y[r]? <;> simp

/-- **C90, age**: the quantities depend on the age of the body alone, that is, on initial time plus time of the
simulation: two runs with different initial times see the same body at the same age. -/
theorem C90_age (env : LoadEnv ℝ) (kind : Kind ℝ) (T1 L1 T2 L2 : ℝ) (e1 e2 : Evolver ℝ)
    (h1 : evolverNew env kind T1 L1 = .ok e1) (h2 : evolverNew env kind T2 L2 = .ok e2) (q : Quantity)
    (t1 t2 c : ℝ) (ht : t1 + T1 = t2 + T2) : tableValue e1 q t1 c = tableValue e2 q t2 c := by
  obtain ⟨f, rows, t0, t, a1, a2, a3, a4, _, _, rfl⟩ := evolverNew_ok env _ T1 L1 e1 h1
  obtain ⟨f', rows', t0', t', b1, b2, b3, b4, _, _, rfl⟩ := evolverNew_ok env _ T2 L2 e2 h2
  rw [a1] at b1
  injection b1 with b1
  subst b1
  rw [a2] at b2
  injection b2 with b2
  subst b2
  have e : t2 = t1 + (T1 - T2) := by linarith
  have key : Shifted (T1 - T2) t t' := by
    by_cases hl : ∃ m, kind = .leconte2011 m
    · obtain ⟨m, rfl⟩ := hl
      have s := readRecords_shift env (.leconte2011 m) T1 T2 0 (fun x rr => Or.inl (by simp [timeAndRadius])) rows 0
        _ _ t0 t0' ⟨by simp, fun _ => rfl⟩ a3 b3
      have e0 : t0'.time = t0.time := by simpa using s.time
      have e1 : t0'.radius = t0.radius := s.column .radius
      obtain ⟨column, aux, auxTime, auxRg2, time, radius, rg2, p1, p2, p3, p4, p5, rfl⟩ := addAux_ok env m T1 t0 t a4
      obtain ⟨column', aux', auxTime', auxRg2', time', radius', rg2', q1, q2, q3, q4, q5, rfl⟩ :=
        addAux_ok env m T2 t0' t' b4
      rw [p1] at q1
      injection q1 with q1
      subst q1
      rw [p2] at q2
      injection q2 with q2
      subst q2
      rw [p3] at q3
      simp only [Except.ok.injEq, Prod.mk.injEq] at q3
      obtain ⟨rfl, rfl⟩ := q3
      rw [e0, e1, p4] at q4
      simp only [Except.ok.injEq, Prod.mk.injEq] at q4
      obtain ⟨rfl, rfl⟩ := q4
      rw [p5] at q5
      injection q5 with q5
      subst q5
      refine ⟨?_, ?_⟩
      · simp only [List.map_map]
        congr 1
        funext x
        simp only [Function.comp]
        ring
      · intro c
        cases c
        · rfl
        · simp only [Tables.column]
          have := s.column .radiusOfGyration2
          simp only [Tables.column] at this
          rw [this]
        · exact s.column .loveNumber
        · exact s.column .inverseTidalQFactor
    · have hl : ∀ m, kind ≠ .leconte2011 m := fun m hm => hl ⟨m, hm⟩
      have g1 : t = t0 := by
        cases kind <;> first | exact absurd rfl (hl _) |
          (simp only [secondFile, Except.ok.injEq] at a4; exact a4.symm)
      have g2 : t' = t0' := by
        cases kind <;> first | exact absurd rfl (hl _) |
          (simp only [secondFile, Except.ok.injEq] at b4; exact b4.symm)
      subst g1 g2
      refine readRecords_shift env kind T1 T2 (T1 - T2) (fun x rr => ?_) rows 0 _ _ t t' ⟨by simp, fun _ => rfl⟩ a3 b3
      by_cases hk : kind = .nonEvolving
      · exact Or.inr hk
      · left
        have hk' : kind.type ≠ .nonEvolving := by
          cases kind <;> simp [Kind.type] at hk ⊢
        rw [timeAndRadius_ok env kind hk' hl f a1, timeAndRadius_ok env kind hk' hl f a1]
        ext
        · simp only; ring
        · rfl
  unfold tableValue
  simp only
  split
  · have hc := key.column q
    have : (Evolver.column (⟨kind.type, t'.time, t'.radius, t'.radiusOfGyration2, t'.loveNumber,
        t'.inverseTidalQFactor, 0⟩ : Evolver ℝ) q) = (Evolver.column (⟨kind.type, t.time, t.radius,
        t.radiusOfGyration2, t.loveNumber, t.inverseTidalQFactor, 0⟩ : Evolver ℝ) q) := by
      cases q <;> exact hc
    rw [this, key.time, e, linearInterpolation_shift]
  · rfl

/-! ## C91: records that cannot be read -/

section Any
variable {F : Type} [Add F] [Sub F] [Mul F] [Div F] [FOps F] [FPow F]

/-- A record whose unreadable time is replaced by -1. -/
def fillTime (row : List (Option F)) : List (Option F) :=
  match row with
  | none :: rest => some (lit (-1)) :: rest
  | row => row

theorem fillTime_get (row : List (Option F)) (i : Nat) : (fillTime row)[i + 1]? = row[i + 1]? := by
  unfold fillTime
  split <;> simp

theorem readRecords_fill (env : LoadEnv F) (kind : Kind F) (T : F) (rows : List (List (Option F))) (i : Nat)
    (t : Tables F) :
    readRecords env kind T i (rows.map fillTime) t = readRecords env kind T i rows t := by
  induction rows generalizing i t with
  | nil => rfl
  | cons row rows ih =>
    have e0 : numberOrMinusOne (fillTime row) = numberOrMinusOne row := by
      cases row with
      | nil => rfl
      | cons a l => cases a <;> rfl
    have en : ∀ j, number (fillTime row) (j + 1) = number row (j + 1) := by
      intro j
      simp only [number, fillTime_get]
    have e1 : rawRadiusOf kind (fillTime row) = rawRadiusOf kind row := by
      cases kind <;> first | rfl | simp only [rawRadiusOf, en]
    have e2 : radiusOfGyration2Of kind (fillTime row) = radiusOfGyration2Of kind row := by
      cases kind <;> first | rfl | simp only [radiusOfGyration2Of, en]
    have e3 : loveNumberOf kind (fillTime row) = loveNumberOf kind row := by
      cases kind <;> first | rfl | simp only [loveNumberOf, en]
    have e4 : inverseTidalQFactorOf kind (fillTime row) = inverseTidalQFactorOf kind row := by
      cases kind <;> (try rename_i b; cases b) <;> first | rfl |
        simp only [inverseTidalQFactorOf, en]
    rw [List.map_cons, readRecords, readRecords, e0, e1, e2, e3, e4]
    simp only [ih]

theorem tableFile_ne_aux (kind : Kind F) : tableFile kind ≠ .ok "input/Leconte_2011/rg2BD.dat" := by
  have step : ∀ {b : Bool} {a x : String} {r : Except LoadPanic String}, a ≠ x → r ≠ .ok x →
      (if b = true then .ok a else r) ≠ .ok x := by
    intro b a x r h1 h2
    cases b
    · simpa using h2
    · simpa using h1
  cases kind <;> simp only [tableFile, galletFile, baraffe2015File, leconteFile, baraffe1998File,
    bolmontMathisFile] <;> repeat first | refine step (by simp) ?_ | simp

theorem readRecords_files (env : LoadEnv F) (files : String → Option (List (List (Option F)))) (kind : Kind F)
    (T : F) (rows : List (List (Option F))) (i : Nat) (t : Tables F) :
    readRecords { env with files := files } kind T i rows t = readRecords env kind T i rows t := by
  induction rows generalizing i t with
  | nil => rfl
  | cons row rows ih =>
    have e : timeAndRadius { env with files := files } kind = timeAndRadius env kind := by
      funext a b c
      cases kind <;> rfl
    rw [readRecords, readRecords, e]
    simp only [ih]

theorem interpolateAux_files (env : LoadEnv F) (files : String → Option (List (List (Option F))))
    (a b ts : List F) : interpolateAux { env with files := files } a b ts = interpolateAux env a b ts := by
  induction ts with
  | nil => rfl
  | cons t ts ih => simp only [interpolateAux, ih]

/-- The main files with unreadable times replaced. -/
def filledFiles (env : LoadEnv F) (f : String) : Option (List (List (Option F))) :=
  if f = "input/Leconte_2011/rg2BD.dat" then env.files f
  else (env.files f).map (fun rows => rows.map fillTime)

/-- **C91 is violated**: no file is ever rejected because of a time that is not a number.  The result, accepted
or not, is that of the same file with each unreadable time replaced by "-1" (one year before the birth of the
body). -/
theorem C91_violated_time (env : LoadEnv F) (kind : Kind F) (T L : F) :
    evolverNew { env with files := filledFiles env } kind T L = evolverNew env kind T L := by
  unfold evolverNew
  cases hf : tableFile kind with
  | error e => rfl
  | ok f =>
    have hne : f ≠ "input/Leconte_2011/rg2BD.dat" := fun h => tableFile_ne_aux kind (h ▸ hf)
    simp only [bind, Except.bind, filledFiles, if_neg hne]
    cases env.files f with
    | none => rfl
    | some rows =>
      simp only [Option.map_some, readRecords_files, readRecords_fill]
      cases readRecords env kind T 0 rows ⟨[], [], [], [], []⟩ with
      | error e => rfl
      | ok t =>
        have : secondFile { env with files := filledFiles env } kind T t = secondFile env kind T t := by
          cases kind <;> first | rfl | simp only [secondFile, addAux, filledFiles, if_true, interpolateAux_files]
        simp only [this]

end Any

/-- **C91, the other fields**: in every accepted table, each quantity that is read from the main file is a number
in every record after the headers.  Missing: the times, see `C91_violated_time`. -/
theorem C91_fields_partial (env : LoadEnv ℝ) (kind : Kind ℝ) (T L : ℝ) (e : Evolver ℝ)
    (h : evolverNew env kind T L = .ok e) (f : String) (rows : List (List (Option ℝ)))
    (hf : tableFile kind = .ok f) (hr : env.files f = some rows) (q : Quantity)
    (hq : Tabulated kind.type q = true) (hl : kind.type = .leconte2011 → q = .radius) :
    ∀ row ∈ dataRows rows, ∃ raw, row[fieldOf kind.type q]? = some (some raw) := by
  have mem : ∀ {P : List (Option ℝ) → ℝ → Prop} {l : List (List (Option ℝ))} {vs : List ℝ},
      List.Forall₂ P l vs → ∀ row ∈ l, ∃ v, P row v := by
    intro P l vs hfa
    induction hfa with
    | nil => simp
    | cons hp _ ih =>
      intro row hrow
      rcases List.mem_cons.mp hrow with rfl | hrow
      · exact ⟨_, hp⟩
      · exact ih row hrow
  by_cases hk : kind.type = .leconte2011
  · have hk' : ∃ m, kind = .leconte2011 m := by
      cases kind <;> simp [Kind.type] at hk ⊢
    obtain ⟨m, rfl⟩ := hk'
    obtain ⟨f', rows', t0, t, g1, g2, g3, _⟩ := evolverNew_ok env _ T L e h
    rw [hf] at g1
    injection g1 with g1
    subst g1
    rw [hr] at g2
    injection g2 with g2
    subst g2
    obtain ⟨_, _, col, _, g4⟩ := readRecords_leconte env m T _ 0 _ _ (readRecords_zero env _ T rows _ _ g3)
    intro row hrow
    obtain ⟨v, raw, h1, _⟩ := mem g4 row hrow
    rw [hl hk]
    exact ⟨raw, h1⟩
  · have hk' : ∀ m, kind ≠ .leconte2011 m := by
      rintro m rfl
      exact hk rfl
    obtain ⟨_, f', rows', g1, g2, _, g4⟩ := C90_rows env kind T L e h (tabulated_evolving hq) hk'
    rw [hf] at g1
    injection g1 with g1
    subst g1
    rw [hr] at g2
    injection g2 with g2
    subst g2
    intro row hrow
    obtain ⟨v, raw, h1, _⟩ := mem (g4 q hq) row hrow
    exact ⟨raw, h1⟩

/-! ## Examples -/

/-- Jupiter, with column headers and one unreadable time; a brown dwarf of 0.01 solar masses with its auxiliary
file. -/
noncomputable def demoEnv : LoadEnv ℝ where
  files f :=
    if f = "input/Leconte_Chabrier_2013/Jupiter.dat" then
      some [[none, none], [some 0, some 70, some 0.5, some 0.25], [none, some 60, some 0.5, some 0.25],
        [some 10, some 50, some 0.5, some 0.25]]
    else if f = "input/Leconte_2011/mass_10.0000.dat" then
      some [[some 1, some 4], [some 3, some 2], [some 4.5, some 1], [some 9, some 1]]
    else if f = "input/Leconte_2011/rg2BD.dat" then some [[some 2, some 0.1], [some 5, some 0.4]]
    else none
  rSun := 0.005
  m2au := 2
  halfUp7 x := x

theorem demo_files_jupiter : demoEnv.files "input/Leconte_Chabrier_2013/Jupiter.dat" =
    some [[none, none], [some 0, some 70, some 0.5, some 0.25], [none, some 60, some 0.5, some 0.25],
        [some 10, some 50, some 0.5, some 0.25]] := by
  simp [demoEnv]

theorem demo_files_dwarf : demoEnv.files "input/Leconte_2011/mass_10.0000.dat" =
    some [[some 1, some 4], [some 3, some 2], [some 4.5, some 1], [some 9, some 1]] := by
  simp [demoEnv]

theorem demo_files_aux : demoEnv.files "input/Leconte_2011/rg2BD.dat" =
    some [[some 2, some 0.1], [some 5, some 0.4]] := by
  simp [demoEnv]

theorem demo_rSun : demoEnv.rSun = 0.005 := rfl
theorem demo_m2au : demoEnv.m2au = 2 := rfl
theorem demo_halfUp7 (x : ℝ) : demoEnv.halfUp7 x = x := rfl

/-- Accepted, although the second time is not a number: it becomes one year before the birth. -/
theorem demo_jupiter : evolverNew demoEnv (.leconteChabrier2013 false) 730.5 1000 =
    .ok ⟨.leconteChabrier2013 false, [-730.5, -1095.75, 2922], [140, 120, 100], [0.25, 0.25, 0.25],
      [0.5, 0.5, 0.5], [], 0⟩ := by
  have h : readRecords demoEnv (.leconteChabrier2013 false) 730.5 0 [[none, none],
      [some 0, some 70, some 0.5, some 0.25], [none, some 60, some 0.5, some 0.25],
      [some 10, some 50, some 0.5, some 0.25]] ⟨[], [], [], [], []⟩ =
      .ok ⟨[-730.5, -1095.75, 2922], [140, 120, 100], [0.25, 0.25, 0.25], [0.5, 0.5, 0.5], []⟩ := by
    rw [readRecords_cons]
    refine ⟨-1, by simp [numberOrMinusOne], Or.inl ⟨by simp, ?_⟩⟩
    rw [readRecords_cons]
    refine ⟨0, rfl, Or.inr ⟨rfl, 70, 0.25, 0.5, 0, rfl, rfl, rfl, by simp [inverseTidalQFactorOf], ?_⟩⟩
    rw [readRecords_cons]
    refine ⟨-1, by simp [numberOrMinusOne], Or.inr ⟨rfl, 60, 0.25, 0.5, 0, rfl, rfl, rfl,
      by simp [inverseTidalQFactorOf], ?_⟩⟩
    rw [readRecords_cons]
    refine ⟨10, rfl, Or.inr ⟨rfl, 50, 0.25, 0.5, 0, rfl, rfl, rfl, by simp [inverseTidalQFactorOf], ?_⟩⟩
    simp only [readRecords, timeAndRadius, Tables.push, demo_m2au, lit_real]
    norm_num
  simp only [evolverNew, tableFile, bind, Except.bind, demo_files_jupiter, h, secondFile, startsLate, endsEarly,
    FOps.ltb, FOps.lit, Kind.type]
  norm_num

/-- Restricted to the ages from 2 to 5 years. -/
theorem demo_dwarf : evolverNew demoEnv (.leconte2011 0.01) 1461 100 =
    .ok ⟨.leconte2011, [-365.25, 182.625], [0.01, 0.005], [0.2, 0.35], [], [], 0⟩ := by
  have h : readRecords demoEnv (.leconte2011 0.01) 1461 0
      [[some 1, some 4], [some 3, some 2], [some 4.5, some 1], [some 9, some 1]] ⟨[], [], [], [], []⟩ =
      .ok ⟨[1, 3, 4.5, 9], [0.02, 0.01, 0.005, 0.005], [], [], []⟩ := by
    simp only [readRecords, numberOrMinusOne, number, rawRadiusOf, radiusOfGyration2Of, loveNumberOf,
      inverseTidalQFactorOf, timeAndRadius, Tables.push, bind, Except.bind, demo_rSun, FOps.ltb, FOps.lit]
    norm_num
  have hf : tableFile (.leconte2011 (0.01 : ℝ)) = .ok "input/Leconte_2011/mass_10.0000.dat" :=
    (C89_leconte _ _).mpr ⟨("10", 0.010), by simp [leconteGrid], by norm_num, rfl⟩
  have hc : auxColumn (0.01 : ℝ) = .ok 1 :=
    (C89_leconte_column _ _).mpr ⟨(("10", 0.010), 0), by simp [leconteGrid], by norm_num, rfl⟩
  have hr : readAux 1 [[some (2 : ℝ), some 0.1], [some 5, some 0.4]] = .ok ([2, 5], [0.1, 0.4]) := rfl
  have hx : restrictRange [(2 : ℝ), 5] [1, 3, 4.5, 9] [0.02, 0.01, 0.005, 0.005] =
      .ok ([3, 4.5], [0.01, 0.005]) := by
    norm_num [restrictRange, dropBefore, cutAfter, List.findIdx?_cons, FOps.leb, FOps.ltb]
  have hi : interpolateAux demoEnv [(2 : ℝ), 5] [0.1, 0.4] [3, 4.5] = .ok [0.2, 0.35] := by
    norm_num [interpolateAux, linearInterpolation, findIndices, List.findIdx?_cons, FOps.ltb, FOps.lit, bind,
      Except.bind, demo_halfUp7]
  simp only [evolverNew, hf, bind, Except.bind, demo_files_dwarf, h, secondFile, addAux, hc, demo_files_aux, hr, hx,
    hi, startsLate, endsEarly, FOps.ltb, FOps.lit, Kind.type]
  norm_num

/-- C88, C90 and C91 apply to them. -/
example : ∃ vs e', queries (⟨.leconte2011, [-365.25, 182.625], [0.01, 0.005], [0.2, 0.35], [], [], 0⟩ : Evolver ℝ)
    [(.radius, 0, 0), (.radiusOfGyration2, 50, 0), (.radius, 100, 0)] = some (vs, e') := by
  obtain ⟨vs, e', h, _⟩ := C88_no_extrapolation demoEnv _ _ _ _ demo_dwarf (by simp)
    [(.radius, 0, 0), (.radiusOfGyration2, 50, 0), (.radius, 100, 0)] (by norm_num) (by norm_num)
  exact ⟨vs, e', h⟩

example : ∀ x ∈ ([-365.25, 182.625] : List ℝ), 2 ≤ (x + 1461) / 365.25 ∧ (x + 1461) / 365.25 ≤ 5 :=
  C90_leconte_range_partial demoEnv _ _ _ _ demo_dwarf _
    ((C89_leconte _ _).mpr ⟨("10", 0.010), by simp [leconteGrid], by norm_num, rfl⟩) _ _ demo_files_dwarf
    demo_files_aux [some 2, some 0.1] [some 5, some 0.4] 2 5 rfl rfl rfl rfl
    (by norm_num [dataRows, timeField])
    ⟨[some 3, some 2], by norm_num [dataRows, timeField], by norm_num [timeField]⟩

example : ∃ e, evolverNew { demoEnv with files := filledFiles demoEnv } (.leconteChabrier2013 false) 730.5 1000 =
    .ok e ∧ e.time = [-730.5, -1095.75, 2922] :=
  ⟨_, (C91_violated_time demoEnv _ _ _).trans demo_jupiter, rfl⟩

end Posidonius.Evolution
