import Verif.Model.Timeline
import Verif.Props.Resonances

/-! # C135, C136: resonances in the course of time -/

namespace Posidonius.Analysis

/-! ## The list of one planet -/

/-- Two detections that belong together: the same resonance, not more than a window apart. -/
def Linked (x y : Detection) : Prop := x.kind = y.kind ∧ y.instant ≤ x.instant + 15

instance : DecidableRel Linked := fun x y => inferInstanceAs (Decidable (_ ∧ _))

/-- `e` stands for the detections `r`: from the first to the last of them, with kind, partner and rank of the first. -/
def IsEntry (r : List Detection) (e : Entry) : Prop :=
  ∃ x y, r.head? = some x ∧ r.getLast? = some y ∧ e = ⟨x.kind, x.instant, y.instant, x.partner, x.rank⟩

/-- The runs that are kept: those of more than one detection, and the last. -/
def kept (runs : List (List Detection)) : List (List Detection) :=
  runs.dropLast.filter (fun r => decide (1 < r.length)) ++ runs.getLast?.toList

/-- `runs` are the longest runs of detections that belong together. -/
structure Runs (ds : List Detection) (runs : List (List Detection)) : Prop where
  flatten : runs.flatten = ds
  chain : ∀ r ∈ runs, r ≠ [] ∧ r.IsChain Linked
  maximal : runs.IsChain fun r s => ∀ x ∈ r.getLast?, ∀ y ∈ s.head?, ¬ Linked x y

theorem chain_kind {r : List Detection} (h : r.IsChain Linked) {x y : Detection} (hx : r.head? = some x) (hy : y ∈ r) :
    y.kind = x.kind := by
  cases r with
  | nil => simp at hx
  | cons a l =>
    simp only [List.head?_cons, Option.some.injEq] at hx
    subst hx
    have h1 : (a :: l).IsChain fun p q : Detection => p.kind = q.kind := h.imp fun _ _ hl => hl.1
    have h2 : (a :: l).Pairwise fun p q : Detection => p.kind = q.kind := by
      haveI : Trans (fun p q : Detection => p.kind = q.kind) (fun p q : Detection => p.kind = q.kind)
          (fun p q : Detection => p.kind = q.kind) := ⟨fun h h' => h.trans h'⟩
      exact List.isChain_iff_pairwise.1 h1
    rcases List.mem_cons.1 hy with rfl | hm
    · rfl
    · exact ((List.pairwise_cons.1 h2).1 y hm).symm

theorem record_runs (ds : List Detection) (hs : ds.Pairwise fun x y => x.instant < y.instant) (h15 : ∀ x ∈ ds, 15 ≤ x.instant) :
    ∃ runs, Runs ds runs ∧ List.Forall₂ IsEntry (kept runs) (ds.foldl record []).reverse := by
  induction ds using List.reverseRecOn with
  | nil => exact ⟨[], ⟨rfl, by simp, by simp⟩, by simp [kept]⟩
  | append_singleton ds x ih =>
    rw [List.pairwise_append] at hs
    obtain ⟨hs1, -, hs2⟩ := hs
    obtain ⟨runs, ⟨hf, hc, hm⟩, hk⟩ := ih hs1 fun y hy => h15 y (by simp [hy])
    have hx15 : 15 ≤ x.instant := h15 x (by simp)
    rw [List.foldl_append, List.foldl_cons, List.foldl_nil]
    generalize ds.foldl record [] = t at hk
    rcases List.eq_nil_or_concat runs with rfl | ⟨R, r, rfl⟩
    · have : t = [] := by
        simp only [kept, List.dropLast_nil, List.filter_nil, List.getLast?_nil, Option.toList_none, List.append_nil,
          List.forall₂_nil_left_iff, List.reverse_eq_nil_iff] at hk
        exact hk
      subst this
      refine ⟨[[x]], ⟨by simpa using hf, by simp, by simp⟩, ?_⟩
      simp only [kept, List.dropLast_singleton, List.filter_nil, List.getLast?_singleton, Option.toList_some, List.nil_append,
        record, List.reverse_singleton, List.forall₂_cons, List.forall₂_nil_left_iff, and_true]
      exact ⟨x, x, rfl, rfl, rfl⟩
    · have hkept : kept (R ++ [r]) = R.filter (fun r => decide (1 < r.length)) ++ [r] := by simp [kept]
      rw [List.concat_eq_append] at *
      rw [hkept] at hk
      obtain ⟨e, rest, rfl⟩ : ∃ e rest, t = e :: rest := by
        cases t with
        | nil => simp at hk
        | cons e rest => exact ⟨e, rest, rfl⟩
      rw [List.reverse_cons] at hk
      have hlen : (R.filter (fun r => decide (1 < r.length))).length = rest.reverse.length := by
        have := hk.length_eq
        simp only [List.length_append, List.length_singleton] at this
        omega
      have hk1 : List.Forall₂ IsEntry (R.filter (fun r => decide (1 < r.length))) rest.reverse := by
        have := List.forall₂_take (n := rest.reverse.length) hk
        rwa [List.take_left' rfl, List.take_left' hlen] at this
      have hk2 : IsEntry r e := by
        have := List.forall₂_drop (n := rest.reverse.length) hk
        rw [List.drop_left' rfl, List.drop_left' hlen] at this
        simpa using this
      obtain ⟨a, b, ha, hb, he⟩ := hk2
      obtain ⟨hr0, hrc⟩ := hc r (by simp)
      have hbr : b ∈ r := List.mem_of_getLast? hb
      have har : a ∈ r := List.mem_of_head? ha
      have hkind : b.kind = a.kind := chain_kind hrc ha hbr
      have hbx : b.instant < x.instant := hs2 b (by rw [← hf]; simp [hbr]) x (by simp)
      by_cases hl : Linked b x
      · -- the last run goes on
        refine ⟨R ++ [r ++ [x]], ⟨by rw [← hf]; simp, ?_, ?_⟩, ?_⟩
        · intro s hs
          rcases List.mem_append.1 hs with h | h
          · exact hc s (by simp [h])
          · rw [List.mem_singleton] at h
            subst h
            refine ⟨by simp, ?_⟩
            rw [List.isChain_append]
            refine ⟨hrc, by simp, ?_⟩
            intro y hy z hz
            rw [hb] at hy
            simp only [List.head?_cons, Option.mem_def, Option.some.injEq] at hy hz
            subst hy; subst hz
            exact hl
        · rw [List.isChain_append] at hm ⊢
          refine ⟨hm.1, by simp, ?_⟩
          intro s hs s' hs'
          simp only [List.head?_cons, Option.mem_def, Option.some.injEq] at hs'
          subst hs'
          intro y hy z hz
          refine hm.2.2 s hs r (by simp) y hy z ?_
          rw [List.head?_append_of_ne_nil _ hr0] at hz
          exact hz
        · have hcond : e.kind = x.kind ∧ x.instant - (window - 1) - 1 ≤ e.last := by
            rw [he]
            refine ⟨by rw [← hl.1, hkind], ?_⟩
            have := hl.2
            simp only [window]
            omega
          rw [record, if_pos hcond, List.reverse_cons]
          have : kept (R ++ [r ++ [x]]) = R.filter (fun r => decide (1 < r.length)) ++ [r ++ [x]] := by simp [kept]
          rw [this]
          refine List.rel_append hk1 ?_
          simp only [List.forall₂_cons, List.forall₂_nil_left_iff, and_true]
          refine ⟨a, x, ?_, by simp, ?_⟩
          · rw [List.head?_append_of_ne_nil _ hr0, ha]
          · rw [he]
      · -- a new run
        have hcond : ¬ (e.kind = x.kind ∧ x.instant - (window - 1) - 1 ≤ e.last) := by
          rintro ⟨h1, h2⟩
          rw [he] at h1 h2
          refine hl ⟨by rw [hkind]; exact h1, ?_⟩
          simp only [window] at h2
          omega
        refine ⟨R ++ [r] ++ [[x]], ⟨by simp [← hf], ?_, ?_⟩, ?_⟩
        · intro s hs
          rcases List.mem_append.1 hs with h | h
          · exact hc s h
          · rw [List.mem_singleton] at h
            subst h
            simp
        · rw [List.isChain_append]
          refine ⟨hm, by simp, ?_⟩
          intro s hs s' hs'
          simp only [List.getLast?_append, List.getLast?_singleton, Option.some_or, List.head?_cons, Option.mem_def,
            Option.some.injEq] at hs hs'
          subst hs; subst hs'
          intro y hy z hz
          rw [hb] at hy
          simp only [List.head?_cons, Option.mem_def, Option.some.injEq] at hy hz
          subst hy; subst hz
          exact hl
        · have h2 : kept (R ++ [r] ++ [[x]]) =
              R.filter (fun r => decide (1 < r.length)) ++ [r].filter (fun r => decide (1 < r.length)) ++ [[x]] := by
            simp only [kept, List.dropLast_concat, List.filter_append, List.getLast?_append, List.getLast?_singleton,
              Option.some_or, Option.toList_some]
          rw [h2]
          have hnew : IsEntry [x] ⟨x.kind, x.instant, x.instant, x.partner, x.rank⟩ := ⟨x, x, rfl, rfl, rfl⟩
          have hsingle : e.first = e.last ↔ ¬ 1 < r.length := by
            rw [he]
            cases r with
            | nil => exact absurd rfl hr0
            | cons c l =>
              simp only [List.head?_cons, Option.some.injEq] at ha
              subst ha
              cases l with
              | nil =>
                simp only [List.getLast?_singleton, Option.some.injEq] at hb
                subst hb
                simp
              | cons d l =>
                have hsub : ∀ y ∈ d :: l, c.instant < y.instant := by
                  have hp : (c :: d :: l).Pairwise fun x y => x.instant < y.instant := by
                    rw [← hf, List.flatten_append] at hs1
                    have := (List.pairwise_append.1 hs1).2.1
                    simpa using this
                  exact (List.pairwise_cons.1 hp).1
                have hbm : b ∈ d :: l := by
                  rw [List.getLast?_cons_cons] at hb
                  exact List.mem_of_getLast? hb
                have := hsub b hbm
                simp only [List.length_cons]
                omega
          simp only [record, hcond, if_false]
          by_cases hs : e.first = e.last
          · have := hsingle.1 hs
            simp only [hs, if_true, List.filter_cons, this, decide_false, Bool.false_eq_true, if_false, List.filter_nil,
              List.append_nil, List.reverse_cons]
            exact List.rel_append hk1 (by simpa using hnew)
          · have h3 : 1 < r.length := by
              by_contra hcon
              exact hs (hsingle.2 hcon)
            simp only [hs, if_false, List.filter_cons, h3, decide_true, if_true, List.filter_nil, List.reverse_cons]
            refine List.rel_append (List.rel_append hk1 ?_) (by simpa using hnew)
            simp only [List.forall₂_cons, List.forall₂_nil_left_iff, and_true]
            exact ⟨a, b, ha, hb, he⟩

/-! ## Detections of one planet -/

/-- The detections of a planet, in the order of time. -/
def detectionsOf (p : Nat) (ds : List (Nat × Detection)) : List Detection :=
  (ds.filter fun d => d.1 == p).map Prod.snd

theorem timelines_eq (ds : List (Nat × Detection)) (p : Nat) : timelines ds p = (detectionsOf p ds).foldl record [] := by
  induction ds using List.reverseRecOn with
  | nil => rfl
  | append_singleton ds d ih =>
    rw [timelines, List.foldl_append, List.foldl_cons, List.foldl_nil, ← timelines]
    simp only [detectionsOf, List.filter_append, List.map_append, List.foldl_append] at ih ⊢
    by_cases h : d.1 = p
    · subst h
      simp [ih]
    · have h' : ¬ p = d.1 := fun h2 => h h2.symm
      simp [Function.update_of_ne h', h, ih]

/-! ## Sorting -/

theorem mem_zipIdx {A : Type} {d : List A} {x : A × Nat} (h : x ∈ d.zipIdx) : d[x.2]? = some x.1 := by
  obtain ⟨a, i⟩ := x
  have := List.mem_zipIdx_iff_getElem?.1 h
  exact this

theorem argsort_perm {A : Type} (le : A → A → Bool) (d : List A) : (argsort le d).Perm (List.range d.length) := by
  have h1 := ((List.perm_insertionSort (fun x y : A × Nat => le x.1 y.1 = true) d.zipIdx).map Prod.snd)
  refine h1.trans ?_
  rw [List.zipIdx_map_snd, List.range_eq_range']

theorem argsort_sorted {A : Type} (le : A → A → Bool) (ht : ∀ x y, le x y = true ∨ le y x = true)
    (htr : ∀ x y z, le x y = true → le y z = true → le x z = true) (d : List A) :
    (argsort le d).Pairwise fun i j => ∃ x y, d[i]? = some x ∧ d[j]? = some y ∧ le x y = true := by
  haveI : Std.Total (fun x y : A × Nat => le x.1 y.1 = true) := ⟨fun x y => ht _ _⟩
  haveI : IsTrans (A × Nat) (fun x y : A × Nat => le x.1 y.1 = true) := ⟨fun x y z => htr _ _ _⟩
  have h1 := List.pairwise_insertionSort (fun x y : A × Nat => le x.1 y.1 = true) d.zipIdx
  rw [argsort, List.pairwise_map]
  refine h1.imp_of_mem ?_
  intro x y hx hy h
  rw [List.mem_insertionSort] at hx hy
  exact ⟨x.1, y.1, mem_zipIdx hx, mem_zipIdx hy, h⟩

theorem argsort_nodup {A : Type} (le : A → A → Bool) (d : List A) : (argsort le d).Nodup :=
  (argsort_perm le d).nodup_iff.2 List.nodup_range

theorem mem_argsort {A : Type} {le : A → A → Bool} {d : List A} {i : Nat} : i ∈ argsort le d ↔ i < d.length := by
  rw [(argsort_perm le d).mem_iff, List.mem_range]

/-- Sorting the result again gives the inverse permutation. -/
theorem argsort_argsort {A : Type} (le : A → A → Bool) (d : List A) {i : Nat} (hi : i < d.length) :
    ∃ k, (argsort (fun i j : Nat => decide (i ≤ j)) (argsort le d))[i]? = some k ∧ (argsort le d)[k]? = some i := by
  set σ := argsort le d with hσ
  set τ := argsort (fun i j : Nat => decide (i ≤ j)) σ with hτ
  have hlσ : σ.length = d.length := by rw [(argsort_perm le d).length_eq, List.length_range]
  have hlτ : τ.length = d.length := by rw [(argsort_perm _ σ).length_eq, List.length_range, hlσ]
  have hperm : (τ.map fun k => σ.getD k 0).Perm (List.range d.length) := by
    have h1 := (argsort_perm (fun i j : Nat => decide (i ≤ j)) σ).map fun k => σ.getD k 0
    have h2 : (List.range σ.length).map (fun k => σ.getD k 0) = σ := by
      apply List.ext_getElem?
      intro k
      rw [List.getElem?_map]
      by_cases hk : k < σ.length
      · simp [hk]
      · simp [not_lt.1 hk]
    rw [h2] at h1
    exact h1.trans (argsort_perm le d)
  have hsort : (τ.map fun k => σ.getD k 0).Pairwise (· ≤ ·) := by
    rw [List.pairwise_map]
    refine (argsort_sorted (fun i j : Nat => decide (i ≤ j)) (fun x y => by simp [Nat.le_total])
      (fun x y z => by simpa using Nat.le_trans) σ).imp ?_
    rintro i j ⟨x, y, hx, hy, hxy⟩
    simpa [List.getD_eq_getElem?_getD, hx, hy] using hxy
  have heq : (τ.map fun k => σ.getD k 0) = List.range d.length :=
    hperm.eq_of_pairwise (fun a b _ _ h1 h2 => Nat.le_antisymm h1 h2) hsort (List.pairwise_le_range)
  have hk : i < τ.length := by omega
  refine ⟨τ[i], List.getElem?_eq_getElem hk, ?_⟩
  have h3 := congrArg (fun l => l[i]?) heq
  simp only [List.getElem?_map, List.getElem?_eq_getElem hk, Option.map_some, List.getElem?_range hi, Option.some.injEq] at h3
  have h4 : τ[i] < σ.length := mem_argsort.1 (List.getElem_mem hk)
  rw [List.getD_eq_getElem?_getD, List.getElem?_eq_getElem h4, Option.getD_some] at h3
  rw [List.getElem?_eq_getElem h4, h3]

theorem filter_range {A : Type} (d : List A) (q : A → Bool) :
    ((List.range d.length).filter fun j => d[j]?.any q).length = (d.filter q).length := by
  induction d using List.reverseRecOn with
  | nil => rfl
  | append_singleton d x ih =>
    rw [List.length_append, List.length_singleton, List.range_succ, List.filter_append, List.filter_append,
      List.length_append, List.length_append]
    congr 1
    · rw [← ih]
      congr 1
      refine List.filter_congr ?_
      intro j hj
      rw [List.getElem?_append_left (List.mem_range.1 hj)]
    · simp [List.filter_cons]
      split <;> rfl

/-- **C136**: the place of a planet is one more than the number of planets closer to the star, whenever no two are at the same
distance. -/
theorem C136_place (d : List ℝ) (hd : d.Nodup) (i : Nat) (x : ℝ) (hx : d[i]? = some x) :
    (ordering leb d)[i]? = some (1 + (d.filter fun y => decide (y < x)).length) := by
  obtain ⟨hi, -⟩ := List.getElem?_eq_some_iff.1 hx
  obtain ⟨k, hk, hσ⟩ := argsort_argsort (leb (F := ℝ)) d hi
  rw [ordering, List.getElem?_map, hk, Option.map_some]
  congr 2
  rw [← filter_range]
  have hsorted := argsort_sorted (leb (F := ℝ)) (fun x y => by simpa using le_total x y)
    (fun x y z => by simpa using fun h1 h2 => le_trans h1 h2) d
  have hperm := (argsort_perm (leb (F := ℝ)) d).filter (fun j => d[j]?.any fun y => decide (y < x))
  rw [← hperm.length_eq]
  have hnd := argsort_nodup (leb (F := ℝ)) d
  generalize argsort (leb (F := ℝ)) d = σ at hσ hsorted hnd
  obtain ⟨hkl, hke⟩ := List.getElem?_eq_some_iff.1 hσ
  have hsplit : σ = σ.take k ++ i :: σ.drop (k + 1) := by
    rw [← hke, List.getElem_cons_drop hkl, List.take_append_drop]
  have hlen : (σ.take k).length = k := by rw [List.length_take]; omega
  rw [hsplit] at hsorted hnd ⊢
  rw [List.pairwise_append, List.pairwise_cons] at hsorted
  obtain ⟨-, ⟨h1, -⟩, h2⟩ := hsorted
  rw [List.filter_append, List.filter_eq_self.2, List.filter_eq_nil_iff.2, List.append_nil, hlen]
  · intro j hj
    rcases List.mem_cons.1 hj with rfl | hj
    · simp [hx]
    · obtain ⟨y, z, hy, hz, hyz⟩ := h1 j hj
      rw [hx] at hy
      cases hy
      simp only [leb_real] at hyz
      simp [hz, hyz]
  · intro j hj
    obtain ⟨y, z, hy, hz, hyz⟩ := h2 j hj i (by simp)
    rw [hx] at hz
    cases hz
    have hne : y ≠ x := by
      rintro rfl
      have hji : j = i := by
        obtain ⟨hj', e1⟩ := List.getElem?_eq_some_iff.1 hy
        exact (List.Nodup.getElem_inj_iff hd).1 (e1.trans (List.getElem?_eq_some_iff.1 hx).2.symm)
      subst hji
      rw [List.nodup_append] at hnd
      exact hnd.2.2 j hj j (by simp) rfl
    simp only [leb_real] at hyz
    simp [hy, lt_of_le_of_ne hyz hne]

/-- **C136**: each place is taken by one planet, also if some are at the same distance. -/
theorem C136_once (d : List ℝ) : (ordering leb d).Perm (List.range' 1 d.length) := by
  have h := (argsort_perm (fun i j : Nat => decide (i ≤ j)) (argsort (leb (F := ℝ)) d)).map (1 + ·)
  rw [(argsort_perm (leb (F := ℝ)) d).length_eq, List.length_range] at h
  refine h.trans ?_
  rw [List.range_eq_range', List.map_add_range']

/-- Planets at 3, 1 and 2 are the third, the first and the second. -/
example : ordering leb ([3, 1, 2] : List ℝ) = [3, 1, 2] := by
  have hd : ([3, 1, 2] : List ℝ).Nodup := by norm_num
  have h0 := C136_place [3, 1, 2] hd 0 3 rfl
  have h1 := C136_place [3, 1, 2] hd 1 1 rfl
  have h2 := C136_place [3, 1, 2] hd 2 2 rfl
  have hl := (C136_once [3, 1, 2]).length_eq
  norm_num [List.filter_cons] at h0 h1 h2 hl
  apply List.ext_getElem?
  intro i
  match i with
  | 0 => exact h0
  | 1 => exact h1
  | 2 => exact h2
  | i + 3 => rw [List.getElem?_eq_none (by omega)]; simp

/-! ## The detections at one instant -/

/-- The planets that reach the sample `k`. -/
def present (planets : List (List (Sample ℝ))) (k : Nat) : List Nat :=
  (List.range planets.length).filter fun p => decide (k < (planets.getD p []).length)

/-- The semi-major axis of a planet at the sample `k`. -/
def axisAt (planets : List (List (Sample ℝ))) (k p : Nat) : ℝ := (((planets.getD p [])[k]?).map Sample.a).getD 0

theorem mem_present {planets : List (List (Sample ℝ))} {k p : Nat} :
    p ∈ present planets k ↔ k < (planets.getD p []).length := by
  rw [present, List.mem_filter, List.mem_range, decide_eq_true_eq]
  constructor
  · exact fun h => h.2
  · intro h
    refine ⟨?_, h⟩
    by_contra hp
    simp [List.getD_eq_getElem?_getD, List.getElem?_eq_none (not_lt.1 hp)] at h

theorem present_nodup (planets : List (List (Sample ℝ))) (k : Nat) : (present planets k).Nodup := List.nodup_range.filter _

theorem lastSamples_getElem (series : List (Sample ℝ)) {k i : Nat} (hi : i < 15) :
    (lastSamples series k)[i]? = series[k - 14 + i]? := by
  rw [lastSamples, List.getElem?_take_of_lt (by simpa [window] using hi), List.getElem?_drop]
  rfl

theorem lastSamples_length (series : List (Sample ℝ)) {k : Nat} (hk : 14 ≤ k) (h : k < series.length) :
    (lastSamples series k).length = 15 := by
  simp only [lastSamples, window, List.length_take, List.length_drop]
  omega

theorem lastSamples_last (series : List (Sample ℝ)) {k : Nat} (hk : 14 ≤ k) (h : k < series.length) :
    (lastSamples series k).getLast? = series[k]? := by
  rw [List.getLast?_eq_getElem?, lastSamples_length series hk h, lastSamples_getElem series (by norm_num)]
  congr 1
  omega

theorem ends_eq (planets : List (List (Sample ℝ))) {k : Nat} (hk : 14 ≤ k) (l : List Nat) (hl : ∀ p ∈ l, k < (planets.getD p []).length) :
    ((l.map fun p => lastSamples (planets.getD p []) k).filterMap fun w => w.getLast?.map Sample.a) = l.map (axisAt planets k) := by
  induction l with
  | nil => rfl
  | cons p l ih =>
    have h := hl p (by simp)
    rw [List.map_cons, List.filterMap_cons, lastSamples_last _ hk h, ih fun q hq => hl q (by simp [hq])]
    simp only [axisAt, List.getElem?_eq_getElem h, Option.map_some, Option.getD_some, List.map_cons]

/-- The detections at one instant, in terms of the planets. -/
theorem detectAt_eq (proposals : ℝ → List ℚ) (planets : List (List (Sample ℝ))) {k : Nat} (hk : 14 ≤ k) :
    detectAt proposals planets k =
      (let σ := argsort leb ((present planets k).map (axisAt planets k))
       (σ.zip σ.tail).filterMap fun x =>
        (findResonance proposals (lastSamples (planets.getD ((present planets k).getD x.1 0) []) k)
          (lastSamples (planets.getD ((present planets k).getD x.2 0) []) k)).map fun r =>
          ((present planets k).getD x.1 0, ⟨k, r, (present planets k).getD x.2 0,
            (ordering leb ((present planets k).map (axisAt planets k))).getD x.1 0⟩)) := by
  have he := ends_eq planets hk (present planets k) fun p hp => mem_present.1 hp
  have hw : ∀ i, i < (present planets k).length →
      ((present planets k).map fun p => lastSamples (planets.getD p []) k).getD i [] =
        lastSamples (planets.getD ((present planets k).getD i 0) []) k := by
    intro i hi
    simp [List.getD_eq_getElem?_getD, hi]
  have hd : detectAt proposals planets k = (let windows := (present planets k).map fun p => lastSamples (planets.getD p []) k
      let ends := windows.filterMap fun w => w.getLast?.map Sample.a
      let sorted := argsort leb ends
      let order := ordering leb ends
      (sorted.zip sorted.tail).filterMap fun (inner, outer) =>
        (findResonance proposals (windows.getD inner []) (windows.getD outer [])).map fun r =>
          ((present planets k).getD inner 0, ⟨k, r, (present planets k).getD outer 0, order.getD inner 0⟩)) := rfl
  rw [hd]
  simp only [he]
  refine List.filterMap_congr ?_
  rintro ⟨i, j⟩ hij
  have hi : i < (present planets k).length := by
    simpa using mem_argsort.1 (List.of_mem_zip hij).1
  have hj : j < (present planets k).length := by
    simpa using mem_argsort.1 (List.mem_of_mem_tail (List.of_mem_zip hij).2)
  rw [hw i hi, hw j hj]

theorem mem_zip_tail {A : Type} {l : List A} {x y : A} : (x, y) ∈ l.zip l.tail ↔ ∃ u v, l = u ++ x :: y :: v := by
  induction l with
  | nil => simp
  | cons a l ih =>
    cases l with
    | nil =>
      simp only [List.tail_cons, List.zip_nil_right, List.not_mem_nil, false_iff, not_exists]
      intro u v h
      have := congrArg List.length h
      simp at this
      omega
    | cons b l =>
      rw [List.tail_cons, List.zip_cons_cons, List.mem_cons]
      rw [List.tail_cons] at ih
      rw [ih]
      constructor
      · rintro (h | ⟨u, v, h⟩)
        · cases h
          exact ⟨[], l, rfl⟩
        · exact ⟨a :: u, v, by rw [h]; rfl⟩
      · rintro ⟨u, v, h⟩
        cases u with
        | nil =>
          simp only [List.nil_append, List.cons.injEq] at h
          left
          rw [h.1, h.2.1]
        | cons c u =>
          simp only [List.cons_append, List.cons.injEq] at h
          exact Or.inr ⟨u, v, h.2⟩

/-- The planets `p` and `o` reach the sample `k`, and none of the others that do lies between them. -/
structure Neighbours (planets : List (List (Sample ℝ))) (k p o : Nat) : Prop where
  inner : k < (planets.getD p []).length
  outer : k < (planets.getD o []).length
  differ : p ≠ o
  order : axisAt planets k p ≤ axisAt planets k o
  between : ∀ q, k < (planets.getD q []).length → ¬ (axisAt planets k p < axisAt planets k q ∧ axisAt planets k q < axisAt planets k o)

theorem leb_total (x y : ℝ) : leb x y = true ∨ leb y x = true := by simpa using le_total x y

theorem leb_trans (x y z : ℝ) : leb x y = true → leb y z = true → leb x z = true := by simpa using fun h1 h2 => le_trans h1 h2

theorem axis_getElem {planets : List (List (Sample ℝ))} {k i : Nat} {x : ℝ}
    (h : ((present planets k).map (axisAt planets k))[i]? = some x) : axisAt planets k ((present planets k).getD i 0) = x := by
  rw [List.getElem?_map, Option.map_eq_some_iff] at h
  obtain ⟨p, hp, rfl⟩ := h
  rw [List.getD_eq_getElem?_getD, hp, Option.getD_some]

/-- **C135**: what is found at an instant is a resonance of two neighbours. -/
theorem C135_found (proposals : ℝ → List ℚ) (planets : List (List (Sample ℝ))) (k p : Nat) (hk : 14 ≤ k) (d : Detection)
    (h : (p, d) ∈ detectAt proposals planets k) :
    d.instant = k ∧ Neighbours planets k p d.partner ∧
      findResonance proposals (lastSamples (planets.getD p []) k) (lastSamples (planets.getD d.partner []) k) = some d.kind := by
  rw [detectAt_eq proposals planets hk] at h
  simp only [List.mem_filterMap, Option.map_eq_some_iff, Prod.mk.injEq] at h
  obtain ⟨⟨i, j⟩, hij, r, hr, rfl, rfl⟩ := h
  obtain ⟨u, v, huv⟩ := mem_zip_tail.1 hij
  have hs := argsort_sorted leb leb_total leb_trans ((present planets k).map (axisAt planets k))
  have hnd := argsort_nodup leb ((present planets k).map (axisAt planets k))
  have hmem : ∀ q, q < (present planets k).length → q ∈ argsort leb ((present planets k).map (axisAt planets k)) := by
    intro q hq
    exact mem_argsort.2 (by simpa using hq)
  have hi : i < (present planets k).length := by
    simpa using mem_argsort.1 (List.of_mem_zip hij).1
  have hj : j < (present planets k).length := by
    simpa using mem_argsort.1 (List.mem_of_mem_tail (List.of_mem_zip hij).2)
  rw [huv] at hs hnd hmem
  rw [List.pairwise_append, List.pairwise_cons, List.pairwise_cons] at hs
  obtain ⟨-, ⟨h1, h2, -⟩, h3⟩ := hs
  have gi : (present planets k).getD i 0 = (present planets k)[i] := by simp [List.getD_eq_getElem?_getD, hi]
  have gj : (present planets k).getD j 0 = (present planets k)[j] := by simp [List.getD_eq_getElem?_getD, hj]
  refine ⟨rfl, ⟨?_, ?_, ?_, ?_, ?_⟩, hr⟩
  · rw [gi]; exact mem_present.1 (List.getElem_mem hi)
  · rw [gj]; exact mem_present.1 (List.getElem_mem hj)
  · rw [gi, gj]
    intro e
    have := (List.Nodup.getElem_inj_iff (present_nodup planets k)).1 e
    subst this
    simp [List.nodup_append] at hnd
  · obtain ⟨x, y, hx, hy, hxy⟩ := h1 j (by simp)
    rw [axis_getElem hx, axis_getElem hy]
    simpa using hxy
  · rintro q hq ⟨hq1, hq2⟩
    obtain ⟨m, hm, rfl⟩ := List.mem_iff_getElem.1 (mem_present.2 hq)
    have gm : (present planets k).getD m 0 = (present planets k)[m] := by simp [List.getD_eq_getElem?_getD, hm]
    have hmm := hmem m hm
    simp only [List.mem_append, List.mem_cons] at hmm
    rw [← gm] at hq1 hq2
    rcases hmm with hmu | rfl | rfl | hmv
    · obtain ⟨x, y, hx, hy, hxy⟩ := h3 m hmu i (by simp)
      rw [axis_getElem hx, axis_getElem hy] at hq1
      simp only [leb_real] at hxy
      linarith
    · exact lt_irrefl _ hq1
    · exact lt_irrefl _ hq2
    · obtain ⟨x, y, hx, hy, hxy⟩ := h2 m hmv
      rw [axis_getElem hx, axis_getElem hy] at hq2
      simp only [leb_real] at hxy
      linarith

/-- **C135**: and every resonance of two neighbours is found, with the place of the inner planet, if the distances differ. -/
theorem C135_complete (proposals : ℝ → List ℚ) (planets : List (List (Sample ℝ))) (k p o : Nat) (hk : 14 ≤ k)
    (hd : ((present planets k).map (axisAt planets k)).Nodup) (hn : Neighbours planets k p o) (r : ℚ)
    (hr : findResonance proposals (lastSamples (planets.getD p []) k) (lastSamples (planets.getD o []) k) = some r) :
    (p, (⟨k, r, o, 1 + ((present planets k).filter fun q => decide (axisAt planets k q < axisAt planets k p)).length⟩ : Detection)) ∈
      detectAt proposals planets k := by
  obtain ⟨i, hi, rfl⟩ := List.mem_iff_getElem.1 (mem_present.2 hn.inner)
  obtain ⟨j, hj, rfl⟩ := List.mem_iff_getElem.1 (mem_present.2 hn.outer)
  have g : ∀ i (h : i < (present planets k).length), (present planets k).getD i 0 = (present planets k)[i] := by
    intro i h; simp [List.getD_eq_getElem?_getD, h]
  have hstrict : axisAt planets k (present planets k)[i] < axisAt planets k (present planets k)[j] := by
    refine lt_of_le_of_ne hn.order fun e => hn.differ ?_
    exact List.inj_on_of_nodup_map hd (List.getElem_mem hi) (List.getElem_mem hj) e
  rw [detectAt_eq proposals planets hk]
  simp only [List.mem_filterMap, Option.map_eq_some_iff, Prod.mk.injEq]
  refine ⟨(i, j), ?_, r, by rw [g i hi, g j hj]; exact hr, g i hi, ?_⟩
  · rw [mem_zip_tail]
    have hs := argsort_sorted leb leb_total leb_trans ((present planets k).map (axisAt planets k))
    have hmem : ∀ q, q < (present planets k).length ↔ q ∈ argsort leb ((present planets k).map (axisAt planets k)) := by
      intro q
      rw [mem_argsort, List.length_map]
    have hnd := argsort_nodup leb ((present planets k).map (axisAt planets k))
    generalize argsort leb ((present planets k).map (axisAt planets k)) = σ at hs hmem hnd
    obtain ⟨u, v, rfl⟩ := List.append_of_mem ((hmem i).1 hi)
    rw [List.pairwise_append, List.pairwise_cons] at hs
    obtain ⟨-, ⟨h1, h2⟩, h3⟩ := hs
    have hjv : j ∈ v := by
      have := (hmem j).1 hj
      simp only [List.mem_append, List.mem_cons] at this
      rcases this with h | rfl | h
      · obtain ⟨x, y, hx, hy, hxy⟩ := h3 j h i (by simp)
        have ex := axis_getElem hx
        have ey := axis_getElem hy
        rw [g j hj] at ex
        rw [g i hi] at ey
        simp only [leb_real] at hxy
        linarith
      · exact absurd hstrict (lt_irrefl _)
      · exact h
    cases v with
    | nil => simp at hjv
    | cons m v =>
      have hm : m < (present planets k).length := (hmem m).2 (by simp)
      rcases List.mem_cons.1 hjv with rfl | hjv'
      · exact ⟨u, v, rfl⟩
      · exfalso
        obtain ⟨x, y, hx, hy, hxy⟩ := h1 m (by simp)
        obtain ⟨x', z, hx', hz, hmz⟩ := (List.pairwise_cons.1 h2).1 j hjv'
        have ex := axis_getElem hx
        have ey := axis_getElem hy
        have ez := axis_getElem hz
        rw [hy] at hx'
        cases hx'
        rw [g i hi] at ex
        rw [g m hm] at ey
        rw [g j hj] at ez
        simp only [leb_real] at hxy hmz
        have hinj : ∀ i' (hi' : i' < (present planets k).length), i' ≠ m →
            axisAt planets k (present planets k)[i'] ≠ axisAt planets k (present planets k)[m] := by
          intro i' hi' hne e
          exact hne ((List.Nodup.getElem_inj_iff (present_nodup planets k)).1
            (List.inj_on_of_nodup_map hd (List.getElem_mem hi') (List.getElem_mem hm) e))
        rw [List.nodup_append, List.nodup_cons, List.nodup_cons] at hnd
        have hmi : i ≠ m := by
          rintro rfl
          exact hnd.2.1.1 (by simp)
        have hmj : j ≠ m := by
          rintro rfl
          exact hnd.2.1.2.1 hjv'
        refine hn.between _ (mem_present.1 (List.getElem_mem hm)) ⟨?_, ?_⟩
        · exact lt_of_le_of_ne (by rw [ex, ey]; exact hxy) (hinj i hi hmi)
        · exact lt_of_le_of_ne (by rw [ey, ez]; exact hmz) (hinj j hj hmj).symm
  · have := C136_place _ hd i (axisAt planets k (present planets k)[i]) (by simp [hi])
    rw [List.filter_map, List.length_map] at this
    rw [Detection.mk.injEq]
    refine ⟨rfl, rfl, g j hj, ?_⟩
    rw [List.getD_eq_getElem?_getD, this, Option.getD_some]
    rfl

/-- **C135**: the test of two planets at the sample `k` looks at the fifteen samples up to it. -/
theorem C135_test (proposals : ℝ → List ℚ) (s o : Nat → Sample ℝ) (m n k : Nat) (hk : 14 ≤ k) (hm : k < m) (hn : k < n) (r : ℚ) :
    findResonance proposals (lastSamples ((List.range m).map s) k) (lastSamples ((List.range n).map o) k) = some r ↔
    |((o (k - 14)).a / (s (k - 14)).a) ^ (3 / 2 : ℝ) - ((o k).a / (s k).a) ^ (3 / 2 : ℝ)| ≤ 1 / 50 ∧
      (proposals (((o k).a / (s k).a) ^ (3 / 2 : ℝ))).find? (fun f => isResonance 90 70 f.num.toNat f.den
        ((List.range 15).map fun i => ((s (k - 14 + i)).angles, (o (k - 14 + i)).angles))) = some r := by
  have w : ∀ (l : Nat) (f : Nat → Sample ℝ), k < l → lastSamples ((List.range l).map f) k = (List.range 15).map fun i => f (k - 14 + i) := by
    intro l f hl
    apply List.ext_getElem?
    intro i
    by_cases hi : i < 15
    · rw [lastSamples_getElem _ hi]
      simp [List.getElem?_range hi, List.getElem?_range (show k - 14 + i < l by omega)]
    · have h1 := lastSamples_length ((List.range l).map f) hk (by simpa using hl)
      rw [List.getElem?_eq_none (by omega), List.getElem?_eq_none (by simpa using hi)]
  have hlast : ∀ f : Nat → Sample ℝ, ((List.range 15).map fun i => f (k - 14 + i)).getLast? = some (f k) := by
    intro f
    have : k - 14 + 14 = k := by omega
    simp [List.range_succ, this]
  have hhead : ∀ f : Nat → Sample ℝ, ((List.range 15).map fun i => f (k - 14 + i)).head? = some (f (k - 14)) := by
    intro f
    rfl
  have hz : ((List.range 15).map fun i => s (k - 14 + i)).zip ((List.range 15).map fun i => o (k - 14 + i)) =
      (List.range 15).map fun i => (s (k - 14 + i), o (k - 14 + i)) := by
    rw [List.zip_map']
  rw [w m s hm, w n o hn, findResonance, hlast, hlast, hhead, hhead, hz, List.map_map]
  have e : (lit 1.5 : ℝ) = 3 / 2 := by norm_num
  have e2 : (lit 0.02 : ℝ) = 1 / 50 := by norm_num
  simp only [e, e2, powf_real, abs_real, ltb_real]
  by_cases h : (1 / 50 : ℝ) < |((o (k - 14)).a / (s (k - 14)).a) ^ (3 / 2 : ℝ) - ((o k).a / (s k).a) ^ (3 / 2 : ℝ)|
  · rw [if_pos h]
    simp only [reduceCtorEq, false_iff, not_and]
    exact fun h' => absurd h' (not_le.2 h)
  · rw [if_neg h]
    simp only [not_lt.1 h, true_and]
    rfl

/-! ## The whole history -/

/-- At one instant a planet is the inner one of at most one resonance. -/
theorem detectAt_distinct (proposals : ℝ → List ℚ) (planets : List (List (Sample ℝ))) {k : Nat} (hk : 14 ≤ k) :
    (detectAt proposals planets k).Pairwise fun x y => x.1 ≠ y.1 := by
  rw [detectAt_eq proposals planets hk]
  have hnd := argsort_nodup leb ((present planets k).map (axisAt planets k))
  have hlt : ∀ i ∈ argsort leb ((present planets k).map (axisAt planets k)), i < (present planets k).length := by
    intro i hi
    simpa using mem_argsort.1 hi
  generalize argsort leb ((present planets k).map (axisAt planets k)) = σ at hnd hlt
  simp only
  rw [List.pairwise_filterMap]
  have hz : (σ.zip σ.tail).Pairwise fun x y => x.1 ≠ y.1 := by
    have : ((σ.zip σ.tail).map Prod.fst).Nodup := by
      refine hnd.sublist ?_
      have : ∀ l m : List Nat, ((l.zip m).map Prod.fst).Sublist l := by
        intro l
        induction l with
        | nil => simp
        | cons a l ih =>
          intro m
          cases m with
          | nil => simp
          | cons b m => simpa using ih m
      exact this _ _
    rwa [List.Nodup, List.pairwise_map] at this
  refine hz.imp_of_mem ?_
  rintro ⟨i, j⟩ ⟨i', j'⟩ h1 h2 hne a ha b hb
  rw [Option.map_eq_some_iff] at ha hb
  obtain ⟨r, -, rfl⟩ := ha
  obtain ⟨r', -, rfl⟩ := hb
  have hi := hlt i (List.of_mem_zip h1).1
  have hi' := hlt i' (List.of_mem_zip h2).1
  simp only [List.getD_eq_getElem?_getD, List.getElem?_eq_getElem hi, List.getElem?_eq_getElem hi', Option.getD_some]
  exact fun e => hne ((List.Nodup.getElem_inj_iff (present_nodup planets k)).1 e)

theorem mem_detectionsOf {p : Nat} {ds : List (Nat × Detection)} {d : Detection} : d ∈ detectionsOf p ds ↔ (p, d) ∈ ds := by
  simp only [detectionsOf, List.mem_map, List.mem_filter, beq_iff_eq]
  constructor
  · rintro ⟨⟨q, d'⟩, ⟨h, rfl⟩, rfl⟩
    exact h
  · intro h
    exact ⟨(p, d), ⟨h, rfl⟩, rfl⟩

theorem detectionsOf_flatMap {A : Type} (p : Nat) (l : List A) (f : A → List (Nat × Detection)) :
    detectionsOf p (l.flatMap f) = l.flatMap fun a => detectionsOf p (f a) := by
  induction l with
  | nil => rfl
  | cons a l ih =>
    rw [List.flatMap_cons, List.flatMap_cons, ← ih]
    simp [detectionsOf]

theorem detectionsOf_single (proposals : ℝ → List ℚ) (planets : List (List (Sample ℝ))) {k : Nat} (hk : 14 ≤ k) (p : Nat) :
    (detectionsOf p (detectAt proposals planets k)).length ≤ 1 := by
  have h := (detectAt_distinct proposals planets hk).filter fun d => d.1 == p
  rw [detectionsOf, List.length_map]
  rcases e : (detectAt proposals planets k).filter fun d => d.1 == p with _ | ⟨a, _ | ⟨b, l⟩⟩
  · rw [e]; simp
  · rw [e]; simp
  · exfalso
    have ha : a ∈ (detectAt proposals planets k).filter fun d => d.1 == p := by rw [e]; simp
    have hb : b ∈ (detectAt proposals planets k).filter fun d => d.1 == p := by rw [e]; simp
    rw [List.mem_filter, beq_iff_eq] at ha hb
    rw [e, List.pairwise_cons] at h
    exact h.1 b (by simp) (ha.2.trans hb.2.symm)

/-- **C135**: the list of a planet consists of the runs of its detections: those at neighbouring times with the same resonance are
joined, and runs of one detection are left out unless they are the last. -/
theorem C135_partial (proposals : ℝ → List ℚ) (planets : List (List (Sample ℝ))) (t : Nat → List Entry)
    (ht : timedResonances proposals planets = some t) (p : Nat) :
    ∃ ds runs, ds.Pairwise (fun x y => x.instant < y.instant) ∧
      (∀ d, d ∈ ds ↔ ∃ k, 15 ≤ k ∧ k < (planets.getD 0 []).length ∧ (p, d) ∈ detectAt proposals planets k) ∧
      Runs ds runs ∧ List.Forall₂ IsEntry (kept runs) (t p).reverse := by
  cases planets with
  | nil => simp [timedResonances] at ht
  | cons q qs =>
    simp only [timedResonances, instants, Option.map_eq_some_iff] at ht
    obtain ⟨is, his, rfl⟩ := ht
    split at his
    · cases his
    · cases his
      have hmem : ∀ d, d ∈ detectionsOf p ((List.range' window (q.length - window)).flatMap (detectAt proposals (q :: qs))) ↔
          ∃ k, 15 ≤ k ∧ k < ((q :: qs).getD 0 []).length ∧ (p, d) ∈ detectAt proposals (q :: qs) k := by
        intro d
        simp only [mem_detectionsOf, List.mem_flatMap, List.mem_range'_1, window, List.getD_cons_zero]
        constructor
        · rintro ⟨k, hk, hd⟩
          exact ⟨k, hk.1, by omega, hd⟩
        · rintro ⟨k, h1, h2, hd⟩
          exact ⟨k, by omega, hd⟩
      have hsorted : (detectionsOf p ((List.range' window (q.length - window)).flatMap (detectAt proposals (q :: qs)))).Pairwise
          fun x y => x.instant < y.instant := by
        rw [detectionsOf_flatMap, List.pairwise_flatMap]
        constructor
        · intro k hk
          have hk' : 14 ≤ k := by
            have := (List.mem_range'_1.1 hk).1
            simp only [window] at this
            omega
          have := detectionsOf_single proposals (q :: qs) hk' p
          rcases e : detectionsOf p (detectAt proposals (q :: qs) k) with _ | ⟨a, _ | ⟨b, l⟩⟩
          · simp
          · simp
          · rw [e] at this
            simp at this
        · refine (List.pairwise_lt_range').imp_of_mem ?_
          intro k k' hk hk' hlt x hx y hy
          have h1 := (List.mem_range'_1.1 hk).1
          have h2 := (List.mem_range'_1.1 hk').1
          simp only [window] at h1 h2
          rw [(C135_found proposals _ k p (by omega) x (mem_detectionsOf.1 hx)).1,
            (C135_found proposals _ k' p (by omega) y (mem_detectionsOf.1 hy)).1]
          exact hlt
      obtain ⟨runs, hr, hf⟩ := record_runs _ hsorted (by
        intro x hx
        obtain ⟨k, h1, -, h3⟩ := (hmem x).1 hx
        rw [(C135_found proposals _ k p (by omega) x h3).1]
        exact h1)
      exact ⟨_, runs, hsorted, hmem, hr, by rw [timelines_eq]; exact hf⟩

/-- **C135**: the ranges of a planet are within the history, one after the other without overlap, and all but the last are longer
than one sample. -/
theorem C135_partial_order (proposals : ℝ → List ℚ) (planets : List (List (Sample ℝ))) (t : Nat → List Entry)
    (ht : timedResonances proposals planets = some t) (p : Nat) :
    (t p).reverse.Pairwise (fun e f => e.last < f.first) ∧
    (∀ e ∈ t p, 15 ≤ e.first ∧ e.first ≤ e.last ∧ e.last < (planets.getD 0 []).length) ∧
    (∀ e ∈ (t p).tail, e.first < e.last) := by
  obtain ⟨ds, runs, hs, hm, ⟨hf, hc, -⟩, hk⟩ := C135_partial proposals planets t ht p
  have hb : ∀ d ∈ ds, 15 ≤ d.instant ∧ d.instant < (planets.getD 0 []).length := by
    intro d hd
    obtain ⟨k, h1, h2, h3⟩ := (hm d).1 hd
    rw [(C135_found proposals _ k p (by omega) d h3).1]
    exact ⟨h1, h2⟩
  rw [← hf, List.pairwise_flatten] at hs
  rw [← hf] at hb
  have hsub : (kept runs).Sublist runs := by
    rcases List.eq_nil_or_concat runs with rfl | ⟨R, r, rfl⟩
    · simp [kept]
    · simp only [List.concat_eq_append, kept, List.dropLast_concat, List.getLast?_append, List.getLast?_singleton,
        Option.some_or, Option.toList_some]
      exact (List.filter_sublist).append (List.Sublist.refl _)
  have hp : (kept runs).Pairwise fun r r' => ∀ x ∈ r, ∀ y ∈ r', x.instant < y.instant := hs.2.sublist hsub
  have hin : ∀ r ∈ kept runs, r.Pairwise (fun x y => x.instant < y.instant) ∧ ∀ x ∈ r, 15 ≤ x.instant ∧
      x.instant < (planets.getD 0 []).length := by
    intro r hr
    refine ⟨hs.1 r (hsub.subset hr), fun x hx => hb x (List.mem_flatten.2 ⟨r, hsub.subset hr, hx⟩)⟩
  have hends : ∀ r e, r ∈ kept runs → IsEntry r e → (∃ x ∈ r, x.instant = e.first) ∧ (∃ y ∈ r, y.instant = e.last) ∧
      e.first ≤ e.last ∧ (1 < r.length → e.first < e.last) := by
    rintro r e hr ⟨x, y, hx, hy, rfl⟩
    refine ⟨⟨x, List.mem_of_head? hx, rfl⟩, ⟨y, List.mem_of_getLast? hy, rfl⟩, ?_⟩
    have hpw := (hin r hr).1
    cases r with
    | nil => simp at hx
    | cons a l =>
      simp only [List.head?_cons, Option.some.injEq] at hx
      subst hx
      rcases List.eq_nil_or_concat l with rfl | ⟨l', b, rfl⟩
      · simp only [List.getLast?_singleton, Option.some.injEq] at hy
        subst hy
        simp
      · rw [List.concat_eq_append, ← List.cons_append, List.getLast?_append, List.getLast?_singleton, Option.some_or,
          Option.some.injEq] at hy
        subst hy
        have := (List.pairwise_cons.1 hpw).1 b (by simp)
        exact ⟨this.le, fun _ => this⟩
  have hlong : ∀ r ∈ (kept runs).dropLast, 1 < r.length := by
    intro r hr
    rcases List.eq_nil_or_concat runs with rfl | ⟨R, r', rfl⟩
    · simp [kept] at hr
    · simp only [List.concat_eq_append, kept, List.dropLast_concat, List.getLast?_append, List.getLast?_singleton,
        Option.some_or, Option.toList_some, List.mem_filter, decide_eq_true_eq] at hr
      exact hr.2
  have hget : ∀ i (h : i < (t p).reverse.length), ∃ h' : i < (kept runs).length, IsEntry (kept runs)[i] (t p).reverse[i] := by
    intro i h
    have h' : i < (kept runs).length := by rw [hk.length_eq]; exact h
    exact ⟨h', hk.get h' h⟩
  refine ⟨?_, ?_, ?_⟩
  · rw [List.pairwise_iff_getElem]
    intro i j hi hj hij
    obtain ⟨hi', ei⟩ := hget i hi
    obtain ⟨hj', ej⟩ := hget j hj
    obtain ⟨-, ⟨y, hy, e1⟩, -⟩ := hends _ _ (List.getElem_mem hi') ei
    obtain ⟨⟨x, hx, e2⟩, -⟩ := hends _ _ (List.getElem_mem hj') ej
    rw [← e1, ← e2]
    exact List.pairwise_iff_getElem.1 hp i j hi' hj' hij y hy x hx
  · intro e he
    obtain ⟨i, hi, rfl⟩ := List.mem_iff_getElem.1 (List.mem_reverse.2 he)
    obtain ⟨hi', ei⟩ := hget i hi
    obtain ⟨⟨x, hx, e2⟩, ⟨y, hy, e1⟩, hle, -⟩ := hends _ _ (List.getElem_mem hi') ei
    rw [← e2] at hle ⊢
    rw [← e1] at hle ⊢
    exact ⟨((hin _ (List.getElem_mem hi')).2 x hx).1, hle, ((hin _ (List.getElem_mem hi')).2 y hy).2⟩
  · intro e he
    have he' : e ∈ (t p).reverse.dropLast := by
      rw [List.dropLast_reverse, List.mem_reverse]
      exact he
    obtain ⟨i, hi, rfl⟩ := List.mem_iff_getElem.1 he'
    rw [List.length_dropLast] at hi
    obtain ⟨hi', ei⟩ := hget i (by omega)
    rw [List.getElem_dropLast]
    refine (hends _ _ (List.getElem_mem hi') ei).2.2.2 (hlong _ ?_)
    rw [← List.getElem_dropLast (h := by rw [List.length_dropLast, hk.length_eq]; exact hi)]
    exact List.getElem_mem _

/-- **C135 is violated** for more than 500 samples: the script ends with an exception. -/
theorem C135_violated_long (proposals : ℝ → List ℚ) (planets : List (List (Sample ℝ))) (h : 500 < (planets.getD 0 []).length) :
    timedResonances proposals planets = none := by
  cases planets with
  | nil => rfl
  | cons q qs =>
    rw [List.getD_cons_zero] at h
    simp [timedResonances, instants, h]

/-- **C135** with up to 500 samples it does not. -/
theorem C135_ends (proposals : ℝ → List ℚ) (q : List (Sample ℝ)) (qs : List (List (Sample ℝ))) (h : q.length ≤ 500) :
    ∃ t, timedResonances proposals (q :: qs) = some t := by
  simp [timedResonances, instants, not_lt.2 h]

/-! ## Another partner -/

/-- Three planets and seventeen samples; the third planet overtakes the second at the last one. -/
noncomputable def passing : List (List (Sample ℝ)) :=
  [(List.range 17).map fun _ => ⟨1, ⟨0, 0, 0⟩⟩, (List.range 17).map fun _ => ⟨4, ⟨0, 0, 0⟩⟩,
    (List.range 17).map fun i => ⟨if i < 16 then (20005 / 10000) ^ 2 else (19995 / 10000) ^ 2, ⟨0, 0, 0⟩⟩]

theorem resting (inner outer : Nat) : isResonance (90 : ℝ) 70 inner outer ((List.range 15).map fun _ => (⟨0, 0, 0⟩, ⟨0, 0, 0⟩)) = true := by
  rw [isResonance, List.any_eq_true]
  refine ⟨0, by simp, ?_⟩
  rw [ltb_real]
  simp only [List.map_map, Function.comp_def, resonantAngle, add_zero, mul_zero, sub_zero]
  generalize fold (90 : ℝ) 0 = c
  simp only [std, total_real, lit_real, sqrt_real, List.map_const', List.sum_replicate, List.length_range, List.length_replicate,
    List.map_replicate, nsmul_eq_mul]
  norm_num

theorem passing_axis {k p : Nat} (hk : k < 17) : axisAt passing k p =
    match p with
    | 0 => 1
    | 1 => 4
    | 2 => if k < 16 then (20005 / 10000) ^ 2 else (19995 / 10000) ^ 2
    | _ => 0 := by
  match p with
  | 0 => simp only [axisAt, passing, List.getD_cons_zero, List.getElem?_map, List.getElem?_range hk, Option.map_some, Option.getD_some]
  | 1 => simp only [axisAt, passing, List.getD_cons_zero, List.getD_cons_succ, List.getElem?_map, List.getElem?_range hk, Option.map_some, Option.getD_some]
  | 2 => simp [axisAt, passing, List.getElem?_range hk]
  | p + 3 => simp [axisAt, passing]

theorem passing_present {k : Nat} (hk : k < 17) : present passing k = [0, 1, 2] := by
  have : List.range passing.length = [0, 1, 2] := rfl
  rw [present, this]
  simp [passing, hk]

/-- **C135 is violated** by a change of the partner: the second detection is with another planet, which the entry does not say. -/
theorem C135_violated_partner (proposals : ℝ → List ℚ) (hp : ∀ x, |x - 8| ≤ 1 / 50 → (proposals x).head? = some 8) :
    ∃ t, timedResonances proposals passing = some t ∧ t 0 = [⟨8, 15, 16, 1, 1⟩] ∧ ¬ Neighbours passing 16 0 1 ∧
      Neighbours passing 16 0 2 := by
  have hfind : ∀ x, |x - 8| ≤ 1 / 50 → (proposals x).find? (fun f => isResonance (90 : ℝ) 70 f.num.toNat f.den
      ((List.range 15).map fun _ => (⟨0, 0, 0⟩, ⟨0, 0, 0⟩))) = some 8 := by
    intro x hx
    have := hp x hx
    cases h : proposals x with
    | nil => rw [h] at this; simp at this
    | cons a l =>
      rw [h] at this
      simp only [List.head?_cons, Option.some.injEq] at this
      rw [List.find?_cons, resting, this]
  have pow32 : ∀ y : ℝ, 0 ≤ y → (y ^ 2 / 1) ^ (3 / 2 : ℝ) = y ^ 3 := by
    intro y hy
    rw [div_one, ← Real.rpow_natCast, ← Real.rpow_mul hy, ← Real.rpow_natCast]
    norm_num
  have n15 : Neighbours passing 15 0 1 := by
    refine ⟨by simp [passing], by simp [passing], by norm_num, ?_, ?_⟩
    · rw [passing_axis (by norm_num), passing_axis (by norm_num)]; norm_num
    · intro q hq
      rw [← mem_present, passing_present (by norm_num)] at hq
      rw [passing_axis (by norm_num), passing_axis (by norm_num), passing_axis (by norm_num)]
      fin_cases hq <;> norm_num
  have n16 : Neighbours passing 16 0 2 := by
    refine ⟨by simp [passing], by simp [passing], by norm_num, ?_, ?_⟩
    · rw [passing_axis (by norm_num), passing_axis (by norm_num)]; norm_num
    · intro q hq
      rw [← mem_present, passing_present (by norm_num)] at hq
      rw [passing_axis (by norm_num), passing_axis (by norm_num), passing_axis (by norm_num)]
      fin_cases hq <;> norm_num
  have d15 := C135_complete proposals passing 15 0 1 (by norm_num)
    (by rw [passing_present (by norm_num)]; simp only [List.map_cons, List.map_nil, passing_axis (show 15 < 17 by norm_num)]; norm_num)
    n15 8 (by
      refine (C135_test proposals (fun _ => ⟨1, ⟨0, 0, 0⟩⟩) (fun _ => ⟨4, ⟨0, 0, 0⟩⟩) 17 17 15 (by norm_num) (by norm_num)
        (by norm_num) 8).2 ⟨by norm_num, ?_⟩
      have e : ((4 : ℝ) / 1) ^ (3 / 2 : ℝ) = 8 := by
        have := pow32 2 (by norm_num)
        norm_num at this ⊢
      simp only [e]
      exact hfind 8 (by norm_num))
  have d16 := C135_complete proposals passing 16 0 2 (by norm_num)
    (by rw [passing_present (by norm_num)]; simp only [List.map_cons, List.map_nil, passing_axis (show 16 < 17 by norm_num)]; norm_num)
    n16 8 (by
      refine (C135_test proposals (fun _ => ⟨1, ⟨0, 0, 0⟩⟩)
        (fun i => ⟨if i < 16 then (20005 / 10000) ^ 2 else (19995 / 10000) ^ 2, ⟨0, 0, 0⟩⟩) 17 17 16 (by norm_num) (by norm_num)
        (by norm_num) 8).2 ?_
      simp only [show ¬ (16 : ℕ) < 16 by norm_num, show (16 - 14 : ℕ) < 16 by norm_num, if_true, if_false]
      rw [pow32 _ (by norm_num), pow32 _ (by norm_num)]
      exact ⟨by norm_num [abs_le], hfind _ (by norm_num [abs_le])⟩)
  rw [passing_present (by norm_num)] at d15 d16
  have single : ∀ k d, 14 ≤ k → (0, d) ∈ detectAt proposals passing k → detectionsOf 0 (detectAt proposals passing k) = [d] := by
    intro k d hk h
    have h1 := detectionsOf_single proposals passing hk 0
    have h2 := mem_detectionsOf.2 h
    rcases e : detectionsOf 0 (detectAt proposals passing k) with _ | ⟨a, _ | ⟨b, l⟩⟩
    · rw [e] at h2; simp at h2
    · rw [e] at h2; simp at h2; rw [h2]
    · rw [e] at h1; simp at h1
  refine ⟨_, rfl, ?_, ?_, n16⟩
  · simp only
    rw [timelines_eq, detectionsOf_flatMap]
    have : List.range' window (((List.range 17).map fun _ => (⟨1, ⟨0, 0, 0⟩⟩ : Sample ℝ)).length - window) = [15, 16] := by
      simp [window, List.range']
    rw [this, List.flatMap_cons, List.flatMap_cons, List.flatMap_nil, List.append_nil, single 15 _ (by norm_num) d15,
      single 16 _ (by norm_num) d16]
    simp only [passing_axis (show 15 < 17 by norm_num), passing_axis (show 16 < 17 by norm_num)]
    norm_num [record, window, List.filter_cons]
  · intro h
    refine h.between 2 (by simp [passing]) ?_
    rw [passing_axis (by norm_num), passing_axis (by norm_num), passing_axis (by norm_num)]
    norm_num

/-- The hypotheses of `C135_found`, `C135_complete`, `C135_partial` and `C135_partial_order` hold for the planets of
`C135_violated_partner`. -/
example : ∃ t, timedResonances (fun _ => [8]) passing = some t ∧ (∀ e ∈ t 0, 15 ≤ e.first ∧ e.first ≤ e.last ∧ e.last < 17) ∧
    t 0 ≠ [] ∧ ∃ d, (0, d) ∈ detectAt (fun _ => [8]) passing 15 := by
  obtain ⟨t, ht, h0, -, -⟩ := C135_violated_partner (fun _ => [8]) fun _ _ => rfl
  refine ⟨t, ht, ?_, by simp [h0], ?_⟩
  · simpa [passing] using (C135_partial_order _ _ t ht 0).2.1
  · obtain ⟨ds, runs, -, hm, ⟨hf, hc, -⟩, hk⟩ := C135_partial _ _ t ht 0
    rw [h0] at hk
    have hl : (kept runs).length = 1 := by rw [hk.length_eq]; rfl
    obtain ⟨r, hr⟩ := List.length_eq_one_iff.1 hl
    rw [hr] at hk
    obtain ⟨x, y, hx, hy, e⟩ : IsEntry r _ := by simpa using hk
    have hrr : r ∈ runs := by
      have hmem : r ∈ kept runs := by rw [hr]; simp
      simp only [kept, List.mem_append, List.mem_filter, Option.mem_toList] at hmem
      rcases hmem with h | h
      · exact List.mem_of_mem_dropLast h.1
      · exact List.mem_of_getLast? h
    have hx' : x ∈ ds := by
      rw [← hf]
      exact List.mem_flatten.2 ⟨r, hrr, List.mem_of_head? hx⟩
    obtain ⟨k, h1, h2, h3⟩ := (hm x).1 hx'
    have hk15 : k = 15 := by
      rw [← (C135_found _ _ k 0 (by omega) x h3).1]
      simp only [Entry.mk.injEq] at e
      exact e.2.1.symm
    subst hk15
    exact ⟨x, h3⟩

end Posidonius.Analysis
