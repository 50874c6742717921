import Verif.Model.Disk
import Verif.Lemmas.Driver

namespace Posidonius.Disk
open Posidonius.Output Posidonius.Driver
variable {F U : Type} [Add F] [FOps F]
set_option linter.unusedSectionVars false

/-- A complete snapshot somewhere on disk. -/
def Files.Holds (f : Files F U) (t : State F U) : Prop :=
  f.recovery = some (.complete t) ∨ ∃ name, f.backups name = some (.complete t)

/-- A state of the uninterrupted run after at least one iteration and before completion. -/
def OnRun (p : Physics F U) (s0 t : State F U) (h : Bytes) : Prop :=
  ∃ k s, uninterrupted p s0 (k + 1) = some (s, h, false) ∧ SameRun t s

/-- The invariant behind C05. -/
structure Inv (p : Physics F U) (s0 : State F U) (w : World F U) : Prop where
  hist : ∃ k s h d, uninterrupted p s0 k = some (s, h, d) ∧ w.files.history <+: h
  snaps : ∀ t, w.files.Holds t → ∃ h, OnRun p s0 t h
  proc : ∀ q, w.proc = some q → ∃ k s h, uninterrupted p s0 k = some (s, h, false) ∧
    SameRun q.st s ∧ w.files.history ++ q.buf = h ∧ (q.phase ≠ .running → 1 ≤ k)
  fin : w.finished = true → w.proc = none ∧ ∃ k s,
    uninterrupted p s0 k = some (s, w.files.history, true)

theorem stampRecovery_sameRun (p : Physics F U) (s : State F U) : SameRun (stampRecovery p s) s :=
  ⟨rfl, rfl, rfl, rfl, rfl, rfl, rfl, rfl, rfl⟩

theorem setSnapshotPeriods_sameRun (s : State F U) (np rp : F) (h : ltb (lit 0) np = false) :
    SameRun (setSnapshotPeriods s np rp) s := by
  unfold setSnapshotPeriods
  simp only [h, Bool.false_and, Bool.false_eq_true, if_false]
  split
  · exact ⟨rfl, rfl, rfl, rfl, rfl, rfl, rfl, rfl, rfl⟩
  · exact SameRun.refl _

theorem setTimeLimit_unchanged (evo : Bool) (ages : List (Option F)) (s : State F U) (nl : F)
    (h : ltb (lit 0) nl = false) : setTimeLimit evo ages s nl = some s := by
  unfold setTimeLimit
  simp [h]

theorem afterRestore_nonzero (p : Physics F U) (s : State F U)
    (h : eqb s.currentTime (lit 0) = false) : afterRestore p s = some s := by
  unfold afterRestore
  simp [h]

/-- Times after an iteration are never 0 (so that a resume does not re-initialize). -/
def NonzeroTimes (p : Physics F U) (s0 : State F U) : Prop :=
  ∀ k s h d, uninterrupted p s0 (k + 1) = some (s, h, d) → eqb s.currentTime (lit 0) = false

theorem append_prefix_of {a b : Bytes} (n : Nat) (h : Bytes) (e : a ++ b = h) :
    a ++ b.take n <+: h := by
  subst e
  exact (List.prefix_append_right_inj a).2 (List.take_prefix n b)

/-- Facts about any successful resume. -/
theorem resume_facts (p : Physics F U) (s0 : State F U) (h0 : s0.nHistoric = 0)
    (hnz : NonzeroTimes p s0) {t s' s'' : State F U} {np rp nl : F} {evo : Bool}
    {ages : List (Option F)} {g history history' : Bytes}
    (hon : OnRun p s0 t g)
    (hnp : ltb (lit 0) np = false) (hnl : ltb (lit 0) nl = false)
    (hs' : afterRestore p t = some s')
    (hs'' : setTimeLimit evo ages (setSnapshotPeriods s' np rp) nl = some s'')
    (hopen : openHistory p history s'' = some history')
    (hh : ∃ k s h d, uninterrupted p s0 k = some (s, h, d) ∧ history <+: h) :
    SameRun s'' t ∧ history' = g ∧ g <+: history := by
  obtain ⟨k, s, e1, e2⟩ := hon
  have hz := hnz _ _ _ _ e1
  rw [← e2.currentTime] at hz
  rw [afterRestore_nonzero p t hz, Option.some.injEq] at hs'
  subst hs'
  rw [setTimeLimit_unchanged _ _ _ _ hnl, Option.some.injEq] at hs''
  have hsame : SameRun s'' t := by
    rw [← hs'']
    exact setSnapshotPeriods_sameRun _ _ _ hnp
  have hlen := uninterrupted_length h0 e1
  have hn : s''.nHistoric = s.nHistoric := hsame.nHistoric.trans e2.nHistoric
  unfold openHistory at hopen
  simp only [hn, ← hlen] at hopen
  split at hopen
  · simp at hopen
  · rename_i hlt
    simp only [Option.some.injEq] at hopen
    obtain ⟨k', s2, h2, d2, e3, e4⟩ := hh
    have hg : g <+: h2 ∨ h2 <+: g := uninterrupted_comparable e1 e3
    have hgh : g <+: history := by
      rcases hg with hg | hg
      · rcases List.prefix_or_prefix_of_prefix hg e4 with h | h
        · exact h
        · rw [h.eq_of_length (le_antisymm h.length_le (by omega))]; exact List.prefix_refl _
      · have := e4.trans hg
        rw [this.eq_of_length (le_antisymm this.length_le (by omega))]; exact List.prefix_refl _
    refine ⟨hsame, ?_, hgh⟩
    rw [← hopen]
    exact (List.prefix_iff_eq_take.1 hgh).symm

theorem inv_start (p : Physics F U) (s0 : State F U) : Inv p s0 (start s0) := by
  refine ⟨⟨0, s0, [], false, rfl, List.prefix_refl _⟩, ?_, ?_, ?_⟩
  · intro t ht
    rcases ht with h | ⟨_, h⟩ <;> simp [start] at h
  · intro q hq
    simp only [start, Option.some.injEq] at hq
    subst hq
    exact ⟨0, s0, [], rfl, SameRun.refl _, rfl, by simp⟩
  · intro h; simp [start] at h

theorem inv_step (p : Physics F U) (older : Bool) (s0 : State F U) (h0 : s0.nHistoric = 0)
    (hnz : NonzeroTimes p s0) {w w' : World F U} (hw : Inv p s0 w) (hs : Step p older w w') :
    Inv p s0 w' := by
  cases hs with
  | spill q n hq =>
    obtain ⟨k, s, h, e1, e2, e3, e4⟩ := hw.proc q hq
    refine ⟨⟨k, s, h, false, e1, append_prefix_of n h e3⟩, hw.snaps, ?_, ?_⟩
    · intro q' hq'
      simp only [Option.some.injEq] at hq'
      subst hq'
      refine ⟨k, s, h, e1, e2, ?_, e4⟩
      simp only [List.append_assoc, List.take_append_drop, e3]
    · intro hf
      have := (hw.fin hf).1
      rw [hq] at this; simp at this
  | iterate q s' b due wr hq hph hit =>
    obtain ⟨k, s, h, e1, e2, e3, e4⟩ := hw.proc q hq
    refine ⟨hw.hist, hw.snaps, ?_, ?_⟩
    · intro q' hq'
      simp only [Option.some.injEq] at hq'
      subst hq'
      rcases iterate_sameRun p e2 with ⟨h1, _⟩ | ⟨a, c, b', o, o', h1, h2, h3, h4⟩
      · rw [h1] at hit; simp at hit
      · rw [h1] at hit
        simp only [Option.some.injEq, Prod.mk.injEq] at hit
        obtain ⟨rfl, rfl, rfl⟩ := hit
        have h5 := uninterrupted_step e1 h2
        rw [← h4] at h5
        refine ⟨k + 1, c, h ++ b'.getD [], h5, h3, ?_, by simp⟩
        simp [← e3]
    · intro hf
      have := (hw.fin hf).1
      rw [hq] at this; simp at this
  | complete q s' b hq hph hit =>
    obtain ⟨k, s, h, e1, e2, e3, e4⟩ := hw.proc q hq
    rcases iterate_sameRun p e2 with ⟨h1, _⟩ | ⟨a, c, b', o, o', h1, h2, h3, h4⟩
    · rw [h1] at hit; simp at hit
    · rw [h1] at hit
      simp only [Option.some.injEq, Prod.mk.injEq] at hit
      obtain ⟨rfl, rfl, rfl⟩ := hit
      have h5 := uninterrupted_step e1 h2
      rw [← h4] at h5
      have h6 : w.files.history ++ (q.buf ++ b'.getD []) = h ++ b'.getD [] := by
        rw [← e3]; simp
      refine ⟨⟨k + 1, c, _, _, h5, by simp only [h6]; exact List.prefix_refl _⟩, hw.snaps, ?_, ?_⟩
      · intro q' hq'; simp at hq'
      · intro _
        exact ⟨rfl, k + 1, c, by simp only [h6]; exact h5⟩
  | flush q hq hph =>
    obtain ⟨k, s, h, e1, e2, e3, e4⟩ := hw.proc q hq
    refine ⟨⟨k, s, h, false, e1, by simp only [e3]; exact List.prefix_refl _⟩, hw.snaps, ?_, ?_⟩
    · intro q' hq'
      simp only [Option.some.injEq] at hq'
      subst hq'
      exact ⟨k, s, h, e1, (stampRecovery_sameRun p q.st).trans e2, by simp [e3],
        fun _ => e4 (by simp [hph])⟩
    · intro hf
      have := (hw.fin hf).1
      rw [hq] at this; simp at this
  | rename q c name hq hph hc =>
    obtain ⟨k, s, h, e1, e2, e3, e4⟩ := hw.proc q hq
    refine ⟨hw.hist, ?_, ?_, ?_⟩
    · intro t ht
      rcases ht with ht | ⟨m, ht⟩
      · simp at ht
      · simp only at ht
        split at ht
        · simp only [Option.some.injEq] at ht
          subst ht
          exact hw.snaps t (Or.inl hc)
        · exact hw.snaps t (Or.inr ⟨m, ht⟩)
    · intro q' hq'
      simp only [Option.some.injEq] at hq'
      subst hq'
      exact ⟨k, s, h, e1, e2, e3, fun _ => e4 (by simp [hph])⟩
    · intro hf
      have := (hw.fin hf).1
      rw [hq] at this; simp at this
  | noRename q hq hph hc =>
    obtain ⟨k, s, h, e1, e2, e3, e4⟩ := hw.proc q hq
    refine ⟨hw.hist, hw.snaps, ?_, ?_⟩
    · intro q' hq'
      simp only [Option.some.injEq] at hq'
      subst hq'
      exact ⟨k, s, h, e1, e2, e3, fun _ => e4 (by simp [hph])⟩
    · intro hf
      have := (hw.fin hf).1
      rw [hq] at this; simp at this
  | create q hq hph =>
    obtain ⟨k, s, h, e1, e2, e3, e4⟩ := hw.proc q hq
    refine ⟨hw.hist, ?_, ?_, ?_⟩
    · intro t ht
      rcases ht with ht | ⟨m, ht⟩
      · simp at ht
      · exact hw.snaps t (Or.inr ⟨m, ht⟩)
    · intro q' hq'
      simp only [Option.some.injEq] at hq'
      subst hq'
      exact ⟨k, s, h, e1, e2, e3, fun _ => e4 (by simp [hph])⟩
    · intro hf
      have := (hw.fin hf).1
      rw [hq] at this; simp at this
  | written q hq hph =>
    obtain ⟨k, s, h, e1, e2, e3, e4⟩ := hw.proc q hq
    refine ⟨hw.hist, ?_, ?_, ?_⟩
    · intro t ht
      rcases ht with ht | ⟨m, ht⟩
      · simp only [Option.some.injEq, Content.complete.injEq] at ht
        subst ht
        have hk := e4 (by simp [hph])
        obtain ⟨k, rfl⟩ : ∃ j, k = j + 1 := ⟨k - 1, by omega⟩
        exact ⟨h, k, s, e1, e2⟩
      · exact hw.snaps t (Or.inr ⟨m, ht⟩)
    · intro q' hq'
      simp only [Option.some.injEq] at hq'
      subst hq'
      exact ⟨k, s, h, e1, e2, e3, by simp⟩
    · intro hf
      have := (hw.fin hf).1
      rw [hq] at this; simp at this
  | crash q hq =>
    refine ⟨hw.hist, hw.snaps, ?_, ?_⟩
    · intro q' hq'; simp at hq'
    · intro hf
      exact ⟨rfl, (hw.fin hf).2⟩
  | restoreBackup c name hq hc =>
    refine ⟨hw.hist, ?_, ?_, ?_⟩
    · intro t ht
      rcases ht with ht | ⟨m, ht⟩
      · simp only [Option.some.injEq] at ht
        subst ht
        exact hw.snaps t (Or.inr ⟨name, hc⟩)
      · exact hw.snaps t (Or.inr ⟨m, ht⟩)
    · intro q' hq'; simp only [hq] at hq'; simp at hq'
    · intro hf
      exact hw.fin hf
  | resume s s' np rp nl evo ages s'' history' hq hc hnp hnl hs' hs'' hopen holder =>
    obtain ⟨g, hon⟩ := hw.snaps s (Or.inl hc)
    obtain ⟨h1, rfl, h3⟩ := resume_facts p s0 h0 hnz hon hnp hnl hs' hs'' hopen hw.hist
    obtain ⟨k, t, e1, e2⟩ := hon
    refine ⟨⟨k + 1, t, _, _, e1, List.prefix_refl _⟩, hw.snaps, ?_, ?_⟩
    · intro q' hq'
      simp only [Option.some.injEq] at hq'
      subst hq'
      exact ⟨k + 1, t, _, e1, h1.trans e2, by simp, by simp⟩
    · intro hf; simp at hf

theorem inv_reachable (p : Physics F U) (older : Bool) (s0 : State F U) (h0 : s0.nHistoric = 0)
    (hnz : NonzeroTimes p s0) {w : World F U} (hw : Reachable p older s0 w) : Inv p s0 w := by
  induction hw with
  | start => exact inv_start p s0
  | step _ hs ih => exact inv_step p older s0 h0 hnz ih hs

/-! ## Length invariant (C06) -/

/-- The bytes promised by a snapshot. -/
def promised (p : Physics F U) (t : State F U) : Nat := expectedNBytes t.nHistoric p.nParticles

structure LenInv (p : Physics F U) (w : World F U) : Prop where
  snaps : ∀ t, w.files.Holds t → promised p t ≤ w.files.history.length
  buf : ∀ q, w.proc = some q → q.phase = .renaming ∨ q.phase = .creating ∨ q.phase = .writing →
    q.buf = []

theorem promised_mono (p : Physics F U) {s t : State F U} (h : t.nHistoric ≤ s.nHistoric) :
    promised p t ≤ promised p s := by
  unfold promised expectedNBytes
  exact Nat.mul_le_mul_right _ (Nat.mul_le_mul_right _ h)

theorem lenInv_step (p : Physics F U) (s0 : State F U) (h0 : s0.nHistoric = 0)
    (hnz : NonzeroTimes p s0) {w w' : World F U} (hi : Inv p s0 w) (hw : LenInv p w)
    (hs : Step p false w w') : LenInv p w' := by
  cases hs with
  | spill q n hq =>
    refine ⟨fun t ht => (hw.snaps t ht).trans (by simp), ?_⟩
    intro q' hq' hph
    simp only [Option.some.injEq] at hq'
    subst hq'
    simp only at hph ⊢
    rw [hw.buf q hq hph]; simp
  | iterate q s' b due wr hq hph hit =>
    refine ⟨hw.snaps, ?_⟩
    intro q' hq' hph'
    simp only [Option.some.injEq] at hq'
    subst hq'
    exfalso
    cases wr <;> simp at hph'
  | complete q s' b hq hph hit =>
    refine ⟨fun t ht => (hw.snaps t ht).trans (by simp), ?_⟩
    intro q' hq'; simp at hq'
  | flush q hq hph =>
    refine ⟨fun t ht => (hw.snaps t ht).trans (by simp), ?_⟩
    intro q' hq' hph'
    simp only [Option.some.injEq] at hq'
    subst hq'
    rfl
  | rename q c name hq hph hc =>
    refine ⟨?_, ?_⟩
    · intro t ht
      rcases ht with ht | ⟨m, ht⟩
      · simp at ht
      · simp only at ht
        split at ht
        · simp only [Option.some.injEq] at ht
          subst ht
          exact hw.snaps t (Or.inl hc)
        · exact hw.snaps t (Or.inr ⟨m, ht⟩)
    · intro q' hq' _
      simp only [Option.some.injEq] at hq'
      subst hq'
      exact hw.buf q hq (Or.inl hph)
  | noRename q hq hph hc =>
    refine ⟨hw.snaps, ?_⟩
    intro q' hq' _
    simp only [Option.some.injEq] at hq'
    subst hq'
    exact hw.buf q hq (Or.inl hph)
  | create q hq hph =>
    refine ⟨?_, ?_⟩
    · intro t ht
      rcases ht with ht | ⟨m, ht⟩
      · simp at ht
      · exact hw.snaps t (Or.inr ⟨m, ht⟩)
    · intro q' hq' _
      simp only [Option.some.injEq] at hq'
      subst hq'
      exact hw.buf q hq (Or.inr (Or.inl hph))
  | written q hq hph =>
    refine ⟨?_, ?_⟩
    · intro t ht
      rcases ht with ht | ⟨m, ht⟩
      · simp only [Option.some.injEq, Content.complete.injEq] at ht
        subst ht
        obtain ⟨k, s, h, e1, e2, e3, e4⟩ := hi.proc q hq
        have := uninterrupted_length h0 e1
        rw [hw.buf q hq (Or.inr (Or.inr hph)), List.append_nil] at e3
        simp only [promised, e2.nHistoric, ← this, e3]
        exact le_refl _
      · exact hw.snaps t (Or.inr ⟨m, ht⟩)
    · intro q' hq' hph'
      simp only [Option.some.injEq] at hq'
      subst hq'
      simp at hph'
  | crash q hq =>
    refine ⟨hw.snaps, ?_⟩
    intro q' hq'; simp at hq'
  | restoreBackup c name hq hc =>
    refine ⟨?_, ?_⟩
    · intro t ht
      rcases ht with ht | ⟨m, ht⟩
      · simp only [Option.some.injEq] at ht
        subst ht
        exact hw.snaps t (Or.inr ⟨name, hc⟩)
      · exact hw.snaps t (Or.inr ⟨m, ht⟩)
    · intro q' hq'; simp only [hq] at hq'; simp at hq'
  | resume s s' np rp nl evo ages s'' history' hq hc hnp hnl hs' hs'' hopen holder =>
    obtain ⟨g, hon⟩ := hi.snaps s (Or.inl hc)
    obtain ⟨h1, rfl, h3⟩ := resume_facts p s0 h0 hnz hon hnp hnl hs' hs'' hopen hi.hist
    obtain ⟨k, t, e1, e2⟩ := hon
    have hlen := uninterrupted_length h0 e1
    have hps : promised p s = history'.length := by
      simp only [promised, e2.nHistoric, ← hlen]
    refine ⟨?_, ?_⟩
    · intro t' ht'
      simp only
      rw [← hps]
      rcases ht' with ht' | ⟨m, ht'⟩
      · simp only [hc, Option.some.injEq, Content.complete.injEq] at ht'
        subst ht'
        exact le_refl _
      · rcases holder with h | h
        · simp at h
        · exact promised_mono p (h m t' ht')
    · intro q' hq' hph'
      simp only [Option.some.injEq] at hq'
      subst hq'
      rfl

theorem lenInv_reachable (p : Physics F U) (s0 : State F U) (h0 : s0.nHistoric = 0)
    (hnz : NonzeroTimes p s0) {w : World F U} (hw : Reachable p false s0 w) : LenInv p w := by
  induction hw with
  | start =>
    refine ⟨?_, ?_⟩
    · intro t ht
      rcases ht with h | ⟨_, h⟩ <;> simp [start] at h
    · intro q hq hph
      simp only [start, Option.some.injEq] at hq
      subst hq
      simp at hph
  | step hr hs ih => exact lenInv_step p s0 h0 hnz (inv_reachable p false s0 h0 hnz hr) ih hs

/-! ## Shape of the recovery files (C07) -/

structure ShapeInv (w : World F U) : Prop where
  backups : ∀ name, w.files.backups name ≠ some .incomplete
  early : ∀ q, w.proc = some q →
    q.phase = .running ∨ q.phase = .flushing ∨ q.phase = .renaming →
    w.files.recovery ≠ some .incomplete
  creating : ∀ q, w.proc = some q → q.phase = .creating → w.files.recovery = none
  writing : ∀ q, w.proc = some q → q.phase = .writing → w.files.recovery = some .incomplete

theorem shapeInv_step (p : Physics F U) (older : Bool) {w w' : World F U} (hw : ShapeInv w)
    (hs : Step p older w w') : ShapeInv w' := by
  cases hs with
  | spill q n hq =>
    refine ⟨hw.backups, ?_, ?_, ?_⟩ <;> intro q' hq' hph <;>
      simp only [Option.some.injEq] at hq' <;> subst hq' <;> simp only at hph ⊢
    · exact hw.early q hq hph
    · exact hw.creating q hq hph
    · exact hw.writing q hq hph
  | iterate q s' b due wr hq hph hit =>
    refine ⟨hw.backups, ?_, ?_, ?_⟩ <;> intro q' hq' hph' <;>
      simp only [Option.some.injEq] at hq' <;> subst hq' <;> simp only at hph' ⊢
    · exact hw.early q hq (Or.inl hph)
    · cases wr <;> simp at hph'
    · cases wr <;> simp at hph'
  | complete q s' b hq hph hit =>
    refine ⟨hw.backups, ?_, ?_, ?_⟩ <;> intro q' hq' <;> simp at hq'
  | flush q hq hph =>
    refine ⟨hw.backups, ?_, ?_, ?_⟩ <;> intro q' hq' hph' <;>
      simp only [Option.some.injEq] at hq' <;> subst hq' <;> simp only at hph' ⊢
    · exact hw.early q hq (Or.inr (Or.inl hph))
    · simp at hph'
    · simp at hph'
  | rename q c name hq hph hc =>
    refine ⟨?_, ?_, ?_, ?_⟩
    · intro m
      simp only
      split
      · rw [← hc]; exact hw.early q hq (Or.inr (Or.inr hph))
      · exact hw.backups m
    all_goals
      intro q' hq' hph'
      simp only [Option.some.injEq] at hq'
      subst hq'
      simp only at hph' ⊢
    · simp
    · simp at hph'
  | noRename q hq hph hc =>
    refine ⟨hw.backups, ?_, ?_, ?_⟩ <;> intro q' hq' hph' <;>
      simp only [Option.some.injEq] at hq' <;> subst hq' <;> simp only at hph' ⊢
    · simp at hph'
    · exact hc
    · simp at hph'
  | create q hq hph =>
    refine ⟨hw.backups, ?_, ?_, ?_⟩ <;> intro q' hq' hph' <;>
      simp only [Option.some.injEq] at hq' <;> subst hq' <;> simp at hph' ⊢
  | written q hq hph =>
    refine ⟨hw.backups, ?_, ?_, ?_⟩ <;> intro q' hq' hph' <;>
      simp only [Option.some.injEq] at hq' <;> subst hq' <;> simp at hph' ⊢
  | crash q hq =>
    refine ⟨hw.backups, ?_, ?_, ?_⟩ <;> intro q' hq' <;> simp at hq'
  | restoreBackup c name hq hc =>
    refine ⟨hw.backups, ?_, ?_, ?_⟩ <;> intro q' hq' <;> simp [hq] at hq'
  | resume s s' np rp nl evo ages s'' history' hq hc hnp hnl hs' hs'' hopen holder =>
    refine ⟨hw.backups, ?_, ?_, ?_⟩ <;> intro q' hq' hph' <;>
      simp only [Option.some.injEq] at hq' <;> subst hq' <;> simp at hph' ⊢
    simp [hc]

theorem shapeInv_reachable (p : Physics F U) (older : Bool) (s0 : State F U) {w : World F U}
    (hw : Reachable p older s0 w) : ShapeInv w := by
  induction hw with
  | start => constructor <;> simp [start]
  | step _ hs ih => exact shapeInv_step p older ih hs

end Posidonius.Disk
