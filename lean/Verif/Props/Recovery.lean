import Verif.Lemmas.Disk
import Verif.Lemmas.Schedule
import Verif.Lemmas.Toy

/-!
# C04-C07: recovery snapshots, crashes and resumes
-/

namespace Posidonius.Disk
open Posidonius.Output Posidonius.Driver
set_option linter.unusedSectionVars false

section Any
variable {F U : Type} [Add F] [FOps F]

/-- **C04** Whatever the schedule of recovery snapshots (`write`), and whatever the initial recovery
bookkeeping (`s0` and `t0` may differ in recovery period, time of the last recovery snapshot and
hash), the run with recovery snapshots and the run without have the same history, end at the same
iteration, panic at the same iteration, and have the same state up to that bookkeeping. -/
theorem C04_recovery_snapshots_are_invisible (p : Physics F U) (write : Nat → Bool)
    (s0 t0 : State F U) (h0 : SameRun s0 t0) (k : Nat) :
    (withRecoverySnapshots p write s0 k = none ∧ uninterrupted p t0 k = none) ∨
    ∃ s t h d, withRecoverySnapshots p write s0 k = some (s, h, d) ∧
      uninterrupted p t0 k = some (t, h, d) ∧ SameRun s t := by
  induction k with
  | zero => exact Or.inr ⟨s0, t0, [], false, rfl, rfl, h0⟩
  | succ k ih =>
    rcases ih with ⟨e1, e2⟩ | ⟨s, t, h, d, e1, e2, e3⟩
    · left; simp [withRecoverySnapshots, uninterrupted, e1, e2]
    · cases d with
      | true => left; simp [withRecoverySnapshots, uninterrupted, e1, e2]
      | false =>
        rcases iterate_sameRun p e3 with ⟨h1, h2⟩ | ⟨a, c, b, o, o', h1, h2, h3, h4⟩
        · left; simp [withRecoverySnapshots, uninterrupted, e1, e2, h1, h2]
        · right
          cases o with
          | completed =>
            cases o' with
            | completed =>
              exact ⟨a, c, h ++ b.getD [], true,
                by simp [withRecoverySnapshots, e1, h1],
                by simp [uninterrupted, e2, h2], h3⟩
            | running r => simp [Outcome.isCompleted] at h4
          | running r =>
            cases o' with
            | completed => simp [Outcome.isCompleted] at h4
            | running r' =>
              refine ⟨if write k then stampRecovery p a else a, c, h ++ b.getD [], false,
                by simp [withRecoverySnapshots, e1, h1],
                by simp [uninterrupted, e2, h2], ?_⟩
              split
              · exact (stampRecovery_sameRun p a).trans h3
              · exact h3

/-- **C05** Any execution of the process and its files - crashes at any point, any number of resumes
from any complete snapshot (also older ones, also backups), any amount of buffered history lost -
that ends with "Simulation completed" leaves on disk exactly the history of the uninterrupted run.
Hypotheses: the case had no history yet, and no iteration ends at time exactly 0 (a resume from a
snapshot of time 0 is taken for a new simulation). -/
theorem C05_resume_reproduces_history (p : Physics F U) (older : Bool) (s0 : State F U)
    (h0 : s0.nHistoric = 0) (hnz : NonzeroTimes p s0) {w : World F U}
    (hw : Reachable p older s0 w) (hfin : w.finished = true) :
    ∃ k s, uninterrupted p s0 k = some (s, w.files.history, true) ∧
      ∀ k' s' h', uninterrupted p s0 k' = some (s', h', true) → h' = w.files.history := by
  obtain ⟨_, k, s, e⟩ := (inv_reachable p older s0 h0 hnz hw).fin hfin
  refine ⟨k, s, e, ?_⟩
  intro k' s' h' e'
  have := uninterrupted_done_unique e e'
  subst this
  rw [e] at e'
  simp only [Option.some.injEq, Prod.mk.injEq] at e'
  exact e'.2.1.symm

/-- **C05**, at every moment (not only at the end): what is on disk is a prefix of the history of the
uninterrupted run. -/
theorem C05_history_is_always_a_prefix (p : Physics F U) (older : Bool) (s0 : State F U)
    (h0 : s0.nHistoric = 0) (hnz : NonzeroTimes p s0) {w : World F U}
    (hw : Reachable p older s0 w) :
    ∃ k s h d, uninterrupted p s0 k = some (s, h, d) ∧ w.files.history <+: h :=
  (inv_reachable p older s0 h0 hnz hw).hist

/-- **C06** At every reachable moment (process alive or dead), every complete recovery snapshot on
disk, current or backup, is covered by the history file: the file holds at least 156 bytes per
particle and record counted by the snapshot.  (Resumes from the most advanced snapshot on disk.) -/
theorem C06_history_covers_snapshots (p : Physics F U) (s0 : State F U)
    (h0 : s0.nHistoric = 0) (hnz : NonzeroTimes p s0) {w : World F U}
    (hw : Reachable p false s0 w) (t : State F U)
    (ht : w.files.recovery = some (.complete t) ∨ ∃ name, w.files.backups name = some (.complete t)) :
    t.nHistoric * 156 * p.nParticles ≤ w.files.history.length := by
  have := (lenInv_reachable p s0 h0 hnz hw).snaps t ht
  simpa [promised, expectedNBytes, nBytesPerParticle] using this

/-- **C06** Hence opening the history for a resume from any complete snapshot on disk succeeds, and
keeps exactly the records the snapshot had counted: those of the uninterrupted run up to there. -/
theorem C06_complete_snapshot_can_be_resumed (p : Physics F U) (s0 : State F U)
    (h0 : s0.nHistoric = 0) (hnz : NonzeroTimes p s0) {w : World F U}
    (hw : Reachable p false s0 w) (t : State F U)
    (ht : w.files.recovery = some (.complete t) ∨ ∃ name, w.files.backups name = some (.complete t)) :
    ∃ h k s, openHistory p w.files.history t = some h ∧
      uninterrupted p s0 k = some (s, h, false) ∧ SameRun t s := by
  have hi := inv_reachable p false s0 h0 hnz hw
  obtain ⟨g, hon⟩ := hi.snaps t ht
  have hlen := (lenInv_reachable p s0 h0 hnz hw).snaps t ht
  have hopen : ∃ h, openHistory p w.files.history t = some h := by
    unfold openHistory
    simp only [promised] at hlen
    rw [if_neg (by omega)]
    exact ⟨_, rfl⟩
  obtain ⟨h, hopen⟩ := hopen
  obtain ⟨k, s, e1, e2⟩ := hon
  have hlen2 := uninterrupted_length h0 e1
  obtain ⟨k', s2, h2, d2, e3, e4⟩ := hi.hist
  refine ⟨h, k + 1, s, hopen, ?_, e2⟩
  have hgh : g <+: w.files.history := by
    have hl : g.length ≤ w.files.history.length := by
      rw [hlen2, ← e2.nHistoric]; exact hlen
    rcases uninterrupted_comparable e1 e3 with hg | hg
    · rcases List.prefix_or_prefix_of_prefix hg e4 with h | h
      · exact h
      · rw [h.eq_of_length (le_antisymm h.length_le hl)]
    · have := e4.trans hg
      rw [this.eq_of_length (le_antisymm this.length_le hl)]
  unfold openHistory at hopen
  simp only at hopen
  split at hopen
  · simp at hopen
  · simp only [Option.some.injEq] at hopen
    rw [← hopen, e2.nHistoric, ← hlen2, ← List.prefix_iff_eq_take.1 hgh]
    exact e1

/-- Any number of steps. -/
abbrev Steps (p : Physics F U) (older : Bool) : World F U → World F U → Prop :=
  Relation.ReflTransGen (Step p older)

theorem reachable_steps {p : Physics F U} {older : Bool} {s0 : State F U} {w w' : World F U}
    (hw : Reachable p older s0 w) (h : Steps p older w w') : Reachable p older s0 w' := by
  induction h with
  | refl => exact hw
  | tail _ h ih => exact .step ih h

/-- A live process that is on the run can be driven to completion. -/
theorem drive (p : Physics F U) (older : Bool) (s0 : State F U) {K : Nat} {sK : State F U}
    {hK : Bytes} (hfin : uninterrupted p s0 K = some (sK, hK, true)) (n : Nat) :
    ∀ (w : World F U) (q : Proc F U) (k : Nat) (s : State F U) (h : Bytes), k + n = K →
      w.proc = some q → q.phase = .running → uninterrupted p s0 k = some (s, h, false) →
      SameRun q.st s → w.files.history ++ q.buf = h →
      ∃ w', Steps p older w w' ∧ w'.finished = true ∧ w'.proc = none ∧ w'.files.history = hK := by
  induction n with
  | zero =>
    intro w q k s h hkn hq hph hs hsame hb
    have : k = K := by omega
    subst this
    rw [hs] at hfin
    simp at hfin
  | succ n ih =>
    intro w q k s h hkn hq hph hs hsame hb
    obtain ⟨s1, h1, d1, e1, _⟩ := uninterrupted_prefix (j := k + 1) (by omega) hfin
    obtain ⟨s2, h2, b, o, e2, e3, rfl, rfl⟩ := uninterrupted_succ e1
    rw [hs] at e2
    simp only [Option.some.injEq, Prod.mk.injEq, and_true] at e2
    obtain ⟨rfl, rfl⟩ := e2
    rcases iterate_sameRun p hsame with ⟨_, h2⟩ | ⟨a, c, b', o1, o2, g1, g2, g3, g4⟩
    · rw [h2] at e3; simp at e3
    · rw [g2] at e3
      simp only [Option.some.injEq, Prod.mk.injEq] at e3
      obtain ⟨rfl, rfl, rfl⟩ := e3
      cases o1 with
      | completed =>
        have hc : o2 = .completed := by
          cases o2 with
          | completed => rfl
          | running r => simp [Outcome.isCompleted] at g4
        subst hc
        have hk : k + 1 = K := uninterrupted_done_unique e1 hfin
        refine ⟨_, Relation.ReflTransGen.single (Step.complete w q a b' hq hph g1), rfl, rfl, ?_⟩
        rw [hk, hfin] at e1
        simp only [Option.some.injEq, Prod.mk.injEq] at e1
        simp only [← hb] at e1
        rw [e1.2.1, List.append_assoc]
      | running r =>
        have hc : o2.isCompleted = false := by
          rw [← g4]; rfl
        rw [hc] at e1
        obtain ⟨w', r1, r2, r3, r4⟩ := ih { w with
            proc := some ⟨a, q.buf ++ b'.getD [], if false then .flushing else .running⟩ }
          ⟨a, q.buf ++ b'.getD [], if false then .flushing else .running⟩ (k + 1) _ _ (by omega) rfl
          rfl e1 g3 (by simp [← hb])
        exact ⟨w', Relation.ReflTransGen.head
          (Step.iterate w q a b' r false hq hph g1) r1, r2, r3, r4⟩

/-- **C05**, existence: after any execution that left the process dead and a complete snapshot at the
recovery path (the most advanced one on disk), a resume is possible and can run to completion, with the
full history of the uninterrupted run. -/
theorem C05_resume_can_complete (p : Physics F U) (s0 : State F U)
    (h0 : s0.nHistoric = 0) (hnz : NonzeroTimes p s0) {K : Nat} {sK : State F U} {hK : Bytes}
    (hfin : uninterrupted p s0 K = some (sK, hK, true))
    (minus1 : F) (hm : ltb (lit 0) minus1 = false)
    {w : World F U} (hw : Reachable p false s0 w) (hdead : w.proc = none) {t : State F U}
    (ht : w.files.recovery = some (.complete t))
    (hnewest : ∀ name t', w.files.backups name = some (.complete t') → t'.nHistoric ≤ t.nHistoric) :
    ∃ w', Steps p false w w' ∧ w'.finished = true ∧ w'.proc = none ∧ w'.files.history = hK := by
  have hi := inv_reachable p false s0 h0 hnz hw
  obtain ⟨g, k, s, e1, e2⟩ := hi.snaps t (Or.inl ht)
  have hz := hnz _ _ _ _ e1
  rw [← e2.currentTime] at hz
  obtain ⟨h, _, _, hopen, _, _⟩ :=
    C06_complete_snapshot_can_be_resumed p s0 h0 hnz hw t (Or.inl ht)
  have hr := afterRestore_nonzero p t hz
  have hsp : setSnapshotPeriods t minus1 minus1 = t := by
    unfold setSnapshotPeriods; simp [hm]
  have hst : Step p false w _ := Step.resume w t t minus1 minus1 minus1 false [] t h
    hdead ht hm hm hr (by rw [hsp, setTimeLimit_unchanged _ _ _ _ hm]) hopen (Or.inr hnewest)
  have hg : h = g := (resume_facts p s0 h0 hnz ⟨k, s, e1, e2⟩ hm hm hr
    (by rw [hsp, setTimeLimit_unchanged _ _ _ _ hm]) hopen hi.hist (np := minus1) (rp := minus1)
    (evo := false) (ages := [])).2.1
  subst hg
  have hkK : k + 1 ≤ K := by
    by_contra hlt
    obtain ⟨sj, hj, dj, c1, _⟩ := uninterrupted_prefix (j := K + 1) (by omega) e1
    obtain ⟨s1, h1, _, _, c2, _⟩ := uninterrupted_succ c1
    rw [hfin] at c2
    simp at c2
  obtain ⟨w', r1, r2⟩ := drive p false s0 hfin (K - (k + 1))
    { files := { w.files with history := h }
      proc := some ⟨t, [], .running⟩
      finished := false } ⟨t, [], .running⟩ (k + 1) s h (by omega) rfl
    rfl e1 e2 (by simp)
  exact ⟨w', Relation.ReflTransGen.head hst r1, r2⟩

/-- **C07 is violated** by every simulation of at least two non-final iterations: there is an
execution in which a first snapshot is completely written and, after a later crash, the recovery path
holds no file at all (the old file has been renamed, the new one not yet created) - and another one in
which it holds an incomplete file. -/
theorem C07_violated (p : Physics F U) (older : Bool) (s0 s : State F U) (h : Bytes)
    (h2 : uninterrupted p s0 2 = some (s, h, false)) :
    ∃ w1 t w2 w3, Reachable p older s0 w1 ∧ w1.files.recovery = some (.complete t) ∧
      Steps p older w1 w2 ∧ w2.proc = none ∧ w2.files.recovery = none ∧
      Steps p older w1 w3 ∧ w3.proc = none ∧ w3.files.recovery = some .incomplete := by
  obtain ⟨s1, h1, b, o, e1, e2, _, hd⟩ := uninterrupted_succ h2
  obtain ⟨s00, h00, b0, o0, e3, e4, _, hd0⟩ := uninterrupted_succ e1
  simp only [uninterrupted, Option.some.injEq, Prod.mk.injEq] at e3
  obtain ⟨rfl, _⟩ := e3
  cases o0 with
  | completed => simp [Outcome.isCompleted] at hd0
  | running r0 =>
    rcases o with _ | r
    · simp [Outcome.isCompleted] at hd
    · have key : ∀ st : State F U, SameRun st s1 → ∃ st' b' r',
          iterate p st = some (st', b', .running r') := by
        intro st hst
        rcases iterate_sameRun p hst with ⟨_, g⟩ | ⟨a, c, b', o1, o2, g1, g2, g3, g4⟩
        · rw [g] at e2; simp at e2
        · rw [g2] at e2
          simp only [Option.some.injEq, Prod.mk.injEq] at e2
          obtain ⟨rfl, rfl, rfl⟩ := e2
          cases o1 with
          | completed => simp [Outcome.isCompleted] at g4
          | running r' => exact ⟨_, _, _, g1⟩
      -- first snapshot
      have r0 := Reachable.start (p := p) (older := older) (s0 := s0)
      have r1 := Reachable.step r0 (Step.iterate _ _ s1 b0 _ true (by rfl) (by rfl) e4)
      have r2 := Reachable.step r1 (Step.flush _ _ (by rfl) (by rfl))
      have r3 := Reachable.step r2 (Step.noRename _ _ (by rfl) (by rfl) (by rfl))
      have r4 := Reachable.step r3 (Step.create _ _ (by rfl) (by rfl))
      have r5 := Reachable.step r4 (Step.written _ _ (by rfl) (by rfl))
      obtain ⟨w1, hw1, hr1, hp1⟩ : ∃ w1 : World F U, Reachable p older s0 w1 ∧
          w1.files.recovery = some (.complete (stampRecovery p s1)) ∧
          w1.proc = some ⟨stampRecovery p s1, [], .running⟩ := ⟨_, r5, by rfl, by rfl⟩
      obtain ⟨st', b', r', hit⟩ := key (stampRecovery p s1) (stampRecovery_sameRun p s1)
      -- second snapshot
      have q1 := Relation.ReflTransGen.single
        (Step.iterate (older := older) w1 _ st' b' r' true hp1 (by rfl) hit)
      have q2 := q1.tail (Step.flush _ _ (by rfl) (by rfl))
      have q3 := q2.tail (Step.rename _ _ _ 0 (by rfl) (by rfl) hr1)
      have q4 := q3.tail (Step.crash _ _ (by rfl))
      have q5 := (q3.tail (Step.create _ _ (by rfl) (by rfl))).tail (Step.crash _ _ (by rfl))
      exact ⟨w1, _, _, _, hw1, hr1, q4, by rfl, by rfl, q5, by rfl, by rfl⟩

/-- After such a crash no resume is possible from the recovery path: the only steps left to the world
are the user's copies of backups. -/
theorem C07_violated_no_resume (p : Physics F U) (older : Bool) (w w' : World F U)
    (hp : w.proc = none) (hr : ∀ t, w.files.recovery ≠ some (.complete t)) (h : Step p older w w') :
    w'.proc = none := by
  cases h with
  | restoreBackup c name hq hc => exact hp
  | resume s s' np rp nl evo ages s'' history' hq hc => exact absurd hc (hr s)
  | spill q n hq => rw [hp] at hq; simp at hq
  | iterate q s' b due wr hq hph hit => rw [hp] at hq; simp at hq
  | complete q s' b hq hph hit => rfl
  | flush q hq hph => rw [hp] at hq; simp at hq
  | rename q c name hq hph hc => rw [hp] at hq; simp at hq
  | noRename q hq hph hc => rw [hp] at hq; simp at hq
  | create q hq hph => rw [hp] at hq; simp at hq
  | written q hq hph => rw [hp] at hq; simp at hq
  | crash q hq => rfl

/-- **C07, what holds instead** (missing: that the complete snapshot is at the recovery path): once a
recovery snapshot has been completed, at every later moment some complete snapshot is on disk, at
the recovery path or as a backup. -/
theorem C07_partial (p : Physics F U) (older : Bool) (s0 : State F U) {w w' : World F U}
    (hw : Reachable p older s0 w) {t : State F U}
    (ht : w.files.recovery = some (.complete t) ∨ ∃ name, w.files.backups name = some (.complete t))
    (hsteps : Steps p older w w') :
    ∃ t', w'.files.recovery = some (.complete t') ∨
      ∃ name, w'.files.backups name = some (.complete t') := by
  induction hsteps with
  | refl => exact ⟨t, ht⟩
  | tail h1 h2 ih =>
    rename_i w1 w2
    have hsh := shapeInv_reachable p older s0 (reachable_steps hw h1)
    obtain ⟨t1, ih⟩ := ih
    cases h2 with
    | spill q n hq => exact ⟨t1, ih⟩
    | iterate q s' b due wr hq hph hit => exact ⟨t1, ih⟩
    | complete q s' b hq hph hit => exact ⟨t1, ih⟩
    | flush q hq hph => exact ⟨t1, ih⟩
    | rename q c name hq hph hc =>
      have := hsh.early q hq (Or.inr (Or.inr hph))
      cases c with
      | incomplete => exact absurd hc this
      | complete s => exact ⟨s, Or.inr ⟨name, by simp⟩⟩
    | noRename q hq hph hc => exact ⟨t1, ih⟩
    | create q hq hph =>
      have := hsh.creating q hq hph
      rcases ih with h | h
      · rw [this] at h; simp at h
      · exact ⟨t1, Or.inr h⟩
    | written q hq hph => exact ⟨q.st, Or.inl rfl⟩
    | crash q hq => exact ⟨t1, ih⟩
    | restoreBackup c name hq hc =>
      cases c with
      | incomplete => exact absurd hc (hsh.backups name)
      | complete s => exact ⟨s, Or.inl rfl⟩
    | resume s s' np rp nl evo ages s'' history' hq hc => exact ⟨t1, ih⟩

/-- A step that does not bring a new complete snapshot to the recovery path. -/
def QuietStep (p : Physics F U) (older : Bool) (w w' : World F U) : Prop :=
  Step p older w w' ∧ ∀ c, w'.files.recovery = some (.complete c) →
    w.files.recovery = some (.complete c)

/-- **C07, what holds instead**, sharper: the most recently completed snapshot survives, at the
recovery path or as a backup, until the next one is complete. -/
theorem C07_partial_newest_survives (p : Physics F U) (older : Bool) (s0 : State F U)
    {w w' : World F U} (hw : Reachable p older s0 w) {t : State F U}
    (ht : w.files.recovery = some (.complete t))
    (hsteps : Relation.ReflTransGen (QuietStep p older) w w') :
    w'.files.recovery = some (.complete t) ∨
      ∃ name, w'.files.backups name = some (.complete t) := by
  have key : Reachable p older s0 w' ∧
      (w'.files.recovery = some (.complete t) ∨
        ((∃ name, w'.files.backups name = some (.complete t)) ∧
          (∀ q, w'.proc = some q → q.phase = .creating ∨ q.phase = .writing) ∧
          ∀ c, w'.files.recovery ≠ some (.complete c))) := by
    induction hsteps with
    | refl => exact ⟨hw, Or.inl ht⟩
    | tail h1 h2 ih =>
      rename_i w1 w2
      obtain ⟨hr, ih⟩ := ih
      refine ⟨.step hr h2.1, ?_⟩
      have hsh := shapeInv_reachable p older s0 hr
      have hsh2 := shapeInv_reachable p older s0 (Reachable.step hr h2.1)
      obtain ⟨hst, hq1⟩ := h2
      rcases ih with ih | ⟨ih1, ih2, ih3⟩
      · cases hst with
        | spill q n hq => exact Or.inl ih
        | iterate q s' b due wr hq hph hit => exact Or.inl ih
        | complete q s' b hq hph hit => exact Or.inl ih
        | flush q hq hph => exact Or.inl ih
        | rename q c name hq hph hc =>
          right
          rw [ih, Option.some.injEq] at hc
          subst hc
          refine ⟨⟨name, by simp⟩, ?_, by simp⟩
          intro q' hq'
          simp only [Option.some.injEq] at hq'
          subst hq'
          exact Or.inl rfl
        | noRename q hq hph hc => exact Or.inl ih
        | create q hq hph =>
          rw [hsh.creating q hq hph] at ih; simp at ih
        | written q hq hph => rw [hsh.writing q hq hph] at ih; simp at ih
        | crash q hq => exact Or.inl ih
        | restoreBackup c name hq hc =>
          cases c with
          | incomplete => exact absurd hc (hsh.backups name)
          | complete s =>
            have := hq1 s rfl
            rw [ih] at this
            exact Or.inl this.symm
        | resume s s' np rp nl evo ages s'' history' hq hc => exact Or.inl ih
      · right
        cases hst with
        | spill q n hq =>
          refine ⟨ih1, ?_, ih3⟩
          intro q' hq'
          simp only [Option.some.injEq] at hq'
          subst hq'
          exact ih2 q hq
        | iterate q s' b due wr hq hph hit =>
          rcases ih2 q hq with h | h <;> rw [hph] at h <;> simp at h
        | complete q s' b hq hph hit => exact ⟨ih1, by simp, ih3⟩
        | flush q hq hph => rcases ih2 q hq with h | h <;> rw [hph] at h <;> simp at h
        | rename q c name hq hph hc => rcases ih2 q hq with h | h <;> rw [hph] at h <;> simp at h
        | noRename q hq hph hc => rcases ih2 q hq with h | h <;> rw [hph] at h <;> simp at h
        | create q hq hph =>
          refine ⟨ih1, ?_, by simp⟩
          intro q' hq'
          simp only [Option.some.injEq] at hq'
          subst hq'
          exact Or.inr rfl
        | written q hq hph =>
          exact absurd (hq1 q.st rfl) (ih3 q.st)
        | crash q hq => exact ⟨ih1, by simp, ih3⟩
        | restoreBackup c name hq hc =>
          exact ⟨ih1, ih2, fun c' hc' => ih3 c' (hq1 c' hc')⟩
        | resume s s' np rp nl evo ages s'' history' hq hc => exact absurd hc (ih3 s)
  rcases key.2 with h | h
  · exact Or.inl h
  · exact Or.inr h.1

end Any

/-! ## The time hypothesis of C05 and C06 in exact arithmetic -/

section Real
variable {U : Type} {p : Physics ℝ U}

/-- A fixed-step run with a positive time step never returns to time 0. -/
theorem nonzeroTimes_fixed (hf : p.FixedStep) {dt : ℝ} (hdt : 0 < dt) (rp hp T : ℝ) (u : U) :
    NonzeroTimes p (State.fresh dt rp hp T u) := by
  intro k s h d hk
  have h1 := (fixed_time hf hk).1
  rw [eqb_real_false, h1]
  simp only [lit_real, Rat.cast_zero]
  positivity

/-- **C05** for the fixed-step integrators, without side conditions other than `0 < dt`. -/
theorem C05_fixed_step (hf : p.FixedStep) {dt : ℝ} (hdt : 0 < dt) (rp hp T : ℝ) (u : U)
    (older : Bool) {w : World ℝ U} (hw : Reachable p older (State.fresh dt rp hp T u) w)
    (hfin : w.finished = true) :
    ∃ k s, uninterrupted p (State.fresh dt rp hp T u) k = some (s, w.files.history, true) := by
  obtain ⟨k, s, e, _⟩ := C05_resume_reproduces_history p older (State.fresh dt rp hp T u) rfl
    (nonzeroTimes_fixed hf hdt rp hp T u) hw hfin
  exact ⟨k, s, e⟩

end Real

/-! ## Examples (instances of the hypotheses, on the toy simulation of `Lemmas/Toy`) -/

section Examples

/-- C04: snapshots after every second iteration, and a different recovery period. -/
example : ∃ s t h, withRecoverySnapshots toy (fun k => k % 2 == 0)
      { toyStart with recoveryPeriod := 1/7 } 5 = some (s, h, true) ∧
    uninterrupted toy toyStart 5 = some (t, h, true) := by
  obtain ⟨t, h, e⟩ := toy_completes
  have := C04_recovery_snapshots_are_invisible toy (fun k => k % 2 == 0)
    { toyStart with recoveryPeriod := 1/7 } toyStart
    ⟨rfl, rfl, rfl, rfl, rfl, rfl, rfl, rfl, rfl⟩ 5
  rcases this with ⟨_, h2⟩ | ⟨s, t', h', d, e1, e2, _⟩
  · rw [e] at h2; simp at h2
  · rw [e] at e2
    simp only [Option.some.injEq, Prod.mk.injEq] at e2
    obtain ⟨rfl, rfl, rfl⟩ := e2
    exact ⟨s, t, h, e1, e⟩

theorem toy_nonzero : NonzeroTimes toy toyStart :=
  nonzeroTimes_fixed toy_fixed one_pos 3 2 5 0

/-- A crash of the toy simulation right after its first recovery snapshot. -/
theorem toy_crashed : ∃ (w : World ℝ ℕ) (t : State ℝ ℕ), Reachable toy false toyStart w ∧
    w.proc = none ∧ w.files.recovery = some (.complete t) ∧ ∀ name, w.files.backups name = none := by
  obtain ⟨s1, h1, e1⟩ := toy_running 1 (by omega)
  obtain ⟨s0, h0, b, o, e3, e4, _, hd⟩ := uninterrupted_succ e1
  simp only [uninterrupted, Option.some.injEq, Prod.mk.injEq] at e3
  obtain ⟨rfl, _⟩ := e3
  cases o with
  | completed => simp [Outcome.isCompleted] at hd
  | running r =>
    have r0 := Reachable.start (p := toy) (older := false) (s0 := toyStart)
    have r1 := Reachable.step r0 (Step.iterate _ _ s1 b _ true (by rfl) (by rfl) e4)
    have r2 := Reachable.step r1 (Step.flush _ _ (by rfl) (by rfl))
    have r3 := Reachable.step r2 (Step.noRename _ _ (by rfl) (by rfl) (by rfl))
    have r4 := Reachable.step r3 (Step.create _ _ (by rfl) (by rfl))
    have r5 := Reachable.step r4 (Step.written _ _ (by rfl) (by rfl))
    have r6 := Reachable.step r5 (Step.crash _ _ (by rfl))
    exact ⟨_, _, r6, by rfl, by rfl, fun _ => by rfl⟩

/-- C05, C06: the crashed toy simulation can be resumed (C06), can complete (C05_resume_can_complete),
and then its history is that of the uninterrupted run (C05_resume_reproduces_history). -/
example : ∃ (w : World ℝ ℕ) (k : Nat) (s : State ℝ ℕ), Reachable toy false toyStart w ∧
    w.finished = true ∧ uninterrupted toy toyStart k = some (s, w.files.history, true) := by
  obtain ⟨w, t, hw, hdead, ht, hb⟩ := toy_crashed
  obtain ⟨sK, hK, hfin⟩ := toy_completes
  obtain ⟨w', h1, h2, _, _⟩ := C05_resume_can_complete toy toyStart rfl toy_nonzero hfin (-1)
    (by simp) hw hdead ht (by intro name t' h; rw [hb] at h; simp at h)
  have hr := reachable_steps hw h1
  obtain ⟨k, s, e, _⟩ := C05_resume_reproduces_history toy false toyStart rfl toy_nonzero hr h2
  exact ⟨w', k, s, hr, h2, e⟩

/-- C06, first form, on the crashed toy simulation. -/
example : ∃ (w : World ℝ ℕ) (t : State ℝ ℕ), Reachable toy false toyStart w ∧
    w.files.recovery = some (.complete t) ∧
    t.nHistoric * 156 * 1 ≤ w.files.history.length := by
  obtain ⟨w, t, hw, hdead, ht, hb⟩ := toy_crashed
  exact ⟨w, t, hw, ht, C06_history_covers_snapshots toy toyStart rfl toy_nonzero hw t (Or.inl ht)⟩

/-- C07: the toy simulation has the execution that loses the recovery file; a backup remains. -/
example : ∃ w2 : World ℝ ℕ, Reachable toy false toyStart w2 ∧ w2.proc = none ∧
    w2.files.recovery = none ∧ ∃ t' name, w2.files.backups name = some (.complete t') := by
  obtain ⟨s, h, e⟩ := toy_running 2 (by omega)
  obtain ⟨w1, t, w2, w3, a1, a2, a3, a4, a5, _⟩ := C07_violated toy false toyStart s h e
  obtain ⟨t', h' | ⟨name, h'⟩⟩ := C07_partial toy false toyStart a1 (Or.inl a2) a3
  · rw [a5] at h'; simp at h'
  · exact ⟨w2, reachable_steps a1 a3, a4, a5, t', name, h'⟩

end Examples

end Posidonius.Disk
