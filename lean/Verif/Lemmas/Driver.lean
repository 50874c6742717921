import Verif.Spec.Driver
import Verif.Lemmas.Output
import Verif.Props.Output

namespace Posidonius.Driver
open Posidonius.Output
variable {F U : Type} [Add F] [FOps F]
set_option linter.unusedSectionVars false

theorem SameRun.refl (s : State F U) : SameRun s s := ⟨rfl, rfl, rfl, rfl, rfl, rfl, rfl, rfl, rfl⟩

theorem SameRun.symm {s t : State F U} (h : SameRun s t) : SameRun t s :=
  ⟨h.1.symm, h.2.symm, h.3.symm, h.4.symm, h.5.symm, h.6.symm, h.7.symm, h.8.symm, h.9.symm⟩

theorem SameRun.trans {s t u : State F U} (h : SameRun s t) (h' : SameRun t u) : SameRun s u :=
  ⟨h.1.trans h'.1, h.2.trans h'.2, h.3.trans h'.3, h.4.trans h'.4, h.5.trans h'.5, h.6.trans h'.6,
   h.7.trans h'.7, h.8.trans h'.8, h.9.trans h'.9⟩

/-- `t` is `s` with other recovery bookkeeping. -/
theorem SameRun.eq {s t : State F U} (h : SameRun s t) :
    ∃ a b c, t = { s with lastRecovery := a, recoveryPeriod := b, hash := c } := by
  refine ⟨t.lastRecovery, t.recoveryPeriod, t.hash, ?_⟩
  cases s; cases t
  obtain ⟨h1, h2, h3, h4, h5, h6, h7, h8, h9⟩ := h
  simp only at *
  subst h1 h2 h3 h4 h5 h6 h7 h8 h9
  rfl

theorem sameRun_with (s : State F U) (a b : F) (c : Nat) :
    SameRun s { s with lastRecovery := a, recoveryPeriod := b, hash := c } :=
  ⟨rfl, rfl, rfl, rfl, rfl, rfl, rfl, rfl, rfl⟩

theorem recordPhase_with (p : Physics F U) (s : State F U) (a b : F) (c : Nat) :
    recordPhase p { s with lastRecovery := a, recoveryPeriod := b, hash := c } =
      (recordPhase p s).map fun r =>
        ({ r.1 with lastRecovery := a, recoveryPeriod := b, hash := c }, r.2) := by
  by_cases hc : (firstTrigger s || historicTrigger s) = true
  · have hc' : (firstTrigger { s with lastRecovery := a, recoveryPeriod := b, hash := c } ||
        historicTrigger { s with lastRecovery := a, recoveryPeriod := b, hash := c }) = true := hc
    unfold recordPhase
    rw [if_pos hc, if_pos hc']
    simp only
    cases p.observe s.currentTime s.univ with
    | none => rfl
    | some u => rfl
  · have hc' : ¬ (firstTrigger { s with lastRecovery := a, recoveryPeriod := b, hash := c } ||
        historicTrigger { s with lastRecovery := a, recoveryPeriod := b, hash := c }) = true := hc
    unfold recordPhase
    rw [if_neg hc, if_neg hc']; rfl

theorem stepPhase_with (p : Physics F U) (s : State F U) (a b : F) (c : Nat) :
    stepPhase p { s with lastRecovery := a, recoveryPeriod := b, hash := c } =
      (stepPhase p s).map fun r =>
        { r with lastRecovery := a, recoveryPeriod := b, hash := c } := by
  unfold stepPhase
  cases p.scheme with
  | leapfrog step =>
    simp only
    cases step s.currentTime s.timeStep s.halfTimeStep s.univ <;> rfl
  | whfast step =>
    simp only
    cases step s.currentTime s.timeStep s.halfTimeStep s.univ <;> rfl
  | ias15 step =>
    simp only
    rcases step s.currentTime s.timeStep s.univ with _ | ⟨u, d, n⟩ <;> rfl

/-- Whether an outcome is completion, forgetting the recovery trigger. -/
def Outcome.isCompleted : Outcome → Bool
  | .completed => true
  | .running _ => false

/-- An iteration does not depend on the recovery bookkeeping, except for the recovery trigger. -/
theorem iterate_sameRun (p : Physics F U) {s t : State F U} (h : SameRun s t) :
    (iterate p s = none ∧ iterate p t = none) ∨
    ∃ s' t' b o o', iterate p s = some (s', b, o) ∧ iterate p t = some (t', b, o') ∧
      SameRun s' t' ∧ o.isCompleted = o'.isCompleted := by
  obtain ⟨a, b, c, rfl⟩ := h.eq
  unfold iterate
  rw [recordPhase_with p s a b c]
  cases h1 : recordPhase p s with
  | none => left; exact ⟨rfl, rfl⟩
  | some r =>
    obtain ⟨s1, bytes⟩ := r
    simp only [Option.map_some]
    rw [stepPhase_with p s1 a b c]
    cases h2 : stepPhase p s1 with
    | none => left; exact ⟨rfl, rfl⟩
    | some s2 =>
      right
      simp only [Option.map_some]
      split
      · exact ⟨_, _, _, _, _, rfl, rfl, ⟨rfl, rfl, rfl, rfl, rfl, rfl, rfl, rfl, rfl⟩, rfl⟩
      · exact ⟨_, _, _, _, _, rfl, rfl, ⟨rfl, rfl, rfl, rfl, rfl, rfl, rfl, rfl, rfl⟩, rfl⟩

/-- The record counter counts the records and each has the size the reader of the counter expects. -/
theorem iterate_count (p : Physics F U) {s s' : State F U} {b : Option Bytes} {o : Outcome}
    (h : iterate p s = some (s', b, o)) :
    (b = none ∧ s'.nHistoric = s.nHistoric) ∨
    (∃ bytes, b = some bytes ∧ s'.nHistoric = s.nHistoric + 1 ∧
      bytes.length = 156 * p.nParticles) := by
  unfold iterate at h
  cases h1 : recordPhase p s with
  | none => simp [h1] at h
  | some r =>
    obtain ⟨s1, bytes⟩ := r
    simp only [h1] at h
    cases h2 : stepPhase p s1 with
    | none => simp [h2] at h
    | some s2 =>
      simp only [h2] at h
      have hs2 : s2.nHistoric = s1.nHistoric := by
        unfold stepPhase at h2
        split at h2 <;> split at h2 <;> first
          | (simp at h2; done)
          | (simp only [Option.some.injEq] at h2; subst h2; rfl)
      have hb : s' = s2 ∧ b = bytes := by
        split at h <;> simp only [Option.some.injEq, Prod.mk.injEq] at h <;>
          exact ⟨h.1.symm, h.2.1.symm⟩
      obtain ⟨rfl, rfl⟩ := hb
      unfold recordPhase at h1
      split at h1
      · cases hobs : p.observe s.currentTime s.univ with
        | none => simp [hobs] at h1
        | some u =>
          simp only [hobs, Option.some.injEq, Prod.mk.injEq] at h1
          obtain ⟨rfl, rfl⟩ := h1
          right
          refine ⟨_, rfl, hs2, ?_⟩
          obtain ⟨bb, h1, h2⟩ := C01_record_appends []
            ⟨p.bits s.currentTime, p.bits s.timeStep, p.view u⟩
          simp only [historyFile, List.nil_append, List.flatMap_cons, List.flatMap_nil,
            List.append_nil] at h1
          rw [h1, h2]
          simp only [p.view_length]
      · simp only [Option.some.injEq, Prod.mk.injEq] at h1
        obtain ⟨rfl, rfl⟩ := h1
        left; exact ⟨rfl, hs2⟩

theorem uninterrupted_succ {p : Physics F U} {s0 : State F U} {k : Nat} {s' : State F U}
    {h' : Bytes} {d : Bool} (h : uninterrupted p s0 (k + 1) = some (s', h', d)) :
    ∃ s h b o, uninterrupted p s0 k = some (s, h, false) ∧ iterate p s = some (s', b, o) ∧
      h' = h ++ b.getD [] ∧ d = o.isCompleted := by
  unfold uninterrupted at h
  split at h
  · rename_i s hh heq
    split at h
    · rename_i hit
      simp only [Option.some.injEq, Prod.mk.injEq] at h
      obtain ⟨rfl, rfl, rfl⟩ := h
      exact ⟨_, _, _, _, heq, hit, rfl, rfl⟩
    · rename_i hit
      simp only [Option.some.injEq, Prod.mk.injEq] at h
      obtain ⟨rfl, rfl, rfl⟩ := h
      exact ⟨_, _, _, _, heq, hit, rfl, rfl⟩
    · simp at h
  · simp at h

theorem uninterrupted_step {p : Physics F U} {s0 s s' : State F U} {k : Nat} {h : Bytes}
    {b : Option Bytes} {o : Outcome} (hk : uninterrupted p s0 k = some (s, h, false))
    (hit : iterate p s = some (s', b, o)) :
    uninterrupted p s0 (k + 1) = some (s', h ++ b.getD [], o.isCompleted) := by
  unfold uninterrupted
  rw [hk]
  simp only [hit]
  cases o <;> rfl

theorem uninterrupted_length {p : Physics F U} {s0 : State F U} (h0 : s0.nHistoric = 0) {k : Nat}
    {s : State F U} {h : Bytes} {d : Bool} (hk : uninterrupted p s0 k = some (s, h, d)) :
    h.length = expectedNBytes s.nHistoric p.nParticles := by
  induction k generalizing s h d with
  | zero =>
    simp only [uninterrupted, Option.some.injEq, Prod.mk.injEq] at hk
    obtain ⟨rfl, rfl, rfl⟩ := hk
    simp [h0, expectedNBytes]
  | succ k ih =>
    obtain ⟨s1, h1, b, o, e1, e2, rfl, rfl⟩ := uninterrupted_succ hk
    have l1 := ih e1
    rcases iterate_count p e2 with ⟨rfl, hn⟩ | ⟨bytes, rfl, hn, hl⟩
    · simp [hn, l1]
    · simp only [List.length_append, Option.getD_some, hn, l1, hl, expectedNBytes, nBytesPerParticle]
      ring

/-- Earlier histories are prefixes of later ones. -/
theorem uninterrupted_prefix {p : Physics F U} {s0 : State F U} {j k : Nat} (hjk : j ≤ k)
    {s : State F U} {h : Bytes} {d : Bool} (hk : uninterrupted p s0 k = some (s, h, d)) :
    ∃ sj hj dj, uninterrupted p s0 j = some (sj, hj, dj) ∧ hj <+: h := by
  induction k generalizing s h d with
  | zero =>
    have : j = 0 := by omega
    subst this
    exact ⟨s, h, d, hk, List.prefix_refl _⟩
  | succ k ih =>
    rcases Nat.lt_or_ge j (k + 1) with hlt | hge
    · obtain ⟨s1, h1, b, o, e1, e2, rfl, rfl⟩ := uninterrupted_succ hk
      obtain ⟨sj, hj, dj, e3, e4⟩ := ih (by omega) e1
      exact ⟨sj, hj, dj, e3, e4.trans (List.prefix_append _ _)⟩
    · have : j = k + 1 := by omega
      subst this
      exact ⟨s, h, d, hk, List.prefix_refl _⟩

/-- Histories of the same run are comparable. -/
theorem uninterrupted_comparable {p : Physics F U} {s0 : State F U} {j k : Nat}
    {s t : State F U} {h g : Bytes} {d e : Bool}
    (hj : uninterrupted p s0 j = some (s, h, d)) (hk : uninterrupted p s0 k = some (t, g, e)) :
    h <+: g ∨ g <+: h := by
  rcases le_total j k with hle | hle
  · obtain ⟨_, _, _, e1, e2⟩ := uninterrupted_prefix hle hk
    rw [hj] at e1
    simp only [Option.some.injEq, Prod.mk.injEq] at e1
    obtain ⟨_, rfl, _⟩ := e1
    exact Or.inl e2
  · obtain ⟨_, _, _, e1, e2⟩ := uninterrupted_prefix hle hj
    rw [hk] at e1
    simp only [Option.some.injEq, Prod.mk.injEq] at e1
    obtain ⟨_, rfl, _⟩ := e1
    exact Or.inr e2

/-- There is one point of completion. -/
theorem uninterrupted_done_unique {p : Physics F U} {s0 : State F U} {j k : Nat}
    {s t : State F U} {h g : Bytes}
    (hj : uninterrupted p s0 j = some (s, h, true)) (hk : uninterrupted p s0 k = some (t, g, true)) :
    j = k := by
  have key : ∀ {a b : Nat} {s t : State F U} {h g : Bytes} {d : Bool},
      uninterrupted p s0 a = some (s, h, true) → uninterrupted p s0 b = some (t, g, d) →
      b ≤ a := by
    intro a b s t h g d ha hb
    by_contra hlt
    obtain ⟨sj, hj, dj, e1, _⟩ := uninterrupted_prefix (j := a + 1) (by omega) hb
    obtain ⟨s1, h1, _, _, e2, _⟩ := uninterrupted_succ e1
    rw [ha] at e2
    simp at e2
  exact le_antisymm (key hk hj) (key hj hk)

end Posidonius.Driver
