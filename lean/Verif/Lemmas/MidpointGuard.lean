import Verif.Model.Midpoint
import Mathlib.Tactic.NormNum

/-! The implicit midpoint with an evaluation that is only used on states with an invariant. -/

namespace Posidonius.WHFast

section
variable {F : Type} [Add F] [Sub F] [Mul F] [Div F] [Neg F] [FOps F] {S : Type}

open Classical in
/-- The evaluation on states with `P` and `N` motions only. -/
noncomputable def guarded (P : S → Prop) (N : ℕ) (eval : Evaluate S F) : Evaluate S F := fun s b l =>
  if P s ∧ l.length = N then eval s b l else none

/-- The evaluation keeps the invariant. -/
def Keeps (P : S → Prop) (N : ℕ) (eval : Evaluate S F) : Prop :=
  ∀ s b l s' r, P s → l.length = N → eval s b l = some (s', r) → P s' ∧ r.length = N

variable {P : S → Prop} {N : ℕ} {eval : Evaluate S F} {dt : F} {spin evolution : Bool}

theorem guarded_eq {s : S} (hs : P s) {l : List (Motion F)} (hl : l.length = N) (b : Bool) :
    guarded P N eval s b l = eval s b l := by
  unfold guarded
  rw [if_pos ⟨hs, hl⟩]

theorem midpointLoop_guarded (he : Keeps P N eval) {orig errors : List (Motion F)} (ho : orig.length = N)
    (hr : errors.length = N) {left i : ℕ} {s : S} {avg prev change : List (Motion F)} (hs : P s) (ha : avg.length = N)
    (hp : prev.length = N) :
    midpointLoop (guarded P N eval) dt spin evolution orig errors left i s avg prev change
      = midpointLoop eval dt spin evolution orig errors left i s avg prev change
    ∧ ∀ s' final change', midpointLoop eval dt spin evolution orig errors left i s avg prev change
      = some (s', final, change') → P s' ∧ final.length = N ∧ (0 < left ∨ change.length = N → change'.length = N) := by
  induction left generalizing i s avg prev change with
  | zero => exact ⟨rfl, fun s' final change' h => by cases h; exact ⟨hs, hp, by simp⟩⟩
  | succ left ih =>
    unfold midpointLoop
    rw [guarded_eq hs ha]
    cases e : eval s (evolution && i == 0) avg with
    | none => exact ⟨rfl, fun s' final change' h => by cases h⟩
    | some p =>
      obtain ⟨s1, r⟩ := p
      obtain ⟨c, d⟩ := he _ _ _ _ _ hs ha e
      have hf : (List.zipWith (finalOf spin) orig (List.zipWith (changeOf dt spin) r errors)).length = N := by
        simp [ho, hr, d]
      have hc : (List.zipWith (changeOf dt spin) r errors).length = N := by simp [hr, d]
      dsimp only
      split
      · exact ⟨rfl, fun s' final change' h => by cases h; exact ⟨c, hf, fun _ => hc⟩⟩
      · obtain ⟨i1, i2⟩ := ih (i := i + 1) (change := List.zipWith (changeOf dt spin) r errors) c
          (avg := List.zipWith (averageOf spin) orig
            (List.zipWith (finalOf spin) orig (List.zipWith (changeOf dt spin) r errors))) (by simp [ho, hf]) hf
        refine ⟨i1, fun s' final change' h => ?_⟩
        obtain ⟨j1, j2, j3⟩ := i2 s' final change' h
        exact ⟨j1, j2, fun _ => j3 (Or.inr hc)⟩

theorem errorsOf_length (os fs cs es : List (Motion F)) (h1 : os.length = N) (h2 : fs.length = N)
    (h3 : cs.length = N) (h4 : es.length = N) : (errorsOf spin os fs cs es).length = N := by
  induction os generalizing fs cs es N with
  | nil => subst h1; simp [errorsOf]
  | cons o os ih =>
    match fs, cs, es, N, h1, h2, h3, h4 with
    | f :: fs, c :: cs, e :: es, n + 1, h1, h2, h3, h4 =>
      simp only [errorsOf, List.length_cons]
      rw [ih fs cs es (by simpa using h1) (by simpa using h2) (by simpa using h3) (by simpa using h4)]

/-- On states with the invariant nothing changes, and the invariant is kept. -/
theorem midpoint_guarded (he : Keeps P N eval) {orig errors : List (Motion F)} (ho : orig.length = N)
    (hr : errors.length = N) {s : S} (hs : P s) :
    midpoint (guarded P N eval) dt spin evolution s orig errors = midpoint eval dt spin evolution s orig errors
    ∧ ∀ s' final errors', midpoint eval dt spin evolution s orig errors = some (s', final, errors') →
      P s' ∧ final.length = N ∧ errors'.length = N := by
  obtain ⟨a, b⟩ := midpointLoop_guarded (dt := dt) (spin := spin) (evolution := evolution) (left := 10) (i := 0)
    (change := []) he ho hr hs ho ho
  unfold midpoint
  rw [a]
  refine ⟨rfl, fun s' final errors' h => ?_⟩
  split at h
  · cases h
  · next e =>
    cases h
    obtain ⟨b1, b2, b3⟩ := b _ _ _ e
    exact ⟨b1, b2, errorsOf_length _ _ _ _ ho b2 (b3 (Or.inl (by norm_num))) hr⟩

/-- It succeeds if all evaluations do. -/
theorem midpoint_defined (he : Keeps P N eval) (ht : ∀ s b l, P s → l.length = N → (eval s b l).isSome)
    {orig errors : List (Motion F)} (ho : orig.length = N) (hr : errors.length = N) {s : S} (hs : P s) :
    (midpoint eval dt spin evolution s orig errors).isSome := by
  have key : ∀ left i s avg prev change, P s → avg.length = N →
      (midpointLoop eval dt spin evolution orig errors left i s avg prev change).isSome := by
    intro left
    induction left with
    | zero => intros; rfl
    | succ left ih =>
      intro i s avg prev change hs ha
      unfold midpointLoop
      have := ht s (evolution && i == 0) avg hs ha
      split
      · next e => rw [e] at this; cases this
      · next s1 r e =>
        obtain ⟨c, d⟩ := he _ _ _ _ _ hs ha e
        dsimp only
        split
        · rfl
        · exact ih _ _ _ _ _ c (by simp [ho, hr, d])
  unfold midpoint
  have := key 10 0 s orig orig [] hs ho
  split
  · next e => rw [e] at this; cases this
  · rfl

end
end Posidonius.WHFast
