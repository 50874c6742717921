import Verif.Lemmas.Univ

/-! Which fields the effects leave alone. -/

namespace Posidonius.Univ
open Gravity (Ignore)

section combinators
variable {n : Nat} {P Q : Type}

/-- The particles of `q` agree with those of `p` up to the fields forgotten by `E`. -/
def Same (E : P → Q) (q p : Fin n → P) : Prop := ∀ i, E (q i) = E (p i)

variable {E : P → Q}

theorem Same.refl (p : Fin n → P) : Same E p p := fun _ => rfl

theorem Same.trans {p q r : Fin n → P} (a : Same E r q) (b : Same E q p) : Same E r p :=
  fun i => (a i).trans (b i)

theorem Same.ite {c : Bool} {p q r : Fin n → P} (a : Same E q p) (b : Same E r p) :
    Same E (if c then q else r) p := by split <;> assumption

theorem mapOthers_frame (h : Fin n) {f : P → P → P} {p q : Fin n → P} (hf : ∀ a b, E (f a b) = E b)
    (hp : Same E q p) : Same E (mapOthers h f q) p := by
  intro i
  unfold mapOthers; split <;> simp [hf, hp i]

theorem mapHost_frame (h : Fin n) {f : P → P} {p q : Fin n → P} (hf : ∀ a, E (f a) = E a)
    (hp : Same E q p) : Same E (mapHost h f q) p := by
  intro i
  unfold mapHost; split <;> simp [hf, hp i]

theorem foldl_frame {ι : Type} (l : List ι) (f : (Fin n → P) → ι → (Fin n → P))
    (hf : ∀ q j, Same E (f q j) q) {p q : Fin n → P} (hp : Same E q p) : Same E (l.foldl f q) p := by
  induction l generalizing q with
  | nil => exact hp
  | cons a l ih => exact ih ((hf _ _).trans hp)

end combinators

section
variable {F : Type} [FOps F]

def noTides (p : Particle F) : Particle F := { p with tides := (blank F).tides }
def noFlattening (p : Particle F) : Particle F := { p with flattening := (blank F).flattening }
def noGr (p : Particle F) : Particle F := { p with gr := (blank F).gr }
def noWind (p : Particle F) : Particle F := { p with wind := (blank F).wind }
def noDisk (p : Particle F) : Particle F := { p with disk := (blank F).disk }
end

section
variable {F : Type} [Add F] [Sub F] [Mul F] [Div F] [Neg F] [FOps F] {n : Nat}


set_option linter.unusedSectionVars false

/-! ### Tides -/

theorem orthogonalComponent_frame (t : Table F) (h : Fin n) (p : Fin n → Particle F) : Same noTides (orthogonalComponent t h p) p := by
  unfold orthogonalComponent
  refine mapOthers_frame _ (fun a b => ?_) (mapOthers_frame _ (fun a b => ?_) (Same.refl _))
  · unfold orthogonalPlanetaryStep; split <;> rfl
  · unfold orthogonalStellarStep; split <;> rfl

theorem radialComponent_frame (k : Consts F) (t : Table F) (h : Fin n) (p : Fin n → Particle F) : Same noTides (radialComponent k t h p) p := by
  unfold radialComponent
  refine mapOthers_frame _ (fun a b => ?_) (Same.refl _)
  unfold radialStep; split <;> rfl

theorem tidesShapes_frame (m : Models F) (h : Fin n) (p : Fin n → Particle F) : Same noTides (tidesShapes m h p) p := by
  unfold tidesShapes
  refine mapOthers_frame _ (fun a b => ?_) (Same.refl _)
  dsimp only; split <;> rfl

theorem calculateDenergyDt_frame (h : Fin n) (p : Fin n → Particle F) : Same noTides (calculateDenergyDt h p) p := by
  unfold calculateDenergyDt
  refine mapOthers_frame _ (fun a b => ?_) (Same.refl _)
  dsimp only; split <;> rfl

theorem tidesInitialize_frame (h : Fin n) (p : Fin n → Particle F) : Same noTides (tidesInitialize h p) p := by
  unfold tidesInitialize
  split
  all_goals first
  | exact Same.refl _
  | refine mapOthers_frame _ (fun a b => ?_) (mapHost_frame _ (fun a => rfl) (Same.refl _))
    split <;> rfl

theorem tidesCopyHeliocentric_frame (h : Fin n) (p : Fin n → Particle F) : Same noTides (tidesCopyHeliocentric h p) p := by
  unfold tidesCopyHeliocentric
  dsimp only
  split
  all_goals first
  | exact Same.refl _
  | refine mapOthers_frame _ (fun a b => ?_) (mapHost_frame _ (fun a => rfl) (Same.refl _))
    split <;> rfl

theorem tidesInertialToHeliocentric_frame (h : Fin n) (p : Fin n → Particle F) : Same noTides (tidesInertialToHeliocentric h p) p := by
  unfold tidesInertialToHeliocentric
  split
  all_goals first
  | exact Same.refl _
  | refine mapOthers_frame _ (fun a b => ?_) (mapHost_frame _ (fun a => rfl) (Same.refl _))
    split <;> rfl

theorem tidalDL_frame (m : OtherModels F) (h : Fin n) (p : Fin n → Particle F) : Same noTides (tidalDL m h p) p := by
  unfold tidalDL
  refine mapHost_frame _ (fun a => rfl) (mapOthers_frame _ (fun a b => ?_) (Same.refl _))
  unfold companionTidalDL; split <;> rfl

theorem tidalAcceleration_frame (m : OtherModels F) (h : Fin n) (p : Fin n → Particle F) :
    Same noTides (tidalAcceleration m h p) p := by
  have e : ∀ (f : Particle F → Particle F) (hf : ∀ a, noTides (f a) = noTides a),
      Same noTides (mapHost h f (mapOthers h (companionTidalAcceleration m) p)) p := by
    intro f hf
    refine mapHost_frame _ hf (mapOthers_frame _ (fun a b => ?_) (Same.refl _))
    unfold companionTidalAcceleration; split <;> rfl
  unfold tidalAcceleration
  dsimp only
  split
  · refine foldl_frame _ _ ?_ (e _ (fun a => rfl))
    intro q j i
    dsimp only
    split
    · rename_i h1; subst h1; rfl
    · split
      · rename_i h1; subst h1; rfl
      · rfl
  · exact e _ (fun a => rfl)

/-! ### Flattening -/

theorem flatteningOrthogonal_frame (h : Fin n) (p : Fin n → Particle F) : Same noFlattening (flatteningOrthogonal h p) p := by
  unfold flatteningOrthogonal
  refine mapOthers_frame _ (fun a b => ?_) (mapOthers_frame _ (fun a b => ?_) (Same.refl _))
  · unfold oblatePlanetStep; split <;> rfl
  · unfold oblateStarStep; split <;> rfl

theorem flatteningRadial_frame (h : Fin n) (p : Fin n → Particle F) : Same noFlattening (flatteningRadial h p) p := by
  unfold flatteningRadial
  refine mapOthers_frame _ (fun a b => ?_) (Same.refl _)
  unfold flatteningRadialStep; split <;> rfl

theorem flatteningShapes_frame (m : Models F) (h : Fin n) (p : Fin n → Particle F) : Same noFlattening (flatteningShapes m h p) p := by
  unfold flatteningShapes
  refine mapOthers_frame _ (fun a b => ?_) (Same.refl _)
  dsimp only; split <;> rfl

theorem flatteningInitialize_frame (h : Fin n) (p : Fin n → Particle F) : Same noFlattening (flatteningInitialize h p) p := by
  unfold flatteningInitialize
  split
  all_goals first
  | exact Same.refl _
  | refine mapOthers_frame _ (fun a b => ?_) (mapHost_frame _ (fun a => rfl) (Same.refl _))
    split <;> rfl

theorem flatteningCopyHeliocentric_frame (h : Fin n) (p : Fin n → Particle F) : Same noFlattening (flatteningCopyHeliocentric h p) p := by
  unfold flatteningCopyHeliocentric
  dsimp only
  split
  all_goals first
  | exact Same.refl _
  | refine mapOthers_frame _ (fun a b => ?_) (mapHost_frame _ (fun a => rfl) (Same.refl _))
    split <;> rfl

theorem flatteningInertialToHeliocentric_frame (h : Fin n) (p : Fin n → Particle F) : Same noFlattening (flatteningInertialToHeliocentric h p) p := by
  unfold flatteningInertialToHeliocentric
  split
  all_goals first
  | exact Same.refl _
  | refine mapOthers_frame _ (fun a b => ?_) (mapHost_frame _ (fun a => rfl) (Same.refl _))
    split <;> rfl

theorem flatteningDL_frame (m : FlatteningModels F) (h : Fin n) (p : Fin n → Particle F) : Same noFlattening (flatteningDL m h p) p := by
  unfold flatteningDL
  refine mapHost_frame _ (fun a => rfl) (mapOthers_frame _ (fun a b => ?_) (Same.refl _))
  unfold companionFlatteningDL; split <;> rfl

theorem flatteningAcceleration_frame (m : FlatteningModels F) (h : Fin n) (p : Fin n → Particle F) : Same noFlattening (flatteningAcceleration m h p) p := by
  unfold flatteningAcceleration
  refine mapHost_frame _ (fun a => rfl) (mapOthers_frame _ (fun a b => ?_) (Same.refl _))
  unfold companionFlatteningAcceleration; split <;> rfl

/-! ### General relativity -/

theorem grInitialize_frame (h : Fin n) (p : Fin n → Particle F) : Same noGr (grInitialize h p) p := by
  unfold grInitialize
  split
  all_goals first
  | exact Same.refl _
  | refine mapOthers_frame _ (fun a b => ?_) (mapHost_frame _ (fun a => rfl) (Same.refl _))
    split <;> rfl

theorem grCopyHeliocentric_frame (h : Fin n) (p : Fin n → Particle F) : Same noGr (grCopyHeliocentric h p) p := by
  unfold grCopyHeliocentric
  dsimp only
  split
  all_goals first
  | exact Same.refl _
  | refine mapOthers_frame _ (fun a b => ?_) (mapHost_frame _ (fun a => rfl) (Same.refl _))
    split <;> rfl

theorem grInertialToHeliocentric_frame (h : Fin n) (p : Fin n → Particle F) : Same noGr (grInertialToHeliocentric h p) p := by
  unfold grInertialToHeliocentric
  split
  all_goals first
  | exact Same.refl _
  | refine mapOthers_frame _ (fun a b => ?_) (mapHost_frame _ (fun a => rfl) (Same.refl _))
    split <;> rfl

theorem kidderFirst_frame (k : Consts F) (h : Fin n) (p : Fin n → Particle F) : Same noGr (kidderFirst k h p) p := by
  unfold kidderFirst
  refine mapHost_frame _ (fun a => rfl) (mapOthers_frame _ (fun a b => ?_) (Same.refl _))
  split <;> rfl

theorem kidderSecond_frame (k : Consts F) (h : Fin n) (p : Fin n → Particle F) : Same noGr (kidderSecond k h p) p := by
  unfold kidderSecond
  refine mapHost_frame _ (fun a => rfl) (mapOthers_frame _ (fun a b => ?_) (Same.refl _))
  split <;> rfl

theorem kidderThird_frame (k : Consts F) (h : Fin n) (p : Fin n → Particle F) : Same noGr (kidderThird k h p) p := by
  unfold kidderThird
  refine mapHost_frame _ (fun a => rfl) (mapOthers_frame _ (fun a b => ?_) (Same.refl _))
  split <;> rfl

theorem kidder_frame (k : Consts F) (h : Fin n) (p : Fin n → Particle F) : Same noGr (kidder k h p) p :=
  (kidderThird_frame k h _).trans ((kidderSecond_frame k h _).trans (kidderFirst_frame k h p))

theorem anderson_frame (k : Consts F) (eps2 : F) (ignore : Ignore) (h : Fin n) (p : Fin n → Particle F) :
    Same noGr (anderson k eps2 ignore h p) p := by
  unfold anderson
  refine mapHost_frame _ (fun a => rfl) (fun i => ?_)
  dsimp only
  split
  · rfl
  · split <;> rfl

theorem newhall_frame (k : Consts F) (ignore : Ignore) (h : Fin n) (p : Fin n → Particle F) :
    Same noGr (newhall k ignore h p) p := by
  unfold newhall
  refine mapHost_frame _ (fun a => rfl) (fun i => ?_)
  dsimp only
  split
  · rfl
  · split <;> rfl

theorem generalRelativity_frame (k : Consts F) (eps2 : F) (ignore : Ignore) (h : Fin n)
    (p : Fin n → Particle F) : Same noGr (generalRelativity k eps2 ignore h p) p := by
  unfold generalRelativity
  split
  · exact kidder_frame k h p
  · exact anderson_frame k eps2 ignore h p
  · exact newhall_frame k ignore h p
  · exact Same.refl _

/-! ### Wind and disk -/

theorem windInitialize_frame (p : Fin n → Particle F) : Same noWind (fun i => windInitialize (p i)) p := by
  intro i; dsimp only; unfold windInitialize; split <;> rfl

theorem windFactor_frame (k : Consts F) (p : Fin n → Particle F) :
    Same noWind (fun i => windFactor k (p i)) p := by
  intro i; dsimp only; unfold windFactor; split <;> rfl

theorem diskInitialize_frame (h : Fin n) (p : Fin n → Particle F) : Same noDisk (diskInitialize h p) p := by
  unfold diskInitialize
  split
  all_goals first
  | exact Same.refl _
  | refine mapOthers_frame _ (fun a b => ?_) (mapHost_frame _ (fun a => rfl) (Same.refl _))
    split <;> rfl

theorem diskCopyHeliocentric_frame (h : Fin n) (p : Fin n → Particle F) : Same noDisk (diskCopyHeliocentric h p) p := by
  unfold diskCopyHeliocentric
  dsimp only
  split
  all_goals first
  | exact Same.refl _
  | refine mapOthers_frame _ (fun a b => ?_) (mapHost_frame _ (fun a => rfl) (Same.refl _))
    split <;> rfl

theorem diskInertialToHeliocentric_frame (h : Fin n) (p : Fin n → Particle F) : Same noDisk (diskInertialToHeliocentric h p) p := by
  unfold diskInertialToHeliocentric
  split
  all_goals first
  | exact Same.refl _
  | refine mapOthers_frame _ (fun a b => ?_) (mapHost_frame _ (fun a => rfl) (Same.refl _))
    split <;> rfl

theorem diskAcceleration_frame [FPow F] [FTrig F] (k : Consts F) (time : F) (h : Fin n)
    (p : Fin n → Particle F) : Same noDisk (diskAcceleration k time h p) p := by
  have e : ∀ d, Same noDisk (mapOthers h (diskStep k time d) p) p := by
    intro d
    refine mapOthers_frame _ (fun a b => ?_) (Same.refl _)
    unfold diskStep; split <;> rfl
  unfold diskAcceleration
  split
  · exact Same.refl _
  · dsimp only
    split
    · exact e _
    · exact mapHost_frame _ (fun a => rfl) (e _)

end
end Posidonius.Univ
