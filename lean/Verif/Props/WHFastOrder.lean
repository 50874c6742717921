import Verif.Props.WHFastObserver
import Verif.Props.Ias15Order

/-! # C147: WHFast and the order of the planets -/

namespace Posidonius.WHFast
open Ias15 (relist relist_map relist_zipWith relist_perm relist_length)

/-- The same system with the planets in the order of `p`. -/
def Sys.relist (p : List ℕ) (u : Sys ℝ) : Sys ℝ := ⟨u.star, Ias15.relist p u.planets⟩

/-- The same alternative coordinates with the planets in the order of `p`. -/
def AltSys.relist (p : List ℕ) (a : AltSys ℝ) : AltSys ℝ := ⟨a.star, Ias15.relist p a.planets⟩

section
variable {p : List ℕ} {n : ℕ} (hp : p.Perm (List.range n))
include hp

theorem relist_zip {α β : Type} {a : List α} {b : List β} (ha : a.length = n) (hb : b.length = n) :
    (relist p a).zip (relist p b) = relist p (a.zip b) := (relist_zipWith hp Prod.mk ha hb).symm

theorem relist_foldl {α : Type} (f : Axes ℝ → α → Axes ℝ) (hf : ∀ s x y, f (f s x) y = f (f s y) x) {l : List α} (hl : l.length = n)
    (s : Axes ℝ) : (relist p l).foldl f s = l.foldl f s :=
  (relist_perm hp hl).foldl_eq' (fun x _ y _ s => hf s x y) s

theorem zip_length {α β : Type} {a : List α} {b : List β} (ha : a.length = n) (hb : b.length = n) : (a.zip b).length = n := by
  rw [List.length_zip, ha, hb, min_self]

theorem centre_relist {u : Sys ℝ} (hu : u.planets.length = n) : centre (u.relist p) = centre u := by
  have h := relist_perm hp hu
  have e1 : (u.relist p).mass = u.mass := by
    unfold Sys.mass Sys.relist totalMass
    dsimp only
    rw [(h.map _).sum_eq]
  have e2 : ∀ f, (u.relist p).weighted f = u.weighted f := by
    intro f
    unfold Sys.weighted Sys.relist
    dsimp only
    rw [(h.map _).sum_eq]
  rw [centre_eq, centre_eq, e1, e2, e2]

theorem toHelio_relist (b : Bool) {u : Sys ℝ} (hu : u.planets.length = n) : toHelio b (u.relist p) = (toHelio b u).relist p := by
  unfold toHelio AltSys.relist
  rw [centre_relist hp hu]
  dsimp only
  rw [relist_map]
  rfl

theorem fromHelio_relist (b : Bool) {a : AltSys ℝ} {u : Sys ℝ} (ha : a.planets.length = n) (hu : u.planets.length = n) :
    fromHelio b (a.relist p) (u.relist p) = (fromHelio b a u).relist p := by
  have z := relist_zip hp ha hu
  have e1 : starPosition (a.relist p) (u.relist p) = starPosition a u := by
    unfold starPosition Sys.relist AltSys.relist
    dsimp only
    rw [z]
    exact relist_foldl hp _ (fun s x y => by abel) (zip_length hp ha hu) _
  have e2 : starVelocity b (a.relist p) (u.relist p) = starVelocity b a u := by
    unfold starVelocity Sys.relist AltSys.relist
    dsimp only
    rw [z]
    exact relist_foldl hp _ (fun s x y => by abel) (zip_length hp ha hu) _
  unfold fromHelio
  rw [e1, e2]
  unfold Sys.relist AltSys.relist
  dsimp only
  rw [z, relist_map]

theorem jumpStep_relist {c : Coordinates} (hc : c ≠ .jacobi) (dt : ℝ) {a : AltSys ℝ} {u : Sys ℝ} (ha : a.planets.length = n)
    (hu : u.planets.length = n) : jumpStep c dt (u.relist p) (a.relist p) = (jumpStep c dt u a).relist p := by
  have z := relist_zip hp ha hu
  cases c
  · exact absurd rfl hc
  · unfold jumpStep democraticJump Sys.relist AltSys.relist
    dsimp only
    rw [z, relist_foldl hp _ (fun s x y => by abel) (zip_length hp ha hu), relist_map]
  · unfold jumpStep whdsJump Sys.relist AltSys.relist
    dsimp only
    rw [z, relist_foldl hp _ (fun s x y => by abel) (zip_length hp ha hu), relist_map]

theorem interactionStep_relist {c : Coordinates} (hc : c ≠ .jacobi) (g dt : ℝ) {a : AltSys ℝ} {u : Sys ℝ} (ha : a.planets.length = n)
    (hu : u.planets.length = n) : interactionStep c g dt (u.relist p) (a.relist p) = (interactionStep c g dt u a).relist p := by
  have z := relist_zip hp ha hu
  cases c
  · exact absurd rfl hc
  · unfold interactionStep democraticInteraction Sys.relist AltSys.relist
    dsimp only
    rw [z, relist_map]
  · unfold interactionStep whdsInteraction Sys.relist AltSys.relist
    dsimp only
    rw [z, relist_map]

omit hp in
/-- Without Jacobi coordinates the planets move one by one. -/
theorem keplerPlanets_iff {c : Coordinates} (hc : c ≠ .jacobi) (fuel : ℕ) (dt running : ℝ) :
    ∃ K : Alt ℝ → Option (Alt ℝ), ∀ l m, keplerPlanets c fuel dt running l = some m ↔ l.map K = m.map some := by
  refine ⟨fun a => a.kepler fuel (if c = .democraticHeliocentric then running else running + a.massG) dt, fun l => ?_⟩
  induction l with
  | nil =>
    intro m
    cases m <;> simp [keplerPlanets]
  | cons a l ih =>
    intro m
    cases c
    · exact absurd rfl hc
    all_goals
      simp only [keplerPlanets, List.map_cons, if_true, reduceCtorEq, if_false] at ih ⊢
      generalize Alt.kepler fuel _ dt a = x at ih ⊢
      generalize keplerPlanets _ fuel dt running l = y at ih ⊢
      cases m with
      | nil => cases x <;> cases y <;> simp
      | cons b m =>
        have := ih m
        cases x <;> cases y <;> simp_all

theorem keplerPlanets_relist {c : Coordinates} (hc : c ≠ .jacobi) (fuel : ℕ) (dt running : ℝ) {l : List (Alt ℝ)} (hl : l.length = n) :
    keplerPlanets c fuel dt running (relist p l) = (keplerPlanets c fuel dt running l).map (relist p) := by
  obtain ⟨K, hK⟩ := keplerPlanets_iff hc fuel dt running
  cases e : keplerPlanets c fuel dt running l with
  | some m =>
    rw [hK] at e
    rw [Option.map_some, hK, ← relist_map, e, relist_map]
  | none =>
    rw [Option.map_none, Option.eq_none_iff_forall_not_mem]
    intro m hm
    have h1 := (hK _ _).1 hm
    have h2 : ∀ a ∈ l, ∃ b, K a = some b := by
      intro a ha
      have : K a ∈ (relist p l).map K := List.mem_map.2 ⟨a, (relist_perm hp hl).mem_iff.2 ha, rfl⟩
      rw [h1] at this
      obtain ⟨b, _, hb⟩ := List.mem_map.1 this
      exact ⟨b, hb.symm⟩
    have h3 : ∃ m' : List (Alt ℝ), l.map K = m'.map some := by
      clear e hm h1 hl
      induction l with
      | nil => exact ⟨[], rfl⟩
      | cons a l ih =>
        obtain ⟨b, hb⟩ := h2 a (by simp)
        obtain ⟨m', hm'⟩ := ih fun a ha => h2 a (by simp [ha])
        exact ⟨b :: m', by simp [hb, hm']⟩
    obtain ⟨m', hm'⟩ := h3
    rw [(hK _ _).2 hm'] at e
    cases e

omit hp in
theorem keplerSteps_length {c : Coordinates} (hc : c ≠ .jacobi) {fuel : ℕ} {dt : ℝ} {u : Sys ℝ} {a b : AltSys ℝ}
    (h : keplerSteps c fuel dt u a = some b) : b.planets.length = a.planets.length := by
  obtain ⟨K, hK⟩ := keplerPlanets_iff hc fuel dt u.star.massG
  unfold keplerSteps at h
  cases e : keplerPlanets c fuel dt u.star.massG a.planets with
  | none => rw [e] at h; cases h
  | some m =>
    rw [e] at h
    cases h
    have := congrArg List.length ((hK _ _).1 e)
    simpa using this.symm

theorem keplerSteps_relist {c : Coordinates} (hc : c ≠ .jacobi) (fuel : ℕ) (dt : ℝ) (u : Sys ℝ) {a : AltSys ℝ} (ha : a.planets.length = n) :
    keplerSteps c fuel dt (u.relist p) (a.relist p) = (keplerSteps c fuel dt u a).map (AltSys.relist p) := by
  have := keplerPlanets_relist hp hc fuel dt u.star.massG ha
  unfold keplerSteps
  simp only [Sys.relist, AltSys.relist]
  rw [this]
  cases keplerPlanets c fuel dt u.star.massG a.planets <;> rfl

omit hp in
theorem jumpStep_length (c : Coordinates) (dt : ℝ) {a : AltSys ℝ} {u : Sys ℝ} (ha : a.planets.length = n) (hu : u.planets.length = n) :
    (jumpStep c dt u a).planets.length = n := by
  cases c <;> simp [jumpStep, democraticJump, whdsJump, ha, hu]

omit hp in
theorem interactionStep_length {c : Coordinates} (hc : c ≠ .jacobi) (g dt : ℝ) {a : AltSys ℝ} {u : Sys ℝ} (ha : a.planets.length = n)
    (hu : u.planets.length = n) : (interactionStep c g dt u a).planets.length = n := by
  cases c
  · exact absurd rfl hc
  all_goals simp [interactionStep, democraticInteraction, whdsInteraction, ha, hu]

theorem toAlternative_relist {c : Coordinates} (hc : c ≠ .jacobi) {u : Sys ℝ} (hu : u.planets.length = n) :
    toAlternative c (u.relist p) = (toAlternative c u).relist p := by
  cases c
  exacts [absurd rfl hc, toHelio_relist hp _ hu, toHelio_relist hp _ hu]

theorem fromAlternative_relist {c : Coordinates} (hc : c ≠ .jacobi) {a : AltSys ℝ} {u : Sys ℝ} (ha : a.planets.length = n)
    (hu : u.planets.length = n) : fromAlternative c (a.relist p) (u.relist p) = (fromAlternative c a u).relist p := by
  cases c
  exacts [absurd rfl hc, fromHelio_relist hp _ ha hu, fromHelio_relist hp _ ha hu]

omit hp in
theorem fromAlternative_length {c : Coordinates} (hc : c ≠ .jacobi) {a : AltSys ℝ} {u : Sys ℝ} (ha : a.planets.length = n)
    (hu : u.planets.length = n) : (fromAlternative c a u).planets.length = n := by
  cases c
  · exact absurd rfl hc
  all_goals simp [fromAlternative, fromHelio, ha, hu]

omit hp in
theorem toAlternative_length {c : Coordinates} (hc : c ≠ .jacobi) {u : Sys ℝ} (hu : u.planets.length = n) :
    (toAlternative c u).planets.length = n := by
  cases c
  · exact absurd rfl hc
  all_goals simp [toAlternative, toHelio, hu]

/-- **C147**: with the planets listed in another order a step of WHFast in democratic heliocentric coordinates or WHDS is the same,
planet by planet, if the accelerations are. -/
theorem C147_step {c : Coordinates} (hc : c ≠ .jacobi) (fuel : ℕ) (g dt half : ℝ) {gravity gravity' : Sys ℝ → Option (Sys ℝ)}
    (hl : ∀ v x, gravity v = some x → x.planets.length = v.planets.length)
    (hg : ∀ u, u.planets.length = n → gravity' (u.relist p) = (gravity u).map (Sys.relist p)) {u : Sys ℝ} (hu : u.planets.length = n) :
    step c fuel g dt half gravity' (u.relist p) = (step c fuel g dt half gravity u).map (Sys.relist p) := by
  have n0 := toAlternative_length hc hu
  unfold step part1
  rw [toAlternative_relist hp hc hu, keplerSteps_relist hp hc fuel half u n0]
  cases eb : keplerSteps c fuel half u (toAlternative c u) with
  | none => rfl
  | some a =>
    have n1 := (keplerSteps_length hc eb).trans n0
    have n2 := jumpStep_length c half n1 hu
    have n3 := fromAlternative_length hc n2 hu
    simp only [Option.map_some]
    rw [jumpStep_relist hp hc half n1 hu, fromAlternative_relist hp hc n2 hu, hg _ n3]
    cases e2 : gravity (fromAlternative c (jumpStep c half u a) u) with
    | none => rfl
    | some v =>
      have nv := (hl _ _ e2).trans n3
      have n4 := interactionStep_length hc g dt n2 nv
      have n5 := jumpStep_length c half n4 nv
      simp only [Option.map_some]
      unfold part2
      dsimp only
      rw [interactionStep_relist hp hc g dt n2 nv, jumpStep_relist hp hc half n4 nv, keplerSteps_relist hp hc fuel half v n5]
      cases ed : keplerSteps c fuel half v (jumpStep c half v (interactionStep c g dt v (jumpStep c half u a))) with
      | none => rfl
      | some b =>
        simp only [Option.map_some]
        rw [fromAlternative_relist hp hc ((keplerSteps_length hc ed).trans n5) nv]

theorem kicked_relist {c : Coordinates} (hc : c ≠ .jacobi) (G : ℝ) {u : Sys ℝ} (hu : u.planets.length = n) :
    kicked c G (u.relist p) = (kicked c G u).relist p := by
  have e : ∀ x, pull G (relist p u.planets) x = pull G u.planets x := fun x => by
    unfold pull
    rw [((relist_perm hp hu).map _).sum_eq]
  cases c
  · exact absurd rfl hc
  all_goals
    simp only [kicked, Sys.relist, e, relist_map]

/-- **C147, with gravity**: the step with Newton's gravity. -/
theorem C147_gravity {c : Coordinates} (hc : c ≠ .jacobi) (fuel : ℕ) (G dt half : ℝ) {u : Sys ℝ} (hu : u.planets.length = n) :
    step c fuel G dt half (fun v => some (kicked c G v)) (u.relist p)
      = (step c fuel G dt half (fun v => some (kicked c G v)) u).map (Sys.relist p) :=
  C147_step hp hc fuel G dt half
    (fun v x h => by cases h; exact List.Forall₂.length_eq (kicked_like c G v).2.2)
    (fun u hu => by rw [kicked_relist hp hc G hu]; rfl) hu

omit hp in
theorem step_length {c : Coordinates} (hc : c ≠ .jacobi) {fuel : ℕ} {g dt half : ℝ} {gravity : Sys ℝ → Option (Sys ℝ)}
    (hl : ∀ v x, gravity v = some x → x.planets.length = v.planets.length) {u u' : Sys ℝ} (hu : u.planets.length = n)
    (h : step c fuel g dt half gravity u = some u') : u'.planets.length = n := by
  have n0 := toAlternative_length hc hu
  unfold step part1 at h
  cases eb : keplerSteps c fuel half u (toAlternative c u) with
  | none => rw [eb] at h; cases h
  | some a =>
    have n2 := jumpStep_length c half ((keplerSteps_length hc eb).trans n0) hu
    rw [eb] at h
    dsimp only at h
    cases e2 : gravity (fromAlternative c (jumpStep c half u a) u) with
    | none => rw [e2] at h; cases h
    | some v =>
      have nv := (hl _ _ e2).trans (fromAlternative_length hc n2 hu)
      have n5 := jumpStep_length c half (interactionStep_length hc g dt n2 nv) nv
      rw [e2] at h
      unfold part2 at h
      dsimp only at h
      cases ed : keplerSteps c fuel half v (jumpStep c half v (interactionStep c g dt v (jumpStep c half u a))) with
      | none => rw [ed] at h; cases h
      | some b =>
        rw [ed] at h
        cases h
        exact fromAlternative_length hc ((keplerSteps_length hc ed).trans n5) nv

/-- **C147, runs**: any number of steps. -/
theorem C147_run {c : Coordinates} (hc : c ≠ .jacobi) (fuel : ℕ) (G dt half : ℝ) (N : ℕ) {u : Sys ℝ} (hu : u.planets.length = n) :
    (fun o : Option (Sys ℝ) => o.bind (step c fuel G dt half fun v => some (kicked c G v)))^[N] (some (u.relist p))
      = ((fun o : Option (Sys ℝ) => o.bind (step c fuel G dt half fun v => some (kicked c G v)))^[N] (some u)).map (Sys.relist p) := by
  have none_stays : ∀ N, (fun o : Option (Sys ℝ) => o.bind (step c fuel G dt half fun v => some (kicked c G v)))^[N] none = none := by
    intro N
    induction N with
    | zero => rfl
    | succ N ih => rw [Function.iterate_succ_apply]; exact ih
  induction N generalizing u with
  | zero => rfl
  | succ N ih =>
    rw [Function.iterate_succ_apply, Function.iterate_succ_apply]
    simp only [Option.bind_some]
    rw [C147_gravity hp hc fuel G dt half hu]
    cases e : step c fuel G dt half (fun v => some (kicked c G v)) u with
    | none => rw [Option.map_none, none_stays]; rfl
    | some v =>
      exact ih (step_length hc (fun v x h => by cases h; exact List.Forall₂.length_eq (kicked_like c G v).2.2) hu e)

end

/-- The two planets of the example exchanged. -/
example (fuel : ℕ) : step .whds fuel 1 (1 / 2) (1 / 4) (fun v => some (kicked .whds 1 v)) (exampleSys.relist [1, 0])
    = (step .whds fuel 1 (1 / 2) (1 / 4) (fun v => some (kicked .whds 1 v)) exampleSys).map (Sys.relist [1, 0]) :=
  C147_gravity (n := 2) (by decide) (by decide) fuel 1 _ _ rfl

end Posidonius.WHFast
