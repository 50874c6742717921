import Verif.Model.RawHistory
import Verif.Props.Output

/-! # C138: the history as text -/

namespace Posidonius.Output

/-- The numbers below a name. -/
def TextFile.column (f : TextFile) (name : String) : Option (List F64) :=
  if name ∈ f.header then f.lines.mapM fun l => l[f.header.idxOf name]? else none

/-- The history of one particle, told by its snapshots. -/
def story (ss : List Snapshot) (i : Nat) : List (Snapshot × HistParticle) :=
  ss.filterMap fun s => (s.particles.find? fun p => p.id == i).map fun p => (s, p)

/-- What the columns are supposed to hold. -/
structure Tells (f : TextFile) (l : List (Snapshot × HistParticle)) : Prop where
  time : f.column "current_time" = some (l.map fun x => x.1.time)
  step : f.column "time_step" = some (l.map fun x => x.1.timeStep)
  x : f.column "position_x" = some (l.map fun x => x.2.position.x)
  y : f.column "position_y" = some (l.map fun x => x.2.position.y)
  z : f.column "position_z" = some (l.map fun x => x.2.position.z)
  spinX : f.column "spin_x" = some (l.map fun x => x.2.spin.x)
  spinY : f.column "spin_y" = some (l.map fun x => x.2.spin.y)
  spinZ : f.column "spin_z" = some (l.map fun x => x.2.spin.z)
  vx : f.column "velocity_x" = some (l.map fun x => x.2.velocity.x)
  vy : f.column "velocity_y" = some (l.map fun x => x.2.velocity.y)
  vz : f.column "velocity_z" = some (l.map fun x => x.2.velocity.z)
  mass : f.column "mass" = some (l.map fun x => x.2.mass)
  radius : f.column "radius" = some (l.map fun x => x.2.radius)
  gyration : f.column "radius_of_gyration_2" = some (l.map fun x => x.2.radiusOfGyration2)
  love : f.column "love_number" = some (l.map fun x => specLove x.2)
  dissipation : f.column "scaled_dissipation_factor" = some (l.map fun x => x.2.scaledDissipationFactor)
  lag : f.column "lag_angle" = some (l.map fun x => x.2.lagAngle)
  energy : f.column "denergy_dt" = some (l.map fun x => x.2.denergyDt)
  migration : f.column "migration_timescale" = some (l.map fun x => x.2.migrationTimescale)
  only : f.header.length = 19

theorem unique_spec (l : List Int) : (unique l).Pairwise (· < ·) ∧ ∀ x, x ∈ unique l ↔ x ∈ l := by
  refine ⟨?_, fun x => by simp [unique]⟩
  have h1 : (unique l).Pairwise (· ≤ ·) := by
    have := List.pairwise_mergeSort (le := fun a b : Int => decide (a ≤ b)) (by intro a b c; simp; omega) (by intro a b; simp; omega) l.dedup
    exact this.imp fun h => by simpa using h
  have h2 : (unique l).Nodup := (List.mergeSort_perm _ _).nodup_iff.2 l.nodup_dedup
  exact h1.imp₂ (fun a b h h' => lt_of_le_of_ne h h') h2

theorem unique_eq {l : List Int} {n : Nat} (h : ∀ x, x ∈ l ↔ ∃ i : Nat, i < n ∧ x = i) :
    unique l = (List.range n).map Nat.cast := by
  obtain ⟨h1, h2⟩ := unique_spec l
  have h3 : ((List.range n).map (Nat.cast : Nat → Int)).Pairwise (· < ·) := by
    rw [List.pairwise_map]
    exact (List.pairwise_lt_range (n := n)).imp fun h => by exact_mod_cast h
  refine List.Perm.eq_of_pairwise' h1 h3 ?_
  refine (List.perm_ext_iff_of_nodup (h1.imp fun h => ne_of_lt h) (h3.imp fun h => ne_of_lt h)).2 fun x => ?_
  rw [h2, h]
  simp only [List.mem_map, List.mem_range, eq_comm]

theorem filter_find {A : Type} (l : List A) (f : A → Nat) (h : (l.map f).Nodup) (i : Nat) :
    (l.filter fun p => f p == i) = (l.find? fun p => f p == i).toList := by
  induction l with
  | nil => rfl
  | cons a l ih =>
    rw [List.map_cons, List.nodup_cons] at h
    rw [List.filter_cons, List.find?_cons]
    by_cases ha : f a = i
    · subst ha
      have : (l.filter fun p => f p == f a) = [] := by
        rw [List.filter_eq_nil_iff]
        intro b hb e
        exact h.1 (List.mem_map.2 ⟨b, hb, by simpa using e⟩)
      simp [this]
    · rw [if_neg (by simpa using ha), ih h.2, show (f a == i) = false by simpa using ha]

theorem story_spec {n : Nat} {ss : List Snapshot} (h : ∀ s ∈ ss, s.WellNumbered n) (i : Nat) :
    (specTable ss).filter (fun r => decide (r.particle = (i : Int)))
      = (story ss i).map fun x => specRow x.1.time x.1.timeStep x.2 := by
  induction ss with
  | nil => rfl
  | cons s ss ih =>
    have hs : (s.particles.map HistParticle.id).Nodup := by
      rw [show s.particles.map HistParticle.id = List.range n from h s (by simp)]
      exact List.nodup_range
    have e1 : s.rows.filter (fun r => decide (r.particle = (i : Int)))
        = ((s.particles.find? fun p => p.id == i).toList).map (specRow s.time s.timeStep) := by
      rw [← filter_find _ _ hs, Snapshot.rows, List.filter_map]
      congr 1
      refine List.filter_congr fun p _ => ?_
      simp only [specRow, Function.comp_apply, Nat.cast_inj, beq_eq_decide]
    rw [specTable, List.flatMap_cons, List.filter_append, e1]
    have ih' := ih fun s hs => h s (by simp [hs])
    rw [specTable] at ih'
    rw [ih']
    conv_rhs => rw [story, List.filterMap_cons]
    rw [story]
    cases s.particles.find? fun p => p.id == i <;> rfl

/-- Every particle is in every snapshot. -/
theorem story_length {n : Nat} {ss : List Snapshot} (h : ∀ s ∈ ss, s.WellNumbered n) {i : Nat} (hi : i < n) :
    (story ss i).map Prod.fst = ss := by
  induction ss with
  | nil => rfl
  | cons s ss ih =>
    obtain ⟨p, hp⟩ : ∃ p, (s.particles.find? fun p => p.id == i) = some p := by
      rw [← Option.isSome_iff_exists, List.find?_isSome]
      have : i ∈ s.particles.map HistParticle.id := by
        rw [show s.particles.map HistParticle.id = List.range n from h s (by simp)]
        simpa using hi
      obtain ⟨p, hp, e⟩ := List.mem_map.1 this
      exact ⟨p, hp, by simp [e]⟩
    have ih' := ih fun s hs => h s (by simp [hs])
    rw [story, List.filterMap_cons, hp]
    simp only [Option.map_some, List.map_cons]
    rw [← story, ih']

/-- The names of the columns. -/
def columnNames : List String :=
  ["current_time", "time_step", "position_x", "position_y", "position_z", "spin_x", "spin_y", "spin_z",
   "velocity_x", "velocity_y", "velocity_z", "mass", "radius", "radius_of_gyration_2", "love_number",
   "scaled_dissipation_factor", "lag_angle", "denergy_dt", "migration_timescale"]

theorem textFile_tells {data : List Row} {i : Nat} {l : List (Snapshot × HistParticle)} (hl : l ≠ [])
    (h : data.filter (fun r => decide (r.particle = (i : Int))) = l.map fun x => specRow x.1.time x.1.timeStep x.2) :
    Tells (textFile data i) l := by
  obtain ⟨a, b, rfl⟩ := List.exists_cons_of_ne_nil hl
  have e : textFile data i = ⟨i, columnNames,
      (a :: b).map fun x => (textColumns (specRow x.1.time x.1.timeStep x.2)).map Prod.snd⟩ := by
    unfold textFile
    dsimp only
    rw [h, List.map_map]
    rfl
  have col : ∀ (name : String) (k : Nat) (f : Row → F64), columnNames.idxOf name = k →
      k < 19 → (∀ r, ((textColumns r).map Prod.snd)[k]? = some (f r)) →
      (textFile data i).column name = some ((a :: b).map fun x => f (specRow x.1.time x.1.timeStep x.2)) := by
    intro name k f h1 h2 h3
    rw [e, TextFile.column]
    dsimp only
    have hm : name ∈ columnNames := by
      rw [← List.idxOf_lt_length_iff, h1]
      exact h2
    rw [if_pos hm, h1]
    generalize a :: b = l
    induction l with
    | nil => rfl
    | cons x l ih => simp [ih, h3]
  constructor
  · exact col _ 0 Row.currentTime (by decide) (by decide) fun _ => rfl
  · exact col _ 1 Row.timeStep (by decide) (by decide) fun _ => rfl
  · exact col _ 2 (fun r => r.position.x) (by decide) (by decide) fun _ => rfl
  · exact col _ 3 (fun r => r.position.y) (by decide) (by decide) fun _ => rfl
  · exact col _ 4 (fun r => r.position.z) (by decide) (by decide) fun _ => rfl
  · exact col _ 5 (fun r => r.spin.x) (by decide) (by decide) fun _ => rfl
  · exact col _ 6 (fun r => r.spin.y) (by decide) (by decide) fun _ => rfl
  · exact col _ 7 (fun r => r.spin.z) (by decide) (by decide) fun _ => rfl
  · exact col _ 8 (fun r => r.velocity.x) (by decide) (by decide) fun _ => rfl
  · exact col _ 9 (fun r => r.velocity.y) (by decide) (by decide) fun _ => rfl
  · exact col _ 10 (fun r => r.velocity.z) (by decide) (by decide) fun _ => rfl
  · exact col _ 11 Row.mass (by decide) (by decide) fun _ => rfl
  · exact col _ 12 Row.radius (by decide) (by decide) fun _ => rfl
  · exact col _ 13 Row.radiusOfGyration2 (by decide) (by decide) fun _ => rfl
  · exact col _ 14 Row.loveNumber (by decide) (by decide) fun _ => rfl
  · exact col _ 15 Row.scaledDissipationFactor (by decide) (by decide) fun _ => rfl
  · exact col _ 16 Row.lagAngle (by decide) (by decide) fun _ => rfl
  · exact col _ 17 Row.denergyDt (by decide) (by decide) fun _ => rfl
  · exact col _ 18 Row.migrationTimescale (by decide) (by decide) fun _ => rfl
  · rw [e]; rfl

/-- **C138**: a history of `n` particles, of which any number of bytes is missing at the end, becomes `n` text files, numbered as
the particles.  The lines of a file are the whole snapshots in their order, and each column holds the quantity of its name of
this particle. -/
theorem C138_files (n : Nat) (hn : 0 < n) (hmax : n ≤ 2 ^ 31) (ss : List Snapshot) (hne : ss ≠ [])
    (h : ∀ s ∈ ss, s.WellNumbered n) (c : Nat) (hc : 156 * n ≤ c) :
    ∃ files, rawHistory ((historyFile ss).take c) = some files ∧ files.length = n ∧
      ∀ (i : Nat) (f : TextFile), files[i]? = some f →
        f.particle = i ∧ Tells f (story (ss.take (c / (156 * n))) i)
        ∧ (story (ss.take (c / (156 * n))) i).map Prod.fst = ss.take (c / (156 * n)) := by
  have k0 : 0 < c / (156 * n) := Nat.div_pos hc (by omega)
  obtain ⟨s0, rest, hs⟩ : ∃ s0 rest, ss.take (c / (156 * n)) = s0 :: rest := by
    obtain ⟨s0, rest, rfl⟩ := List.exists_cons_of_ne_nil hne
    obtain ⟨k, hk⟩ := Nat.exists_eq_succ_of_ne_zero k0.ne'
    exact ⟨s0, rest.take k, by rw [hk]; rfl⟩
  have h' : ∀ s ∈ ss.take (c / (156 * n)), s.WellNumbered n := fun s hs => h s (List.mem_of_mem_take hs)
  have hu : unique ((specTable (ss.take (c / (156 * n)))).map Row.particle) = (List.range n).map Nat.cast := by
    refine unique_eq fun x => ?_
    simp only [specTable, Snapshot.rows, List.mem_map, List.mem_flatMap]
    constructor
    · rintro ⟨_, ⟨s, hs, p, hp, rfl⟩, rfl⟩
      have : p.id ∈ s.particles.map HistParticle.id := List.mem_map.2 ⟨p, hp, rfl⟩
      rw [show s.particles.map HistParticle.id = List.range n from h' s hs] at this
      exact ⟨p.id, by simpa using this, rfl⟩
    · rintro ⟨i, hi, rfl⟩
      have hm : s0 ∈ ss.take (c / (156 * n)) := by rw [hs]; simp
      have : i ∈ s0.particles.map HistParticle.id := by
        rw [show s0.particles.map HistParticle.id = List.range n from h' s0 hm]
        simpa using hi
      obtain ⟨p, hp, e⟩ := List.mem_map.1 this
      exact ⟨_, ⟨s0, hm, p, hp, rfl⟩, by simp [specRow, e]⟩
  refine ⟨(List.range n).map fun i : Nat => textFile (specTable (ss.take (c / (156 * n)))) i, ?_, by simp, fun i f hf => ?_⟩
  · rw [rawHistory, C03_cut_history n hn hmax ss hne h c hc, Option.map_some]
    dsimp only
    rw [hu, List.map_map]
    rfl
  · rw [List.getElem?_map, Option.map_eq_some_iff] at hf
    obtain ⟨j, hj, rfl⟩ := hf
    rw [List.getElem?_eq_some_iff] at hj
    obtain ⟨hi, e⟩ := hj
    rw [List.getElem_range] at e
    subst e
    have hi' : i < n := by simpa using hi
    have len := story_length h' hi'
    refine ⟨rfl, textFile_tells ?_ (story_spec h' i), len⟩
    intro e
    rw [e, hs] at len
    cases len

/-- Two particles; the second snapshot of the file is cut. -/
example : ∃ files, rawHistory ((historyFile exampleHistory).take 500) = some files ∧ files.length = 2 ∧
    ∀ f, files[1]? = some f → f.particle = 1 ∧ f.column "position_x" = some [6] := by
  have h : ∀ s ∈ exampleHistory, s.WellNumbered 2 := by
    intro s hs
    simp only [exampleHistory, List.mem_cons, List.not_mem_nil, or_false] at hs
    rcases hs with rfl | rfl <;> rfl
  obtain ⟨files, e, l, t⟩ := C138_files 2 (by norm_num) (by norm_num) exampleHistory (by simp [exampleHistory]) h 500 (by norm_num)
  exact ⟨files, e, l, fun f hf => ⟨(t 1 f hf).1, (t 1 f hf).2.1.x⟩⟩

end Posidonius.Output
