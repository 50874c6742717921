import Verif.Spec.CaseJson
import Verif.Lemmas.Json
import Verif.Lemmas.FrontEnd

/-! # Lemmas: reading the dictionaries of the front end -/

namespace Posidonius.CaseJson
open Posidonius.Json Posidonius.Univ
open Posidonius.Output (F64)
open Evolution (EvolutionType Evolver)
open WHFast (Coordinates)

variable {N : Type}

/-- Whenever it is JSON at all, the dictionary `p` is read as the value `r` of type `t`. -/
def Reads (c : FloatText N) (t : Ty) (p r : Val) : Prop := allFinite p = true → de c t (ser c p) = some r

theorem allFiniteList_vals : ∀ l : List Val, allFiniteList (vals l) = true → ∀ v ∈ l, allFinite v = true
  | [], _, v, h => by simp at h
  | w :: l, hf, v, h => by
    simp only [vals, allFiniteList, Bool.and_eq_true] at hf
    rcases List.mem_cons.1 h with rfl | h
    · exact hf.1
    · exact allFiniteList_vals l hf.2 v h

theorem allFiniteFields_go : ∀ l : List (String × Val), allFiniteFields (dict.go l) = true →
    ∀ e ∈ l, allFinite e.2 = true
  | [], _, v, h => by simp at h
  | (n, w) :: l, hf, v, h => by
    simp only [dict.go, allFiniteFields, Bool.and_eq_true] at hf
    rcases List.mem_cons.1 h with rfl | h
    · exact hf.1
    · exact allFiniteFields_go l hf.2 v h

theorem length_vals (c : FloatText N) : ∀ l : List Val, (serList c (vals l)).length = l.length
  | [] => rfl
  | v :: l => by simp [vals, serList, JsList.length, length_vals c l]

theorem mapM_vals (c : FloatText N) (t : Ty) : ∀ p r : List Val,
    List.Forall₂ (fun p r => de c t (ser c p) = some r) p r → (serList c (vals p)).mapM (de c t) = some (vals r)
  | [], [], _ => rfl
  | p :: ps, r :: rs, .cons h hs => by
    simp [vals, serList, JsList.mapM, h, mapM_vals c t ps rs hs]

theorem mapM_vals_none (c : FloatText N) (t : Ty) : ∀ (l : List Val) (v : Val), v ∈ l → de c t (ser c v) = none →
    (serList c (vals l)).mapM (de c t) = none
  | [], v, h, _ => by simp at h
  | w :: l, v, h, hv => by
    rcases List.mem_cons.1 h with rfl | h
    · simp [vals, serList, JsList.mapM, hv]
    · simp [vals, serList, JsList.mapM, mapM_vals_none c t l v h hv]

theorem vec_reads (c : FloatText N) (t : Ty) {α : Type} (l : List α) (p r : α → Val) (h : ∀ x ∈ l, Reads c t (p x) (r x)) :
    Reads c (.vec t) (.arr (vals (l.map p))) (.arr (vals (l.map r))) := by
  intro hf
  have hf := allFiniteList_vals _ (by simpa [allFinite] using hf)
  have := mapM_vals c t (l.map p) (l.map r) (by
    rw [List.forall₂_map_left_iff, List.forall₂_map_right_iff, List.forall₂_same]
    exact fun x hx => h x hx (hf _ (List.mem_map_of_mem hx)))
  simp [ser, de, this]

theorem array_reads (c : FloatText N) (t : Ty) {α : Type} (n : Nat) (l : List α) (hl : l.length = n) (p r : α → Val)
    (h : ∀ x ∈ l, Reads c t (p x) (r x)) :
    Reads c (.array n t) (.arr (vals (l.map p))) (.arr (vals (l.map r))) := by
  intro hf
  have := vec_reads c t l p r h hf
  simp only [ser, de, Option.map_eq_some_iff] at this ⊢
  simpa [length_vals, hl] using this

theorem array_fails (c : FloatText N) (t : Ty) (n : Nat) (l : List Val) (hl : l.length ≠ n) :
    de c (.array n t) (ser c (.arr (vals l))) = none := by
  simp [ser, de, length_vals, hl]

theorem replicate_reads (c : FloatText N) (t : Ty) (n : Nat) (p r : Val) (h : Reads c t p r) :
    Reads c (.array n t) (.arr (vals (List.replicate n p))) (.arr (vals (List.replicate n r))) := by
  have := array_reads c t n (List.replicate n ()) (by simp) (fun _ => p) (fun _ => r) (fun _ _ => h)
  simpa using this

theorem get_not_mem (c : FloatText N) (n : String) : ∀ l : List (String × Val), n ∉ l.map Prod.fst →
    (serFields c (dict.go l)).get n = []
  | [], _ => rfl
  | (m, v) :: l, h => by
    simp only [List.map_cons, List.mem_cons, not_or] at h
    simp [dict.go, serFields, JsFields.get, Ne.symm h.1, get_not_mem c n l h.2]

theorem get_lookup (c : FloatText N) (n : String) (p : Val) : ∀ l : List (String × Val), (l.map Prod.fst).Nodup →
    l.lookup n = some p → (serFields c (dict.go l)).get n = [ser c p]
  | [], _, h => by simp at h
  | (m, v) :: l, hd, h => by
    simp only [List.map_cons, List.nodup_cons] at hd
    by_cases hn : n = m
    · subst hn
      simp at h
      subst h
      simp [dict.go, serFields, JsFields.get, get_not_mem c n l hd.1]
    · have hb : (n == m) = false := by simpa using hn
      rw [List.lookup_cons, hb] at h
      simp [dict.go, serFields, JsFields.get, Ne.symm hn, get_lookup c n p l hd.2 h]

theorem mem_of_lookup {n : String} {p : Val} : ∀ {l : List (String × Val)}, l.lookup n = some p → (n, p) ∈ l
  | [], h => by simp at h
  | (m, v) :: l, h => by
    by_cases hn : n = m
    · subst hn
      simp at h
      simp [h]
    · have hb : (n == m) = false := by simpa using hn
      rw [List.lookup_cons, hb] at h
      exact List.mem_cons_of_mem _ (mem_of_lookup h)

/-- A field of the structure, its value, and its entry in the dictionary. -/
def FieldReads (c : FloatText N) (py : List (String × Val)) (f : String × Ty) (r : String × Val) : Prop :=
  f.1 = r.1 ∧ ∃ p, py.lookup f.1 = some p ∧ Reads c f.2 p r.2

/-- A dictionary with distinct keys is read as a structure if every field has an entry that is read. -/
theorem deFields_reads (c : FloatText N) (py : List (String × Val)) (hd : (py.map Prod.fst).Nodup)
    (hf : ∀ e ∈ py, allFinite e.2 = true) : ∀ (fs : List (String × Ty)) (r : List (String × Val)),
    List.Forall₂ (FieldReads c py) fs r →
      deFields c (fields fs) (serFields c (dict.go py)) = some (dict.go r)
  | [], [], _ => rfl
  | (n, t) :: fs, (m, v) :: r, .cons ⟨hn, p, hp, h⟩ hs => by
    simp only at hn h hp
    subst hn
    have hg := get_lookup c n p py hd hp
    simp [fields, dict.go, deFields, hg, h (hf _ (mem_of_lookup hp)), deFields_reads c py hd hf fs r hs]

theorem dict_reads (c : FloatText N) (fs : List (String × Ty)) (py r : List (String × Val))
    (hd : (py.map Prod.fst).Nodup) (h : List.Forall₂ (FieldReads c py) fs r) :
    Reads c (struct fs) (dict py) (dict r) := by
  intro hf
  have hf := allFiniteFields_go py (by simpa [dict, allFinite] using hf)
  simp [struct, dict, ser, de, deFields_reads c py hd hf fs r h]

/-- One field whose entry cannot be read is enough. -/
theorem deFields_fails (c : FloatText N) (py : List (String × Val)) (hd : (py.map Prod.fst).Nodup) (n : String) (t : Ty)
    (p : Val) (hp : py.lookup n = some p) (h : de c t (ser c p) = none) :
    ∀ fs : List (String × Ty), (n, t) ∈ fs → deFields c (fields fs) (serFields c (dict.go py)) = none
  | [], hm => by simp at hm
  | (m, u) :: fs, hm => by
    rcases List.mem_cons.1 hm with e | hm
    · obtain ⟨rfl, rfl⟩ := Prod.mk.inj e
      simp [fields, deFields, get_lookup c n p py hd hp, h]
    · have := deFields_fails c py hd n t p hp h fs hm
      simp only [fields, deFields, this]
      split
      · simp
      · rfl

theorem dict_fails (c : FloatText N) (fs : List (String × Ty)) (py : List (String × Val)) (hd : (py.map Prod.fst).Nodup)
    (n : String) (t : Ty) (p : Val) (hm : (n, t) ∈ fs) (hp : py.lookup n = some p) (h : de c t (ser c p) = none) :
    de c (struct fs) (ser c (dict py)) = none := by
  simp [struct, dict, ser, de, deFields_fails c py hd n t p hp h fs hm]

/-- Splits a dictionary into its fields. -/
macro "read_fields" : tactic => `(tactic|
  (refine dict_reads _ _ _ _ (by simp) ?_
   simp only [List.forall₂_cons, List.forall₂_nil_left_iff, FieldReads, true_and, and_true, List.lookup_cons,
     String.reduceBEq, beq_self_eq_true, Option.some.injEq, exists_eq_left']
   and_intros))

section
variable {F : Type} (b : F → F64) (c : FloatText N) (hc : c.Exact)
include hc

theorem f64_reads (x : F64) : Reads c .f64 (.f64 x) (.f64 x) := by
  intro hf
  simp only [allFinite] at hf
  simp [ser, hf, de, hc x hf]

theorem num_reads (x : F) : Reads c .f64 (num b x) (.f64 (b x)) := f64_reads c hc (b x)

theorem nums_reads (l : List F) : Reads c (.vec .f64) (nums b l) (stNums b l) :=
  vec_reads c .f64 l _ _ fun x _ => num_reads b c hc x

theorem table_reads (n : Nat) (l : List F) (hl : l.length = n) : Reads c (.array n .f64) (nums b l) (stNums b l) :=
  array_reads c .f64 n l hl _ _ fun x _ => num_reads b c hc x

theorem zeros_reads (n : Nat) : Reads c (.array n .f64) (zeros n) (zeros n) :=
  replicate_reads c .f64 n _ _ (f64_reads c hc 0)

theorem axes_reads (a : Axes F) : Reads c axes (pyAxes b a) (stAxes b a) := by
  change Reads c (struct _) _ _
  unfold pyAxes stAxes
  read_fields <;> exact num_reads b c hc _

theorem zeroAxes_reads : Reads c axes zeroAxes stZeroAxes := by
  change Reads c (struct _) _ _
  unfold zeroAxes stZeroAxes
  read_fields <;> exact f64_reads c hc _

theorem string_reads (names : List String) (s : String) (h : s ∈ names) : Reads c (.tags names) (.tag s) (.tag s) := by
  intro _
  simp [ser, de, h]

theorem int_reads (lo hi i : Int) (h : lo ≤ i ∧ i ≤ hi) : Reads c (.int lo hi) (.int i) (.int i) := by
  intro _
  simp [ser, de, h]

theorem bool_reads (x : Bool) : Reads c .bool (.bool x) (.bool x) := by
  intro _
  simp [ser, de]

theorem unit_reads (vs : TVariants) (s : String) (h : s ∈ vs.units) : Reads c (.enum vs) (.tag s) (.tag s) := by
  intro _
  simp [ser, de, h]

/-- `{"Name": payload}`. -/
theorem variant_reads (vs : TVariants) (s : String) (t : Ty) (p r : Val) (h : Reads c t p r)
    (hv : ∀ j, deVariant c vs s j = (de c t j).map (.variant s)) : Reads c (.enum vs) (dict [(s, p)]) (.variant s r) := by
  intro hf
  have hp : allFinite p = true := by simpa [dict, dict.go, allFinite, allFiniteFields] using hf
  simp [dict, dict.go, ser, serFields, de, hv, h hp]

omit hc in
theorem variant_fails (vs : TVariants) (s : String) (t : Ty) (p : Val) (h : de c t (ser c p) = none)
    (hv : ∀ j, deVariant c vs s j = (de c t j).map (.variant s)) : de c (.enum vs) (ser c (dict [(s, p)])) = none := by
  simp [dict, dict.go, ser, serFields, de, hv, h]

theorem forceOutput_reads (x y : Axes F) : Reads c forceOutputTy
    (dict [("acceleration", pyAxes b x), ("dangular_momentum_dt", pyAxes b y)])
    (dict [("acceleration", stAxes b x), ("dangular_momentum_dt", stAxes b y)]) := by
  unfold forceOutputTy
  read_fields <;> exact axes_reads b c hc _

theorem coordinates_reads (x y : Axes F) : Reads c coordinatesTy
    (dict [("position", pyAxes b x), ("velocity", pyAxes b y)])
    (dict [("position", stAxes b x), ("velocity", stAxes b y)]) := by
  unfold coordinatesTy
  read_fields <;> exact axes_reads b c hc _

/-! ## Tides -/

theorem creep_reads (v : F) : Reads c creepTy (dict [("uniform_viscosity_coefficient", num b v)])
    (dict [("uniform_viscosity_coefficient", .f64 (b v))]) := by
  unfold creepTy
  read_fields <;> exact num_reads b c hc _

theorem kaula_reads (k : KaulaTables F) (h : k.Fits) : Reads c kaulaTy
    (dict [("love_number_excitation_frequency", nums b k.frequency),
      ("imaginary_part_love_number", nums b k.imaginaryPart), ("real_part_love_number", nums b k.realPart),
      ("num_datapoints", num b k.numDatapoints), ("kaula_tidal_force", zeroAxes)])
    (dict [("love_number_excitation_frequency", stNums b k.frequency),
      ("real_part_love_number", stNums b k.realPart), ("imaginary_part_love_number", stNums b k.imaginaryPart),
      ("num_datapoints", .f64 (b k.numDatapoints)), ("polynomials", polynomialsDefault),
      ("kaula_tidal_force", stZeroAxes)]) := by
  intro hf
  simp only [dict, dict.go, allFinite, allFiniteFields, Bool.and_eq_true] at hf
  obtain ⟨h1, h2, h3, h4, h5, _⟩ := hf
  have e1 := table_reads b c hc 1024 k.frequency h.1 h1
  have e2 := table_reads b c hc 1024 k.realPart h.2.1 h3
  have e3 := table_reads b c hc 1024 k.imaginaryPart h.2.2 h2
  have e4 := num_reads b c hc k.numDatapoints h4
  have e5 := zeroAxes_reads c hc h5
  simp [kaulaTy, dict, dict.go, ser, serFields, de, deFields, JsFields.get, e1, e2, e3, e4, e5]

omit hc in
/-- The same with any fields in the place of the tables. -/
theorem kaulaFields_fails (f i r n z : Val) (t : Ty)
    (h : de c t (ser c f) = none ∨ de c t (ser c r) = none ∨ de c t (ser c i) = none) :
    de c (.struct (.cons "love_number_excitation_frequency" t <|
      .cons "real_part_love_number" t <| .cons "imaginary_part_love_number" t <|
      .cons "num_datapoints" .f64 <| .dflt "polynomials" (struct polynomialsFields) polynomialsDefault <|
      .cons "kaula_tidal_force" axes .nil)) (ser c (dict [("love_number_excitation_frequency", f),
      ("imaginary_part_love_number", i), ("real_part_love_number", r), ("num_datapoints", n),
      ("kaula_tidal_force", z)])) = none := by
  simp only [dict, dict.go, ser, serFields, de, Option.map_eq_none_iff]
  rcases h with h | h | h <;> simp [deFields, JsFields.get, h]

omit hc in
/-- A table of another length is not read. -/
theorem kaula_fails (k : KaulaTables F) (h : ¬ k.Fits) : de c kaulaTy (ser c
    (dict [("love_number_excitation_frequency", nums b k.frequency),
      ("imaginary_part_love_number", nums b k.imaginaryPart), ("real_part_love_number", nums b k.realPart),
      ("num_datapoints", num b k.numDatapoints), ("kaula_tidal_force", zeroAxes)])) = none := by
  have e : ∀ l : List F, l.length ≠ 1024 → de c (.array 1024 .f64) (ser c (nums b l)) = none := fun l hl =>
    array_fails c .f64 1024 _ (by simpa using hl)
  refine kaulaFields_fails c _ _ _ _ _ (.array 1024 .f64) ?_
  by_cases h1 : k.frequency.length = 1024
  · by_cases h2 : k.realPart.length = 1024
    · exact Or.inr (Or.inr (e _ fun h3 => h ⟨h1, h2, h3⟩))
    · exact Or.inr (Or.inl (e _ h2))
  · exact Or.inl (e _ h1)

theorem tidalModel_reads (k : KaulaTables F) (m : TidalModel F) (h : m = .kaula → k.Fits) :
    Reads c tidalModelTy (pyTidalModel b k m) (stTidalModel b k m) := by
  unfold tidalModelTy
  cases m with
  | constantTimeLag s scale love =>
    refine variant_reads c hc _ _ constantTimeLagTy _ _ ?_ fun j => by simp [deVariant]
    unfold constantTimeLagTy
    read_fields <;> exact num_reads b c hc _
  | creepCoplanar v =>
    exact variant_reads c hc _ _ creepTy _ _ (creep_reads b c hc v) fun j => by simp [deVariant]
  | kaula =>
    exact variant_reads c hc _ _ kaulaTy _ _ (kaula_reads b c hc k (h rfl)) fun j => by simp [deVariant]

theorem tidesEffect_reads (k : KaulaTables F) (e : TidesEffect F) (h : usesKaula e = true → k.Fits) :
    Reads c tidesEffectTy (pyTidesEffect b k e) (stTidesEffect b k e) := by
  unfold tidesEffectTy
  cases e with
  | central m =>
    exact variant_reads c hc _ _ tidalModelTy _ _ (tidalModel_reads b c hc k m (by rintro rfl; exact h rfl)) fun j => by
      simp [deVariant]
  | orbiting m =>
    exact variant_reads c hc _ _ tidalModelTy _ _ (tidalModel_reads b c hc k m (by rintro rfl; exact h rfl)) fun j => by
      simp [deVariant]
  | disabled => exact unit_reads c hc _ _ (by simp [TVariants.units])

theorem tides_reads (k : KaulaTables F) (t : Tides F) (h : usesKaula t.effect = true → k.Fits) :
    Reads c tidesTy (pyTides b k t) (stTides b k t) := by
  unfold tidesTy pyTides stTides
  read_fields
  · exact tidesEffect_reads b c hc k t.effect h
  · read_fields
    · unfold tidesInternalFields
      read_fields
      all_goals first | exact num_reads b c hc _ | exact axes_reads b c hc _
    · exact forceOutput_reads b c hc _ _
  · exact coordinates_reads b c hc _ _

/-! ## The other effects -/

theorem flatteningModel_reads (m : FlatteningModel F) :
    Reads c flatteningModelTy (pyFlatteningModel b m) (stFlatteningModel b m) := by
  unfold flatteningModelTy
  cases m with
  | oblateSpheroid love =>
    refine variant_reads c hc _ _ (struct [("love_number", .f64)]) _ _ ?_ fun j => by simp [deVariant]
    read_fields <;> exact num_reads b c hc _
  | creepCoplanar v =>
    exact variant_reads c hc _ _ creepTy _ _ (creep_reads b c hc v) fun j => by simp [deVariant]

theorem flatteningEffect_reads (e : FlatteningEffect F) : Reads c flatteningEffectTy (match e with
      | .central m => dict [("CentralBody", pyFlatteningModel b m)]
      | .orbiting m => dict [("OrbitingBody", pyFlatteningModel b m)]
      | .disabled => .tag "Disabled") (stFlatteningEffect b e) := by
  unfold flatteningEffectTy
  cases e with
  | central m =>
    exact variant_reads c hc _ _ flatteningModelTy _ _ (flatteningModel_reads b c hc m) fun j => by simp [deVariant]
  | orbiting m =>
    exact variant_reads c hc _ _ flatteningModelTy _ _ (flatteningModel_reads b c hc m) fun j => by simp [deVariant]
  | disabled => exact unit_reads c hc _ _ (by simp [TVariants.units])

theorem flattening_reads (f : Flattening F) : Reads c flatteningTy (pyFlattening b f) (stFlattening b f) := by
  unfold flatteningTy pyFlattening stFlattening
  read_fields
  · exact flatteningEffect_reads b c hc f.effect
  · read_fields
    · unfold flatteningInternalFields
      read_fields
      all_goals first | exact num_reads b c hc _ | exact axes_reads b c hc _
    · exact forceOutput_reads b c hc _ _
  · exact coordinates_reads b c hc _ _

theorem implementation_reads (i : GrImplementation) :
    Reads c grImplementationTy (.tag (implementationName i)) (stImplementation i) := by
  cases i <;> exact string_reads c hc _ _ (by simp [implementationName])

theorem gr_reads (g : Gr F) : Reads c grTy (pyGr b g) (stGr b g) := by
  unfold grTy pyGr stGr
  read_fields
  · unfold grEffectTy stGrEffect
    cases g.effect with
    | central i =>
      exact variant_reads c hc _ _ grImplementationTy _ _ (implementation_reads c hc i) fun j => by simp [deVariant]
    | orbiting => exact unit_reads c hc _ _ (by simp [TVariants.units])
    | disabled => exact unit_reads c hc _ _ (by simp [TVariants.units])
  · read_fields
    · read_fields <;> exact num_reads b c hc _
    · exact forceOutput_reads b c hc _ _
  · exact coordinates_reads b c hc _ _

theorem disk_reads (d : Disk F) : Reads c diskTy (pyDisk b d) (stDisk b d) := by
  unfold diskTy pyDisk stDisk
  read_fields
  · unfold diskEffectTy stDiskEffect
    cases d.effect with
    | central p =>
      refine variant_reads c hc _ _ diskPropertiesTy _ _ ?_ fun j => by simp [deVariant]
      unfold diskPropertiesTy
      read_fields <;> exact num_reads b c hc _
    | orbiting => exact unit_reads c hc _ _ (by simp [TVariants.units])
    | disabled => exact unit_reads c hc _ _ (by simp [TVariants.units])
  · read_fields
    · read_fields <;> exact num_reads b c hc _
    · read_fields <;> exact axes_reads b c hc _
  · exact coordinates_reads b c hc _ _

theorem wind_reads (w : Wind F) : Reads c windTy (pyWind b w) (stWind b w) := by
  unfold windTy pyWind stWind
  read_fields
  · cases w.interaction <;> exact string_reads c hc _ _ (by simp)
  · read_fields
    · read_fields <;> exact num_reads b c hc _
    · read_fields <;> exact num_reads b c hc _
    · read_fields <;> exact axes_reads b c hc _

theorem evolution_reads (mass : F) (e : EvolutionType) :
    Reads c evolutionTy (pyEvolution b mass e) (stEvolution b mass e) := by
  unfold evolutionTy
  cases e with
  | leconteChabrier2013 d => exact variant_reads c hc _ _ .bool _ _ (bool_reads c hc d) fun j => by simp [deVariant]
  | nonEvolving => exact unit_reads c hc _ _ (by simp [TVariants.units])
  | _ => exact variant_reads c hc _ _ .f64 _ _ (num_reads b c hc mass) fun j => by simp [deVariant]

theorem evolver_reads (e : Extra F) (h : e.evolver.leftIndex ≤ 18446744073709551615) :
    Reads c evolverTy (pyEvolver b e) (stEvolver b e) := by
  unfold evolverTy pyEvolver stEvolver
  read_fields
  · exact evolution_reads b c hc _ _
  · exact nums_reads b c hc _
  · exact nums_reads b c hc _
  · exact nums_reads b c hc _
  · exact nums_reads b c hc _
  · exact nums_reads b c hc _
  · exact int_reads c hc _ _ _ (by omega)

theorem particle_reads (p : Particle F) (e : Extra F) (hid : p.id ≤ 18446744073709551615)
    (hk : usesKaula p.tides.effect = true → e.kaula.Fits) :
    Reads c particleTy (pyParticle b (p, e)) (stParticle b p e) := by
  unfold particleTy pyParticle stParticle
  read_fields
  all_goals first
    | exact num_reads b c hc _
    | exact axes_reads b c hc _
    | exact int_reads c hc _ _ _ (by omega)
    | exact unit_reads c hc _ _ (by simp [TVariants.units])
    | exact tides_reads b c hc _ _ hk
    | exact flattening_reads b c hc _
    | exact gr_reads b c hc _
    | exact disk_reads b c hc _
    | exact wind_reads b c hc _
    | exact evolution_reads b c hc _ _

/-! ## Universe and integrators -/

/-- The numbers of the file are in the range of `usize`. -/
structure InRange (f : Py.CaseFile F) : Prop where
  number : f.number ≤ 11
  mostMassive : f.mostMassive ≤ 11
  tides : f.tides ≤ 11
  flattening : f.flattening ≤ 11
  gr : f.gr ≤ 11
  disk : f.disk ≤ 11
  ids : ∀ p ∈ f.particles, p.id ≤ 11

omit hc in
theorem mem_withExtras [FOps F] : ∀ (l : List (Particle F)) (m : List (Extra F)) (pe : Particle F × Extra F),
    pe ∈ withExtras l m → pe.1 ∈ l ∧ (pe.2 ∈ m ∨ pe.2 = dummyExtra)
  | [], _, pe, h => by simp [withExtras] at h
  | p :: l, [], pe, h => by
    rcases List.mem_cons.1 h with rfl | h
    · simp
    · exact ⟨List.mem_cons_of_mem _ (mem_withExtras l [] pe h).1, (mem_withExtras l [] pe h).2⟩
  | p :: l, e :: m, pe, h => by
    rcases List.mem_cons.1 h with rfl | h
    · simp
    · have := mem_withExtras l m pe h
      exact ⟨List.mem_cons_of_mem _ this.1, this.2.imp (List.mem_cons_of_mem _) id⟩

omit hc in
theorem length_withExtras [FOps F] : ∀ (l : List (Particle F)) (m : List (Extra F)), (withExtras l m).length = l.length
  | [], _ => rfl
  | p :: l, [] => by simp [withExtras, length_withExtras l []]
  | p :: l, e :: m => by simp [withExtras, length_withExtras l m]

theorem flag_reads (x : Bool) : Reads c .bool (pyFlag false x) (.bool x) := by
  cases x <;> exact bool_reads c hc _

theorem consider_reads (x : Consider) : Reads c considerTy (pyConsider false x)
    (dict [("tides", .bool x.tides), ("rotational_flattening", .bool x.flattening), ("general_relativity", .bool x.gr),
      ("disk", .bool x.disk), ("wind", .bool x.wind), ("evolution", .bool x.evolution)]) := by
  unfold considerTy pyConsider
  read_fields <;> exact flag_reads c hc _

theorem emptyMap_reads (t : Ty) : Reads c (.map t) (dict []) (dict []) := by
  intro _
  simp [dict, dict.go, ser, serFields, de, JsFields.mapM]

theorem universe_reads [FOps F] (k : Case F) (hr : InRange k.file) (hn : k.file.particles.length = 10)
    (hk : ∀ pe ∈ withExtras k.file.particles k.extras, usesKaula pe.1.tides.effect = true → pe.2.kaula.Fits)
    (hi : ∀ e ∈ k.extras, e.evolver.leftIndex ≤ 18446744073709551615) :
    Reads c universeTy (pyUniverse b false k) (stUniverse b k) := by
  unfold universeTy pyUniverse stUniverse
  have h1 := hr.number
  have h2 := hr.mostMassive
  have h3 := hr.tides
  have h4 := hr.flattening
  have h5 := hr.gr
  have h6 := hr.disk
  read_fields
  · exact num_reads b c hc _
  · exact num_reads b c hc _
  · refine array_reads c particleTy 10 _ (by rw [length_withExtras, hn]) _ _ fun pe hpe => ?_
    have := hr.ids pe.1 (mem_withExtras _ _ _ hpe).1
    exact particle_reads b c hc pe.1 pe.2 (by omega) (hk pe hpe)
  · refine vec_reads c evolverTy _ _ _ fun pe hpe => evolver_reads b c hc pe.2 ?_
    rcases (mem_withExtras _ _ _ hpe).2 with h | h
    · exact hi _ h
    · rw [h]
      simp [dummyExtra]
  · exact int_reads c hc _ _ _ (by omega)
  · exact consider_reads c hc _
  · exact implementation_reads c hc _
  · unfold hostsTy
    read_fields
    · read_fields <;> exact int_reads c hc _ _ _ (by omega)
    · read_fields <;> exact bool_reads c hc _
  · exact emptyMap_reads c hc _
  · exact zeros_reads c hc 100

omit hc in
theorem dict_names : ∀ l : List (String × Val), (dict.go l).names = l.map Prod.fst
  | [] => rfl
  | (n, v) :: l => by simp [dict.go, VFields.names, dict_names l]

omit hc in
/-- A dictionary that lacks a field. -/
theorem dict_missing (fs : List (String × Ty)) (py : List (String × Val)) (n : String) (h1 : n ∈ fs.map Prod.fst)
    (h2 : n ∉ py.map Prod.fst) : de c (struct fs) (ser c (dict py)) = none := by
  have := deFields_missing c n (dict.go py) (by rw [dict_names]; exact h2) (fields fs) (by rw [fields_required]; exact h1)
  simp [struct, dict, ser, de, this]

theorem minusOne_reads : Reads c .f64 minusOne minusOne := f64_reads c hc _

theorem alternative_reads : Reads c alternativeCoordinates pyAlternative
    (dict [("mass", .f64 0), ("mass_g", .f64 0), ("position", stZeroAxes), ("velocity", stZeroAxes),
      ("acceleration", stZeroAxes)]) := by
  change Reads c (struct _) _ _
  unfold pyAlternative
  read_fields
  all_goals first | exact f64_reads c hc _ | exact zeroAxes_reads c hc

omit hc in
theorem Reads.out {t : Ty} {p r : Val} (h : Reads c t p r) (hf : allFinite p = true) : de c t (ser c p) = some r := h hf

attribute [local irreducible] Reads

theorem leapfrog_reads [Mul F] [FOps F] (k : Case F) (hk : k.kind = .leapfrog)
    (hu : Reads c universeTy (pyUniverse b false k) (stUniverse b k)) :
    Reads c (Kind.leapfrog.ty universeTy) (pyIntegrator b false k) (stIntegrator b k) := by
  change Reads c (struct (leapfrogFields universeTy)) _ _
  simp only [pyIntegrator, stIntegrator, hk, leapfrogFields, pyCommon, List.cons_append, List.nil_append]
  read_fields
  all_goals first
    | exact num_reads b c hc _
    | exact f64_reads c hc _
    | exact minusOne_reads c hc
    | exact hu
    | exact int_reads c hc _ _ _ (by omega)

theorem coordinatesType_reads (x : Coordinates) : Reads c (.tags ["Jacobi", "DemocraticHeliocentric", "WHDS"])
    (.tag (coordinatesName x)) (match x with
        | .jacobi => .tag "Jacobi"
        | .democraticHeliocentric => .tag "DemocraticHeliocentric"
        | .whds => .tag "WHDS") := by
  cases x <;> exact string_reads c hc _ _ (by simp [coordinatesName])

theorem whfast_reads [Mul F] [FOps F] (k : Case F) (hk : k.kind = .whfast)
    (hu : Reads c universeTy (pyUniverse b false k) (stUniverse b k)) :
    Reads c (Kind.whfast.ty universeTy) (pyIntegrator b false k) (stIntegrator b k) := by
  change Reads c (struct (whfastFields universeTy)) _ _
  simp only [pyIntegrator, stIntegrator, hk, whfastFields, pyCommon, List.cons_append, List.nil_append]
  read_fields
  all_goals first
    | exact num_reads b c hc _
    | exact f64_reads c hc _
    | exact minusOne_reads c hc
    | exact hu
    | exact int_reads c hc _ _ _ (by omega)
    | exact replicate_reads c _ 10 _ _ (zeroAxes_reads c hc)
    | exact replicate_reads c _ 10 _ _ (alternative_reads c hc)
    | (cases k.coordinates <;> exact string_reads c hc _ _ (by simp [coordinatesName]))

omit hc in
theorem ias15_nodup [FOps F] (ones : Bool) (k : Case F) : ((pyCommon b ones k ++ [("n_particles", Val.int k.file.number),
      ("integrator_iterations_max_exceeded", Val.int 0), ("time_step_last_success", Val.f64 0)] ++
      ias15Arrays.map (fun n => (n, zeros 30)) ++ [("s", zeros 9)]).map Prod.fst).Nodup := by
  have : ((pyCommon b ones k ++ [("n_particles", Val.int k.file.number),
      ("integrator_iterations_max_exceeded", Val.int 0), ("time_step_last_success", Val.f64 0)] ++
      ias15Arrays.map (fun n => (n, zeros 30)) ++ [("s", zeros 9)]).map Prod.fst)
      = (ias15Fields .f64).map Prod.fst := by
    simp [pyCommon, ias15Fields, Function.comp_def]
  rw [this]
  decide

omit hc in
theorem lookup_of_mem {n : String} {v : Val} : ∀ {l : List (String × Val)}, (l.map Prod.fst).Nodup → (n, v) ∈ l →
    l.lookup n = some v
  | [], _, h => by simp at h
  | (m, w) :: l, hd, h => by
    simp only [List.map_cons, List.nodup_cons] at hd
    rcases List.mem_cons.1 h with e | h2
    · obtain ⟨rfl, rfl⟩ := Prod.mk.inj e
      simp
    · have : (n == m) = false := by
        simp only [beq_eq_false_iff_ne, ne_eq]
        rintro rfl
        exact hd.1 (List.mem_map_of_mem (f := Prod.fst) h2)
      rw [List.lookup_cons, this]
      exact lookup_of_mem hd.2 h2

omit hc in
theorem field_of_mem (py : List (String × Val)) (hd : (py.map Prod.fst).Nodup) (n : String) (t : Ty) (p r : Val)
    (hm : (n, p) ∈ py) (h : Reads c t p r) : FieldReads c py (n, t) (n, r) := ⟨rfl, p, lookup_of_mem hd hm, h⟩

theorem ias15_reads [Mul F] [FOps F] (k : Case F) (hk : k.kind = .ias15) (hr : InRange k.file)
    (hu : Reads c universeTy (pyUniverse b false k) (stUniverse b k)) :
    Reads c (Kind.ias15.ty universeTy) (pyIntegrator b false k) (stIntegrator b k) := by
  change Reads c (struct (ias15Fields universeTy)) _ _
  have h1 := hr.number
  simp only [pyIntegrator, stIntegrator, hk]
  have hd := ias15_nodup b false k
  refine dict_reads _ _ _ _ hd ?_
  unfold ias15Fields
  refine List.rel_append ?_ ?_
  · refine List.rel_append ?_ ?_
    · refine .cons (field_of_mem c _ hd _ _ (num b k.timeStep) _ (by simp [pyCommon]) (num_reads b c hc _)) ?_
      refine .cons (field_of_mem c _ hd _ _ _ _ (by simp [pyCommon]) hu) ?_
      refine .cons (field_of_mem c _ hd _ _ (.f64 0) _ (by simp [pyCommon]) (f64_reads c hc _)) ?_
      refine .cons (field_of_mem c _ hd _ _ (.int 0) _ (by simp [pyCommon]) (int_reads c hc _ _ _ (by omega))) ?_
      refine .cons (field_of_mem c _ hd _ _ (num b k.recoveryPeriod) _ (by simp [pyCommon]) (num_reads b c hc _)) ?_
      refine .cons (field_of_mem c _ hd _ _ (num b k.historicPeriod) _ (by simp [pyCommon]) (num_reads b c hc _)) ?_
      refine .cons (field_of_mem c _ hd _ _ minusOne _ (by simp [pyCommon]) (minusOne_reads c hc)) ?_
      refine .cons (field_of_mem c _ hd _ _ minusOne _ (by simp [pyCommon]) (minusOne_reads c hc)) ?_
      refine .cons (field_of_mem c _ hd _ _ (.int 0) _ (by simp [pyCommon]) (int_reads c hc _ _ _ (by omega))) ?_
      refine .cons (field_of_mem c _ hd _ _ (.int 0) _ (by simp [pyCommon]) (int_reads c hc _ _ _ (by omega))) ?_
      refine .cons (field_of_mem c _ hd _ _ (.int k.file.number) _ (by simp [pyCommon])
        (int_reads c hc _ _ _ (by omega))) ?_
      refine .cons (field_of_mem c _ hd _ _ (.int 0) _ (by simp [pyCommon]) (int_reads c hc _ _ _ (by omega))) ?_
      exact .cons (field_of_mem c _ hd _ _ (.f64 0) _ (by simp [pyCommon]) (f64_reads c hc _)) .nil
    · rw [List.forall₂_map_left_iff, List.forall₂_map_right_iff, List.forall₂_same]
      intro n hn
      exact field_of_mem c _ hd _ _ (zeros 30) _
        (List.mem_append_left _ (List.mem_append_right _ (List.mem_map_of_mem hn))) (zeros_reads c hc 30)
  · exact .cons (field_of_mem c _ hd _ _ (zeros 9) _ (by simp) (zeros_reads c hc 9)) .nil

/-! ## Files that cannot be read -/

omit hc in
theorem dict_fails_mem (fs : List (String × Ty)) (py : List (String × Val)) (hd : (py.map Prod.fst).Nodup)
    (n : String) (t : Ty) (p : Val) (hm : (n, t) ∈ fs) (hp : (n, p) ∈ py) (h : de c t (ser c p) = none) :
    de c (struct fs) (ser c (dict py)) = none := dict_fails c fs py hd n t p hm (lookup_of_mem hd hp) h

omit hc in
theorem tidesEffect_fails (k : KaulaTables F) (e : TidesEffect F) (h1 : usesKaula e = true) (h2 : ¬ k.Fits) :
    de c tidesEffectTy (ser c (pyTidesEffect b k e)) = none := by
  have hm : de c tidalModelTy (ser c (pyTidalModel b k .kaula)) = none :=
    variant_fails c _ _ kaulaTy _ (kaula_fails b c k h2) fun j => by simp [deVariant]
  unfold tidesEffectTy
  match e, h1 with
  | .central .kaula, _ => exact variant_fails c _ _ tidalModelTy _ hm fun j => by simp [deVariant]
  | .orbiting .kaula, _ => exact variant_fails c _ _ tidalModelTy _ hm fun j => by simp [deVariant]

omit hc in
theorem particle_fails (p : Particle F) (e : Extra F) (h1 : usesKaula p.tides.effect = true) (h2 : ¬ e.kaula.Fits) :
    de c particleTy (ser c (pyParticle b (p, e))) = none := by
  have ht : de c tidesTy (ser c (pyTides b e.kaula p.tides)) = none := by
    unfold tidesTy pyTides
    exact dict_fails_mem c _ _ (by simp) "effect" tidesEffectTy (pyTidesEffect b e.kaula p.tides.effect) (by simp)
      (by simp) (tidesEffect_fails b c e.kaula p.tides.effect h1 h2)
  unfold particleTy pyParticle
  exact dict_fails_mem c _ _ (by simp) "tides" tidesTy (pyTides b e.kaula p.tides) (by simp) (by simp) ht

omit hc in
theorem universe_fails_length [FOps F] (ones : Bool) (k : Case F) (h : k.file.particles.length ≠ 10) :
    de c universeTy (ser c (pyUniverse b ones k)) = none := by
  unfold universeTy pyUniverse
  exact dict_fails_mem c _ _ (by simp) "particles" (.array 10 particleTy)
    (.arr (vals ((withExtras k.file.particles k.extras).map (pyParticle b)))) (by simp) (by simp)
    (array_fails c particleTy 10 _ (by rw [List.length_map, length_withExtras]; exact h))

omit hc in
theorem universe_fails_kaula [FOps F] (ones : Bool) (k : Case F) (pe : Particle F × Extra F)
    (hpe : pe ∈ withExtras k.file.particles k.extras) (h1 : usesKaula pe.1.tides.effect = true) (h2 : ¬ pe.2.kaula.Fits) :
    de c universeTy (ser c (pyUniverse b ones k)) = none := by
  have := mapM_vals_none c particleTy _ _ (List.mem_map_of_mem (f := pyParticle b) hpe)
    (particle_fails b c pe.1 pe.2 h1 h2)
  unfold universeTy pyUniverse
  exact dict_fails_mem c _ _ (by simp) "particles" (.array 10 particleTy)
    (.arr (vals ((withExtras k.file.particles k.extras).map (pyParticle b)))) (by simp) (by simp)
    (by simp [ser, de, this])

omit hc in
theorem consider_fails (x : Consider)
    (h : x.tides = true ∨ x.flattening = true ∨ x.gr = true ∨ x.disk = true ∨ x.wind = true ∨ x.evolution = true) :
    de c considerTy (ser c (pyConsider true x)) = none := by
  have hf : de c .bool (ser c (pyFlag true true)) = none := by simp [pyFlag, ser, de]
  unfold considerTy pyConsider
  rcases h with h | h | h | h | h | h <;> rw [h]
  · exact dict_fails_mem c _ _ (by simp) "tides" .bool _ (by simp) (.head _) hf
  · exact dict_fails_mem c _ _ (by simp) "rotational_flattening" .bool _ (by simp) (.tail _ (.head _)) hf
  · exact dict_fails_mem c _ _ (by simp) "general_relativity" .bool _ (by simp) (.tail _ (.tail _ (.head _))) hf
  · exact dict_fails_mem c _ _ (by simp) "disk" .bool _ (by simp) (.tail _ (.tail _ (.tail _ (.head _)))) hf
  · exact dict_fails_mem c _ _ (by simp) "wind" .bool _ (by simp) (.tail _ (.tail _ (.tail _ (.tail _ (.head _))))) hf
  · exact dict_fails_mem c _ _ (by simp) "evolution" .bool _ (by simp)
      (.tail _ (.tail _ (.tail _ (.tail _ (.tail _ (.head _)))))) hf

omit hc in
theorem universe_fails_ones [FOps F] (k : Case F) (h : de c considerTy (ser c (pyConsider true k.file.consider)) = none) :
    de c universeTy (ser c (pyUniverse b true k)) = none := by
  unfold universeTy pyUniverse
  exact dict_fails_mem c _ _ (by simp) "consider_effects" considerTy (pyConsider true k.file.consider) (by simp) (by simp) h

omit hc in
/-- No integrator is read from a file whose universe is not read. -/
theorem integrator_fails [Mul F] [FOps F] (ones : Bool) (k : Case F) (kind : Kind)
    (h : de c universeTy (ser c (pyUniverse b ones k)) = none) :
    de c (kind.ty universeTy) (ser c (pyIntegrator b ones k)) = none := by
  have hm : ("universe", universeTy) ∈ kind.fields universeTy := by
    cases kind <;> simp [Kind.fields, whfastFields, ias15Fields, leapfrogFields]
  change de c (struct (kind.fields universeTy)) _ = none
  unfold pyIntegrator
  split
  · exact dict_fails_mem c _ _ (by simp [pyCommon]) "universe" universeTy (pyUniverse b ones k) hm (by simp [pyCommon]) h
  · exact dict_fails_mem c _ _ (by simp [pyCommon]) "universe" universeTy (pyUniverse b ones k) hm (by simp [pyCommon]) h
  · exact dict_fails_mem c _ _ (ias15_nodup b ones k) "universe" universeTy (pyUniverse b ones k) hm
      (by simp [pyCommon]) h

omit hc in
theorem read_fails [Mul F] [FOps F] (ones : Bool) (k : Case F)
    (h : de c universeTy (ser c (pyUniverse b ones k)) = none) : read c (pyIntegrator b ones k) = none := by
  unfold read dump
  by_cases hf : allFinite (pyIntegrator b ones k) = true
  · simp only [hf, if_true, restore, integrator_fails b c ones k _ h]
  · simp [hf]

/-- The file of an integrator lacks a field of those that are tried before it. -/
theorem read_reads [Mul F] [FOps F] (k : Case F) (hf : allFinite (pyIntegrator b false k) = true)
    (hu : Reads c universeTy (pyUniverse b false k) (stUniverse b k)) (hr : InRange k.file) :
    read c (pyIntegrator b false k) = some (k.kind, stIntegrator b k) := by
  have own : de c (k.kind.ty universeTy) (ser c (pyIntegrator b false k)) = some (stIntegrator b k) := by
    cases hk : k.kind
    · exact (whfast_reads b c hc k hk hu).out c hf
    · exact (ias15_reads b c hc k hk hr hu).out c hf
    · exact (leapfrog_reads b c hc k hk hu).out c hf
  unfold read dump
  simp only [hf, if_true]
  unfold restore
  cases hk : k.kind with
  | whfast =>
    rw [hk] at own
    rw [own]
  | ias15 =>
    rw [hk] at own
    have h1 : de c (Kind.whfast.ty universeTy) (ser c (pyIntegrator b false k)) = none := by
      simp only [pyIntegrator, hk]
      refine dict_missing c (whfastFields universeTy) _ "half_time_step" (by simp [whfastFields]) ?_
      simp [pyCommon]
    rw [h1, own]
  | leapfrog =>
    rw [hk] at own
    have h1 : de c (Kind.whfast.ty universeTy) (ser c (pyIntegrator b false k)) = none := by
      simp only [pyIntegrator, hk]
      refine dict_missing c (whfastFields universeTy) _ "timestep_warning" (by simp [whfastFields]) ?_
      simp [pyCommon]
    have h2 : de c (Kind.ias15.ty universeTy) (ser c (pyIntegrator b false k)) = none := by
      simp only [pyIntegrator, hk]
      refine dict_missing c (ias15Fields universeTy) _ "n_particles" (by simp [ias15Fields]) ?_
      simp [pyCommon]
    rw [h1, h2, own]

end

/-! ## The numbers of the file -/

section
variable {F : Type} [Add F] [Sub F] [Mul F] [Div F] [Neg F] [FOps F]

theorem claim_le {considered central : Bool} {index n r : Nat} (h : Py.claim considered central index n = some r)
    (hi : index ≤ 11) (hn : n ≤ 11) : r ≤ 11 := by
  unfold Py.claim at h
  split at h
  · split at h
    · split at h
      · simp at h; omega
      · simp at h
    · simp at h; omega
  · simp at h; omega

/-- What is true of the universe while particles are added to it. -/
structure FrontInRange (s : Py.Front F) : Prop where
  particles : s.particles.length ≤ 11
  tides : s.tides ≤ 11
  flattening : s.flattening ≤ 11
  gr : s.gr ≤ 11
  disk : s.disk ≤ 11

omit [Add F] [Sub F] [Mul F] [Div F] [Neg F] [FOps F] in
theorem addAll_inRange (evolve : Particle F → Option (Particle F)) : ∀ (l : List (Particle F)) (s r : Py.Front F),
    Py.addAll evolve s l = some r → FrontInRange s → FrontInRange r ∧ r.particles.length = s.particles.length + l.length
  | [], s, r, h, hs => by
    simp only [Py.addAll, Option.some.injEq] at h
    subst h
    exact ⟨hs, rfl⟩
  | p :: l, s, r, h, hs => by
    unfold Py.addAll at h
    split at h
    · cases h
    rename_i s' hs'
    unfold Py.addParticle at hs'
    split at hs'
    · cases hs'
    rename_i hlen
    have hlen : s.particles.length ≤ 10 := not_lt.1 hlen
    split at hs'
    · rename_i t f g d q ht hf hg hd hq
      have hs' := Option.some.inj hs'
      subst hs'
      have := addAll_inRange evolve l _ r h
        ⟨by simp; omega, claim_le ht hs.tides (by omega), claim_le hf hs.flattening (by omega),
          claim_le hg hs.gr (by omega), claim_le hd hs.disk (by omega)⟩
      refine ⟨this.1, ?_⟩
      rw [this.2]
      simp
      omega
    · cases hs'

theorem assignIds_ids (l : List (Particle F)) : (Py.assignIds l).length = l.length ∧ ∀ p ∈ Py.assignIds l, p.id < l.length := by
  have h := Py.assignIds_eq fun i : Fin l.length => l[i]
  have e : (List.ofFn fun i : Fin l.length => l[i]) = l := List.ofFn_getElem
  rw [e] at h
  rw [h]
  refine ⟨by simp, ?_⟩
  intro p hp
  obtain ⟨i, rfl⟩ := List.mem_ofFn.1 hp
  exact i.isLt

/-- The numbers in a file of the front end, and the number of its particles. -/
theorem caseFile_inRange (kc : Consts F) (evolve : Particle F → Option (Particle F)) (c0 : Consider)
    (l : List (Particle F)) (f : Py.CaseFile F) (h : Py.caseFile kc evolve c0 l = some f) :
    InRange f ∧ f.particles.length = l.length + (10 - l.length) := by
  unfold Py.caseFile at h
  split at h
  · cases h
  rename_i s hs
  obtain ⟨hr, hl⟩ := addAll_inRange evolve l (Py.start c0) s hs
    ⟨by simp [Py.start], by simp [Py.start, maxParticles], by simp [Py.start, maxParticles],
      by simp [Py.start, maxParticles], by simp [Py.start, maxParticles]⟩
  have hl : s.particles.length = l.length := by simpa [Py.start] using hl
  have h11 := hr.particles
  have h1 := hr.tides
  have h2 := hr.flattening
  have h3 := hr.gr
  have h4 := hr.disk
  unfold Py.get at h
  dsimp only at h
  split at h
  · cases h
  rename_i com _
  split at h
  · cases h
  split at h
  · cases h
  rename_i central hcentral
  have ids := assignIds_ids (s.particles.map (Py.toInertial com))
  rw [List.length_map] at ids
  have hmm := (List.getElem?_eq_some_iff.1 hcentral).1
  rw [ids.1] at hmm
  have h := Option.some.inj h
  subst h
  refine ⟨⟨?_, ?_, ?_, ?_, ?_, ?_, ?_⟩, ?_⟩
  · dsimp only; omega
  · dsimp only; omega
  · dsimp only
    split
    · exact h2
    · split
      · simp [maxParticles]
      · exact h1
  · dsimp only
    split
    · simp [maxParticles]
    · exact h2
  · dsimp only
    split
    · simp [maxParticles]
    · exact h3
  · dsimp only
    split
    · simp [maxParticles]
    · exact h4
  · intro p hp
    dsimp only at hp
    rcases List.mem_append.1 hp with hp | hp
    · obtain ⟨q, hq, rfl⟩ := List.mem_map.1 hp
      have := ids.2 q hq
      have e : (Py.withFactor (Py.disableUnnecessary s).gr central.massG q).id = q.id := rfl
      omega
    · rw [(List.mem_replicate.1 hp).2]
      simp [Py.dummy, Py.newParticle]
  · dsimp only
    rw [List.length_append, List.length_map, List.length_replicate, ids.1, hl]
    rfl

omit [Add F] [Sub F] [Mul F] [Div F] [Neg F] [FOps F] in
theorem addAll_tides (evolve : Particle F → Option (Particle F)) (he : ∀ p q, evolve p = some q → q.tides = p.tides) :
    ∀ (l : List (Particle F)) (s r : Py.Front F), Py.addAll evolve s l = some r →
      r.particles.map (·.tides.effect) = s.particles.map (·.tides.effect) ++ l.map (·.tides.effect)
  | [], s, r, h => by
    simp only [Py.addAll, Option.some.injEq] at h
    subst h
    simp
  | p :: l, s, r, h => by
    unfold Py.addAll at h
    split at h
    · cases h
    rename_i s' hs'
    unfold Py.addParticle at hs'
    split at hs'
    · cases hs'
    split at hs'
    · rename_i t f g d q hq0 hf hg hd hq
      have hs' := Option.some.inj hs'
      subst hs'
      have hqp : q.tides = p.tides := by
        split at hq
        · rw [Option.some.inj hq]
        · exact he p q hq
      rw [addAll_tides evolve he l _ r h]
      simp [hqp]
    · cases hs'

/-- The tidal effects of a file are those of the bodies that were added. -/
theorem caseFile_tides (kc : Consts F) (evolve : Particle F → Option (Particle F))
    (he : ∀ p q, evolve p = some q → q.tides = p.tides) (c0 : Consider) (l : List (Particle F)) (f : Py.CaseFile F)
    (h : Py.caseFile kc evolve c0 l = some f) :
    f.particles.map (·.tides.effect) = l.map (·.tides.effect) ++ List.replicate (10 - l.length) .disabled := by
  unfold Py.caseFile at h
  split at h
  · cases h
  rename_i s hs
  have ht := addAll_tides evolve he l _ s hs
  have hlen := congrArg List.length ht
  simp only [List.length_append, List.length_map, Py.start, List.length_nil, Nat.zero_add] at hlen
  unfold Py.get at h
  dsimp only at h
  split at h
  · cases h
  rename_i com _
  split at h
  · cases h
  split at h
  · cases h
  rename_i central hcentral
  have h := Option.some.inj h
  subst h
  have ids := (assignIds_ids (s.particles.map (Py.toInertial com))).1
  rw [List.length_map, hlen] at ids
  dsimp only
  rw [List.map_append, List.map_map, List.map_replicate, ids]
  congr 1
  have e := Py.assignIds_eq fun i : Fin (s.particles.map (Py.toInertial com)).length =>
    (s.particles.map (Py.toInertial com))[i]
  have e' : (List.ofFn fun i : Fin (s.particles.map (Py.toInertial com)).length =>
    (s.particles.map (Py.toInertial com))[i]) = s.particles.map (Py.toInertial com) := List.ofFn_getElem
  rw [e'] at e
  have ht : l.map (·.tides.effect) = s.particles.map (·.tides.effect) := by simpa [Py.start] using ht.symm
  rw [e, ht, List.map_ofFn]
  have : s.particles.map (·.tides.effect) = (s.particles.map (Py.toInertial com)).map (·.tides.effect) := by
    rw [List.map_map]
    rfl
  rw [this]
  conv_rhs => rw [← e', List.map_ofFn]
  rfl

end
end Posidonius.CaseJson
