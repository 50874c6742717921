import Verif.Spec.Json

/-! # Lemmas about the JSON model -/

namespace Posidonius.Json
open Posidonius.Output
variable {N : Type}

def VFields.names : VFields → List String
  | .nil => []
  | .cons n _ r => n :: r.names

/-- Value of the first field of that name. -/
def VFields.find (name : String) : VFields → Option Val
  | .nil => none
  | .cons n v r => if n = name then some v else r.find name

theorem serList_length (c : FloatText N) : ∀ l : Vals, (serList c l).length = l.length
  | .nil => rfl
  | .cons v r => by simp [serList, JsList.length, Vals.length, serList_length c r]

theorem get_serFields_not_mem (c : FloatText N) (name : String) :
    ∀ l : VFields, name ∉ l.names → (serFields c l).get name = []
  | .nil, _ => rfl
  | .cons n v r, h => by
    simp only [VFields.names, List.mem_cons, not_or] at h
    simp [serFields, JsFields.get, Ne.symm h.1, get_serFields_not_mem c name r h.2]

theorem get_serFields (c : FloatText N) (name : String) (v : Val) :
    ∀ l : VFields, l.names.Nodup → l.find name = some v →
      (serFields c l).get name = [ser c v]
  | .nil, _, h => by simp [VFields.find] at h
  | .cons n w r, hd, h => by
    simp only [VFields.names, List.nodup_cons] at hd
    by_cases hn : n = name
    · subst hn
      simp [VFields.find] at h
      subst h
      simp [serFields, JsFields.get, get_serFields_not_mem c _ r hd.1]
    · simp [VFields.find, hn] at h
      simp [serFields, JsFields.get, hn, get_serFields c name v r hd.2 h]

theorem names_of_hasFields : ∀ (fs : TFields) (vs : VFields), HasFields fs vs → vs.names = fs.names
  | .nil, .nil, _ => rfl
  | .cons n t r, .cons n' v r', h => by
    simp only [HasFields] at h
    simp [VFields.names, TFields.names, h.1, names_of_hasFields r r' h.2.2]
  | .dflt n t _ r, .cons n' v r', h => by
    simp only [HasFields] at h
    simp [VFields.names, TFields.names, h.1, names_of_hasFields r r' h.2.2]
  | .nil, .cons _ _ _, h => by simp [HasFields] at h
  | .cons _ _ _, .nil, h => by simp [HasFields] at h
  | .dflt _ _ _ _, .nil, h => by simp [HasFields] at h

theorem find_of_not_mem (name : String) : ∀ l : VFields, name ∉ l.names → l.find name = none
  | .nil, _ => rfl
  | .cons n v r, h => by
    simp only [VFields.names, List.mem_cons, not_or] at h
    simp [VFields.find, Ne.symm h.1, find_of_not_mem name r h.2]

/-- `l` agrees with `vs` on the names of `vs`. -/
def Covers (l vs : VFields) : Prop := ∀ n v, vs.find n = some v → l.find n = some v

theorem Covers.tail {l r : VFields} {n : String} {v : Val} (h : Covers l (.cons n v r))
    (hn : n ∉ r.names) : Covers l r := by
  intro m w hm
  apply h
  have : n ≠ m := by
    rintro rfl
    rw [find_of_not_mem _ _ hn] at hm
    simp at hm
  simp [VFields.find, this, hm]

theorem mapM_ser (c : FloatText N) (f : Js N → Option Val) :
    ∀ l : Vals, l.All (fun v => f (ser c v) = some v) → (serList c l).mapM f = some l
  | .nil, _ => rfl
  | .cons v r, h => by
    simp only [Vals.All] at h
    simp [serList, JsList.mapM, h.1, mapM_ser c f r h.2]

theorem Vals.All.imp {P Q : Val → Prop} (h : ∀ v, P v → Q v) : ∀ {l : Vals}, l.All P → l.All Q
  | .nil, _ => trivial
  | .cons v _, ⟨h1, h2⟩ => ⟨h v h1, Vals.All.imp h h2⟩

theorem Vals.All.and {P Q : Val → Prop} : ∀ {l : Vals}, l.All P → l.All Q →
    l.All (fun v => P v ∧ Q v)
  | .nil, _, _ => trivial
  | .cons _ _, ⟨h1, h2⟩, ⟨k1, k2⟩ => ⟨⟨h1, k1⟩, Vals.All.and h2 k2⟩

theorem finiteList_all : ∀ {l : Vals}, FiniteList l → l.All Finite
  | .nil, _ => trivial
  | .cons _ _, h => by
    simp only [FiniteList] at h
    exact ⟨h.1, finiteList_all h.2⟩

theorem mapM_serFields (c : FloatText N) (f : Js N → Option Val) :
    ∀ l : VFields, l.AllMap (fun v => f (ser c v) = some v) → (serFields c l).mapM f = some l
  | .nil, _ => rfl
  | .cons n v r, h => by
    simp only [VFields.AllMap] at h
    simp [serFields, JsFields.mapM, h.1, h.2.1, mapM_serFields c f r h.2.2]

theorem VFields.AllMap.imp {P Q : Val → Prop} (h : ∀ v, P v → Q v) : ∀ {l : VFields}, l.AllMap P → l.AllMap Q
  | .nil, _ => trivial
  | .cons _ v _, ⟨h0, h1, h2⟩ => ⟨h0, h v h1, VFields.AllMap.imp h h2⟩

theorem VFields.AllMap.finite {P : Val → Prop} : ∀ {l : VFields}, l.AllMap P → FiniteFields l →
    l.AllMap (fun v => P v ∧ Finite v)
  | .nil, _, _ => trivial
  | .cons _ _ _, ⟨h0, h1, h2⟩, hf => by
    simp only [FiniteFields] at hf
    exact ⟨h0, ⟨h1, hf.1⟩, VFields.AllMap.finite h2 hf.2⟩

/-- A text format for floats that reproduces every finite double. -/
def FloatText.Exact (c : FloatText N) : Prop := ∀ x, finite x = true → c.parse (c.print x) = some x

mutual
theorem de_ser (c : FloatText N) (hc : c.Exact) : ∀ (t : Ty) (v : Val), WellFormed t → HasTy t v →
    Finite v → de c t (ser c v) = some v
  | .f64, v, _, ht, hf => by
    cases v with
    | f64 x =>
      simp only [Finite] at hf
      simp [ser, hf, de, hc x hf]
    | _ => simp [HasTy] at ht
  | .bool, v, _, ht, _ => by
    cases v with
    | bool b => simp [ser, de]
    | _ => simp [HasTy] at ht
  | .int lo hi, v, _, ht, _ => by
    cases v with
    | int i =>
      simp only [HasTy] at ht
      simp [ser, de, ht]
    | _ => simp [HasTy] at ht
  | .array n t, v, hw, ht, hf => by
    cases v with
    | arr l =>
      simp only [HasTy] at ht
      simp only [Finite] at hf
      simp only [WellFormed] at hw
      have := mapM_ser c (de c t) l (Vals.All.imp (fun v h => de_ser c hc t v hw h.1 h.2)
        (ht.2.and (finiteList_all hf)))
      simp [ser, de, serList_length, ht.1, this]
    | _ => simp [HasTy] at ht
  | .vec t, v, hw, ht, hf => by
    cases v with
    | arr l =>
      simp only [HasTy] at ht
      simp only [Finite] at hf
      simp only [WellFormed] at hw
      have := mapM_ser c (de c t) l (Vals.All.imp (fun v h => de_ser c hc t v hw h.1 h.2)
        (ht.and (finiteList_all hf)))
      simp [ser, de, this]
    | _ => simp [HasTy] at ht
  | .map t, v, hw, ht, hf => by
    cases v with
    | record l =>
      simp only [HasTy] at ht
      simp only [Finite] at hf
      simp only [WellFormed] at hw
      have := mapM_serFields c (de c t) l (VFields.AllMap.imp (fun v h => de_ser c hc t v hw h.1 h.2)
        (ht.finite hf))
      simp [ser, de, this]
    | _ => simp [HasTy] at ht
  | .struct fs, v, hw, ht, hf => by
    cases v with
    | record l =>
      simp only [HasTy] at ht
      simp only [Finite] at hf
      simp only [WellFormed] at hw
      have hn := names_of_hasFields fs l ht
      have := deFields_ser c hc fs l l hw.1 hw.2 ht hf (hn ▸ hw.1) (fun _ _ h => h)
      simp [ser, de, this]
    | _ => simp [HasTy] at ht
  | .tags names, v, _, ht, _ => by
    cases v with
    | tag s =>
      simp only [HasTy] at ht
      simp [ser, de, ht]
    | _ => simp [HasTy] at ht
  | .enum vs, v, hw, ht, hf => by
    cases v with
    | tag s =>
      simp only [HasTy] at ht
      simp [ser, de, ht]
    | variant s v =>
      simp only [HasTy] at ht
      simp only [Finite] at hf
      simp only [WellFormed] at hw
      simp [ser, de, deVariant_ser c hc vs s v hw ht hf]
    | _ => simp [HasTy] at ht
theorem deFields_ser (c : FloatText N) (hc : c.Exact) : ∀ (fs : TFields) (vs l : VFields),
    fs.names.Nodup → WellFormedFields fs → HasFields fs vs → FiniteFields vs → l.names.Nodup →
    Covers l vs → deFields c fs (serFields c l) = some vs
  | .nil, .nil, _, _, _, _, _, _, _ => rfl
  | .cons n t r, .cons n' v r', l, hd, hw, ht, hf, hl, hcov => by
    simp only [HasFields] at ht
    simp only [FiniteFields] at hf
    simp only [WellFormedFields] at hw
    simp only [TFields.names, List.nodup_cons] at hd
    obtain ⟨rfl, ht1, ht2⟩ := ht
    have hg := get_serFields c n v l hl (hcov n v (by simp [VFields.find]))
    have hn : n ∉ r'.names := by rw [names_of_hasFields r r' ht2]; exact hd.1
    simp [deFields, hg, de_ser c hc t v hw.1 ht1 hf.1,
      deFields_ser c hc r r' l hd.2 hw.2 ht2 hf.2 hl (hcov.tail hn)]
  | .dflt n t _ r, .cons n' v r', l, hd, hw, ht, hf, hl, hcov => by
    simp only [HasFields] at ht
    simp only [FiniteFields] at hf
    simp only [WellFormedFields] at hw
    simp only [TFields.names, List.nodup_cons] at hd
    obtain ⟨rfl, ht1, ht2⟩ := ht
    have hg := get_serFields c n v l hl (hcov n v (by simp [VFields.find]))
    have hn : n ∉ r'.names := by rw [names_of_hasFields r r' ht2]; exact hd.1
    simp [deFields, hg, de_ser c hc t v hw.1 ht1 hf.1,
      deFields_ser c hc r r' l hd.2 hw.2 ht2 hf.2 hl (hcov.tail hn)]
  | .nil, .cons _ _ _, _, _, _, h, _, _, _ | .cons _ _ _, .nil, _, _, _, h, _, _, _
  | .dflt _ _ _ _, .nil, _, _, _, h, _, _, _ => by
    simp [HasFields] at h
theorem deVariant_ser (c : FloatText N) (hc : c.Exact) : ∀ (vs : TVariants) (s : String) (v : Val),
    WellFormedVariants vs → HasVariant vs s v → Finite v → deVariant c vs s (ser c v) = some (.variant s v)
  | .nil, _, _, _, h, _ => by simp [HasVariant] at h
  | .unit _ r, s, v, hw, h, hf => by
    simp only [HasVariant] at h
    simp only [WellFormedVariants] at hw
    simp [deVariant, deVariant_ser c hc r s v hw h hf]
  | .payload n t r, s, v, hw, h, hf => by
    simp only [HasVariant] at h
    simp only [WellFormedVariants] at hw
    by_cases hn : n = s
    · simp only [hn, if_true] at h
      simp [deVariant, hn, de_ser c hc t v hw.1 h hf]
    · simp only [hn, if_false] at h
      simp [deVariant, hn, deVariant_ser c hc r s v hw.2 h hf]
end


theorem mapM_nonfinite (c : FloatText N) (f : Js N → Option Val) :
    ∀ l : Vals, l.All (fun v => ¬ Finite v → f (ser c v) = none) → ¬ FiniteList l →
      (serList c l).mapM f = none
  | .nil, _, h => by simp [FiniteList] at h
  | .cons v r, ha, h => by
    simp only [Vals.All] at ha
    by_cases hv : Finite v
    · simp only [FiniteList, hv, true_and] at h
      simp [serList, JsList.mapM, mapM_nonfinite c f r ha.2 h]
    · simp [serList, JsList.mapM, ha.1 hv]

theorem mapM_serFields_nonfinite (c : FloatText N) (f : Js N → Option Val) :
    ∀ l : VFields, l.AllMap (fun v => ¬ Finite v → f (ser c v) = none) → ¬ FiniteFields l →
      (serFields c l).mapM f = none
  | .nil, _, h => by simp [FiniteFields] at h
  | .cons n v r, ha, h => by
    simp only [VFields.AllMap] at ha
    by_cases hv : Finite v
    · simp only [FiniteFields, hv, true_and] at h
      simp [serFields, JsFields.mapM, mapM_serFields_nonfinite c f r ha.2.2 h]
    · simp [serFields, JsFields.mapM, ha.2.1 hv]

mutual
/-- A value with a double that is not finite cannot be read back. -/
theorem de_nonfinite (c : FloatText N) : ∀ (t : Ty) (v : Val), WellFormed t → HasTy t v →
    ¬ Finite v → de c t (ser c v) = none
  | .f64, v, _, ht, hf => by
    cases v with
    | f64 x =>
      simp only [Finite] at hf
      simp [ser, hf, de]
    | _ => simp [HasTy] at ht
  | .bool, v, _, ht, hf | .int _ _, v, _, ht, hf | .tags _, v, _, ht, hf => by
    cases v <;> simp [HasTy, Finite] at ht hf
  | .array n t, v, hw, ht, hf => by
    cases v with
    | arr l =>
      simp only [HasTy] at ht
      simp only [Finite] at hf
      simp only [WellFormed] at hw
      have := mapM_nonfinite c (de c t) l (Vals.All.imp (fun v h => de_nonfinite c t v hw h) ht.2) hf
      simp [ser, de, this]
    | _ => simp [HasTy] at ht
  | .vec t, v, hw, ht, hf => by
    cases v with
    | arr l =>
      simp only [HasTy] at ht
      simp only [Finite] at hf
      simp only [WellFormed] at hw
      have := mapM_nonfinite c (de c t) l (Vals.All.imp (fun v h => de_nonfinite c t v hw h) ht) hf
      simp [ser, de, this]
    | _ => simp [HasTy] at ht
  | .map t, v, hw, ht, hf => by
    cases v with
    | record l =>
      simp only [HasTy] at ht
      simp only [Finite] at hf
      simp only [WellFormed] at hw
      have := mapM_serFields_nonfinite c (de c t) l
        (VFields.AllMap.imp (fun v h => de_nonfinite c t v hw h) ht) hf
      simp [ser, de, this]
    | _ => simp [HasTy] at ht
  | .struct fs, v, hw, ht, hf => by
    cases v with
    | record l =>
      simp only [HasTy] at ht
      simp only [Finite] at hf
      simp only [WellFormed] at hw
      have hn := names_of_hasFields fs l ht
      have := deFields_nonfinite c fs l l hw.1 hw.2 ht hf (hn ▸ hw.1) (fun _ _ h => h)
      simp [ser, de, this]
    | _ => simp [HasTy] at ht
  | .enum vs, v, hw, ht, hf => by
    cases v with
    | variant s v =>
      simp only [HasTy] at ht
      simp only [Finite] at hf
      simp only [WellFormed] at hw
      simp [ser, de, deVariant_nonfinite c vs s v hw ht hf]
    | tag s => simp [Finite] at hf
    | _ => simp [HasTy] at ht
theorem deFields_nonfinite (c : FloatText N) : ∀ (fs : TFields) (vs l : VFields),
    fs.names.Nodup → WellFormedFields fs → HasFields fs vs → ¬ FiniteFields vs → l.names.Nodup →
    Covers l vs → deFields c fs (serFields c l) = none
  | .nil, .nil, _, _, _, _, h, _, _ => by simp [FiniteFields] at h
  | .cons n t r, .cons n' v r', l, hd, hw, ht, hf, hl, hcov => by
    simp only [HasFields] at ht
    simp only [WellFormedFields] at hw
    simp only [TFields.names, List.nodup_cons] at hd
    obtain ⟨rfl, ht1, ht2⟩ := ht
    have hg := get_serFields c n v l hl (hcov n v (by simp [VFields.find]))
    have hn : n ∉ r'.names := by rw [names_of_hasFields r r' ht2]; exact hd.1
    by_cases hv : Finite v
    · simp only [FiniteFields, hv, true_and] at hf
      simp [deFields, hg, deFields_nonfinite c r r' l hd.2 hw.2 ht2 hf hl (hcov.tail hn)]
    · simp [deFields, hg, de_nonfinite c t v hw.1 ht1 hv]
  | .dflt n t _ r, .cons n' v r', l, hd, hw, ht, hf, hl, hcov => by
    simp only [HasFields] at ht
    simp only [WellFormedFields] at hw
    simp only [TFields.names, List.nodup_cons] at hd
    obtain ⟨rfl, ht1, ht2⟩ := ht
    have hg := get_serFields c n v l hl (hcov n v (by simp [VFields.find]))
    have hn : n ∉ r'.names := by rw [names_of_hasFields r r' ht2]; exact hd.1
    by_cases hv : Finite v
    · simp only [FiniteFields, hv, true_and] at hf
      simp [deFields, hg, deFields_nonfinite c r r' l hd.2 hw.2 ht2 hf hl (hcov.tail hn)]
    · simp [deFields, hg, de_nonfinite c t v hw.1 ht1 hv]
  | .nil, .cons _ _ _, _, _, _, h, _, _, _ | .cons _ _ _, .nil, _, _, _, h, _, _, _
  | .dflt _ _ _ _, .nil, _, _, _, h, _, _, _ => by
    simp [HasFields] at h
theorem deVariant_nonfinite (c : FloatText N) : ∀ (vs : TVariants) (s : String) (v : Val),
    WellFormedVariants vs → HasVariant vs s v → ¬ Finite v → deVariant c vs s (ser c v) = none
  | .nil, _, _, _, h, _ => by simp [HasVariant] at h
  | .unit _ r, s, v, hw, h, hf => by
    simp only [HasVariant] at h
    simp only [WellFormedVariants] at hw
    simp [deVariant, deVariant_nonfinite c r s v hw h hf]
  | .payload n t r, s, v, hw, h, hf => by
    simp only [HasVariant] at h
    simp only [WellFormedVariants] at hw
    by_cases hn : n = s
    · simp only [hn, if_true] at h
      simp [deVariant, hn, de_nonfinite c t v hw.1 h hf]
    · simp only [hn, if_false] at h
      simp [deVariant, hn, deVariant_nonfinite c r s v hw.2 h hf]
end

/-- The names of the fields that have no default. -/
def TFields.required : TFields → List String
  | .nil => []
  | .cons n _ r => n :: r.required
  | .dflt _ _ _ r => r.required

/-- A missing field. -/
theorem deFields_missing (c : FloatText N) (name : String) (vs : VFields) (hv : name ∉ vs.names) :
    ∀ fs : TFields, name ∈ fs.required → deFields c fs (serFields c vs) = none
  | .nil, h => by simp [TFields.required] at h
  | .cons n t r, h => by
    by_cases hn : n = name
    · subst hn
      simp [deFields, get_serFields_not_mem c n vs hv]
    · simp only [TFields.required, List.mem_cons, Ne.symm hn, false_or] at h
      have := deFields_missing c name vs hv r h
      simp only [deFields, this]
      split
      · simp
      · rfl
  | .dflt n t d r, h => by
    simp only [TFields.required] at h
    have := deFields_missing c name vs hv r h
    simp only [deFields, this]
    split
    · rfl
    · simp
    · rfl

theorem fields_required : ∀ l : List (String × Ty), (fields l).required = l.map Prod.fst
  | [] => rfl
  | (n, t) :: r => by simp [fields, TFields.required, fields_required r]

theorem fields_names : ∀ l : List (String × Ty), (fields l).names = l.map Prod.fst
  | [] => rfl
  | (n, t) :: r => by simp [fields, TFields.names, fields_names r]

theorem kind_names_nodup (u : Ty) (k : Kind) : (Json.fields (k.fields u)).names.Nodup := by
  rw [fields_names]
  cases k
  · simp [Kind.fields, whfastFields]
  · have : (ias15Fields u).map Prod.fst = (ias15Fields .f64).map Prod.fst := rfl
    simp only [Kind.fields]
    rw [this]
    decide
  · simp [Kind.fields, leapfrogFields]

theorem wellFormed_fields (l : List (String × Ty)) (h : ∀ x ∈ l, WellFormed x.2) :
    WellFormedFields (fields l) := by
  induction l with
  | nil => simp [fields, WellFormedFields]
  | cons a r ih =>
    simp only [fields, WellFormedFields]
    exact ⟨h a (by simp), ih (fun x hx => h x (by simp [hx]))⟩

theorem kind_wellFormed (u : Ty) (hu : WellFormed u) (k : Kind) : WellFormed (k.ty u) := by
  refine ⟨kind_names_nodup u k, wellFormed_fields _ ?_⟩
  have hax : WellFormed axes := by
    simp [axes, WellFormed, fields, WellFormedFields, TFields.names]
  cases k
  · simp [Kind.fields, whfastFields, WellFormed, u64, hu, hax, alternativeCoordinates, fields,
      WellFormedFields, TFields.names]
  · intro x hx
    simp only [Kind.fields, ias15Fields, List.mem_append, List.mem_map] at hx
    rcases hx with (hx | ⟨n, _, rfl⟩) | hx
    · revert x
      simp [WellFormed, hu, u32, u64, i32]
    · simp [WellFormed]
    · simp at hx; subst hx; simp [WellFormed]
  · simp [Kind.fields, leapfrogFields, WellFormed, u32, u64, hu]

theorem de_missing (c : FloatText N) (u : Ty) (k k' : Kind) (v : Val) (hv : HasTy (k.ty u) v)
    (name : String) (h1 : name ∈ (k'.fields u).map Prod.fst)
    (h2 : name ∉ (k.fields u).map Prod.fst) : de c (k'.ty u) (ser c v) = none := by
  cases v with
  | record vs =>
    simp only [Kind.ty, HasTy] at hv
    have hn := names_of_hasFields _ _ hv
    have := deFields_missing c name vs (by rw [hn, fields_names]; exact h2)
      (fields (k'.fields u)) (by rw [fields_required]; exact h1)
    simp [Kind.ty, ser, de, this]
  | _ => simp [Kind.ty, HasTy] at hv

end Posidonius.Json
