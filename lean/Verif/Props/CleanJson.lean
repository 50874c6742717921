import Verif.Model.CleanJson
import Verif.Lemmas.Json
import Verif.Props.Json

/-! # C134: cleaning a case file does not change the case -/

namespace Posidonius.Json

variable {N : Type}

/-! ## Files that say the same -/

def JsFields.names : JsFields N → List String
  | .nil => []
  | .cons n _ r => n :: r.names

mutual
/-- No object has a key twice. -/
def Distinct : Js N → Prop
  | .arr l => DistinctList l
  | .obj l => DistinctFields l
  | _ => True
def DistinctList : JsList N → Prop
  | .nil => True
  | .cons j r => Distinct j ∧ DistinctList r
def DistinctFields : JsFields N → Prop
  | .nil => True
  | .cons n j r => n ∉ r.names ∧ Distinct j ∧ DistinctFields r
end

mutual
/-- Two values that are the same but for the order of the entries of maps. -/
inductive Same : Val → Val → Prop
  | f64 (x) : Same (.f64 x) (.f64 x)
  | int (i) : Same (.int i) (.int i)
  | bool (b) : Same (.bool b) (.bool b)
  | tag (s) : Same (.tag s) (.tag s)
  | variant (s) {v w} : Same v w → Same (.variant s v) (.variant s w)
  | arr {l m} : SameList l m → Same (.arr l) (.arr m)
  | record {l m} (h1 : ∀ n, (l.find n).isSome = (m.find n).isSome)
      (h2 : ∀ n v w, l.find n = some v → m.find n = some w → Same v w) : Same (.record l) (.record m)
inductive SameList : Vals → Vals → Prop
  | nil : SameList .nil .nil
  | cons {v w l m} : Same v w → SameList l m → SameList (.cons v l) (.cons w m)
end

/-! ## Insertion -/

theorem names_insert (n : String) (j : Js N) : ∀ l : JsFields N, n ∉ l.names → ∀ k, k ∈ (l.insert n j).names ↔ k = n ∨ k ∈ l.names
  | .nil, _, k => by simp [JsFields.insert, JsFields.names]
  | .cons m i r, h, k => by
    simp only [JsFields.names, List.mem_cons, not_or] at h
    simp only [JsFields.insert]
    split
    · simp [JsFields.names]
    · rw [if_neg h.1]
      simp only [JsFields.names, List.mem_cons, names_insert n j r h.2 k]
      tauto

theorem get_of_not_mem (n : String) : ∀ l : JsFields N, n ∉ l.names → l.get n = []
  | .nil, _ => rfl
  | .cons m i r, h => by
    simp only [JsFields.names, List.mem_cons, not_or] at h
    rw [JsFields.get, if_neg (Ne.symm h.1), get_of_not_mem n r h.2]

theorem get_insert (n : String) (j : Js N) : ∀ l : JsFields N, n ∉ l.names → ∀ k,
    (l.insert n j).get k = if n = k then [j] else l.get k
  | .nil, _, k => by simp [JsFields.insert, JsFields.get]
  | .cons m i r, h, k => by
    simp only [JsFields.names, List.mem_cons, not_or] at h
    simp only [JsFields.insert]
    split
    · simp only [JsFields.get]
      by_cases hk : n = k
      · subst hk
        simp [Ne.symm h.1, get_of_not_mem n r h.2]
      · simp [hk]
    · rw [if_neg h.1]
      simp only [JsFields.get, get_insert n j r h.2 k]
      by_cases hk : n = k
      · subst hk
        simp [Ne.symm h.1]
      · simp [hk]

theorem names_cleanFields (rp : N → N) : ∀ l : JsFields N, DistinctFields l → ∀ k, k ∈ (cleanFields rp l).names ↔ k ∈ l.names
  | .nil, _, k => Iff.rfl
  | .cons n j r, h, k => by
    rw [DistinctFields] at h
    have ih := names_cleanFields rp r h.2.2
    rw [cleanFields, names_insert n _ _ (by rw [ih]; exact h.1), ih]
    simp [JsFields.names]

theorem get_cleanFields (rp : N → N) : ∀ l : JsFields N, DistinctFields l → ∀ k,
    (cleanFields rp l).get k = (l.get k).map (clean rp)
  | .nil, _, k => rfl
  | .cons n j r, h, k => by
    rw [DistinctFields] at h
    rw [cleanFields, get_insert n _ _ (by rw [names_cleanFields rp r h.2.2]; exact h.1), get_cleanFields rp r h.2.2,
      JsFields.get]
    by_cases hk : n = k
    · subst hk
      simp [get_of_not_mem n r h.1]
    · simp [hk]

theorem distinct_of_get : ∀ (l : JsFields N), DistinctFields l → ∀ k, ∀ j ∈ l.get k, Distinct j
  | .nil, _, k, j, hj => by simp [JsFields.get] at hj
  | .cons n i r, h, k, j, hj => by
    rw [DistinctFields] at h
    rw [JsFields.get] at hj
    split at hj
    · rcases List.mem_cons.1 hj with rfl | hj
      · exact h.2.1
      · exact distinct_of_get r h.2.2 k j hj
    · exact distinct_of_get r h.2.2 k j hj

theorem length_cleanList (rp : N → N) : ∀ l : JsList N, (cleanList rp l).length = l.length
  | .nil => rfl
  | .cons j r => by rw [cleanList, JsList.length, JsList.length, length_cleanList rp r]

/-! ## Reading -/

theorem mapM_cleanList (rp : N → N) (f : Js N → Option Val)
    (hf : ∀ j, Distinct j → Option.Rel Same (f j) (f (clean rp j))) : ∀ l : JsList N, DistinctList l →
    Option.Rel SameList (l.mapM f) ((cleanList rp l).mapM f)
  | .nil, _ => .some .nil
  | .cons j r, h => by
    rw [DistinctList] at h
    have h1 := hf j h.1
    have h2 := mapM_cleanList rp f hf r h.2
    simp only [cleanList, JsList.mapM]
    revert h1 h2
    generalize f j = a
    generalize f (clean rp j) = b
    generalize r.mapM f = as
    generalize (cleanList rp r).mapM f = bs
    intro h1 h2
    cases h1 with
    | none => cases h2 <;> exact .none
    | some h1 =>
      cases h2 with
      | none => exact .none
      | some h2 => exact .some (.cons h1 h2)

/-- Fields that are found alike. -/
def Alike (l m : VFields) : Prop :=
  (∀ n, (l.find n).isSome = (m.find n).isSome) ∧ ∀ n v w, l.find n = some v → m.find n = some w → Same v w

theorem Alike.cons {l m : VFields} (h : Alike l m) (n : String) {v w : Val} (hv : Same v w) :
    Alike (.cons n v l) (.cons n w m) := by
  refine ⟨fun k => ?_, fun k a b => ?_⟩
  · simp only [VFields.find]
    split
    · rfl
    · exact h.1 k
  · simp only [VFields.find]
    split
    · intro h1 h2
      cases h1
      cases h2
      exact hv
    · exact h.2 k a b

theorem Alike.swap {l m m' : VFields} (h : Alike l m) (e : ∀ n, m'.find n = m.find n) : Alike l m' :=
  ⟨fun n => by rw [e]; exact h.1 n, fun n v w => by rw [e]; exact h.2 n v w⟩

/-- Reading a map with an entry inserted: as if it came first. -/
theorem mapM_insert (f : Js N → Option Val) (n : String) (j : Js N) : ∀ l : JsFields N, n ∉ l.names →
    Option.Rel (fun a b : VFields => ∀ k, b.find k = a.find k) ((JsFields.cons n j l).mapM f) ((l.insert n j).mapM f)
  | .nil, _ => by
    simp only [JsFields.insert]
    cases (JsFields.cons n j .nil).mapM f with
    | none => exact .none
    | some a => exact .some fun _ => rfl
  | .cons m i r, h => by
    simp only [JsFields.names, List.mem_cons, not_or] at h
    simp only [JsFields.insert]
    split
    · cases (JsFields.cons n j (.cons m i r)).mapM f with
      | none => exact .none
      | some a => exact .some fun _ => rfl
    · rw [if_neg h.1]
      have ih := mapM_insert f n j r h.2
      revert ih
      simp only [JsFields.mapM]
      generalize (r.insert n j).mapM f = rs
      cases mapKey n with
      | false =>
        intro ih
        cases f j <;> cases r.mapM f <;> simp at ih ⊢ <;> cases ih <;> cases mapKey m <;> cases f i <;> exact .none
      | true =>
        cases f j with
        | none =>
          intro ih
          cases r.mapM f <;> simp at ih ⊢ <;> cases ih <;> cases mapKey m <;> cases f i <;> exact .none
        | some v =>
          cases r.mapM f with
          | none =>
            intro ih
            simp at ih
            cases ih
            cases mapKey m <;> cases f i <;> exact .none
          | some vs =>
            intro ih
            simp at ih
            cases ih with
            | some ih =>
              cases mapKey m with
              | false => cases f i <;> exact .none
              | true =>
                cases f i with
                | none => exact .none
                | some u =>
                  refine .some fun k => ?_
                  simp only [VFields.find, ih k]
                  by_cases h1 : m = k
                  · subst h1
                    simp [h.1]
                  · simp [h1]

theorem mapM_cleanFields (rp : N → N) (f : Js N → Option Val)
    (hf : ∀ j, Distinct j → Option.Rel Same (f j) (f (clean rp j))) : ∀ l : JsFields N, DistinctFields l →
    Option.Rel Alike (l.mapM f) ((cleanFields rp l).mapM f)
  | .nil, _ => .some ⟨fun _ => rfl, fun n v w h => by simp [VFields.find] at h⟩
  | .cons n j r, h => by
    rw [DistinctFields] at h
    have h1 := hf j h.2.1
    have h2 := mapM_cleanFields rp f hf r h.2.2
    have h3 := mapM_insert f n (clean rp j) (cleanFields rp r) (by rw [names_cleanFields rp r h.2.2]; exact h.1)
    rw [cleanFields]
    have key : Option.Rel Alike ((JsFields.cons n j r).mapM f) ((JsFields.cons n (clean rp j) (cleanFields rp r)).mapM f) := by
      simp only [JsFields.mapM]
      revert h1 h2
      generalize f j = a
      generalize f (clean rp j) = b
      generalize r.mapM f = as
      generalize (cleanFields rp r).mapM f = bs
      intro h1 h2
      cases mapKey n with
      | false => exact .none
      | true =>
        cases h1 with
        | none => cases h2 <;> exact .none
        | some h1 =>
          cases h2 with
          | none => exact .none
          | some h2 => exact .some (h2.cons n h1)
    revert key h3
    generalize (JsFields.cons n (clean rp j) (cleanFields rp r)).mapM f = x
    generalize ((cleanFields rp r).insert n (clean rp j)).mapM f = y
    generalize (JsFields.cons n j r).mapM f = z
    intro h3 key
    cases h3 with
    | none => exact key
    | some h3 =>
      cases key with
      | some key => exact .some (key.swap h3)

theorem obj_single (rp : N → N) (c : FloatText N) (vs : TVariants) (l : JsFields N) (hd : DistinctFields l)
    (h : ∀ n j, l ≠ .cons n j .nil) : de c (.enum vs) (.obj l) = none ∧ de c (.enum vs) (.obj (cleanFields rp l)) = none := by
  cases l with
  | nil => exact ⟨by simp [de], by simp [cleanFields, de]⟩
  | cons n j r =>
    cases r with
    | nil => exact absurd rfl (h n j)
    | cons m i s =>
      refine ⟨by simp [de], ?_⟩
      rw [DistinctFields] at hd
      have hmem : ∀ k, k ∈ (cleanFields rp (.cons n j (.cons m i s))).names ↔ k ∈ (JsFields.cons n j (.cons m i s)).names :=
        names_cleanFields rp _ (by rw [DistinctFields]; exact hd)
      generalize cleanFields rp (.cons n j (.cons m i s)) = x at hmem ⊢
      cases x with
      | nil => simp [de]
      | cons a b y =>
        cases y with
        | nil =>
          exfalso
          have h1 := (hmem n).2 (by simp [JsFields.names])
          have h2 := (hmem m).2 (by simp [JsFields.names])
          simp [JsFields.names] at h1 h2
          have := hd.1
          simp [JsFields.names, h1, h2] at this
        | cons _ _ _ => simp [de]

mutual
theorem same_refl : ∀ v : Val, Same v v
  | .f64 x => .f64 x
  | .int i => .int i
  | .bool b => .bool b
  | .tag s => .tag s
  | .variant s v => .variant s (same_refl v)
  | .arr l => .arr (sameList_refl l)
  | .record l => .record (fun _ => rfl) fun n v w h1 h2 => by
    rw [h1] at h2
    cases h2
    exact same_found l n v h1
theorem sameList_refl : ∀ l : Vals, SameList l l
  | .nil => .nil
  | .cons v r => .cons (same_refl v) (sameList_refl r)
theorem same_found : ∀ (l : VFields) (n : String) (v : Val), l.find n = some v → Same v v
  | .nil, n, v, h => by simp [VFields.find] at h
  | .cons m w r, n, v, h => by
    rw [VFields.find] at h
    split at h
    · cases h
      exact same_refl w
    · exact same_found r n v h
end

mutual
theorem de_clean (rp : N → N) (c : FloatText N) (hrp : ∀ n, c.parse (rp n) = c.parse n) : ∀ (t : Ty) (j : Js N), Distinct j →
    Option.Rel Same (de c t j) (de c t (clean rp j))
  | .f64, j, hj => by
    cases j <;> simp only [clean, de]
    case float n =>
      rw [hrp]
      cases c.parse n with
      | none => exact .none
      | some x => exact .some (.f64 x)
    case int i => exact .some (.f64 _)
    all_goals exact .none
  | .bool, j, hj => by
    cases j <;> simp only [clean, de]
    case bool b => exact .some (.bool b)
    all_goals exact .none
  | .int lo hi, j, hj => by
    cases j <;> simp only [clean, de]
    case int i =>
      split
      · exact .some (.int i)
      · exact .none
    all_goals exact .none
  | .array n t, j, hj => by
    cases j <;> simp only [clean, de]
    case arr l =>
      rw [length_cleanList]
      split
      · have := mapM_cleanList rp (de c t) (de_clean rp c hrp t) l hj
        revert this
        generalize l.mapM (de c t) = a
        generalize (cleanList rp l).mapM (de c t) = b
        intro h
        cases h with
        | none => exact .none
        | some h => exact .some (.arr h)
      · exact .none
    all_goals exact .none
  | .vec t, j, hj => by
    cases j <;> simp only [clean, de]
    case arr l =>
      have := mapM_cleanList rp (de c t) (de_clean rp c hrp t) l hj
      revert this
      generalize l.mapM (de c t) = a
      generalize (cleanList rp l).mapM (de c t) = b
      intro h
      cases h with
      | none => exact .none
      | some h => exact .some (.arr h)
    all_goals exact .none
  | .map t, j, hj => by
    cases j <;> simp only [clean, de]
    case obj l =>
      have := mapM_cleanFields rp (de c t) (de_clean rp c hrp t) l hj
      revert this
      generalize l.mapM (de c t) = a
      generalize (cleanFields rp l).mapM (de c t) = b
      intro h
      cases h with
      | none => exact .none
      | some h => exact .some (.record h.1 h.2)
    all_goals exact .none
  | .struct fs, j, hj => by
    cases j <;> simp only [clean, de]
    case obj l =>
      have := deFields_clean rp c hrp fs l hj
      revert this
      generalize deFields c fs l = a
      generalize deFields c fs (cleanFields rp l) = b
      intro h
      cases h with
      | none => exact .none
      | some h => exact .some (.record h.1 h.2)
    all_goals exact .none
  | .tags names, j, hj => by
    cases j <;> simp only [clean, de]
    case str s =>
      split
      · exact .some (.tag s)
      · exact .none
    all_goals exact .none
  | .enum vs, j, hj => by
    cases j
    case str s =>
      simp only [clean, de]
      split
      · exact .some (.tag s)
      · exact .none
    case obj l =>
      by_cases h : ∃ n i, l = .cons n i .nil
      · obtain ⟨n, i, rfl⟩ := h
        simp only [clean, cleanFields, JsFields.insert, de]
        rw [Distinct, DistinctFields] at hj
        exact deVariant_clean rp c hrp vs n i hj.2.1
      · obtain ⟨h1, h2⟩ := obj_single rp c vs l hj fun n i h' => h ⟨n, i, h'⟩
        rw [clean, h1, h2]
        exact .none
    all_goals
      simp only [clean, de]
      exact .none
theorem deFields_clean (rp : N → N) (c : FloatText N) (hrp : ∀ n, c.parse (rp n) = c.parse n) :
    ∀ (fs : TFields) (l : JsFields N), DistinctFields l →
    Option.Rel Alike (deFields c fs l) (deFields c fs (cleanFields rp l))
  | .nil, l, _ => .some ⟨fun _ => rfl, fun n v w h => by simp [VFields.find] at h⟩
  | .cons n t r, l, hl => by
    simp only [deFields, get_cleanFields rp l hl]
    have hd := distinct_of_get l hl n
    cases hg : l.get n with
    | nil => exact .none
    | cons i s =>
      cases s with
      | cons _ _ => exact .none
      | nil =>
        have h1 := de_clean rp c hrp t i (hd i (by rw [hg]; simp))
        have h2 := deFields_clean rp c hrp r l hl
        simp only [List.map_cons, List.map_nil]
        revert h1 h2
        generalize de c t i = a
        generalize de c t (clean rp i) = b
        generalize deFields c r l = as
        generalize deFields c r (cleanFields rp l) = bs
        intro h1 h2
        cases h1 with
        | none => cases h2 <;> exact .none
        | some h1 =>
          cases h2 with
          | none => exact .none
          | some h2 => exact .some (h2.cons n h1)
  | .dflt n t d r, l, hl => by
    simp only [deFields, get_cleanFields rp l hl]
    have hd := distinct_of_get l hl n
    have h2 := deFields_clean rp c hrp r l hl
    cases hg : l.get n with
    | nil =>
      simp only [List.map_nil]
      revert h2
      generalize deFields c r l = as
      generalize deFields c r (cleanFields rp l) = bs
      intro h2
      cases h2 with
      | none => exact .none
      | some h2 => exact .some (h2.cons n (same_refl d))
    | cons i s =>
      cases s with
      | cons _ _ => exact .none
      | nil =>
        have h1 := de_clean rp c hrp t i (hd i (by rw [hg]; simp))
        simp only [List.map_cons, List.map_nil]
        revert h1 h2
        generalize de c t i = a
        generalize de c t (clean rp i) = b
        generalize deFields c r l = as
        generalize deFields c r (cleanFields rp l) = bs
        intro h2 h1
        cases h1 with
        | none => cases h2 <;> exact .none
        | some h1 =>
          cases h2 with
          | none => exact .none
          | some h2 => exact .some (h2.cons n h1)
theorem deVariant_clean (rp : N → N) (c : FloatText N) (hrp : ∀ n, c.parse (rp n) = c.parse n) :
    ∀ (vs : TVariants) (n : String) (j : Js N), Distinct j →
    Option.Rel Same (deVariant c vs n j) (deVariant c vs n (clean rp j))
  | .nil, n, j, _ => .none
  | .unit _ r, n, j, hj => by
    simp only [deVariant]
    exact deVariant_clean rp c hrp r n j hj
  | .payload m t r, n, j, hj => by
    simp only [deVariant]
    split
    · have h1 := de_clean rp c hrp t j hj
      revert h1
      generalize de c t j = a
      generalize de c t (clean rp j) = b
      intro h1
      cases h1 with
      | none => exact .none
      | some h1 => exact .some (.variant m h1)
    · exact deVariant_clean rp c hrp r n j hj
end

/-- **C134** The simulator reads a file, and the same file after cleaning, as the same integrator in the same state, or it reads
neither: for every type of universe, and every file in which no key occurs twice. -/
theorem C134_same (rp : N → N) (c : FloatText N) (hrp : ∀ n, c.parse (rp n) = c.parse n) (u : Ty) (j : Js N) (hj : Distinct j) :
    Option.Rel (fun a b : Kind × Val => a.1 = b.1 ∧ Same a.2 b.2) (restore c u j) (restore c u (clean rp j)) := by
  have h1 := de_clean rp c hrp (Kind.whfast.ty u) j hj
  have h2 := de_clean rp c hrp (Kind.ias15.ty u) j hj
  have h3 := de_clean rp c hrp (Kind.leapfrog.ty u) j hj
  unfold restore
  revert h1 h2 h3
  generalize de c (Kind.whfast.ty u) j = a1
  generalize de c (Kind.whfast.ty u) (clean rp j) = b1
  generalize de c (Kind.ias15.ty u) j = a2
  generalize de c (Kind.ias15.ty u) (clean rp j) = b2
  generalize de c (Kind.leapfrog.ty u) j = a3
  generalize de c (Kind.leapfrog.ty u) (clean rp j) = b3
  intro h1 h2 h3
  cases h1 with
  | some h => exact .some ⟨rfl, h⟩
  | none =>
    cases h2 with
    | some h => exact .some ⟨rfl, h⟩
    | none =>
      cases h3 with
      | some h => exact .some ⟨rfl, h⟩
      | none => exact .none

/-! ## Comparing files -/

mutual
/-- Two files that say the same: they differ in the order of the keys and in the text of numbers only. -/
inductive Says (rp : N → N) : Js N → Js N → Prop
  | null : Says rp .null .null
  | float {n m} (h : rp n = rp m) : Says rp (.float n) (.float m)
  | int (i) : Says rp (.int i) (.int i)
  | bool (b) : Says rp (.bool b) (.bool b)
  | str (s) : Says rp (.str s) (.str s)
  | arr {l m} : SaysList rp l m → Says rp (.arr l) (.arr m)
  | obj {l m} (h1 : ∀ k, k ∈ l.names ↔ k ∈ m.names) (h2 : ∀ k, ∀ i ∈ l.get k, ∀ j ∈ m.get k, Says rp i j) :
      Says rp (.obj l) (.obj m)
inductive SaysList (rp : N → N) : JsList N → JsList N → Prop
  | nil : SaysList rp .nil .nil
  | cons {i j l m} : Says rp i j → SaysList rp l m → SaysList rp (.cons i l) (.cons j m)
end

def JsFields.Sorted (l : JsFields N) : Prop := l.names.Pairwise (· < ·)

theorem sorted_insert (n : String) (j : Js N) : ∀ l : JsFields N, n ∉ l.names → l.Sorted → (l.insert n j).Sorted
  | .nil, _, _ => by simp [JsFields.insert, JsFields.Sorted, JsFields.names]
  | .cons m i r, h, hs => by
    have h' := h
    simp only [JsFields.names, List.mem_cons, not_or] at h
    have hs' := hs
    simp only [JsFields.Sorted, JsFields.names, List.pairwise_cons] at hs
    simp only [JsFields.insert]
    split
    · rename_i hlt
      simp only [JsFields.Sorted, JsFields.names, List.pairwise_cons, List.mem_cons]
      refine ⟨fun k hk => ?_, hs⟩
      rcases hk with rfl | hk
      · exact hlt
      · exact lt_trans hlt (hs.1 k hk)
    · rename_i hlt
      rw [if_neg h.1]
      simp only [JsFields.Sorted, JsFields.names, List.pairwise_cons]
      refine ⟨fun k hk => ?_, sorted_insert n j r h.2 hs.2⟩
      rcases (names_insert n j r h.2 k).1 hk with rfl | hk
      · exact lt_of_le_of_ne (not_lt.1 hlt) (Ne.symm h.1)
      · exact hs.1 k hk

theorem sorted_cleanFields (rp : N → N) : ∀ l : JsFields N, DistinctFields l → (cleanFields rp l).Sorted
  | .nil, _ => by simp [cleanFields, JsFields.Sorted, JsFields.names]
  | .cons n j r, h => by
    rw [DistinctFields] at h
    rw [cleanFields]
    exact sorted_insert n _ _ (by rw [names_cleanFields rp r h.2.2]; exact h.1) (sorted_cleanFields rp r h.2.2)

theorem mem_names_of_get (k : String) : ∀ l : JsFields N, k ∈ l.names ↔ l.get k ≠ []
  | .nil => by simp [JsFields.names, JsFields.get]
  | .cons n j r => by
    simp only [JsFields.names, List.mem_cons, JsFields.get]
    by_cases h : n = k
    · simp [h]
    · simp [h, Ne.symm h, mem_names_of_get k r]

/-- Sorted fields are determined by their values. -/
theorem sorted_ext : ∀ l m : JsFields N, l.Sorted → m.Sorted → (∀ k, l.get k = m.get k) → l = m
  | .nil, .nil, _, _, _ => rfl
  | .nil, .cons b j s, _, _, h => by
    have := h b
    simp [JsFields.get] at this
  | .cons a i r, .nil, _, _, h => by
    have := h a
    simp [JsFields.get] at this
  | .cons a i r, .cons b j s, hl, hm, h => by
    simp only [JsFields.Sorted, JsFields.names, List.pairwise_cons] at hl hm
    have e : a = b := by
      rcases lt_trichotomy a b with hab | hab | hab
      · exfalso
        have : a ∈ (JsFields.cons b j s).names := by
          rw [mem_names_of_get, ← h a]
          simp [JsFields.get]
        simp only [JsFields.names, List.mem_cons] at this
        rcases this with rfl | this
        · exact lt_irrefl _ hab
        · exact lt_asymm hab (hm.1 a this)
      · exact hab
      · exfalso
        have : b ∈ (JsFields.cons a i r).names := by
          rw [mem_names_of_get, h b]
          simp [JsFields.get]
        simp only [JsFields.names, List.mem_cons] at this
        rcases this with rfl | this
        · exact lt_irrefl _ hab
        · exact lt_asymm hab (hl.1 b this)
    subst e
    have n1 : a ∉ r.names := fun h' => lt_irrefl _ (hl.1 a h')
    have n2 : a ∉ s.names := fun h' => lt_irrefl _ (hm.1 a h')
    have h0 := h a
    simp only [JsFields.get, if_true, get_of_not_mem a r n1, get_of_not_mem a s n2] at h0
    have hij : i = j := by simpa using h0
    subst hij
    rw [sorted_ext r s hl.2 hm.2 fun k => ?_]
    by_cases hk : a = k
    · subst hk
      rw [get_of_not_mem a r n1, get_of_not_mem a s n2]
    · simpa [JsFields.get, hk] using h k

theorem get_of_distinct : ∀ (l : JsFields N), DistinctFields l → ∀ k, k ∈ l.names → ∃ j, l.get k = [j]
  | .nil, _, k, hk => by simp [JsFields.names] at hk
  | .cons n i r, h, k, hk => by
    rw [DistinctFields] at h
    rw [JsFields.get]
    by_cases e : n = k
    · subst e
      exact ⟨i, by simp [get_of_not_mem n r h.1]⟩
    · rw [if_neg e]
      refine get_of_distinct r h.2.2 k ?_
      simpa [JsFields.names, Ne.symm e] using hk

theorem clean_of_says (rp : N → N) {i j : Js N} (h : Says rp i j) : Distinct i → Distinct j → clean rp i = clean rp j := by
  refine Says.rec (motive_1 := fun i j _ => Distinct i → Distinct j → clean rp i = clean rp j)
    (motive_2 := fun l m _ => DistinctList l → DistinctList m → cleanList rp l = cleanList rp m)
    ?_ ?_ ?_ ?_ ?_ ?_ ?_ ?_ ?_ h
  · intro _ _
    rfl
  · intro n m h _ _
    simp only [clean, h]
  · intro _ _ _
    rfl
  · intro _ _ _
    rfl
  · intro _ _ _
    rfl
  · intro l m _ ih h1 h2
    rw [clean, clean, ih h1 h2]
  · intro l m h1 h2 ih hl hm
    rw [clean, clean, sorted_ext _ _ (sorted_cleanFields rp l hl) (sorted_cleanFields rp m hm) fun k => ?_]
    rw [get_cleanFields rp l hl, get_cleanFields rp m hm]
    by_cases hk : k ∈ l.names
    · obtain ⟨a, ha⟩ := get_of_distinct l hl k hk
      obtain ⟨b, hb⟩ := get_of_distinct m hm k ((h1 k).1 hk)
      have := ih k a (by rw [ha]; simp) b (by rw [hb]; simp) (distinct_of_get l hl k a (by rw [ha]; simp))
        (distinct_of_get m hm k b (by rw [hb]; simp))
      simp [ha, hb, this]
    · rw [get_of_not_mem k l hk, get_of_not_mem k m fun h => hk ((h1 k).2 h)]
  · intro _ _
    rfl
  · intro i j l m _ _ ih1 ih2 h1 h2
    rw [DistinctList] at h1 h2
    rw [cleanList, cleanList, ih1 h1.1 h2.1, ih2 h1.2 h2.2]

/-- **C134** Files that differ in the order of keys and in the text of numbers only are equal after cleaning, so that they can
be compared line by line. -/
theorem C134_canonical (rp : N → N) (i j : Js N) (hi : Distinct i) (hj : Distinct j) (h : Says rp i j) :
    clean rp i = clean rp j := clean_of_says rp h hi hj

theorem distinct_of_all : ∀ l : JsFields N, l.Sorted → (∀ k, ∀ j ∈ l.get k, Distinct j) → DistinctFields l
  | .nil, _, _ => trivial
  | .cons n i r, hs, h => by
    simp only [JsFields.Sorted, JsFields.names, List.pairwise_cons] at hs
    have n1 : n ∉ r.names := fun h' => lt_irrefl _ (hs.1 n h')
    rw [DistinctFields]
    refine ⟨n1, h n i (by simp [JsFields.get]), distinct_of_all r hs.2 fun k j hj => h k j ?_⟩
    rw [JsFields.get]
    split
    · exact List.mem_cons_of_mem _ hj
    · exact hj

mutual
theorem distinct_clean (rp : N → N) : ∀ j : Js N, Distinct j → Distinct (clean rp j)
  | .null, _ => trivial
  | .float _, _ => trivial
  | .int _, _ => trivial
  | .bool _, _ => trivial
  | .str _, _ => trivial
  | .arr l, h => by
    rw [clean, Distinct]
    exact distinct_cleanList rp l h
  | .obj l, h => by
    rw [clean, Distinct]
    refine distinct_of_all _ (sorted_cleanFields rp l h) fun k j hj => ?_
    rw [get_cleanFields rp l h] at hj
    obtain ⟨i, hi, rfl⟩ := List.mem_map.1 hj
    exact distinct_cleanFields rp l h k i hi
theorem distinct_cleanList (rp : N → N) : ∀ l : JsList N, DistinctList l → DistinctList (cleanList rp l)
  | .nil, _ => trivial
  | .cons j r, h => by
    rw [DistinctList] at h
    rw [cleanList, DistinctList]
    exact ⟨distinct_clean rp j h.1, distinct_cleanList rp r h.2⟩
theorem distinct_cleanFields (rp : N → N) : ∀ l : JsFields N, DistinctFields l → ∀ k, ∀ i ∈ l.get k, Distinct (clean rp i)
  | .nil, _, k, i, hi => by simp [JsFields.get] at hi
  | .cons n j r, h, k, i, hi => by
    rw [DistinctFields] at h
    rw [JsFields.get] at hi
    split at hi
    · rcases List.mem_cons.1 hi with e | hi
      · rw [e]
        exact distinct_clean rp j h.2.1
      · exact distinct_cleanFields rp r h.2.2 k i hi
    · exact distinct_cleanFields rp r h.2.2 k i hi
end

mutual
theorem says_clean (rp : N → N) (hrp : ∀ n, rp (rp n) = rp n) : ∀ j : Js N, Distinct j → Says rp (clean rp j) j
  | .null, _ => .null
  | .float n, _ => .float (hrp n)
  | .int i, _ => .int i
  | .bool b, _ => .bool b
  | .str s, _ => .str s
  | .arr l, h => .arr (says_cleanList rp hrp l h)
  | .obj l, h => by
    rw [clean]
    refine .obj (names_cleanFields rp l h) fun k i hi j hj => ?_
    rw [get_cleanFields rp l h] at hi
    obtain ⟨i', hi', rfl⟩ := List.mem_map.1 hi
    have hk : k ∈ l.names := by
      rw [mem_names_of_get]
      intro h'
      rw [h'] at hi'
      simp at hi'
    obtain ⟨a, ha⟩ := get_of_distinct l h k hk
    rw [ha] at hi' hj
    rw [List.mem_singleton.1 hi', List.mem_singleton.1 hj]
    exact says_cleanFields rp hrp l h k a (by rw [ha]; simp)
theorem says_cleanList (rp : N → N) (hrp : ∀ n, rp (rp n) = rp n) : ∀ l : JsList N, DistinctList l →
    SaysList rp (cleanList rp l) l
  | .nil, _ => .nil
  | .cons j r, h => by
    rw [DistinctList] at h
    exact .cons (says_clean rp hrp j h.1) (says_cleanList rp hrp r h.2)
theorem says_cleanFields (rp : N → N) (hrp : ∀ n, rp (rp n) = rp n) : ∀ l : JsFields N, DistinctFields l →
    ∀ k, ∀ i ∈ l.get k, Says rp (clean rp i) i
  | .nil, _, k, i, hi => by simp [JsFields.get] at hi
  | .cons n j r, h, k, i, hi => by
    rw [DistinctFields] at h
    rw [JsFields.get] at hi
    split at hi
    · rcases List.mem_cons.1 hi with e | hi
      · rw [e]
        exact says_clean rp hrp j h.2.1
      · exact says_cleanFields rp hrp r h.2.2 k i hi
    · exact says_cleanFields rp hrp r h.2.2 k i hi
end

/-- **C134** Cleaning a file twice is cleaning it once, and a cleaned file says what the file said. -/
theorem C134_twice (rp : N → N) (hrp : ∀ n, rp (rp n) = rp n) (j : Js N) (hj : Distinct j) :
    clean rp (clean rp j) = clean rp j ∧ Says rp (clean rp j) j :=
  ⟨C134_canonical rp _ _ (distinct_clean rp j hj) hj (says_clean rp hrp j hj), says_clean rp hrp j hj⟩

/-- Why keys must not occur twice: a file of which the simulator reads nothing becomes one that it reads. -/
theorem C134_repeated (c : FloatText N) (rp : N → N) (i : Int) :
    let t : Ty := .struct (.cons "mass" .f64 .nil)
    let j : Js N := .obj (.cons "mass" (.int i) (.cons "mass" (.int 1) .nil))
    de c t j = none ∧ de c t (clean rp j) = some (.record (.cons "mass" (.f64 (c.ofInt 1)) .nil)) := by
  simp [de, deFields, JsFields.get, clean, cleanFields, JsFields.insert]

/-! ## Instances of the hypotheses -/

example : Option.Rel (fun a b : Kind × Val => a.1 = b.1 ∧ Same a.2 b.2)
    (restore bitsText (.struct .nil) (ser bitsText (.record demoLeapfrog)))
    (restore bitsText (.struct .nil) (clean id (ser bitsText (.record demoLeapfrog)))) :=
  C134_same id bitsText (fun _ => rfl) _ _ (by
    simp [demoLeapfrog, ser, serFields, Distinct, DistinctFields, JsFields.names, finite])

example : clean id (Js.obj (.cons "b" (.int 1) (.cons "a" (.float (2 : Nat)) .nil)))
    = .obj (.cons "a" (.float 2) (.cons "b" (.int 1) .nil)) := by
  have h : ¬ ("b" < "a") := by decide
  simp [clean, cleanFields, JsFields.insert, h]

end Posidonius.Json
