import Verif.Spec.Output
import Mathlib.Tactic.Ring
import Mathlib.Tactic.Linarith

namespace Posidonius.Output

theorem leBytes_length (n v : Nat) : (leBytes n v).length = n := by
  induction n generalizing v with
  | zero => rfl
  | succ n ih => simp [leBytes, ih]

theorem leNat_leBytes (n v : Nat) : leNat (leBytes n v) = v % 256 ^ n := by
  induction n generalizing v with
  | zero => simp [leBytes, leNat, Nat.mod_one]
  | succ n ih =>
    have h : (UInt8.ofNat (v % 256)).toNat = v % 256 := by
      simp
    rw [leBytes, leNat, ih, h, pow_succ, Nat.mul_comm (256 ^ n) 256, Nat.mod_mul]

@[simp] theorem encF64_length (v : F64) : (encF64 v).length = 8 := leBytes_length _ _
@[simp] theorem encI32_length (v : BitVec 32) : (encI32 v).length = 4 := leBytes_length _ _

theorem drop_encF64 (v : F64) (t : Bytes) (o : Nat) (h : 8 ≤ o) :
    (encF64 v ++ t).drop o = t.drop (o - 8) := by
  rw [List.drop_append, encF64_length, List.drop_eq_nil_of_le (by simpa using h), List.nil_append]

theorem drop_encI32 (v : BitVec 32) (t : Bytes) (o : Nat) (h : 4 ≤ o) :
    (encI32 v ++ t).drop o = t.drop (o - 4) := by
  rw [List.drop_append, encI32_length, List.drop_eq_nil_of_le (by simpa using h), List.nil_append]

theorem getD_encF64 (v : F64) (t : Bytes) : getD (encF64 v ++ t) 0 = v := by
  simp only [getD, List.drop_zero]
  rw [List.take_append, encF64_length, List.take_of_length_le (by simp)]
  simp only [Nat.sub_self, List.take_zero, List.append_nil, encF64, leNat_leBytes]
  have : v.toNat % 256 ^ 8 = v.toNat := Nat.mod_eq_of_lt (by have := v.isLt; norm_num; omega)
  rw [this, BitVec.ofNat_toNat]; simp

theorem getD_shift (row : Bytes) (o : Nat) : getD row o = getD (row.drop o) 0 := by
  simp [getD]

theorem getI_encI32 (v : BitVec 32) (t : Bytes) : getI (encI32 v ++ t) 0 = v.toInt := by
  simp only [getI, List.drop_zero]
  rw [List.take_append, encI32_length, List.take_of_length_le (by simp)]
  simp only [Nat.sub_self, List.take_zero, List.append_nil, encI32, leNat_leBytes]
  have : v.toNat % 256 ^ 4 = v.toNat := Nat.mod_eq_of_lt (by have := v.isLt; norm_num; omega)
  rw [this, BitVec.ofNat_toNat]; simp

theorem getI_shift (row : Bytes) (o : Nat) : getI row o = getI (row.drop o) 0 := by
  simp [getI]

/-- Bytes of one particle. -/
theorem encParticle_length (t dt : F64) (p : HistParticle) :
    (encFirst t dt p ++ encSecond p).length = 156 := by
  simp [encFirst, encSecond]

theorem toInt_id (n : Nat) (h : n < 2 ^ 31) : (BitVec.ofNat 32 n).toInt = n := by
  rw [BitVec.toInt_eq_toNat_cond, BitVec.toNat_ofNat]
  have : n % 2 ^ 32 = n := Nat.mod_eq_of_lt (by omega)
  rw [this, if_pos (by omega)]

theorem getD_drop_eq (row : Bytes) (o : Nat) (v : F64) (t : Bytes)
    (h : row.drop o = encF64 v ++ t) : getD row o = v := by
  rw [getD_shift, h, getD_encF64]

theorem love_eq (p : HistParticle) : loveNumberColumn p.tides = specLove p := by
  rcases p with ⟨_, _, _, _, _, _, _, t, _, _, _, _⟩
  rcases t with m | m | _
  · cases m <;> rfl
  · cases m <;> rfl
  · rfl

theorem unpack_enc (t dt : F64) (p : HistParticle) (hid : p.id < 2 ^ 31) :
    unpackRow (encFirst t dt p ++ encSecond p) = specRow t dt p := by
  have key : ∀ o v t', (encFirst t dt p ++ encSecond p).drop o = encF64 v ++ t' →
      getD (encFirst t dt p ++ encSecond p) o = v := fun o v t' h => getD_drop_eq _ _ _ _ h
  have hpart : getI (encFirst t dt p ++ encSecond p) 16 = p.id := by
    rw [getI_shift]
    simp only [encFirst, encSecond, List.append_assoc]
    rw [drop_encF64 _ _ _ (by omega), drop_encF64 _ _ _ (by omega)]
    simp only [Nat.reduceSub, List.drop_zero]
    rw [getI_encI32, toInt_id _ hid]
  unfold unpackRow specRow
  rw [hpart, ← love_eq]
  have last : ∀ v : F64, encF64 v = encF64 v ++ [] := by simp
  rcases p with ⟨id, ⟨px, py, pz⟩, ⟨sx, sy, sz⟩, ⟨vx, vy, vz⟩, m, r, g, td, sd, la, de, mt⟩
  simp only [encFirst, encSecond, List.append_assoc]
  rw [last mt]
  simp only [Row.mk.injEq, Axes.mk.injEq, true_and]
  refine ⟨?_, ?_, ⟨?_, ?_, ?_⟩, ⟨?_, ?_, ?_⟩, ⟨?_, ?_, ?_⟩, ?_, ?_, ?_, ?_, ?_, ?_, ?_, ?_⟩ <;>
  · rw [getD_shift]
    simp (discharger := omega) only [drop_encF64, drop_encI32, Nat.reduceSub, List.drop_zero,
      getD_encF64]

/-- Rows of well-formed blocks of 156 bytes are read one by one. -/
theorem readRows_cons (b rest : Bytes) (h : b.length = 156) :
    readRows (b ++ rest) = unpackRow b :: readRows rest := by
  rw [readRows]
  have : ¬ (b ++ rest).length < 8 + 8 + 4 + 8 * (20 - 3) := by simp [h]
  rw [dif_neg this]
  have h1 : (b ++ rest).take (8 + 8 + 4 + 8 * (20 - 3)) = b := by
    rw [List.take_append_of_le_length (by simp [h]), List.take_of_length_le (by simp [h])]
  have h2 : (b ++ rest).drop (8 + 8 + 4 + 8 * (20 - 3)) = rest := by
    rw [List.drop_append_of_le_length (by simp [h]), List.drop_eq_nil_of_le (by simp [h]),
      List.nil_append]
  rw [h1, h2]

theorem readRows_short (b : Bytes) (h : b.length < 156) : readRows b = [] := by
  rw [readRows, dif_pos (by simpa using h)]

/-- The list of all (time, step, particle) triples of a history. -/
def flat (ss : List Snapshot) : List (F64 × F64 × HistParticle) :=
  ss.flatMap fun s => s.particles.map fun p => (s.time, s.timeStep, p)

def encFlat (l : List (F64 × F64 × HistParticle)) : Bytes :=
  l.flatMap fun q => encFirst q.1 q.2.1 q.2.2 ++ encSecond q.2.2

theorem historyFile_eq (ss : List Snapshot) : historyFile ss = encFlat (flat ss) := by
  induction ss with
  | nil => rfl
  | cons s ss ih =>
    simp only [historyFile, flat, encFlat, List.flatMap_cons, List.flatMap_append] at *
    rw [ih]
    congr 1
    simp [writeHistoricSnapshot, List.flatMap_map]

theorem specTable_eq (ss : List Snapshot) :
    specTable ss = (flat ss).map fun q => specRow q.1 q.2.1 q.2.2 := by
  induction ss with
  | nil => rfl
  | cons s ss ih =>
    simp only [specTable, flat, List.flatMap_cons, List.map_append] at *
    rw [ih]
    simp [Snapshot.rows]

theorem encFlat_length (l : List (F64 × F64 × HistParticle)) :
    (encFlat l).length = 156 * l.length := by
  induction l with
  | nil => rfl
  | cons q l ih =>
    simp only [encFlat, List.flatMap_cons, List.length_append, List.length_cons] at *
    have := encParticle_length q.1 q.2.1 q.2.2
    rw [List.length_append] at this
    omega

/-- Reading a prefix of the encoded rows gives the rows completely contained in it. -/
theorem readRows_take (l : List (F64 × F64 × HistParticle))
    (hid : ∀ q ∈ l, q.2.2.id < 2 ^ 31) (c : Nat) :
    readRows ((encFlat l).take c) =
      (l.take (c / 156)).map fun q => specRow q.1 q.2.1 q.2.2 := by
  induction l generalizing c with
  | nil => simp [encFlat, readRows_short]
  | cons q l ih =>
    have hlen := encParticle_length q.1 q.2.1 q.2.2
    have hsplit : encFlat (q :: l) = (encFirst q.1 q.2.1 q.2.2 ++ encSecond q.2.2) ++ encFlat l := by
      simp [encFlat]
    rw [hsplit]
    generalize hb : encFirst q.1 q.2.1 q.2.2 ++ encSecond q.2.2 = b at *
    by_cases hc : c < 156
    · have : c / 156 = 0 := by omega
      rw [this, readRows_short _ (by simp; omega)]
      simp
    · have hdiv : c / 156 = (c - 156) / 156 + 1 := by omega
      rw [List.take_append, hlen, List.take_of_length_le (by omega), readRows_cons _ _ hlen, hdiv,
        List.take_succ_cons, List.map_cons, ih (fun q hq => hid q (by simp [hq])), ← hb,
        unpack_enc _ _ _ (hid q (by simp))]

theorem readRows_full (l : List (F64 × F64 × HistParticle))
    (hid : ∀ q ∈ l, q.2.2.id < 2 ^ 31) :
    readRows (encFlat l) = l.map fun q => specRow q.1 q.2.1 q.2.2 := by
  have h := readRows_take l hid (encFlat l).length
  rw [List.take_length, encFlat_length] at h
  rw [h]
  have : 156 * l.length / 156 = l.length := by omega
  rw [this, List.take_length]

end Posidonius.Output

namespace Posidonius.Output

theorem flat_length (n : Nat) (ss : List Snapshot) (h : ∀ s ∈ ss, s.WellNumbered n) :
    (flat ss).length = n * ss.length := by
  induction ss with
  | nil => simp [flat]
  | cons s ss ih =>
    have h1 : s.particles.length = n := by
      have := congrArg List.length (h s (by simp))
      simpa using this
    have h2 := ih (fun s hs => h s (by simp [hs]))
    simp only [flat, List.flatMap_cons, List.length_append, List.length_map,
      List.length_cons] at *
    rw [h1, h2]; ring

theorem flat_take (n : Nat) (ss : List Snapshot) (h : ∀ s ∈ ss, s.WellNumbered n) (q : Nat) :
    (flat ss).take (n * q) = flat (ss.take q) := by
  induction ss generalizing q with
  | nil => simp [flat]
  | cons s ss ih =>
    cases q with
    | zero => simp [flat]
    | succ q =>
      have h1 : s.particles.length = n := by
        have := congrArg List.length (h s (by simp))
        simpa using this
      have h2 := ih (fun s hs => h s (by simp [hs])) q
      simp only [flat, List.flatMap_cons, List.take_succ_cons] at *
      rw [List.take_append, List.length_map, h1, List.take_of_length_le (by simp [h1]; nlinarith),
        ← h2]
      congr 2
      rw [Nat.mul_add, Nat.mul_one, Nat.add_sub_cancel]

theorem flat_id (n : Nat) (ss : List Snapshot) (h : ∀ s ∈ ss, s.WellNumbered n) (i : Nat)
    (hi : i < (flat ss).length) : (flat ss)[i].2.2.id = i % n := by
  induction ss generalizing i with
  | nil => simp [flat] at hi
  | cons s ss ih =>
    have hs := h s (by simp)
    have h1 : s.particles.length = n := by
      have := congrArg List.length hs
      simpa using this
    simp only [flat, List.flatMap_cons] at hi ⊢
    rw [List.getElem_append]
    split
    · rename_i hlt
      simp only [List.length_map, h1] at hlt
      have : s.particles[i].id = (s.particles.map HistParticle.id)[i]'(by simp [h1, hlt]) := by simp
      have hs' : s.particles.map HistParticle.id = List.range n := hs
      simp only [List.getElem_map]
      rw [this]
      simp only [hs', List.getElem_range]
      exact (Nat.mod_eq_of_lt hlt).symm
    · rename_i hge
      simp only [List.length_map, h1] at hge ⊢
      have hi' : i - n < (flat ss).length := by
        simp only [List.length_append, List.length_map, h1] at hi
        simp only [flat]; omega
      have := ih (fun s hs => h s (by simp [hs])) (i - n) hi'
      simp only [flat] at this
      rw [this]
      rw [Nat.mod_eq_sub_mod (by omega : i ≥ n)]

theorem foldl_max_le (rows : List Row) (a b : Int) (ha : a ≤ b) (h : ∀ r ∈ rows, r.particle ≤ b) :
    rows.foldl (fun m x => max m x.particle) a ≤ b := by
  induction rows generalizing a with
  | nil => simpa
  | cons r rows ih =>
    simp only [List.foldl_cons]
    exact ih _ (max_le ha (h r (by simp))) (fun r hr => h r (by simp [hr]))

theorem le_foldl_max (rows : List Row) (a : Int) :
    a ≤ rows.foldl (fun m x => max m x.particle) a ∧
    ∀ r ∈ rows, r.particle ≤ rows.foldl (fun m x => max m x.particle) a := by
  induction rows generalizing a with
  | nil => simp
  | cons r rows ih =>
    simp only [List.foldl_cons, List.mem_cons, forall_eq_or_imp]
    have := ih (max a r.particle)
    exact ⟨le_trans (le_max_left _ _) this.1, le_trans (le_max_right _ _) this.1, this.2⟩

theorem maxParticle_eq (r : Row) (rows : List Row) (b : Int)
    (hle : ∀ x ∈ r :: rows, x.particle ≤ b) (hex : ∃ x ∈ r :: rows, x.particle = b) :
    maxParticle r rows = b := by
  have h1 : maxParticle r rows ≤ b :=
    foldl_max_le _ _ _ (hle r (by simp)) (fun x hx => hle x (by simp [hx]))
  have h2 := le_foldl_max rows r.particle
  obtain ⟨x, hx, rfl⟩ := hex
  rcases List.mem_cons.1 hx with rfl | hx
  · exact le_antisymm h1 h2.1
  · exact le_antisymm h1 (h2.2 x hx)

/-- The post-processing of the reader on `m ≥ 1` consecutive rows numbered cyclically. -/
theorem readHistory_cyclic (n : Nat) (hn : 0 < n) (file : Bytes) (rows : List Row)
    (hrows : readRows file = rows) (hm : n ≤ rows.length)
    (hid : ∀ i, (hi : i < rows.length) → rows[i].particle = ((i % n : Nat) : Int)) :
    readHistory file = some ((n : Int), rows.take (n * (rows.length / n))) := by
  unfold readHistory
  rw [hrows]
  match rows, hm, hid with
  | [], hm, _ => simp at hm; omega
  | r :: rs, hm, hid =>
    have hmax : maxParticle r rs = (n : Int) - 1 := by
      apply maxParticle_eq
      · intro x hx
        obtain ⟨i, hi, rfl⟩ := List.getElem_of_mem hx
        rw [hid i hi]
        have := Nat.mod_lt i hn
        omega
      · refine ⟨(r :: rs)[n - 1]'(by omega), List.getElem_mem _, ?_⟩
        rw [hid]
        have : (n - 1) % n = n - 1 := Nat.mod_eq_of_lt (by omega)
        omega
    have hlast : ((r :: rs).getLast (by simp)).particle =
        ((((r :: rs).length - 1) % n : Nat) : Int) := by
      rw [List.getLast_eq_getElem, hid]
    simp only [hmax, hlast]
    rw [if_neg (by omega)]
    have hexc : ((n : Int) - 1 + 1 - ((n : Int) - 1 + 1 - 1 -
        ((((r :: rs).length - 1) % n : Nat) : Int))).fmod ((n : Int) - 1 + 1) =
        (((r :: rs).length % n : Nat) : Int) := by
      have e1 : ((n : Int) - 1 + 1 - ((n : Int) - 1 + 1 - 1 -
        ((((r :: rs).length - 1) % n : Nat) : Int))) =
          ((((r :: rs).length - 1) % n + 1 : Nat) : Int) := by push_cast; ring
      have e2 : ((n : Int) - 1 + 1) = (n : Int) := by ring
      rw [e1, e2, Int.fmod_eq_emod_of_nonneg _ (by omega), ← Int.natCast_mod]
      congr 1
      rw [Nat.mod_add_mod]
      congr 1
    rw [hexc]
    have e3 : ((n : Int) - 1 + 1) = (n : Int) := by ring
    rw [e3]
    have hdm := Nat.div_add_mod (r :: rs).length n
    split
    · congr 2
      rw [Int.toNat_natCast]
      congr 1
      omega
    · rename_i hz
      congr 2
      rw [List.take_of_length_le]
      omega

end Posidonius.Output
