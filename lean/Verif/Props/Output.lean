import Verif.Lemmas.Output

/-!
# C01-C03: the history file
-/

namespace Posidonius.Output

/-- **C01** After `k` historic snapshots of `n` particles the history holds exactly `k * n * 156`
bytes, which is what a recovery snapshot with counter `k` makes a resume expect (main.rs 139-141).
No hypothesis on the values stored. -/
theorem C01_record_size_exact (n : Nat) (ss : List Snapshot)
    (hn : ∀ s ∈ ss, s.particles.length = n) :
    (historyFile ss).length = ss.length * n * 156 ∧
    (historyFile ss).length = expectedNBytes ss.length n := by
  have h : (historyFile ss).length = ss.length * n * 156 := by
    rw [historyFile_eq, encFlat_length]
    have : (flat ss).length = n * ss.length := by
      induction ss with
      | nil => simp [flat]
      | cons s ss ih =>
        have h2 := ih (fun s hs => hn s (by simp [hs]))
        simp only [flat, List.flatMap_cons, List.length_append, List.length_map,
          List.length_cons, hn s (by simp)] at *
        rw [h2]; ring
    rw [this]; ring
  exact ⟨h, by rw [h, expectedNBytes, nBytesPerParticle]; ring⟩

/-- **C01**, one snapshot at a time: a snapshot only appends, and appends 156 bytes per particle. -/
theorem C01_record_appends (ss : List Snapshot) (s : Snapshot) :
    ∃ b : Bytes, historyFile (ss ++ [s]) = historyFile ss ++ b ∧
      b.length = 156 * s.particles.length := by
  refine ⟨writeHistoricSnapshot s.particles s.time s.timeStep, by simp [historyFile], ?_⟩
  have h := historyFile_eq [s]
  simp only [historyFile, List.flatMap_cons, List.flatMap_nil, List.append_nil] at h
  rw [h, encFlat_length]
  simp [flat]

/-- **C02** Row level: every bit pattern of every column is read back unchanged, in order. -/
theorem C02_rows_roundtrip (ss : List Snapshot)
    (hid : ∀ s ∈ ss, ∀ p ∈ s.particles, p.id < 2 ^ 31) :
    readRows (historyFile ss) = specTable ss := by
  rw [historyFile_eq, readRows_full, specTable_eq]
  intro q hq
  simp only [flat, List.mem_flatMap, List.mem_map] at hq
  obtain ⟨s, hs, p, hp, rfl⟩ := hq
  exact hid s hs p hp

theorem flat_lt (n : Nat) (hmax : n ≤ 2 ^ 31) (ss : List Snapshot)
    (h : ∀ s ∈ ss, s.WellNumbered n) : ∀ q ∈ flat ss, q.2.2.id < 2 ^ 31 := by
  intro q hq
  simp only [flat, List.mem_flatMap, List.mem_map] at hq
  obtain ⟨s, hs, p, hp, rfl⟩ := hq
  have : p.id ∈ s.particles.map HistParticle.id := List.mem_map_of_mem hp
  rw [h s hs, List.mem_range] at this
  exact lt_of_lt_of_le this hmax

/-- **C03** The history of an `n`-particle run, cut at an arbitrary byte `c` that is not inside the
first snapshot, reads as exactly the snapshots that are complete before the cut. -/
theorem C03_cut_history (n : Nat) (hn : 0 < n) (hmax : n ≤ 2 ^ 31) (ss : List Snapshot)
    (hne : ss ≠ []) (h : ∀ s ∈ ss, s.WellNumbered n) (c : Nat) (hc : 156 * n ≤ c) :
    readHistory ((historyFile ss).take c) =
      some ((n : Int), specTable (ss.take (c / (156 * n)))) := by
  have hlt := flat_lt n hmax ss h
  have hflat := flat_length n ss h
  have hk : 1 ≤ ss.length := by
    rcases ss with _ | ⟨s, ss⟩
    · exact absurd rfl hne
    · simp
  set rows := ((flat ss).take (c / 156)).map fun q => specRow q.1 q.2.1 q.2.2 with hrows
  have hlen : rows.length = min (c / 156) (n * ss.length) := by
    simp [hrows, hflat]
  have hc' : n ≤ c / 156 := by omega
  have hm : n ≤ rows.length := by
    rw [hlen]
    exact le_min hc' (by nlinarith)
  have := readHistory_cyclic n hn ((historyFile ss).take c) rows
    (by rw [historyFile_eq, readRows_take _ hlt]) hm (by
      intro i hi
      have hi2 : i < (flat ss).length := by
        rw [hlen] at hi; rw [hflat]; exact lt_of_lt_of_le hi (min_le_right _ _)
      have := flat_id n ss h i hi2
      simp only [hrows, List.getElem_map, List.getElem_take, specRow]
      rw [this])
  rw [this]
  congr 2
  rw [specTable_eq, hrows, ← List.map_take, List.take_take]
  congr 1
  have hq : min (n * (rows.length / n)) (c / 156) = n * (rows.length / n) := by
    apply min_eq_left
    have := Nat.mul_div_le rows.length n
    omega
  rw [hq, flat_take n ss h]
  congr 1
  rw [hlen, ← Nat.div_div_eq_div_mul]
  rcases le_total (c / 156) (n * ss.length) with hle | hle
  · rw [min_eq_left hle]
  · rw [min_eq_right hle, Nat.mul_div_cancel_left _ hn, List.take_length, List.take_of_length_le]
    rw [Nat.le_div_iff_mul_le hn]
    rw [Nat.mul_comm] at hle; exact hle

/-- **C02** Reading the history of an `n`-particle run gives `n` and the complete table. -/
theorem C02_reader_inverts_writer (n : Nat) (hn : 0 < n) (hmax : n ≤ 2 ^ 31) (ss : List Snapshot)
    (hne : ss ≠ []) (h : ∀ s ∈ ss, s.WellNumbered n) :
    readHistory (historyFile ss) = some ((n : Int), specTable ss) := by
  have hk : 1 ≤ ss.length := by
    rcases ss with _ | ⟨s, ss⟩
    · exact absurd rfl hne
    · simp
  have hlen : (historyFile ss).length = 156 * n * ss.length := by
    rw [historyFile_eq, encFlat_length, flat_length n ss h]; ring
  have := C03_cut_history n hn hmax ss hne h (historyFile ss).length (by rw [hlen]; nlinarith)
  rw [List.take_length, hlen, Nat.mul_div_cancel_left _ (by omega), List.take_length] at this
  exact this

/-- **C03**, the excluded case: a history cut inside its very first snapshot, after `j` whole rows
(`1 ≤ j < n`), is taken for the complete history of a `j`-particle run. -/
theorem C03_cut_in_first_snapshot (n : Nat) (hmax : n ≤ 2 ^ 31) (ss : List Snapshot)
    (hne : ss ≠ []) (h : ∀ s ∈ ss, s.WellNumbered n) (j c : Nat) (hj : 0 < j) (hjn : j < n)
    (hc : 156 * j ≤ c) (hc2 : c < 156 * (j + 1)) :
    readHistory ((historyFile ss).take c) = some ((j : Int), (specTable ss).take j) := by
  have hlt := flat_lt n hmax ss h
  have hflat := flat_length n ss h
  have hk : 1 ≤ ss.length := by
    rcases ss with _ | ⟨s, ss⟩
    · exact absurd rfl hne
    · simp
  have hcj : c / 156 = j := by omega
  have hjle : j ≤ n * ss.length := by nlinarith
  set rows := ((flat ss).take j).map fun q => specRow q.1 q.2.1 q.2.2 with hrows
  have hlen : rows.length = j := by simp [hrows, hflat, hjle]
  have := readHistory_cyclic j hj ((historyFile ss).take c) rows
    (by rw [historyFile_eq, readRows_take _ hlt, hcj]) (by omega) (by
      intro i hi
      have hi2 : i < (flat ss).length := by omega
      have := flat_id n ss h i hi2
      simp only [hrows, List.getElem_map, List.getElem_take, specRow]
      rw [this, Nat.mod_eq_of_lt (by omega), Nat.mod_eq_of_lt (by omega)])
  rw [this, hlen, Nat.div_self hj, Nat.mul_one, specTable_eq, hrows, List.take_of_length_le]
  · rw [List.map_take]
  · simp

/-- A particle with given id, used in the examples below. -/
def exampleParticle (i : Nat) (k : F64) : HistParticle where
  id := i
  position := ⟨k, k + 1, k + 2⟩
  spin := ⟨0x7FF8000000000001#64, 3, 4⟩
  velocity := ⟨0xFFF0000000000000#64, 6, 7⟩
  mass := 0x3FF0000000000000#64
  radius := k
  radiusOfGyration2 := 9
  tides := .orbitingBody (.constantTimeLag 11)
  scaledDissipationFactor := 12
  lagAngle := 13
  denergyDt := 0x8000000000000000#64
  migrationTimescale := 15

/-- Two snapshots of two particles (the values include a NaN payload, -inf and -0). -/
def exampleHistory : List Snapshot :=
  [⟨0, 1, [exampleParticle 0 5, exampleParticle 1 6]⟩,
   ⟨1, 1, [exampleParticle 0 7, exampleParticle 1 8]⟩]

example : ∀ s ∈ exampleHistory, s.WellNumbered 2 := by
  intro s hs
  simp only [exampleHistory, List.mem_cons, List.not_mem_nil, or_false] at hs
  rcases hs with rfl | rfl <;> rfl

/-- The hypotheses of C01-C03 are met by `exampleHistory`; cut at byte 700 (inside the second
snapshot, whose bytes are 312..623, and beyond): everything is read; cut at byte 500: only the first
snapshot; cut at byte 200: misread as a one-particle history. -/
example : (historyFile exampleHistory).length = 624 ∧
    readHistory ((historyFile exampleHistory).take 500) =
      some (2, specTable (exampleHistory.take 1)) ∧
    readHistory ((historyFile exampleHistory).take 200) =
      some (1, (specTable exampleHistory).take 1) := by
  have h : ∀ s ∈ exampleHistory, s.WellNumbered 2 := by
    intro s hs
    simp only [exampleHistory, List.mem_cons, List.not_mem_nil, or_false] at hs
    rcases hs with rfl | rfl <;> rfl
  refine ⟨(C01_record_size_exact 2 exampleHistory ?_).1, ?_, ?_⟩
  · intro s hs
    simpa using congrArg List.length (h s hs)
  · exact C03_cut_history 2 (by omega) (by omega) _ (by simp [exampleHistory]) h 500 (by omega)
  · exact C03_cut_in_first_snapshot 2 (by omega) _ (by simp [exampleHistory]) h 1 200
      (by omega) (by omega) (by omega) (by omega)

end Posidonius.Output
