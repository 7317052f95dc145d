import Verif.Model.Statistics
import Verif.Props.PairFile
import Verif.Props.ImageArray
import Mathlib.Tactic.NormNum
import Mathlib.Tactic.Positivity

set_option linter.unusedSimpArgs false

/-! C122: `calculate_statistics` for all data types. C123: `describe`. -/

namespace Viqa

variable {D V : Type}

/-! ### C122 -/

/-- Images whose type is not an integer type of 32 or 64 bits: with one megabyte of memory the calculation
succeeds and sets every statistic but the histogram to that of the image. The full claim says this for all
types. -/
theorem C122_small_partial (stat : Stat → D → V) (mem : Nat) (hmem : 2 ^ 20 ≤ mem) (dt : DType) (hb : dt.bits ≤ 16)
    (o : ArrObj D V) :
    (calculateStatistics stat mem dt o).2 = .ok () ∧ (calculateStatistics stat mem dt o).1.data = o.data ∧
    (∀ s, s ≠ .histogram → (calculateStatistics stat mem dt o).1.attr s = some (stat s o.data)) ∧
    (dt.isInteger = false → (calculateStatistics stat mem dt o).1.attr .histogram = some (stat .histogram o.data)) := by
  have h : allocateEdges mem (histogramBins dt) = .ok () := by
    have : histogramBins dt ≤ 65535 := by
      revert hb; cases dt <;> simp [DType.bits, histogramBins, DType.isInteger, DType.intMax, DType.isUnsigned]
    unfold allocateEdges
    rw [if_neg (by omega), if_neg (by omega)]
  unfold calculateStatistics
  simp only [h]
  refine ⟨trivial, trivial, ?_, ?_⟩
  · intro s hs; cases s <;> simp_all [earlyStats]
  · intro hi; simp [hi, earlyStats]

theorem allocateEdges_ok {mem bins : Nat} : allocateEdges mem bins = .ok () ↔ 8 * (bins + 1) < 2 ^ 63 ∧ 8 * (bins + 1) ≤ mem := by
  unfold allocateEdges
  by_cases h1 : 2 ^ 63 ≤ 8 * (bins + 1)
  · rw [if_pos h1]; simp; omega
  · rw [if_neg h1]
    by_cases h2 : mem < 8 * (bins + 1)
    · rw [if_pos h2]; simp; omega
    · rw [if_neg h2]; simp; omega

/-- The memory an integer image of 32 bits needs: 16 gigabytes, or 32 if it is unsigned, whatever its size. -/
theorem C122_32bit (stat : Stat → D → V) (mem : Nat) (o : ArrObj D V) :
    ((calculateStatistics stat mem .i32 o).2 = .ok () ↔ 16 * 2 ^ 30 ≤ mem) ∧
    ((calculateStatistics stat mem .u32 o).2 = .ok () ↔ 32 * 2 ^ 30 ≤ mem) := by
  have key : ∀ dt : DType, (calculateStatistics stat mem dt o).2 = .ok () ↔ allocateEdges mem (histogramBins dt) = .ok () := by
    intro dt
    unfold calculateStatistics
    simp only
    split <;> simp_all
  rw [key, key, allocateEdges_ok, allocateEdges_ok]
  have h1 : histogramBins .i32 = 2 ^ 31 - 1 := by decide +kernel
  have h2 : histogramBins .u32 = 2 ^ 32 - 1 := by decide +kernel
  rw [h1, h2]
  omega

example : ¬ (calculateStatistics (fun _ d => d) (8 * 2 ^ 30) .i32 (⟨7, true, fun _ => none⟩ : ArrObj Nat Nat)).2 = .ok () := fun h =>
  absurd ((C122_32bit _ _ _).1.1 h) (by norm_num)

/-- The calculation always fails for integer images of 64 bits, the default integer type. Statistics up to the
kurtosis are replaced, minimum and maximum keep their old values. -/
theorem C122_64bit (stat : Stat → D → V) (mem : Nat) (dt : DType) (hb : dt.bits = 64) (o : ArrObj D V) :
    (calculateStatistics stat mem dt o).2 = .error (.valueError "Maximum allowed size exceeded") ∧
    (∀ s, s ∉ [Stat.histogram, .minimum, .maximum] → (calculateStatistics stat mem dt o).1.attr s = some (stat s o.data)) ∧
    (∀ s, s ∈ [Stat.histogram, .minimum, .maximum] → (calculateStatistics stat mem dt o).1.attr s = o.attr s) := by
  have h : allocateEdges mem (histogramBins dt) = .error (.valueError "Maximum allowed size exceeded") := by
    have : 2 ^ 60 ≤ histogramBins dt + 1 := by
      revert hb; cases dt <;> simp [DType.bits, histogramBins, DType.isInteger, DType.intMax, DType.isUnsigned]
    unfold allocateEdges
    rw [if_pos (by omega)]
  unfold calculateStatistics
  simp only [h]
  refine ⟨trivial, ?_, ?_⟩
  · intro s hs; cases s <;> simp_all [earlyStats]
  · intro s hs; cases s <;> simp_all [earlyStats]

/-- The claim that the statistics of every image can be calculated fails, with any amount of memory. -/
theorem C122_refuted (mem : Nat) : ¬ ∀ (D V : Type) (stat : Stat → D → V) (dt : DType) (o : ArrObj D V),
    (calculateStatistics stat mem dt o).2 = .ok () := by
  intro h
  have h1 := h Nat Nat (fun _ d => d) .i64 ⟨7, true, fun _ => none⟩
  rw [(C122_64bit _ mem .i64 rfl _).1] at h1
  simp at h1

/-- After a failure statistics of different contents stand side by side: calculated for a floating point
array, converted to integers and changed, calculated again. -/
example (mem : Nat) : ∃ o : ArrObj Nat Nat, (calculateStatistics (fun _ d => d) mem .i64 ⟨9, true, fun _ => some 5⟩).1 = o ∧
    o.attr .mean = some 9 ∧ o.attr .minimum = some 5 := by
  refine ⟨_, rfl, ?_, ?_⟩
  · exact (C122_64bit _ mem .i64 rfl _).2.1 .mean (by decide)
  · exact (C122_64bit _ mem .i64 rfl _).2.2 .minimum (by decide)

example : (calculateStatistics (fun _ d => d) (2 ^ 30) .u16 (⟨7, true, fun _ => none⟩ : ArrObj Nat Nat)).2 = .ok () :=
  (C122_small_partial _ _ (by decide) _ (by decide) _).1

/-! ### C123 -/

/-- The file is written exactly if both a path and a file name are given that are not empty; otherwise exactly one warning is
issued. -/
theorem C123_written_iff (str : V → Txt) (o : ArrObj D V) (path filename : Option Txt) :
    ((describe str o path filename).file.isSome ↔ ∃ p f, path = some p ∧ filename = some f ∧ p ≠ [] ∧ f ≠ []) ∧
    ((describe str o path filename).warns = [] ↔ (describe str o path filename).file.isSome) := by
  unfold describe
  cases path with
  | none => simp
  | some p =>
    cases filename with
    | none => simp
    | some f =>
      by_cases h : p ≠ [] ∧ f ≠ []
      · simp [h]
      · simp only [h, if_false]
        refine ⟨⟨by simp, ?_⟩, by simp⟩
        rintro ⟨_, _, h1, h2, h3⟩
        cases h1; cases h2; exact absurd h3 h

example : (describe (fun n : Nat => Nat.toDigits 10 n) (⟨7, false, fun _ => some 12⟩ : ArrObj Nat Nat) (some "out".toList) none).warns ≠ [] := fun h => by
  obtain ⟨p, f, -, hf, -⟩ := (C123_written_iff _ _ _ _).1.1 ((C123_written_iff _ _ _ _).2.1 h)
  cases hf

/-- The dictionary returned holds the eight statistics under their names, and never depends on the file. -/
theorem C123_returned (str : V → Txt) (o : ArrObj D V) (path filename : Option Txt) :
    (describe str o path filename).stats =
      [("mean".toList, o.attr .mean), ("median".toList, o.attr .median), ("variance".toList, o.attr .variance),
       ("standarddev".toList, o.attr .standarddev), ("skewness".toList, o.attr .skewness),
       ("kurtosis".toList, o.attr .kurtosis), ("minimum".toList, o.attr .minimum), ("maximum".toList, o.attr .maximum)] := by
  unfold describe
  cases path with
  | none => rfl
  | some p => cases filename with
    | none => rfl
    | some f => simp only; split_ifs <;> rfl

example : (describe (fun n : Nat => Nat.toDigits 10 n) (⟨7, false, fun s => if s = .median then some 5 else none⟩ : ArrObj Nat Nat) none none).stats[1]? =
    some ("median".toList, some 5) := by
  rw [C123_returned]
  rfl

/-- A file that is written is read back as one line of names and one line with the texts of the values
returned, whatever characters but quotes these contain. -/
theorem C123_round_trip (str : V → Txt) (o : ArrObj D V) (path filename : Option Txt) (p text : Txt)
    (hq : ∀ v, '"' ∉ str v) (h : (describe str o path filename).file = some (p, text)) :
    csvRows ',' false text = .ok [(describe str o path filename).stats.map Prod.fst,
      (describe str o path filename).stats.map (fun e => attrText str e.2)] := by
  have hs : (describe str o path filename).stats = describeStats.map (fun s => (statName s, o.attr s)) := by
    rw [C123_returned]; rfl
  have ht : text = writeRows ',' [(describe str o path filename).stats.map Prod.fst,
      (describe str o path filename).stats.map (fun e => attrText str e.2)] := by
    rw [hs]
    unfold describe at h
    cases path with
    | none => simp at h
    | some p' =>
      cases filename with
      | none => simp at h
      | some f =>
        simp only at h
        split_ifs at h
        · simp only [Option.some.injEq, Prod.mk.injEq] at h
          exact h.2.symm
  rw [ht]
  apply csvRows_writeRows _ (by decide)
  intro fs hfs s hmem
  simp only [List.mem_cons, List.not_mem_nil, or_false] at hfs
  rcases hfs with rfl | rfl
  · rw [hs] at hmem
    simp only [List.map_map, List.mem_map, Function.comp] at hmem
    obtain ⟨st, -, rfl⟩ := hmem
    cases st <;> decide +kernel
  · simp only [List.mem_map] at hmem
    obtain ⟨e, -, rfl⟩ := hmem
    cases e.2 with
    | none => show '"' ∉ "Not set. Run calculate_statistics() first.".toList; decide +kernel
    | some v => exact hq v

example (p text : Txt) (h : (describe (fun b : Bool => if b then "1.5".toList else "2".toList) (⟨7, false, fun s => some (s == .mean)⟩ : ArrObj Nat Bool)
    (some "out".toList) (some "stats".toList)).file = some (p, text)) :
    ∃ names values, csvRows ',' false text = .ok [names, values] ∧ names[0]? = some "mean".toList ∧ values[0]? = some "1.5".toList :=
  ⟨_, _, C123_round_trip _ _ _ _ p text (by decide) h, rfl, rfl⟩

/-- The path of the file: inside of the given directory, with the extension of csv files. -/
theorem C123_path (str : V → Txt) (o : ArrObj D V) (path filename p text : Txt)
    (h : (describe str o (some path) (some filename)).file = some (p, text)) :
    p = pathJoin path (csvName filename) ∧ endsWith (lower p) ".csv".toList = true := by
  have hp : p = pathJoin path (csvName filename) := by
    unfold describe at h
    simp only at h
    split_ifs at h
    simp only [Option.some.injEq, Prod.mk.injEq] at h
    exact h.1.symm
  refine ⟨hp, ?_⟩
  have hc : ∃ t, lower (csvName filename) = t ++ ".csv".toList := by
    unfold csvName
    split_ifs with he
    · unfold endsWith at he
      obtain ⟨t, ht⟩ := List.isSuffixOf_iff_suffix.1 he
      exact ⟨t, ht.symm⟩
    · refine ⟨lower filename, ?_⟩
      unfold lower
      rw [List.map_append]
      congr 1
  obtain ⟨t, ht⟩ := hc
  rw [hp]
  unfold endsWith
  apply List.isSuffixOf_iff_suffix.2
  unfold pathJoin
  split
  · exact ⟨t, ht.symm⟩
  · split_ifs
    · refine ⟨lower path ++ t, ?_⟩
      unfold lower at ht ⊢
      rw [List.map_append, ht, List.append_assoc]
    · refine ⟨lower path ++ '/' :: t, ?_⟩
      unfold lower at ht ⊢
      rw [List.map_append, List.map_cons, ht]
      simp

example (p text : Txt) (h : (describe (fun n : Nat => Nat.toDigits 10 n) (⟨7, false, fun _ => some 12⟩ : ArrObj Nat Nat) (some "out".toList)
    (some "stats".toList)).file = some (p, text)) : p = "out/stats.csv".toList := by
  rw [(C123_path _ _ _ _ _ _ h).1]
  decide +kernel

theorem attrText_some (str : V → Txt) (v : V) : attrText str (some v) = str v := rfl

theorem calculateStatistics_attr (stat : Stat → D → V) (mem : Nat) (dt : DType) (o : ArrObj D V)
    (hok : (calculateStatistics stat mem dt o).2 = .ok ()) (s : Stat) (hs : s ≠ .histogram) :
    (calculateStatistics stat mem dt o).1.attr s = some (stat s o.data) := by
  unfold calculateStatistics at hok ⊢
  cases h : allocateEdges mem (histogramBins dt) with
  | error e => simp [h] at hok
  | ok u => cases s <;> simp_all [earlyStats]

/-- Directly after a successful calculation the file holds the statistics of the image. -/
theorem C123_after_calculate (stat : Stat → D → V) (str : V → Txt) (mem : Nat) (dt : DType) (o : ArrObj D V)
    (hok : (calculateStatistics stat mem dt o).2 = .ok ()) (path filename : Option Txt) :
    (describe str (calculateStatistics stat mem dt o).1 path filename).stats.map (fun e => attrText str e.2) =
      [Stat.mean, .median, .variance, .standarddev, .skewness, .kurtosis, .minimum, .maximum].map (fun s => str (stat s o.data)) := by
  have h := calculateStatistics_attr stat mem dt o hok
  refine (congrArg _ (C123_returned _ _ _ _)).trans ?_
  simp only [List.map_cons, List.map_nil, h .mean (by decide), h .median (by decide), h .variance (by decide),
    h .standarddev (by decide), h .skewness (by decide), h .kurtosis (by decide), h .minimum (by decide),
    h .maximum (by decide), attrText_some]

example : (describe (fun n : Nat => Nat.toDigits 10 n) (calculateStatistics (fun _ d => d) (2 ^ 30) .u16 (⟨7, true, fun _ => none⟩ : ArrObj Nat Nat)).1
    none none).stats.map (fun e => attrText (fun n : Nat => Nat.toDigits 10 n) e.2) = List.replicate 8 ['7'] := by
  rw [C123_after_calculate _ _ _ _ _ (C122_small_partial _ _ (by decide) _ (by decide) _).1]
  decide +kernel

/-- The claim that an exported file holds numbers fails: without calculated statistics a text is exported,
without a warning. -/
theorem C123_refuted : ¬ ∀ (D V : Type) (str : V → Txt) (o : ArrObj D V) (path filename : Txt),
    path ≠ [] → filename ≠ [] → (describe str o (some path) (some filename)).warns = [] →
    ∀ e ∈ (describe str o (some path) (some filename)).stats, e.2.isSome := by
  intro h
  have h1 := h Nat Nat (fun _ => []) ⟨7, false, fun _ => none⟩ ['d'] ['f'] (by decide) (by decide)
    ((C123_written_iff _ _ _ _).2.2 ((C123_written_iff _ _ _ _).1.2 ⟨_, _, rfl, rfl, by decide, by decide⟩))
  rw [C123_returned] at h1
  have := h1 ("mean".toList, none) (by simp)
  simp at this

example : (describe (fun n : Nat => Nat.toDigits 10 n) (⟨7, false, fun _ => some 12⟩ : ArrObj Nat Nat) (some "out".toList)
    (some "stats".toList)).file.map Prod.fst = some "out/stats.csv".toList := by decide +kernel

end Viqa
