import Verif.Props.Mad
import Verif.Props.Noise
import Verif.Props.Scripts
import Verif.Props.QMeasure
import Verif.Props.Statistics
import Verif.Props.Report
import Verif.Props.SnrPanel

/-!
Details of C69, C71, C86, C91, C111, C122, C124 and C125: what is refused, and which of several values is used.
-/

namespace Viqa

/-- **C86.** The deviation of a block of several pixels is the unbiased estimate: its square times the number of
pixels less one is the sum of the squared differences to the mean. -/
theorem C86_unbiased (b : NDArray ℝ) (h : 2 ≤ b.toList.length) :
    ∃ s : ℝ, blockStd b = .fin s ∧ 0 ≤ s ∧
      s ^ 2 * (b.toList.length - 1) = (b.toList.map (fun x => (x - b.toList.sum / b.toList.length) ^ 2)).sum := by
  have hn : (0 : ℝ) < b.toList.length - 1 := by
    have : (2 : ℝ) ≤ b.toList.length := by exact_mod_cast h
    linarith
  have hs : 0 ≤ (b.toList.map (fun x => (x - blockMean b) ^ 2)).sum :=
    List.sum_nonneg (by
      intro x hx
      rw [List.mem_map] at hx
      obtain ⟨y, -, rfl⟩ := hx
      exact sq_nonneg _)
  refine ⟨_, by unfold blockStd; rw [if_neg (by omega)], Real.sqrt_nonneg _, ?_⟩
  rw [Real.sq_sqrt (div_nonneg hs hn.le), div_mul_cancel₀ _ hn.ne']
  rfl

/-- Two pixels 1 and 3. -/
example : ∃ s : ℝ, blockStd ⟨[2], fun i => if i = [0] then 1 else 3⟩ = .fin s ∧ s ^ 2 = 2 := by
  obtain ⟨s, h1, -, h2⟩ := C86_unbiased ⟨[2], fun i => if i = [0] then 1 else 3⟩ (by simp [NDArray.toList, indices])
  refine ⟨s, h1, ?_⟩
  simp [NDArray.toList, indices, List.range_succ] at h2
  norm_num at h2
  exact h2

/-- **C71, C70.** Files with too few or too many items are refused by the scripts. -/
theorem C71_size (bytes : List UInt8) (bits : String) (dt : DType) (hb : parseBitdepth bits = .ok dt) (X Y Z : Nat) (factor : Int)
    (h : bytes.length / dt.itemsize ≠ X * Y * Z) :
    (∀ isDir output, ∃ msg, reduceScript bytes bits X Y Z factor isDir output = .error (.valueError msg)) ∧
    ∀ name, ∃ msg, cropScript bytes name bits X Y Z factor = .error (.valueError msg) := by
  have h1 : loadParts bytes dt X Y Z = .error (.valueError "Size of data file does not match dimensions") := by
    unfold loadParts
    simp only
    rw [if_pos]
    unfold fromfile
    rw [List.length_map, List.length_range]
    exact h
  constructor
  · intro isDir output
    exact ⟨"Size of data file does not match dimensions", by unfold reduceScript; simp only [hb, h1]⟩
  · intro name
    exact ⟨"Size of data file does not match dimensions", by unfold cropScript loadVolume; simp only [hb, h1]⟩

/-- A file with one item too many. -/
example : ∃ msg, reduceScript [1, 2, 3, 4, 5] "16bit" 2 2 1 2 (fun _ => true) "a/b".toList = .error (.valueError msg) :=
  (C71_size [1, 2, 3, 4, 5] "16bit" .u16 (parseBitdepth_documented _ _ (by decide)) 2 2 1 2 (by decide)).1 _ _

/-- **C69.** Images with fewer than three axes are refused; others are accepted, with a warning if the last axis has the
length three. -/
theorem C69_volumes_only (shape : List Nat) :
    ((∃ w, qmeasureChecks shape = .ok w) ↔ 3 ≤ shape.length) ∧
    (∀ a b c, qmeasureChecks [a, b, c] = .ok true ↔ c = 3) := by
  unfold qmeasureChecks
  constructor
  · by_cases h : shape.length < 3
    · rw [if_pos h]; simp; omega
    · rw [if_neg h]; simp; omega
  · intro a b c
    simp

example : ∃ w, qmeasureChecks [9, 9, 9] = .ok w := (C69_volumes_only _).1.2 (by decide)

example : ¬ ∃ w, qmeasureChecks [9, 9] = .ok w := fun h => absurd ((C69_volumes_only _).1.1 h) (by decide)

/-- **C122.** Images of floating point numbers of any precision need two kilobytes for their histogram, whatever their
size. -/
theorem C122_float {D V : Type} (stat : Stat → D → V) (mem : Nat) (dt : DType) (hf : dt.isInteger = false) (o : ArrObj D V) :
    (calculateStatistics stat mem dt o).2 = .ok () ↔ 2 ^ 11 ≤ mem := by
  have hb : histogramBins dt = 255 := by unfold histogramBins; rw [hf]; rfl
  have key : (calculateStatistics stat mem dt o).2 = .ok () ↔ allocateEdges mem (histogramBins dt) = .ok () := by
    unfold calculateStatistics
    simp only
    split <;> simp_all
  rw [key, allocateEdges_ok, hb]
  omega

example : ¬ (calculateStatistics (fun _ (d : List Nat) => d.length) 1000 .f32 ⟨[1, 2], false, fun _ => none⟩).2 = .ok () :=
  fun h => absurd ((C122_float _ 1000 .f32 rfl _).1 h) (by decide)

/-- **C111.** With an empty directory name the images are shown and nothing is saved. -/
theorem C111_empty_directory {D R S : Type} (draw : Pair → Option R → Py D) (obj : BatchObj R S) (project : Option Txt)
    (path : Txt) (c : Option (Content D S)) :
    Effect.wrote path c ∉ (batchReport draw obj false false true (some []) project).1 := by
  have hw : ∀ name (d : Py D) (values : ODict Key S), Effect.wrote path c ∉ (writeImage (some []) name false d values).1 := by
    intro name d values
    unfold writeImage
    cases d with
    | error e => simp
    | ok d =>
      simp only
      split <;> simp
  have hseq : ∀ a b : Eff D S, Effect.wrote path c ∉ a.1 → Effect.wrote path c ∉ b.1 → Effect.wrote path c ∉ (Eff.seq a b).1 := by
    intro a b ha hb
    unfold Eff.seq
    split <;> simp_all
  have himg : ∀ (g : Option R) (ps : List Pair) (num : Nat), Effect.wrote path c ∉ (reportImages draw obj g (some []) project ps num).1 := by
    intro g ps
    induction ps with
    | nil => intro num; simp [reportImages]
    | cons p ps ih =>
      intro num
      unfold reportImages
      refine hseq _ _ ?_ (ih _)
      split
      · simp
      · split
        · simp
        · exact hw _ _ _
  unfold batchReport
  refine hseq _ _ (by simp [Eff.only]) (hseq _ _ (by simp [Eff.only]) ?_)
  unfold Eff.only
  rw [if_pos rfl]
  split
  · simp
  · exact himg _ _ _

example : Effect.wrote ['x'] (some (.drawing (⟨['a'], ['m']⟩ : Pair) [])) ∉
    (batchReport (fun p _ => (.ok p : Py Pair)) (⟨[⟨['a'], ['m']⟩], none, [(['0'], [(some "T", (1 : Rat))])], .ok [], some none⟩ : BatchObj Roi Rat)
      false false true (some []) none).1 :=
  C111_empty_directory _ _ _ _ _

/-- **C91.** A region with a centre but without a radius is refused. -/
theorem C91_radius_needed (a : NDArray Rat) (kw : Dict NVal) (hr : ∀ n, kw "radius" ≠ some (.num n))
    (ha : kw "auto_center" ≠ some (.flag true)) : ∃ msg, snr a (snrArgsOf kw) = .error (.typeError msg) := by
  have h1 : (snrArgsOf kw).radius = .other := by
    unfold snrArgsOf
    cases hk : kw "radius" with
    | none => simp [hk]
    | some x =>
      cases x with
      | num n => exact absurd hk (hr n)
      | _ => simp [hk]
  have h2 : (snrArgsOf kw).auto = false := by
    unfold snrArgsOf
    simp only
    split
    · rename_i b hb
      cases b with
      | false => rfl
      | true => exact absurd hb ha
    · rfl
  have h3 : ∃ msg, snrChecks a (snrArgsOf kw).center .other = .error (.typeError msg) := by
    unfold snrChecks
    cases (snrArgsOf kw).center with
    | none => exact ⟨_, rfl⟩
    | some c =>
      cases c with
      | nil => exact ⟨_, rfl⟩
      | cons c cs => cases c <;> exact ⟨_, rfl⟩
  obtain ⟨msg, h3⟩ := h3
  refine ⟨msg, ?_⟩
  unfold snr
  rw [h1, h2, h3]
  rfl

/-- A centre without a radius. -/
example (a : NDArray Rat) : ∃ msg, snr a (snrArgsOf (fun k => if k = "signal_center" then some (.centre [.int 9, .int 9]) else none)) =
    .error (.typeError msg) :=
  C91_radius_needed a _ (by intro n; simp) (by simp)

/-- **C124.** A box or ball with a stored radius that is not positive is not shown. -/
theorem C124_radius (gray : NDArray Rat → NDArray Rat) (img : NDArray Rat) (m : SnrMetric Rat) (center : List Int) (r : Int)
    (hr : r ≤ 0) (hm : m.params.radius = some (some r)) (hreg : m.region = none) (t : String)
    (ht : t ≠ "full" ∧ t ≠ "original" ∧ t ≠ "") (hc : img.ndim = center.length) (h3 : img.lastDim ≠ 3) (hne : center ≠ []) :
    ∃ msg, snrVisualize gray img m center none (some t) none = .error (.typeError msg) := by
  have h1 : snrType m (some t) = .ok t := by
    unfold snrType
    cases m.params.regionType <;> simp [ht.2.2]
  have h2 : snrSignal m none = .ok none := by unfold snrSignal; simp [hreg]
  have h4 : snrCentre m center none = .ok (center, r) := by
    unfold snrCentre
    rw [if_neg hne]
    simp [hm, bind, Except.bind]
  have h5 : snrShownChecks img center r = .error (.typeError "Radius has to be a positive integer.") := by
    unfold snrShownChecks
    rw [if_neg (by tauto), if_neg (by tauto), if_pos hr]
  refine ⟨"Radius has to be a positive integer.", ?_⟩
  unfold snrVisualize
  simp [h1, h2, h4, h5, bind, Except.bind, ht.1, ht.2.1]

example : ∃ msg, snrVisualize id ⟨[9, 9], fun _ => 0⟩ { params := { radius := some (some (-1)) } } [4, 4] none (some "cubic") none =
    .error (.typeError msg) :=
  C124_radius _ _ _ _ (-1) (by decide) rfl rfl "cubic" (by decide) rfl (by decide) (by decide)

/-- **C125.** The choice is not opened for a radius that is not positive. -/
theorem C125_radius {α : Type} (shape : List Nat) (v : SnrVars α) (m : SnrMetric α) (args : SnrParams) (c : List Int) (r : Int)
    (hc : args.center = some (some c)) (hl : c.length = shape.length) (hr : args.radius = some (some r)) (h0 : r ≤ 0) :
    ∃ msg, (snrOpen shape v m args).2.2 = .error (.typeError msg) := by
  refine ⟨"Radius has to be a positive integer.", ?_⟩
  unfold snrOpen snrOpenWith startFrom
  simp [hc, hr, hl, h0]

example : ∃ msg, (snrOpen [9, 9] ({} : SnrVars Rat) {} { center := some (some [4, 4]), radius := some (some 0) }).2.2 = .error (.typeError msg) :=
  C125_radius _ _ _ _ [4, 4] 0 rfl rfl rfl (by decide)

/-- **C125.** Starting values given as arguments are used whatever was stored before: two metrics open alike. -/
theorem C125_arguments {α : Type} (shape : List Nat) (v : SnrVars α) (m m' : SnrMetric α) (args : SnrParams)
    (h : args.center.isSome ∧ args.radius.isSome ∧ args.regionType.isSome ∧ args.iterations.isSome ∧ args.lower.isSome ∧
      args.upper.isSome) : (snrOpen shape v m args).2.2 = (snrOpen shape v m' args).2.2 := by
  obtain ⟨h1, h2, h3, h4, h5, h6⟩ := h
  obtain ⟨c, hc⟩ := Option.isSome_iff_exists.1 h1
  obtain ⟨r, hr⟩ := Option.isSome_iff_exists.1 h2
  obtain ⟨t, ht⟩ := Option.isSome_iff_exists.1 h3
  obtain ⟨i, hi⟩ := Option.isSome_iff_exists.1 h4
  obtain ⟨l, hl⟩ := Option.isSome_iff_exists.1 h5
  obtain ⟨u, hu⟩ := Option.isSome_iff_exists.1 h6
  unfold snrOpen startFrom
  simp only [hc, hr, ht, hi, hl, hu, Option.getD_some]
  unfold snrOpenWith
  cases c with
  | none => rfl
  | some c =>
    cases r with
    | none => simp only; split <;> rfl
    | some r =>
      simp only
      repeat' (first | rfl | split)

example : (snrOpen [9, 9] ({} : SnrVars Rat) {} ⟨some "cubic", some (some [4, 4]), some (some 2), some (some 5), some (some 90), some (some 99)⟩).2.2 =
    (snrOpen [9, 9] ({} : SnrVars Rat) { params := { radius := some (some 7) } }
      ⟨some "cubic", some (some [4, 4]), some (some 2), some (some 5), some (some 90), some (some 99)⟩).2.2 :=
  C125_arguments _ _ _ _ _ (by decide)

/-- **C125.** A region that was calculated is saved as the full region, with the values it was calculated for. -/
theorem C125_calculated {α : Type} (v : SnrVars α) (m : SnrMetric α) (region : NDArray α) (l u i : Int) :
    (snrSave (snrCalculate v region l u i) m).region = some region ∧
    (snrSave (snrCalculate v region l u i) m).params = ⟨some "full", some none, some none, some (some i), some (some l), some (some u)⟩ := by
  constructor <;> rfl

example : (snrSave (snrCalculate ({ radius := some 3 } : SnrVars Rat) ⟨[2, 2], fun _ => 1⟩ 90 99 5) {}).region = some ⟨[2, 2], fun _ => 1⟩ :=
  (C125_calculated _ _ _ _ _ _).1

end Viqa
