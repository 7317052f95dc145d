import Verif.Model.Report
import Verif.Props.BatchPackage

/-!
Properties of `print_score` and of reports: C108 to C112.
-/

namespace Viqa

open Spec

/-! ### C108 -/

section Print
variable {S : Type}

/-- **C108, partial.** After a successful call of `score`, `print_score` prints one line with the rounded score that was
returned, without a warning, for every metric. Missing: metrics whose missing score was exported, see
`C108_exported_refuted`. -/
theorem C108_scored_partial {I : Type} (load : Py I) (compute : I → Py S) (m m' : MetricObj S) (v : S)
    (h : scoreCall load compute m = (m', .ok v)) (round : S → Int → S) (c : MetricClass) (decimals : Int) :
    printScore round c m'.score decimals = ⟨[], .ok [.score (printedName c) (round v decimals)]⟩ := by
  unfold scoreCall at h
  split at h
  · cases h
  · split at h
    · cases h
    · cases h; rfl

/-- **C108, partial.** Without a score the metrics other than MS-SSIM, VIFp and VSI print nothing and issue one warning
that names the metric. -/
theorem C108_unscored_partial (round : S → Int → S) (c : MetricClass) (decimals : Int)
    (hc : c ≠ .msssim ∧ c ≠ .vif ∧ c ≠ .vsi) :
    printScore round c .unset decimals =
      ⟨["No score value for " ++ printedName c ++ ". Run score() first."], .ok []⟩ := by
  obtain ⟨h1, h2, h3⟩ := hc
  cases c <;> first | rfl | exact absurd rfl h1 | exact absurd rfl h2 | exact absurd rfl h3

example : printScore (fun (v : Rat) _ => v) .psnr .unset 2 = ⟨["No score value for " ++ printedName .psnr ++ ". Run score() first."], .ok []⟩ :=
  C108_unscored_partial _ _ _ (by decide)

/-- **C108, refuted** for MS-SSIM, VIFp and VSI: no warning is issued, a line is printed instead. -/
theorem C108_unscored_refuted (round : S → Int → S) (c : MetricClass) (decimals : Int)
    (hc : c = .msssim ∨ c = .vif ∨ c = .vsi) :
    (printScore round c .unset decimals).warns = [] ∧
    (printScore round c .unset decimals).val = .ok [.notice (printedName c)] := by
  rcases hc with h | h | h <;> subst h <;> exact ⟨rfl, rfl⟩

theorem exportResults_metrics (ms : List (MetricObj S)) :
    (exportResults ms).2.1 = ms.map (fun m => match m.score with
      | .unset => { m with score := .na }
      | _ => m) := by
  unfold exportResults
  induction ms with
  | nil => rfl
  | cons m ms ih =>
    rw [List.foldr_cons, List.map_cons, ← ih]
    cases hs : m.score <;> simp

/-- **C108, refuted** after an export: a metric without a score raises TypeError, whatever its class. -/
theorem C108_exported_refuted (ms : List (MetricObj S)) (i : Nat) (m : MetricObj S) (hm : ms[i]? = some m)
    (hs : m.score = .unset) (round : S → Int → S) (c : MetricClass) (decimals : Int) :
    ∃ m', (exportResults ms).2.1[i]? = some m' ∧ ∃ msg, (printScore round c m'.score decimals).val = .error (.typeError msg) ∧
      (printScore round c m'.score decimals).warns = [] := by
  rw [exportResults_metrics, List.getElem?_map, hm, Option.map_some]
  rw [hs]
  exact ⟨_, rfl, _, rfl, rfl⟩

example : printScore (fun (v : Rat) _ => v) .psnr (scoreCall (.ok ()) (fun _ => .ok (37 / 2))
    (⟨"PSNR", [], .unset⟩ : MetricObj Rat)).1.score 2 = ⟨[], .ok [.score "PSNR" (37 / 2)]⟩ :=
  C108_scored_partial (.ok ()) (fun _ => .ok (37 / 2)) _ _ _ rfl _ .psnr 2

/-! ### C109 -/

/-- **C109, partial.** The printed name is the one in result files exactly for metrics other than SNR that are not a
chromatic RMSE, PSNR or FSIM; different classes never share a name. -/
theorem C109_names_iff_partial (chromatic : Bool) (c : MetricClass) :
    (storedName chromatic c = some (printedName c) ↔
      c ≠ .snr ∧ ¬ (chromatic = true ∧ (c = .rmse ∨ c = .psnr ∨ c = .fsim))) ∧
    ∀ (chromatic' : Bool) (c' : MetricClass), (storedName chromatic c = storedName chromatic' c' ∨
      printedName c = printedName c') → c = c' := by
  constructor
  · cases chromatic <;> cases c <;> decide +kernel
  · revert chromatic c
    have : ∀ b : Bool, ∀ c : MetricClass, ∀ b' : Bool, ∀ c' : MetricClass,
        ((storedName b c = storedName b' c' ∨ printedName c = printedName c') → c = c') := by
      intro b c b' c'
      cases b <;> cases b' <;> cases c <;> cases c' <;> decide +kernel
    exact this

example : storedName true .psnr ≠ some (printedName .psnr) := fun h =>
  ((C109_names_iff_partial true .psnr).1.1 h).2 ⟨rfl, .inr (.inl rfl)⟩

/-- **C109, refuted** for chromatic metrics and for SNR. -/
theorem C109_refuted : (∀ c, c = .rmse ∨ c = .psnr ∨ c = .fsim → storedName true c ≠ some (printedName c)) ∧
    ∀ chromatic, storedName chromatic .snr ≠ some (printedName .snr) := by
  constructor
  · intro c hc
    rcases hc with h | h | h <;> subst h <;> decide +kernel
  · intro b; cases b <;> decide +kernel

example : storedName false .vif = some (printedName .vif) := by decide +kernel

end Print

/-! ### C110 -/

theorem count_decimal (n : Nat) : (decimal n).count '_' = 0 := by
  rw [List.count_eq_zero]
  intro h
  exact absurd (decimal_isDigit n _ h) (by decide)

theorem append_decimal_inj (a b : Txt) (n k : Nat) (h : a ++ '_' :: decimal n = b ++ '_' :: decimal k) : a = b ∧ n = k := by
  have h1 : ∀ m : Nat, '_' ∉ decimal m := fun m hm => absurd (decimal_isDigit m _ hm) (by decide)
  have h2 := splitLast_append '_' a (decimal n) (h1 n)
  have h3 := splitLast_append '_' b (decimal k) (h1 k)
  rw [h, h3] at h2
  simp only [Option.some.injEq, Prod.mk.injEq, List.cons.injEq, true_and] at h2
  exact ⟨h2.1.symm, (decimal_inj h2.2).symm⟩

theorem png_digit (a : Txt) (n : Nat) (b : Txt) (h : a ++ decimal n = b ++ ['n']) : False := by
  have h2 := congrArg List.getLast? h
  rw [List.getLast?_append_of_ne_nil _ (decimal_ne_nil n), List.getLast?_append_of_ne_nil _ (by simp)] at h2
  have hm := List.mem_of_getLast? h2
  exact absurd (decimal_isDigit n _ hm) (by decide)

/-- The part in front of the base name. -/
def projectPart (project : Option Txt) : Txt := match project with
  | none => []
  | some p => p ++ ['_']

theorem reportName_eq (project : Option Txt) (base : Txt) : reportName project base = projectPart project ++ base := by
  cases project <;> simp [reportName, projectPart]

theorem projectPart_inj (p q : Option Txt) (h : projectPart p = projectPart q) : p = q := by
  cases p <;> cases q <;> simp_all [projectPart]

theorem base_results : ReportFile.results.base = ['r', 'e', 's', 'u', 'l', 't', 's'] ++ '.' :: ['c', 's', 'v'] := by decide +kernel
theorem base_metadata : ReportFile.metadata.base = ['m', 'e', 't', 'a', 'd', 'a', 't', 'a'] ++ '.' :: ['t', 'x', 't'] := by decide +kernel
theorem base_comparison : ReportFile.comparison.base = ['i', 'm', 'a', 'g', 'e', '_', 'c', 'o', 'm', 'p', 'a', 'r', 'i', 's', 'o', 'n'] ++ '.' :: ['p', 'n', 'g'] := by decide +kernel
theorem image_stem : "image_comparison_".toList = ['i', 'm', 'a', 'g', 'e', '_', 'c', 'o', 'm', 'p', 'a', 'r', 'i', 's', 'o', 'n'] ++ ['_'] := by decide +kernel
theorem png_text : ".png".toList = '.' :: ['p', 'n', 'g'] := by decide +kernel
theorem base_image (n : Nat) : (ReportFile.image n).base =
    (['i', 'm', 'a', 'g', 'e', '_', 'c', 'o', 'm', 'p', 'a', 'r', 'i', 's', 'o', 'n'] ++ '_' :: decimal n) ++ '.' :: ['p', 'n', 'g'] := by
  have : (ReportFile.image n).base = ("image_comparison_".toList ++ decimal n) ++ ".png".toList := rfl
  rw [this, image_stem, png_text]
  simp only [List.append_assoc, List.cons_append, List.nil_append]

theorem base_split_image (n : Nat) (a : Txt) : a ++ (ReportFile.image n).base =
    ((a ++ ['i', 'm', 'a', 'g', 'e', '_', 'c', 'o', 'm', 'p', 'a', 'r', 'i', 's', 'o', 'n']) ++ '_' :: decimal n) ++ ['.', 'p', 'n', 'g'] := by
  rw [base_image]
  simp only [List.append_assoc]

theorem base_split_comparison (a : Txt) : a ++ ReportFile.comparison.base =
    ((a ++ ['i', 'm', 'a', 'g', 'e', '_', 'c', 'o', 'm', 'p', 'a', 'r', 'i', 's', 'o']) ++ ['n']) ++ ['.', 'p', 'n', 'g'] := by
  rw [base_comparison]
  simp only [List.append_assoc, List.cons_append, List.nil_append]

/-- Last character of a name. -/
def ReportFile.lastChar : ReportFile → Char
  | .results => 'v'
  | .metadata => 't'
  | .image _ => 'g'
  | .comparison => 'g'

theorem base_last (k : ReportFile) (a : Txt) : (a ++ k.base).getLast? = some k.lastChar := by
  have hne : k.base ≠ [] := by
    cases k
    · rw [base_results]; simp
    · rw [base_metadata]; simp
    · rw [base_image]; simp
    · rw [base_comparison]; simp
  rw [List.getLast?_append_of_ne_nil _ hne]
  cases k
  · rw [base_results]; rfl
  · rw [base_metadata]; rfl
  · rw [base_image, List.getLast?_append_of_ne_nil _ (by simp)]; rfl
  · rw [base_comparison]; rfl

/-- A name determines the project and the kind of file. -/
theorem reportName_inj (p q : Option Txt) (k l : ReportFile) (h : reportName p k.base = reportName q l.base) :
    p = q ∧ k = l := by
  rw [reportName_eq, reportName_eq] at h
  have hlast := congrArg List.getLast? h
  rw [base_last, base_last] at hlast
  match k, l with
  | .results, .results => exact ⟨projectPart_inj p q (List.append_cancel_right h), rfl⟩
  | .metadata, .metadata => exact ⟨projectPart_inj p q (List.append_cancel_right h), rfl⟩
  | .comparison, .comparison => exact ⟨projectPart_inj p q (List.append_cancel_right h), rfl⟩
  | .image n, .image m =>
    rw [base_split_image, base_split_image] at h
    have h1 := append_decimal_inj _ _ _ _ (List.append_cancel_right h)
    exact ⟨projectPart_inj p q (List.append_cancel_right h1.1), by rw [h1.2]⟩
  | .image n, .comparison =>
    rw [base_split_image, base_split_comparison] at h
    have h1 := List.append_cancel_right h
    rw [show ∀ (a d : Txt), a ++ '_' :: d = (a ++ ['_']) ++ d by intro a d; simp] at h1
    exact (png_digit _ _ _ h1).elim
  | .comparison, .image n =>
    rw [base_split_image, base_split_comparison] at h
    have h1 := (List.append_cancel_right h).symm
    rw [show ∀ (a d : Txt), a ++ '_' :: d = (a ++ ['_']) ++ d by intro a d; simp] at h1
    exact (png_digit _ _ _ h1).elim
  | .results, .metadata | .results, .image _ | .results, .comparison
  | .metadata, .results | .metadata, .image _ | .metadata, .comparison
  | .image _, .results | .image _, .metadata | .comparison, .results | .comparison, .metadata =>
    simp [ReportFile.lastChar] at hlast

theorem pathJoin_inj (dir a b : Txt) (ha : a.head? ≠ some '/') (hb : b.head? ≠ some '/')
    (h : pathJoin dir a = pathJoin dir b) : a = b := by
  have key : ∀ c : Txt, c.head? ≠ some '/' → pathJoin dir c =
      if dir = [] ∨ dir.getLast? = some '/' then dir ++ c else dir ++ '/' :: c := by
    intro c hc
    unfold pathJoin
    split
    · exact absurd rfl hc
    · rfl
  rw [key a ha, key b hb] at h
  split at h
  · exact List.append_cancel_left h
  · exact (List.cons.inj (List.append_cancel_left h)).2

theorem reportName_head (p : Option Txt) (hp : ∀ t, p = some t → '/' ∉ t) (k : ReportFile) :
    (reportName p k.base).head? ≠ some '/' := by
  cases p with
  | none =>
    rw [show reportName none k.base = k.base from rfl]
    cases k
    · rw [base_results]; simp
    · rw [base_metadata]; simp
    · rw [base_image]; simp
    · rw [base_comparison]; simp
  | some t =>
    have := hp t rfl
    cases t with
    | nil => simp [reportName]
    | cons c t =>
      simp only [reportName, List.cons_append, List.head?_cons, ne_eq, Option.some.injEq]
      rintro rfl
      exact this (by simp)

/-- **C110.** Files of reports in the same directory: the path determines the project and the kind of file. So reports of
different projects never overwrite each other's files, and no report overwrites its own. -/
theorem C110_distinct (dir : Txt) (p q : Option Txt) (hp : ∀ t, p = some t → '/' ∉ t) (hq : ∀ t, q = some t → '/' ∉ t)
    (k l : ReportFile) (h : pathJoin dir (reportName p k.base) = pathJoin dir (reportName q l.base)) : p = q ∧ k = l :=
  reportName_inj p q k l (pathJoin_inj dir _ _ (reportName_head p hp k) (reportName_head q hq l) h)

example : pathJoin "out".toList (reportName (some "a".toList) (ReportFile.image 1).base) ≠
    pathJoin "out".toList (reportName (some "a".toList) (ReportFile.image 11).base) := fun h =>
  absurd (C110_distinct _ _ _ (by rintro t ⟨⟩; decide) (by rintro t ⟨⟩; decide) _ _ h).2 (by simp)

theorem basename_append (a b : Txt) (hb : '/' ∉ b) : basename (a ++ b) = basename a ++ b := by
  unfold basename
  rw [List.reverse_append, List.takeWhile_append_of_pos, List.reverse_append, List.reverse_reverse]
  intro c hc
  have : c ≠ '/' := by rintro rfl; exact hb (by simpa using hc)
  simpa using this

theorem pathExt_append (a stem ext : Txt) (h1 : '/' ∉ stem) (h2 : '/' ∉ ext) (h3 : '.' ∉ ext) (h4 : ∃ c ∈ stem, c ≠ '.') :
    pathExt (a ++ (stem ++ '.' :: ext)) = '.' :: ext := by
  unfold pathExt
  rw [basename_append _ _ (by
    simp only [List.mem_append, List.mem_cons, not_or]
    exact ⟨h1, by decide, h2⟩), ← List.append_assoc, splitext_append _ _ h3]
  obtain ⟨c, hc, hne⟩ := h4
  exact ⟨c, by simp [hc], hne⟩

/-- Extension of the files. -/
def ReportFile.ext : ReportFile → Txt
  | .results => ['c', 's', 'v']
  | .metadata => ['t', 'x', 't']
  | .image _ => ['p', 'n', 'g']
  | .comparison => ['p', 'n', 'g']

/-- **C110.** Whatever the project is called, the names pass the checks of the extension. -/
theorem C110_extension (p : Option Txt) (k : ReportFile) : pathExt (reportName p k.base) = '.' :: k.ext := by
  rw [reportName_eq]
  cases k
  · rw [base_results]
    exact pathExt_append _ _ _ (by decide) (by decide) (by decide) ⟨'r', by decide, by decide⟩
  · rw [base_metadata]
    exact pathExt_append _ _ _ (by decide) (by decide) (by decide) ⟨'m', by decide, by decide⟩
  · rename_i n
    rw [base_image]
    refine pathExt_append _ _ _ ?_ (by decide) (by decide) ⟨'i', List.mem_append_left _ (by decide), by decide⟩
    simp only [List.mem_append, not_or]
    refine ⟨by decide, fun h => ?_⟩
    rcases List.mem_cons.1 h with h | h
    · exact absurd h (by decide)
    · exact absurd (decimal_isDigit n _ h) (by decide)
  · rw [base_comparison]
    exact pathExt_append _ _ _ (by decide) (by decide) (by decide) ⟨'i', by decide, by decide⟩

example : pathJoin "out".toList (reportName (some "run.1".toList) (ReportFile.image 12).base) =
    "out/run.1_image_comparison_12.png".toList := by decide +kernel

/-! ### C111 -/

section Reports
variable {D R S : Type}

theorem writeFile_ok (dir : Txt) (project : Option Txt) (k : ReportFile) (ext : Txt) (he : ext = '.' :: k.ext)
    (c : Content D S) :
    writeFile (some dir) (reportName project k.base) ext (.ok c) =
      ([.wrote (pathJoin dir (reportName project k.base)) (some c)], .ok ()) := by
  unfold writeFile
  rw [if_neg (by rw [C110_extension, he]; simp)]

theorem writeImage_ok (dir : Txt) (hd : dir ≠ []) (project : Option Txt) (n : Nat) (d : D) (values : ODict Key S) :
    writeImage (some dir) (reportName project (ReportFile.image n).base) false (.ok d) values =
      ([.wrote (pathJoin dir (reportName project (ReportFile.image n).base)) (some (.drawing d values))], .ok ()) := by
  unfold writeImage
  simp only
  rw [if_neg (by rw [C110_extension, png_text]; simp [ReportFile.ext])]
  cases dir with
  | nil => exact absurd rfl hd
  | cons c dir => rfl

/-- The effects of the images of pairs, each with a drawing and its values. -/
def imageEffects (dir : Txt) (project : Option Txt) (num : Nat) (ds : List (D × ODict Key S)) : List (Effect D S) :=
  (ds.zipIdx num).map (fun x => .wrote (pathJoin dir (reportName project (ReportFile.image x.2).base))
    (some (.drawing x.1.1 x.1.2)))

theorem reportImages_ok (draw : Pair → Option R → Py D) (obj : BatchObj R S) (g : Option R) (dir : Txt) (hd : dir ≠ [])
    (project : Option Txt) (ps : List Pair) (num : Nat) :
    ((reportImages draw obj g (some dir) project ps num).2 = .ok () ↔
      ∀ (i : Nat) p, ps[i]? = some p → ∃ roi values d, pairRoi g obj.rois (num + i) = .ok roi ∧
        ODict.get obj.results (decimal (num + i)) = .ok values ∧ draw p roi = .ok d) ∧
    ((reportImages draw obj g (some dir) project ps num).2 = .ok () →
      ∃ ds, ds.length = ps.length ∧
        (reportImages draw obj g (some dir) project ps num).1 = imageEffects dir project num ds ∧
        ∀ (i : Nat) p, ps[i]? = some p → ∃ roi x, ds[i]? = some x ∧ pairRoi g obj.rois (num + i) = .ok roi ∧
          ODict.get obj.results (decimal (num + i)) = .ok x.2 ∧ draw p roi = .ok x.1) := by
  induction ps generalizing num with
  | nil => exact ⟨by simp [reportImages], fun _ => ⟨[], rfl, rfl, by simp⟩⟩
  | cons p ps ih =>
    unfold reportImages Eff.seq
    cases hr : pairRoi g obj.rois num with
    | error e =>
      simp only [reduceCtorEq, false_iff, false_imp_iff, and_true]
      intro h
      obtain ⟨roi, _, _, h1, _⟩ := h 0 p rfl
      rw [Nat.add_zero, hr] at h1
      cases h1
    | ok roi =>
      cases hv : ODict.get obj.results (decimal num) with
      | error e =>
        simp only [reduceCtorEq, false_iff, false_imp_iff, and_true]
        intro h
        obtain ⟨_, v, _, _, h1, _⟩ := h 0 p rfl
        rw [Nat.add_zero, hv] at h1
        cases h1
      | ok values =>
        cases hdr : draw p roi with
        | error e =>
          simp only [hdr, writeImage, reduceCtorEq, false_iff, false_imp_iff, and_true]
          intro h
          obtain ⟨roi', _, d, h0, _, h1⟩ := h 0 p rfl
          rw [Nat.add_zero, hr] at h0
          cases h0
          rw [hdr] at h1
          cases h1
        | ok d =>
          simp only [hdr, writeImage_ok dir hd]
          obtain ⟨ih1, ih2⟩ := ih (num + 1)
          constructor
          · rw [ih1]
            constructor
            · intro h i q hq
              cases i with
              | zero => cases hq; exact ⟨roi, values, d, hr, hv, hdr⟩
              | succ i =>
                have := h i q (by simpa using hq)
                rwa [show num + 1 + i = num + (i + 1) by omega] at this
            · intro h i q hq
              have := h (i + 1) q (by simpa using hq)
              rwa [show num + (i + 1) = num + 1 + i by omega] at this
          · intro h
            obtain ⟨ds, hl, he, hx⟩ := ih2 h
            refine ⟨(d, values) :: ds, by simp [hl], ?_, ?_⟩
            · rw [he]; rfl
            · intro i q hq
              cases i with
              | zero => cases hq; exact ⟨roi, (d, values), rfl, hr, hv, hdr⟩
              | succ i =>
                have := hx i q (by simpa using hq)
                rw [show num + 1 + i = num + (i + 1) by omega] at this
                simpa using this

variable {L I : Type} (env : BatchEnv L I R) (metrics : List (BMetric I S)) (g : Option R)
  (rois : Option (List (Option R)))

/-- **C111, partial.** After a successful calculation of at least one pair, a report into a named directory writes
exactly the files it was asked for, each with its content (the table of C65, the parameters, one drawing per pair), shows
and prints nothing, and succeeds if the drawings and the parameters can be made. Missing: no directory
(`C111_none_refuted`, documented to mean the working directory). -/
theorem C111_batch_partial (names : List Pair) (join : Txt → Txt) (hne : names ≠ []) (results : ODict Txt (ODict Key S))
    (st : BatchState L S)
    (h0 : results = [] ∨ results.map Prod.fst = (List.range names.length).map decimal)
    (h : batchCalculate env metrics g rois (names.map (fun p => ⟨join p.reference, join p.modified⟩)) results = .ok st)
    (entries : List MetaEntry) (draw : Pair → Option R → Py D)
    (hdraw : ∀ (i : Nat) p, names[i]? = some p → ∃ roi d, pairRoi g rois i = .ok roi ∧ draw p roi = .ok d)
    (csv metadata image : Bool) (dir : Txt) (hd : dir ≠ []) (project : Option Txt) :
    ∃ header rows ds, exportBatch names st.results = .ok (header, rows) ∧ ds.length = names.length ∧
      (∀ (i : Nat) p, names[i]? = some p → ∃ roi x, ds[i]? = some x ∧ pairRoi g rois i = .ok roi ∧
        ODict.get st.results (decimal i) = .ok x.2 ∧ draw p roi = .ok x.1) ∧
      batchReport draw ⟨names, rois, st.results, .ok entries, some g⟩ csv metadata image (some dir) project =
        ((if csv then [.wrote (pathJoin dir (reportName project ReportFile.results.base)) (some (.table header rows))] else []) ++
         (if metadata then [.wrote (pathJoin dir (reportName project ReportFile.metadata.base)) (some (.parameters entries))] else []) ++
         (if image then imageEffects dir project 0 ds else []), .ok ()) := by
  obtain ⟨header, rows, ht, -, hrows⟩ := C65_rows env metrics g rois names join hne results st h0 h
  obtain ⟨r1, r2⟩ := reportImages_ok draw (⟨names, rois, st.results, .ok entries, some g⟩ : BatchObj R S) g dir hd project names 0
  have hok := r1.2 (by
    intro i p hp
    obtain ⟨roi, d, ha, hb⟩ := hdraw i p hp
    obtain ⟨v, hv, -⟩ := hrows i p hp
    rw [Nat.zero_add]
    exact ⟨roi, v, d, ha, hv, hb⟩)
  obtain ⟨ds, hl, he, hx⟩ := r2 hok
  refine ⟨header, rows, ds, ht, hl, ?_, ?_⟩
  · intro i p hp
    simpa using hx i p hp
  · have hfull : reportImages draw (⟨names, rois, st.results, .ok entries, some g⟩ : BatchObj R S) g (some dir) project names 0 =
        (imageEffects dir project 0 ds, .ok ()) := Prod.ext he hok
    unfold batchReport
    simp only [ht, Except.map, hfull]
    rw [writeFile_ok dir project .results _ (by decide +kernel), writeFile_ok dir project .metadata _ (by decide +kernel)]
    cases csv <;> cases metadata <;> cases image <;> simp [Eff.seq, Eff.only]

/-- **C111, refuted** for a report without directory: it does not save anything. Tables and metadata raise TypeError,
images are shown. -/
theorem C111_none_refuted (draw : Pair → Option R → Py D) (obj : BatchObj R S) (csv metadata image : Bool)
    (project : Option Txt) :
    (csv = true ∨ metadata = true → ∃ msg, batchReport draw obj csv metadata image none project = ([], .error (.typeError msg))) ∧
    ∀ path c, Effect.wrote path c ∉ (batchReport draw obj csv metadata image none project).1 := by
  have hw : ∀ (k : ReportFile) (ext : Txt) (he : ext = '.' :: k.ext) (c : Py (Content D S)),
      writeFile none (reportName project k.base) ext c =
        ([], .error (.typeError "expected str, bytes or os.PathLike object, not NoneType")) := by
    intro k ext he c
    unfold writeFile
    rw [if_neg (by rw [C110_extension, he]; simp)]
  have h1 := hw .results ".csv".toList (by decide +kernel)
  have h2 := hw .metadata ".txt".toList (by decide +kernel)
  have himg : ∀ (gr : Option R) (ps : List Pair) (num : Nat) path c,
      Effect.wrote path c ∉ (reportImages draw obj gr none project ps num).1 := by
    intro gr ps
    induction ps with
    | nil => intro num path c; simp [reportImages]
    | cons p ps ih =>
      intro num path c
      unfold reportImages Eff.seq
      split
      · split
        · simp
        · split
          · simp
          · unfold writeImage
            split
            · simp
            · split <;> simp
      · rw [List.mem_append, not_or]
        refine ⟨?_, ih (num + 1) path c⟩
        split
        · simp
        · split
          · simp
          · unfold writeImage
            split
            · simp
            · split <;> simp
  constructor
  · intro h
    refine ⟨"expected str, bytes or os.PathLike object, not NoneType", ?_⟩
    unfold batchReport
    rw [h1, h2]
    cases csv <;> cases metadata <;> simp_all [Eff.seq, Eff.only]
  · intro path c
    unfold batchReport
    rw [h1, h2]
    cases csv <;> cases metadata <;> cases image <;> simp [Eff.seq, Eff.only]
    split
    · simp
    · exact himg _ _ _ _ _

/-- **C111, refuted** for a report before the calculation: the results file is opened, and so emptied, before the missing
results raise KeyError. -/
theorem C111_before_refuted (draw : Pair → Option R → Py D) (pairs : List Pair) (entries : Py (List MetaEntry))
    (gr : Option (Option R)) (metadata image : Bool) (dir : Txt) (project : Option Txt) :
    batchReport (S := S) draw ⟨pairs, rois, [], entries, gr⟩ true metadata image (some dir) project =
      ([.wrote (pathJoin dir (reportName project ReportFile.results.base)) none], .error (.keyError "")) := by
  unfold batchReport
  have : exportBatch pairs ([] : ODict Txt (ODict Key S)) = .error (.keyError "") := rfl
  simp only [this, Except.map]
  have hw : writeFile (D := D) (S := S) (some dir) (reportName project ReportFile.results.base) ".csv".toList (.error (.keyError "")) =
      ([.wrote (pathJoin dir (reportName project ReportFile.results.base)) none], .error (.keyError "")) := by
    unfold writeFile
    rw [if_neg (by rw [C110_extension]; decide +kernel)]
  rw [hw]
  rfl

/-- **C111, partial.** `MultipleMetrics`: a report into a named directory writes exactly the files it was asked for; the
image is shown, and saved as well if asked for. -/
theorem C111_multiple_partial (d : D) (results : ODict Key S) (entries : List MetaEntry)
    (csv metadata text image saveImage : Bool) (dir : Txt) (hd : dir ≠ []) (project : Option Txt) :
    multipleReport (some (.ok d)) results (.ok entries) csv metadata text image saveImage (some dir) project =
      ((if text then [.printed results] else []) ++
       (if image then (if saveImage then [.wrote (pathJoin dir (reportName project ReportFile.comparison.base))
          (some (.drawing d results))] else []) ++ [.shown d results] else []) ++
       (if csv then [.wrote (pathJoin dir (reportName project ReportFile.results.base))
          (some (.table (results.map (fun e => .key e.1)) [results.map (fun e => .value e.2)]))] else []) ++
       (if metadata then [.wrote (pathJoin dir (reportName project ReportFile.metadata.base))
          (some (.parameters entries))] else []), .ok ()) := by
  unfold multipleReport
  simp only [Except.map]
  rw [writeFile_ok dir project .results _ (by decide +kernel), writeFile_ok dir project .metadata _ (by decide +kernel)]
  have hi : writeImage (if saveImage = true then some dir else none) (reportName project ReportFile.comparison.base) true (.ok d) results =
      ((if saveImage then [Effect.wrote (pathJoin dir (reportName project ReportFile.comparison.base))
          (some (.drawing d results))] else []) ++ [.shown d results], .ok ()) := by
    unfold writeImage
    simp only
    rw [if_neg (by rw [C110_extension, png_text]; simp [ReportFile.ext])]
    cases saveImage with
    | false => rfl
    | true => cases dir with
      | nil => exact absurd rfl hd
      | cons c dir => rfl
  rw [hi]
  cases csv <;> cases metadata <;> cases text <;> cases image <;> simp [Eff.seq, Eff.only]

example : (multipleReport (some (.ok 7)) [(some "T", (1 : Rat))] (.ok []) true false false false false (some ['d']) none) =
    ([.wrote (pathJoin ['d'] (reportName none ReportFile.results.base)) (some (.table [.key (some "T")] [[.value 1]]))], .ok ()) := by
  rw [C111_multiple_partial _ _ _ _ _ _ _ _ _ (by decide)]
  rfl

/-- **C111, refuted** for `MultipleMetrics`: without the images nothing is written, also not the table and the metadata. -/
theorem C111_multiple_refuted (results : ODict Key S) (entries : Py (List MetaEntry))
    (csv metadata text saveImage : Bool) (dir project : Option Txt) (path : Txt) (c : Option (Content D S)) :
    Effect.wrote path c ∉ (multipleReport none results entries csv metadata text true saveImage dir project).1 ∧
    (multipleReport (D := D) none results entries csv metadata text true saveImage dir project).2 =
      .error (.valueError "Reference and modified image must be provided.") := by
  unfold multipleReport
  cases text <;> simp [Eff.seq, Eff.only]

end Reports

/-! ### C112 -/

section Shown
variable (resize : NDArray Rat → List Nat → NDArray Rat) (cast : DType → Rat → Rat) (disk : Txt → Py (Image Rat))

/-- The planes of two images. -/
def planesOf (x y z : Option Int) (im : Image Rat × Image Rat) : Py (NDArray Rat × NDArray Rat) := do
  let p ← exportPlane im.1.arr x y z
  let q ← exportPlane im.2.arr x y z
  .ok (p, q)

theorem prepImages_plain (a b : Image Rat) (roi : Option Roi) (x : Image Rat × Image Rat)
    (h : (prepImages resize cast disk {} a b roi).val = .ok x) :
    (match roi with
      | none => (checkImgs disk (.array a) (.array (resizeImage resize cast a b)) {} false).val
      | some q => do
        let ca ← (cropImage a.arr q.x q.y q.z).val
        let cb ← (cropImage (resizeImage resize cast a b).arr q.x q.y q.z).val
        (checkImgs disk (.array ⟨a.dtype, ca⟩) (.array ⟨(resizeImage resize cast a b).dtype, cb⟩) {} false).val) = .ok x := by
  unfold prepImages at h
  rw [PyW.bind_val_ok_iff] at h
  obtain ⟨lr, h1, h⟩ := h
  rw [PyW.bind_val_ok_iff] at h
  obtain ⟨lm, h2, h⟩ := h
  obtain ⟨a', ha'⟩ := loadData_array_single disk {} a lr h1
  obtain ⟨b', hb'⟩ := loadData_array_single disk {} b lm h2
  subst ha' hb'
  have e1 := loadData_plain disk {} rfl rfl a a' h1
  have e2 := loadData_plain disk {} rfl rfl b b' h2
  subst e1 e2
  cases roi with
  | none => exact h
  | some q =>
    simp only at h ⊢
    rw [PyW.bind_val_ok_iff] at h
    obtain ⟨ca, h3, h⟩ := h
    rw [PyW.bind_val_ok_iff] at h
    obtain ⟨cb, h4, h⟩ := h
    rw [h3, h4]
    exact h

/-- Drawing a pair shows planes of the images that a calculation without loading parameters hands to the metrics. -/
theorem exportImage_prep (r m : Txt) (a b : Image Rat) (roi : Option Roi) (x : Image Rat × Image Rat)
    (hr : loadImage disk {} r = .ok a) (hm : loadImage disk {} m = .ok b)
    (h : (prepImages resize cast disk {} a b roi).val = .ok x) (i j k : Option Int) (hd : a.arr.ndim = b.arr.ndim) :
    exportImage resize cast disk r m roi i j k = planesOf i j k x := by
  have hp := prepImages_plain resize cast disk a b roi x h
  unfold exportImage
  simp only [hr, hm, bind, Except.bind]
  rw [if_neg (by simpa using hd)]
  cases roi with
  | none =>
    simp only at hp ⊢
    unfold exportPair planesOf
    rw [hp]
    rfl
  | some q =>
    simp only [bind, Except.bind] at hp ⊢
    cases hc : (cropImage a.arr q.x q.y q.z).val with
    | error e => rw [hc] at hp; cases hp
    | ok ca =>
      rw [hc] at hp
      simp only at hp ⊢
      cases hc2 : (cropImage (resizeImage resize cast a b).arr q.x q.y q.z).val with
      | error e => rw [hc2] at hp; cases hp
      | ok cb =>
        rw [hc2] at hp
        simp only at hp ⊢
        unfold exportPair planesOf
        rw [hp]
        rfl

theorem exportImage_ndim (r m : Txt) (a b : Image Rat) (roi : Option Roi) (i j k : Option Int) (d : NDArray Rat × NDArray Rat)
    (hr : loadImage disk {} r = .ok a) (hm : loadImage disk {} m = .ok b)
    (h : exportImage resize cast disk r m roi i j k = .ok d) : a.arr.ndim = b.arr.ndim := by
  unfold exportImage at h
  simp only [hr, hm, bind, Except.bind] at h
  by_contra hne
  rw [if_pos hne] at h
  cases h

/-- **C112, partial.** After a calculation without loading parameters and with compatible regions (as in C63), a report
with images into a directory, if it succeeds, saves for every pair an image that shows planes of exactly those images that
are scored for this pair alone, together with their scores. Missing: identical neighbouring pairs with different regions
(`C112_refuted`), loading parameters, and `MultipleMetrics` (`C112_multiple_refuted`). -/
theorem C112_shown_scored_partial {S : Type} (metrics : List (BMetric (Image Rat) S))
    (hnd : (metrics.flatMap metricKeys).Nodup) (g : Option Roi) (rois : Option (List (Option Roi))) (join : Txt → Txt)
    (names : List Pair) (regions : List (Option Roi)) (hlen : regions.length = names.length)
    (hroi : ∀ (i : Nat) q, regions[i]? = some q → pairRoi g rois i = .ok q)
    (hchain : ((names.map (fun p => (⟨join p.reference, join p.modified⟩ : Pair))).zip regions).IsChain
      (Compatible (packageEnv resize cast disk {})))
    (results : ODict Txt (ODict Key S)) (st : BatchState (Image Rat) S)
    (h : batchCalculate (packageEnv resize cast disk {}) metrics g rois
      (names.map (fun p => ⟨join p.reference, join p.modified⟩)) results = .ok st)
    (i j k : Option Int) (entries : Py (List MetaEntry)) (csv metadata : Bool) (dir : Txt) (hd : dir ≠ []) (project : Option Txt)
    (effects : List (Effect (NDArray Rat × NDArray Rat) S))
    (hrep : batchReport (fun p roi => exportImage resize cast disk (join p.reference) (join p.modified) roi i j k)
      ⟨names, rois, st.results, entries, some g⟩ csv metadata true (some dir) project = (effects, .ok ()))
    (n : Nat) (p : Pair) (hp : names[n]? = some p) :
    ∃ a b x values drawing, loadImage disk {} (join p.reference) = .ok a ∧ loadImage disk {} (join p.modified) = .ok b ∧
      (prepImages resize cast disk {} a b (regions.getD n none)).val = .ok x ∧
      metricLoop x.1 x.2 none none metrics [] = .ok values ∧ planesOf i j k x = .ok drawing ∧
      Effect.wrote (pathJoin dir (reportName project (ReportFile.image n).base)) (some (.drawing drawing values)) ∈ effects := by
  have hn : n < names.length := (List.getElem?_eq_some_iff.1 hp).1
  obtain ⟨q, hq⟩ : ∃ q, regions[n]? = some q := ⟨_, List.getElem?_eq_getElem (by omega)⟩
  have hfst : ((names.map (fun p => (⟨join p.reference, join p.modified⟩ : Pair))).zip regions).map Prod.fst =
      names.map (fun p => (⟨join p.reference, join p.modified⟩ : Pair)) := by
    rw [List.map_fst_zip]
    simp [hlen]
  have hwork : ∀ (i : Nat) x, ((names.map (fun p => (⟨join p.reference, join p.modified⟩ : Pair))).zip regions)[i]? = some x →
      pairRoi g rois i = .ok x.2 := by
    intro i x hx
    rw [List.getElem?_zip_eq_some] at hx
    exact hroi i x.2 hx.2
  have hsolo := (C63_individual_partial (packageEnv resize cast disk {}) metrics g rois hnd _ hwork hchain results).2 st
    (by rw [hfst]; exact h) n (⟨join p.reference, join p.modified⟩, q) (by
      rw [List.getElem?_zip_eq_some]
      exact ⟨by rw [List.getElem?_map, hp]; rfl, hq⟩)
  -- the images of the report
  have himg : (reportImages (fun p roi => exportImage resize cast disk (join p.reference) (join p.modified) roi i j k)
      (⟨names, rois, st.results, entries, some g⟩ : BatchObj Roi S) g (some dir) project names 0).2 = .ok () ∧
      ∀ e ∈ (reportImages (fun p roi => exportImage resize cast disk (join p.reference) (join p.modified) roi i j k)
      (⟨names, rois, st.results, entries, some g⟩ : BatchObj Roi S) g (some dir) project names 0).1, e ∈ effects := by
    unfold batchReport Eff.seq at hrep
    split at hrep
    · cases hrep
    · split at hrep
      · cases hrep
      · simp only [Eff.only, if_true] at hrep
        injection hrep with h1 h2
        refine ⟨h2, fun e he => ?_⟩
        rw [← h1]
        exact List.mem_append_right _ (List.mem_append_right _ he)
  obtain ⟨ds, hl, he, hx⟩ := (reportImages_ok (fun p roi => exportImage resize cast disk (join p.reference) (join p.modified) roi i j k)
    (⟨names, rois, st.results, entries, some g⟩ : BatchObj Roi S) g dir hd project names 0).2 himg.1
  obtain ⟨roi, y, hy, hroi', hval, hdraw⟩ := hx n p hp
  rw [Nat.zero_add] at hroi' hval
  simp only at hroi' hval hdraw
  have hrq := hroi n q hq
  rw [hroi'] at hrq
  cases hrq
  rw [hval] at hsolo
  unfold soloResult at hsolo
  simp only [packageEnv] at hsolo
  cases ha : loadImage disk {} (join p.reference) with
  | error e => rw [ha] at hsolo; cases hsolo
  | ok a =>
    cases hb : loadImage disk {} (join p.modified) with
    | error e => rw [ha, hb] at hsolo; cases hsolo
    | ok b =>
      rw [ha, hb] at hsolo
      simp only [calcPair] at hsolo
      cases hpr : (prepImages resize cast disk {} a b q).val with
      | error e => rw [hpr] at hsolo; cases hsolo
      | ok x =>
        rw [hpr] at hsolo
        have hdim := exportImage_ndim resize cast disk _ _ a b q i j k y.1 ha hb hdraw
        rw [exportImage_prep resize cast disk _ _ a b q x ha hb hpr i j k hdim] at hdraw
        refine ⟨a, b, x, y.2, y.1, rfl, rfl, ?_, hsolo.symm, hdraw, ?_⟩
        · rw [List.getD_eq_getElem?_getD, hq]; exact hpr
        · apply himg.2
          rw [he]
          unfold imageEffects
          refine List.mem_map.2 ⟨(y, n), ?_, rfl⟩
          rw [List.mem_zipIdx_iff_getElem?]
          simpa using hy

/-- The claim: what is saved for a pair are the values of the images shown. -/
def ShownScored (resize : NDArray Rat → List Nat → NDArray Rat) (cast : DType → Rat → Rat)
    (disk : Txt → Py (Image Rat)) : Prop :=
  ∀ (metrics : List (BMetric (Image Rat) Rat)), (metrics.flatMap metricKeys).Nodup →
  ∀ (g : Option Roi) (rois : Option (List (Option Roi))) (pairs : List Pair) st,
    batchCalculate (packageEnv resize cast disk {}) metrics g rois pairs [] = .ok st →
  ∀ (dir : Txt) (i j k : Option Int) (n : Nat) (path : Txt) (d : NDArray Rat × NDArray Rat) (values : ODict Key Rat),
    path = pathJoin dir (reportName none (ReportFile.image n).base) →
    Effect.wrote path (some (.drawing d values)) ∈
      (batchReport (fun p roi => exportImage resize cast disk p.reference p.modified roi i j k)
        ⟨pairs, rois, st.results, .ok [], some g⟩ false false true (some dir) none).1 →
    ∃ p roi, pairs[n]? = some p ∧ exportImage resize cast disk p.reference p.modified roi i j k = .ok d ∧
      pairRoi g rois n = .ok roi ∧ soloResult (packageEnv resize cast disk {}) metrics p roi = .ok values

end Shown

/-- Saved values of the second image of a report. -/
def reportWitnessValues : Option (List Rat) :=
  match batchCalculate BatchWitness.env [BatchWitness.total] none (some [BatchWitness.left, BatchWitness.right]) BatchWitness.pairsSame [] with
  | .error _ => none
  | .ok st =>
    match (batchReport (fun p roi => exportImage BatchWitness.nearest (fun _ v => v) BatchWitness.files p.reference p.modified roi none none none)
      ⟨BatchWitness.pairsSame, some [BatchWitness.left, BatchWitness.right], st.results, .ok [], some none⟩ false false true (some ['d']) none).1 with
    | [_, .wrote path (some (.drawing _ values))] =>
      if path = pathJoin ['d'] (reportName none (ReportFile.image 1).base) then some (values.map Prod.snd) else none
    | _ => none

theorem reportWitness_values : reportWitnessValues = some [1, 2] := by decide +kernel

/-- **C112, refuted** for identical neighbouring pairs with different regions: the image shows the region of the second
pair, the values below it are those of the first region. -/
theorem C112_refuted : ¬ ∀ resize cast disk, ShownScored resize cast disk := by
  intro h
  have hw := reportWitness_values
  unfold reportWitnessValues at hw
  split at hw
  · cases hw
  · rename_i st hst
    split at hw
    · rename_i e path d values heff
      split at hw
      · rename_i hpath
        obtain ⟨p, roi, hp, -, hroi, hsolo⟩ := h BatchWitness.nearest (fun _ v => v) BatchWitness.files [BatchWitness.total]
          (by decide) none (some [BatchWitness.left, BatchWitness.right]) BatchWitness.pairsSame st hst ['d'] none none none 1
          path d values hpath (by rw [heff]; simp)
        cases hp
        cases hroi
        have := BatchWitness.region_solo
        rw [show soloResult BatchWitness.env [BatchWitness.total] ⟨['a'], ['m']⟩ BatchWitness.right = .ok values from hsolo] at this
        simp only [BatchWitness.values, Option.some.injEq] at this hw
        rw [hw] at this
        simp at this
      · cases hw
    · cases hw

/-- **C112, refuted** for `MultipleMetrics`: the report does not know the region of the calculation. For every loaded pair
of two-dimensional images of equal shape and type and every region strictly inside, the image shown by default has another
shape than the images scored. -/
theorem C112_multiple_refuted (resize : NDArray Rat → List Nat → NDArray Rat) (cast : DType → Rat → Rat)
    (disk : Txt → Py (Image Rat)) (r m : Txt) (a b : Image Rat) (n0 n1 : Nat)
    (hr : loadImage disk {} r = .ok a) (hm : loadImage disk {} m = .ok b) (ha : a.arr.shape = [n0, n1])
    (hb : b.arr.shape = [n0, n1]) (hc : n1 ≠ 3) (q : Roi) (x : Image Rat × Image Rat)
    (hx : (prepImages resize cast disk {} a b (some q)).val = .ok x) (hq : q.x.len < n0 ∧ q.y.len < n1)
    (hq0 : 0 ≤ q.x.1 ∧ q.x.1 ≤ q.x.2) (i j k : Option Int)
    (d : NDArray Rat × NDArray Rat) (hd : exportImage resize cast disk r m none i j k = .ok d) :
    x.1.arr.shape ≠ d.1.shape := by
  -- the image shown
  have hshown : d.1.shape = [n0, n1] := by
    unfold exportImage at hd
    simp only [hr, hm, bind, Except.bind] at hd
    rw [if_neg (by simp [NDArray.ndim, ha, hb])] at hd
    unfold exportPair at hd
    simp only [bind, Except.bind] at hd
    split at hd
    · cases hd
    · rename_i im him
      obtain ⟨⟨l, hl1, hl2⟩, -⟩ := checkImgs_each disk {} _ _ im.1 im.2 him
      have := loadData_plain disk {} rfl rfl a l hl1
      subst this
      have him1 : im.1 = l := by
        rw [hl2, if_neg]
        simp [NDArray.lastDim, ha, hc]
      split at hd
      · cases hd
      · rename_i p hp
        split at hd
        · cases hd
        · cases hd
          unfold exportPlane at hp
          rw [him1, if_pos (Or.inl (by simp [NDArray.ndim, ha]))] at hp
          cases hp
          exact ha
  -- the image scored
  have hp := prepImages_plain resize cast disk a b (some q) x hx
  simp only [bind, Except.bind] at hp
  have hcrop : (cropImage a.arr q.x q.y q.z).val = .ok (sliceArray a.arr [q.x, q.y]) := by
    unfold cropImage
    rw [ha]
    simp only
    rw [if_pos hq]
    cases q.z <;> rfl
  rw [hcrop] at hp
  simp only at hp
  split at hp
  · cases hp
  · obtain ⟨⟨l, hl1, hl2⟩, -⟩ := checkImgs_each disk {} _ _ x.1 x.2 hp
    have hlp := loadData_plain disk {} rfl rfl _ l hl1
    have hls : l.arr.shape = [(sliceRange n0 q.x.1 q.x.2).2, (sliceRange n1 q.y.1 q.y.2).2] := by
      rw [hlp]
      simp [sliceArray, ha]
    have hlen : (sliceRange n0 q.x.1 q.x.2).2 < n0 := by
      have h1 := hq.1
      unfold Range.len at h1
      unfold sliceRange sliceBound
      simp only
      rw [if_neg (by omega), if_neg (by omega)]
      omega
    rw [hl2, hshown]
    intro hEq
    split at hEq
    · simp [toGrayscale, hls] at hEq
    · rw [hls] at hEq
      simp only [List.cons.injEq] at hEq
      omega

/-- Non-trivial case of C111: two pairs, results and images asked for. -/
example : (batchReport (fun p _ => (.ok p : Py Pair)) (⟨[⟨['a'], ['m']⟩, ⟨['b'], ['m']⟩], none,
    [(['0'], [(some "T", (1 : Rat))]), (['1'], [(some "T", 2)])], .ok [], some none⟩ : BatchObj Roi Rat)
    true false true (some ['d']) (some ['p'])).1.length = 3 := by decide +kernel

/-- C111 after the calculation of two pairs. -/
example : ∃ st ds, batchCalculate ToyBatch.env ToyBatch.metrics none none ToyBatch.pairs [] = .ok st ∧ ds.length = 2 ∧
    batchReport (fun p _ => (.ok p : Py Pair)) (⟨ToyBatch.pairs, none, st.results, .ok [], some none⟩ : BatchObj Unit Nat) false false true (some ['d']) none =
      (imageEffects ['d'] none 0 ds, .ok ()) := by
  obtain ⟨st, hst⟩ : ∃ st, batchCalculate ToyBatch.env ToyBatch.metrics none none ToyBatch.pairs [] = .ok st := by
    have : (batchCalculate ToyBatch.env ToyBatch.metrics none none ToyBatch.pairs []).toBool = true := by decide +kernel
    cases h : batchCalculate ToyBatch.env ToyBatch.metrics none none ToyBatch.pairs [] with
    | error e => rw [h] at this; cases this
    | ok st => exact ⟨st, rfl⟩
  obtain ⟨header, rows, ds, -, hl, -, h⟩ := C111_batch_partial ToyBatch.env ToyBatch.metrics none none ToyBatch.pairs id (by decide) [] st (.inl rfl) hst []
    (fun p _ => (.ok p : Py Pair)) (fun i p _ => ⟨none, p, rfl, rfl⟩) false false true ['d'] (by decide) none
  exact ⟨st, ds, hst, hl, h⟩

/-- C112 for one pair. -/
example (st : BatchState (Image Rat) Rat)
    (h : batchCalculate BatchWitness.env [BatchWitness.total] none none [⟨['a'], ['m']⟩] [] = .ok st)
    (effects : List (Effect (NDArray Rat × NDArray Rat) Rat))
    (hrep : batchReport (fun p roi => exportImage BatchWitness.nearest (fun _ v => v) BatchWitness.files p.reference p.modified roi none none none)
      ⟨[⟨['a'], ['m']⟩], none, st.results, .ok [], some none⟩ false false true (some ['d']) none = (effects, .ok ())) :
    ∃ values drawing, Effect.wrote (pathJoin ['d'] (reportName none (ReportFile.image 0).base)) (some (.drawing drawing values)) ∈ effects := by
  obtain ⟨a, b, x, values, drawing, -, -, -, -, -, hw⟩ := C112_shown_scored_partial BatchWitness.nearest (fun _ v => v) BatchWitness.files [BatchWitness.total] (by decide)
    none none id [⟨['a'], ['m']⟩] [none] rfl (by
      intro i q hq
      have := List.mem_of_getElem? hq
      simp only [List.mem_cons, List.not_mem_nil, or_false] at this
      subst this
      rfl) (List.isChain_singleton _) [] st h none none none (.ok []) false false ['d']
    (by decide) none effects hrep 0 ⟨['a'], ['m']⟩ rfl
  exact ⟨values, drawing, hw⟩

end Viqa
