import Verif.Props.CropNoise
import Verif.Props.BorderRule
import Verif.Props.BitDepth
import Verif.Props.Locality
import Verif.Props.ColourRmse

/-! C209: what the scores of whole images say about a region of interest. -/

namespace Viqa

open Spec

/-- `x'` consists of the pixels of `x` in the ranges. -/
structure RealCrop (x x' : NDArray ℝ) (ranges : List Range) : Prop where
  inside : List.Forall₂ InsideAxis x.shape ranges
  shape : x'.shape = ranges.map (fun g => (g.2 - g.1).toNat)
  get : ∀ idx, InShape x'.shape idx → x'.get idx = x.get (fromCrop ranges idx)

theorem Cropped.real {a b : NDArray Rat} {ranges : List Range} (h : Cropped a b ranges) : RealCrop (realImage a) (realImage b) ranges :=
  ⟨h.inside, h.shape, fun idx hi => by show ((b.get idx : ℚ) : ℝ) = a.get _; rw [h.get idx hi]⟩

theorem sum_filter_split (l : List (List Nat)) (q : List Nat → Bool) (f : List Nat → ℝ) :
    (l.map f).sum = ((l.filter q).map f).sum + ((l.filter (fun i => !q i)).map f).sum := by
  induction l with
  | nil => simp
  | cons a l ih =>
    cases h : q a <;> simp [h, ih] <;> ring

variable {x y x' y' : NDArray ℝ} {ranges : List Range}

/-- Sums over the crop are sums over the pixels in the ranges. -/
theorem RealCrop.sum (h : RealCrop x x' ranges) (f : List Nat → ℝ) :
    ((indices x'.shape).map (fun i => f (fromCrop ranges i))).sum = (((indices x.shape).filter (inRanges ranges)).map f).sum := by
  have := indices_inRanges x.shape ranges h.inside (fun _ => true)
  simp only [Bool.and_true, List.filter_true] at this
  rw [show (indices x.shape).filter (fun idx => inRanges ranges idx) = (indices x.shape).filter (inRanges ranges) from rfl] at this
  rw [this, h.shape, List.map_map]
  rfl

/-- The squared errors of the image are those of the region and those of the rest. -/
theorem RealCrop.errors (h : RealCrop x x' ranges) (h' : RealCrop y y' ranges) {r r' : ℝ} (hr : rmse x y = .ok r) (hr' : rmse x' y' = .ok r') :
    x.size * r ^ 2 = x'.size * r' ^ 2 + (((indices x.shape).filter (fun i => !inRanges ranges i)).map (fun i => (x.get i - y.get i) ^ 2)).sum := by
  have comp : ∀ {u v : NDArray ℝ} {t : ℝ}, rmse u v = .ok t → Comparable u v := by
    intro u v t ht
    unfold rmse meanSquaredError at ht
    constructor
    · by_contra hc; rw [if_pos hc] at ht; cases ht
    · intro hc
      by_cases hs : u.shape = v.shape
      · rw [if_neg (not_not.2 hs), if_pos hc] at ht; cases ht
      · rw [if_pos hs] at ht; cases ht
  have value : ∀ {u v : NDArray ℝ} {t : ℝ}, rmse u v = .ok t → u.size * t ^ 2 = ((indices u.shape).map (fun i => (u.get i - v.get i) ^ 2)).sum := by
    intro u v t ht
    have hc := comp ht
    rw [rmse_eq hc] at ht
    rw [← Except.ok.inj ht, Real.sq_sqrt (mse_nonneg u v), mul_div_cancel₀]
    exact_mod_cast hc.2
  rw [value hr, value hr', sum_filter_split (indices x.shape) (inRanges ranges), ← h.sum (fun i => (x.get i - y.get i) ^ 2)]
  congr 2
  refine List.map_congr_left fun i hi => ?_
  have hi' := (mem_indices _ _).1 hi
  rw [h.get i hi', h'.get i (by rw [h'.shape, ← h.shape]; exact hi')]

/-! ### SSIM -/

theorem fromCrop_inShape {sh : List Nat} (h : List.Forall₂ InsideAxis sh ranges) :
    ∀ idx, InShape (ranges.map (fun g => (g.2 - g.1).toNat)) idx → InShape sh (fromCrop ranges idx) := by
  induction h with
  | nil => intro idx hi; cases idx <;> simp_all [InShape, fromCrop]
  | @cons n g sh gs hg _ ih =>
    intro idx hi
    cases idx with
    | nil => simp [InShape] at hi
    | cons i idx =>
      obtain ⟨g1, g2, g3⟩ := hg
      have h1 : i < (g.2 - g.1).toNat := hi.1
      exact ⟨by show i + g.1.toNat < n; omega, ih idx hi.2⟩

theorem shiftIndex_fromCrop : ∀ (ranges : List Range) (p : List Nat) (o : List Int) (idx : List Nat), p.length = ranges.length → o.length = ranges.length →
    shiftIndex p o = idx.map Int.ofNat → shiftIndex (fromCrop ranges p) o = (fromCrop ranges idx).map Int.ofNat := by
  intro ranges
  induction ranges with
  | nil =>
    intro p o idx hp ho _
    cases p <;> cases o <;> simp_all [shiftIndex, fromCrop]
  | cons g gs ih =>
    intro p o idx hp ho he
    cases p with
    | nil => simp at hp
    | cons a p =>
      cases o with
      | nil => simp at ho
      | cons b o =>
        cases idx with
        | nil => simp [shiftIndex] at he
        | cons i idx =>
          simp only [shiftIndex, List.zipWith_cons_cons, List.map_cons, List.cons.injEq] at he
          have := ih p o idx (by simpa using hp) (by simpa using ho) he.2
          show (((a + g.1.toNat : Nat) : Int) + b) :: shiftIndex (fromCrop gs p) o = Int.ofNat (i + g.1.toNat) :: (fromCrop gs idx).map Int.ofNat
          rw [this]
          have h1 := he.1
          congr 1
          simp only [Int.ofNat_eq_natCast] at h1 ⊢
          push_cast
          omega

/-- A window inside of the region is a window of the image. -/
theorem RealCrop.apply (h : RealCrop x x' ranges) (f : Filter) (pad : Nat) (hpad : f.radius ≤ pad) (p : List Nat) (hp : p ∈ cropPositions pad x'.shape) :
    f.apply x' p = f.apply x (fromCrop ranges p) := by
  have hlen : x'.shape.length = x.shape.length := by rw [h.shape, List.length_map, h.inside.length_eq]
  have hlr : x.shape.length = ranges.length := h.inside.length_eq
  unfold Filter.apply NDArray.ndim
  rw [hlen]
  refine congrArg List.sum (List.map_congr_left fun o ho => ?_)
  have hp2 := (mem_cropPositions _ _ _).1 hp
  obtain ⟨idx, h1, h2⟩ := shiftIndex_inside x'.shape p o f.radius hp2.1 (fun i hi hq => by
    have := hp2.2 i hi hq; omega) (by rw [hlen]; exact ho)
  have h3 := shiftIndex_fromCrop ranges p o idx (by rw [hp2.1, hlen, hlr]) (by rw [((mem_offsets _ _ _).1 ho).1, hlr]) h2
  unfold sample
  rw [h2, h3, extendIndices_inside f.mode x'.shape idx h1,
    extendIndices_inside f.mode x.shape _ (fromCrop_inShape h.inside idx (by rw [← h.shape]; exact h1))]
  simp only
  rw [h.get idx h1]

theorem RealCrop.zip (h : RealCrop x x' ranges) (h' : RealCrop y y' ranges) : RealCrop (NDArray.zip (· * ·) x y) (NDArray.zip (· * ·) x' y') ranges :=
  ⟨h.inside, h.shape, fun idx hi => by
    show x'.get idx * y'.get idx = x.get _ * y.get _
    have hi' : InShape x'.shape idx := hi
    rw [h.get idx hi', h'.get idx (by rw [h'.shape, ← h.shape]; exact hi')]⟩

theorem RealCrop.ssimAt (h : RealCrop x x' ranges) (h' : RealCrop y y' ranges) (big : ℝ) (f : Filter) (norm dr : ℝ) (a : SsimArgs) (pad : Nat)
    (hpad : f.radius ≤ pad) (p : List Nat) (hp : p ∈ cropPositions pad x'.shape) :
    Viqa.ssimAt big f norm dr a x' y' p = Viqa.ssimAt big f norm dr a x y (fromCrop ranges p) := by
  have hp' : p ∈ cropPositions pad y'.shape := by rw [h'.shape, ← h.shape]; exact hp
  unfold Viqa.ssimAt
  rw [h.apply f pad hpad p hp, h'.apply f pad hpad p hp', (h.zip h).apply f pad hpad p hp, (h'.zip h').apply f pad hpad p hp', (h.zip h').apply f pad hpad p hp]

theorem fromCrop_position {sh : List Nat} (h : List.Forall₂ InsideAxis sh ranges) (pad : Nat) :
    ∀ p, p ∈ cropPositions pad (ranges.map (fun g => (g.2 - g.1).toNat)) → fromCrop ranges p ∈ cropPositions pad sh := by
  intro p hp
  rw [mem_cropPositions] at hp ⊢
  obtain ⟨hl, hp⟩ := hp
  rw [List.length_map] at hl
  have hlen : (fromCrop ranges p).length = sh.length := by
    unfold fromCrop; rw [List.length_zipWith, h.length_eq, hl, min_self]
  refine ⟨hlen, fun i hi hq => ?_⟩
  have hir : i < ranges.length := by rw [← h.length_eq]; exact hi
  have := hp i (by simpa using hir) (by omega)
  obtain ⟨g1, g2, g3⟩ := h.get hi hir
  simp only [List.getElem_map, List.get_eq_getElem] at this g1 g2 g3
  have e : (fromCrop ranges p)[i] = p[i]'(by omega) + (ranges[i].1).toNat := by simp [fromCrop]
  rw [e]
  omega

theorem fromCrop_injective : ∀ (ranges : List Range) (p q : List Nat), p.length = ranges.length → q.length = ranges.length →
    fromCrop ranges p = fromCrop ranges q → p = q := by
  intro ranges
  induction ranges with
  | nil => intro p q hp hq _; rw [List.length_eq_zero_iff.1 hp, List.length_eq_zero_iff.1 hq]
  | cons g gs ih =>
    intro p q hp hq he
    cases p with
    | nil => simp at hp
    | cons a p =>
      cases q with
      | nil => simp at hq
      | cons b q =>
        simp only [fromCrop, List.zipWith_cons_cons, List.cons.injEq] at he
        rw [ih p q (by simpa using hp) (by simpa using hq) he.2]
        congr 1
        omega

theorem sum_part {P Q : List (List Nat)} (hP : P.Nodup) (hQ : Q.Nodup) (g : List Nat → List Nat) (hg : ∀ p ∈ P, g p ∈ Q)
    (hi : ∀ p ∈ P, ∀ q ∈ P, g p = g q → p = q) (F : List Nat → ℝ) (h0 : ∀ q ∈ Q, 0 ≤ F q) : (P.map (fun p => F (g p))).sum ≤ (Q.map F).sum := by
  rw [← List.sum_toFinset (fun p => F (g p)) hP, ← List.sum_toFinset F hQ]
  rw [← Finset.sum_image (f := F) (s := P.toFinset) (g := g) (fun p hp q hq => hi p (by simpa using hp) q (by simpa using hq))]
  refine Finset.sum_le_sum_of_subset_of_nonneg ?_ (fun q hq _ => h0 q (by simpa using hq))
  intro q hq
  obtain ⟨p, hp, rfl⟩ := Finset.mem_image.1 hq
  simpa using hg p (by simpa using hp)

/-- Number of windows that lie in an image. -/
def Spec.windowCount (w : Nat) (shape : List Nat) : Nat := (shape.map (fun n => n - (w - 1))).prod

/-- The value of a computation that succeeded. -/
def okValue : Py ℝ → ℝ
  | .ok t => t
  | .error _ => 0

theorem ssim_total {big dr : ℝ} {a : SsimArgs} {u w : NDArray ℝ} {v : ℝ} (h : structuralSimilarity big a dr u w = .ok v) :
    ∃ norm m, covNorm a u.ndim = .ok norm ∧ (open Classical in if a.gaussian = true ∧ a.sigma = 0 then .ok .reflect else borderMode a.mode) = (.ok m : Py BorderMode) ∧
      ∃ F : List Nat → ℝ, (∀ p ∈ cropPositions ((a.window - 1) / 2) u.shape, ssimAt big (a.filter m) norm dr a u w p = .ok (F p)) ∧
      windowCount a.window u.shape * (1 - v) = ((cropPositions ((a.window - 1) / 2) u.shape).map (fun p => 1 - F p)).sum := by
  obtain ⟨hv, norm, m, l, hn, hm, hl, hmean⟩ := ssim_ok _ _ _ _ _ _ h
  refine ⟨norm, m, hn, hm, fun p => okValue (ssimAt big (a.filter m) norm dr a u w p), ?_, ?_⟩
  · intro p hp
    have : ssimAt big (a.filter m) norm dr a u w p ∈ l.map .ok := hl ▸ List.mem_map_of_mem hp
    obtain ⟨t, _, ht⟩ := List.mem_map.1 this
    simp only [← ht, okValue]
  · have hF : (cropPositions ((a.window - 1) / 2) u.shape).map (fun p => okValue (ssimAt big (a.filter m) norm dr a u w p)) = l := by
      have := congrArg (List.map okValue) hl
      rw [List.map_map, List.map_map] at this
      rw [show (okValue ∘ Except.ok) = id from rfl, List.map_id] at this
      exact this
    have hcount : (cropPositions ((a.window - 1) / 2) u.shape).length = windowCount a.window u.shape := by
      rw [length_cropPositions]
      unfold windowCount
      congr 1
      refine List.map_congr_left fun n _ => ?_
      have := hv.odd
      omega
    unfold meanList at hmean
    split at hmean
    · cases hmean
    rename_i h0
    have hv' : l.sum / l.length = v := Except.ok.inj hmean
    have hlen : l.length = windowCount a.window u.shape := by rw [← hF, List.length_map, hcount]
    have h0' : (l.length : ℝ) ≠ 0 := by exact_mod_cast h0
    have hF' : (cropPositions ((a.window - 1) / 2) u.shape).map (fun p => 1 - okValue (ssimAt big (a.filter m) norm dr a u w p)) = l.map (fun t => 1 - t) := by
      rw [← hF, List.map_map]; rfl
    rw [hF', ← hlen, ← hv']
    have : (l.map (fun t => 1 - t)).sum = l.length - l.sum := by
      clear * -
      induction l with
      | nil => simp
      | cons a l ih => simp only [List.map_cons, List.sum_cons, ih, List.length_cons]; push_cast; ring
    rw [this]
    field_simp

/-- The distance of SSIM from 1, times the number of windows, is at least as large for the image as for the
region: each window of the region is a window of the image. -/
theorem RealCrop.ssim (h : RealCrop x x' ranges) (h' : RealCrop y y' ranges) (hs : x.shape = y.shape) (big dr : ℝ) (a : SsimArgs) (hw : WholeWindow a)
    (hα : 0 ≤ a.alpha.cast) (hβ : 0 ≤ a.beta.cast) (hγ : 0 ≤ a.gamma.cast) {v v' : ℝ} (hv : structuralSimilarity big a dr x y = .ok v)
    (hv' : structuralSimilarity big a dr x' y' = .ok v') :
    windowCount a.window x'.shape * (1 - v') ≤ windowCount a.window x.shape * (1 - v) := by
  have hval := (ssim_ok _ _ _ _ _ _ hv).1
  obtain ⟨norm, m, hn, hm, F, hF, e⟩ := ssim_total hv
  obtain ⟨norm', m', hn', hm', F', hF', e'⟩ := ssim_total hv'
  have hnd : x'.ndim = x.ndim := by unfold NDArray.ndim; rw [h.shape, List.length_map, h.inside.length_eq]
  rw [hnd, hn] at hn'
  rw [hm] at hm'
  cases hn'; cases hm'
  have hrad := whole_radius a m hw hval.sigma hval.odd
  have hshape : y'.shape = x'.shape := h'.shape.trans h.shape.symm
  rw [e, e']
  have hmem : ∀ p ∈ cropPositions ((a.window - 1) / 2) x'.shape, fromCrop ranges p ∈ cropPositions ((a.window - 1) / 2) x.shape := by
    intro p hp; rw [h.shape] at hp; exact fromCrop_position h.inside _ p hp
  have hlen : ∀ p ∈ cropPositions ((a.window - 1) / 2) x'.shape, p.length = ranges.length := by
    intro p hp; rw [((mem_cropPositions _ _ _).1 hp).1, h.shape, List.length_map]
  have hEq : (cropPositions ((a.window - 1) / 2) x'.shape).map (fun p => 1 - F' p) =
      (cropPositions ((a.window - 1) / 2) x'.shape).map (fun p => 1 - F (fromCrop ranges p)) := by
    refine List.map_congr_left fun p hp => ?_
    have h1 := hF' p hp
    rw [h.ssimAt h' big _ norm dr a _ hrad p hp, hF _ (hmem p hp)] at h1
    rw [Except.ok.inj h1]
  rw [hEq]
  refine sum_part (cropPositions_nodup _ _) (cropPositions_nodup _ _) (fromCrop ranges) hmem
    (fun p hp q hq he => fromCrop_injective ranges p q (hlen p hp) (hlen q hq) he) (fun q => 1 - F q) fun q hq => ?_
  have := (abs_le.1 (ssimAt_bound big _ (a.filter_proper m) norm dr (covNorm_pos a _ norm hval.odd hn) a x y hs q
    (faithful_of_pad _ _ _ _ hrad hq) hα hβ hγ _ (hF q hq))).2
  linarith

/-! ### Regions of interest -/

/-- `a'` and `b'` are the parts of the images `a` and `b` that `load_data` returns for a region of interest
inside of the images. -/
structure Spec.RegionOf (a b a' b' : NDArray Rat) (roi : Roi) : Prop where
  inside : List.Forall₂ InsideAxis a.shape (Spec.ranges roi.x roi.y roi.z)
  same : b.shape = a.shape
  left : (cropImage a roi.x roi.y roi.z).val = .ok a'
  right : (cropImage b roi.x roi.y roi.z).val = .ok b'

theorem Spec.RegionOf.crops {a b a' b' : NDArray Rat} {roi : Roi} (h : RegionOf a b a' b' roi) :
    RealCrop (realImage a) (realImage a') (Spec.ranges roi.x roi.y roi.z) ∧ RealCrop (realImage b) (realImage b') (Spec.ranges roi.x roi.y roi.z) :=
  ⟨(cropImage_cropped h.inside h.left).real, (cropImage_cropped (by rw [h.same]; exact h.inside) h.right).real⟩

variable {a b a' b' : NDArray Rat} {roi : Roi}

/-- **C209.** The RMSE of a region of `n` of the `N` pixels is at most `sqrt (N / n)` times the RMSE of the images, and exactly
that if the images agree elsewhere. -/
theorem C209_rmse (h : RegionOf a b a' b' roi) {r r' : ℝ} (hr : rmse (realImage a) (realImage b) = .ok r) (hr' : rmse (realImage a') (realImage b') = .ok r') :
    a'.size * r' ^ 2 ≤ a.size * r ^ 2 ∧ (a'.size * r' ^ 2 = a.size * r ^ 2 ↔ ∀ i ∈ indices a.shape, inRanges (Spec.ranges roi.x roi.y roi.z) i = false → a.get i = b.get i) := by
  obtain ⟨h1, h2⟩ := h.crops
  have e : (a.size : ℝ) * r ^ 2 = a'.size * r' ^ 2 + (((indices a.shape).filter (fun i => !inRanges (Spec.ranges roi.x roi.y roi.z) i)).map
    (fun i => ((a.get i : ℝ) - b.get i) ^ 2)).sum := h1.errors h2 hr hr'
  have h0 : 0 ≤ (((indices a.shape).filter (fun i => !inRanges (Spec.ranges roi.x roi.y roi.z) i)).map (fun i => ((a.get i : ℝ) - b.get i) ^ 2)).sum :=
    sum_nonneg _ _ (fun _ _ => sq_nonneg _)
  refine ⟨by linarith, fun heq i hi hn => ?_, fun hall => ?_⟩
  · have hz : (((indices a.shape).filter (fun i => !inRanges (Spec.ranges roi.x roi.y roi.z) i)).map (fun i => ((a.get i : ℝ) - b.get i) ^ 2)).sum = 0 := by linarith
    have hle := List.single_le_sum (l := ((indices a.shape).filter (fun i => !inRanges (Spec.ranges roi.x roi.y roi.z) i)).map (fun i => ((a.get i : ℝ) - b.get i) ^ 2))
      (by intro t ht; obtain ⟨j, _, rfl⟩ := List.mem_map.1 ht; exact sq_nonneg _) (((a.get i : ℝ) - b.get i) ^ 2)
      (List.mem_map.2 ⟨i, List.mem_filter.2 ⟨hi, by simp [hn]⟩, rfl⟩)
    have : ((a.get i : ℝ) - b.get i) ^ 2 = 0 := le_antisymm (hz ▸ hle) (sq_nonneg _)
    exact_mod_cast sub_eq_zero.1 (pow_eq_zero_iff two_ne_zero |>.1 this)
  · have hz : (((indices a.shape).filter (fun i => !inRanges (Spec.ranges roi.x roi.y roi.z) i)).map (fun i => ((a.get i : ℝ) - b.get i) ^ 2)).sum = 0 := by
      refine List.sum_eq_zero fun t ht => ?_
      obtain ⟨i, hi, rfl⟩ := List.mem_map.1 ht
      obtain ⟨hi1, hi2⟩ := List.mem_filter.1 hi
      rw [hall i hi1 (by simpa using hi2)]; ring
    linarith

/-- **C209.** The PSNR of a region of `n` of the `N` pixels is at most `10 log10 (N / n)` lower than that of the images. -/
theorem C209_psnr (h : RegionOf a b a' b' roi) {dr p p' : ℝ} (hd : 0 < dr) (hp : psnr dr (realImage a) (realImage b) = .ok (.finite p))
    (hp' : psnr dr (realImage a') (realImage b') = .ok (.finite p')) : p - 10 * Real.logb 10 (a.size / a'.size) ≤ p' := by
  have value : ∀ {p : ℝ} {x y : NDArray ℝ}, psnr dr x y = .ok (.finite p) → ∃ r, rmse x y = .ok r := by
    intro p x y hp
    unfold psnr at hp
    unfold rmse
    split at hp
    · cases hp
    cases hm : meanSquaredError x y with
    | error e => rw [hm] at hp; cases hp
    | ok v => exact ⟨_, rfl⟩
  obtain ⟨r, hr⟩ := value hp
  obtain ⟨r', hr'⟩ := value hp'
  obtain ⟨r0, e⟩ := psnr_of_rmse hp hr
  obtain ⟨r0', e'⟩ := psnr_of_rmse hp' hr'
  have hle := (C209_rmse h hr hr').1
  have size_pos : ∀ {u v : NDArray Rat} {t : ℝ}, rmse (realImage u) (realImage v) = .ok t → (0 : ℝ) < u.size := by
    intro u v t ht
    unfold rmse meanSquaredError at ht
    have : u.size ≠ 0 := by
      intro hc
      by_cases hs : (realImage u).shape = (realImage v).shape
      · rw [if_neg (not_not.2 hs), if_pos (show (realImage u).size = 0 from hc)] at ht; cases ht
      · rw [if_pos hs] at ht; cases ht
    exact_mod_cast Nat.pos_of_ne_zero this
  have hN := size_pos hr
  have hn := size_pos hr'
  rw [e, e', show 20 * Real.logb 10 (dr / r) = 10 * Real.logb 10 ((dr / r) ^ 2) by rw [Real.logb_pow]; push_cast; ring,
    show 20 * Real.logb 10 (dr / r') = 10 * Real.logb 10 ((dr / r') ^ 2) by rw [Real.logb_pow]; push_cast; ring, ← mul_sub,
    ← Real.logb_div (by positivity) (by positivity)]
  refine mul_le_mul_of_nonneg_left (Real.logb_le_logb_of_le (by norm_num) (by positivity) ?_) (by norm_num)
  rw [div_pow, div_pow, div_div, div_le_div_iff_of_pos_left (by positivity) (by positivity) (by positivity), mul_div_assoc', le_div_iff₀ hn]
  linarith

/-- **C209.** `1 - SSIM` of a region with `n` of the `N` windows is at most `N / n` times that of the images. -/
theorem C209_ssim (h : RegionOf a b a' b' roi) (big dr : ℝ) (args : SsimArgs) (hw : WholeWindow args)
    (hα : 0 ≤ args.alpha.cast) (hβ : 0 ≤ args.beta.cast) (hγ : 0 ≤ args.gamma.cast) {v v' : ℝ} (hv : structuralSimilarity big args dr (realImage a) (realImage b) = .ok v)
    (hv' : structuralSimilarity big args dr (realImage a') (realImage b') = .ok v') :
    windowCount args.window a'.shape * (1 - v') ≤ windowCount args.window a.shape * (1 - v) :=
  h.crops.1.ssim h.crops.2 h.same.symm big dr args hw hα hβ hγ hv hv'

/-- Non-trivial case: the 2 × 2 pixels in the middle of 4 × 4 pixels, RMSE at most twice that of the images. -/
theorem middle_region (f g : List Nat → Rat) : RegionOf ⟨[4, 4], f⟩ ⟨[4, 4], g⟩ (sliceArray ⟨[4, 4], f⟩ [(1, 3), (1, 3)]) (sliceArray ⟨[4, 4], g⟩ [(1, 3), (1, 3)])
    ⟨(1, 3), (1, 3), none⟩ :=
  ⟨by refine .cons ?_ (.cons ?_ .nil) <;> exact ⟨by norm_num, by norm_num, by norm_num⟩, rfl, rfl, rfl⟩

example (f g : List Nat → Rat) {r r' : ℝ} (hr : rmse (realImage ⟨[4, 4], f⟩) (realImage ⟨[4, 4], g⟩) = .ok r)
    (hr' : rmse (realImage (sliceArray ⟨[4, 4], f⟩ [(1, 3), (1, 3)])) (realImage (sliceArray ⟨[4, 4], g⟩ [(1, 3), (1, 3)])) = .ok r') : r' ^ 2 ≤ 4 * r ^ 2 := by
  have h := (C209_rmse (middle_region f g) hr hr').1
  rw [show (sliceArray ⟨[4, 4], f⟩ [(1, 3), (1, 3)] : NDArray Rat).size = 4 from rfl, show (⟨[4, 4], f⟩ : NDArray Rat).size = 16 from rfl] at h
  push_cast at h
  linarith

/-- Windows of 7 × 7 pixels: 36 in an image of 12 × 12 pixels, 4 in a region of 8 × 8. -/
example : windowCount 7 [12, 12] = 36 ∧ windowCount 7 [8, 8] = 4 := by decide

example (f g : List Nat → Rat) {v v' : ℝ} (hv : structuralSimilarity 1 { gaussian := false } 255 (realImage ⟨[12, 12], f⟩) (realImage ⟨[12, 12], g⟩) = .ok v)
    (hv' : structuralSimilarity 1 { gaussian := false } 255 (realImage (sliceArray ⟨[12, 12], f⟩ [(2, 10), (3, 11)])) (realImage (sliceArray ⟨[12, 12], g⟩ [(2, 10), (3, 11)])) = .ok v') :
    1 - 9 * (1 - v) ≤ v' := by
  have h := C209_ssim (roi := ⟨(2, 10), (3, 11), none⟩) (a := ⟨[12, 12], f⟩) (b := ⟨[12, 12], g⟩)
    ⟨by refine .cons ?_ (.cons ?_ .nil) <;> exact ⟨by norm_num, by norm_num, by norm_num⟩, rfl, rfl, rfl⟩ 1 255 { gaussian := false } (.inl rfl)
    (by simp [ExpArg.cast]) (by simp [ExpArg.cast]) (by simp [ExpArg.cast]) hv hv'
  rw [show (sliceArray ⟨[12, 12], f⟩ [(2, 10), (3, 11)] : NDArray Rat).shape = [8, 8] from rfl, show (⟨[12, 12], f⟩ : NDArray Rat).shape = [12, 12] from rfl,
    show ({ gaussian := false } : SsimArgs).window = 7 by simp [SsimArgs.window], show windowCount 7 [12, 12] = 36 by decide, show windowCount 7 [8, 8] = 4 by decide] at h
  push_cast at h
  linarith

end Viqa
