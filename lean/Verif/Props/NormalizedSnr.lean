import Verif.Props.NoiseLaws
import Verif.Props.NormalizedNoise

/-! C206: normalization and the signal to noise ratio. -/

namespace Viqa
open Spec

theorem std_positive (l : List Rat) (h : varQ l ≠ 0) : 0 < stdQ l := by
  unfold stdQ
  exact Real.sqrt_pos.2 (by exact_mod_cast lt_of_le_of_ne (varQ_nonneg l) (Ne.symm h))

/-- **C206.** The SNR of a region of a normalized image: the darkest gray value of the whole image divided by the noise of the region is
subtracted. -/
theorem C206_formula (ident : Bool) (img : Image Rat) (inp : Option (Int × Int)) (args : SnrArgs) (m M : Rat) (hr : HasRange img.arr m M)
    (hlt : m < M) (hfl : img.dtype.isFloating = true) (h16 : img.dtype = .f16 → M - m < 65520) (hauto : args.auto = false)
    (hc : isColour img.arr = false) (c : List Int) (r : Int) (reg : Region Rat) (h1 : snrChecks img.arr args.center args.radius = .ok (c, r))
    (h2 : selectRegion img.arr (regionKind args.regionType) c r none = .ok reg) (hflat : ¬ ∃ v, ∀ x ∈ reg.values, x = v) :
    ∃ n v, normalizeData ident img (0, 1) inp true = ⟨[], .ok n⟩ ∧ snr img.arr args = .ok (.gray v) ∧ 0 < stdQ reg.values ∧
      snr n.arr args = .ok (.gray (v - m / stdQ reg.values)) := by
  have hpos := snr_positions img.arr.shape args hauto img.arr rfl hc c r reg h1 h2
  have harr := (selectRegion_sel _ _ rfl _ _ _ _ h2).2
  have hval : reg.values = reg.selected.map img.arr.get := by unfold Region.values; rw [harr]
  have hne : reg.values ≠ [] := by
    intro h
    exact hflat ⟨0, by rw [h]; simp⟩
  have h0 : varQ reg.values ≠ 0 := fun h => hflat ((varQ_eq_zero_iff _ hne).1 h)
  have hd : 0 < 1 / (M - m) := by have := sub_pos.2 hlt; positivity
  refine ⟨_, meanQ reg.values / stdQ reg.values, normalize_unit ident img inp m M hr hlt hfl h16, ?_, ?_, ?_⟩
  · rw [hpos img.arr rfl, ← hval]
    unfold snrOf
    rw [if_neg hne, if_neg h0]
    rfl
  · exact std_positive _ h0
  · rw [hpos (img.arr.map _) rfl]
    have e : reg.selected.map (img.arr.map (fun p => 1 / (M - m) * p + -(m / (M - m)))).get =
        reg.values.map (fun p => 1 / (M - m) * p + -(m / (M - m))) := by
      rw [hval, List.map_map]
      rfl
    rw [e]
    generalize reg.values = l at *
    unfold snrOf
    rw [if_neg (by simpa using hne), varQ_affine _ _ _ hne, meanQ_affine _ _ _ hne, stdQ_scaled _ _ _ hd hne, if_neg (mul_ne_zero (pow_ne_zero _ hd.ne') h0)]
    simp only [Except.map, Except.ok.injEq, SnrResult.gray.injEq]
    have hs := (std_positive l h0).ne'
    have hd' : ((M : ℝ) - m) ≠ 0 := by
      have : (0 : ℝ) < M - m := by exact_mod_cast sub_pos.2 hlt
      exact this.ne'
    push_cast
    field_simp
    ring

/-- **C206 (partial).** If the darkest gray value is zero, normalization does not change SNR, also for automatic regions. Missing: all other images, see
`C206_refuted`. -/
theorem C206_dark_partial (ident : Bool) (img : Image Rat) (inp : Option (Int × Int)) (args : SnrArgs) (M : Rat) (hr : HasRange img.arr 0 M)
    (hlt : 0 < M) (hfl : img.dtype.isFloating = true) (h16 : img.dtype = .f16 → M < 65520) (hauto : args.auto = true → isColour img.arr = false) :
    ∃ n, normalizeData ident img (0, 1) inp true = ⟨[], .ok n⟩ ∧ snr n.arr args = snr img.arr args := by
  refine ⟨_, normalize_unit ident img inp 0 M hr hlt hfl (by simpa using h16), ?_⟩
  rw [← C55_scale img.arr args (1 / M) (by positivity) hauto]
  simp

/-- **C206.** Images without negative gray values do not get a better SNR by normalization. -/
theorem C206_lower (ident : Bool) (img : Image Rat) (inp : Option (Int × Int)) (args : SnrArgs) (m M : Rat) (hr : HasRange img.arr m M)
    (hlt : m < M) (hm : 0 ≤ m) (hfl : img.dtype.isFloating = true) (h16 : img.dtype = .f16 → M - m < 65520) (hauto : args.auto = false)
    (hc : isColour img.arr = false) (c : List Int) (r : Int) (reg : Region Rat) (h1 : snrChecks img.arr args.center args.radius = .ok (c, r))
    (h2 : selectRegion img.arr (regionKind args.regionType) c r none = .ok reg) (hflat : ¬ ∃ v, ∀ x ∈ reg.values, x = v) :
    ∃ n v w, normalizeData ident img (0, 1) inp true = ⟨[], .ok n⟩ ∧ snr img.arr args = .ok (.gray v) ∧ snr n.arr args = .ok (.gray w) ∧ 0 ≤ w ∧ w ≤ v := by
  obtain ⟨n, v, e1, e2, hs, e3⟩ := C206_formula ident img inp args m M hr hlt hfl h16 hauto hc c r reg h1 h2 hflat
  have hm' : (0 : ℝ) ≤ m := by exact_mod_cast hm
  refine ⟨n, v, _, e1, e2, e3, ?_, by linarith [div_nonneg hm' hs.le]⟩
  have hpos := snr_positions img.arr.shape args hauto img.arr rfl hc c r reg h1 h2
  have harr := (selectRegion_sel _ _ rfl _ _ _ _ h2).2
  have hval : reg.values = reg.selected.map img.arr.get := by unfold Region.values; rw [harr]
  have hne : reg.values ≠ [] := by
    intro h
    exact hflat ⟨0, by rw [h]; simp⟩
  have h0 : varQ reg.values ≠ 0 := fun h => hflat ((varQ_eq_zero_iff _ hne).1 h)
  rw [hpos img.arr rfl, ← hval] at e2
  unfold snrOf at e2
  rw [if_neg hne, if_neg h0] at e2
  simp only [Except.map, Except.ok.injEq, SnrResult.gray.injEq] at e2
  rw [← e2, ← sub_div]
  refine div_nonneg (sub_nonneg.2 ?_) hs.le
  have hin : ∀ i ∈ reg.selected, InShape img.arr.shape i := fun i hi => by
    have := selected_inShape reg i hi
    rw [harr] at this
    exact this
  have : m ≤ meanQ reg.values := by
    unfold meanQ
    have hl : (0 : Rat) < reg.values.length := by exact_mod_cast List.length_pos_of_ne_nil hne
    rw [le_div_iff₀ hl]
    have k : ∀ l : List Rat, (∀ q ∈ l, m ≤ q) → m * l.length ≤ l.sum := by
      intro l
      induction l with
      | nil => intro _; simp
      | cons a l ih =>
        intro h
        have := ih (fun q hq => h q (List.mem_cons_of_mem _ hq))
        have := h a List.mem_cons_self
        rw [List.sum_cons, List.length_cons]
        push_cast
        linarith
    refine k _ (fun q hq => ?_)
    rw [hval] at hq
    obtain ⟨i, hi, rfl⟩ := List.mem_map.1 hq
    exact hr.1.2 ⟨i, hin i hi, rfl⟩
  exact_mod_cast this

/-- **C206**, what happens otherwise: two images that agree in the region have the same SNR, but not after normalization if their darkest pixels,
wherever they are, differ. -/
theorem C206_elsewhere (ident : Bool) (x y : Image Rat) (inp : Option (Int × Int)) (args : SnrArgs) (m M m' M' : Rat) (hx : HasRange x.arr m M)
    (hy : HasRange y.arr m' M') (hxl : m < M) (hyl : m' < M') (hxf : x.dtype = .f32 ∨ x.dtype = .f64) (hyf : y.dtype = .f32 ∨ y.dtype = .f64)
    (hauto : args.auto = false) (hs : y.arr.shape = x.arr.shape) (hc : isColour x.arr = false) (c : List Int) (r : Int) (reg : Region Rat)
    (h1 : snrChecks x.arr args.center args.radius = .ok (c, r)) (h2 : selectRegion x.arr (regionKind args.regionType) c r none = .ok reg)
    (hflat : ¬ ∃ v, ∀ q ∈ reg.values, q = v) (hsame : ∀ i ∈ reg.selected, y.arr.get i = x.arr.get i) (hm : m ≠ m') :
    snr x.arr args = snr y.arr args ∧ ∃ nx ny, normalizeData ident x (0, 1) inp true = ⟨[], .ok nx⟩ ∧ normalizeData ident y (0, 1) inp true = ⟨[], .ok ny⟩ ∧
      snr nx.arr args ≠ snr ny.arr args := by
  have hfl : ∀ {z : Image Rat}, z.dtype = .f32 ∨ z.dtype = .f64 → z.dtype.isFloating = true := by
    rintro z (h | h) <;> rw [h] <;> rfl
  have h16 : ∀ {z : Image Rat} {P : Prop}, z.dtype = .f32 ∨ z.dtype = .f64 → z.dtype = .f16 → P := by
    rintro z P (h | h) h' <;> rw [h] at h' <;> cases h'
  have hcy : isColour y.arr = false := by
    unfold isColour NDArray.ndim NDArray.lastDim at *
    rw [hs]
    exact hc
  have hpos := snr_positions x.arr.shape args hauto x.arr rfl hc c r reg h1 h2
  have harr := (selectRegion_sel _ _ rfl _ _ _ _ h2).2
  have hval : reg.values = reg.selected.map x.arr.get := by unfold Region.values; rw [harr]
  have hvy : reg.selected.map y.arr.get = reg.values := by rw [hval]; exact List.map_congr_left hsame
  have e : snr x.arr args = snr y.arr args := by rw [hpos x.arr rfl, hpos y.arr hs, hvy, hval]
  refine ⟨e, ?_⟩
  obtain ⟨nx, v, ex, ev, hstd, ew⟩ := C206_formula ident x inp args m M hx hxl (hfl hxf) (h16 hxf) hauto hc c r reg h1 h2 hflat
  refine ⟨nx, _, ex, normalize_unit ident y inp m' M' hy hyl (hfl hyf) (h16 hyf), ?_⟩
  rw [ew, hpos (y.arr.map _) hs]
  have e' : reg.selected.map (y.arr.map (fun p => 1 / (M' - m') * p + -(m' / (M' - m')))).get =
      reg.values.map (fun p => 1 / (M' - m') * p + -(m' / (M' - m'))) := by
    rw [← hvy, List.map_map]
    rfl
  have hne : reg.values ≠ [] := by
    intro h
    exact hflat ⟨0, by rw [h]; simp⟩
  have h0 : varQ reg.values ≠ 0 := fun h => hflat ((varQ_eq_zero_iff _ hne).1 h)
  have hd : 0 < 1 / (M' - m') := by have := sub_pos.2 hyl; positivity
  rw [hpos x.arr rfl, ← hval] at ev
  rw [e']
  generalize reg.values = l at *
  unfold snrOf at ev ⊢
  rw [if_neg hne, if_neg h0] at ev
  rw [if_neg (by simpa using hne), varQ_affine _ _ _ hne, meanQ_affine _ _ _ hne, stdQ_scaled _ _ _ hd hne, if_neg (mul_ne_zero (pow_ne_zero _ hd.ne') h0)]
  simp only [Except.map, Except.ok.injEq, SnrResult.gray.injEq] at ev
  intro h
  simp only [Except.map, Except.ok.injEq, SnrResult.gray.injEq] at h
  have hd' : ((M' : ℝ) - m') ≠ 0 := by
    have : (0 : ℝ) < M' - m' := by exact_mod_cast sub_pos.2 hyl
    exact this.ne'
  rw [← ev] at h
  push_cast at h
  have hstd' := hstd.ne'
  field_simp at h
  apply hm
  have : (m : ℝ) = m' := by linarith
  exact_mod_cast this

/-- What C206 asks for. -/
def NormalizedSnrSame : Prop := ∀ (img n : Image Rat) (args : SnrArgs), img.dtype = .f32 → args.auto = false →
  normalizeData false img (0, 1) none true = ⟨[], .ok n⟩ → snr n.arr args = snr img.arr args

/-- Rows of brightness 1, 2, 1, 2, … with one pixel of another brightness in the corner. -/
def rowsWith (v : Rat) : Image Rat := ⟨.f32, ⟨[6, 6], fun i => if i = [5, 5] then v else if i.getD 0 0 % 2 = 0 then 1 else 2⟩⟩

theorem rowsWith_range (v : Rat) (hv : v < 1) : HasRange (rowsWith v).arr v 2 := by
  refine ⟨⟨⟨[5, 5], by simp [rowsWith, InShape], by simp [rowsWith]⟩, ?_⟩, ⟨⟨[1, 0], by simp [rowsWith, InShape], by simp [rowsWith]⟩, ?_⟩⟩
  · rintro _ ⟨i, -, rfl⟩
    simp only [rowsWith]
    split_ifs <;> linarith
  · rintro _ ⟨i, -, rfl⟩
    simp only [rowsWith]
    split_ifs <;> linarith

theorem rowsWith_values (v : Rat) : (⟨(rowsWith v).arr, boxMask [6, 6] [1, 1] 1⟩ : Region Rat).values = [1, 1, 2, 2] := by
  have : (⟨(rowsWith v).arr, boxMask [6, 6] [1, 1] 1⟩ : Region Rat).selected = [[0, 0], [0, 1], [1, 0], [1, 1]] := by
    show (indices [6, 6]).filter (boxMask [6, 6] [1, 1] 1) = _
    decide +kernel
  unfold Region.values
  rw [this]
  simp [rowsWith]

theorem rowsWith_flat (v : Rat) : ¬ ∃ w, ∀ x ∈ (⟨(rowsWith v).arr, boxMask [6, 6] [1, 1] 1⟩ : Region Rat).values, x = w := by
  rw [rowsWith_values]
  rintro ⟨w, h⟩
  have h0 := h 1 (by simp)
  have h1 := h 2 (by simp)
  rw [← h0] at h1
  norm_num at h1

/-- **C206, refuted**: normalizing an image whose darkest pixel has the brightness 1/2 changes its SNR. -/
theorem C206_refuted : ¬ NormalizedSnrSame := by
  intro h
  obtain ⟨n, v, e1, e2, hs, e3⟩ := C206_formula false (rowsWith (1 / 2)) none { center := some [.int 1, .int 1], radius := .int 1 } (1 / 2) 2
    (rowsWith_range _ (by norm_num)) (by norm_num) rfl (by simp [rowsWith]) rfl rfl [1, 1] 1 ⟨(rowsWith (1 / 2)).arr, boxMask [6, 6] [1, 1] 1⟩ rfl rfl
    (rowsWith_flat _)
  have k := h (rowsWith (1 / 2)) n { center := some [.int 1, .int 1], radius := .int 1 } rfl rfl e1
  rw [e2, e3] at k
  simp only [Except.ok.injEq, SnrResult.gray.injEq] at k
  have : (((1 / 2 : Rat) : ℝ)) / stdQ (⟨(rowsWith (1 / 2)).arr, boxMask [6, 6] [1, 1] 1⟩ : Region Rat).values = 0 := by linarith
  rw [div_eq_zero_iff] at this
  rcases this with h | h
  · norm_num at h
  · exact hs.ne' h

/-- Two images that differ in a corner far from the region. -/
example : snr (rowsWith (1 / 2)).arr { center := some [.int 1, .int 1], radius := .int 1 } = snr (rowsWith 0).arr { center := some [.int 1, .int 1], radius := .int 1 } ∧
    ∃ nx ny, normalizeData false (rowsWith (1 / 2)) (0, 1) none true = ⟨[], .ok nx⟩ ∧ normalizeData false (rowsWith 0) (0, 1) none true = ⟨[], .ok ny⟩ ∧
      snr nx.arr { center := some [.int 1, .int 1], radius := .int 1 } ≠ snr ny.arr { center := some [.int 1, .int 1], radius := .int 1 } := by
  refine C206_elsewhere false _ _ none _ (1 / 2) 2 0 2 (rowsWith_range _ (by norm_num)) (rowsWith_range _ (by norm_num)) (by norm_num) (by norm_num) (.inl rfl)
    (.inl rfl) rfl rfl rfl [1, 1] 1 ⟨(rowsWith (1 / 2)).arr, boxMask [6, 6] [1, 1] 1⟩ rfl rfl (rowsWith_flat _) (fun i hi => ?_) (by norm_num)
  have : (⟨(rowsWith (1 / 2)).arr, boxMask [6, 6] [1, 1] 1⟩ : Region Rat).selected = [[0, 0], [0, 1], [1, 0], [1, 1]] := by
    unfold Region.selected
    decide +kernel
  rw [this] at hi
  simp only [List.mem_cons, List.not_mem_nil, or_false] at hi
  rcases hi with rfl | rfl | rfl | rfl <;> rfl

/-- With a black pixel nothing changes. -/
example : ∃ n, normalizeData false (rowsWith 0) (0, 1) none true = ⟨[], .ok n⟩ ∧
    snr n.arr { center := some [.int 1, .int 1], radius := .int 1 } = snr (rowsWith 0).arr { center := some [.int 1, .int 1], radius := .int 1 } :=
  C206_dark_partial false (rowsWith 0) none _ 2 (rowsWith_range _ (by norm_num)) (by norm_num) rfl (by simp [rowsWith]) (by simp)

end Viqa
