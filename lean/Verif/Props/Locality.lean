import Verif.Props.Ssim
import Verif.Lemmas.Sums

/-!
C160: a change of few pixels changes SSIM little.
-/

namespace Viqa

theorem offsets_count (r d : Nat) : (offsets r d).length = (2 * r + 1) ^ d := by
  induction d with
  | zero => simp [offsets]
  | succ d ih =>
    rw [offsets, List.length_flatMap]
    simp only [List.length_map, ih]
    rw [List.map_const', List.sum_replicate, offsets1, List.length_map, List.length_range, smul_eq_mul, pow_succ, mul_comm]

/-- The position whose window contains the pixel `d` at offset `o`. -/
def windowOf (d : List Nat) (o : List Int) : List Nat := List.zipWith (fun (a : Nat) (b : Int) => ((a : Int) - b).toNat) d o

theorem windowOf_shift (d p : List Nat) (o : List Int) (hl : p.length = o.length) (h : shiftIndex p o = d.map Int.ofNat) :
    windowOf d o = p := by
  induction p generalizing d o with
  | nil =>
    cases o with
    | nil => simp [windowOf]
    | cons b o => simp at hl
  | cons a p ih =>
    cases o with
    | nil => simp at hl
    | cons b o =>
      cases d with
      | nil => simp [shiftIndex] at h
      | cons c d =>
        simp only [shiftIndex, List.zipWith_cons_cons, List.map_cons, List.cons.injEq] at h
        have := ih d o (by simpa using hl) h.2
        unfold windowOf at this ⊢
        rw [List.zipWith_cons_cons, this]
        congr 1
        have h1 := h.1
        simp only [Int.ofNat_eq_natCast] at h1
        omega

/-- The window at `p` contains one of the pixels `D`. -/
def Touched (r : Nat) (D : List (List Nat)) (p : List Nat) : Prop :=
  ∃ d ∈ D, ∃ o ∈ offsets r p.length, shiftIndex p o = d.map Int.ofNat

open Classical in
/-- At most as many windows are touched as there are pixels in a window, for each pixel. -/
theorem touched_count (r : Nat) (D : List (List Nat)) (k : Nat) (P : List (List Nat)) (hP : P.Nodup) (hl : ∀ p ∈ P, p.length = k) :
    P.countP (fun p => decide (Touched r D p)) ≤ D.length * (2 * r + 1) ^ k := by
  rw [List.countP_eq_length_filter]
  have hsub : P.filter (fun p => decide (Touched r D p)) ⊆ D.flatMap (fun d => (offsets r k).map (windowOf d)) := by
    intro p hp
    rw [List.mem_filter, decide_eq_true_eq] at hp
    obtain ⟨hpP, d, hd, o, ho, hs⟩ := hp
    rw [hl p hpP] at ho
    refine List.mem_flatMap.2 ⟨d, hd, List.mem_map.2 ⟨o, ho, ?_⟩⟩
    exact windowOf_shift d p o (by rw [hl p hpP, ((mem_offsets _ _ _).1 ho).1]) hs
  have := ((hP.filter _).subperm hsub).length_le
  refine this.trans (le_of_eq ?_)
  rw [List.length_flatMap]
  simp only [List.length_map, offsets_count]
  rw [List.map_const', List.sum_replicate, smul_eq_mul]

open Classical in
/-- Sums of two lists of results that agree where no window is touched. -/
theorem sum_difference (F F' : List Nat → Py ℝ) (T : List Nat → Prop) (P : List (List Nat)) (l l' : List ℝ)
    (hl : P.map F = l.map .ok) (hl' : P.map F' = l'.map .ok) (hsame : ∀ p ∈ P, ¬ T p → F p = F' p)
    (hb : ∀ p ∈ P, ∀ v, F p = .ok v → |v| ≤ 1) (hb' : ∀ p ∈ P, ∀ v, F' p = .ok v → |v| ≤ 1) :
    |l.sum - l'.sum| ≤ 2 * P.countP (fun p => decide (T p)) := by
  induction P generalizing l l' with
  | nil =>
    cases l with
    | cons => simp at hl
    | nil =>
      cases l' with
      | cons => simp at hl'
      | nil => simp
  | cons p P ih =>
    cases l with
    | nil => simp at hl
    | cons v l =>
      cases l' with
      | nil => simp at hl'
      | cons v' l' =>
        simp only [List.map_cons, List.cons.injEq] at hl hl'
        have h := ih l l' hl.2 hl'.2 (fun q hq => hsame q (by simp [hq])) (fun q hq => hb q (by simp [hq]))
          (fun q hq => hb' q (by simp [hq]))
        rw [List.sum_cons, List.sum_cons, List.countP_cons]
        have hv := hb p (by simp) v hl.1
        have hv' := hb' p (by simp) v' hl'.1
        rw [abs_le] at h hv hv' ⊢
        by_cases ht : T p
        · rw [if_pos (by simpa using ht)]
          push_cast
          constructor <;> linarith
        · rw [if_neg (by simpa using ht)]
          have := hsame p (by simp) ht
          rw [hl.1, hl'.1] at this
          cases this
          push_cast
          constructor <;> linarith

theorem cropPositions_nodup (pad : Nat) (sh : List Nat) : (cropPositions pad sh).Nodup := by
  unfold cropPositions
  apply List.Nodup.map _ (indices_nodup _)
  intro a b h
  exact List.map_injective_iff.2 (fun x y hxy => by simpa using hxy) h

/-- **C160.** If two pairs of images agree in all but `k` pixels, their SSIM differs at most by twice the part of the
windows that contain such a pixel: `2 * k * window ^ ndim` divided by the number of windows. -/
theorem C160_local (big dr : ℝ) (a : SsimArgs) (x y x' y' : NDArray ℝ) (hs : x.shape = y.shape) (hx : x'.shape = x.shape)
    (hy : y'.shape = y.shape) (hw : a.winSize = none ∨ a.gaussian = false)
    (hα : 0 ≤ a.alpha.cast) (hβ : 0 ≤ a.beta.cast) (hγ : 0 ≤ a.gamma.cast) (D : List (List Nat))
    (hD : ∀ i, InShape x.shape i → i ∉ D → x.get i = x'.get i ∧ y.get i = y'.get i) (v v' : ℝ)
    (hv : structuralSimilarity big a dr x y = .ok v) (hv' : structuralSimilarity big a dr x' y' = .ok v') :
    |v - v'| ≤ 2 * D.length * a.window ^ x.ndim / (x.shape.map (fun n => n - (a.window - 1))).prod := by
  obtain ⟨hval, norm, m, l, hn, hm, hl, hmean⟩ := ssim_ok _ _ _ _ _ _ hv
  obtain ⟨-, norm', m', l', hn', hm', hl', hmean'⟩ := ssim_ok _ _ _ _ _ _ hv'
  have hnd : x'.ndim = x.ndim := by unfold NDArray.ndim; rw [hx]
  rw [hnd, hn] at hn'
  cases hn'
  rw [hm] at hm'
  cases hm'
  rw [hx] at hl'
  have hb : BorderHarmless a := Or.inr (Or.inr hw)
  have hr : (a.filter m).radius = (a.window - 1) / 2 := filter_radius a m hw
  have hodd : a.window = 2 * ((a.window - 1) / 2) + 1 := by have := hval.odd; omega
  have hpos := covNorm_pos a _ norm hval.odd hn
  set pad := (a.window - 1) / 2 with hpad
  set P := cropPositions pad x.shape with hP
  have hsame : ∀ p ∈ P, ¬ Touched pad D p →
      ssimAt big (a.filter m) norm dr a x y p = ssimAt big (a.filter m) norm dr a x' y' p := by
    intro p hp ht
    have hp' := (mem_cropPositions _ _ _).1 hp
    have hidx : ∀ o ∈ offsets (a.filter m).radius x.shape.length, ∃ i, extendIndices (a.filter m).mode x.shape (shiftIndex p o) = some i ∧
        x.get i = x'.get i ∧ y.get i = y'.get i := by
      intro o ho
      rw [hr] at ho
      obtain ⟨idx, h1, h2⟩ := shiftIndex_inside x.shape p o pad hp'.1 hp'.2 ho
      refine ⟨idx, by rw [h2, extendIndices_inside _ _ _ h1], hD idx h1 ?_⟩
      intro hd
      exact ht ⟨idx, hd, o, by rw [hp'.1]; exact ho, h2⟩
    have happly : ∀ z z' : NDArray ℝ, z.shape = x.shape → z'.shape = x.shape →
        (∀ i, x.get i = x'.get i → y.get i = y'.get i → z.get i = z'.get i) →
        (a.filter m).apply z p = (a.filter m).apply z' p := by
      intro z z' hz hz' hzz
      unfold Filter.apply NDArray.ndim
      rw [hz, hz']
      apply sum_congr
      intro o ho
      obtain ⟨i, h1, h2, h3⟩ := hidx o ho
      congr 1
      unfold sample
      rw [hz, hz', h1]
      exact hzz i h2 h3
    have e1 := happly x x' rfl hx (fun i h _ => h)
    have e2 := happly y y' hs.symm (by rw [hy, hs]) (fun i _ h => h)
    have e3 := happly (NDArray.zip (· * ·) x x) (NDArray.zip (· * ·) x' x') rfl hx (fun i h _ => by simp only [NDArray.zip]; rw [h])
    have e4 := happly (NDArray.zip (· * ·) y y) (NDArray.zip (· * ·) y' y') hs.symm (by rw [show (NDArray.zip (· * ·) y' y').shape = y'.shape from rfl, hy, hs])
      (fun i _ h => by simp only [NDArray.zip]; rw [h])
    have e5 := happly (NDArray.zip (· * ·) x y) (NDArray.zip (· * ·) x' y') rfl hx (fun i h h' => by simp only [NDArray.zip]; rw [h, h'])
    unfold ssimAt
    simp only [e1, e2, e3, e4, e5]
  have hbound := fun p hp v h => ssimAt_bound big _ (a.filter_proper m) norm dr hpos a x y hs p
    (harmless_faithful a x.shape hval hb m hm p hp) hα hβ hγ v h
  have hbound' := fun p hp v h => ssimAt_bound big _ (a.filter_proper m) norm dr hpos a x' y' (by rw [hx, hy, hs]) p
    (by rw [hx]; exact harmless_faithful a x.shape hval hb m hm p hp) hα hβ hγ v h
  have hsum := sum_difference _ _ (Touched pad D) P l l' hl hl' hsame hbound hbound'
  have hcount := touched_count pad D x.ndim P (cropPositions_nodup _ _) (fun p hp => ((mem_cropPositions _ _ _).1 hp).1)
  rw [← hodd] at hcount
  have hlen : l.length = P.length := by
    have := congrArg List.length hl
    simpa using this.symm
  have hlen' : l'.length = P.length := by
    have := congrArg List.length hl'
    simpa using this.symm
  have hPl : P.length = (x.shape.map (fun n => n - (a.window - 1))).prod := by
    rw [hP, length_cropPositions]
    congr 1
    apply List.map_congr_left
    intro n _
    omega
  unfold meanList at hmean hmean'
  split_ifs at hmean hmean' with h0 h0'
  cases hmean
  cases hmean'
  rw [hlen, hlen', ← hPl, ← sub_div, abs_div, abs_of_nonneg (by positivity : (0 : ℝ) ≤ (P.length : ℝ))]
  apply div_le_div_of_nonneg_right _ (by positivity)
  refine hsum.trans ?_
  have : (P.countP (fun p => @decide (Touched pad D p) (Classical.propDecidable _)) : ℝ) ≤ D.length * a.window ^ x.ndim := by exact_mod_cast hcount
  linarith

/-- An image can be scored with itself if it can be scored with some image. -/
theorem self_scored (big dr : ℝ) (a : SsimArgs) (x y : NDArray ℝ) (v : ℝ) (hv : structuralSimilarity big a dr x y = .ok v) :
    structuralSimilarity big a dr x x = .ok 1 := by
  obtain ⟨hval, norm, m, l, hn, hm, hl, hmean⟩ := ssim_ok _ _ _ _ _ _ hv
  obtain ⟨w, hw⟩ : ∃ w, structuralSimilarity big a dr x x = .ok w := by
    rw [ssim_valid _ _ _ _ _ hval]
    unfold ssimBody
    simp only [hn, hm]
    have hall : allOk ((cropPositions ((a.window - 1) / 2) x.shape).map (ssimAt big (a.filter m) norm dr a x x)) =
        .ok (l.map (fun _ => (1 : ℝ))) := by
      rw [allOk_iff, List.map_map]
      have h1 : (cropPositions ((a.window - 1) / 2) x.shape).map (ssimAt big (a.filter m) norm dr a x x) =
          (cropPositions ((a.window - 1) / 2) x.shape).map (fun _ => Except.ok 1) := by
        apply List.map_congr_left
        intro p _
        exact ssimAt_self _ _ _ _ _ _ _
      have hlen := congrArg List.length hl
      rw [List.length_map, List.length_map] at hlen
      rw [h1, List.map_const', hlen]
      exact (List.map_const' ..).symm
    rw [hall]
    have hl0 : l.length ≠ 0 := by
      intro h0
      rw [meanList, if_pos h0] at hmean
      cases hmean
    exact ⟨_, by simp only [meanList, List.length_map, if_neg hl0]; rfl⟩
  rw [hw, C30_self _ _ _ _ _ hw]

/-- **C160.** An image in which `k` pixels have been changed keeps an SSIM of at least `1 - 2 * k * window ^ ndim / windows`
with the original. -/
theorem C160_changed (big dr : ℝ) (a : SsimArgs) (x y : NDArray ℝ) (hs : x.shape = y.shape)
    (hw : a.winSize = none ∨ a.gaussian = false) (hα : 0 ≤ a.alpha.cast) (hβ : 0 ≤ a.beta.cast) (hγ : 0 ≤ a.gamma.cast)
    (D : List (List Nat)) (hD : ∀ i, InShape x.shape i → i ∉ D → x.get i = y.get i) (v : ℝ)
    (hv : structuralSimilarity big a dr x y = .ok v) :
    1 - 2 * D.length * a.window ^ x.ndim / (x.shape.map (fun n => n - (a.window - 1))).prod ≤ v := by
  have h := C160_local big dr a x x x y rfl rfl hs.symm hw hα hβ hγ D (fun i hi hd => ⟨rfl, hD i hi hd⟩) 1 v
    (self_scored _ _ _ _ _ _ hv) hv
  rw [abs_le] at h
  linarith [h.2]

/-- One dead pixel in an image of 100 by 100 pixels costs less than 0.0112 with a window of 7 pixels. -/
example (y : NDArray ℝ) (hy : y.shape = [100, 100]) (hD : ∀ i, InShape [100, 100] i → i ≠ [50, 50] → (i.sum : ℝ) = y.get i) :
    ∃ v, structuralSimilarity 1e308 { gaussian := false, winSize := some 7 } 255 ⟨[100, 100], fun i => i.sum⟩ y = .ok v ∧
      1 - 0.0112 ≤ v := by
  have hval : SsimArgs.Valid { gaussian := false, winSize := some 7 } [100, 100] := by
    constructor <;> norm_num [SsimArgs.window]
  obtain ⟨v, hv⟩ := C32_score_exists 1e308 255 { gaussian := false, winSize := some 7 } ⟨[100, 100], fun i => i.sum⟩ y hval (by simp)
    (by simp) .reflect (by simp [borderMode]) (by simp [ExpArg.cast]) (by simp [ExpArg.cast]) (by simp [ExpArg.cast])
  refine ⟨v, hv, ?_⟩
  have h := C160_changed 1e308 255 { gaussian := false, winSize := some 7 } ⟨[100, 100], fun i => i.sum⟩ y hy.symm (Or.inr rfl)
    (by simp [ExpArg.cast]) (by simp [ExpArg.cast]) (by simp [ExpArg.cast]) [[50, 50]]
    (fun i hi hd => hD i hi (by simpa using hd)) v hv
  refine le_trans ?_ h
  norm_num [SsimArgs.window, NDArray.ndim]

/-- Two changed pixels in a volume of 40 voxels in each direction. -/
example (x y x' y' : NDArray ℝ) (hx : x.shape = [40, 40, 40]) (hy : y.shape = [40, 40, 40]) (hx' : x'.shape = [40, 40, 40])
    (hy' : y'.shape = [40, 40, 40])
    (hD : ∀ i, InShape [40, 40, 40] i → i ∉ [[20, 20, 20], [0, 0, 0]] → x.get i = x'.get i ∧ y.get i = y'.get i) (v v' : ℝ)
    (hv : structuralSimilarity 1e308 { gaussian := false, winSize := some 3 } 255 x y = .ok v)
    (hv' : structuralSimilarity 1e308 { gaussian := false, winSize := some 3 } 255 x' y' = .ok v') : |v - v'| ≤ 0.002 := by
  have h := C160_local 1e308 255 { gaussian := false, winSize := some 3 } x y x' y' (by rw [hx, hy]) (by rw [hx, hx']) (by rw [hy, hy'])
    (Or.inr rfl) (by simp [ExpArg.cast]) (by simp [ExpArg.cast]) (by simp [ExpArg.cast]) [[20, 20, 20], [0, 0, 0]]
    (by rw [hx]; exact hD) v v' hv hv'
  refine h.trans ?_
  rw [hx]
  norm_num [SsimArgs.window, NDArray.ndim, hx]

/-- **C160** for the universal quality index. -/
theorem C160_uqi (big dr : ℝ) (w : Option Nat) (x y x' y' : NDArray ℝ) (hs : x.shape = y.shape) (hx : x'.shape = x.shape)
    (hy : y'.shape = y.shape) (D : List (List Nat))
    (hD : ∀ i, InShape x.shape i → i ∉ D → x.get i = x'.get i ∧ y.get i = y'.get i) (v v' : ℝ)
    (hv : uqi big dr w x y = .ok v) (hv' : uqi big dr w x' y' = .ok v') :
    |v - v'| ≤ 2 * D.length * (w.getD 7 : ℕ) ^ x.ndim / (x.shape.map (fun n => n - (w.getD 7 - 1))).prod := by
  have h := C160_local big dr _ x y x' y' hs hx hy (.inr rfl) (by simp [withKwargs, ExpArg.cast]) (by simp [withKwargs, ExpArg.cast])
    (by simp [withKwargs, ExpArg.cast]) D hD v v' hv hv'
  cases w <;> simpa [withKwargs, SsimArgs.window] using h

/-- Five changed pixels in images of 200 by 200 pixels, default window. -/
example (x y x' y' : NDArray ℝ) (hx : x.shape = [200, 200]) (hy : y.shape = [200, 200]) (hx' : x'.shape = [200, 200])
    (hy' : y'.shape = [200, 200])
    (hD : ∀ i, InShape [200, 200] i → i ∉ [[9, 9], [9, 99], [50, 50], [99, 9], [199, 199]] → x.get i = x'.get i ∧ y.get i = y'.get i)
    (v v' : ℝ) (hv : uqi 1e308 255 none x y = .ok v) (hv' : uqi 1e308 255 none x' y' = .ok v') : |v - v'| ≤ 0.0131 := by
  have h := C160_uqi 1e308 255 none x y x' y' (by rw [hx, hy]) (by rw [hx, hx']) (by rw [hy, hy'])
    [[9, 9], [9, 99], [50, 50], [99, 9], [199, 199]] (by rw [hx]; exact hD) v v' hv hv'
  refine h.trans ?_
  rw [hx]
  norm_num [NDArray.ndim, hx]

end Viqa
