import Verif.Props.Gsm
import Verif.Props.Ssim
import Mathlib.Topology.Instances.Rat
import Mathlib.Topology.Order.Lattice
import Mathlib.Topology.Algebra.Monoid
import Mathlib.Topology.Algebra.GroupWithZero
import Mathlib.Analysis.Normed.Field.Lemmas

/-!
C167: small changes of the images change the gradient similarity little.
-/

namespace Viqa

open _root_.Filter (Tendsto)

/-- `x'` has the shape of `x` and all pixels differ by less than `δ`. -/
def Spec.Within (δ : Rat) (x x' : NDArray Rat) : Prop :=
  x'.shape = x.shape ∧ ∀ i, InShape x.shape i → |x'.get i - x.get i| < δ

/-- Pairs of images near a pair of images. -/
def nearPair (x y : NDArray Rat) : _root_.Filter (NDArray Rat × NDArray Rat) :=
  ⨅ (δ : Rat) (_ : 0 < δ), _root_.Filter.principal {q | Spec.Within δ x q.1 ∧ Spec.Within δ y q.2}

theorem Spec.Within.mono {δ δ' : Rat} {x x' : NDArray Rat} (h : Spec.Within δ x x') (hd : δ ≤ δ') : Spec.Within δ' x x' :=
  ⟨h.1, fun i hi => lt_of_lt_of_le (h.2 i hi) hd⟩

theorem nearPair_basis (x y : NDArray Rat) : (nearPair x y).HasBasis (fun δ : Rat => 0 < δ)
    (fun δ => {q | Spec.Within δ x q.1 ∧ Spec.Within δ y q.2}) := by
  refine _root_.Filter.hasBasis_biInf_principal' ?_ ⟨1, by norm_num⟩
  intro i hi j hj
  exact ⟨min i j, lt_min hi hj, fun q h => ⟨h.1.mono (min_le_left _ _), h.2.mono (min_le_left _ _)⟩,
    fun q h => ⟨h.1.mono (min_le_right _ _), h.2.mono (min_le_right _ _)⟩⟩

section
variable {x : NDArray Rat} {l : _root_.Filter α} {f : α → NDArray Rat}

/-- Images that approach an image. -/
def Approaches (f : α → NDArray Rat) (l : _root_.Filter α) (x : NDArray Rat) : Prop :=
  (∀ᶠ q in l, (f q).shape = x.shape) ∧ ∀ i, InShape x.shape i → Tendsto (fun q => (f q).get i) l (nhds (x.get i))

theorem within_approaches (x y : NDArray Rat) (g : NDArray Rat × NDArray Rat → NDArray Rat) (z : NDArray Rat)
    (h : ∀ δ > 0, ∀ q, Spec.Within δ x q.1 ∧ Spec.Within δ y q.2 → Spec.Within δ z (g q)) : Approaches g (nearPair x y) z := by
  constructor
  · rw [(nearPair_basis x y).eventually_iff]
    exact ⟨1, by norm_num, fun q hq => (h 1 (by norm_num) q hq).1⟩
  · intro i hi
    rw [Metric.tendsto_nhds]
    intro ε hε
    obtain ⟨r, hr0, hr⟩ := exists_rat_btwn hε
    rw [(nearPair_basis x y).eventually_iff]
    have hr0' : (0 : Rat) < r := by exact_mod_cast hr0
    refine ⟨r, hr0', fun q hq => ?_⟩
    have := (h r hr0' q hq).2 i hi
    rw [Rat.dist_eq]
    refine lt_trans ?_ hr
    exact_mod_cast this

theorem kernelPosition_length (sh p o : List Nat) (hp : p.length = sh.length) (ho : o.length = sh.length) :
    (kernelPosition sh p o).length = sh.length := by
  induction sh generalizing p o with
  | nil => simp [kernelPosition]
  | cons n sh ih =>
    cases p with
    | nil => simp at hp
    | cons a p =>
      cases o with
      | nil => simp at ho
      | cons b o => simpa [kernelPosition] using ih p o (by simpa using hp) (by simpa using ho)

theorem inShape_pos (sh p : List Nat) (h : InShape sh p) : ∀ n ∈ sh, 0 < n := by
  induction sh generalizing p with
  | nil => simp
  | cons n sh ih =>
    cases p with
    | nil => simp [InShape] at h
    | cons a p =>
      intro m hm
      rcases List.mem_cons.1 hm with rfl | hm
      · exact lt_of_le_of_lt (Nat.zero_le _) h.1
      · exact ih p h.2 m hm

theorem readIndex_inShape (w : NDArray Int) (sh p o : List Nat) (hw : w.shape.length = sh.length) (hp : InShape sh p)
    (ho : InShape w.shape o) : InShape sh (readIndex w sh p o) := by
  have hl : (kernelPosition w.shape p o).length = sh.length := by
    rw [kernelPosition_length _ _ _ ((inShape_length sh p hp).trans hw.symm) (inShape_length _ _ ho), hw]
  obtain ⟨i, h1, h2⟩ := extendIndices_spec .reflect sh (kernelPosition w.shape p o) hl (inShape_pos sh p hp) (by simp)
  unfold readIndex
  rw [h1]
  exact h2

theorem correlate_tendsto (ha : Approaches f l x) (w : NDArray Int) (hw : w.shape.length = x.shape.length) (p : List Nat)
    (hp : InShape x.shape p) : Tendsto (fun q => (gradient floatOps w (f q)).get p) l (nhds ((gradient floatOps w x).get p)) := by
  show Tendsto (fun q => correlateAt w (f q) p) l (nhds (correlateAt w x p))
  have h1 : Tendsto (fun q => ((indices w.shape).map (fun o => (w.get o : Rat) * (f q).get (readIndex w x.shape p o))).sum) l
      (nhds (correlateAt w x p)) := by
    rw [correlateAt_eq]
    refine tendsto_list_sum (indices w.shape) (fun o ho => ?_)
    exact (ha.2 _ (readIndex_inShape w x.shape p o hw hp (inShape_of_mem_indices _ _ ho))).const_mul _
  refine h1.congr' ?_
  filter_upwards [ha.1] with q hq
  rw [correlateAt_eq, hq]

theorem gradient_approaches (ha : Approaches f l x) (w : NDArray Int) (hw : w.shape.length = x.shape.length) :
    Approaches (fun q => gradient floatOps w (f q)) l (gradient floatOps w x) :=
  ⟨ha.1, fun i hi => correlate_tendsto ha w hw i hi⟩

theorem toList_map (x : NDArray Rat) (g : Rat → Rat) : (x.toList.map g) = (indices x.shape).map (fun i => g (x.get i)) := by
  unfold NDArray.toList
  rw [List.map_map]; rfl

theorem toList_length (x : NDArray Rat) : x.toList.length = (indices x.shape).length := by
  unfold NDArray.toList; simp

theorem meanAbs_tendsto (ha : Approaches f l x) : Tendsto (fun q => meanAbs (f q)) l (nhds (meanAbs x)) := by
  have h1 : Tendsto (fun q => ((indices x.shape).map (fun i => ratAbs ((f q).get i))).sum / ((indices x.shape).length : Rat)) l
      (nhds (meanAbs x)) := by
    unfold meanAbs
    rw [toList_map, toList_length]
    refine Tendsto.div_const (tendsto_list_sum _ (fun i hi => ?_)) _
    simp only [ratAbs_eq]
    exact (ha.2 i (inShape_of_mem_indices _ _ hi)).abs
  refine h1.congr' ?_
  filter_upwards [ha.1] with q hq
  unfold meanAbs
  rw [toList_map, toList_length, hq]

theorem largest_tendsto (L : List (List Nat)) (a : List Nat) (ha : ∀ i ∈ a :: L, Tendsto (fun q => (f q).get i) l (nhds (x.get i))) :
    Tendsto (fun q => largest ((f q).get a) (L.map (f q).get)) l (nhds (largest (x.get a) (L.map x.get))) := by
  have key : ∀ (L : List (List Nat)) (u : α → Rat) (v : Rat), Tendsto u l (nhds v) →
      (∀ i ∈ L, Tendsto (fun q => (f q).get i) l (nhds (x.get i))) →
      Tendsto (fun q => largest (u q) (L.map (f q).get)) l (nhds (largest v (L.map x.get))) := by
    intro L
    induction L with
    | nil => intro u v hu _; simpa [largest] using hu
    | cons i L ih =>
      intro u v hu h
      have hm : ∀ a b : Rat, (if a < b then b else a) = max a b := by
        intro a b
        split
        · rename_i hlt; rw [max_eq_right hlt.le]
        · rename_i hlt; rw [max_eq_left (not_lt.1 hlt)]
      simp only [List.map_cons, largest, hm]
      exact ih _ _ (hu.max (h i (by simp))) (fun j hj => h j (by simp [hj]))
  exact key L _ _ (ha a (by simp)) (fun i hi => ha i (by simp [hi]))

/-- The strongest gradient image is the one of the kernel with the largest mean response. -/
theorem strongest_unique (z : NDArray Rat) (w w0 : NDArray Int) (ws : List (NDArray Int)) (hw : w ∈ w0 :: ws)
    (h : ∀ w' ∈ w0 :: ws, w' ≠ w → meanAbs (gradient floatOps w' z) < meanAbs (gradient floatOps w z)) :
    strongest (gradient floatOps w0 z) (ws.map (fun w => gradient floatOps w z)) = gradient floatOps w z := by
  have hmem := strongest_mem (gradient floatOps w0 z) (ws.map (fun w => gradient floatOps w z))
  have hmax := strongest_max (gradient floatOps w0 z) (ws.map (fun w => gradient floatOps w z))
  rw [← List.map_cons (f := fun w => gradient floatOps w z)] at hmem hmax
  obtain ⟨w', hw', he⟩ := List.mem_map.1 hmem
  by_cases hne : w' = w
  · rw [← he, hne]
  · exfalso
    have h1 := h w' hw' hne
    have h2 := hmax _ (List.mem_map.2 ⟨w, hw, rfl⟩)
    rw [← he] at h2
    exact absurd h1 (not_lt.2 h2)

/-- The largest gradient of both images. -/
def topOf (gr gm : NDArray Rat) (i0 : List Nat) (I : List (List Nat)) : Rat :=
  largest (largest (gr.get i0) (I.map gr.get)) [largest (gm.get i0) (I.map gm.get)]

/-- Quality of a pixel as a number. -/
def pixelQuality (p k dr gr gm d a b : Rat) : Rat :=
  combine p (conNum k (|gr - gm| / d) / conDen k (|gr - gm| / d)) (1 - ((a - b) / dr) ^ 2)

theorem conDen_pos (k r : Rat) (hk : 0 ≤ k) : 0 < conDen k r := by
  unfold conDen; positivity

theorem nanMean_numbers (L : List (List Nat)) (q : List Nat → Rat) (hL : L ≠ []) :
    nanMean (L.map (fun i => Quality.val (q i))) = .ok ((L.map q).sum / L.length) := by
  have hf : (L.map (fun i => Quality.val (q i))).filterMap (fun | .val q => some q | _ => none) = L.map q := by
    clear hL
    induction L with
    | nil => rfl
    | cons i L ih => rw [List.map_cons, List.filterMap_cons, ih]; rfl
  unfold nanMean
  rw [if_neg (by simp)]
  simp only
  generalize hvs : List.filterMap _ (L.map (fun i => Quality.val (q i))) = vs
  have he : vs = L.map q := by rw [← hvs]; exact hf
  rw [he, if_neg (by simpa using hL), List.length_map]

theorem gsm_formula (dr c p : Rat) (hc : 0 ≤ c) (x y : NDArray Rat) (hs : y.shape = x.shape) (w v w0 : NDArray Int)
    (ws : List (NDArray Int)) (hw : w ∈ w0 :: ws) (hv : v ∈ w0 :: ws)
    (hx : ∀ w' ∈ w0 :: ws, w' ≠ w → meanAbs (gradient floatOps w' x) < meanAbs (gradient floatOps w x))
    (hy : ∀ w' ∈ w0 :: ws, w' ≠ v → meanAbs (gradient floatOps w' y) < meanAbs (gradient floatOps v y))
    (d : NDArray Rat) (hd : strongest (gradient floatOps w x) [gradient floatOps v y] = d)
    (i0 : List Nat) (I : List (List Nat)) (hI : indices x.shape = i0 :: I)
    (hd0 : ∀ i ∈ indices x.shape, d.get i ≠ 0)
    (htop : 0 < topOf (gradient floatOps w x) (gradient floatOps v y) i0 I) :
    gsmWith floatOps dr c p x y w0 ws = .ok (((indices x.shape).map (fun i =>
      pixelQuality p (c / topOf (gradient floatOps w x) (gradient floatOps v y) i0 I) dr ((gradient floatOps w x).get i)
        ((gradient floatOps v y).get i) (d.get i) (x.get i) (y.get i))).sum / (indices x.shape).length) := by
  unfold gsmWith
  rw [strongest_unique x w w0 ws hw hx, strongest_unique y v w0 ws hv hy]
  have h1 : (gradient floatOps w x).toList = (gradient floatOps w x).get i0 :: I.map (gradient floatOps w x).get := by
    show (indices x.shape).map _ = _
    rw [hI]; rfl
  have h2 : (gradient floatOps v y).toList = (gradient floatOps v y).get i0 :: I.map (gradient floatOps v y).get := by
    show (indices y.shape).map _ = _
    rw [hs, hI]; rfl
  simp only [h1, h2, hd]
  rw [if_neg (by unfold topOf at htop; exact htop.ne')]
  rw [← nanMean_numbers _ _ (by rw [hI]; simp)]
  congr 1
  refine List.map_congr_left (fun i hi => ?_)
  unfold quality
  rw [if_neg (hd0 i hi)]
  unfold topOf at htop ⊢
  simp only
  rw [if_neg (conDen_pos _ _ (div_nonneg hc htop.le)).ne']
  simp only [ratAbs_eq]
  rfl

theorem pixelQuality_tendsto {p c dr : Rat} (hc : 0 ≤ c) {t gr gm d a b : α → Rat} {t' gr' gm' d' a' b' : Rat}
    (ht : Tendsto t l (nhds t')) (hgr : Tendsto gr l (nhds gr')) (hgm : Tendsto gm l (nhds gm')) (hd : Tendsto d l (nhds d'))
    (ha : Tendsto a l (nhds a')) (hb : Tendsto b l (nhds b')) (htop : 0 < t') (hd0 : d' ≠ 0) :
    Tendsto (fun q => pixelQuality p (c / t q) dr (gr q) (gm q) (d q) (a q) (b q)) l
      (nhds (pixelQuality p (c / t') dr gr' gm' d' a' b')) := by
  have hk : Tendsto (fun q => c / t q) l (nhds (c / t')) := tendsto_const_nhds.div ht htop.ne'
  have hr : Tendsto (fun q => |gr q - gm q| / d q) l (nhds (|gr' - gm'| / d')) := ((hgr.sub hgm).abs).div hd hd0
  have hnum : Tendsto (fun q => conNum (c / t q) (|gr q - gm q| / d q)) l (nhds (conNum (c / t') (|gr' - gm'| / d'))) :=
    ((tendsto_const_nhds.sub hr).const_mul 2).add hk
  have hden : Tendsto (fun q => conDen (c / t q) (|gr q - gm q| / d q)) l (nhds (conDen (c / t') (|gr' - gm'| / d'))) :=
    (tendsto_const_nhds.add ((tendsto_const_nhds.sub hr).pow 2)).add hk
  have hcon := hnum.div hden (conDen_pos (c / t') (|gr' - gm'| / d') (div_nonneg hc htop.le)).ne'
  have hlum : Tendsto (fun q => 1 - ((a q - b q) / dr) ^ 2) l (nhds (1 - ((a' - b') / dr) ^ 2)) :=
    tendsto_const_nhds.sub (((ha.sub hb).div_const dr).pow 2)
  exact ((tendsto_const_nhds.sub (hcon.const_mul p)).mul hcon).add ((hcon.const_mul p).mul hlum)

theorem strictly_stays (ha : Approaches f l x) (w w0 : NDArray Int) (ws : List (NDArray Int)) (hw : w ∈ w0 :: ws)
    (hlen : ∀ w' ∈ w0 :: ws, w'.shape.length = x.shape.length)
    (hx : ∀ w' ∈ w0 :: ws, w' ≠ w → meanAbs (gradient floatOps w' x) < meanAbs (gradient floatOps w x)) :
    ∀ᶠ q in l, ∀ w' ∈ w0 :: ws, w' ≠ w → meanAbs (gradient floatOps w' (f q)) < meanAbs (gradient floatOps w (f q)) := by
  have key : ∀ L : List (NDArray Int), (∀ w' ∈ L, w' ∈ w0 :: ws) → ∀ᶠ q in l, ∀ w' ∈ L, w' ≠ w →
      meanAbs (gradient floatOps w' (f q)) < meanAbs (gradient floatOps w (f q)) := by
    intro L
    induction L with
    | nil => intro _; simp
    | cons a L ih =>
      intro hL
      have h1 := ih (fun w' hw' => hL w' (by simp [hw']))
      by_cases hne : a = w
      · filter_upwards [h1] with q hq w' hw' hn
        rcases List.mem_cons.1 hw' with rfl | hw'
        · exact absurd hne hn
        · exact hq w' hw' hn
      · have h2 := (meanAbs_tendsto (gradient_approaches ha a (hlen a (hL a (by simp))))).eventually_lt
          (meanAbs_tendsto (gradient_approaches ha w (hlen w hw))) (hx a (hL a (by simp)) hne)
        filter_upwards [h1, h2] with q hq hq2 w' hw' hn
        rcases List.mem_cons.1 hw' with rfl | hw'
        · exact hq2
        · exact hq w' hw' hn
  exact key _ (fun _ h => h)

/-- The gradient similarity of images that approach two images approaches their gradient similarity. -/
theorem gsmWith_tendsto {y : NDArray Rat} {g : α → NDArray Rat} (ha : Approaches f l x) (hb : Approaches g l y)
    (dr c p : Rat) (hc : 0 ≤ c) (hs : y.shape = x.shape) (w v w0 : NDArray Int)
    (ws : List (NDArray Int)) (hw : w ∈ w0 :: ws) (hv : v ∈ w0 :: ws) (hlen : ∀ w' ∈ w0 :: ws, w'.shape.length = x.shape.length)
    (hx : ∀ w' ∈ w0 :: ws, w' ≠ w → meanAbs (gradient floatOps w' x) < meanAbs (gradient floatOps w x))
    (hy : ∀ w' ∈ w0 :: ws, w' ≠ v → meanAbs (gradient floatOps w' y) < meanAbs (gradient floatOps v y))
    (hne : meanAbs (gradient floatOps w x) ≠ meanAbs (gradient floatOps v y))
    (hd0 : ∀ i, InShape x.shape i → (strongest (gradient floatOps w x) [gradient floatOps v y]).get i ≠ 0)
    (hpos : ∃ i, InShape x.shape i ∧ (0 < (gradient floatOps w x).get i ∨ 0 < (gradient floatOps v y).get i)) :
    ∃ r, gsmWith floatOps dr c p x y w0 ws = .ok r ∧ ∃ R : α → Rat,
      (∀ᶠ q in l, gsmWith floatOps dr c p (f q) (g q) w0 ws = .ok (R q)) ∧ Tendsto R l (nhds r) := by
  obtain ⟨j, hj, hjp⟩ := hpos
  have hjm := mem_indices_of_inShape _ _ hj
  obtain ⟨i0, I, hI⟩ : ∃ i0 I, indices x.shape = i0 :: I := by
    cases h : indices x.shape with
    | nil => rw [h] at hjm; simp at hjm
    | cons a L => exact ⟨a, L, rfl⟩
  have hin : ∀ i ∈ indices x.shape, InShape x.shape i := fun i hi => inShape_of_mem_indices _ _ hi
  have ga := gradient_approaches ha w (hlen w hw)
  have gb := gradient_approaches hb v ((hlen v hv).trans (by rw [hs]))
  have htop : 0 < topOf (gradient floatOps w x) (gradient floatOps v y) i0 I := by
    unfold topOf
    have l1 := largest_le (largest ((gradient floatOps w x).get i0) (I.map (gradient floatOps w x).get))
      [largest ((gradient floatOps v y).get i0) (I.map (gradient floatOps v y).get)]
    have l2 := largest_le ((gradient floatOps w x).get i0) (I.map (gradient floatOps w x).get)
    have l3 := largest_le ((gradient floatOps v y).get i0) (I.map (gradient floatOps v y).get)
    have m2 : ∀ z : NDArray Rat, z.get j ∈ z.get i0 :: I.map z.get := by
      intro z
      rw [← List.map_cons, ← hI]
      exact List.mem_map_of_mem hjm
    rcases hjp with h | h
    · exact lt_of_lt_of_le (lt_of_lt_of_le h (l2 _ (m2 _))) (l1 _ (by simp))
    · exact lt_of_lt_of_le (lt_of_lt_of_le h (l3 _ (m2 _))) (l1 _ (by simp))
  have ttop : Tendsto (fun q => topOf (gradient floatOps w (f q)) (gradient floatOps v (g q)) i0 I) l
      (nhds (topOf (gradient floatOps w x) (gradient floatOps v y) i0 I)) := by
    have hm : ∀ a b : Rat, largest a [b] = max a b := by
      intro a b
      simp only [largest]
      split
      · rename_i hlt; rw [max_eq_right hlt.le]
      · rename_i hlt; rw [max_eq_left (not_lt.1 hlt)]
    unfold topOf
    simp only [hm]
    refine (largest_tendsto I i0 (fun i hi => ga.2 i (hin i (by rw [hI]; exact hi)))).max
      (largest_tendsto I i0 (fun i hi => gb.2 i ?_))
    show InShape y.shape i
    rw [hs]; exact hin i (by rw [hI]; exact hi)
  -- the divisor is the gradient of the same image
  obtain ⟨D, hDe, hDt⟩ : ∃ D : α → NDArray Rat, (∀ᶠ q in l, strongest (gradient floatOps w (f q)) [gradient floatOps v (g q)] = D q) ∧
      Approaches D l (strongest (gradient floatOps w x) [gradient floatOps v y]) := by
    simp only [strongest]
    rcases lt_or_gt_of_ne hne with h | h
    · rw [if_pos h]
      refine ⟨_, ?_, gb⟩
      filter_upwards [(meanAbs_tendsto ga).eventually_lt (meanAbs_tendsto gb) h] with q hq
      rw [if_pos hq]
    · rw [if_neg (not_lt.2 h.le)]
      refine ⟨_, ?_, ga⟩
      filter_upwards [(meanAbs_tendsto gb).eventually_lt (meanAbs_tendsto ga) h] with q hq
      rw [if_neg (not_lt.2 hq.le)]
  have hDs : (strongest (gradient floatOps w x) [gradient floatOps v y]).shape = x.shape := by
    have := strongest_mem (gradient floatOps w x) [gradient floatOps v y]
    simp only [List.mem_cons, List.not_mem_nil, or_false] at this
    rcases this with h | h
    · rw [h]; rfl
    · rw [h]; exact hs
  refine ⟨_, gsm_formula dr c p hc x y hs w v w0 ws hw hv hx hy _ rfl i0 I hI (fun i hi => hd0 i (hin i hi)) htop,
    fun q => ((indices x.shape).map (fun i =>
      pixelQuality p (c / topOf (gradient floatOps w (f q)) (gradient floatOps v (g q)) i0 I) dr ((gradient floatOps w (f q)).get i)
        ((gradient floatOps v (g q)).get i) ((D q).get i) ((f q).get i) ((g q).get i))).sum / (indices x.shape).length, ?_, ?_⟩
  · have hnz : ∀ᶠ q in l, ∀ i ∈ indices x.shape, (D q).get i ≠ 0 := by
      have key : ∀ L : List (List Nat), (∀ i ∈ L, i ∈ indices x.shape) → ∀ᶠ q in l, ∀ i ∈ L, (D q).get i ≠ 0 := by
        intro L
        induction L with
        | nil => intro _; simp
        | cons a L ih =>
          intro hL
          have h1 := ih (fun i hi => hL i (by simp [hi]))
          have hai := hin a (hL a (by simp))
          have h2 := (hDt.2 a (by rw [hDs]; exact hai)).eventually_ne (hd0 a hai)
          filter_upwards [h1, h2] with q hq hq2 i hi
          rcases List.mem_cons.1 hi with rfl | hi
          · exact hq2
          · exact hq i hi
      exact key _ (fun _ h => h)
    filter_upwards [ha.1, hb.1, strictly_stays ha w w0 ws hw hlen hx,
      strictly_stays hb v w0 ws hv (fun w' hw' => (hlen w' hw').trans (by rw [hs])) hy, hDe, hnz,
      ttop.eventually_const_lt htop] with q e1 e2 e3 e4 e5 e6 e7
    have := gsm_formula dr c p hc (f q) (g q) (by rw [e1, e2, hs]) w v w0 ws hw hv e3 e4 (D q) e5 i0 I (by rw [e1, hI])
      (by rw [e1]; exact e6) e7
    rw [this, e1]
  · refine Tendsto.div_const (tendsto_list_sum _ (fun i hi => ?_)) _
    exact pixelQuality_tendsto hc ttop (ga.2 i (hin i hi)) (gb.2 i (by show InShape y.shape i; rw [hs]; exact hin i hi))
      (hDt.2 i (by rw [hDs]; exact hin i hi)) (ha.2 i (hin i hi)) (hb.2 i (by rw [hs]; exact hin i hi)) htop (hd0 i (hin i hi))

end

/-- The kernels for the dimension of the image. -/
def kernelsOf (x : NDArray Rat) : List (NDArray Int) := if x.ndim = 3 then kernels3d else kernels2d

/-- Of all kernels, `w` responds most strongly to the image, and no other kernel equally strongly. -/
def Spec.Decided (x : NDArray Rat) (w : NDArray Int) : Prop :=
  w ∈ kernelsOf x ∧ ∀ w' ∈ kernelsOf x, w' ≠ w → meanAbs (gradient floatOps w' x) < meanAbs (gradient floatOps w x)

/-- **C167 (partial).** Gradient similarity of floating point planes and volumes, for all constants `c ≥ 0`: if for each
image one kernel is strictly strongest, the strengths of both images differ, the stronger of the two gradients vanishes
nowhere and some gradient is positive, then the score exists, and for every tolerance of the score there is a tolerance of
the pixels so that all images within it have a score within the tolerance. -/
theorem C167_partial (dr c p : Rat) (hc : 0 ≤ c) (x y : NDArray Rat) (hs : y.shape = x.shape) (hd : x.ndim = 2 ∨ x.ndim = 3)
    (w v : NDArray Int) (hw : Spec.Decided x w) (hv : Spec.Decided y v)
    (hne : meanAbs (gradient floatOps w x) ≠ meanAbs (gradient floatOps v y))
    (hd0 : ∀ i, InShape x.shape i → (if meanAbs (gradient floatOps w x) < meanAbs (gradient floatOps v y)
      then gradient floatOps v y else gradient floatOps w x).get i ≠ 0)
    (hpos : ∃ i, InShape x.shape i ∧ (0 < (gradient floatOps w x).get i ∨ 0 < (gradient floatOps v y).get i)) :
    ∃ r, gradientSimilarity floatOps dr c p x y = .ok r ∧ ∀ ε > 0, ∃ δ > 0, ∀ x' y', Spec.Within δ x x' → Spec.Within δ y y' →
      ∃ r', gradientSimilarity floatOps dr c p x' y' = .ok r' ∧ |r' - r| < ε := by
  have hyd : y.ndim = x.ndim := by unfold NDArray.ndim; rw [hs]
  have key : ∀ w0 ws, (∀ z : NDArray Rat, z.ndim = x.ndim → kernelsOf z = w0 :: ws) →
      (∀ w' ∈ w0 :: ws, w'.shape.length = x.shape.length) →
      (∀ z z' : NDArray Rat, z.ndim = x.ndim → gradientSimilarity floatOps dr c p z z' = gsmWith floatOps dr c p z z' w0 ws) →
      ∃ r, gradientSimilarity floatOps dr c p x y = .ok r ∧ ∀ ε > 0, ∃ δ > 0, ∀ x' y', Spec.Within δ x x' → Spec.Within δ y y' →
      ∃ r', gradientSimilarity floatOps dr c p x' y' = .ok r' ∧ |r' - r| < ε := by
    intro w0 ws hk hlen hg
    unfold Spec.Decided at hw hv
    rw [hk x rfl] at hw
    rw [hk y hyd] at hv
    obtain ⟨r, h1, R, h2, h3⟩ := gsmWith_tendsto (α := NDArray Rat × NDArray Rat)
      (within_approaches x y Prod.fst x (fun δ _ q h => h.1)) (within_approaches x y Prod.snd y (fun δ _ q h => h.2))
      dr c p hc hs w v w0 ws hw.1 hv.1 hlen hw.2 hv.2 hne (by simpa only [strongest] using hd0) hpos
    refine ⟨r, by rw [hg x y rfl, h1], fun ε hε => ?_⟩
    have h4 : ∀ᶠ q in nearPair x y, gsmWith floatOps dr c p q.1 q.2 w0 ws = .ok (R q) ∧ |R q - r| < ε := by
      rw [Metric.tendsto_nhds] at h3
      filter_upwards [h2, h3 ε (by exact_mod_cast hε)] with q e1 e2
      refine ⟨e1, ?_⟩
      rw [Rat.dist_eq] at e2
      exact_mod_cast e2
    rw [(nearPair_basis x y).eventually_iff] at h4
    obtain ⟨δ, hδ, h5⟩ := h4
    refine ⟨δ, hδ, fun x' y' hx' hy' => ?_⟩
    obtain ⟨e1, e2⟩ := h5 (x := (x', y')) ⟨hx', hy'⟩
    exact ⟨R (x', y'), by rw [hg x' y' (by unfold NDArray.ndim; rw [hx'.1]), e1], e2⟩
  rcases hd with hd | hd
  · refine key gsmKernel2dX kernels2d.tail (fun z hz => ?_) ?_ (fun z z' hz => ?_)
    · unfold kernelsOf; rw [if_neg (by omega)]; rfl
    · have : ∀ w' ∈ gsmKernel2dX :: kernels2d.tail, w'.shape.length = 2 := by decide +kernel
      intro w' hw'; rw [this w' hw']; exact hd.symm
    · unfold gradientSimilarity; rw [if_neg (by omega), if_pos (by omega)]
  · refine key gsmKernelX kernels3d.tail (fun z hz => ?_) ?_ (fun z z' hz => ?_)
    · unfold kernelsOf; rw [if_pos (by omega)]; rfl
    · have : ∀ w' ∈ gsmKernelX :: kernels3d.tail, w'.shape.length = 3 := by decide +kernel
      intro w' hw'; rw [this w' hw']; exact hd.symm
    · unfold gradientSimilarity; rw [if_pos (by omega)]

theorem row_inShape (l : List Rat) (i : List Nat) : InShape (row l).shape i ↔ ∃ j < l.length, i = [0, j] := by
  constructor
  · intro h
    match i, h with
    | [a, b], h =>
      have h0 : a < 1 := h.1
      exact ⟨b, h.2.1, by simp; omega⟩
  · rintro ⟨j, hj, rfl⟩
    exact ⟨by simp, hj, trivial⟩

/-- A row of two ramps of different strength: the score is stable. -/
example : ∃ r, gradientSimilarity floatOps 255 200 (1 / 10) (row [0, 10, 20]) (row [0, 12, 24]) = .ok r ∧ ∀ ε > 0, ∃ δ > 0, ∀ x' y',
    Spec.Within δ (row [0, 10, 20]) x' → Spec.Within δ (row [0, 12, 24]) y' →
      ∃ r', gradientSimilarity floatOps 255 200 (1 / 10) x' y' = .ok r' ∧ |r' - r| < ε := by
  have hdec : ∀ a, a = row [0, 10, 20] ∨ a = row [0, 12, 24] → Spec.Decided a gsmKernel2dX := by
    intro a ha
    refine ⟨by rcases ha with rfl | rfl <;> exact List.mem_cons_self .., ?_⟩
    have : kernelsOf a = kernels2d := by rcases ha with rfl | rfl <;> rfl
    rw [this]
    intro w' hw' hne
    simp only [kernels2d, List.mem_cons, List.not_mem_nil, or_false] at hw'
    rcases hw' with rfl | rfl | rfl | rfl
    · exact absurd rfl hne
    all_goals rcases ha with rfl | rfl <;> decide +kernel
  refine C167_partial _ _ _ (by norm_num) _ _ rfl (Or.inl rfl) _ _ (hdec _ (Or.inl rfl)) (hdec _ (Or.inr rfl)) (by decide +kernel) ?_
    ⟨[0, 0], by simp [row, InShape], Or.inl (by decide +kernel)⟩
  rw [if_pos (by decide +kernel)]
  intro i hi
  obtain ⟨j, hj, rfl⟩ := (row_inShape _ _).1 hi
  revert j; decide +kernel

/-! ### Jumps -/

/-- Pixelwise `a + t * b`. -/
def mixed (a b : List Rat) (t : Rat) : NDArray Rat := ⟨[1, a.length], fun i => (row a).get i + t * (row b).get i⟩

theorem gradient_mixed (a b : List Rat) (hl : a.length = b.length) (t : Rat) (w : NDArray Int) (i : List Nat) :
    (gradient floatOps w (mixed a b t)).get i = (gradient floatOps w (row a)).get i + t * (gradient floatOps w (row b)).get i := by
  show correlateAt w (mixed a b t) i = correlateAt w (row a) i + t * correlateAt w (row b) i
  rw [correlateAt_eq, correlateAt_eq, correlateAt_eq]
  have h1 : (row a).shape = [1, a.length] := rfl
  have h2 : (row b).shape = [1, a.length] := by rw [hl]; rfl
  have h3 : (mixed a b t).shape = [1, a.length] := rfl
  rw [h1, h2, h3, mul_comm t, ← ratsum_mul, ← ratsum_map_add]
  congr 1
  refine List.map_congr_left (fun o _ => ?_)
  show (w.get o : Rat) * ((row a).get _ + t * (row b).get _) = _
  ring

theorem indices_row (n : Nat) : indices [1, n] = (List.range n).map (fun j => [0, j]) := by
  simp [indices, List.range_succ, List.flatMap]
  induction List.range n with
  | nil => rfl
  | cons a l ih => simp [ih]

theorem meanAbs_mixed (a b : List Rat) (hl : a.length = b.length) (t : Rat) (w : NDArray Int) :
    meanAbs (gradient floatOps w (mixed a b t)) = ((List.range a.length).map (fun j =>
      |(gradient floatOps w (row a)).get [0, j] + t * (gradient floatOps w (row b)).get [0, j]|)).sum / a.length := by
  unfold meanAbs
  rw [toList_map, toList_length]
  have h3 : (gradient floatOps w (mixed a b t)).shape = [1, a.length] := rfl
  rw [h3, indices_row, List.map_map]
  simp only [List.length_map, List.length_range]
  congr 2
  refine List.map_congr_left (fun j _ => ?_)
  simp only [Function.comp, ratAbs_eq, gradient_mixed a b hl]

/-- A row with an edge. -/
def edgeRow : List Rat := [1, 1, 1, 255]

theorem edge_decided : ∀ w' ∈ gsmKernel2dX :: kernels2d.tail, w' ≠ gsmKernel2dX →
    meanAbs (gradient floatOps w' (row edgeRow)) < meanAbs (gradient floatOps gsmKernel2dX (row edgeRow)) := by
  intro w' hw' hne
  have h : ∀ w'' ∈ kernels2d.tail, meanAbs (gradient floatOps w'' (row edgeRow)) < meanAbs (gradient floatOps gsmKernel2dX (row edgeRow)) := by
    decide +kernel
  rcases List.mem_cons.1 hw' with rfl | hw'
  · exact absurd rfl hne
  · exact h w' hw'

theorem edge_responses : (∀ j < 4, (gradient floatOps gsmKernel2dX (row edgeRow)).get [0, j] = [0, 0, 4064, 4064].getD j 0) ∧
    (∀ j < 4, (gradient floatOps gsmKernel2dX (row [-1, 0, 0, 0])).get [0, j] = [16, 16, 0, 0].getD j 0) ∧
    (∀ j < 4, (gradient floatOps gsmKernel2dY (row edgeRow)).get [0, j] = 0) ∧
    (∀ j < 4, (gradient floatOps gsmKernel2dY (row [-1, 0, 0, 0])).get [0, j] = 0) ∧
    (∀ j < 4, (gradient floatOps gsmKernel2dXy (row edgeRow)).get [0, j] = [0, 254, -1016, -1270].getD j 0) ∧
    (∀ j < 4, (gradient floatOps gsmKernel2dXy (row [-1, 0, 0, 0])).get [0, j] = [-5, -4, 1, 0].getD j 0) ∧
    (∀ j < 4, (gradient floatOps gsmKernel2dYx (row edgeRow)).get [0, j] = [0, -254, 1016, 1270].getD j 0) ∧
    (∀ j < 4, (gradient floatOps gsmKernel2dYx (row [-1, 0, 0, 0])).get [0, j] = [5, 4, -1, 0].getD j 0) := by
  decide +kernel

theorem edge_mixed_decided (t : Rat) (ht : 0 < t) (ht1 : t ≤ 1) : ∀ w' ∈ gsmKernel2dX :: kernels2d.tail, w' ≠ gsmKernel2dX →
    meanAbs (gradient floatOps w' (mixed edgeRow [-1, 0, 0, 0] t)) <
      meanAbs (gradient floatOps gsmKernel2dX (mixed edgeRow [-1, 0, 0, 0] t)) := by
  obtain ⟨a1, a2, b1, b2, c1, c2, d1, d2⟩ := edge_responses
  have hr : List.range edgeRow.length = [0, 1, 2, 3] := by decide
  have hX : meanAbs (gradient floatOps gsmKernel2dX (mixed edgeRow [-1, 0, 0, 0] t)) = (8128 + 32 * t) / 4 := by
    rw [meanAbs_mixed edgeRow [-1, 0, 0, 0] rfl, hr]
    simp only [List.map_cons, List.map_nil, a1 0 (by omega), a1 1 (by omega), a1 2 (by omega), a1 3 (by omega),
      a2 0 (by omega), a2 1 (by omega), a2 2 (by omega), a2 3 (by omega)]
    norm_num [edgeRow, abs_of_pos, ht]
    ring
  rw [hX]
  intro w' hw' hne
  simp only [kernels2d, List.tail_cons, List.mem_cons, List.not_mem_nil, or_false] at hw'
  rcases hw' with rfl | rfl | rfl | rfl
  · exact absurd rfl hne
  · rw [meanAbs_mixed edgeRow [-1, 0, 0, 0] rfl, hr]
    simp only [List.map_cons, List.map_nil, b1 0 (by omega), b1 1 (by omega), b1 2 (by omega), b1 3 (by omega),
      b2 0 (by omega), b2 1 (by omega), b2 2 (by omega), b2 3 (by omega)]
    norm_num
    linarith
  · rw [meanAbs_mixed edgeRow [-1, 0, 0, 0] rfl, hr]
    simp only [List.map_cons, List.map_nil, c1 0 (by omega), c1 1 (by omega), c1 2 (by omega), c1 3 (by omega),
      c2 0 (by omega), c2 1 (by omega), c2 2 (by omega), c2 3 (by omega)]
    simp only [List.getD_cons_zero, List.getD_cons_succ, List.sum_cons, List.sum_nil]
    rw [abs_of_nonpos (by linarith : (0 : Rat) + t * -5 ≤ 0), abs_of_nonneg (by linarith : (0 : Rat) ≤ 254 + t * -4),
      abs_of_nonpos (by linarith : (-1016 : Rat) + t * 1 ≤ 0), abs_of_nonpos (by linarith : (-1270 : Rat) + t * 0 ≤ 0)]
    norm_num [edgeRow]
    linarith
  · rw [meanAbs_mixed edgeRow [-1, 0, 0, 0] rfl, hr]
    simp only [List.map_cons, List.map_nil, d1 0 (by omega), d1 1 (by omega), d1 2 (by omega), d1 3 (by omega),
      d2 0 (by omega), d2 1 (by omega), d2 2 (by omega), d2 3 (by omega)]
    simp only [List.getD_cons_zero, List.getD_cons_succ, List.sum_cons, List.sum_nil]
    rw [abs_of_nonneg (by linarith : (0 : Rat) ≤ 0 + t * 5), abs_of_nonpos (by linarith : (-254 : Rat) + t * 4 ≤ 0),
      abs_of_nonneg (by linarith : (0 : Rat) ≤ 1016 + t * -1), abs_of_nonneg (by linarith : (0 : Rat) ≤ 1270 + t * 0)]
    norm_num [edgeRow]
    linarith

/-- **C167 (refuted).** A pixel without gradient is left out of the mean, but a pixel with any gradient, however small, is
compared with it: the row 1, 1, 1, 255 has the score 1 with itself, but less than 0.6 with copies arbitrarily close to it
(for the default parameters). -/
theorem C167_refuted : gradientSimilarity floatOps 255 200 (1 / 10) (row edgeRow) (row edgeRow) = .ok 1 ∧
    ∀ δ > 0, ∃ x', Spec.Within δ (row edgeRow) x' ∧
      ∃ r, gradientSimilarity floatOps 255 200 (1 / 10) (row edgeRow) x' = .ok r ∧ r < 3 / 5 := by
  refine ⟨by decide +kernel, fun δ hδ => ?_⟩
  obtain ⟨t, ht, ht1, htδ⟩ : ∃ t : Rat, 0 < t ∧ t ≤ 1 ∧ t < δ :=
    ⟨min (δ / 2) 1, lt_min (by linarith) (by norm_num), min_le_right _ _, lt_of_le_of_lt (min_le_left _ _) (by linarith)⟩
  refine ⟨mixed edgeRow [-1, 0, 0, 0] t, ⟨rfl, ?_⟩, ?_⟩
  · intro i hi
    obtain ⟨j, hj, rfl⟩ := (row_inShape _ _).1 hi
    show |(row edgeRow).get [0, j] + t * (row [-1, 0, 0, 0]).get [0, j] - (row edgeRow).get [0, j]| < δ
    have hj4 : j = 0 ∨ j = 1 ∨ j = 2 ∨ j = 3 := by have : j < 4 := hj; omega
    rcases hj4 with rfl | rfl | rfl | rfl <;> norm_num [row, abs_of_pos ht, htδ, hδ]
  obtain ⟨a1, a2, -⟩ := edge_responses
  have hI : indices (row edgeRow).shape = [0, 0] :: [[0, 1], [0, 2], [0, 3]] := by decide
  have hg : ∀ j < 4, (gradient floatOps gsmKernel2dX (mixed edgeRow [-1, 0, 0, 0] t)).get [0, j] = [16 * t, 16 * t, 4064, 4064].getD j 0 := by
    intro j hj
    rw [gradient_mixed edgeRow [-1, 0, 0, 0] rfl, a1 j hj, a2 j hj]
    have hj4 : j = 0 ∨ j = 1 ∨ j = 2 ∨ j = 3 := by omega
    rcases hj4 with rfl | rfl | rfl | rfl <;> norm_num <;> ring
  have hX : meanAbs (gradient floatOps gsmKernel2dX (mixed edgeRow [-1, 0, 0, 0] t)) = (8128 + 32 * t) / 4 := by
    have hr : List.range edgeRow.length = [0, 1, 2, 3] := by decide
    rw [meanAbs_mixed edgeRow [-1, 0, 0, 0] rfl, hr]
    simp only [List.map_cons, List.map_nil, a1 0 (by omega), a1 1 (by omega), a1 2 (by omega), a1 3 (by omega),
      a2 0 (by omega), a2 1 (by omega), a2 2 (by omega), a2 3 (by omega)]
    norm_num [edgeRow, abs_of_pos, ht]
    ring
  have hX0 : meanAbs (gradient floatOps gsmKernel2dX (row edgeRow)) = 2032 := by decide +kernel
  have hst : strongest (gradient floatOps gsmKernel2dX (row edgeRow)) [gradient floatOps gsmKernel2dX (mixed edgeRow [-1, 0, 0, 0] t)] =
      gradient floatOps gsmKernel2dX (mixed edgeRow [-1, 0, 0, 0] t) := by
    simp only [strongest]
    rw [if_pos (by rw [hX, hX0]; linarith)]
  have htop : topOf (gradient floatOps gsmKernel2dX (row edgeRow)) (gradient floatOps gsmKernel2dX (mixed edgeRow [-1, 0, 0, 0] t))
      [0, 0] [[0, 1], [0, 2], [0, 3]] = 4064 := by
    unfold topOf
    simp only [List.map_cons, List.map_nil, a1 0 (by omega), a1 1 (by omega), a1 2 (by omega), a1 3 (by omega),
      hg 0 (by omega), hg 1 (by omega), hg 2 (by omega), hg 3 (by omega)]
    simp only [List.getD_cons_zero, List.getD_cons_succ, largest]
    have h16 : 16 * t < 4064 := by linarith
    simp [h16]
  have hf := gsm_formula 255 200 (1 / 10) (by norm_num) (row edgeRow) (mixed edgeRow [-1, 0, 0, 0] t) rfl gsmKernel2dX gsmKernel2dX
    gsmKernel2dX kernels2d.tail (by simp) (by simp) edge_decided (edge_mixed_decided t ht ht1) _ hst [0, 0] _ hI
    (by
      intro i hi
      rw [hI] at hi
      simp only [List.mem_cons, List.not_mem_nil, or_false] at hi
      rcases hi with rfl | rfl | rfl | rfl
      · rw [hg 0 (by omega)]; simp; exact ht.ne'
      · rw [hg 1 (by omega)]; simp; exact ht.ne'
      · rw [hg 2 (by omega)]; simp
      · rw [hg 3 (by omega)]; simp)
    (by rw [htop]; norm_num)
  refine ⟨_, hf, ?_⟩
  rw [htop, hI]
  simp only [List.map_cons, List.map_nil, a1 0 (by omega), a1 1 (by omega), a1 2 (by omega), a1 3 (by omega),
      hg 0 (by omega), hg 1 (by omega), hg 2 (by omega), hg 3 (by omega)]
  simp only [List.getD_cons_zero, List.getD_cons_succ, List.sum_cons, List.sum_nil, List.length_cons, List.length_nil]
  have h1 : |0 - 16 * t| / (16 * t) = 1 := by
    rw [zero_sub, abs_neg, abs_of_pos (by linarith), div_self (by linarith)]
  unfold pixelQuality
  rw [h1]
  have hm0 : (mixed edgeRow [-1, 0, 0, 0] t).get [0, 0] = 1 - t := by simp [mixed, row, edgeRow]; ring
  have hm1 : (mixed edgeRow [-1, 0, 0, 0] t).get [0, 1] = 1 := by simp [mixed, row, edgeRow]
  have hm2 : (mixed edgeRow [-1, 0, 0, 0] t).get [0, 2] = 1 := by simp [mixed, row, edgeRow]
  have hm3 : (mixed edgeRow [-1, 0, 0, 0] t).get [0, 3] = 255 := by simp [mixed, row, edgeRow]
  rw [hm0, hm1, hm2, hm3]
  norm_num [combine, conNum, conDen, row, edgeRow]
  nlinarith [sq_nonneg t]

/-- **C167 (refuted), ties.** Also where no gradient vanishes: if both images have edges of the same strength, a change as small
as one likes decides by which of the two gradients the differences are divided, and the score jumps by more than 1. -/
theorem C167_tie_refuted : (∀ j < 3, (gradient floatOps gsmKernel2dX (row [0, 100, 200])).get [0, j] ≠ 0 ∧
      (gradient floatOps gsmKernel2dX (row [200, 100, 0])).get [0, j] ≠ 0) ∧
    ∀ δ > 0, ∃ y', Spec.Within δ (row [200, 100, 0]) y' ∧
      ∃ r r', gradientSimilarity floatOps 255 200 (1 / 10) (row [0, 100, 200]) (row [200, 100, 0]) = .ok r ∧
        gradientSimilarity floatOps 255 200 (1 / 10) (row [0, 100, 200]) y' = .ok r' ∧ 1 < r' - r := by
  refine ⟨by decide +kernel, fun δ hδ => ?_⟩
  obtain ⟨t, ht, ht1, htδ⟩ : ∃ t : Rat, 0 < t ∧ t ≤ 1 / 10 ∧ 200 * t < δ :=
    ⟨min (δ / 400) (1 / 10), lt_min (by linarith) (by norm_num), min_le_right _ _,
      lt_of_le_of_lt (mul_le_mul_of_nonneg_left (min_le_left _ _) (by norm_num)) (by linarith)⟩
  have hv : ∀ w ∈ kernels2d, ∀ j < 3, (gradient floatOps w (row [200, 100, 0])).get [0, j] =
      - (gradient floatOps w (row [0, 100, 200])).get [0, j] := by decide +kernel
  have hXv : ∀ j < 3, (gradient floatOps gsmKernel2dX (row [0, 100, 200])).get [0, j] = [1600, 3200, 1600].getD j 0 := by decide +kernel
  have hr : List.range ([200, 100, 0] : List Rat).length = [0, 1, 2] := by decide
  have hscale : ∀ w, meanAbs (gradient floatOps w (mixed [200, 100, 0] [200, 100, 0] t)) =
      (1 + t) * meanAbs (gradient floatOps w (row [200, 100, 0])) := by
    intro w
    have h0 := meanAbs_mixed [200, 100, 0] [200, 100, 0] rfl 0 w
    have h0' : meanAbs (gradient floatOps w (mixed [200, 100, 0] [200, 100, 0] 0)) = meanAbs (gradient floatOps w (row [200, 100, 0])) := by
      congr 2
      unfold mixed
      simp [row]
    rw [← h0', h0, meanAbs_mixed _ _ rfl, hr]
    simp only [List.map_cons, List.map_nil, List.sum_cons, List.sum_nil, zero_mul, add_zero]
    have hab : ∀ u : Rat, |u + t * u| = (1 + t) * |u| := by
      intro u
      rw [show u + t * u = (1 + t) * u by ring, abs_mul, abs_of_pos (by linarith : 0 < 1 + t)]
    rw [hab, hab, hab]
    ring
  have hdec : ∀ w' ∈ gsmKernel2dX :: kernels2d.tail, w' ≠ gsmKernel2dX →
      meanAbs (gradient floatOps w' (row [0, 100, 200])) < meanAbs (gradient floatOps gsmKernel2dX (row [0, 100, 200])) := by
    intro w' hw' hne
    have h : ∀ w'' ∈ kernels2d.tail, meanAbs (gradient floatOps w'' (row [0, 100, 200])) < meanAbs (gradient floatOps gsmKernel2dX (row [0, 100, 200])) := by
      decide +kernel
    rcases List.mem_cons.1 hw' with rfl | hw'
    · exact absurd rfl hne
    · exact h w' hw'
  have hdec' : ∀ w' ∈ gsmKernel2dX :: kernels2d.tail, w' ≠ gsmKernel2dX →
      meanAbs (gradient floatOps w' (row [200, 100, 0])) < meanAbs (gradient floatOps gsmKernel2dX (row [200, 100, 0])) := by
    intro w' hw' hne
    have h : ∀ w'' ∈ kernels2d.tail, meanAbs (gradient floatOps w'' (row [200, 100, 0])) < meanAbs (gradient floatOps gsmKernel2dX (row [200, 100, 0])) := by
      decide +kernel
    rcases List.mem_cons.1 hw' with rfl | hw'
    · exact absurd rfl hne
    · exact h w' hw'
  have hI : indices (row [0, 100, 200]).shape = [0, 0] :: [[0, 1], [0, 2]] := by decide
  have hg : ∀ j < 3, (gradient floatOps gsmKernel2dX (mixed [200, 100, 0] [200, 100, 0] t)).get [0, j] =
      [-1600 * (1 + t), -3200 * (1 + t), -1600 * (1 + t)].getD j 0 := by
    intro j hj
    rw [gradient_mixed _ _ rfl, hv gsmKernel2dX (by simp [kernels2d]) j hj, hXv j hj]
    have hj4 : j = 0 ∨ j = 1 ∨ j = 2 := by omega
    rcases hj4 with rfl | rfl | rfl <;> simp <;> ring
  have hst : strongest (gradient floatOps gsmKernel2dX (row [0, 100, 200]))
      [gradient floatOps gsmKernel2dX (mixed [200, 100, 0] [200, 100, 0] t)] =
      gradient floatOps gsmKernel2dX (mixed [200, 100, 0] [200, 100, 0] t) := by
    simp only [strongest]
    have e1 : meanAbs (gradient floatOps gsmKernel2dX (row [0, 100, 200])) = 6400 / 3 := by decide +kernel
    have e2 : meanAbs (gradient floatOps gsmKernel2dX (row [200, 100, 0])) = 6400 / 3 := by decide +kernel
    rw [if_pos (by rw [hscale, e1, e2]; linarith)]
  have htop : topOf (gradient floatOps gsmKernel2dX (row [0, 100, 200])) (gradient floatOps gsmKernel2dX (mixed [200, 100, 0] [200, 100, 0] t))
      [0, 0] [[0, 1], [0, 2]] = 3200 := by
    unfold topOf
    simp only [List.map_cons, List.map_nil, hXv 0 (by omega), hXv 1 (by omega), hXv 2 (by omega),
      hg 0 (by omega), hg 1 (by omega), hg 2 (by omega)]
    simp only [List.getD_cons_zero, List.getD_cons_succ, largest]
    have n1 : ¬ -1600 * (1 + t) < -3200 * (1 + t) := by linarith
    have n2 : ¬ (3200 : Rat) < -1600 * (1 + t) := by linarith
    have n3 : (1600 : Rat) < 3200 := by norm_num
    have n4 : ¬ (3200 : Rat) < 1600 := by norm_num
    rw [if_pos n3, if_neg n4, if_neg n1, if_neg (lt_irrefl _), if_neg n2]
  have hf := gsm_formula 255 200 (1 / 10) (by norm_num) (row [0, 100, 200]) (mixed [200, 100, 0] [200, 100, 0] t) rfl
    gsmKernel2dX gsmKernel2dX gsmKernel2dX kernels2d.tail (by simp) (by simp) hdec
    (by intro w' hw' hne; rw [hscale, hscale]; exact mul_lt_mul_of_pos_left (hdec' w' hw' hne) (by linarith)) _ hst [0, 0] _ hI
    (by
      intro i hi
      rw [hI] at hi
      simp only [List.mem_cons, List.not_mem_nil, or_false] at hi
      rcases hi with rfl | rfl | rfl
      · rw [hg 0 (by omega)]; simp; linarith
      · rw [hg 1 (by omega)]; simp; linarith
      · rw [hg 2 (by omega)]; simp; linarith)
    (by rw [htop]; norm_num)
  refine ⟨mixed [200, 100, 0] [200, 100, 0] t, ⟨rfl, ?_⟩, -15338707 / 14162445, _, by decide +kernel, hf, ?_⟩
  · intro i hi
    obtain ⟨j, hj, rfl⟩ := (row_inShape _ _).1 hi
    show |(row [200, 100, 0]).get [0, j] + t * (row [200, 100, 0]).get [0, j] - (row [200, 100, 0]).get [0, j]| < δ
    rw [add_sub_cancel_left, abs_mul, abs_of_pos ht]
    have hj4 : j = 0 ∨ j = 1 ∨ j = 2 := by have : j < 3 := hj; omega
    rcases hj4 with rfl | rfl | rfl <;> norm_num [row] <;> linarith
  rw [htop, hI]
  have hq : ∀ gr gm a b : Rat, |a - b| ≤ 255 → gm < 0 → 0 ≤ pixelQuality (1 / 10) (200 / 3200) 255 gr gm gm a b := by
    intro gr gm a b hab hgm
    unfold pixelQuality
    have hr0 : |gr - gm| / gm ≤ 0 := div_nonpos_of_nonneg_of_nonpos (abs_nonneg _) hgm.le
    generalize |gr - gm| / gm = u at hr0
    have h1 := conRatio_le_one (200 / 3200) u (by norm_num)
    have h0 : 0 ≤ conNum (200 / 3200) u / conDen (200 / 3200) u :=
      div_nonneg (by unfold conNum; norm_num; linarith) (conDen_pos _ _ (by norm_num)).le
    generalize conNum (200 / 3200) u / conDen (200 / 3200) u = q at h0 h1
    have hl : 0 ≤ 1 - ((a - b) / 255) ^ 2 := by
      rw [div_pow, sub_nonneg, div_le_one (by norm_num), ← sq_abs]
      exact pow_le_pow_left₀ (abs_nonneg _) hab 2
    unfold combine
    exact add_nonneg (mul_nonneg (by linarith) h0) (mul_nonneg (by linarith) hl)
  have hdiff : ∀ j < 3, |(row [0, 100, 200]).get [0, j] - (mixed [200, 100, 0] [200, 100, 0] t).get [0, j]| ≤ 255 := by
    intro j hj
    have hj4 : j = 0 ∨ j = 1 ∨ j = 2 := by omega
    rcases hj4 with rfl | rfl | rfl
    · rw [abs_le]; constructor <;> simp [row, mixed] <;> linarith
    · rw [abs_le]; constructor <;> simp [row, mixed] <;> linarith
    · rw [abs_le]; constructor <;> simp [row, mixed] <;> linarith
  have hneg : ∀ j < 3, (gradient floatOps gsmKernel2dX (mixed [200, 100, 0] [200, 100, 0] t)).get [0, j] < 0 := by
    intro j hj
    rw [hg j hj]
    have hj4 : j = 0 ∨ j = 1 ∨ j = 2 := by omega
    rcases hj4 with rfl | rfl | rfl <;> simp <;> linarith
  have hsum : ∀ l : List Rat, (∀ a ∈ l, 0 ≤ a) → ∀ n : Nat, 1 < l.sum / n - (-15338707 / 14162445) := by
    intro l hl n
    have : 0 ≤ l.sum / n := div_nonneg (List.sum_nonneg hl) (by positivity)
    linarith
  apply hsum
  intro a ha
  simp only [List.mem_map, List.mem_cons, List.not_mem_nil, or_false] at ha
  obtain ⟨i, hi, rfl⟩ := ha
  rcases hi with rfl | rfl | rfl
  · exact hq _ _ _ _ (hdiff 0 (by omega)) (hneg 0 (by omega))
  · exact hq _ _ _ _ (hdiff 1 (by omega)) (hneg 1 (by omega))
  · exact hq _ _ _ _ (hdiff 2 (by omega)) (hneg 2 (by omega))

end Viqa
