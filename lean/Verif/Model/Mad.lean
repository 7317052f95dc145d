import Verif.Model.Ssim
import Mathlib.Analysis.SpecialFunctions.Pow.Real
import Mathlib.Analysis.SpecialFunctions.Log.Basic
import Mathlib.Data.Rat.Floor
import Verif.Model.Rounding

/-!
Model of the parts of `src/viqa/fr_metrics/mad.py` that decide sizes, positions and the combination of
the two components, and of `_extract_blocks` (`utils/misc.py` 169-192). The contrast sensitivity
function, the Fourier transforms and the log-Gabor filters enter as given images. Real arithmetic.
-/

namespace Viqa

/-! ### Arguments (mad.py 497-508) -/

/-- mad.py 498-508 for an image of `M` rows and `N` columns: block size and stride. The product of the overlap and
the block size is rounded to float64; block sizes above 2^53 are left out. -/
def madArgs (M N : Nat) (blockSize : Int) (overlap : Rat) : Py (Nat × Nat) :=
  if (M : Int) < blockSize ∨ (N : Int) < blockSize then
    .error (.valueError "block_size must be smaller than the image dimensions.")
  else if 0 < blockSize then
    if 1 ≤ overlap ∨ overlap < 0 then
      .error (.valueError "block_overlap must be between 0 and smaller than 1.")
    else .ok (blockSize.toNat, (blockSize - ⌊fl 53 (overlap * blockSize)⌋).toNat)
  else .error (.valueError "block_size must be positive.")

/-! ### Blocks -/

/-- `range(0, len - (block_size - 1), stride)`: first rows (columns) of the blocks. -/
def blockStarts (len bs s : Nat) : List Nat := pyRange 0 (len + 1 - bs) s

/-- `img[i : i + bs, j : j + bs]` of a block inside of the image. -/
def blockAt {α} (img : NDArray α) (bs i j : Nat) : NDArray α :=
  ⟨[bs, bs], fun idx => img.get [i + idx.getD 0 0, j + idx.getD 1 0]⟩

/-- `utils/misc.py` 169-192 `_extract_blocks`. -/
def extractBlocks {α} (img : NDArray α) (bs s : Nat) : List (NDArray α) :=
  (blockStarts (img.shape.getD 0 0) bs s).flatMap (fun i =>
    (blockStarts (img.shape.getD 1 0) bs s).map (fun j => blockAt img bs i j))

/-- mad.py 649-650: the positions visited by the assignment loop, in order. -/
def assignPositions (M N s : Nat) : List (Nat × Nat) :=
  (pyRange 0 (M - 3 * s) s).flatMap (fun x => (pyRange 0 (N - 3 * s) s).map (fun y => (x, y)))

/-- `a[x : x + s, y : y + s] = v`. -/
def writeSlab {β} (s : Nat) (a : Nat → Nat → β) (x y : Nat) (v : β) : Nat → Nat → β :=
  fun u w => if x ≤ u ∧ u < x + s ∧ y ≤ w ∧ w < y + s then v else a u w

/-- mad.py 648-653: the loop, with the running number of the block. -/
def assignLoop {β} (s : Nat) (vals : List β) :
    List (Nat × Nat) → Nat → (Nat → Nat → β) → Py (Nat → Nat → β)
  | [], _, a => .ok a
  | (x, y) :: l, n, a =>
    match vals[n]? with
    | none => .error .indexError
    | some v => assignLoop s vals l (n + 1) (writeSlab s a x y v)

/-- The map of a statistic of the blocks: `np.zeros`, then the loop. -/
def assignBlocks {β} (zero : β) (M N s : Nat) (vals : List β) : Py (Nat → Nat → β) :=
  assignLoop s vals (assignPositions M N s) 0 (fun _ _ => zero)

/-- mad.py 634-653: the map of a statistic of an image. -/
def statMap {α β} (zero : β) (img : NDArray α) (bs s : Nat) (stat : NDArray α → β) : Py (Nat → Nat → β) :=
  assignBlocks zero (img.shape.getD 0 0) (img.shape.getD 1 0) s ((extractBlocks img bs s).map stat)

/-- `np.mean` of a block. -/
noncomputable def blockMean (b : NDArray ℝ) : ℝ := b.toList.sum / b.toList.length

/-- `np.std` of a block with `ddof=1`: nan for a single pixel. -/
noncomputable def blockStd (b : NDArray ℝ) : NF :=
  if b.toList.length ≤ 1 then .nan
  else .fin (Real.sqrt ((b.toList.map (fun x => (x - blockMean b) ^ 2)).sum / (b.toList.length - 1)))

/-! ### Masking (mad.py 655-692) -/

/-- Natural logarithm of a floating point number. -/
noncomputable def nfLog : NF → NF
  | .nan => .nan
  | .pinf => .pinf
  | .ninf => .nan
  | .fin v => if v = 0 then .ninf else if v < 0 then .nan else .fin (Real.log v)

/-- `a > b`. -/
def nfGt : NF → NF → Prop
  | .fin a, .fin b => b < a
  | .pinf, .fin _ => True
  | .fin _, .ninf => True
  | .pinf, .ninf => True
  | _, _ => False

/-- Division by a real number. -/
noncomputable def nfDiv (a : NF) (b : ℝ) : NF :=
  match a with
  | .fin v => npDiv v b
  | .nan => .nan
  | .pinf => if 0 ≤ b then .pinf else .ninf
  | .ninf => if 0 ≤ b then .ninf else .pinf

/-- Difference where it is a real number; `none` otherwise. -/
def nfSub : NF → NF → Option ℝ
  | .fin a, .fin b => some (a - b)
  | _, _ => none

open Classical in
/-- mad.py 673-688 at one pixel, for the logarithms of the two contrasts: `c_slope = 1` and both
thresholds are -5, so `tmp` equals `ci_org`. `none`: infinite or nan. -/
noncomputable def maskOf (ciOrg ciErr : NF) (msScale : ℝ) : Option ℝ :=
  (if nfGt ciErr (.fin (-5)) ∧ (nfGt (.fin (-5)) ciOrg ∨ ciOrg = .fin (-5)) then nfSub ciErr (.fin (-5))
    else if nfGt ciErr ciOrg ∧ nfGt ciOrg (.fin (-5)) then nfSub ciErr ciOrg
    else some 0).map (· / msScale)

open Classical in
/-- mad.py 656-672: the logarithm of the contrast of the error image. -/
noncomputable def logErr (muOrg : ℝ) (stdErr : NF) : NF :=
  nfLog (if 1 / 2 < muOrg then nfDiv stdErr muOrg else .fin 0)

/-- mad.py 656-688 at one pixel, for the statistics at that pixel. -/
noncomputable def maskAt (stdOrg : NF) (muOrg : ℝ) (stdErr : NF) (msScale : ℝ) : Option ℝ :=
  maskOf (nfLog (nfDiv stdOrg muOrg)) (logErr muOrg stdErr) msScale

/-- Rows (columns) `bs : -bs` of an axis. -/
def innerRange (len bs : Nat) : List Nat := (List.range (len - 2 * bs)).map (fun k : Nat => k + bs)

/-- `np.linalg.norm(mp2) / np.sqrt(np.prod(mp2.shape))`: root mean square of the inner pixels; zero
divided by zero if there are none. -/
noncomputable def innerRms (M N bs : Nat) (a : Nat → Nat → ℝ) : Py ℝ :=
  let l := (innerRange M bs).flatMap (fun u => (innerRange N bs).map (fun v => a u v ^ 2))
  if l = [] then .error .notANumber else .ok (Real.sqrt l.sum / Real.sqrt l.length)

/-- mad.py 691-702: the detection index from the mask and the local squared error. -/
noncomputable def detectIndex (M N bs : Nat) (msk lumMse : Nat → Nat → ℝ) : Py ℝ :=
  match innerRms M N bs (fun u v => msk u v * lumMse u v) with
  | .error e => .error e
  | .ok r => .ok (r * 200)

/-- mad.py 634-702 `_high_quality` after the filtering: `iOrg` and `iErr` are the filtered images,
`stdOrg` the result of the C extension, `lumMse` the local squared error. A mask value that is not
a number is left to `maskAt`, which is shown not to occur. -/
noncomputable def highQuality (iOrg iErr : NDArray ℝ) (stdOrg : Nat → Nat → NF) (lumMse : Nat → Nat → ℝ)
    (bs s : Nat) (msScale : ℝ) : Py ℝ :=
  match statMap 0 iOrg bs s blockMean, statMap (NF.fin 0) iErr bs s blockStd with
  | .ok mu, .ok se =>
    detectIndex (iOrg.shape.getD 0 0) (iOrg.shape.getD 1 0) bs
      (fun u v => (maskAt (stdOrg u v) (mu u v) (se u v) msScale).getD 0) lumMse
  | .error e, _ => .error e
  | _, .error e => .error e

/-- mad.py 692: local mean of the squared differences (`scipy.ndimage.convolve` with a box window;
the window of an even size is not centred, which is left to the parameter `window`). -/
noncomputable def localMse (bs : Nat) (window : Nat → Nat → List (Nat × Nat)) (x y : NDArray ℝ) (u v : Nat) : ℝ :=
  ((window u v).map (fun q => (x.get [q.1, q.2] - y.get [q.1, q.2]) ^ 2 / (bs ^ 2 : ℝ))).sum

/-- mad.py 768-805: the appearance index from the maps of standard deviation, skewness and kurtosis of
the filter bands of the two images, with a weight for every band. -/
noncomputable def appearIndex (M N bs : Nat) (bands : List (ℝ × (Nat → Nat → ℝ × ℝ × ℝ) × (Nat → Nat → ℝ × ℝ × ℝ))) :
    Py ℝ :=
  innerRms M N bs (fun u v => (bands.map (fun b =>
    b.1 * (|(b.2.1 u v).1 - (b.2.2 u v).1| + 2 * |(b.2.1 u v).2.1 - (b.2.2 u v).2.1| +
      |(b.2.1 u v).2.2 - (b.2.2 u v).2.2|))).sum)

/-! ### Combination (mad.py 511-534) -/

/-- mad.py 511-524: the parameters of the combination and the warnings; `none` is None, and a
threshold of zero is treated like None. -/
noncomputable def madBetas (beta1 beta2 : ℝ) (t1 t2 : Option ℝ) : List String × ℝ × ℝ :=
  let truthy (t : Option ℝ) : Prop := ∃ v, t = some v ∧ v ≠ 0
  open Classical in
  if truthy t1 ∧ truthy t2 then
    (["thresh_1 and thresh_2 are given. Ignoring beta_1 and beta_2."],
      Real.exp (-(t1.getD 0) / t2.getD 0), 1 / (Real.log 10 * t2.getD 0))
  else if truthy t1 ∨ truthy t2 then
    (["thresh_1 and thresh_2 must be given together. Using default values for beta_1 and beta_2."], beta1, beta2)
  else ([], beta1, beta2)

open Classical in
/-- mad.py 532: weighting factor for a `beta_1` that is not negative. Zero to a negative power is infinite, so
the factor is zero (unless `beta_1` is zero, see `mostApparentDistortion`). -/
noncomputable def madAlpha (beta1 beta2 d : ℝ) : ℝ :=
  if d = 0 ∧ beta2 < 0 then 0 else 1 / (1 + beta1 * d ^ beta2)

/-- mad.py 532-533. -/
noncomputable def madCombine (beta1 beta2 d a : ℝ) : ℝ :=
  d ^ madAlpha beta1 beta2 d * a ^ (1 - madAlpha beta1 beta2 d)

/-- The same for an appearance index that may not be a number: `x ** 0` is one for every `x`. -/
noncomputable def madCombineNF (beta1 beta2 d : ℝ) (a : NF) : NF :=
  match a with
  | .fin v => .fin (madCombine beta1 beta2 d v)
  | .nan => if 1 - madAlpha beta1 beta2 d = 0 then .fin (d ^ madAlpha beta1 beta2 d) else .nan
  | .pinf => if 1 - madAlpha beta1 beta2 d = 0 then .fin (d ^ madAlpha beta1 beta2 d)
    else if d = 0 then .nan else .pinf
  | .ninf => if 1 - madAlpha beta1 beta2 d = 0 then .fin (d ^ madAlpha beta1 beta2 d) else .nan

/-! ### Lightness (mad.py 808-846) -/

/-- Value of the formula. -/
noncomputable def lightness (b k gamma v : ℝ) : ℝ := b + k * v ^ (gamma / 3)

/-- The look-up table of integer images. -/
noncomputable def lightnessTable (b k gamma : ℝ) (dr : Nat) : List ℝ :=
  (List.range (dr + 1)).map (fun i : Nat => lightness b k gamma i)

/-- `lut[img]` for one pixel: fancy indexing with an integer. -/
noncomputable def lightnessInt (b k gamma : ℝ) (dr : Nat) (v : Int) : Py ℝ :=
  match pyIndex (dr + 1) v with
  | .error e => .error e
  | .ok j => .ok ((lightnessTable b k gamma dr).getD j 0)

/-! ### Weights (mad.py 742-745) -/

/-- The argument `weights`: a list, or an array of floats. -/
inductive WeightArg where
  | list (l : List ℝ)
  | array (l : List ℝ)

/-- Effect of `weights /= np.sum(weights)`: the normalized weights and the argument as the caller
sees it afterwards. A list has no in-place division, so a new array is made; an array is modified. -/
noncomputable def normalizeWeights : WeightArg → List ℝ × WeightArg
  | .list l => (l.map (· / l.sum), .list l)
  | .array l => (l.map (· / l.sum), .array (l.map (· / l.sum)))

/-! ### Module globals (mad.py 495-508) -/

/-- A computation of MAD as seen by the module globals: it stores its parameters once and reads the
globals `reads` times afterwards. -/
structure MadRun (P : Type) where
  params : P
  reads : Nat

/-- Progress of a computation: whether the globals were stored, and what was read so far. -/
structure Progress (P : Type) where
  stored : Bool
  seen : List (Option P)

/-- One step of a computation on the globals `g`. -/
def MadRun.step {P} (r : MadRun P) (g : Option P) (s : Progress P) : Option P × Progress P :=
  if s.stored = false then (some r.params, ⟨true, s.seen⟩)
  else if s.seen.length < r.reads then (g, ⟨true, s.seen ++ [g]⟩)
  else (g, s)

/-- Execution of two computations under a schedule: `true` lets the first one step. -/
def execute {P} (a b : MadRun P) : List Bool → Option P → Progress P → Progress P → Option P × Progress P × Progress P
  | [], g, sa, sb => (g, sa, sb)
  | true :: l, g, sa, sb => execute a b l (a.step g sa).1 (a.step g sa).2 sb
  | false :: l, g, sa, sb => execute a b l (b.step g sb).1 sa (b.step g sb).2

end Viqa
