import Verif.Model.Normalize
import Verif.Model.Text

/-!
Model of `crop_image`, `load_data`, `_check_imgs`, `_resize_image`
(`src/viqa/utils/loading.py`) and of the colour conversion (`src/viqa/utils/misc.py`).
-/

namespace Viqa

/-! ### Cropping -/

/-- `img[lo0:hi0, lo1:hi1, ...]`: basic slicing of the leading axes. -/
def sliceArray {α} (a : NDArray α) (ranges : List (Int × Int)) : NDArray α :=
  let cut := List.zipWith (fun n r => sliceRange n r.1 r.2) a.shape ranges
  ⟨cut.map Prod.snd ++ a.shape.drop ranges.length,
   fun idx => a.get (List.zipWith (fun i c => i + c.1) idx cut ++ idx.drop cut.length)⟩

/-- A range as given by the user: start and stop. -/
abbrev Range := Int × Int

abbrev Range.len (r : Range) : Int := r.2 - r.1

/-- `loading.py` 894-955 `crop_image`. The comparisons are elementwise on numpy arrays: for a
colour image two extents are compared with three, which numpy refuses (ValueError). -/
def cropImage {α} (img : NDArray α) (x y : Range) (z : Option Range) : PyW (NDArray α) :=
  let tooLarge : PyW (NDArray α) :=
    .raise (.valueError "Cropped image shape must be smaller than original image.")
  match img.shape with
  | [n0, n1] =>
    if x.len < n0 ∧ y.len < n1 then
      match z with
      | some _ => do
        PyW.warn "Image is 2D. Parameter z will be ignored."
        pure (sliceArray img [x, y])
      | none => pure (sliceArray img [x, y])
    else if x.len = n0 ∧ y.len = n1 then do
      PyW.warn "Image is already cropped."
      pure img
    else tooLarge
  | [n0, n1, n2] =>
    if n2 = 3 then .raise (.valueError "operands could not be broadcast together")
    else match z with
      | some z =>
        if x.len < n0 ∧ y.len < n1 ∧ z.len < n2 then pure (sliceArray img [x, y, z])
        else if x.len = n0 ∧ y.len = n1 ∧ z.len = n2 then do
          PyW.warn "Image is already cropped."
          pure img
        else tooLarge
      | none => .raise (.valueError "Image must be 2D or 3D.")
  | _ => .raise (.valueError "Image must be 2D or 3D.")

/-- A region of interest: ranges for the axes. -/
structure Roi where
  x : Range
  y : Range
  z : Option Range
  deriving DecidableEq, Repr

/-! ### load_data -/

/-- What can be passed to `load_data` as an image (`loading.py` 702-742). A sequence matches
the list pattern only if it holds exactly one array. -/
inductive Input where
  | path (p : Txt)
  | array (img : Image Rat)
  | tensor (img : Image Rat)
  | arrayList (img : Image Rat)
  | other

/-- The image itself for arrays, a list of one image for the deprecated list input. -/
inductive Loaded where
  | single (img : Image Rat)
  | list (img : Image Rat)

/-- Parameters of `load_data`. `dataRange` is an integer; `ident` as in `sameObject`. -/
structure LoadArgs where
  batch : Bool := false
  normalize : Bool := false
  dataRange : Option Int := none
  roi : Option Roi := none
  ident : Bool := false

/-- `loading.py` 757-766: normalization is skipped if `data_range` is `None` or 0. -/
def normalizeStep (args : LoadArgs) (img : Image Rat) : PyW (Image Rat) :=
  match args.dataRange with
  | some r => if args.normalize ∧ r ≠ 0 then normalizeData args.ident img (0, r) none true else pure img
  | none => pure img

/-- `loading.py` 768-774: cropping. -/
def cropStep (args : LoadArgs) (img : Image Rat) : PyW (Image Rat) :=
  match args.roi with
  | some r => do
    let a ← cropImage img.arr r.x r.y r.z
    pure ⟨img.dtype, a⟩
  | none => pure img

/-- `loading.py` 744-755: number of dimensions. -/
def ndimStep (img : Image Rat) : PyW Unit :=
  if 3 < img.arr.ndim ∨ img.arr.ndim < 2 then
    .raise (.valueError "Number of dimensions of input image should be 2 or 3")
  else pure ()

/-- `loading.py` 702-742: the image for each type of input, and whether it came as a list;
`disk` reads a file. -/
def loadSource (disk : Txt → Py (Image Rat)) (inp : Input) : PyW (Bool × Image Rat) :=
  match inp with
  | .path p => PyW.lift (disk p) >>= fun img => pure (false, img)
  | .array img => pure (false, img)
  | .tensor img => pure (false, img)
  | .arrayList img => pure (true, img)
  | .other => PyW.raise (.valueError "Input type not supported")

/-- `loading.py` 700-785: `load_data` after the guards. -/
def loadBody (disk : Txt → Py (Image Rat)) (inp : Input) (args : LoadArgs) : PyW Loaded := do
  let (isList, img) ← loadSource disk inp
  ndimStep img
  let img ← normalizeStep args img
  let img ← cropStep args img
  pure (if isList then .list img else .single img)

/-- `loading.py` 615-785 `load_data`. -/
def loadData (disk : Txt → Py (Image Rat)) (inp : Input) (args : LoadArgs) : PyW Loaded :=
  if args.batch then PyW.raise .removedInFutureVersion
  else if args.normalize ∧ args.dataRange = none then
    PyW.raise (.valueError "Parameter data_range must be set if normalize is True.")
  else if ¬ args.normalize ∧ args.dataRange ≠ none then do
    PyW.warn "Parameter data_range is set but normalize is False."
    loadBody disk inp args
  else loadBody disk inp args

/-! ### Colour -/

/-- `misc.py` 53-59 `_to_float`: data type after conversion; pixel values are unchanged. -/
def toFloatType : DType → DType
  | .f32 => .f32
  | _ => .f64

/-- `skimage.color.rgb2gray`: weighted sum of the channels. -/
def grayValue (r g b : Rat) : Rat := 2125 / 10000 * r + 7154 / 10000 * g + 721 / 10000 * b

/-- `misc.py` 32-37 `_to_grayscale` of an array whose last axis has length 3: values above 255
are set to 255. -/
def toGrayscale (img : Image Rat) : Image Rat :=
  ⟨toFloatType img.dtype, ⟨img.arr.shape.dropLast, fun idx =>
    let v := grayValue (img.arr.get (idx ++ [0])) (img.arr.get (idx ++ [1])) (img.arr.get (idx ++ [2]))
    if 255 < v then 255 else v⟩⟩

/-! ### Pairs of images -/

/-- `loading.py` 958-1011 `_check_imgs`. For the deprecated list input line 996 compares a data
type with a shape, which is never equal, so it always raises. -/
def checkImgs (disk : Txt → Py (Image Rat)) (r m : Input) (args : LoadArgs) (chromatic : Bool) :
    PyW (Image Rat × Image Rat) := do
  let lr ← loadData disk r args
  let lm ← loadData disk m args
  match lr, lm with
  | .single a, .single b =>
    if a.dtype ≠ b.dtype then PyW.raise (.valueError "Image types do not match")
    else if a.arr.shape ≠ b.arr.shape then PyW.raise (.valueError "Image shapes do not match")
    else if chromatic = false ∧ a.arr.lastDim = 3 then do
      PyW.warn "Images are chromatic. Converting to grayscale."
      pure (toGrayscale a, toGrayscale b)
    else if chromatic = true ∧ a.arr.lastDim ≠ 3 then
      PyW.raise (.valueError "Images are not chromatic.")
    else pure (a, b)
  | .list a, .list b =>
    if a.dtype ≠ b.dtype then PyW.raise (.valueError "Image types do not match")
    else PyW.raise (.valueError "Image shapes do not match")
  | _, _ => PyW.raise (.valueError "Image types do not match.")

/-! ### Resizing -/

/-- `loading.py` 1014-1021 `_resize_image`. `resize` stands for `skimage.transform.resize`
(the values) and `cast` for `astype` of a pixel value. -/
def resizeImage (resize : NDArray Rat → List Nat → NDArray Rat) (cast : DType → Rat → Rat)
    (r m : Image Rat) : Image Rat :=
  if r.arr.shape ≠ m.arr.shape then
    let a := resize m.arr r.arr.shape
    ⟨r.dtype, a.map (cast r.dtype)⟩
  else m

end Viqa
