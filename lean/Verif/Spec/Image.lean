import Verif.Model.Basic
import Mathlib.Order.Bounds.Basic
import Mathlib.Data.Rat.Floor

/-! Specifications about pixel values, independent of the model functions. -/

namespace Viqa.Spec

/-- The set of the pixel values of an image. -/
def pixels {α} (a : NDArray α) : Set α := {p | ∃ idx, InShape a.shape idx ∧ a.get idx = p}

/-- Every pixel is an integer of the given range. -/
def IntegerPixels (a : NDArray Rat) (lo hi : Int) : Prop :=
  ∀ p ∈ pixels a, ∃ n : Int, p = n ∧ lo ≤ n ∧ n ≤ hi

/-- The supported upper ends of the output range. -/
def Supported (hi : Int) : Prop := hi = 1 ∨ hi = 255 ∨ hi = 65535

/-- The linear map that sends `m` to `0` and `M` to `hi`. -/
def linearTo (hi : Int) (m M p : Rat) : Rat := (p - m) * hi / (M - m)

/-- Integer ranges hold the integer part, the range `(0, 1)` the value itself. -/
def quantize (hi : Int) (v : Rat) : Rat := if hi = 1 then v else (⌊v⌋ : Int)

/-- Data type of the output range. -/
def rangeType (hi : Int) : DType := if hi = 1 then .f32 else if hi = 255 then .u8 else .u16

/-- `b` is the image whose pixel at every index is `f` of the pixel of `a`. -/
def PixelMap {α β} (f : α → β) (a : NDArray α) (b : NDArray β) : Prop :=
  b.shape = a.shape ∧ ∀ idx, InShape a.shape idx → b.get idx = f (a.get idx)

end Viqa.Spec
