import Verif.Model.Basic

/-! Specification of regions of an image, independent of the model functions. -/

namespace Viqa.Spec

/-- The range lies inside an axis of length `n`. -/
def InsideAxis (n : Nat) (r : Int × Int) : Prop := 0 ≤ r.1 ∧ r.1 ≤ r.2 ∧ r.2 ≤ n

/-- `b` is the part of the 2D image `a` in the region `x × y`. -/
def IsRegion2 {α} (a b : NDArray α) (x y : Int × Int) : Prop :=
  b.shape = [(x.2 - x.1).toNat, (y.2 - y.1).toNat] ∧
  ∀ i j : Nat, i < x.2 - x.1 → j < y.2 - y.1 →
    b.get [i, j] = a.get [(x.1 + i).toNat, (y.1 + j).toNat]

/-- `b` is the part of the volume `a` in the region `x × y × z`. -/
def IsRegion3 {α} (a b : NDArray α) (x y z : Int × Int) : Prop :=
  b.shape = [(x.2 - x.1).toNat, (y.2 - y.1).toNat, (z.2 - z.1).toNat] ∧
  ∀ i j k : Nat, i < x.2 - x.1 → j < y.2 - y.1 → k < z.2 - z.1 →
    b.get [i, j, k] = a.get [(x.1 + i).toNat, (y.1 + j).toNat, (z.1 + k).toNat]

/-- The pixel lies in the cube `[c - r, c + r)` around the centre. -/
def InBox (c : List Int) (r : Int) (idx : List Nat) : Prop :=
  ∀ k, k < c.length → c.getD k 0 - r ≤ (idx.getD k 0 : Int) ∧ (idx.getD k 0 : Int) < c.getD k 0 + r

/-- Square of the Euclidean distance of a pixel to the centre, over the axes of the centre. -/
def sqDist (idx : List Nat) (c : List Int) : Int :=
  ((List.range c.length).map (fun k => ((idx.getD k 0 : Int) - c.getD k 0) ^ 2)).foldr (· + ·) 0

/-- The cube around the centre lies inside the image. -/
def BoxInside (shape : List Nat) (c : List Int) (r : Int) : Prop :=
  c.length = shape.length ∧ ∀ k, k < c.length → 0 ≤ c.getD k 0 - r ∧ c.getD k 0 + r ≤ (shape.getD k 0 : Int)

end Viqa.Spec
