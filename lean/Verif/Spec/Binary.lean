/-!
Specifications about binary volumes, independent of the model.
-/

namespace Viqa.Spec

/-- Item number `k` of a file of items of `s` bytes: little endian value of the bytes
`k*s, ..., k*s + s - 1`. -/
def fileItem (bytes : List UInt8) (s k : Nat) : Nat :=
  ((List.range s).map (fun j => (bytes.getD (k * s + j) 0).toNat * 256 ^ j)).sum

/-- Position in the file of voxel `(x, y, z)` of an `X × Y × Z` volume: `x` runs fastest. -/
def voxelPos (X Y x y z : Nat) : Nat := x + X * (y + Y * z)

/-- The `s` bytes of a number, least significant byte first. -/
def leBytes : Nat → Nat → List UInt8
  | 0, _ => []
  | s + 1, v => UInt8.ofNat (v % 256) :: leBytes s (v / 256)

/-- The bytes of an `X × Y × Z` volume with items of `s` bytes, `x` running fastest. -/
def volumeBytes (s X Y Z : Nat) (f : Nat → Nat → Nat → Nat) : List UInt8 :=
  (List.range Z).flatMap fun z => (List.range Y).flatMap fun y => (List.range X).flatMap fun x =>
    leBytes s (f x y z)

end Viqa.Spec
