import Verif.Model.Gsm

/-!
Model of `correlate_convolve_abs` (`utils/misc.py` 62-166) and of the frequency grids and shifts used by
`gabor_convolve` (210-417), `_fft`, `_ifft` (195-202) and `_contrast_sensitivity_function` (mad.py 849-911).
-/

namespace Viqa

/-! ### Local correlation -/

/-- misc.py 128-140: border modes are handed to `np.pad` under other names; NumPy's "reflect" does not
repeat the border pixel (SciPy's "mirror"), NumPy's "symmetric" does (SciPy's "reflect"). -/
def padMode (name : String) : Py BorderMode :=
  if name = "constant" then .ok .constant
  else if name = "reflect" then .ok .mirror
  else if name = "nearest" then .ok .nearest
  else if name = "mirror" then .ok .reflect
  else if name = "wrap" then .ok .wrap
  else .error (.valueError "Border mode not supported")

/-- `np.flip` along all axes. -/
def flipAll (w : NDArray Rat) : NDArray Rat :=
  ⟨w.shape, fun o => w.get (List.zipWith (fun n i => n - 1 - i) w.shape o)⟩

/-- misc.py 147-161: the image index read for the kernel index `o` at the output position `p`. The image is
padded by `ks` on every side and the window is `origin[k : k + ks, ...]`. -/
def windowPosition (ks : Nat) : List Nat → List Nat → List Int
  | a :: p, o :: os => ((a : Int) + (o : Int) - (ks : Int)) :: windowPosition ks p os
  | _, _ => []

/-- Value of the padded image. -/
def padValue (mode : BorderMode) (value : Rat) (img : NDArray Rat) (q : List Int) : Rat :=
  match extendIndices mode img.shape q with
  | some i => img.get i
  | none => value

/-- One value of the result, for a kernel of the same size along all axes. -/
def correlateAbsAt (mode : BorderMode) (value : Rat) (img w : NDArray Rat) (p : List Nat) : Rat :=
  ((indices w.shape).map (fun o =>
    ratAbs (w.get o * padValue mode value img (windowPosition (w.shape.getD 0 0) p o)))).sum / (indices w.shape).length

/-- misc.py 121-166 for a non-empty image; a mode other than "convolve" correlates. -/
def correlateConvolveAbs (img w : NDArray Rat) (mode border : String) (value : Rat) : Py (NDArray Rat) :=
  let w' := if mode = "convolve" then flipAll w else w
  match padMode border with
  | .error e => .error e
  | .ok b =>
    if img.ndim < 2 then .error .indexError
    else if img.ndim = 2 ∨ img.ndim = 3 then .ok ⟨img.shape, correlateAbsAt b value img w'⟩
    else .error (.valueError "Number of dimensions not supported")

/-! ### Frequencies -/

/-- `fftshift`: the value at index `k` of the result comes from this index. -/
def fftshiftSource (n k : Nat) : Nat := (k + (n - n / 2)) % n

/-- `ifftshift`: the value at index `k` of the result comes from this index. -/
def ifftshiftSource (n k : Nat) : Nat := (k + n / 2) % n

/-- misc.py 340-349 `_get_range`: element `i` of the coordinates of an axis of length `n`;
`np.linspace(a, b, n)[i] = a + i * (b - a) / (n - 1)`. -/
def gaborCoord (n i : Nat) : Rat :=
  if n % 2 = 0 then (-(n : Rat) / 2 + i * (((n : Rat) - 2) / 2 + (n : Rat) / 2) / ((n : Rat) - 1)) / ((n : Rat) / 2)
  else (-(n : Rat) / 2 + i * ((n : Rat) / 2 + (n : Rat) / 2) / ((n : Rat) - 1)) / ((n : Rat) / 2)

/-- Coordinate for which the filter value at index `k` of the spectrum was computed (misc.py 351-411). -/
def gaborFilterCoord (n k : Nat) : Rat := gaborCoord n (fftshiftSource n k)

/-- misc.py 376-412: the filter of one scale and orientation; `g` is the product of the radial and the
angular component as a function of the two coordinates (vertical, horizontal). The centre of the grid and
the first element of the shifted filter are set to zero. -/
def gaborFilter {β : Type} [Zero β] (rows cols : Nat) (g : Rat → Rat → β) (k l : Nat) : β :=
  if k = 0 ∧ l = 0 then 0
  else
    let u := fftshiftSource rows k
    let v := fftshiftSource cols l
    if u = rows / 2 ∧ v = cols / 2 then 0 else g (gaborCoord rows u) (gaborCoord cols v)

/-- mad.py 886-888: coordinate of index `i` of the grid of the contrast sensitivity function, in cycles
per image; the grid is multiplied with the shifted spectrum, `_fft`. -/
def csfCoord (n i : Nat) : Rat := -(n : Rat) / 2 + 1 / 2 + i

/-- The frequency at index `k` of a spectrum of length `n` (`np.fft.fftfreq(n) * n`). -/
def trueFreq (n k : Nat) : Int := if 2 * k < n then (k : Int) else (k : Int) - (n : Int)

end Viqa
