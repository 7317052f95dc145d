import Verif.Model.Dispatch

/-!
Model of the argument `experimental` of the gradient similarity: `gsm.py` 192-256 and 277-358 with the keyword given or left
out. As in Model/Dispatch.lean `f` is `gradient_similarity` with all other keywords fixed. Only the truth value of the argument
matters.
-/

namespace Viqa

variable {α : Type}

/-- `gradient_similarity(…, **kwargs)` (`gsm.py` 201-223 and 250-252): the function has no parameter `experimental` and no
`**kwargs` (`gsm.py` 361). -/
def gsmPlane (f : NDArray α → NDArray α → Py ℝ) (experimental : Option Bool) (x y : NDArray α) : Py ℝ :=
  match experimental with
  | none => f x y
  | some _ => .error (.typeError "gradient_similarity() got an unexpected keyword argument 'experimental'")

/-- `gsm.py` 277-358 `gradient_similarity_3d`: takes the argument and does not pass it on. -/
noncomputable def gsmVolume (f : NDArray α → NDArray α → Py ℝ) (experimental : Option Bool) (dim : DimArg) (x y : NDArray α) :
    Py ℝ :=
  if experimental.getD false = false then score3 f dim x y else f x y

/-- `gsm.py` 192-256: `GSM.score` after loading the images. -/
noncomputable def dispatchGsm (f : NDArray α → NDArray α → Py ℝ) (experimental : Option Bool) (dim : DimArg) (sl : SliceArg)
    (x y : NDArray α) : PyW ℝ :=
  if x.ndim = 3 then
    match dim, sl with
    | .none, sl => .raise (.valueError (volumeMessage .gsm sl))
    | _, .other b => .raise (.valueError (volumeMessage .gsm (.other b)))
    | d, .int i =>
      match d.axis with
      | Option.none => .raise (.valueError "Invalid dim value. Must be integer of 0, 1 or 2.")
      | some a =>
        match takeSlice x a i, takeSlice y a i with
        | .ok px, .ok p => .lift (gsmPlane f experimental px p)
        | .error e, _ => .raise e
        | _, .error e => .raise e
    | d, .none => ⟨["im_slice is not given. Calculating for full volume."], gsmVolume f experimental d x y⟩
  else if x.ndim = 2 then
    ⟨if dim.truthy || sl.truthy then ["dim and im_slice are ignored for 2D images."] else [], gsmPlane f experimental x y⟩
  else .raise (.valueError "Images must be 2D or 3D.")

end Viqa
