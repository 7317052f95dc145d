import Verif.Props.Borders
import Verif.Props.Gsm

/-!
C81, a part that holds: turning both images by 180 degrees has the same effect on the gradient similarity as inverting
both images.
-/

namespace Viqa

/-- `y` is `x` turned by 180 degrees. -/
def Spec.IsTurned (x y : NDArray Rat) : Prop :=
  y.shape = x.shape ∧ ∀ i, InShape x.shape i → y.get i = x.get (Spec.turned x.shape i)

theorem turned_nodup_map (sh : List Nat) : ((indices sh).map (Spec.turned sh)).Nodup := by
  refine (List.nodup_map_iff_inj_on (indices_nodup sh)).2 (fun a ha b hb h => ?_)
  rw [← turned_turned sh a (inShape_of_mem_indices _ _ ha), h, turned_turned sh b (inShape_of_mem_indices _ _ hb)]

theorem turned_perm (sh : List Nat) : ((indices sh).map (Spec.turned sh)).Perm (indices sh) := by
  refine (List.perm_ext_iff_of_nodup (turned_nodup_map sh) (indices_nodup sh)).2 (fun a => ⟨fun h => ?_, fun h => ?_⟩)
  · obtain ⟨b, hb, rfl⟩ := List.mem_map.1 h
    exact mem_indices_of_inShape _ _ (turned_inShape sh b (inShape_of_mem_indices _ _ hb))
  · have ha := inShape_of_mem_indices _ _ h
    exact List.mem_map.2 ⟨_, mem_indices_of_inShape _ _ (turned_inShape sh a ha), turned_turned sh a ha⟩

theorem isTurned_toList {x y : NDArray Rat} (h : Spec.IsTurned x y) : y.toList.Perm x.toList := by
  unfold NDArray.toList
  rw [h.1]
  have e : (indices x.shape).map y.get = ((indices x.shape).map (Spec.turned x.shape)).map x.get := by
    rw [List.map_map]
    exact List.map_congr_left (fun i hi => h.2 i (inShape_of_mem_indices _ _ hi))
  rw [e]
  exact (turned_perm x.shape).map _

theorem isTurned_meanAbs {x y : NDArray Rat} (h : Spec.IsTurned x y) : meanAbs y = meanAbs x := by
  unfold meanAbs
  rw [((isTurned_toList h).map ratAbs).sum_eq, (isTurned_toList h).length_eq]

theorem isTurned_strongest (gs : List (NDArray Rat × NDArray Rat)) (g g' : NDArray Rat) (h : Spec.IsTurned g g')
    (hs : ∀ p ∈ gs, Spec.IsTurned p.1 p.2) :
    Spec.IsTurned (strongest g (gs.map Prod.fst)) (strongest g' (gs.map Prod.snd)) := by
  induction gs generalizing g g' with
  | nil => exact h
  | cons p gs ih =>
    simp only [List.map_cons, strongest]
    have hp := hs p (by simp)
    rw [isTurned_meanAbs h, isTurned_meanAbs hp]
    by_cases hlt : meanAbs g < meanAbs p.1
    · rw [if_pos hlt, if_pos hlt]
      exact ih _ _ hp (fun q hq => hs q (by simp [hq]))
    · rw [if_neg hlt, if_neg hlt]
      exact ih _ _ h (fun q hq => hs q (by simp [hq]))

theorem largest_perm (a b : Rat) (l m : List Rat) (h : (a :: l).Perm (b :: m)) : largest a l = largest b m :=
  le_antisymm (largest_le b m _ (h.mem_iff.1 (largest_mem a l))) (largest_le a l _ (h.mem_iff.2 (largest_mem b m)))

theorem nanMean_perm (l m : List Quality) (h : l.Perm m) : nanMean l = nanMean m := by
  have key : ∀ f : Quality → Option Rat, (if Quality.inf ∈ l then (.error .notANumber : Py Rat) else
      if l.filterMap f = [] then .error .notANumber else .ok ((l.filterMap f).sum / (l.filterMap f).length)) =
      (if Quality.inf ∈ m then (.error .notANumber : Py Rat) else
      if m.filterMap f = [] then .error .notANumber else .ok ((m.filterMap f).sum / (m.filterMap f).length)) := by
    intro f
    have hf := h.filterMap f
    have he : l.filterMap f = [] ↔ m.filterMap f = [] :=
      ⟨fun e => List.perm_nil.1 (e ▸ hf.symm), fun e => List.perm_nil.1 (e ▸ hf)⟩
    simp only [h.mem_iff, he, hf.sum_eq, hf.length_eq]
  exact key _

/-- Kernels of odd size whose weights change sign when the kernel is turned by 180 degrees. -/
def OddKernel (w : NDArray Int) : Prop :=
  (∀ n ∈ w.shape, n % 2 = 1) ∧ ∀ o ∈ indices w.shape, w.get (Spec.turned w.shape o) = -w.get o

theorem kernels_odd : ∀ w ∈ kernels2d ++ kernels3d, OddKernel w := by
  unfold OddKernel
  decide +kernel

theorem turned_position : ∀ (ksh sh p o : List Nat), InShape sh p → InShape ksh o → (∀ n ∈ ksh, n % 2 = 1) → ksh.length = sh.length →
    ∀ js, extendIndices .reflect sh (kernelPosition ksh p o) = some js →
      extendIndices .reflect sh (kernelPosition ksh (Spec.turned sh p) (Spec.turned ksh o)) = some (Spec.turned sh js)
  | [], [], [], [], _, _, _, _, js, h => by
    simp [extendIndices, Spec.turned] at h ⊢
  | k :: ksh, n :: sh, a :: p, b :: o, hp, ho, hk, hl, js, h => by
    simp only [kernelPosition, extendIndices] at h
    split at h
    · rename_i j js' e1 e2
      obtain rfl := Option.some.inj h
      have ih := turned_position ksh sh p o hp.2 ho.2 (fun n hn => hk n (by simp [hn])) (by simpa using hl) js' e2
      have hn : 0 < n := by have := hp.1; omega
      have hf := extendIndex_flip .reflect n _ j hn e1
      have ea : ((n - 1 - a : Nat) : Int) + ((k - 1 - b : Nat) : Int) - ((k / 2 : Nat) : Int) =
          (n : Int) - 1 - ((a : Int) + (b : Int) - ((k / 2 : Nat) : Int)) := by
        have h1 := hp.1
        have h2 := ho.1
        have h3 := hk k (by simp)
        omega
      unfold Spec.turned at ih ⊢
      simp only [List.zipWith_cons_cons, kernelPosition, extendIndices]
      rw [ea, hf, ih]
    · cases h
  | [], _ :: _, _, _, _, _, _, h, _, _ => by simp at h
  | _ :: _, [], _, _, _, _, _, h, _, _ => by simp at h
  | _ :: _, _ :: _, [], _, h, _, _, _, _, _ => h.elim
  | _ :: _, _ :: _, _ :: _, [], _, h, _, _, _, _ => h.elim
  | [], [], [], _ :: _, _, h, _, _, _, _ => h.elim
  | [], [], _ :: _, _, h, _, _, _, _, _ => h.elim

/-- The image turned by 180 degrees and inverted about `m / 2`: for `m = 255` the photographic negative of an 8 bit
image, for `m = 0` the image with the other sign. -/
def Spec.turnedNegative (m : Rat) (x : NDArray Rat) : NDArray Rat :=
  ⟨x.shape, fun i => m - x.get (Spec.turned x.shape i)⟩

theorem correlate_zero_inverted (w : NDArray Int) (hw : OddKernel w) (x : NDArray Rat) (m : Rat)
    (hl : w.shape.length = x.shape.length) (hk : w ∈ allKernels) (p : List Nat) (hp : InShape x.shape p) :
    correlateAt w (Spec.turnedNegative m x) p = correlateAt w x (Spec.turned x.shape p) := by
  have e : Spec.turnedNegative m x = ⟨x.shape, fun i => (⟨x.shape, fun i => -x.get (Spec.turned x.shape i)⟩ : NDArray Rat).get i + m⟩ := by
    unfold Spec.turnedNegative
    congr 1
    funext i
    simp only
    ring
  have := C38_brightness w hk ⟨x.shape, fun i => -x.get (Spec.turned x.shape i)⟩ m p
  rw [e]
  refine Eq.trans this ?_
  rw [correlateAt_eq, correlateAt_eq,
    ← ((turned_perm w.shape).map (fun o => (w.get o : Rat) * x.get (readIndex w x.shape (Spec.turned x.shape p) o))).sum_eq,
    List.map_map]
  congr 1
  refine List.map_congr_left (fun o ho => ?_)
  have ho' := inShape_of_mem_indices _ _ ho
  simp only [Function.comp_apply, readIndex]
  obtain ⟨js, hjs⟩ := extend_reflect_some x.shape (kernelPosition w.shape p o)
  rw [turned_position w.shape x.shape p o hp ho' hw.1 hl js hjs, hw.2 o ho, hjs]
  simp only [Option.getD_some]
  push_cast
  ring

theorem gradient_turned (w : NDArray Int) (hw : OddKernel w) (x : NDArray Rat) (m : Rat)
    (hl : w.shape.length = x.shape.length) (hk : w ∈ allKernels) :
    Spec.IsTurned (gradient floatOps w x) (gradient floatOps w (Spec.turnedNegative m x)) :=
  ⟨rfl, fun i hi => correlate_zero_inverted w hw x m hl hk i hi⟩

theorem used_turned (w : NDArray Int) (ws : List (NDArray Int)) (x : NDArray Rat) (m : Rat)
    (h : ∀ v ∈ w :: ws, OddKernel v ∧ v ∈ allKernels ∧ v.shape.length = x.shape.length) :
    Spec.IsTurned (strongest (gradient floatOps w x) (ws.map (fun w => gradient floatOps w x)))
      (strongest (gradient floatOps w (Spec.turnedNegative m x)) (ws.map (fun w => gradient floatOps w (Spec.turnedNegative m x)))) := by
  have hw := h w (by simp)
  have := isTurned_strongest (ws.map (fun w => (gradient floatOps w x, gradient floatOps w (Spec.turnedNegative m x)))) _ _
    (gradient_turned w hw.1 x m hw.2.2 hw.2.1) (by
      intro q hq
      obtain ⟨v, hv, rfl⟩ := List.mem_map.1 hq
      have hv := h v (by simp [hv])
      exact gradient_turned v hv.1 x m hv.2.2 hv.2.1)
  simpa [List.map_map, Function.comp_def] using this

theorem strongest_shape (g : NDArray Rat) (l : List (NDArray Rat)) (sh : List Nat) (h : ∀ v ∈ g :: l, v.shape = sh) :
    (strongest g l).shape = sh := h _ (strongest_mem g l)

theorem gsmWith_turned (dr c p m : Rat) (x y : NDArray Rat) (hxy : x.shape = y.shape) (w : NDArray Int) (ws : List (NDArray Int))
    (h : ∀ v ∈ w :: ws, OddKernel v ∧ v ∈ allKernels ∧ v.shape.length = x.shape.length) :
    gsmWith floatOps dr c p (Spec.turnedNegative m x) (Spec.turnedNegative m y) w ws = gsmWith floatOps dr c p x y w ws := by
  have h1 := used_turned w ws x m h
  have h2 := used_turned w ws y m (by rw [← hxy]; exact h)
  have s1 : (strongest (gradient floatOps w x) (ws.map (fun w => gradient floatOps w x))).shape = x.shape :=
    strongest_shape _ _ _ (by
      intro v hv
      rcases List.mem_cons.1 hv with rfl | hv
      · rfl
      · obtain ⟨u, -, rfl⟩ := List.mem_map.1 hv
        rfl)
  have s2 : (strongest (gradient floatOps w y) (ws.map (fun w => gradient floatOps w y))).shape = x.shape :=
    strongest_shape _ _ _ (by
      intro v hv
      rcases List.mem_cons.1 hv with rfl | hv
      · exact hxy.symm
      · obtain ⟨u, -, rfl⟩ := List.mem_map.1 hv
        exact hxy.symm)
  unfold gsmWith
  simp only
  generalize strongest (gradient floatOps w x) (ws.map (fun w => gradient floatOps w x)) = gr at *
  generalize strongest (gradient floatOps w y) (ws.map (fun w => gradient floatOps w y)) = gm at *
  generalize strongest (gradient floatOps w (Spec.turnedNegative m x)) (ws.map (fun w => gradient floatOps w (Spec.turnedNegative m x))) = gr' at *
  generalize strongest (gradient floatOps w (Spec.turnedNegative m y)) (ws.map (fun w => gradient floatOps w (Spec.turnedNegative m y))) = gm' at *
  have p1 := isTurned_toList h1
  have p2 := isTurned_toList h2
  have hd : Spec.IsTurned (strongest gr [gm]) (strongest gr' [gm']) :=
    isTurned_strongest [(gm, gm')] gr gr' h1 (by simpa using h2)
  have sd : (strongest gr [gm]).shape = x.shape := strongest_shape _ _ _ (by simp [s1, s2])
  cases e1 : gr.toList with
  | nil =>
    rw [e1] at p1
    rw [List.perm_nil.1 p1]
  | cons r0 rs =>
    cases e2 : gm.toList with
    | nil =>
      rw [e2] at p2
      rw [List.perm_nil.1 p2]
      cases gr'.toList <;> rfl
    | cons m0 ms =>
      rw [e1] at p1
      rw [e2] at p2
      cases e3 : gr'.toList with
      | nil => rw [e3] at p1; simpa using p1.length_eq
      | cons r0' rs' =>
        cases e4 : gm'.toList with
        | nil => rw [e4] at p2; simpa using p2.length_eq
        | cons m0' ms' =>
          rw [e3] at p1
          rw [e4] at p2
          simp only
          rw [largest_perm _ _ _ _ p1, largest_perm _ _ _ _ p2]
          split_ifs with ht
          · rfl
          · refine nanMean_perm _ _ ?_
            have hq := (turned_perm x.shape).map (fun i => quality floatOps p
              (c / largest (largest r0 rs) [largest m0 ms]) dr (gr.get i) (gm.get i) ((strongest gr [gm]).get i) (x.get i) (y.get i))
            rw [List.map_map] at hq
            refine List.Perm.trans (List.Perm.of_eq ?_) hq
            refine List.map_congr_left (fun i hi => ?_)
            have hi' : InShape x.shape i := inShape_of_mem_indices _ _ hi
            simp only [Function.comp_apply]
            rw [h1.2 i (by rw [s1]; exact hi'), h2.2 i (by rw [s2]; exact hi'), hd.2 i (by rw [sd]; exact hi'), s1, s2, sd]
            unfold quality lumSim
            have hs : floatOps.sub ((Spec.turnedNegative m x).get i) ((Spec.turnedNegative m y).get i) =
                -floatOps.sub (x.get (Spec.turned x.shape i)) (y.get (Spec.turned x.shape i)) := by
              simp only [floatOps, Spec.turnedNegative, ← hxy]
              ring
            rw [hs, neg_div, neg_sq]

theorem gsm_kernels_ready : (∀ v ∈ gsmKernel2dX :: kernels2d.tail, v.shape.length = 2) ∧
    ∀ v ∈ gsmKernelX :: kernels3d.tail, v.shape.length = 3 := by decide +kernel

theorem gsm_kernels_heads : kernels2d = gsmKernel2dX :: kernels2d.tail ∧ kernels3d = gsmKernelX :: kernels3d.tail := ⟨rfl, rfl⟩

/-- **C81, partial**: turning both images by 180 degrees and inverting both does not change the gradient similarity, for
images and volumes of every shape and floating point type. Turning and mirroring alone do change it (`C81_refuted`): the
gradients get the other sign, and the code takes the largest gradient and the divisor with their signs. -/
theorem C81_turned_partial (dr c p m : Rat) (x y : NDArray Rat) (hxy : x.shape = y.shape) :
    gradientSimilarity floatOps dr c p (Spec.turnedNegative m x) (Spec.turnedNegative m y) =
      gradientSimilarity floatOps dr c p x y := by
  unfold gradientSimilarity
  have hn : (Spec.turnedNegative m x).ndim = x.ndim := rfl
  rw [hn]
  by_cases h3 : x.ndim = 3
  · rw [if_pos h3, if_pos h3]
    refine gsmWith_turned dr c p m x y hxy _ _ (fun v hv => ⟨kernels_odd v ?_, kernels3d_sub v hv, ?_⟩)
    · rw [gsm_kernels_heads.2]
      exact List.mem_append_right _ hv
    · rw [gsm_kernels_ready.2 v hv]
      exact h3.symm
  · rw [if_neg h3, if_neg h3]
    by_cases h2 : x.ndim = 2
    · rw [if_pos h2, if_pos h2]
      refine gsmWith_turned dr c p m x y hxy _ _ (fun v hv => ⟨kernels_odd v ?_, kernels2d_sub v hv, ?_⟩)
      · rw [gsm_kernels_heads.1]
        exact List.mem_append_left _ hv
      · rw [gsm_kernels_ready.1 v hv]
        exact h2.symm
    · rw [if_neg h2, if_neg h2]

/-- The image whose mirror image has no score: turned and inverted it has the same score again. -/
example : gradientSimilarity floatOps 255 200 (1 / 10) (Spec.turnedNegative 1 (row [0, 1, 1])) (Spec.turnedNegative 1 (row [0, 1, 1])) = .ok 1 ∧
    (Spec.turnedNegative 1 (row [0, 1, 1])).toList = [0, 0, 1] ∧
    gradientSimilarity floatOps 255 200 (1 / 10) (row [1, 1, 0]) (row [1, 1, 0]) ≠ .ok 1 := by
  refine ⟨?_, by decide +kernel, by decide +kernel⟩
  rw [C81_turned_partial 255 200 (1 / 10) 1 (row [0, 1, 1]) (row [0, 1, 1]) rfl]
  decide +kernel

end Viqa
