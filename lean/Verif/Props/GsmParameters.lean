import Verif.Props.Distortion
import Verif.Props.GsmStability

/-!
C181: the parameters `p` and `c` of GSM.
-/

namespace Viqa

/-- The quality of a pixel from its structural similarity. -/
def Quality.with (q : Quality) (f : Rat → Rat) : Quality :=
  match q with
  | .val c => .val (f c)
  | .nan => .nan
  | .inf => .inf

/-- The structural similarity of a pixel. -/
def conQuality (k gr gm d : Rat) : Quality :=
  if d = 0 then .nan
  else
    let r := ratAbs (gr - gm) / d
    if conDen k r = 0 then (if conNum k r = 0 then .nan else .inf) else .val (conNum k r / conDen k r)

theorem quality_with (ops : PixelOps) (p k dr gr gm d a b : Rat) :
    quality ops p k dr gr gm d a b = (conQuality k gr gm d).with (fun con => combine p con (lumSim ops dr a b)) := by
  unfold quality conQuality
  simp only
  split_ifs <;> rfl

/-- The number, if there is one. -/
def Quality.number (q : Quality) : Option Rat :=
  match q with
  | .val c => some c
  | _ => none

theorem nanMean_number (l : List Quality) :
    nanMean l = if .inf ∈ l then .error .notANumber
      else if l.filterMap Quality.number = [] then .error .notANumber
      else .ok ((l.filterMap Quality.number).sum / (l.filterMap Quality.number).length) := by
  have e : (fun | .val q => some q | _ => none : Quality → Option Rat) = Quality.number := by
    funext q; cases q <;> rfl
  rw [← e]
  rfl

/-- The pixels with a number. -/
def ratedPixels {ι : Type} (C : ι → Quality) (I : List ι) : List (ι × Rat) :=
  I.filterMap (fun i => match C i with | .val c => some (i, c) | _ => none)

theorem nanMean_with {ι : Type} (I : List ι) (C : ι → Quality) (F : ι → Rat → Rat) :
    nanMean (I.map (fun i => (C i).with (F i))) =
      if (∃ i ∈ I, C i = .inf) ∨ ratedPixels C I = [] then .error .notANumber
      else .ok (((ratedPixels C I).map (fun e => F e.1 e.2)).sum / (ratedPixels C I).length) := by
  have hinf : (Quality.inf ∈ I.map (fun i => (C i).with (F i))) ↔ ∃ i ∈ I, C i = .inf := by
    simp only [List.mem_map]
    refine exists_congr (fun i => and_congr_right (fun _ => ?_))
    cases C i <;> simp [Quality.with]
  have hvs : (I.map (fun i => (C i).with (F i))).filterMap Quality.number = (ratedPixels C I).map (fun e => F e.1 e.2) := by
    clear hinf
    unfold ratedPixels
    induction I with
    | nil => rfl
    | cons i I ih =>
      rw [List.map_cons, List.filterMap_cons, List.filterMap_cons, ih]
      cases h : C i <;> rfl
  rw [nanMean_number, hvs]
  simp only [List.map_eq_nil_iff, List.length_map]
  by_cases h : ∃ i ∈ I, C i = .inf
  · rw [if_pos (hinf.2 h), if_pos (.inl h)]
  · rw [if_neg (fun hc => h (hinf.1 hc))]
    by_cases h2 : ratedPixels C I = []
    · rw [if_pos h2, if_pos (.inr h2)]
    · rw [if_neg h2, if_neg (fun hh => hh.elim h h2)]

/-- The image with another brightness. -/
def Spec.brighter (o : Rat) (x : NDArray Rat) : NDArray Rat := ⟨x.shape, fun i => x.get i + o⟩

/-- Everything of the computation that does not depend on the brightness: strongest gradients. -/
theorem gsmWith_brighter (dr c p o o' : Rat) (x y : NDArray Rat) (w : NDArray Int) (ws : List (NDArray Int))
    (hall : ∀ u ∈ w :: ws, u ∈ allKernels) :
    gsmWith floatOps dr c p (Spec.brighter o x) (Spec.brighter o' y) w ws =
      (let gr := strongest (gradient floatOps w x) (ws.map (fun w => gradient floatOps w x))
      let gm := strongest (gradient floatOps w y) (ws.map (fun w => gradient floatOps w y))
      match gr.toList, gm.toList with
      | r0 :: rs, m0 :: ms =>
        let top := largest (largest r0 rs) [largest m0 ms]
        if top = 0 then .error .notANumber
        else nanMean ((indices x.shape).map (fun i =>
          (conQuality (c / top) (gr.get i) (gm.get i) ((strongest gr [gm]).get i)).with
            (fun con => combine p con (lumSim floatOps dr (x.get i + o) (y.get i + o')))))
      | _, _ => .error (.valueError "zero-size array to reduction operation maximum which has no identity")) := by
  have e1 : ∀ (o : Rat) (x : NDArray Rat), gradient floatOps w (Spec.brighter o x) = gradient floatOps w x :=
    fun o x => gradient_brightness w (hall w (by simp)) x o
  have e2 : ∀ (o : Rat) (x : NDArray Rat), ws.map (fun w => gradient floatOps w (Spec.brighter o x)) = ws.map (fun w => gradient floatOps w x) :=
    fun o x => List.map_congr_left (fun u hu => gradient_brightness u (hall u (by simp [hu])) x o)
  unfold gsmWith
  simp only [e1, e2, quality_with]
  rfl

theorem brighter_zero (x : NDArray Rat) : Spec.brighter 0 x = x := by
  unfold Spec.brighter
  simp

/-- A property of the computation for both sets of kernels. -/
theorem gsm_cases (P : Py Rat → Py Rat → Prop) (dr c p c' p' : Rat) (x y x' y' : NDArray Rat) (hs : x'.shape = x.shape)
    (hw : ∀ w ws, (∀ u ∈ w :: ws, u ∈ allKernels) → P (gsmWith floatOps dr c p x y w ws) (gsmWith floatOps dr c' p' x' y' w ws))
    (he : ∀ e, P (.error e) (.error e)) :
    P (gradientSimilarity floatOps dr c p x y) (gradientSimilarity floatOps dr c' p' x' y') := by
  have hn : x'.ndim = x.ndim := by unfold NDArray.ndim; rw [hs]
  unfold gradientSimilarity
  rw [hn]
  by_cases h3 : x.ndim = 3
  · rw [if_pos h3, if_pos h3]
    exact hw _ _ kernels3d_sub
  · rw [if_neg h3, if_neg h3]
    by_cases h2 : x.ndim = 2
    · rw [if_pos h2, if_pos h2]
      exact hw _ _ kernels2d_sub
    · rw [if_neg h2, if_neg h2]
      exact he _

/-- **C181.** With `p = 0` the brightness of the images does not matter. -/
theorem C181_zero (dr c o o' : Rat) (x y : NDArray Rat) :
    gradientSimilarity floatOps dr c 0 (Spec.brighter o x) (Spec.brighter o' y) = gradientSimilarity floatOps dr c 0 x y := by
  refine gsm_cases (· = ·) dr c 0 c 0 (Spec.brighter o x) (Spec.brighter o' y) x y rfl ?_ (fun _ => rfl)
  intro w ws hall
  have h1 := gsmWith_brighter dr c 0 o o' x y w ws hall
  have h2 := gsmWith_brighter dr c 0 0 0 x y w ws hall
  rw [brighter_zero, brighter_zero] at h2
  rw [h1, h2]
  simp only [combine, zero_mul, add_zero]

/-- The score of two images that differ in structure, and the same with other brightness. -/
example : gradientSimilarity floatOps 255 200 0 (Spec.brighter 3 (row [0, 1, 2])) (Spec.brighter 5 (row [0, 2, 1])) = .ok (7477 / 9570) :=
  (C181_zero 255 200 3 5 _ _).trans (by decide +kernel)

/-- **C181.** "Higher p means more accentuation of luminance": the loss by a change of the brightness of the modified image is
proportional to `p`; whether there is a score depends neither on `p` nor on the brightness. -/
theorem C181_weight (dr c o : Rat) (x y : NDArray Rat) : ∃ loss : Rat, ∀ p v, gradientSimilarity floatOps dr c p x y = .ok v →
    gradientSimilarity floatOps dr c p x (Spec.brighter o y) = .ok (v - p * loss) := by
  have key : ∀ w ws, (∀ u ∈ w :: ws, u ∈ allKernels) → ∃ loss : Rat, ∀ p v, gsmWith floatOps dr c p x y w ws = .ok v →
      gsmWith floatOps dr c p x (Spec.brighter o y) w ws = .ok (v - p * loss) := by
    intro w ws hall
    have h1 := fun p => gsmWith_brighter dr c p 0 o x y w ws hall
    have h2 := fun p => gsmWith_brighter dr c p 0 0 x y w ws hall
    simp only [brighter_zero, add_zero] at h1 h2
    simp only [h1, h2]
    generalize strongest (gradient floatOps w x) (ws.map (fun w => gradient floatOps w x)) = gr
    generalize strongest (gradient floatOps w y) (ws.map (fun w => gradient floatOps w y)) = gm
    cases gr.toList with
    | nil => exact ⟨0, fun p v h => by simp at h⟩
    | cons r0 rs =>
      cases gm.toList with
      | nil => exact ⟨0, fun p v h => by simp at h⟩
      | cons m0 ms =>
        simp only
        by_cases ht : largest (largest r0 rs) [largest m0 ms] = 0
        · exact ⟨0, fun p v h => by rw [if_pos ht] at h; cases h⟩
        · simp only [if_neg ht, nanMean_with]
          generalize hC : ratedPixels (fun i => conQuality (c / largest (largest r0 rs) [largest m0 ms]) (gr.get i) (gm.get i)
            ((strongest gr [gm]).get i)) (indices x.shape) = R
          refine ⟨(R.map (fun e => e.2 * (lumSim floatOps dr (x.get e.1) (y.get e.1) - lumSim floatOps dr (x.get e.1) (y.get e.1 + o)))).sum / R.length,
            fun p v h => ?_⟩
          split at h
          · cases h
          · rename_i hne
            rw [if_neg hne]
            cases h
            congr 1
            rw [← mul_div_assoc, ← sub_div]
            congr 1
            clear hne hC
            induction R with
            | nil => simp
            | cons e R ih =>
              simp only [List.map_cons, List.sum_cons, ih]
              unfold combine
              ring
  unfold gradientSimilarity
  by_cases h3 : x.ndim = 3
  · simp only [if_pos h3]
    exact key _ _ kernels3d_sub
  · simp only [if_neg h3]
    by_cases h2 : x.ndim = 2
    · simp only [if_pos h2]
      exact key _ _ kernels2d_sub
    · simp only [if_neg h2]
      exact ⟨0, fun p v h => by cases h⟩

/-- With `p = 1 / 10` a change of the brightness costs a tenth of what it costs with `p = 1`. -/
example (v v' w w' : Rat) (h1 : gradientSimilarity floatOps 255 200 (1 / 10) (row [0, 1, 2]) (row [0, 2, 1]) = .ok v)
    (h2 : gradientSimilarity floatOps 255 200 (1 / 10) (row [0, 1, 2]) (Spec.brighter 20 (row [0, 2, 1])) = .ok v')
    (h3 : gradientSimilarity floatOps 255 200 1 (row [0, 1, 2]) (row [0, 2, 1]) = .ok w)
    (h4 : gradientSimilarity floatOps 255 200 1 (row [0, 1, 2]) (Spec.brighter 20 (row [0, 2, 1])) = .ok w') : v - v' = (w - w') / 10 := by
  obtain ⟨l, hl⟩ := C181_weight 255 200 20 (row [0, 1, 2]) (row [0, 2, 1])
  have e1 := (hl _ _ h1).symm.trans h2
  have e2 := (hl _ _ h3).symm.trans h4
  simp only [Except.ok.injEq] at e1 e2
  rw [← e1, ← e2]
  ring

/-- The scores exist. -/
example : gradientSimilarity floatOps 255 200 (1 / 10) (row [0, 1, 2]) (row [0, 2, 1]) = .ok (3154956474379 / 3970205415000) := by decide +kernel

theorem combine_mono (p con con' lum : Rat) (hp : 0 ≤ p) (hp1 : p ≤ 1 / 2) (hl : 0 ≤ lum) (h : con ≤ con') (h1 : con' ≤ 1) :
    combine p con lum ≤ combine p con' lum := by
  have e : combine p con' lum - combine p con lum = (con' - con) * (1 - p * (con + con') + p * lum) := by unfold combine; ring
  have h2 : 0 ≤ 1 - p * (con + con') + p * lum := by nlinarith [mul_nonneg hp hl]
  nlinarith [mul_nonneg (sub_nonneg.2 h) h2]

theorem conRatio_mono (k k' r : Rat) (hk : 0 ≤ k) (h : k ≤ k') : conNum k r / conDen k r ≤ conNum k' r / conDen k' r := by
  have h1 : 0 < conDen k r := conDen_pos k r hk
  have h2 : 0 < conDen k' r := conDen_pos k' r (hk.trans h)
  rw [div_le_div_iff₀ h1 h2]
  unfold conNum conDen at *
  nlinarith [mul_nonneg (sub_nonneg.2 h) (sq_nonneg r)]

/-- **C181.** `c` masks differences of structure: a greater `c` never lowers the score, for weights `p` up to one half (the
documentation demands `p ≪ 0.5`). -/
theorem C181_masking (dr c c' p v : Rat) (hdr : 0 < dr) (hc : 0 ≤ c) (hcc : c ≤ c') (hp : 0 ≤ p) (hp1 : p ≤ 1 / 2) (x y : NDArray Rat)
    (hs : x.shape = y.shape) (hrange : ∀ i, InShape x.shape i → |x.get i - y.get i| ≤ dr)
    (hpos : ∃ q ∈ (usedGradient floatOps x).toList ++ (usedGradient floatOps y).toList, 0 < q)
    (h : gradientSimilarity floatOps dr c p x y = .ok v) :
    ∃ v', gradientSimilarity floatOps dr c' p x y = .ok v' ∧ v ≤ v' := by
  have key : ∀ (w : NDArray Int) (ws : List (NDArray Int)),
      (∃ q ∈ (strongest (gradient floatOps w x) (ws.map (fun w => gradient floatOps w x))).toList ++
        (strongest (gradient floatOps w y) (ws.map (fun w => gradient floatOps w y))).toList, 0 < q) →
      gsmWith floatOps dr c p x y w ws = .ok v → ∃ v', gsmWith floatOps dr c' p x y w ws = .ok v' ∧ v ≤ v' := by
    intro w ws hpos h
    unfold gsmWith at h ⊢
    simp only at h ⊢
    generalize strongest (gradient floatOps w x) (ws.map (fun w => gradient floatOps w x)) = gr at h hpos ⊢
    generalize strongest (gradient floatOps w y) (ws.map (fun w => gradient floatOps w y)) = gm at h hpos ⊢
    cases hr : gr.toList with
    | nil => rw [hr] at h; simp at h
    | cons r0 rs =>
      cases hm : gm.toList with
      | nil => rw [hr, hm] at h; simp at h
      | cons m0 ms =>
        rw [hr, hm] at h hpos
        simp only at h ⊢
        have htop : 0 < largest (largest r0 rs) [largest m0 ms] := by
          obtain ⟨q, hq, hq0⟩ := hpos
          refine lt_of_lt_of_le hq0 ?_
          rcases List.mem_append.1 hq with hq | hq
          · exact le_trans (largest_le r0 rs q hq) (largest_le _ _ _ (by simp))
          · exact le_trans (largest_le m0 ms q hq) (largest_le _ _ _ (by simp))
        rw [if_neg htop.ne'] at h ⊢
        generalize largest (largest r0 rs) [largest m0 ms] = top at h htop ⊢
        have hq : ∀ (k : Rat), 0 ≤ k → ∀ i, quality floatOps p k dr (gr.get i) (gm.get i) ((strongest gr [gm]).get i) (x.get i) (y.get i) =
            (if (strongest gr [gm]).get i = 0 then Quality.nan else .val (ratAbs (gr.get i - gm.get i) / (strongest gr [gm]).get i)).with
              (fun r => combine p (conNum k r / conDen k r) (lumSim floatOps dr (x.get i) (y.get i))) := by
          intro k hk i
          unfold quality
          split_ifs with h0 <;> simp_all [Quality.with, (conDen_pos k _ hk).ne']
        have hk : 0 ≤ c / top := div_nonneg hc htop.le
        have hkk : c / top ≤ c' / top := div_le_div_of_nonneg_right hcc htop.le
        rw [List.map_congr_left (fun i _ => hq _ hk i), nanMean_with] at h
        rw [List.map_congr_left (fun i _ => hq _ (hk.trans hkk) i), nanMean_with]
        split at h
        · cases h
        · rename_i hne
          rw [if_neg hne]
          cases h
          refine ⟨_, rfl, ?_⟩
          apply div_le_div_of_nonneg_right _ (Nat.cast_nonneg _)
          apply List.sum_le_sum
          intro e he
          have hi : e.1 ∈ indices x.shape := by
            unfold ratedPixels at he
            obtain ⟨i, hi, hie⟩ := List.mem_filterMap.1 he
            split at hie
            · cases hie; exact hi
            · cases hie
          refine combine_mono p _ _ _ hp hp1 ?_ (conRatio_mono _ _ _ hk hkk) (conRatio_le_one _ _ (hk.trans hkk))
          show 0 ≤ 1 - ((x.get e.1 - y.get e.1) / dr) ^ 2
          have : |(x.get e.1 - y.get e.1) / dr| ≤ 1 := by
            rw [abs_div, abs_of_pos hdr, div_le_one hdr]; exact hrange _ (inShape_of_mem_indices _ _ hi)
          have := (sq_le_one_iff_abs_le_one _).2 this
          linarith
  have hnd : x.ndim = y.ndim := by unfold NDArray.ndim; rw [hs]
  unfold gradientSimilarity at h ⊢
  unfold usedGradient at hpos
  rw [← hnd] at hpos
  by_cases h3 : x.ndim = 3
  · rw [if_pos h3] at h ⊢
    rw [if_pos h3, if_pos h3] at hpos
    exact key _ _ hpos h
  · rw [if_neg h3] at h ⊢
    rw [if_neg h3, if_neg h3] at hpos
    by_cases h2 : x.ndim = 2
    · rw [if_pos h2] at h ⊢
      exact key _ _ hpos h
    · rw [if_neg h2] at h
      cases h

/-- Twice the masking for two images that differ in structure. -/
example : ∃ v', gradientSimilarity floatOps 255 400 (1 / 2) (row [0, 1, 2]) (row [0, 2, 1]) = .ok v' ∧ 673432889179 / 794041083000 ≤ v' :=
  C181_masking 255 200 400 (1 / 2) _ (by norm_num) (by norm_num) (by norm_num) (by norm_num) (by norm_num) _ _ rfl
    (by
      intro i hi
      obtain ⟨a, b, rfl, ha, hb⟩ : ∃ a b, i = [a, b] ∧ a < 1 ∧ b < 3 := by
        rcases i with _ | ⟨a, _ | ⟨b, _ | ⟨d, l⟩⟩⟩ <;> simp_all [InShape, row]
      interval_cases b <;> norm_num [row])
    (by decide +kernel) (by decide +kernel)

/-- With `p = 1` a greater `c` can lower the score, the bound one half of `p` is not a matter of the proof only. -/
theorem C181_masking_p : gradientSimilarity floatOps 4 0 1 (row [0, 2, 4]) (row [4, 6, 7]) = .ok (457 / 2500) ∧
    gradientSimilarity floatOps 4 200 1 (row [0, 2, 4]) (row [4, 6, 7]) = .ok (2114741 / 13230000) ∧
    (2114741 / 13230000 : Rat) < 457 / 2500 := by decide +kernel

end Viqa
