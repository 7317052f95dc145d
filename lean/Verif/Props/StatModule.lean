import Verif.Model.StatModule
import Verif.Props.Mad

/-! Properties of the C extension: C41 to C44 and C88. -/

namespace Viqa

/-! ### Loops -/

/-- An access that stays inside of the row pointers and the data. -/
def Inb (n m : Nat) (p : Nat × Nat) : Prop := p.1 < n ∧ p.1 * m + p.2 < n * m

theorem cAddr_ok {n m u v : Nat} (h : Inb n m (u, v)) : cAddr n m u v = .ok (u * m + v) := if_pos h

theorem cAddr_err {n m u v : Nat} (h : ¬ Inb n m (u, v)) : cAddr n m u v = .error .outOfBounds := if_neg h

theorem cReadAll_ok {n m : Nat} {buf : Nat → ℝ} :
    ∀ {l : List (Nat × Nat)}, (∀ p ∈ l, Inb n m p) → cReadAll n m buf l = .ok (l.map (fun p => buf (p.1 * m + p.2)))
  | [], _ => rfl
  | (u, v) :: l, h => by
    rw [cReadAll, cAddr_ok (h (u, v) (List.mem_cons_self ..)), cReadAll_ok (fun p hp => h p (List.mem_cons_of_mem _ hp))]
    rfl

theorem cReadAll_err {n m : Nat} {buf : Nat → ℝ} :
    ∀ {l : List (Nat × Nat)}, (∃ p ∈ l, ¬ Inb n m p) → cReadAll n m buf l = .error .outOfBounds
  | [], ⟨_, h, _⟩ => by simp at h
  | (u, v) :: l, ⟨p, hp, hn⟩ => by
    rw [cReadAll]
    by_cases h : Inb n m (u, v)
    · rw [cAddr_ok h]
      simp only
      rw [cReadAll_err (l := l)]
      rcases List.mem_cons.1 hp with rfl | hp
      · exact absurd h hn
      · exact ⟨p, hp, hn⟩
    · rw [cAddr_err h]

theorem cWriteAll_ok {β} {n m : Nat} {x : β} :
    ∀ {l : List (Nat × Nat)} {mem : Nat → Option β}, (∀ p ∈ l, Inb n m p) →
      ∃ mem', cWriteAll n m x l mem = .ok mem' ∧ (∀ a, (∃ p ∈ l, p.1 * m + p.2 = a) → mem' a = some x) ∧
        (∀ a, (∀ p ∈ l, p.1 * m + p.2 ≠ a) → mem' a = mem a)
  | [], mem, _ => ⟨mem, rfl, fun _ ⟨_, h, _⟩ => by simp at h, fun _ _ => rfl⟩
  | (u, v) :: l, mem, h => by
    obtain ⟨mem', h1, h2, h3⟩ := cWriteAll_ok (β := β) (n := n) (m := m) (x := x) (l := l)
      (mem := fun b => if b = u * m + v then some x else mem b) (fun p hp => h p (List.mem_cons_of_mem _ hp))
    refine ⟨mem', by rw [cWriteAll, cAddr_ok (h (u, v) (List.mem_cons_self ..))]; exact h1, ?_, ?_⟩
    · rintro a ⟨p, hp, rfl⟩
      by_cases hl : ∃ q ∈ l, q.1 * m + q.2 = p.1 * m + p.2
      · exact h2 _ hl
      · rcases List.mem_cons.1 hp with rfl | hp
        · rw [h3 _ (fun q hq he => hl ⟨q, hq, he⟩), if_pos rfl]
        · exact absurd ⟨p, hp, rfl⟩ hl
    · intro a ha
      rw [h3 a (fun q hq => ha q (List.mem_cons_of_mem _ hq)), if_neg]
      exact fun e => ha (u, v) (List.mem_cons_self ..) e.symm

/-- Addresses written for a block. -/
def Writes (m s : Nat) (p : Nat × Nat) (a : Nat) : Prop := ∃ c ∈ cells s p.1 p.2, c.1 * m + c.2 = a

theorem cLoop_ok {β} {n m s : Nat} {val : Nat → Nat → Except CErr β} :
    ∀ {l : List (Nat × Nat)} {mem : Nat → Option β},
      (∀ p ∈ l, (∃ x, val p.1 p.2 = .ok x) ∧ ∀ c ∈ cells s p.1 p.2, Inb n m c) →
      ∃ mem', cLoop n m s val l mem = .ok mem' ∧ (∀ a, (∀ p ∈ l, ¬ Writes m s p a) → mem' a = mem a) ∧
        (∀ a p x, (∀ q ∈ l, Writes m s q a → q = p) → val p.1 p.2 = .ok x →
          ((p ∈ l ∧ Writes m s p a) ∨ mem a = some x) → mem' a = some x)
  | [], mem, _ => ⟨mem, rfl, fun _ _ => rfl, fun a p x _ _ h => by
      rcases h with ⟨h, _⟩ | h
      · simp at h
      · exact h⟩
  | (i, j) :: l, mem, h => by
    obtain ⟨⟨y, hy⟩, hc⟩ := h (i, j) (List.mem_cons_self ..)
    obtain ⟨m1, e1, w1, w2⟩ := cWriteAll_ok (x := y) (mem := mem) hc
    obtain ⟨mem', h1, h2, h3⟩ := cLoop_ok (val := val) (l := l) (mem := m1) (fun p hp => h p (List.mem_cons_of_mem _ hp))
    simp only at hy
    refine ⟨mem', by rw [cLoop, hy]; simp only; rw [e1]; exact h1, ?_, ?_⟩
    · intro a ha
      rw [h2 a (fun p hp => ha p (List.mem_cons_of_mem _ hp)), w2 a]
      intro p hp he
      exact ha (i, j) (List.mem_cons_self ..) ⟨p, hp, he⟩
    · intro a p x hu hx hw
      apply h3 a p x (fun q hq => hu q (List.mem_cons_of_mem _ hq)) hx
      by_cases hij : Writes m s (i, j) a
      · right
        have := hu (i, j) (List.mem_cons_self ..) hij
        subst this
        rw [w1 a hij]
        simp only at hx
        rw [hy] at hx
        simpa using hx
      · rcases hw with ⟨hp, hpw⟩ | hm
        · rcases List.mem_cons.1 hp with rfl | hp
          · exact absurd hpw hij
          · exact Or.inl ⟨hp, hpw⟩
        · right
          rw [w2 a (fun c hc he => hij ⟨c, hc, he⟩), hm]

theorem cLoop_some {β} {n m s : Nat} {val : Nat → Nat → Except CErr β} :
    ∀ {l : List (Nat × Nat)} {mem : Nat → Option β},
      (∀ p ∈ l, (∃ x, val p.1 p.2 = .ok x) ∧ ∀ c ∈ cells s p.1 p.2, Inb n m c) →
      ∃ mem', cLoop n m s val l mem = .ok mem' ∧
        ∀ a, (mem a ≠ none ∨ ∃ p ∈ l, Writes m s p a) → mem' a ≠ none
  | [], mem, _ => ⟨mem, rfl, fun a h => by
      rcases h with h | ⟨p, hp, _⟩
      · exact h
      · simp at hp⟩
  | (i, j) :: l, mem, h => by
    obtain ⟨⟨y, hy⟩, hc⟩ := h (i, j) (List.mem_cons_self ..)
    obtain ⟨m1, e1, w1, w2⟩ := cWriteAll_ok (x := y) (mem := mem) hc
    obtain ⟨mem', h1, h2⟩ := cLoop_some (val := val) (l := l) (mem := m1) (fun p hp => h p (List.mem_cons_of_mem _ hp))
    simp only at hy
    refine ⟨mem', by rw [cLoop, hy]; simp only; rw [e1]; exact h1, fun a ha => ?_⟩
    by_cases hij : Writes m s (i, j) a
    · exact h2 a (Or.inl (by rw [w1 a hij]; simp))
    · rcases ha with ha | ⟨p, hp, hw⟩
      · exact h2 a (Or.inl (by rw [w2 a (fun c hc he => hij ⟨c, hc, he⟩)]; exact ha))
      · rcases List.mem_cons.1 hp with rfl | hp
        · exact absurd hw hij
        · exact h2 a (Or.inr ⟨p, hp, hw⟩)

theorem cLoop_err {β} {n m s : Nat} {val : Nat → Nat → Except CErr β} {e : CErr} :
    ∀ {l : List (Nat × Nat)} {mem : Nat → Option β},
      (∀ p ∈ l, val p.1 p.2 = .error e ∨ ((∃ x, val p.1 p.2 = .ok x) ∧ ∀ c ∈ cells s p.1 p.2, Inb n m c)) →
      (∃ p ∈ l, val p.1 p.2 = .error e) → cLoop n m s val l mem = .error e
  | [], _, _, ⟨_, h, _⟩ => by simp at h
  | (i, j) :: l, mem, h, ⟨p, hp, hv⟩ => by
    rw [cLoop]
    rcases h (i, j) (List.mem_cons_self ..) with h1 | ⟨⟨x, hx⟩, hc⟩
    · simp only at h1
      rw [h1]
    · simp only at hx
      obtain ⟨m1, e1, -, -⟩ := cWriteAll_ok (x := x) (mem := mem) hc
      rw [hx]
      simp only
      simp only at e1
      rw [e1]
      simp only
      refine cLoop_err (fun q hq => h q (List.mem_cons_of_mem _ hq)) ?_
      rcases List.mem_cons.1 hp with rfl | hp
      · simp only at hv
        rw [hx] at hv
        simp at hv
      · exact ⟨p, hp, hv⟩

theorem mem_cells {k i j : Nat} {p : Nat × Nat} : p ∈ cells k i j ↔ i ≤ p.1 ∧ p.1 < i + k ∧ j ≤ p.2 ∧ p.2 < j + k := by
  obtain ⟨u, v⟩ := p
  unfold cells
  simp only [List.mem_flatMap, List.mem_map, List.mem_range, Prod.mk.injEq]
  constructor
  · rintro ⟨a, ha, b, hb, rfl, rfl⟩; omega
  · rintro ⟨h1, h2, h3, h4⟩; exact ⟨u - i, by omega, v - j, by omega, by omega, by omega⟩

theorem mem_cBlocks {n m bs s : Nat} (hs : 0 < s) {p : Nat × Nat} :
    p ∈ cBlocks n m bs s ↔ s ∣ p.1 ∧ p.1 + bs ≤ m ∧ s ∣ p.2 ∧ p.2 + bs ≤ n := by
  obtain ⟨i, j⟩ := p
  unfold cBlocks
  simp only [List.mem_flatMap, List.mem_map, mem_pyRange_zero hs, Prod.mk.injEq]
  constructor
  · rintro ⟨a, ⟨h1, h2⟩, b, ⟨h3, h4⟩, rfl, rfl⟩; exact ⟨h1, by omega, h3, by omega⟩
  · rintro ⟨h1, h2, h3, h4⟩; exact ⟨i, ⟨h1, by omega⟩, j, ⟨h3, by omega⟩, rfl, rfl⟩

/-! ### C41: bounds -/

/-- Last start of a block along an axis of length `m`. -/
theorem last_start {m bs s i : Nat} (h : bs ≤ m) (hs : 0 < s) (hi : s ∣ i) (him : i + bs ≤ m) : i ≤ (m - bs) / s * s := by
  obtain ⟨k, rfl⟩ := hi
  have : k ≤ (m - bs) / s := by rw [Nat.le_div_iff_mul_le hs, Nat.mul_comm]; omega
  rw [Nat.mul_comm]
  exact Nat.mul_le_mul_right _ this

theorem blocks_inb {n m bs s : Nat} (hs : 0 < s) (hm : bs ≤ m) (hn : bs ≤ n)
    (h : (m - bs) / s * s + bs ≤ n) {p : Nat × Nat} (hp : p ∈ cBlocks n m bs s) :
    ∀ c ∈ cells bs p.1 p.2, Inb n m c := by
  intro c hc
  obtain ⟨h1, h2, h3, h4⟩ := (mem_cBlocks hs).1 hp
  obtain ⟨c1, c2, c3, c4⟩ := mem_cells.1 hc
  have hl := last_start hm hs h1 h2
  have hu : c.1 < n := by omega
  refine ⟨hu, ?_⟩
  have hu' : c.1 + 1 ≤ m := by omega
  have hv : c.2 + 1 ≤ n := by omega
  rcases Nat.le_total n m with hnm | hnm
  · have : (c.1 + 1) * m ≤ n * m := Nat.mul_le_mul_right m hu
    rw [Nat.add_mul] at this
    omega
  · obtain ⟨d, rfl⟩ := Nat.exists_eq_add_of_le hnm
    have e1 : (c.1 + 1) * m ≤ m * m := Nat.mul_le_mul_right m hu'
    rw [Nat.add_mul] at e1
    rw [Nat.add_mul]
    have e2 : d ≤ d * m := Nat.le_mul_of_pos_right d (by omega)
    omega

theorem cells_mono {s bs i j : Nat} (h : s ≤ bs) {c : Nat × Nat} (hc : c ∈ cells s i j) : c ∈ cells bs i j := by
  rw [mem_cells] at hc ⊢
  omega

theorem cBlockVal_ok {β} {n m bs : Nat} {stat : List ℝ → β} {buf : Nat → ℝ} {i j : Nat}
    (h : ∀ c ∈ cells bs i j, Inb n m c) :
    cBlockVal n m bs stat buf i j = .ok (stat ((cells bs i j).map (fun p => buf (p.1 * m + p.2)))) := by
  unfold cBlockVal
  rw [cReadAll_ok h]

/-- Computing the statistics of an array of `n` rows and `m` columns stays inside of the buffers exactly
if the last block of rows, which is placed as if there were `m` rows, ends before row `n`. Otherwise
memory outside of the buffers is accessed. -/
theorem C41_bounds_iff {β} {n m bs s : Nat} (stat : List ℝ → β) (buf : Nat → ℝ) (hs : 0 < s) (hsb : s ≤ bs)
    (hm : bs ≤ m) (hn : bs ≤ n) :
    ((∃ out, cStatistic n m bs s stat buf = .ok out) ↔ (m - bs) / s * s + bs ≤ n) ∧
      (n < (m - bs) / s * s + bs → cStatistic n m bs s stat buf = .error .outOfBounds) := by
  have hok : (m - bs) / s * s + bs ≤ n → ∃ out, cStatistic n m bs s stat buf = .ok out := by
    intro h
    obtain ⟨out, ho, -, -⟩ := cLoop_ok (val := cBlockVal n m bs stat buf) (s := s) (l := cBlocks n m bs s)
      (mem := fun _ => none) (fun p hp => by
        have hb := blocks_inb hs hm hn h hp
        exact ⟨⟨_, cBlockVal_ok hb⟩, fun c hc => hb c (cells_mono hsb hc)⟩)
    exact ⟨out, ho⟩
  have herr : n < (m - bs) / s * s + bs → cStatistic n m bs s stat buf = .error .outOfBounds := by
    intro h
    apply cLoop_err
    · intro p hp
      by_cases hb : ∀ c ∈ cells bs p.1 p.2, Inb n m c
      · exact Or.inr ⟨⟨_, cBlockVal_ok hb⟩, fun c hc => hb c (cells_mono hsb hc)⟩
      · push Not at hb
        left
        unfold cBlockVal
        rw [cReadAll_err hb]
    · have hk : (m - bs) / s * s ≤ m - bs := Nat.div_mul_le_self _ _
      refine ⟨((m - bs) / s * s, 0), (mem_cBlocks hs).2 ⟨Dvd.intro_left _ rfl, by simp only; omega, Dvd.intro 0 rfl, by simp only; omega⟩, ?_⟩
      unfold cBlockVal
      rw [cReadAll_err ⟨((m - bs) / s * s + (bs - 1), 0), mem_cells.2 ⟨by simp only; omega, by simp only; omega, by simp only; omega, by simp only; omega⟩, ?_⟩]
      rintro ⟨h1, _⟩
      simp only at h1
      omega
  refine ⟨⟨fun ⟨out, ho⟩ => ?_, hok⟩, herr⟩
  rcases Nat.lt_or_ge n ((m - bs) / s * s + bs) with h | h
  · rw [herr h] at ho
    simp at ho
  · exact h

example : cStatistic 64 128 16 4 cStdev (fun _ => 0) = .error .outOfBounds :=
  (C41_bounds_iff _ _ (by decide) (by decide) (by decide) (by decide)).2 (by decide)

/-- No access outside of the buffers if there are at least as many rows as columns. The full claim is
C41 for all sizes. -/
theorem C41_partial {β} {n m bs s : Nat} (stat : List ℝ → β) (buf : Nat → ℝ) (hs : 0 < s) (hsb : s ≤ bs)
    (hm : bs ≤ m) (hnm : m ≤ n) : ∃ out, cStatistic n m bs s stat buf = .ok out := by
  apply (C41_bounds_iff stat buf hs hsb hm (by omega)).1.2
  have : (m - bs) / s * s ≤ m - bs := Nat.div_mul_le_self _ _
  omega

/-- Every image that is wider than high by at least the stride makes `getstatistics` and `minstd` access
memory outside of their buffers. -/
theorem C41_wide {n m bs s : Nat} (buf : Nat → ℝ) (hs : 0 < s) (hsb : s ≤ bs) (hn : bs ≤ n) (h : n + s ≤ m) :
    (∀ (β : Type) (stat : List ℝ → β), cStatistic n m bs s stat buf = .error .outOfBounds) ∧
      cMinstd n m bs s buf = .error .outOfBounds := by
  have key : ∀ (β : Type) (stat : List ℝ → β), cStatistic n m bs s stat buf = .error .outOfBounds := by
    intro β stat
    apply (C41_bounds_iff stat buf hs hsb (by omega) hn).2
    have e1 := Nat.div_add_mod' (m - bs) s
    have e2 := Nat.mod_lt (m - bs) hs
    omega
  exact ⟨key, by unfold cMinstd; rw [key]⟩

example : cMinstd 64 128 16 4 (fun i => i) = .error .outOfBounds := (C41_wide _ (by decide) (by decide) (by decide) (by decide)).2

theorem C41_refuted : ¬ ∀ (n m bs s : Nat) (ov : Rat) (buf : Nat → ℝ), madArgs n m bs ov = .ok (bs, s) →
    ∃ out, cStatistic n m bs s cStdev buf = .ok out := by
  intro h
  obtain ⟨out, ho⟩ := h 64 128 16 4 (3 / 4) (fun _ => 0) (by decide +kernel)
  rw [(C41_wide _ (by decide) (by decide) (by decide) (by decide)).1] at ho
  simp at ho

example : ∃ out, cStatistic 128 64 16 4 cStdev (fun _ => 0) = .ok out :=
  C41_partial _ _ (by decide) (by decide) (by decide) (by decide)

/-! ### C42: initialization -/

/-- Unique owner of an address in a square array. -/
theorem writes_unique {n bs s : Nat} (hs : 0 < s) (hsb : s ≤ bs) {u v : Nat} (hv : v < n) {q : Nat × Nat}
    (hq : q ∈ cBlocks n n bs s) (h : Writes n s q (u * n + v)) : q = (u / s * s, v / s * s) := by
  obtain ⟨c, hc, he⟩ := h
  obtain ⟨h1, h2, h3, h4⟩ := (mem_cBlocks hs).1 hq
  obtain ⟨c1, c2, c3, c4⟩ := mem_cells.1 hc
  have hc2 : c.2 < n := by omega
  have hn : 0 < n := by omega
  have e1 : c.1 = u := by
    have : (c.1 * n + c.2) / n = (u * n + v) / n := by rw [he]
    rw [Nat.mul_comm c.1, Nat.mul_comm u, Nat.mul_add_div hn, Nat.mul_add_div hn, Nat.div_eq_of_lt hc2,
      Nat.div_eq_of_lt hv] at this
    omega
  rw [e1] at he c1 c2
  have e2 : c.2 = v := by omega
  rw [e2] at c3 c4
  ext
  · exact (div_of_bounds hs h1 c1 c2).symm
  · exact (div_of_bounds hs h3 c3 c4).symm

theorem square_block {n bs s u v : Nat} (hs : 0 < s) (hu : u + bs ≤ n) (hv : v + bs ≤ n) :
    (u / s * s, v / s * s) ∈ cBlocks n n bs s ∧ Writes n s (u / s * s, v / s * s) (u * n + v) := by
  have e1 := Nat.div_add_mod' u s
  have e2 := Nat.mod_lt u hs
  have e3 := Nat.div_add_mod' v s
  have e4 := Nat.mod_lt v hs
  exact ⟨(mem_cBlocks hs).2 ⟨Dvd.intro_left _ rfl, by simp only; omega, Dvd.intro_left _ rfl, by simp only; omega⟩,
    ⟨(u, v), mem_cells.2 ⟨by simp only; omega, by simp only; omega, by simp only; omega, by simp only; omega⟩, rfl⟩⟩

/-- For square images the maps hold, at every pixel from which a whole block fits into the image, the
statistic of the block starting at the next smaller multiple of the stride. -/
theorem C42_square {β} {n bs s : Nat} (stat : List ℝ → β) (buf : Nat → ℝ) (hs : 0 < s) (hsb : s ≤ bs) (hn : bs ≤ n) :
    ∃ out, cStatistic n n bs s stat buf = .ok out ∧
      ∀ u v, u + bs ≤ n → v + bs ≤ n →
        out (u * n + v) = some (stat ((cells bs (u / s * s) (v / s * s)).map (fun p => buf (p.1 * n + p.2)))) := by
  have hsafe : (n - bs) / s * s + bs ≤ n := by
    have : (n - bs) / s * s ≤ n - bs := Nat.div_mul_le_self _ _
    omega
  obtain ⟨out, ho, -, h3⟩ := cLoop_ok (val := cBlockVal n n bs stat buf) (s := s) (l := cBlocks n n bs s)
    (mem := fun _ => none) (fun p hp => by
      have hb := blocks_inb hs hn hn hsafe hp
      exact ⟨⟨_, cBlockVal_ok hb⟩, fun c hc => hb c (cells_mono hsb hc)⟩)
  refine ⟨out, ho, fun u v hu hv => ?_⟩
  have hb := square_block hs hu hv
  exact h3 _ (u / s * s, v / s * s) _ (fun q hq hw => writes_unique hs hsb (by omega) hq hw)
    (cBlockVal_ok (blocks_inb hs hn hn hsafe hb.1)) (Or.inl hb)

/-- The value at (5, 2) of an 8 by 8 image is that of the block at (4, 2). -/
example : ∃ out, cStatistic 8 8 2 2 (fun l => l) (fun i => i) = .ok out ∧ out 42 = some [34, 35, 42, 43] := by
  obtain ⟨out, h, h'⟩ := C42_square (n := 8) (bs := 2) (s := 2) (fun l => l) (fun i => i) (by decide) (by decide) (by decide)
  refine ⟨out, h, (h' 5 2 (by decide) (by decide)).trans ?_⟩
  norm_num [cells, List.range_succ]

/-- So no uninitialized entry of a square map is used after the border of one block is removed. The full
claim is C42 for all sizes. -/
theorem C42_partial {β} {n bs s : Nat} (stat : List ℝ → β) (buf : Nat → ℝ) (hs : 0 < s) (hsb : s ≤ bs) (hn : bs ≤ n) :
    ∃ out, cStatistic n n bs s stat buf = .ok out ∧
      ∀ u v, bs ≤ u → u + bs < n → bs ≤ v → v + bs < n → out (u * n + v) ≠ none := by
  obtain ⟨out, h1, h2⟩ := C42_square stat buf hs hsb hn
  exact ⟨out, h1, fun u v _ hu _ hv h => by rw [h2 u v (by omega) (by omega)] at h; simp at h⟩

example : ∃ out, cStatistic 64 64 16 4 cStdev (fun i => i) = .ok out ∧ out (20 * 64 + 30) ≠ none := by
  obtain ⟨out, h, h'⟩ := C42_partial (n := 64) (bs := 16) (s := 4) cStdev (fun i => i) (by decide) (by decide) (by decide)
  exact ⟨out, h, h' 20 30 (by decide) (by decide) (by decide) (by decide)⟩

/-- Images at least twice as high as wide: the last row that is used was never written. -/
theorem C42_tall {β} {n m bs s : Nat} (stat : List ℝ → β) (buf : Nat → ℝ) (hs : 0 < s) (hsb : s ≤ bs)
    (hm : 2 * bs < m) (hn : 2 * m ≤ n) :
    ∃ out, cStatistic n m bs s stat buf = .ok out ∧ out ((n - bs - 1) * m + bs) = none := by
  have hsafe : (m - bs) / s * s + bs ≤ n := by
    have : (m - bs) / s * s ≤ m - bs := Nat.div_mul_le_self _ _
    omega
  obtain ⟨out, ho, h2, -⟩ := cLoop_ok (val := cBlockVal n m bs stat buf) (s := s) (l := cBlocks n m bs s)
    (mem := fun _ => none) (fun p hp => by
      have hb := blocks_inb hs (by omega) (by omega) hsafe hp
      exact ⟨⟨_, cBlockVal_ok hb⟩, fun c hc => hb c (cells_mono hsb hc)⟩)
  refine ⟨out, ho, ?_⟩
  rw [h2]
  rintro p hp ⟨c, hc, he⟩
  obtain ⟨h1, h2, h3, h4⟩ := (mem_cBlocks hs).1 hp
  obtain ⟨c1, c2, c3, c4⟩ := mem_cells.1 hc
  have hc1 : c.1 + bs + 1 ≤ m + s := by omega
  have hc2 : c.2 + bs + 1 ≤ n + s := by omega
  zify at *
  have hr : ((n - bs - 1 : Nat) : Int) = n - bs - 1 := by omega
  rw [hr] at he
  nlinarith [mul_nonneg (show (0 : Int) ≤ m + s - (c.1 + bs + 1) by omega) (show (0 : Int) ≤ m by omega),
    mul_nonneg (show (0 : Int) ≤ n - 2 * m by omega) (show (0 : Int) ≤ m - 1 by omega),
    mul_nonneg (show (0 : Int) ≤ m - 2 - s by omega) (show (0 : Int) ≤ m by omega)]

example : ∃ out, cStatistic 128 64 16 4 cStdev (fun i => i) = .ok out ∧ out (111 * 64 + 16) = none :=
  C42_tall _ _ (by decide) (by decide) (by decide) (by decide)

theorem C42_refuted : ¬ ∀ (n m bs s : Nat) (buf : Nat → ℝ), 0 < s → s ≤ bs → bs ≤ n → bs ≤ m →
    ∀ out, cStatistic n m bs s cStdev buf = .ok out →
      ∀ u v, bs ≤ u → u + bs < n → bs ≤ v → v + bs < m → out (u * m + v) ≠ none := by
  intro h
  obtain ⟨out, h1, h2⟩ := C42_tall (n := 80) (m := 40) (bs := 16) (s := 4) cStdev (fun _ => 0) (by decide) (by decide) (by decide) (by decide)
  exact h 80 40 16 4 (fun _ => 0) (by decide) (by decide) (by decide) (by decide) out h1 63 16
    (by decide) (by decide) (by decide) (by decide) h2

/-! ### C43: minimum search -/

theorem mem_pyRange {a b d x : Nat} (h : x ∈ pyRange a b d) : a ≤ x ∧ (0 < d → x < b) := by
  unfold pyRange at h
  obtain ⟨k, hk, rfl⟩ := List.mem_map.1 h
  rw [List.mem_range] at hk
  refine ⟨by omega, fun hd => ?_⟩
  have := (Nat.le_div_iff_mul_le hd).1 (show k + 1 ≤ _ from hk)
  rw [Nat.add_mul] at this
  omega

theorem cMinFrom_ok {n m : Nat} {tmp : Nat → Option ℝ} :
    ∀ {l : List (Nat × Nat)} {x : ℝ}, (∀ p ∈ l, Inb n m p ∧ ∃ t, tmp (p.1 * m + p.2) = some t) →
      ∃ y, cMinFrom n m tmp l x = .ok y ∧ y ≤ x ∧ ∀ p ∈ l, ∀ t, tmp (p.1 * m + p.2) = some t → y ≤ t
  | [], x, _ => ⟨x, rfl, le_rfl, fun _ h => by simp at h⟩
  | (u, v) :: l, x, h => by
    obtain ⟨hb, t, ht⟩ := h (u, v) (List.mem_cons_self ..)
    simp only at ht
    obtain ⟨y, h1, h2, h3⟩ := cMinFrom_ok (n := n) (m := m) (tmp := tmp) (l := l) (x := if t < x then t else x)
      (fun p hp => h p (List.mem_cons_of_mem _ hp))
    have hmin : y ≤ x ∧ y ≤ t := by
      split at h2
      · rename_i hlt; exact ⟨le_trans h2 hlt.le, h2⟩
      · rename_i hlt; exact ⟨h2, le_trans h2 (not_lt.1 hlt)⟩
    refine ⟨y, ?_, hmin.1, ?_⟩
    · rw [cMinFrom, cAddr_ok hb]
      simp only
      rw [ht]
      exact h1
    · intro p hp t' ht'
      rcases List.mem_cons.1 hp with rfl | hp
      · simp only at ht'
        rw [ht] at ht'
        simp only [Option.some.injEq] at ht'
        rw [← ht']; exact hmin.2
      · exact h3 p hp t' ht'

theorem searchCells_nil {bs s i j : Nat} (h : bs / 2 ≤ i ∨ bs / 2 ≤ j) : searchCells bs s i j = [] := by
  unfold searchCells
  rw [List.flatMap_eq_nil_iff]
  intro u hu
  have h1 := mem_pyRange hu
  rw [List.map_eq_nil_iff, List.eq_nil_iff_forall_not_mem]
  intro v hv
  have h2 := mem_pyRange hv
  have := h1.2 (by omega)
  have := h2.2 (by omega)
  omega

/-- `minstd` accesses no memory outside of its buffers and reads no value that was not written if there are at least as many rows
as columns and two blocks fit into a row. -/
theorem C41_minstd_partial {n m bs s : Nat} (buf : Nat → ℝ) (hs : 0 < s) (hsb : s ≤ bs) (hm : 2 * bs ≤ m) (hnm : m ≤ n) :
    ∃ out, cMinstd n m bs s buf = .ok out := by
  have hsafe : (m - bs) / s * s + bs ≤ n := by
    have : (m - bs) / s * s ≤ m - bs := Nat.div_mul_le_self _ _
    omega
  have hinb : ∀ u v, u < m → v < n → Inb n m (u, v) := by
    intro u v hu hv
    refine ⟨by simp only; omega, ?_⟩
    obtain ⟨d, rfl⟩ := Nat.exists_eq_add_of_le hnm
    have e1 : (u + 1) * m ≤ m * m := Nat.mul_le_mul_right m hu
    rw [Nat.add_mul] at e1
    have e2 : d ≤ d * m := Nat.le_mul_of_pos_right d (by omega)
    simp only
    rw [Nat.add_mul]
    omega
  obtain ⟨tmp, ht, hw⟩ := cLoop_some (val := cBlockVal n m bs cStdev buf) (s := s) (l := cBlocks n m bs s)
    (mem := fun _ => none) (fun p hp => by
      have hb := blocks_inb hs (by omega) (by omega) hsafe hp
      exact ⟨⟨_, cBlockVal_ok hb⟩, fun c hc => hb c (cells_mono hsb hc)⟩)
  have hwritten : ∀ u v, u + bs ≤ m → v + bs ≤ n → ∃ t, tmp (u * m + v) = some t := by
    intro u v hu hv
    have e1 := Nat.div_add_mod' u s
    have e2 := Nat.mod_lt u hs
    have e3 := Nat.div_add_mod' v s
    have e4 := Nat.mod_lt v hs
    exact Option.ne_none_iff_exists'.1 (hw _ (Or.inr ⟨(u / s * s, v / s * s),
      (mem_cBlocks hs).2 ⟨Dvd.intro_left _ rfl, by simp only; omega, Dvd.intro_left _ rfl, by simp only; omega⟩,
      (u, v), mem_cells.2 ⟨by simp only; omega, by simp only; omega, by simp only; omega, by simp only; omega⟩, rfl⟩))
  have hval : ∀ i j, i + bs ≤ m → j + bs ≤ n → ∃ y, cMinVal n m bs s tmp i j = .ok y := by
    intro i j hi hj
    obtain ⟨t, hown⟩ := hwritten i j hi hj
    obtain ⟨y, h1, -⟩ := cMinFrom_ok (n := n) (m := m) (tmp := tmp) (l := searchCells bs s i j) (x := t) (fun p hp => by
      unfold searchCells at hp
      simp only [List.mem_flatMap, List.mem_map] at hp
      obtain ⟨a, ha, b, hb, rfl⟩ := hp
      have h1 := (mem_pyRange ha).2 (by omega)
      have h2 := (mem_pyRange hb).2 (by omega)
      exact ⟨hinb a b (by omega) (by omega), hwritten a b (by omega) (by omega)⟩)
    refine ⟨y, ?_⟩
    unfold cMinVal
    rw [cAddr_ok (hinb i j (by omega) (by omega))]
    simp only
    rw [hown]
    exact h1
  obtain ⟨out, ho, -⟩ := cLoop_some (val := cMinVal n m bs s tmp) (s := s) (l := cBlocks n m bs s)
    (mem := tmp) (fun p hp => by
      obtain ⟨b1, b2, b3, b4⟩ := (mem_cBlocks hs).1 hp
      have hb := blocks_inb hs (show bs ≤ m by omega) (by omega) hsafe hp
      exact ⟨hval p.1 p.2 b2 b4, fun c hc => hb c (cells_mono hsb hc)⟩)
  refine ⟨out, ?_⟩
  unfold cMinstd cStatistic
  rw [ht]
  exact ho

example : ∃ out, cMinstd 128 64 16 4 (fun i => i) = .ok out :=
  C41_minstd_partial _ (by decide) (by decide) (by decide) (by decide)

/-- The standard deviation of the block starting at row `i`, column `j`. -/
noncomputable def blockStdev (n bs : Nat) (buf : Nat → ℝ) (i j : Nat) : ℝ :=
  cStdev ((cells bs i j).map (fun p => buf (p.1 * n + p.2)))

/-- `minstd` of a square image: defined if the image has at least the size of two blocks; the value
reported for a block is at most its own standard deviation and at most the one of every block that the
search visits; blocks starting at or behind half a block in either direction search nothing and report
their own standard deviation. Blocks of a single pixel have no sample deviation and are left out. -/
theorem C43_minstd {n bs s : Nat} (buf : Nat → ℝ) (hs : 0 < s) (hsb : s ≤ bs) (hn : 2 * bs ≤ n) (_h2 : 2 ≤ bs) :
    ∃ out, cMinstd n n bs s buf = .ok out ∧
      ∀ u v, u + bs ≤ n → v + bs ≤ n → ∃ y, out (u * n + v) = some y ∧
        y ≤ blockStdev n bs buf (u / s * s) (v / s * s) ∧
        (∀ p ∈ searchCells bs s (u / s * s) (v / s * s), y ≤ blockStdev n bs buf (p.1 / s * s) (p.2 / s * s)) ∧
        (bs / 2 ≤ u / s * s ∨ bs / 2 ≤ v / s * s → y = blockStdev n bs buf (u / s * s) (v / s * s)) := by
  obtain ⟨tmp, ht, htv⟩ := C42_square cStdev buf hs hsb (show bs ≤ n by omega)
  have hsafe : (n - bs) / s * s + bs ≤ n := by
    have : (n - bs) / s * s ≤ n - bs := Nat.div_mul_le_self _ _
    omega
  have hsearch : ∀ i j, ∀ p ∈ searchCells bs s i j, p.1 < bs / 2 ∧ p.2 < bs / 2 := by
    intro i j p hp
    unfold searchCells at hp
    simp only [List.mem_flatMap, List.mem_map] at hp
    obtain ⟨a, ha, b, hb, rfl⟩ := hp
    exact ⟨(mem_pyRange ha).2 (by omega), (mem_pyRange hb).2 (by omega)⟩
  have hinb : ∀ u v, u < n → v < n → Inb n n (u, v) := by
    intro u v hu hv
    refine ⟨hu, ?_⟩
    have : (u + 1) * n ≤ n * n := Nat.mul_le_mul_right n hu
    rw [Nat.add_mul] at this
    simp only
    omega
  have hval : ∀ i j, s ∣ i → s ∣ j → i + bs ≤ n → j + bs ≤ n → ∃ y, cMinVal n n bs s tmp i j = .ok y ∧
      y ≤ blockStdev n bs buf i j ∧
      (∀ p ∈ searchCells bs s i j, y ≤ blockStdev n bs buf (p.1 / s * s) (p.2 / s * s)) ∧
      (bs / 2 ≤ i ∨ bs / 2 ≤ j → y = blockStdev n bs buf i j) := by
    intro i j hi hj hin hjn
    have hown := htv i j hin hjn
    rw [Nat.div_mul_cancel hi, Nat.div_mul_cancel hj] at hown
    obtain ⟨y, h1, h2, h3⟩ := cMinFrom_ok (n := n) (m := n) (tmp := tmp) (l := searchCells bs s i j)
      (x := blockStdev n bs buf i j) (fun p hp => by
        have := hsearch i j p hp
        exact ⟨hinb p.1 p.2 (by omega) (by omega), _, htv p.1 p.2 (by omega) (by omega)⟩)
    refine ⟨y, ?_, h2, ?_, ?_⟩
    · unfold cMinVal
      rw [cAddr_ok (hinb i j (by omega) (by omega))]
      simp only
      rw [hown]
      exact h1
    · intro p hp
      have := hsearch i j p hp
      exact h3 p hp _ (htv p.1 p.2 (by omega) (by omega))
    · intro h
      rw [searchCells_nil h] at h1
      simp only [cMinFrom, Except.ok.injEq] at h1
      exact h1.symm
  obtain ⟨out, ho, -, h3⟩ := cLoop_ok (val := cMinVal n n bs s tmp) (s := s) (l := cBlocks n n bs s)
    (mem := tmp) (fun p hp => by
      obtain ⟨b1, b2, b3, b4⟩ := (mem_cBlocks hs).1 hp
      have hb := blocks_inb hs (show bs ≤ n by omega) (by omega) hsafe hp
      obtain ⟨y, hy, -⟩ := hval p.1 p.2 b1 b3 b2 b4
      exact ⟨⟨y, hy⟩, fun c hc => hb c (cells_mono hsb hc)⟩)
  refine ⟨out, by unfold cMinstd; rw [ht]; exact ho, fun u v hu hv => ?_⟩
  have hb := square_block hs hu hv
  obtain ⟨b1, b2, b3, b4⟩ := (mem_cBlocks hs).1 hb.1
  obtain ⟨y, hy, y1, y2, y3⟩ := hval (u / s * s) (v / s * s) b1 b3 b2 b4
  exact ⟨y, h3 _ (u / s * s, v / s * s) _ (fun q hq hw => writes_unique hs hsb (by omega) hq hw) hy (Or.inl hb), y1, y2, y3⟩

example : ∃ out y, cMinstd 64 64 16 4 (fun i => i) = .ok out ∧ out (20 * 64 + 30) = some y ∧ y = blockStdev 64 16 (fun i => i) 20 28 := by
  obtain ⟨out, h, h'⟩ := C43_minstd (n := 64) (bs := 16) (s := 4) (fun i => i) (by decide) (by decide) (by decide) (by decide)
  obtain ⟨y, h1, -, -, h2⟩ := h' 20 30 (by decide) (by decide)
  exact ⟨out, y, h, h1, h2 (.inl (by decide))⟩

/-- The first block reports at most the standard deviation of every block the search of step `s + 1`
visits within half a block. The full claim is the same for every block, relative to its start. -/
theorem C43_first_partial {n bs s : Nat} (buf : Nat → ℝ) (hs : 0 < s) (hsb : s ≤ bs) (hn : 2 * bs ≤ n) (hb2 : 2 ≤ bs) :
    ∃ out y, cMinstd n n bs s buf = .ok out ∧ out 0 = some y ∧
      ∀ a b, a * (s + 1) < bs / 2 → b * (s + 1) < bs / 2 →
        y ≤ blockStdev n bs buf (a * (s + 1) / s * s) (b * (s + 1) / s * s) := by
  obtain ⟨out, h1, h2⟩ := C43_minstd buf hs hsb hn hb2
  obtain ⟨y, hy, -, y2, -⟩ := h2 0 0 (by omega) (by omega)
  refine ⟨out, y, h1, by simpa using hy, fun a b ha hb => ?_⟩
  apply y2 (a * (s + 1), b * (s + 1))
  rw [Nat.zero_div, Nat.zero_mul]
  unfold searchCells
  simp only [List.mem_flatMap, List.mem_map]
  exact ⟨_, (mem_pyRange_zero (by omega)).2 ⟨Dvd.intro_left _ rfl, ha⟩, _,
    (mem_pyRange_zero (by omega)).2 ⟨Dvd.intro_left _ rfl, hb⟩, rfl⟩

example : ∃ out y, cMinstd 64 64 16 4 (fun i => i) = .ok out ∧ out 0 = some y ∧ y ≤ blockStdev 64 16 (fun i => i) 4 0 := by
  obtain ⟨out, y, h, h1, h2⟩ := C43_first_partial (n := 64) (bs := 16) (s := 4) (fun i => i) (by decide) (by decide) (by decide) (by decide)
  exact ⟨out, y, h, h1, h2 1 0 (by decide) (by decide)⟩

theorem cStdev_pos {l : List ℝ} {x y : ℝ} (hx : x ∈ l) (hy : y ∈ l) (hxy : x ≠ y) (hl : 2 ≤ l.length) : 0 < cStdev l := by
  unfold cStdev
  apply Real.sqrt_pos.2
  set mu := l.sum / (l.length : ℝ)
  have hnn : ∀ z ∈ l.map (fun x => (x - mu) ^ 2), (0 : ℝ) ≤ z := by
    intro z hz
    obtain ⟨w, _, rfl⟩ := List.mem_map.1 hz
    positivity
  have hs : 0 < (l.map (fun x => (x - mu) ^ 2)).sum := by
    refine lt_of_le_of_ne (List.sum_nonneg hnn) (fun h0 => hxy ?_)
    have h1 := List.single_le_sum hnn _ (List.mem_map_of_mem hx)
    have h2 := List.single_le_sum hnn _ (List.mem_map_of_mem hy)
    rw [← h0] at h1 h2
    have e1 : x - mu = 0 := by
      have : (x - mu) ^ 2 = 0 := le_antisymm h1 (sq_nonneg _)
      exact pow_eq_zero_iff (two_ne_zero) |>.1 this
    have e2 : y - mu = 0 := by
      have : (y - mu) ^ 2 = 0 := le_antisymm h2 (sq_nonneg _)
      exact pow_eq_zero_iff (two_ne_zero) |>.1 this
    linarith
  have : (0 : ℝ) < (l.length : ℝ) - 1 := by
    have : (2 : ℝ) ≤ l.length := by exact_mod_cast hl
    linarith
  exact div_pos hs this

theorem cStdev_const {l : List ℝ} (h : ∀ x ∈ l, x = 0) : cStdev l = 0 := by
  unfold cStdev
  have : (l.map (fun x => (x - l.sum / l.length) ^ 2)).sum = 0 := by
    apply List.sum_eq_zero
    intro z hz
    obtain ⟨w, hw, rfl⟩ := List.mem_map.1 hz
    rw [h w hw, List.sum_eq_zero h]
    simp
  rw [this]
  simp

/-- The claim fails for blocks further inside of the image: an image with a single bright pixel, whose
block keeps its own standard deviation although a constant block lies within the search distance. -/
theorem C43_refuted : ¬ ∀ (n bs s : Nat) (buf : Nat → ℝ), 0 < s → s ≤ bs → 2 * bs ≤ n → 2 ≤ bs →
    ∀ out, cMinstd n n bs s buf = .ok out → ∀ i j a b, s ∣ i → s ∣ j →
      a * (s + 1) < bs / 2 → b * (s + 1) < bs / 2 → i + a * (s + 1) + bs ≤ n → j + b * (s + 1) + bs ≤ n →
      ∀ y, out (i * n + j) = some y →
        y ≤ blockStdev n bs buf ((i + a * (s + 1)) / s * s) ((j + b * (s + 1)) / s * s) := by
  intro h
  let buf : Nat → ℝ := fun k => if k = 126 then 1 else 0
  obtain ⟨out, h1, h2⟩ := C43_minstd (n := 20) (bs := 6) (s := 1) buf (by omega) (by omega) (by omega) (by omega)
  obtain ⟨y, hy, -, -, y3⟩ := h2 6 6 (by omega) (by omega)
  have hle := h 20 6 1 buf (by omega) (by omega) (by omega) (by omega) out h1 6 6 1 1 (by omega) (by omega) (by omega) (by omega)
    (by omega) (by omega) y hy
  rw [y3 (Or.inl (by norm_num))] at hle
  have hz : blockStdev 20 6 buf ((6 + 1 * (1 + 1)) / 1 * 1) ((6 + 1 * (1 + 1)) / 1 * 1) = 0 := by
    apply cStdev_const
    intro x hx
    obtain ⟨p, hp, rfl⟩ := List.mem_map.1 hx
    have := mem_cells.1 hp
    norm_num at this
    simp only [buf]
    rw [if_neg (by omega)]
  have hpos : 0 < blockStdev 20 6 buf (6 / 1 * 1) (6 / 1 * 1) := by
    apply cStdev_pos (x := 1) (y := 0)
    · exact List.mem_map.2 ⟨(6, 6), mem_cells.2 (by norm_num), by simp [buf]⟩
    · exact List.mem_map.2 ⟨(7, 7), mem_cells.2 (by norm_num), by simp [buf]⟩
    · norm_num
    · simp [cells]
  rw [hz] at hle
  linarith

/-! ### C44: layout -/

/-- Arrays whose rows are contiguous doubles are read as they are. -/
theorem C44_contiguous_partial (r c : Nat) (x : Nat → Nat → ℝ) (i j : Nat) (hj : j < c) :
    (contiguous r c x).elem i j = x i j ∧ (contiguous r c x).cElem i j = (contiguous r c x).elem i j := by
  have hc : 0 < c := by omega
  constructor
  · simp only [StridedArray.elem, contiguous, Nat.mul_one]
    rw [Nat.mul_comm, Nat.mul_add_div hc, Nat.div_eq_of_lt hj, Nat.mul_add_mod, Nat.mod_eq_of_lt hj, Nat.add_zero]
  · simp [StridedArray.elem, StridedArray.cElem, contiguous]

/-- The array MAD passes to `minstd` is the real part of a complex array, a view. Its elements are the
real parts, but the C code reads the real and imaginary parts of the first half of the pixels one after
the other. -/
theorem C44_real_view {r c : Nat} (re im : Nat → Nat → ℝ) (i j : Nat) (hj : j < c) :
    (realView r c re im).elem i j = re i j ∧
      ((i * c + j) % 2 = 0 → (realView r c re im).cElem i j = re ((i * c + j) / 2 / c) ((i * c + j) / 2 % c)) ∧
      ((i * c + j) % 2 = 1 → (realView r c re im).cElem i j = im ((i * c + j) / 2 / c) ((i * c + j) / 2 % c)) := by
  have hc : 0 < c := by omega
  refine ⟨?_, fun h => ?_, fun h => ?_⟩
  · have e : i * (2 * c) + j * 2 = 2 * (c * i + j) := by ring
    simp only [StridedArray.elem, realView, e]
    rw [if_pos (by omega), Nat.mul_div_cancel_left _ (by omega : 0 < 2), Nat.mul_add_div hc, Nat.div_eq_of_lt hj,
      Nat.mul_add_mod, Nat.mod_eq_of_lt hj, Nat.add_zero]
  · simp only [StridedArray.cElem, realView]
    rw [if_pos h]
  · simp only [StridedArray.cElem, realView]
    rw [if_neg (by omega)]

/-- The C code reads the imaginary part of the first pixel where it means the real part of the second. -/
example : (realView 2 3 (fun _ _ => 1) (fun _ _ => 2)).elem 0 1 = 1 ∧ (realView 2 3 (fun _ _ => 1) (fun _ _ => 2)).cElem 0 1 = 2 :=
  ⟨(C44_real_view (r := 2) (c := 3) _ _ 0 1 (by decide)).1, (C44_real_view (r := 2) (c := 3) _ _ 0 1 (by decide)).2.2 (by decide)⟩

/-- For every width of at least two there is an image for which the value at row 0, column 1 is wrong. -/
theorem C44_refuted : ∀ r c : Nat, 2 ≤ c →
    ¬ ∀ re im : Nat → Nat → ℝ, (realView r c re im).cElem 0 1 = (realView r c re im).elem 0 1 := by
  intro r c hc h
  have h1 := C44_real_view (r := r) (c := c) (fun _ _ => 1) (fun _ _ => 0) 0 1 (by omega)
  have h2 := h (fun _ _ => 1) (fun _ _ => 0)
  rw [h1.1, h1.2.2 (by omega)] at h2
  norm_num at h2

/-- For a real image (zero imaginary part) half of the values seen are zero. -/
theorem C44_half_zero {r c : Nat} (re : Nat → Nat → ℝ) (i j : Nat) (hj : j < c) (h : (i * c + j) % 2 = 1) :
    (realView r c re (fun _ _ => 0)).cElem i j = 0 :=
  (C44_real_view (r := r) re (fun _ _ => 0) i j hj).2.2 h

example : (contiguous 2 3 (fun i j => 10 * i + j)).cElem 1 2 = 12 := by
  rw [(C44_contiguous_partial 2 3 _ 1 2 (by omega)).2, (C44_contiguous_partial 2 3 _ 1 2 (by omega)).1]
  norm_num

example : (realView 2 3 (fun i j => 10 * i + j) (fun _ _ => 0)).cElem 1 2 = 0 :=
  C44_half_zero _ _ _ (by omega) (by omega)

/-! ### C88: memory is given back -/

theorem alive_append (h k : RefHeap) : alive (h ++ k) = alive h + alive k := by
  simp [alive, List.filter_append]

/-- Every call of `minstd` leaves one array alive that nobody refers to. -/
theorem C88_minstd (h : RefHeap) : alive (minstdCall h) = alive h + 1 := by
  unfold minstdCall
  simp only
  have : (h ++ [1, 1]).set h.length ((h ++ [1, 1]).getD h.length 0 - 1) = h ++ [0, 1] := by
    rw [List.set_append_right _ _ (le_refl _), List.getD_eq_getElem?_getD, List.getElem?_append_right (le_refl _)]
    simp
  rw [this, alive_append]
  rfl

example : alive (minstdCall [1, 0]) = 2 := C88_minstd [1, 0]

/-- Every call of `getstatistics` leaves three. -/
theorem C88_getstatistics (h : RefHeap) : alive (getstatisticsCall h) = alive h + 3 := by
  unfold getstatisticsCall
  simp only
  rw [alive_append]
  rfl

example : alive (getstatisticsCall [1, 0]) = 4 := C88_getstatistics [1, 0]

/-- The claim, that memory use does not grow with the number of calls, fails: after any sequence of calls
as many arrays are left as calls of `minstd` plus three times the calls of `getstatistics`. -/
theorem C88_leak (calls : List Bool) (h : RefHeap) :
    alive (calls.foldl (fun g b => if b then minstdCall g else getstatisticsCall g) h) =
      alive h + (calls.filter (· = true)).length + 3 * (calls.filter (· = false)).length := by
  induction calls generalizing h with
  | nil => simp
  | cons b l ih =>
    rw [List.foldl_cons, ih]
    cases b
    · simp only [Bool.false_eq_true, if_false, C88_getstatistics]
      simp
      omega
    · simp only [if_true, C88_minstd]
      simp
      omega

example : alive ([true, false, true].foldl (fun g b => if b then minstdCall g else getstatisticsCall g) []) = 5 :=
  C88_leak [true, false, true] []

theorem C88_refuted : ¬ ∀ h : RefHeap, alive (minstdCall h) = alive h := by
  intro hh
  have := hh []
  rw [C88_minstd] at this
  omega

example : alive (getstatisticsCall (minstdCall [])) = 4 := by decide

end Viqa
