import Verif.Props.BenchmarkScenes

/-! # Property C67, the four generators -/

set_option linter.unusedSectionVars false

namespace OpenMps

open Ref

theorem apart_of_nodup {sites : List Site} (h : sites.Nodup) (hn : ∀ s ∈ sites, ∀ t ∈ sites, s.i = t.i → s.k = t.k → s.number = t.number) :
    sites.Pairwise (fun s t => s.i ≠ t.i ∨ s.k ≠ t.k) := by
  refine List.Pairwise.imp_of_mem ?_ h
  intro s t hs ht hne
  by_contra hc
  rw [not_or, not_not, not_not] at hc
  refine hne ?_
  have := hn s hs t ht hc.1 hc.2
  obtain ⟨a, b, c⟩ := s
  obtain ⟨a', b', c'⟩ := t
  simp only at this hc
  rw [this, hc.1, hc.2]

theorem foldl_pyMin (f : Site → ℝ) : ∀ (l : List Site) (m : ℝ), l.foldl (fun m s => pyMin m (f s)) m ≤ m ∧ (∀ s ∈ l, l.foldl (fun m s => pyMin m (f s)) m ≤ f s) ∧
    (l.foldl (fun m s => pyMin m (f s)) m = m ∨ ∃ s ∈ l, l.foldl (fun m s => pyMin m (f s)) m = f s)
  | [], m => ⟨le_refl _, by simp, Or.inl rfl⟩
  | a :: l, m => by
    obtain ⟨h1, h2, h3⟩ := foldl_pyMin f l (pyMin m (f a))
    have k : pyMin m (f a) = min m (f a) := by
      unfold pyMin
      rw [min_def]
      by_cases hc : f a < m
      · rw [if_pos (by simpa [Scalar.lt] using hc), if_neg (not_le.mpr hc)]
      · rw [if_neg (by simpa [Scalar.lt] using hc), if_pos (not_lt.mp hc)]
    rw [k] at h1 h2 h3
    simp only [List.foldl_cons]
    rw [k]
    refine ⟨h1.trans (min_le_left _ _), ?_, ?_⟩
    · intro s hs
      rcases List.mem_cons.mp hs with rfl | hs
      · exact h1.trans (min_le_right _ _)
      · exact h2 s hs
    · rcases h3 with h3 | ⟨s, hs, h3⟩
      · rcases min_choice m (f a) with h | h
        · exact Or.inl (h3.trans h)
        · exact Or.inr ⟨a, by simp, h3.trans h⟩
      · exact Or.inr ⟨s, by simp [hs], h3⟩

theorem foldl_pyMax (f : Site → ℝ) : ∀ (l : List Site) (m : ℝ), m ≤ l.foldl (fun m s => pyMax m (f s)) m ∧ (∀ s ∈ l, f s ≤ l.foldl (fun m s => pyMax m (f s)) m) ∧
    (l.foldl (fun m s => pyMax m (f s)) m = m ∨ ∃ s ∈ l, l.foldl (fun m s => pyMax m (f s)) m = f s)
  | [], m => ⟨le_refl _, by simp, Or.inl rfl⟩
  | a :: l, m => by
    obtain ⟨h1, h2, h3⟩ := foldl_pyMax f l (pyMax m (f a))
    have k : pyMax m (f a) = max m (f a) := by
      unfold pyMax
      rw [max_def]
      by_cases hc : m < f a
      · rw [if_pos (by simpa [Scalar.lt] using hc), if_pos hc.le]
      · rw [if_neg (by simpa [Scalar.lt] using hc)]
        by_cases he : m ≤ f a
        · rw [if_pos he]; exact le_antisymm he (not_lt.mp hc)
        · rw [if_neg he]
    rw [k] at h1 h2 h3
    simp only [List.foldl_cons]
    rw [k]
    refine ⟨(le_max_left _ _).trans h1, ?_, ?_⟩
    · intro s hs
      rcases List.mem_cons.mp hs with rfl | hs
      · exact (le_max_right _ _).trans h1
      · exact h2 s hs
    · rcases h3 with h3 | ⟨s, hs, h3⟩
      · rcases max_choice m (f a) with h | h
        · exact Or.inl (h3.trans h)
        · exact Or.inr ⟨a, by simp, h3.trans h⟩
      · exact Or.inr ⟨s, by simp [hs], h3⟩

/-- A site between two numbers in both directions. -/
theorem site_bounds {l0 : ℝ} (hl : 0 < l0) {s : Site} {A B C D : ℤ} (h : A ≤ s.i ∧ s.i ≤ B ∧ C ≤ s.k ∧ s.k ≤ D) :
    (A * l0 ≤ s.pos l0 0 ∧ s.pos l0 0 ≤ B * l0) ∧ (C * l0 ≤ s.pos l0 1 ∧ s.pos l0 1 ≤ D * l0) := by
  rw [(site_pos l0 s).1, (site_pos l0 s).2]
  obtain ⟨h1, h2, h3, h4⟩ := h
  have k : ∀ {m n : ℤ}, m ≤ n → (m : ℝ) * l0 ≤ n * l0 := fun h => mul_le_mul_of_nonneg_right (by exact_mod_cast h) hl.le
  exact ⟨⟨k h1, k h2⟩, k h3, k h4⟩

/-- **C67.**  `StaticPressure/generate.py`: water in a rectangle of `width` by `height` sites, a wall of one layer below and at both sides, one row higher than the water,
three layers of dummy particles behind it, no site twice; all particles are in the range that the file gives, and the range is that of the particles. -/
theorem C67_static_pressure_scene (pr : Printer ℝ) {huge tiny : ℝ} {b : BenchParams ℝ} {width height : ℤ} (hl : 0 < b.l0) (hB : 0 < b.block) (hw : 1 ≤ width) (hh : 1 ≤ height)
    (hhuge : (width + 3) * b.l0 + height * b.l0 ≤ huge) (htiny : tiny ≤ b.l0) :
    ∃ (b' : BenchParams ℝ) (sites : List Site), staticPressureDoc pr huge tiny b width height = benchDoc pr b' sites ∧
      b' = { b with lo := ![-4 * b.l0, -4 * b.l0], hi := ![(width + 3) * b.l0, height * b.l0] } ∧
      GoodStart b'.l0 b'.block b'.lo b'.hi sites ∧
      ∀ s : Site, s ∈ sites ↔
        (s.number = numNewton ∧ 0 ≤ s.i ∧ s.i < width ∧ 0 ≤ s.k ∧ s.k < height) ∨
        (s.number = numWall ∧ (s.k = -1 ∧ -1 ≤ s.i ∧ s.i ≤ width ∨ (s.i = -1 ∨ s.i = width) ∧ 0 ≤ s.k ∧ s.k ≤ height)) ∨
        (s.number = numDummy ∧ (-4 ≤ s.i ∧ s.i ≤ width + 3 ∧ -4 ≤ s.k ∧ s.k ≤ height) ∧ ¬ (-1 ≤ s.i ∧ s.i ≤ width ∧ -1 ≤ s.k)) := by
  have hmem : ∀ s : Site, s ∈ staticPressureSites width height ↔ _ := fun s => mem_staticPressure (w := width) (h := height) (by omega)
  rw [max_eq_left (by omega)] at hmem
  have hrange : ∀ s ∈ staticPressureSites width height, -4 ≤ s.i ∧ s.i ≤ width + 3 ∧ -4 ≤ s.k ∧ s.k ≤ height := by
    intro s hs
    rw [hmem] at hs
    omega
  have hbound := fun s hs => site_bounds hl (hrange s hs)
  have hwl : (1 : ℝ) * b.l0 ≤ width * b.l0 := mul_le_mul_of_nonneg_right (by exact_mod_cast hw) hl.le
  have hhl : (1 : ℝ) * b.l0 ≤ height * b.l0 := mul_le_mul_of_nonneg_right (by exact_mod_cast hh) hl.le
  have m1 : (⟨2, -4, -4⟩ : Site) ∈ staticPressureSites width height := by rw [hmem]; exact Or.inr (Or.inr ⟨rfl, ⟨by dsimp only; omega, by dsimp only; omega, by dsimp only; omega, by dsimp only; omega⟩, by dsimp only; omega⟩)
  have m2 : (⟨2, width + 3, height⟩ : Site) ∈ staticPressureSites width height := by rw [hmem]; exact Or.inr (Or.inr ⟨rfl, ⟨by dsimp only; omega, by dsimp only; omega, by dsimp only; omega, by dsimp only; omega⟩, by dsimp only; omega⟩)
  have hlo : lowest huge b.l0 (staticPressureSites width height) = ![-4 * b.l0, -4 * b.l0] := by
    funext a
    revert a
    refine Fin.forall_fin_two.mpr ⟨?_, ?_⟩
    · obtain ⟨f1, f2, f3⟩ := foldl_pyMin (fun s => s.pos b.l0 0) (staticPressureSites width height) huge
      have p : _ ≤ Site.pos b.l0 _ 0 := f2 _ m1
      rw [(site_pos b.l0 _).1] at p
      push_cast at p
      refine le_antisymm p ?_
      change -4 * b.l0 ≤ (staticPressureSites width height).foldl (fun m s => pyMin m (s.pos b.l0 0)) huge
      rcases f3 with f3 | ⟨s, hs, f3⟩
      · rw [f3]; linarith
      · rw [f3]
        have := (hbound s hs).1.1; push_cast at this; exact this
    · obtain ⟨f1, f2, f3⟩ := foldl_pyMin (fun s => s.pos b.l0 1) (staticPressureSites width height) huge
      have p : _ ≤ Site.pos b.l0 _ 1 := f2 _ m1
      rw [(site_pos b.l0 _).2] at p
      push_cast at p
      refine le_antisymm p ?_
      change -4 * b.l0 ≤ (staticPressureSites width height).foldl (fun m s => pyMin m (s.pos b.l0 1)) huge
      rcases f3 with f3 | ⟨s, hs, f3⟩
      · rw [f3]; linarith
      · rw [f3]
        have := (hbound s hs).2.1; push_cast at this; exact this
  have hhi : highest tiny b.l0 (staticPressureSites width height) = ![(width + 3) * b.l0, height * b.l0] := by
    funext a
    revert a
    refine Fin.forall_fin_two.mpr ⟨?_, ?_⟩
    · obtain ⟨f1, f2, f3⟩ := foldl_pyMax (fun s => s.pos b.l0 0) (staticPressureSites width height) tiny
      have p : Site.pos b.l0 _ 0 ≤ _ := f2 _ m2
      rw [(site_pos b.l0 _).1] at p
      push_cast at p
      refine le_antisymm ?_ p
      change (staticPressureSites width height).foldl (fun m s => pyMax m (s.pos b.l0 0)) tiny ≤ (width + 3) * b.l0
      rcases f3 with f3 | ⟨s, hs, f3⟩
      · rw [f3]; linarith
      · rw [f3]
        have := (hbound s hs).1.2; push_cast at this; exact this
    · obtain ⟨f1, f2, f3⟩ := foldl_pyMax (fun s => s.pos b.l0 1) (staticPressureSites width height) tiny
      have p : Site.pos b.l0 _ 1 ≤ _ := f2 _ m2
      rw [(site_pos b.l0 _).2] at p
      refine le_antisymm ?_ p
      change (staticPressureSites width height).foldl (fun m s => pyMax m (s.pos b.l0 1)) tiny ≤ height * b.l0
      rcases f3 with f3 | ⟨s, hs, f3⟩
      · rw [f3]; linarith
      · rw [f3]
        exact (hbound s hs).2.2
  refine ⟨_, staticPressureSites width height, rfl, ?_, ⟨?_, ?_, ?_⟩, hmem⟩
  · rw [hlo, hhi]
  · intro s hs
    rw [hmem] at hs
    omega
  · refine apart_of_nodup (nodup_staticPressure (by omega)) ?_
    intro s hs t ht h1 h2
    rw [hmem] at hs ht
    omega
  · intro s hs a
    simp only [hlo, hhi]
    change _ ∧ _ < _ + 2 * b.block
    have := hbound s hs
    match a with
    | 0 =>
      obtain ⟨⟨c1, c2⟩, -⟩ := this
      push_cast at c1 c2
      refine ⟨c1, lt_of_le_of_lt c2 ?_⟩
      change _ < (width + 3) * b.l0 + 2 * b.block
      linarith
    | 1 =>
      obtain ⟨-, c1, c2⟩ := this
      push_cast at c1 c2
      refine ⟨c1, lt_of_le_of_lt c2 ?_⟩
      change _ < height * b.l0 + 2 * b.block
      linarith

/-- **C67.**  `DamBreak/generate_koshizukaoka1996.py`: a column of water of `⌈L / l_0⌉` by `⌈L height / l_0⌉` sites in the left corner of a basin of `⌈L width / l_0⌉` sites.  The range of the file
ends at `width L`, before the right wall does; the particles of this wall are nevertheless in the grid, since the grid is larger than the range by two blocks. -/
theorem C67_koshizuka_scene (pr : Printer ℝ) {b : BenchParams ℝ} {L : ℝ} {width height : ℤ} (hl : 0 < b.l0) (hL : 0 < L) (hw : 1 ≤ width) (hh : 1 ≤ height)
    (hre : 2 ≤ b.reByL0) (hC : 0 ≤ b.courant) :
    ∃ (b' : BenchParams ℝ) (sites : List Site) (l h w : ℤ), koshizukaDoc pr b L height width = some (benchDoc pr b' sites) ∧
      l = ⌈L / b.l0⌉ ∧ h = ⌈L * height / b.l0⌉ ∧ w = ⌈L * width / b.l0⌉ ∧
      b' = { b with lo := ![-4 * b.l0, -4 * b.l0], hi := ![width * L, 2 * height * L] } ∧
      GoodStart b'.l0 b'.block b'.lo b'.hi sites ∧
      ∀ s : Site, s ∈ sites ↔
        (s.number = numNewton ∧ 0 ≤ s.i ∧ s.i < l ∧ 0 ≤ s.k ∧ s.k < h) ∨
        (s.number = numWall ∧ (s.k = -1 ∧ -1 ≤ s.i ∧ s.i ≤ w ∨ (s.i = -1 ∨ s.i = w) ∧ 0 ≤ s.k ∧ s.k ≤ h - 1 ∨
          s.k = h - 1 ∧ (-4 ≤ s.i ∧ s.i ≤ -1 ∨ w ≤ s.i ∧ s.i ≤ w + 3))) ∨
        (s.number = numDummy ∧ (-4 ≤ s.i ∧ s.i ≤ w + 3 ∧ -4 ≤ s.k ∧ s.k ≤ max (h - 2) (-1)) ∧ ¬ (-1 ≤ s.i ∧ s.i ≤ w ∧ -1 ≤ s.k)) := by
  have hW : (1 : ℝ) ≤ width := by exact_mod_cast hw
  have hH : (1 : ℝ) ≤ height := by exact_mod_cast hh
  have hlw : ⌈L / b.l0⌉ ≤ ⌈L * width / b.l0⌉ := Int.ceil_le_ceil (by gcongr; nlinarith)
  have hl1 : 1 ≤ ⌈L / b.l0⌉ := Int.one_le_ceil_iff.mpr (by positivity)
  have hh1 : 1 ≤ ⌈L * height / b.l0⌉ := Int.one_le_ceil_iff.mpr (by positivity)
  have cw : (⌈L * width / b.l0⌉ : ℝ) * b.l0 < L * width + b.l0 := by
    have := Int.ceil_lt_add_one (L * width / b.l0)
    have h2 := mul_lt_mul_of_pos_right this hl
    rwa [add_mul, div_mul_cancel₀ _ hl.ne', one_mul] at h2
  have ch : (⌈L * height / b.l0⌉ : ℝ) * b.l0 < L * height + b.l0 := by
    have := Int.ceil_lt_add_one (L * height / b.l0)
    have h2 := mul_lt_mul_of_pos_right this hl
    rwa [add_mul, div_mul_cancel₀ _ hl.ne', one_mul] at h2
  have hblock : 2 * b.l0 ≤ b.block := by
    unfold BenchParams.block
    have : 2 * b.l0 ≤ b.reByL0 * b.l0 := mul_le_mul_of_nonneg_right hre hl.le
    nlinarith [mul_nonneg (mul_nonneg (by linarith : (0:ℝ) ≤ b.reByL0) hl.le) hC]
  refine ⟨{ b with lo := ![-4 * b.l0, -4 * b.l0], hi := ![width * L, 2 * height * L] }, koshizukaSites ⌈L / b.l0⌉ ⌈L * height / b.l0⌉ ⌈L * width / b.l0⌉, _, _, _,
    ?_, rfl, rfl, rfl, rfl, ⟨?_, ?_, ?_⟩, fun s => mem_koshizuka (by omega) (by omega)⟩
  · unfold koshizukaDoc
    simp only [Scalar.ceilIdx, ofInt_real]
    push_cast
    rw [mul_comm (height : ℝ) 2]
  · intro s hs
    rw [mem_koshizuka (by omega) (by omega)] at hs
    omega
  · refine apart_of_nodup (nodup_koshizuka (by omega) (by omega)) ?_
    intro s hs t ht h1 h2
    rw [mem_koshizuka (by omega) (by omega)] at hs ht
    omega
  · intro s hs a
    rw [mem_koshizuka (by omega) (by omega)] at hs
    have hr : -4 ≤ s.i ∧ s.i ≤ ⌈L * width / b.l0⌉ + 3 ∧ -4 ≤ s.k ∧ s.k ≤ ⌈L * height / b.l0⌉ - 1 := by omega
    obtain ⟨⟨c1, c2⟩, c3, c4⟩ := site_bounds hl hr
    push_cast at c1 c2 c3 c4
    change _ ∧ _ < _ + 2 * b.block
    match a with
    | 0 =>
      refine ⟨c1, lt_of_le_of_lt c2 ?_⟩
      change _ < width * L + 2 * b.block
      nlinarith
    | 1 =>
      refine ⟨c3, lt_of_le_of_lt c4 ?_⟩
      change _ < 2 * height * L + 2 * b.block
      nlinarith [mul_pos hL (by linarith : (0:ℝ) < height)]

/-- **C67.**  `DamBreak/generate_zhouetal1999.py`: a column of water of `⌈w / l_0⌉` by `⌈h / l_0⌉` sites in the right corner of a basin of `⌈W / l_0⌉` by `⌈H / l_0⌉` sites. -/
theorem C67_zhou_scene (pr : Printer ℝ) {b : BenchParams ℝ} {c H W h w : ℝ} (hl : 0 < b.l0) (hB : 0 < b.block) (hc : 1 ≤ c) (hH : 0 < H) (hw : 0 ≤ w) (hwW : w ≤ W) (hhH : h ≤ H) :
    ∃ (b' : BenchParams ℝ) (sites : List Site) (kH kW kh kw : ℤ), zhouDoc pr b c H W h w = some (benchDoc pr b' sites) ∧
      kH = ⌈H / b.l0⌉ ∧ kW = ⌈W / b.l0⌉ ∧ kh = ⌈h / b.l0⌉ ∧ kw = ⌈w / b.l0⌉ ∧
      b' = { b with lo := ![-4 * b.l0, -4 * b.l0], hi := ![(kW + 4) * b.l0, c * kH * b.l0] } ∧
      GoodStart b'.l0 b'.block b'.lo b'.hi sites ∧
      ∀ s : Site, s ∈ sites ↔
        (s.number = numNewton ∧ kW - kw ≤ s.i ∧ s.i < kW ∧ 0 ≤ s.k ∧ s.k < kh) ∨
        (s.number = numWall ∧ (s.k = -1 ∧ -1 ≤ s.i ∧ s.i ≤ kW ∨ (s.i = -1 ∨ s.i = kW) ∧ 0 ≤ s.k ∧ s.k ≤ kH - 1 ∨
          s.k = kH - 1 ∧ (-4 ≤ s.i ∧ s.i ≤ -1 ∨ kW ≤ s.i ∧ s.i ≤ kW + 3))) ∨
        (s.number = numDummy ∧ (-4 ≤ s.i ∧ s.i ≤ kW + 3 ∧ -4 ≤ s.k ∧ s.k ≤ max (kH - 2) (-1)) ∧ ¬ (-1 ≤ s.i ∧ s.i ≤ kW ∧ -1 ≤ s.k)) := by
  have h0 : 0 ≤ ⌈w / b.l0⌉ := Int.ceil_nonneg (by positivity)
  have h1 : ⌈w / b.l0⌉ ≤ ⌈W / b.l0⌉ := Int.ceil_le_ceil (by gcongr)
  have h2 : ⌈h / b.l0⌉ ≤ ⌈H / b.l0⌉ := Int.ceil_le_ceil (by gcongr)
  have h3 : 1 ≤ ⌈H / b.l0⌉ := Int.one_le_ceil_iff.mpr (by positivity)
  refine ⟨{ b with lo := ![-4 * b.l0, -4 * b.l0], hi := ![(⌈W / b.l0⌉ + 4) * b.l0, c * ⌈H / b.l0⌉ * b.l0] },
    zhouSites ⌈H / b.l0⌉ ⌈W / b.l0⌉ ⌈h / b.l0⌉ ⌈w / b.l0⌉, _, _, _, _, ?_, rfl, rfl, rfl, rfl, rfl, ⟨?_, ?_, ?_⟩, fun s => mem_zhou (by omega) (by omega)⟩
  · unfold zhouDoc
    simp only [Scalar.ceilIdx, ofInt_real]
    push_cast
    rfl
  · intro s hs
    rw [mem_zhou (by omega) (by omega)] at hs
    omega
  · refine apart_of_nodup (nodup_zhou (by omega) (by omega)) ?_
    intro s hs t ht h1 h2
    rw [mem_zhou (by omega) (by omega)] at hs ht
    omega
  · intro s hs a
    rw [mem_zhou (by omega) (by omega)] at hs
    have hr : -4 ≤ s.i ∧ s.i ≤ ⌈W / b.l0⌉ + 3 ∧ -4 ≤ s.k ∧ s.k ≤ ⌈H / b.l0⌉ - 1 := by omega
    obtain ⟨⟨c1, c2⟩, c3, c4⟩ := site_bounds hl hr
    push_cast at c1 c2 c3 c4
    change _ ∧ _ < _ + 2 * b.block
    have h3' : (1 : ℝ) ≤ ⌈H / b.l0⌉ := by exact_mod_cast h3
    match a with
    | 0 =>
      refine ⟨c1, lt_of_le_of_lt c2 ?_⟩
      change _ < (⌈W / b.l0⌉ + 4) * b.l0 + 2 * b.block
      nlinarith
    | 1 =>
      refine ⟨c3, lt_of_le_of_lt c4 ?_⟩
      change _ < c * ⌈H / b.l0⌉ * b.l0 + 2 * b.block
      have : (⌈H / b.l0⌉ : ℝ) * b.l0 ≤ c * ⌈H / b.l0⌉ * b.l0 := by
        rw [mul_assoc]
        exact le_mul_of_one_le_left (by positivity) hc
      nlinarith

/-- **C67.**  `CentralGravity/generate.py`: a rectangle of `2 width + 1` by `2 height + 1` fluid particles around the origin. -/
theorem C67_central_gravity_scene (pr : Printer ℝ) {b : BenchParams ℝ} {width height areaSize : ℤ} (hl : 0 < b.l0) (hB : 0 < b.block) (hw : 0 ≤ width) (hh : 0 ≤ height) (ha : 1 ≤ areaSize) :
    ∃ (b' : BenchParams ℝ) (sites : List Site), centralGravityDoc pr b width height areaSize = benchDoc pr b' sites ∧
      b' = { b with lo := ![-(areaSize * width * b.l0), -(areaSize * height * b.l0)], hi := ![areaSize * width * b.l0, areaSize * height * b.l0] } ∧
      GoodStart b'.l0 b'.block b'.lo b'.hi sites ∧
      ∀ s : Site, s ∈ sites ↔ s.number = numNewton ∧ |s.i| ≤ width ∧ |s.k| ≤ height := by
  have hmem : ∀ s : Site, s ∈ centralGravitySites width height ↔ s.number = numNewton ∧ |s.i| ≤ width ∧ |s.k| ≤ height := by
    intro s
    rw [mem_centralGravity, abs_le, abs_le]
    unfold numNewton
    omega
  refine ⟨_, centralGravitySites width height, rfl, ?_, ⟨?_, ?_, ?_⟩, hmem⟩
  · congr 1
    · funext a
      match a with
      | 0 => simp [ofInt_real]; ring
      | 1 => simp [ofInt_real]; ring
    · funext a
      match a with
      | 0 => simp [ofInt_real]; ring
      | 1 => simp [ofInt_real]; ring
  · intro s hs
    rw [hmem] at hs
    rw [hs.1]; decide
  · refine apart_of_nodup (nodup_centralGravity _ _) ?_
    intro s hs t ht h1 h2
    rw [hmem] at hs ht
    rw [hs.1, ht.1]
  · intro s hs a
    rw [mem_centralGravity] at hs
    obtain ⟨⟨c1, c2⟩, c3, c4⟩ := site_bounds hl (A := -width) (B := width) (C := -height) (D := height) ⟨hs.2.1, hs.2.2.1, hs.2.2.2.1, hs.2.2.2.2⟩
    push_cast at c1 c2 c3 c4
    change _ ∧ _ < _ + 2 * b.block
    have hA : (1 : ℝ) ≤ areaSize := by exact_mod_cast ha
    have k1 : (width : ℝ) * b.l0 ≤ areaSize * b.l0 * width := by
      have : (0 : ℝ) ≤ width := by exact_mod_cast hw
      nlinarith [mul_nonneg this hl.le]
    have k2 : (height : ℝ) * b.l0 ≤ areaSize * b.l0 * height := by
      have : (0 : ℝ) ≤ height := by exact_mod_cast hh
      nlinarith [mul_nonneg this hl.le]
    match a with
    | 0 =>
      simp only [Matrix.cons_val_zero, ofInt_real]
      push_cast
      constructor <;> nlinarith
    | 1 =>
      simp only [Matrix.cons_val_one, ofInt_real]
      push_cast
      constructor <;> nlinarith

end OpenMps
