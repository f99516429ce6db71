import Verif.Lemmas.BenchmarkAnchor

/-! # Property C67: the first step of the benchmarks succeeds -/

set_option linter.unusedSectionVars false

namespace OpenMps

open Ref

/-! ## Paths on the lattice -/

/-- A water or wall particle is at this place. -/
def Occupied (sites : List Site) (p : ℤ × ℤ) : Prop := ∃ t ∈ sites, t.number ≤ 1 ∧ t.i = p.1 ∧ t.k = p.2

/-- One step to an adjacent place. -/
def Walk (sites : List Site) (p q : ℤ × ℤ) : Prop := Occupied sites q ∧ |q.1 - p.1| + |q.2 - p.2| = 1

section
variable {sites : List Site}

theorem walk_line (p d : ℤ × ℤ) (hd : |d.1| + |d.2| = 1) : ∀ n : ℕ, (∀ m : ℕ, m ≤ n → Occupied sites (p.1 + m * d.1, p.2 + m * d.2)) →
    Relation.ReflTransGen (Walk sites) p (p.1 + n * d.1, p.2 + n * d.2)
  | 0, _ => by simp; exact .refl
  | n + 1, h => by
    refine .tail (walk_line p d hd n (fun m hm => h m (by omega))) ⟨h (n + 1) (le_refl _), ?_⟩
    simp only
    rw [show p.1 + ((n + 1 : ℕ) : ℤ) * d.1 - (p.1 + n * d.1) = d.1 by push_cast; ring,
      show p.2 + ((n + 1 : ℕ) : ℤ) * d.2 - (p.2 + n * d.2) = d.2 by push_cast; ring]
    exact hd

theorem walk_horizontal (a c k : ℤ) (h : ∀ x, min a c ≤ x → x ≤ max a c → Occupied sites (x, k)) : Relation.ReflTransGen (Walk sites) (a, k) (c, k) := by
  rcases le_total a c with hac | hac
  · have := walk_line (sites := sites) (a, k) (1, 0) (by simp) (c - a).toNat (fun m hm => by
      simp only [mul_one, mul_zero, add_zero]
      exact h _ (by omega) (by omega))
    simp only [mul_one, mul_zero, add_zero] at this
    rw [show a + ((c - a).toNat : ℤ) = c by omega] at this
    exact this
  · have := walk_line (sites := sites) (a, k) (-1, 0) (by simp) (a - c).toNat (fun m hm => by
      simp only [mul_zero, add_zero]
      exact h _ (by omega) (by omega))
    simp only [mul_zero, add_zero] at this
    rw [show a + ((a - c).toNat : ℤ) * -1 = c by omega] at this
    exact this

theorem walk_vertical (x a c : ℤ) (h : ∀ k, min a c ≤ k → k ≤ max a c → Occupied sites (x, k)) : Relation.ReflTransGen (Walk sites) (x, a) (x, c) := by
  rcases le_total a c with hac | hac
  · have := walk_line (sites := sites) (x, a) (0, 1) (by simp) (c - a).toNat (fun m hm => by
      simp only [mul_one, mul_zero, add_zero]
      exact h _ (by omega) (by omega))
    simp only [mul_one, mul_zero, add_zero] at this
    rw [show a + ((c - a).toNat : ℤ) = c by omega] at this
    exact this
  · have := walk_line (sites := sites) (x, a) (0, -1) (by simp) (a - c).toNat (fun m hm => by
      simp only [mul_zero, add_zero]
      exact h _ (by omega) (by omega))
    simp only [mul_zero, add_zero] at this
    rw [show a + ((a - c).toNat : ℤ) * -1 = c by omega] at this
    exact this

/-- Down, along the floor, up. -/
theorem walk_u {x k I Z : ℤ} (h1 : ∀ q, min k (-1) ≤ q → q ≤ max k (-1) → Occupied sites (x, q)) (h2 : ∀ q, min x I ≤ q → q ≤ max x I → Occupied sites (q, -1))
    (h3 : ∀ q, min (-1) Z ≤ q → q ≤ max (-1) Z → Occupied sites (I, q)) : Relation.ReflTransGen (Walk sites) (x, k) (I, Z) :=
  ((walk_vertical x k (-1) h1).trans (walk_horizontal x I (-1) h2)).trans (walk_vertical I (-1) Z h3)

end

section
variable {cfg : Config} {b : BenchParams ℝ} {sites : List Site} {env : Env ℝ 2} {s0 s : State ℝ 2 Unit} {dt : ℝ} {I Z : ℤ}

/-- The first step succeeds if all water and wall particles are connected with the anchor. -/
theorem bench_step (hcg : cfg.centralGravity = false) (hl : 0 < b.l0) (hR : 2 ≤ b.reByL0) (hC : 0 ≤ b.courant) (h : BenchStart cfg b sites env s0 s)
    (hg : GoodStart b.l0 b.block b.lo b.hi sites) (hA : Anchor sites b.reByL0 I Z)
    (hpath : ∀ t ∈ sites, t.number ≤ 1 → Relation.ReflTransGen (Walk sites) (t.i, t.k) (I, Z))
    (hfine : cfg.spp = true → 2⁻¹ ^ 52 * (2 * ⌈b.reByL0⌉ + 1) ^ 2 < b.l0) (hsurf : cfg.spp = false → 3 / 4 < b.surfaceRatio)
    (sch : Schedule) (hv : sch.Valid s.n) (hd0 : 0 ≤ b.g * dt ^ 2) (hd1 : b.g * dt ^ 2 < b.l0) :
    ∃ s', s.forwardTime (benchParams cfg b sites) sch dt = .ok s' := by
  obtain ⟨v1, v2, v3, -⟩ := start_vals h
  have hBl : b.reByL0 * b.l0 ≤ b.block := by
    unfold BenchParams.block
    nlinarith [mul_nonneg (mul_nonneg (by linarith : (0:ℝ) ≤ b.reByL0) hl.le) hC]
  have hB : 0 < b.block := lt_of_lt_of_le (by nlinarith) hBl
  have hre : 0 < env.re := by rw [v2]; nlinarith
  have hpos : env.Positive := by
    obtain ⟨p1, -, p3⟩ := C28_n0_positive_iff h.1 (by change 0 < b.l0; exact hl) (by norm_num)
    have h1 : 1 < (b.args cfg).reByL0 := by change 1 < b.reByL0; linarith
    refine ⟨hre, p1.mpr h1, lt_of_lt_of_le ?_ (p3 h1).1⟩
    change 0 < b.l0 ^ 2
    positivity
  have hL : 0 < env.neighborLength := by rw [v3]; exact hB
  have hc : ¬ Crowded s := by
    intro hcr
    obtain ⟨s', hs'⟩ := (C42_outcome (Or.inl rfl) h.2.1 (start_hist (benchParams cfg b sites) h) (start_ok h) hL hre.le sch hv dt).1.mpr hcr
    exact (C67_first_step_keeps_all_particles _ hl (by linarith) hC h hg sch hv dt).1 s' hs'
  refine C57_step_succeeds (Or.inl rfl) h.2.1 (start_hist _ h) (start_ok h) hL hpos sch hv dt hc (bs_distinct hcg hl hB h hg hd0 hd1) ?_
  intro i hE
  left
  obtain ⟨K, hK, hKs⟩ := List.getElem_of_mem hA.here
  refine wet_along (anchor_touch hcg hl hR hC h hg hA hd0 hd1 hK hKs hfine hsurf) ?_ hE
  have hi : i < sites.length := by have := hE.1; rw [bs_n h] at this; exact this
  have hn : sites[i].number ≤ 1 := (bs_active hB h hg hi).mp hE.2.1
  have key : ∀ p q : ℤ × ℤ, Relation.ReflTransGen (Walk sites) p q → ∀ j (hj : j < sites.length), p = (sites[j].i, sites[j].k) → q = (I, Z) →
      Relation.ReflTransGen (fun a c => c < (setting (benchParams cfg b sites) s dt).n ∧ (setting (benchParams cfg b sites) s dt).Active c ∧
        c ∈ (setting (benchParams cfg b sites) s dt).nearSolid ((setting (benchParams cfg b sites) s dt).predict (scene s)).x a) j K := by
    intro p q hp
    induction hp using Relation.ReflTransGen.head_induction_on with
    | refl =>
      intro j hj e1 e2
      rw [e1] at e2
      injection e2 with e3 e4
      have : j = K := site_apart hg.apart hj hK (by rw [hKs]; exact e3) (by rw [hKs]; exact e4)
      rw [this]
    | @head a c hac _ ih =>
      intro j hj e1 e2
      obtain ⟨⟨t, ht, hn, t1, t2⟩, hst⟩ := hac
      obtain ⟨m, hm, hms⟩ := List.getElem_of_mem ht
      refine .head ⟨by rw [bs_n h]; exact hm, (bs_active hB h hg hm).mpr (by rw [hms]; exact hn), ?_⟩ (ih m hm (by rw [hms, t1, t2]) e2)
      refine bs_adjacent hcg hl hR hC h hg hd0 hd1 hj hm (by rw [hms]; exact hn) ?_
      rw [hms, t1, t2]
      rw [e1] at hst
      exact hst
  exact key _ _ (hpath _ (List.getElem_mem hi) hn) i hi rfl rfl

/-- How long the steps of the program are: the free fall is shorter than `l_0`. -/
theorem short_step (h : BenchStart cfg b sites env s0 s) (hx : cfg.explicit = false) (hl : 0 < b.l0) (hC0 : 0 ≤ b.courant) (hC : b.courant < 1 / 2) (hgr : 0 < b.g)
    (h0 : 0 ≤ dt) (h1 : dt ≤ env.maxDt) : 0 ≤ b.g * dt ^ 2 ∧ b.g * dt ^ 2 < b.l0 := by
  refine ⟨by positivity, ?_⟩
  have e := (envmk_real h.1).2.2.2.2.2.2.1
  rw [if_neg (by rw [hx]; decide)] at e
  change env.maxDt = min _ (√(2 * (b.courant * b.l0) / b.g)) at e
  have h2 : dt ≤ √(2 * (b.courant * b.l0) / b.g) := h1.trans (e ▸ min_le_right _ _)
  have h3 : dt ^ 2 ≤ 2 * (b.courant * b.l0) / b.g := by
    have h4 : 0 ≤ 2 * (b.courant * b.l0) / b.g := by positivity
    calc dt ^ 2 ≤ √(2 * (b.courant * b.l0) / b.g) ^ 2 := by gcongr
      _ = _ := Real.sq_sqrt h4
  rw [le_div_iff₀ hgr] at h3
  nlinarith

/-- **C67.**  All particles of the files are at rest, so the first step that the program chooses itself is as long as its limit allows. -/
theorem C67_first_step_has_the_largest_length (h : BenchStart cfg b sites env s0 s) (hne : sites ≠ []) (P : Params ℝ 2 Unit) (sch : Schedule) :
    s.forwardTimeAuto P sch = s.forwardTime P sch env.maxDt := by
  have hpos : 0 < sites.length := List.length_pos_iff.mpr hne
  have hn : 0 < s.n := by rw [(start_n h).2]; exact hpos
  unfold State.forwardTimeAuto State.determineDt
  rw [if_neg (by omega)]
  have hf : s.fastest < s.n := (fastest_spec s hn).1
  have hu : (s.ps s.fastest).u = 0 := by
    rw [start_ps h (by rw [← (start_n h).2]; exact hf)]
    rfl
  have h0 : norm2 (s.ps s.fastest).u = 0 := by
    rw [hu, norm2_real, dot_real]; simp
  simp only [h0]
  rw [if_pos (by simp [Scalar.eq]), (start_env h).1]

/-- **C67.**  The first step of the scene of `StaticPressure/generate.py` succeeds, under every schedule: no block of the grid overflows, the pressure equation is solved and the step returns.
The tank is at least `2 r_e / l_0 - 1` particles wide and the water at least `r_e / l_0 + 1` deep; the step is not longer than the program's limit. -/
theorem C67_static_pressure_first_step {width height n : ℤ} (hcg : cfg.centralGravity = false) (hx : cfg.explicit = false) (hl : 0 < b.l0) (hR : 2 ≤ b.reByL0) (hRn : b.reByL0 ≤ n)
    (hw : 2 * n - 1 ≤ width) (hh : n + 1 ≤ height) (hC0 : 0 ≤ b.courant) (hC : b.courant < 1 / 2) (hgr : 0 < b.g)
    (hfine : cfg.spp = true → 2⁻¹ ^ 52 * (2 * ⌈b.reByL0⌉ + 1) ^ 2 < b.l0) (hsurf : cfg.spp = false → 3 / 4 < b.surfaceRatio)
    (h : BenchStart cfg b (staticPressureSites width height) env s0 s) (hg : GoodStart b.l0 b.block b.lo b.hi (staticPressureSites width height))
    (sch : Schedule) (hv : sch.Valid s.n) (h0 : 0 ≤ dt) (h1 : dt ≤ env.maxDt) :
    ∃ s', s.forwardTime (benchParams cfg b (staticPressureSites width height)) sch dt = .ok s' := by
  obtain ⟨hd0, hd1⟩ := short_step h hx hl hC0 hC hgr h0 h1
  have hn : 2 ≤ n := by exact_mod_cast hR.trans hRn
  have hm : ∀ t : Site, t ∈ staticPressureSites width height ↔ _ := fun t => mem_staticPressure (w := width) (h := height) (by omega)
  have far : ∀ m : ℤ, n ≤ m → b.reByL0 ≤ (m : ℝ) := fun m h => hRn.trans (by exact_mod_cast h)
  have occ : ∀ x k : ℤ, (0 ≤ x ∧ x < width ∧ -1 ≤ k ∧ k < height ∨ (x = -1 ∨ x = width) ∧ -1 ≤ k ∧ k ≤ height ∨ k = -1 ∧ -1 ≤ x ∧ x ≤ width) → Occupied (staticPressureSites width height) (x, k) := by
    intro x k hxk
    by_cases hwtr : 0 ≤ x ∧ x < width ∧ 0 ≤ k
    · exact ⟨⟨0, x, k⟩, (hm _).mpr (by dsimp only; omega), by norm_num, rfl, rfl⟩
    · exact ⟨⟨1, x, k⟩, (hm _).mpr (by dsimp only; omega), by norm_num, rfl, rfl⟩
  refine bench_step (I := n - 1) (Z := height - 1) hcg hl hR hC0 h hg ⟨?_, ?_, ?_, ?_⟩ ?_ hfine hsurf sch hv hd0 hd1
  · intro t ht h0
    rw [hm] at ht
    omega
  · intro t ht h0
    rw [hm] at ht
    by_cases hc : n ≤ |t.i - (n - 1)|
    · left
      have := far _ hc
      rw [Int.cast_abs] at this
      exact this
    · right
      rw [not_le, abs_lt] at hc
      have : b.reByL0 ≤ ((height - 1 - t.k - 1 : ℤ) : ℝ) := far _ (by omega)
      push_cast at this ⊢
      linarith
  · rw [hm]; dsimp only; omega
  · rw [hm]; dsimp only; omega
  · intro t ht h1
    rw [hm] at ht
    exact walk_u (fun q _ _ => occ _ _ (by omega)) (fun q _ _ => occ _ _ (by omega)) (fun q _ _ => occ _ _ (by omega))

/-- **C67.**  The same for the scene of `DamBreak/generate_koshizukaoka1996.py`: the tank is at least `2 r_e / l_0 - 1` particles wide, the water `r_e / l_0` wide and `r_e / l_0 + 1` deep. -/
theorem C67_koshizuka_first_step {l hh w n : ℤ} (hcg : cfg.centralGravity = false) (hx : cfg.explicit = false) (hl : 0 < b.l0) (hR : 2 ≤ b.reByL0) (hRn : b.reByL0 ≤ n)
    (hln : n ≤ l) (hlw : l ≤ w) (hw : 2 * n - 1 ≤ w) (hhn : n + 1 ≤ hh) (hC0 : 0 ≤ b.courant) (hC : b.courant < 1 / 2) (hgr : 0 < b.g)
    (hfine : cfg.spp = true → 2⁻¹ ^ 52 * (2 * ⌈b.reByL0⌉ + 1) ^ 2 < b.l0) (hsurf : cfg.spp = false → 3 / 4 < b.surfaceRatio)
    (h : BenchStart cfg b (koshizukaSites l hh w) env s0 s) (hg : GoodStart b.l0 b.block b.lo b.hi (koshizukaSites l hh w))
    (sch : Schedule) (hv : sch.Valid s.n) (h0 : 0 ≤ dt) (h1 : dt ≤ env.maxDt) :
    ∃ s', s.forwardTime (benchParams cfg b (koshizukaSites l hh w)) sch dt = .ok s' := by
  obtain ⟨hd0, hd1⟩ := short_step h hx hl hC0 hC hgr h0 h1
  have hn : 2 ≤ n := by exact_mod_cast hR.trans hRn
  have hm : ∀ t : Site, t ∈ koshizukaSites l hh w ↔ _ := fun t => mem_koshizuka (l := l) (w := w) (h := hh) (by omega) (by omega)
  have far : ∀ m : ℤ, n ≤ m → b.reByL0 ≤ (m : ℝ) := fun m h => hRn.trans (by exact_mod_cast h)
  have occ : ∀ x k : ℤ, (0 ≤ x ∧ x < l ∧ -1 ≤ k ∧ k < hh ∨ (x = -1 ∨ x = w) ∧ -1 ≤ k ∧ k ≤ hh - 1 ∨ k = -1 ∧ -1 ≤ x ∧ x ≤ w ∨ k = hh - 1 ∧ (-4 ≤ x ∧ x ≤ -1 ∨ w ≤ x ∧ x ≤ w + 3)) →
      Occupied (koshizukaSites l hh w) (x, k) := by
    intro x k hxk
    by_cases hwtr : 0 ≤ x ∧ x < l ∧ 0 ≤ k
    · exact ⟨⟨0, x, k⟩, (hm _).mpr (by dsimp only; omega), by norm_num, rfl, rfl⟩
    · exact ⟨⟨1, x, k⟩, (hm _).mpr (by dsimp only; omega), by norm_num, rfl, rfl⟩
  refine bench_step (I := n - 1) (Z := hh - 1) hcg hl hR hC0 h hg ⟨?_, ?_, ?_, ?_⟩ ?_ hfine hsurf sch hv hd0 hd1
  · intro t ht h0
    rw [hm] at ht
    omega
  · intro t ht h0
    rw [hm] at ht
    by_cases hc : n ≤ |t.i - (n - 1)|
    · left
      have := far _ hc
      rw [Int.cast_abs] at this
      exact this
    · right
      rw [not_le, abs_lt] at hc
      have : b.reByL0 ≤ ((hh - 1 - t.k - 1 : ℤ) : ℝ) := far _ (by omega)
      push_cast at this ⊢
      linarith
  · rw [hm]; dsimp only; omega
  · rw [hm]; dsimp only; omega
  · intro t ht h1
    rw [hm] at ht
    by_cases c1 : t.i < -1
    · exact (walk_horizontal t.i (-1) t.k (fun q _ _ => occ _ _ (by omega))).trans
        (walk_u (fun q _ _ => occ _ _ (by omega)) (fun q _ _ => occ _ _ (by omega)) (fun q _ _ => occ _ _ (by omega)))
    · by_cases c2 : w < t.i
      · exact (walk_horizontal t.i w t.k (fun q _ _ => occ _ _ (by omega))).trans
          (walk_u (fun q _ _ => occ _ _ (by omega)) (fun q _ _ => occ _ _ (by omega)) (fun q _ _ => occ _ _ (by omega)))
      · exact walk_u (fun q _ _ => occ _ _ (by omega)) (fun q _ _ => occ _ _ (by omega)) (fun q _ _ => occ _ _ (by omega))

/-- **C67.**  The same for the scene of `DamBreak/generate_zhouetal1999.py`. -/
theorem C67_zhou_first_step {H W hh w n : ℤ} (hcg : cfg.centralGravity = false) (hx : cfg.explicit = false) (hl : 0 < b.l0) (hR : 2 ≤ b.reByL0) (hRn : b.reByL0 ≤ n)
    (hwn : n ≤ w) (hwW : w ≤ W) (hW : 2 * n - 1 ≤ W) (hhn : n + 1 ≤ hh) (hhH : hh ≤ H) (hC0 : 0 ≤ b.courant) (hC : b.courant < 1 / 2) (hgr : 0 < b.g)
    (hfine : cfg.spp = true → 2⁻¹ ^ 52 * (2 * ⌈b.reByL0⌉ + 1) ^ 2 < b.l0) (hsurf : cfg.spp = false → 3 / 4 < b.surfaceRatio)
    (h : BenchStart cfg b (zhouSites H W hh w) env s0 s) (hg : GoodStart b.l0 b.block b.lo b.hi (zhouSites H W hh w))
    (sch : Schedule) (hv : sch.Valid s.n) (h0 : 0 ≤ dt) (h1 : dt ≤ env.maxDt) :
    ∃ s', s.forwardTime (benchParams cfg b (zhouSites H W hh w)) sch dt = .ok s' := by
  obtain ⟨hd0, hd1⟩ := short_step h hx hl hC0 hC hgr h0 h1
  have hn : 2 ≤ n := by exact_mod_cast hR.trans hRn
  have hm : ∀ t : Site, t ∈ zhouSites H W hh w ↔ _ := fun t => mem_zhou (H := H) (W := W) (h := hh) (w := w) (by omega) (by omega)
  have far : ∀ m : ℤ, n ≤ m → b.reByL0 ≤ (m : ℝ) := fun m h => hRn.trans (by exact_mod_cast h)
  have occ : ∀ x k : ℤ, (W - w ≤ x ∧ x < W ∧ -1 ≤ k ∧ k < hh ∨ (x = -1 ∨ x = W) ∧ -1 ≤ k ∧ k ≤ H - 1 ∨ k = -1 ∧ -1 ≤ x ∧ x ≤ W ∨ k = H - 1 ∧ (-4 ≤ x ∧ x ≤ -1 ∨ W ≤ x ∧ x ≤ W + 3)) →
      Occupied (zhouSites H W hh w) (x, k) := by
    intro x k hxk
    by_cases hwtr : W - w ≤ x ∧ x < W ∧ 0 ≤ k ∧ k < hh
    · exact ⟨⟨0, x, k⟩, (hm _).mpr (by dsimp only; omega), by norm_num, rfl, rfl⟩
    · exact ⟨⟨1, x, k⟩, (hm _).mpr (by dsimp only; omega), by norm_num, rfl, rfl⟩
  refine bench_step (I := W - n) (Z := hh - 1) hcg hl hR hC0 h hg ⟨?_, ?_, ?_, ?_⟩ ?_ hfine hsurf sch hv hd0 hd1
  · intro t ht h0
    rw [hm] at ht
    omega
  · intro t ht h0
    rw [hm] at ht
    by_cases hc : n ≤ |t.i - (W - n)|
    · left
      have := far _ hc
      rw [Int.cast_abs] at this
      exact this
    · right
      rw [not_le, abs_lt] at hc
      have : b.reByL0 ≤ ((hh - 1 - t.k - 1 : ℤ) : ℝ) := far _ (by omega)
      push_cast at this ⊢
      linarith
  · rw [hm]; dsimp only; omega
  · rw [hm]; dsimp only; omega
  · intro t ht h1
    rw [hm] at ht
    by_cases c1 : t.i < -1
    · exact (walk_horizontal t.i (-1) t.k (fun q _ _ => occ _ _ (by omega))).trans
        (walk_u (fun q _ _ => occ _ _ (by omega)) (fun q _ _ => occ _ _ (by omega)) (fun q _ _ => occ _ _ (by omega)))
    · by_cases c2 : W < t.i
      · exact (walk_horizontal t.i W t.k (fun q _ _ => occ _ _ (by omega))).trans
          (walk_u (fun q _ _ => occ _ _ (by omega)) (fun q _ _ => occ _ _ (by omega)) (fun q _ _ => occ _ _ (by omega)))
      · exact walk_u (fun q _ _ => occ _ _ (by omega)) (fun q _ _ => occ _ _ (by omega)) (fun q _ _ => occ _ _ (by omega))

end

end OpenMps
