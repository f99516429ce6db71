import Verif.Props.BenchmarkGood

/-! # Property C67, densities -/

set_option linter.unusedSectionVars false

namespace OpenMps

open Ref

section
variable {cfg : Config} {b : BenchParams ℝ} {env : Env ℝ 2} {s0 s : State ℝ 2 Unit}

/-- **C67.**  In the files of `StaticPressure/generate.py` the four layers around the water are enough for a radius of influence up to `5 l_0`: every water particle that is at least `r_e` below the
surface, also beside the walls and in the corners, has exactly the reference density that the program calculates. -/
theorem C67_static_pressure_density {width height R : ℤ} (hl : 0 < b.l0) (hw : 1 ≤ width) (hh : 1 ≤ height) (hR4 : R ≤ 4) (hR : b.reByL0 ≤ R + 1)
    (h : BenchStart cfg b (staticPressureSites width height) env s0 s) {i : ℕ} (hi : i < (staticPressureSites width height).length)
    (hwater : (staticPressureSites width height)[i].number = numNewton) (hdeep : (staticPressureSites width height)[i].k + R < height) :
    ∑ j ∈ (Finset.range s.n).erase i, weight env.re (len ((s.ps j).x - (s.ps i).x)) = env.n0 := by
  have hm := List.getElem_mem hi
  rw [mem_staticPressure (by omega)] at hm
  rw [hwater] at hm
  simp only [numNewton] at hm
  refine start_density hl hR h ?_ hi ?_
  · refine apart_of_nodup (nodup_staticPressure (by omega)) ?_
    intro s hs t ht h1 h2
    rw [mem_staticPressure (by omega)] at hs ht
    omega
  · intro x z hx hz
    rw [abs_le] at hx hz
    have hin : -4 ≤ x ∧ x ≤ width + 3 ∧ -4 ≤ z ∧ z < height := by omega
    by_cases c1 : 0 ≤ x ∧ x < width ∧ 0 ≤ z
    · refine ⟨⟨0, x, z⟩, ?_, rfl, rfl⟩
      rw [mem_staticPressure (by omega)]; dsimp only; omega
    · by_cases c2 : -1 ≤ x ∧ x ≤ width ∧ -1 ≤ z
      · refine ⟨⟨1, x, z⟩, ?_, rfl, rfl⟩
        rw [mem_staticPressure (by omega)]; dsimp only; omega
      · refine ⟨⟨2, x, z⟩, ?_, rfl, rfl⟩
        rw [mem_staticPressure (by omega)]; dsimp only; omega

/-- **C67.**  The same in the files of `DamBreak/generate_koshizukaoka1996.py`, away from the free surfaces above and on the right. -/
theorem C67_koshizuka_density {l h w R : ℤ} (hl : 0 < b.l0) (hlw : l ≤ w) (hl1 : 0 ≤ l) (hh : 1 ≤ h) (hR4 : R ≤ 4) (hR : b.reByL0 ≤ R + 1)
    (hs : BenchStart cfg b (koshizukaSites l h w) env s0 s) {i : ℕ} (hi : i < (koshizukaSites l h w).length)
    (hwater : (koshizukaSites l h w)[i].number = numNewton) (hdeep : (koshizukaSites l h w)[i].k + R < h) (hleft : (koshizukaSites l h w)[i].i + R < l) :
    ∑ j ∈ (Finset.range s.n).erase i, weight env.re (len ((s.ps j).x - (s.ps i).x)) = env.n0 := by
  have hm := List.getElem_mem hi
  rw [mem_koshizuka (by omega) (by omega)] at hm
  rw [hwater] at hm
  simp only [numNewton] at hm
  refine start_density hl hR hs ?_ hi ?_
  · refine apart_of_nodup (nodup_koshizuka (by omega) (by omega)) ?_
    intro s hs t ht h1 h2
    rw [mem_koshizuka (by omega) (by omega)] at hs ht
    omega
  · intro x z hx hz
    rw [abs_le] at hx hz
    have hin : -4 ≤ x ∧ x < l ∧ -4 ≤ z ∧ z < h := by omega
    by_cases c1 : 0 ≤ x ∧ 0 ≤ z
    · refine ⟨⟨0, x, z⟩, ?_, rfl, rfl⟩
      rw [mem_koshizuka (by omega) (by omega)]; dsimp only; omega
    · by_cases c2 : -1 ≤ x ∧ -1 ≤ z ∨ z = h - 1
      · refine ⟨⟨1, x, z⟩, ?_, rfl, rfl⟩
        rw [mem_koshizuka (by omega) (by omega)]; dsimp only; omega
      · refine ⟨⟨2, x, z⟩, ?_, rfl, rfl⟩
        rw [mem_koshizuka (by omega) (by omega)]; dsimp only; omega

/-- **C67.**  The same in the files of `DamBreak/generate_zhouetal1999.py`, away from the free surfaces above and on the left. -/
theorem C67_zhou_density {H W h w R : ℤ} (hl : 0 < b.l0) (hwW : w ≤ W) (hw : 0 ≤ w) (hhH : h ≤ H) (hH : 1 ≤ H) (hR4 : R ≤ 4) (hR : b.reByL0 ≤ R + 1)
    (hs : BenchStart cfg b (zhouSites H W h w) env s0 s) {i : ℕ} (hi : i < (zhouSites H W h w).length)
    (hwater : (zhouSites H W h w)[i].number = numNewton) (hdeep : (zhouSites H W h w)[i].k + R < h) (hright : W - w ≤ (zhouSites H W h w)[i].i - R) :
    ∑ j ∈ (Finset.range s.n).erase i, weight env.re (len ((s.ps j).x - (s.ps i).x)) = env.n0 := by
  have hm := List.getElem_mem hi
  rw [mem_zhou (by omega) (by omega)] at hm
  rw [hwater] at hm
  simp only [numNewton] at hm
  refine start_density hl hR hs ?_ hi ?_
  · refine apart_of_nodup (nodup_zhou (by omega) (by omega)) ?_
    intro s hs t ht h1 h2
    rw [mem_zhou (by omega) (by omega)] at hs ht
    omega
  · intro x z hx hz
    rw [abs_le] at hx hz
    have hin : W - w ≤ x ∧ x ≤ W + 3 ∧ -4 ≤ z ∧ z < h := by omega
    by_cases c1 : x < W ∧ 0 ≤ z
    · refine ⟨⟨0, x, z⟩, ?_, rfl, rfl⟩
      rw [mem_zhou (by omega) (by omega)]; dsimp only; omega
    · by_cases c2 : x ≤ W ∧ -1 ≤ z ∨ z = H - 1
      · refine ⟨⟨1, x, z⟩, ?_, rfl, rfl⟩
        rw [mem_zhou (by omega) (by omega)]; dsimp only; omega
      · refine ⟨⟨2, x, z⟩, ?_, rfl, rfl⟩
        rw [mem_zhou (by omega) (by omega)]; dsimp only; omega

/-- **C67.**  The same in the files of `CentralGravity/generate.py`, away from the surface; `R` need not be at most 4 here. -/
theorem C67_central_gravity_density {width height R : ℤ} (hl : 0 < b.l0) (hR : b.reByL0 ≤ R + 1)
    (h : BenchStart cfg b (centralGravitySites width height) env s0 s) {i : ℕ} (hi : i < (centralGravitySites width height).length)
    (hx : |(centralGravitySites width height)[i].i| + R ≤ width) (hz : |(centralGravitySites width height)[i].k| + R ≤ height) :
    ∑ j ∈ (Finset.range s.n).erase i, weight env.re (len ((s.ps j).x - (s.ps i).x)) = env.n0 := by
  refine start_density hl hR h ?_ hi ?_
  · refine apart_of_nodup (nodup_centralGravity _ _) ?_
    intro s hs t ht h1 h2
    rw [mem_centralGravity] at hs ht
    omega
  · intro x z h1 h2
    refine ⟨⟨0, x, z⟩, ?_, rfl, rfl⟩
    rw [mem_centralGravity]
    dsimp only
    have a1 := abs_le.mp (le_refl |(centralGravitySites width height)[i].i|)
    have a2 := abs_le.mp (le_refl |(centralGravitySites width height)[i].k|)
    have a3 := abs_le.mp h1
    have a4 := abs_le.mp h2
    omega

end

theorem foldl_is_sum {α : Type} [DecidableEq α] (g : α → ℝ) (f : ℝ → α → ℝ) : ∀ (l : List α), (∀ a ∈ l, ∀ n, f n a = n + g a) → ∀ n : ℝ, l.foldl f n = n + (l.map g).sum
  | [], _, n => by simp
  | a :: l, h, n => by
    rw [List.foldl_cons, foldl_is_sum g f l (fun x hx => h x (List.mem_cons_of_mem _ hx)), h a (by simp), List.map_cons, List.sum_cons, add_assoc]

theorem sum_pyRange (a c : ℤ) (g : ℤ → ℝ) : ((pyRange a c).map g).sum = ∑ k ∈ Finset.Ico a c, g k := by
  rw [← List.sum_toFinset _ (nodup_pyRange a c)]
  refine Finset.sum_congr ?_ (fun _ _ => rfl)
  ext k
  rw [List.mem_toFinset, mem_pyRange, Finset.mem_Ico]

/-- **C67.**  The reference density with which `CentralGravity/check_result.py` finds the surface is the reference density of the program. -/
theorem C67_check_uses_the_same_n0 {cfg : Config} {e : EnvArgs ℝ 2} {env : Env ℝ 2} (he : Env.mk? cfg e = some env) (hl : 0 < e.l0) :
    calculateN0 e.reByL0 = some env.n0 := by
  classical
  obtain ⟨v1, -, -, -, -, v6, -, -⟩ := envmk_real he
  have hl' : 0 < env.l0 := by rw [v6]; exact hl
  rw [(mk_lattice he hl').1]
  unfold calculateN0
  simp only [Scalar.ceilIdx]
  congr 1
  set K := ⌈e.reByL0⌉ with hK
  let g : ℤ → ℤ → ℝ := fun y x => if 0 < Real.sqrt ((x * x + y * y : ℤ) : ℝ) ∧ Real.sqrt ((x * x + y * y : ℤ) : ℝ) < e.reByL0 then e.reByL0 / Real.sqrt ((x * x + y * y : ℤ) : ℝ) - 1 else 0
  have inner : ∀ y n, (pyRange (-K) (K + 1)).foldl (fun n x =>
      let r := Scalar.sqrt (Scalar.ofInt (x * x + y * y))
      if Scalar.lt 0 r && Scalar.lt r e.reByL0 then n + (e.reByL0 / r - Scalar.ofInt 1) else n) n = n + ∑ x ∈ Finset.Ico (-K) (K + 1), g y x := by
    intro y n
    rw [foldl_is_sum (g y) _ _ ?_ n, sum_pyRange]
    intro x _ n
    simp only [ofInt_real, Scalar.sqrt, Scalar.lt, g]
    by_cases hc : 0 < Real.sqrt ((x * x + y * y : ℤ) : ℝ) ∧ Real.sqrt ((x * x + y * y : ℤ) : ℝ) < e.reByL0
    · rw [if_pos hc, if_pos (by simpa using hc)]; norm_num
    · rw [if_neg hc, if_neg (by simpa using hc), add_zero]
  rw [foldl_is_sum (fun y => ∑ x ∈ Finset.Ico (-K) (K + 1), g y x) _ _ (fun y _ n => inner y n), sum_pyRange, zero_add]
  rw [← Finset.sum_product']
  symm
  have hlen : ∀ v : Fin 2 → ℤ, len (node env.l0 v) = env.l0 * Real.sqrt ((v 0 * v 0 + v 1 * v 1 : ℤ) : ℝ) := by
    intro v
    rw [len_node hl']
    unfold intNorm
    rw [Fin.sum_univ_two]
    push_cast
    simp only [pow_two]
  have hre : env.re = env.l0 * e.reByL0 := by rw [v1, v6, mul_comm]
  have hlt : ∀ r : ℝ, env.l0 * r < env.re ↔ r < e.reByL0 := by
    intro r; rw [hre]; exact mul_lt_mul_iff_right₀ hl'
  have hzero : ∀ v : Fin 2 → ℤ, v ≠ 0 ↔ 0 < Real.sqrt ((v 0 * v 0 + v 1 * v 1 : ℤ) : ℝ) := by
    intro v
    rw [Real.sqrt_pos]
    constructor
    · intro hv
      have := intNorm_pos hv
      unfold intNorm at this
      rw [Fin.sum_univ_two, Real.sqrt_pos] at this
      push_cast
      nlinarith
    · rintro h rfl
      simp at h
  rw [show (∑ p ∈ Finset.Ico (-K) (K + 1) ×ˢ Finset.Ico (-K) (K + 1), g p.1 p.2) =
    ∑ p ∈ (Finset.Ico (-K) (K + 1) ×ˢ Finset.Ico (-K) (K + 1)).filter (fun p => 0 < Real.sqrt ((p.2 * p.2 + p.1 * p.1 : ℤ) : ℝ) ∧ Real.sqrt ((p.2 * p.2 + p.1 * p.1 : ℤ) : ℝ) < e.reByL0),
      (e.reByL0 / Real.sqrt ((p.2 * p.2 + p.1 * p.1 : ℤ) : ℝ) - 1) from by rw [Finset.sum_filter]]
  refine Finset.sum_bij (fun v _ => (v 1, v 0)) ?_ ?_ ?_ ?_
  · intro v hv
    obtain ⟨h0, h1⟩ := (mem_lat hl').mp hv
    rw [hlen, hlt] at h1
    have hb : ∀ a, -K ≤ v a ∧ v a < K + 1 := by
      intro a
      have h2 := abs_le_intNorm v a
      unfold intNorm at h2
      rw [Fin.sum_univ_two] at h2
      push_cast at h1
      simp only [← pow_two] at h1
      have h3 : |(v a : ℝ)| < K := lt_of_le_of_lt h2 (lt_of_lt_of_le h1 (Int.le_ceil _))
      rw [← Int.cast_abs] at h3
      have h4 : |v a| < K := by exact_mod_cast h3
      have := abs_lt.mp h4
      omega
    rw [Finset.mem_filter, Finset.mem_product, Finset.mem_Ico, Finset.mem_Ico]
    exact ⟨⟨hb 1, hb 0⟩, (hzero v).mp h0, h1⟩
  · intro v _ w _ hvw
    injection hvw with e1 e0
    funext a
    match a with
    | 0 => exact e0
    | 1 => exact e1
  · rintro ⟨y, x⟩ hp
    rw [Finset.mem_filter] at hp
    refine ⟨![x, y], (mem_lat hl').mpr ⟨(hzero _).mpr hp.2.1, ?_⟩, rfl⟩
    rw [hlen, hlt]
    exact hp.2.2
  · intro v hv
    obtain ⟨h0, h1⟩ := (mem_lat hl').mp hv
    unfold weight
    rw [hlen] at h1 ⊢
    rw [if_pos ⟨mul_pos hl' ((hzero v).mp h0), h1⟩, hre, mul_div_mul_left _ _ hl'.ne']

end OpenMps
