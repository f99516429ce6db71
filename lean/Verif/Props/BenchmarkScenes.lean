import Verif.Spec.Benchmark
import Verif.Lemmas.Benchmark
import Verif.Lemmas.Consistency
import Verif.Props.GridReal

/-! # Property C67, scenes -/

set_option linter.unusedSectionVars false

namespace OpenMps

open Ref

theorem site_pos (l0 : ℝ) (s : Site) : s.pos l0 0 = s.i * l0 ∧ s.pos l0 1 = s.k * l0 := by
  unfold Site.pos
  simp [ofInt_real]

theorem site_pos_node (l0 : ℝ) (s : Site) : s.pos l0 = node l0 ![s.i, s.k] := by
  funext a
  match a with
  | 0 => rw [(site_pos l0 s).1]; simp [node, mul_comm]
  | 1 => rw [(site_pos l0 s).2]; simp [node, mul_comm]

section
variable {cfg : Config} {b : BenchParams ℝ} {sites : List Site} {env : Env ℝ 2} {s0 s : State ℝ 2 Unit}

/-- Reading a list with a default. -/
theorem getD_site {sites : List Site} {d : Site} {j : ℕ} (hj : j < sites.length) : sites.getD j d = sites[j] := by
  simp [List.getD, hj]

theorem start_n (h : BenchStart cfg b sites env s0 s) : s0.n = 0 ∧ s.n = sites.length := by
  obtain ⟨-, h2, h3⟩ := h
  unfold State.new? at h2
  split at h2
  · cases h2
  · injection h2 with h2
    subst h3
    subst h2
    refine ⟨rfl, ?_⟩
    change 0 + (sites.map _).length = _
    simp

theorem start_ps (h : BenchStart cfg b sites env s0 s) {j : ℕ} (hj : j < sites.length) : s.ps j = (sites[j]).particle b.l0 := by
  have h0 := (start_n h).1
  obtain ⟨-, -, h3⟩ := h
  subst h3
  unfold State.addParticles
  simp [h0, hj]

theorem start_env (h : BenchStart cfg b sites env s0 s) : s.env = env ∧ s0.env = env := by
  obtain ⟨-, h2, h3⟩ := h
  unfold State.new? at h2
  split at h2
  · cases h2
  · injection h2 with h2
    subst h3
    subst h2
    exact ⟨rfl, rfl⟩

theorem start_hist (P : Params ℝ 2 Unit) (h : BenchStart cfg b sites env s0 s) : Hist P s0 [] s := by
  obtain ⟨-, -, h3⟩ := h
  subst h3
  exact .add _ .start

theorem start_ok (_h : BenchStart cfg b sites env s0 s) : s0.grid.ClearOK := fun h => absurd h (by decide)

theorem start_vals (h : BenchStart cfg b sites env s0 s) : env.l0 = b.l0 ∧ env.re = b.reByL0 * b.l0 ∧ env.neighborLength = b.block ∧
    env.minX = b.lo ∧ env.maxX = b.hi ∧ env.maxDx = b.courant * b.l0 ∧ env.t = 0 := by
  obtain ⟨v1, v2, v3, v4, v5, v6, v7, v8⟩ := envmk_real h.1
  refine ⟨v6, v1, ?_, ?_, ?_, v3, ?_⟩
  · rw [v2]; unfold BenchParams.block; change b.reByL0 * b.l0 * (1 + b.courant * 2) = _; ring
  all_goals
    have := h.1
    unfold Env.mk? at this
    simp only [Scalar.ceilIdx, Option.some.injEq] at this
    rw [← this]
    try rfl

theorem site_apart {sites : List Site} (h : sites.Pairwise (fun s t => s.i ≠ t.i ∨ s.k ≠ t.k)) {i j : ℕ} (hi : i < sites.length) (hj : j < sites.length)
    (e1 : sites[i].i = sites[j].i) (e2 : sites[i].k = sites[j].k) : i = j := by
  rcases lt_trichotomy i j with hlt | heq | hlt
  · rcases List.pairwise_iff_getElem.mp h i j hi hj hlt with k | k
    · exact absurd e1 k
    · exact absurd e2 k
  · exact heq
  · rcases List.pairwise_iff_getElem.mp h j i hj hi hlt with k | k
    · exact absurd e1.symm k
    · exact absurd e2.symm k

theorem start_spaced (hl : 0 < b.l0) (h : BenchStart cfg b sites env s0 s) (ha : sites.Pairwise (fun s t => s.i ≠ t.i ∨ s.k ≠ t.k)) :
    ∀ i j, i < j → j < s.n → (s.ps i).ty ≠ .disabled → (s.ps j).ty ≠ .disabled → ∃ a, env.l0 ≤ |(s.ps i).x a - (s.ps j).x a| := by
  intro i j hij hj _ _
  rw [(start_n h).2] at hj
  have hi : i < sites.length := hij.trans hj
  rw [start_ps h hi, start_ps h hj, (start_vals h).1]
  have key : ∀ m n : ℤ, m ≠ n → b.l0 ≤ |(m : ℝ) * b.l0 - n * b.l0| := by
    intro m n hmn
    rw [← sub_mul, abs_mul, abs_of_pos hl]
    have h1 : (1 : ℤ) ≤ |m - n| := Int.one_le_abs (sub_ne_zero.mpr hmn)
    have h2 : (1 : ℝ) ≤ |(m : ℝ) - n| := by
      have : ((1 : ℤ) : ℝ) ≤ ((|m - n| : ℤ) : ℝ) := by exact_mod_cast h1
      rw [Int.cast_abs] at this
      push_cast at this
      exact this
    nlinarith
  rcases List.pairwise_iff_getElem.mp ha i j hi hj hij with k | k
  · refine ⟨0, ?_⟩
    change b.l0 ≤ |Site.pos b.l0 _ 0 - Site.pos b.l0 _ 0|
    rw [(site_pos _ _).1, (site_pos _ _).1]
    exact key _ _ k
  · refine ⟨1, ?_⟩
    change b.l0 ≤ |Site.pos b.l0 _ 1 - Site.pos b.l0 _ 1|
    rw [(site_pos _ _).2, (site_pos _ _).2]
    exact key _ _ k

theorem ofInt_not_disabled {k : Int} (h0 : 0 ≤ k) (h2 : k ≤ 2) : PType.ofInt k ≠ .disabled := by
  have : k = 0 ∨ k = 1 ∨ k = 2 := by omega
  rcases this with rfl | rfl | rfl <;> decide

/-- **C67.**  The first step from such a scene, of any length and under any schedule, does not overfill a block of the grid, and if it returns no particle has been disabled. -/
theorem C67_first_step_keeps_all_particles (P : Params ℝ 2 Unit) (hl : 0 < b.l0) (hR : 0 < b.reByL0) (hC : 0 ≤ b.courant)
    (h : BenchStart cfg b sites env s0 s) (hg : GoodStart b.l0 b.block b.lo b.hi sites) (sch : Schedule) (hv : sch.Valid s.n) (dt : ℝ) :
    (∀ s', s.forwardTime P sch dt ≠ .exn .gridFull s') ∧
    (∀ s', s.forwardTime P sch dt = .ok s' → ∀ i, i < s.n → (s'.ps i).ty = (s.ps i).ty ∧ (s'.ps i).ty ≠ .disabled) := by
  obtain ⟨v1, v2, v3, v4, v5, -⟩ := start_vals h
  have hL : 0 < env.neighborLength := by
    rw [v3]; unfold BenchParams.block; positivity
  refine ⟨fun s' => C06_step_never_overflows h.2.1 (start_hist P h) (start_ok h) (by rw [v1]; exact hl) hL (start_spaced hl h hg.apart) sch hv dt s', ?_⟩
  intro s' hs' i hi
  have hi' : i < sites.length := by rw [← (start_n h).2]; exact hi
  have hm : sites[i] ∈ sites := List.getElem_mem hi'
  have hen : (s.ps i).ty ≠ .disabled := by
    rw [start_ps h hi']
    exact ofInt_not_disabled (hg.types _ hm).1 (hg.types _ hm).2
  have := (C11_box h.2.1 (start_hist P h) hL sch hv dt hs' i hi hen).1 (fun a => by
    rw [v3, v4, v5, start_ps h hi']
    exact hg.inside _ hm a)
  exact ⟨this, by rw [this]; exact hen⟩

/-- A site of which all places of the lattice within `r_e` are occupied has the reference density. -/
theorem start_density (hl : 0 < b.l0) {R : Int} (hR : b.reByL0 ≤ R + 1)
    (h : BenchStart cfg b sites env s0 s) (ha : sites.Pairwise (fun s t => s.i ≠ t.i ∨ s.k ≠ t.k)) {i : ℕ} (hi : i < sites.length)
    (hs : Surrounded sites R sites[i]) :
    ∑ j ∈ (Finset.range s.n).erase i, weight env.re (len ((s.ps j).x - (s.ps i).x)) = env.n0 := by
  classical
  obtain ⟨v1, v2, v3, v4, v5, -⟩ := start_vals h
  have hl' : 0 < env.l0 := by rw [v1]; exact hl
  rw [(mk_lattice h.1 hl').1]
  have hx : ∀ j (hj : j < sites.length), (s.ps j).x - (s.ps i).x = node b.l0 ![sites[j].i - sites[i].i, sites[j].k - sites[i].k] := by
    intro j hj
    rw [start_ps h hj, start_ps h hi]
    change Site.pos b.l0 _ - Site.pos b.l0 _ = _
    rw [site_pos_node, site_pos_node]
    funext a
    match a with
    | 0 => simp [node]; ring
    | 1 => simp [node]; ring
  -- only those within `re` count
  have hsub : ∑ j ∈ (Finset.range s.n).erase i, weight env.re (len ((s.ps j).x - (s.ps i).x)) =
      ∑ j ∈ ((Finset.range s.n).erase i).filter (fun j => len ((s.ps j).x - (s.ps i).x) < env.re), weight env.re (len ((s.ps j).x - (s.ps i).x)) := by
    rw [Finset.sum_filter]
    refine Finset.sum_congr rfl (fun j _ => ?_)
    split
    · rfl
    · rename_i hc
      unfold weight
      rw [if_neg (fun k => hc k.2)]
  rw [hsub]
  have hmem : ∀ j, j ∈ ((Finset.range s.n).erase i).filter (fun j => len ((s.ps j).x - (s.ps i).x) < env.re) ↔
      j ≠ i ∧ j < sites.length ∧ len ((s.ps j).x - (s.ps i).x) < env.re := by
    intro j
    rw [Finset.mem_filter, Finset.mem_erase, Finset.mem_range, (start_n h).2, and_assoc]
  refine Finset.sum_bij (fun j hj => ![(sites.getD j sites[i]).i - sites[i].i, (sites.getD j sites[i]).k - sites[i].k]) ?_ ?_ ?_ ?_
  · intro j hj
    obtain ⟨h1, h2, h3⟩ := (hmem j).mp hj
    rw [mem_lat hl', getD_site h2]
    rw [hx j h2, ← v1] at h3
    refine ⟨fun hc => h1 ?_, h3⟩
    have c0 := congrFun hc 0
    have c1 := congrFun hc 1
    simp only [Matrix.cons_val_zero, Matrix.cons_val_one, Pi.zero_apply] at c0 c1
    exact site_apart ha h2 hi (by omega) (by omega)
  · intro j hj k hk he
    obtain ⟨-, h2, -⟩ := (hmem j).mp hj
    obtain ⟨-, k2, -⟩ := (hmem k).mp hk
    rw [getD_site h2, getD_site k2] at he
    have c0 := congrFun he 0
    have c1 := congrFun he 1
    simp only [Matrix.cons_val_zero, Matrix.cons_val_one] at c0 c1
    exact site_apart ha h2 k2 (by omega) (by omega)
  · intro v hv
    obtain ⟨hv0, hv1⟩ := (mem_lat hl').mp hv
    have hb : ∀ a, |v a| ≤ R := by
      intro a
      have h1 := abs_le_intNorm v a
      rw [len_node hl', v2, v1, mul_comm] at hv1
      have h2 := lt_of_mul_lt_mul_right hv1 hl.le
      have h3 : |(v a : ℝ)| < R + 1 := by linarith
      rw [← Int.cast_abs] at h3
      have h4 : |v a| < R + 1 := by exact_mod_cast h3
      omega
    obtain ⟨t, ht, t1, t2⟩ := hs (sites[i].i + v 0) (sites[i].k + v 1) (by rw [add_sub_cancel_left]; exact hb 0) (by rw [add_sub_cancel_left]; exact hb 1)
    obtain ⟨j, hj, rfl⟩ := List.mem_iff_getElem.mp ht
    have e : ![sites[j].i - sites[i].i, sites[j].k - sites[i].k] = v := by
      funext a
      match a with
      | 0 => simp [t1]
      | 1 => simp [t2]
    refine ⟨j, (hmem j).mpr ⟨?_, hj, ?_⟩, ?_⟩
    · rintro rfl
      apply hv0
      rw [← e]
      funext a
      match a with
      | 0 => simp
      | 1 => simp
    · rw [hx j hj, e, ← v1]; exact hv1
    · simp only [getD_site hj, e]
  · intro j hj
    obtain ⟨-, h2, -⟩ := (hmem j).mp hj
    simp only [getD_site h2]
    rw [hx j h2, v1]

end

end OpenMps
