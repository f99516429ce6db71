import Verif.Props.BenchmarkGood
import Verif.Props.Solvable

/-! # The first step of the benchmarks: lemmas -/

set_option linter.unusedSectionVars false

namespace OpenMps

open Ref

theorem wet_along {D : Nat} {S : Setting D} {m : Scene D} {K : ℕ} (hK : S.Surface m.dens K ∨ (S.Equation m K ∧ S.HasVirtual m.x K)) {i : ℕ}
    (hp : Relation.ReflTransGen (fun a c => c < S.n ∧ S.Active c ∧ c ∈ S.nearSolid m.x a) i K) : S.Equation m i → S.Wet m i := by
  induction hp using Relation.ReflTransGen.head_induction_on with
  | refl =>
    intro hE
    rcases hK with hK | ⟨-, hV⟩
    · exact absurd hK hE.2.2
    · exact ⟨K, .refl, hE, hE, Or.inl hV⟩
  | @head a c h hp ih =>
    intro hE
    obtain ⟨h1, h2, h3⟩ := h
    by_cases hs : S.Surface m.dens c
    · exact ⟨a, .refl, hE, hE, Or.inr ⟨c, h3, hs⟩⟩
    · have hEc : S.Equation m c := ⟨h1, h2, hs⟩
      obtain ⟨k, p, -, e2, t⟩ := ih hEc
      exact ⟨k, .head ⟨hE, hEc, h3⟩ p, hE, e2, t⟩

theorem len_two (v : Fin 2 → ℝ) : len v = √(v 0 ^ 2 + v 1 ^ 2) := by
  unfold len
  rw [Fin.sum_univ_two]

theorem abs_le_len (v : Fin 2 → ℝ) : |v 0| ≤ len v ∧ |v 1| ≤ len v := by
  rw [len_two]
  exact ⟨Real.abs_le_sqrt (by nlinarith [sq_nonneg (v 1)]), Real.abs_le_sqrt (by nlinarith [sq_nonneg (v 0)])⟩

theorem len_le_abs (v : Fin 2 → ℝ) : len v ≤ |v 0| + |v 1| := by
  rw [len_two]
  refine Real.sqrt_le_iff.mpr ⟨by positivity, ?_⟩
  nlinarith [abs_nonneg (v 0), abs_nonneg (v 1), sq_abs (v 0), sq_abs (v 1)]

section
variable {cfg : Config} {b : BenchParams ℝ} {sites : List Site} {env : Env ℝ 2} {s0 s : State ℝ 2 Unit} {dt : ℝ}

theorem bs_ty (hB : 0 < b.block) (h : BenchStart cfg b sites env s0 s) (hg : GoodStart b.l0 b.block b.lo b.hi sites) {i : ℕ} (hi : i < sites.length) :
    (setting (benchParams cfg b sites) s dt).ty i = PType.ofInt sites[i].number := by
  obtain ⟨v1, v2, v3, v4, v5, -⟩ := start_vals h
  unfold setting
  simp only
  rw [if_neg, start_ps h hi]
  · rfl
  · rintro ⟨-, a, ho⟩
    rw [start_ps h hi, (start_env h).1, v3, v4, v5] at ho
    have hin := hg.inside _ (List.getElem_mem hi) a
    change Site.pos b.l0 _ a < _ ∨ _ ≤ Site.pos b.l0 _ a at ho
    rcases ho with ho | ho
    · linarith [hin.1]
    · have h1 := Int.le_ceil ((b.hi a - b.lo a) / b.block)
      rw [div_le_iff₀ hB] at h1
      nlinarith [hin.2]

theorem bs_n (h : BenchStart cfg b sites env s0 s) : (setting (benchParams cfg b sites) s dt).n = sites.length := (start_n h).2

theorem bs_start (h : BenchStart cfg b sites env s0 s) {i : ℕ} (hi : i < sites.length) : (setting (benchParams cfg b sites) s dt).start i = sites[i].pos b.l0 := by
  unfold setting
  simp only
  rw [start_ps h hi]
  rfl

theorem bs_callback (_h : BenchStart cfg b sites env s0 s) {i : ℕ} (hi : i < sites.length) : (setting (benchParams cfg b sites) s dt).callback i = sites[i].pos b.l0 := by
  unfold setting benchParams mainWalls
  simp [hi, Site.particle]

/-- Where the particle of a site is predicted: water falls. -/
def fallen (l0 d : ℝ) (t : Site) : Fin 2 → ℝ := ![t.i * l0, t.k * l0 - if t.number = 0 then d else 0]

theorem bs_predict (hcg : cfg.centralGravity = false) (hB : 0 < b.block) (h : BenchStart cfg b sites env s0 s) (hg : GoodStart b.l0 b.block b.lo b.hi sites) {i : ℕ} (hi : i < sites.length) :
    ((setting (benchParams cfg b sites) s dt).predict (scene s)).x i = fallen b.l0 (b.g * dt ^ 2) sites[i] := by
  classical
  set S := setting (benchParams cfg b sites) s dt with hS
  have hb : ∀ j, j < sites.length → (scene s).u j = 0 ∧ (scene s).x j = (sites.getD j ⟨0, 0, 0⟩).pos b.l0 := by
    intro j hj
    unfold scene
    simp only
    rw [start_ps h hj, getD_site hj]
    exact ⟨rfl, rfl⟩
  have hty := bs_ty (dt := dt) hB h hg hi
  unfold Setting.predict
  simp only
  have hm := hg.types _ (List.getElem_mem hi)
  by_cases h0 : sites[i].number = 0
  · have hF : S.Fluid i := by unfold Setting.Fluid; rw [hS, hty, h0]; rfl
    rw [if_pos hF, if_pos hF, (hb i hi).1, (hb i hi).2, getD_site hi]
    have hacc : S.acceleration (scene s).x (scene s).u i = S.env.g := by
      unfold Setting.acceleration
      rw [Finset.sum_eq_zero]
      · rw [smul_zero, zero_add]
        unfold Setting.gravity
        rw [if_neg (by change ¬ cfg.centralGravity = true; rw [hcg]; decide)]
      · intro j hj
        have hjn : j < sites.length := by
          unfold Setting.nearSolid Setting.near at hj
          rw [Finset.mem_filter, Finset.mem_filter, Finset.mem_range] at hj
          rw [← bs_n h]; exact hj.1.1
        rw [(hb j hjn).1, (hb i hi).1, sub_zero, smul_zero]
    rw [hacc, zero_add]
    have hgv : S.env.g = ![0, -b.g] := by
      change s.env.g = _
      rw [(start_env h).1, (envmk_real h.1).2.2.2.2.1]
      funext a
      match a with
      | 0 => simp [ofInt_real]
      | 1 => simp; rfl
    have hdt : S.env.dt = dt := rfl
    rw [hgv, hdt]
    unfold fallen
    funext a
    match a with
    | 0 => simp [(site_pos b.l0 sites[i]).1]
    | 1 => simp [(site_pos b.l0 sites[i]).2, h0]; ring
  · have hF : ¬ S.Fluid i := by
      unfold Setting.Fluid
      rw [hS, hty]
      have : sites[i].number = 1 ∨ sites[i].number = 2 := by omega
      rcases this with e | e <;> rw [e] <;> decide
    rw [if_neg hF, hS, bs_callback h hi]
    unfold fallen
    funext a
    match a with
    | 0 => simp [(site_pos b.l0 sites[i]).1]
    | 1 => simp [(site_pos b.l0 sites[i]).2, h0]

theorem bs_active (hB : 0 < b.block) (h : BenchStart cfg b sites env s0 s) (hg : GoodStart b.l0 b.block b.lo b.hi sites) {i : ℕ} (hi : i < sites.length) :
    (setting (benchParams cfg b sites) s dt).Active i ↔ sites[i].number ≤ 1 := by
  unfold Setting.Active
  rw [bs_ty hB h hg hi]
  have hm := hg.types _ (List.getElem_mem hi)
  have : sites[i].number = 0 ∨ sites[i].number = 1 ∨ sites[i].number = 2 := by omega
  rcases this with e | e | e <;> rw [e] <;> decide

theorem bs_enabled (hB : 0 < b.block) (h : BenchStart cfg b sites env s0 s) (hg : GoodStart b.l0 b.block b.lo b.hi sites) {i : ℕ} (hi : i < sites.length) :
    (setting (benchParams cfg b sites) s dt).ty i ≠ .disabled := by
  rw [bs_ty hB h hg hi]
  exact ofInt_not_disabled (hg.types _ (List.getElem_mem hi)).1 (hg.types _ (List.getElem_mem hi)).2

theorem bs_distinct (hcg : cfg.centralGravity = false) (hl : 0 < b.l0) (hB : 0 < b.block) (h : BenchStart cfg b sites env s0 s) (hg : GoodStart b.l0 b.block b.lo b.hi sites)
    (hd0 : 0 ≤ b.g * dt ^ 2) (hd1 : b.g * dt ^ 2 < b.l0) :
    (setting (benchParams cfg b sites) s dt).Distinct ((setting (benchParams cfg b sites) s dt).predict (scene s)) := by
  intro i j hi hj hij _ _ he
  rw [bs_n h] at hi hj
  rw [bs_predict hcg hB h hg hi, bs_predict hcg hB h hg hj] at he
  have e0 := congrFun he 0
  have e1 := congrFun he 1
  simp only [fallen, Matrix.cons_val_zero, Matrix.cons_val_one] at e0 e1
  have hx : sites[i].i = sites[j].i := by exact_mod_cast mul_right_cancel₀ hl.ne' e0
  have hz : sites[i].k = sites[j].k := by
    have key : ∀ (m n : ℤ) (d d' : ℝ), 0 ≤ d → d < b.l0 → 0 ≤ d' → d' < b.l0 → (m : ℝ) * b.l0 - d = n * b.l0 - d' → m = n := by
      intro m n d d' h1 h2 h3 h4 h5
      have h6 : ((m : ℝ) - n) * b.l0 < 1 * b.l0 := by nlinarith
      have h7 : (-1) * b.l0 < ((m : ℝ) - n) * b.l0 := by nlinarith
      have h8 := lt_of_mul_lt_mul_right h6 hl.le
      have h9 := lt_of_mul_lt_mul_right h7 hl.le
      have h10 : m - n < 1 := by exact_mod_cast h8
      have h11 : -1 < m - n := by exact_mod_cast h9
      omega
    refine key _ _ _ _ ?_ ?_ ?_ ?_ e1
    all_goals
      split
      · assumption
      · first | exact le_refl _ | exact hl
  exact hij (site_apart hg.apart hi hj hx hz)

/-- Two particles on adjacent places interact. -/
theorem bs_adjacent (hcg : cfg.centralGravity = false) (hl : 0 < b.l0) (hR : 2 ≤ b.reByL0) (hC : 0 ≤ b.courant) (h : BenchStart cfg b sites env s0 s)
    (hg : GoodStart b.l0 b.block b.lo b.hi sites) (hd0 : 0 ≤ b.g * dt ^ 2) (hd1 : b.g * dt ^ 2 < b.l0) {i j : ℕ} (hi : i < sites.length) (hj : j < sites.length)
    (hn : sites[j].number ≤ 1) (ha : |sites[j].i - sites[i].i| + |sites[j].k - sites[i].k| = 1) :
    j ∈ (setting (benchParams cfg b sites) s dt).nearSolid ((setting (benchParams cfg b sites) s dt).predict (scene s)).x i := by
  classical
  obtain ⟨v1, v2, v3, v4, v5, -⟩ := start_vals h
  have hre : 2 * b.l0 ≤ b.reByL0 * b.l0 := mul_le_mul_of_nonneg_right hR hl.le
  have hblock : 2 * b.l0 ≤ b.block := by
    unfold BenchParams.block
    nlinarith [mul_nonneg (mul_nonneg (by linarith : (0:ℝ) ≤ b.reByL0) hl.le) hC]
  have hB : 0 < b.block := by linarith
  have ha' : |(sites[j].i : ℝ) - sites[i].i| + |(sites[j].k : ℝ) - sites[i].k| = 1 := by exact_mod_cast ha
  have hsum : |((sites[j].i : ℝ) - sites[i].i) * b.l0| + |((sites[j].k : ℝ) - sites[i].k) * b.l0| = b.l0 := by
    rw [abs_mul, abs_mul, abs_of_pos hl, ← add_mul, ha', one_mul]
  unfold Setting.nearSolid Setting.near
  rw [Finset.mem_filter, Finset.mem_filter, Finset.mem_range]
  refine ⟨⟨by rw [bs_n h]; exact hj, ?_, bs_enabled hB h hg hj, ?_, ?_⟩, ((bs_active hB h hg hj).mpr hn).1⟩
  · rintro rfl
    simp at ha
  · rw [bs_start h hi, bs_start h hj]
    change _ < s.env.neighborLength
    rw [(start_env h).1, v3]
    refine lt_of_le_of_lt (len_le_abs _) ?_
    simp only [Pi.sub_apply]
    rw [(site_pos _ _).1, (site_pos _ _).2, (site_pos _ _).1, (site_pos _ _).2, ← sub_mul, ← sub_mul, hsum]
    linarith
  · rw [bs_predict hcg hB h hg hi, bs_predict hcg hB h hg hj]
    change _ < s.env.re
    rw [(start_env h).1, v2]
    refine lt_of_le_of_lt (len_le_abs _) ?_
    simp only [Pi.sub_apply, fallen, Matrix.cons_val_zero, Matrix.cons_val_one]
    rw [← sub_mul]
    have e : ∀ A B : ℝ, |(sites[j].k : ℝ) * b.l0 - A - (sites[i].k * b.l0 - B)| ≤ |((sites[j].k : ℝ) - sites[i].k) * b.l0| + |B - A| := by
      intro A B
      rw [show (sites[j].k : ℝ) * b.l0 - A - (sites[i].k * b.l0 - B) = ((sites[j].k : ℝ) - sites[i].k) * b.l0 + (B - A) by ring]
      exact abs_add_le _ _
    have e2 : |(if sites[i].number = 0 then b.g * dt ^ 2 else 0) - (if sites[j].number = 0 then b.g * dt ^ 2 else 0)| ≤ b.g * dt ^ 2 := by
      split <;> split <;> simp [abs_of_nonneg hd0, hd0]
    have e3 := e (if sites[j].number = 0 then b.g * dt ^ 2 else 0) (if sites[i].number = 0 then b.g * dt ^ 2 else 0)
    linarith

end

end OpenMps
