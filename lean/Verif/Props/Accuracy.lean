import Verif.Lemmas.Accuracy
import Verif.Props.ReferenceStep
import Verif.Props.Examples

set_option linter.unusedSectionVars false

/-! # Property C57: the pressures, compared with the exact solution of the pressure equation

The pressure equation is that of `Spec/Reference.lean` and `Spec/Accuracy.lean`: sums over all particles, no matrix and no solver. -/

namespace OpenMps

open Ref

variable {D : Nat} {ω : Type}

/-- **C57.**  If every particle with an equation belongs to a body of fluid with a free surface or is a single drop, the pressure equation of the step
has a solution, and any two solutions agree at all particles except single drops (whose equation contains no pressure). -/
theorem C57_pressure_equation_determines_pressures {S : Setting D} {b : Scene D} (hD : 0 < D ∧ D < 5) (he : S.env.Positive)
    (ha : S.Distinct (S.predict b)) (hw : ∀ i, S.Equation (S.predict b) i → S.Wet (S.predict b) i ∨ S.Lone i) :
    ∃ p, S.Solves b (S.predict b) p ∧ (∀ i, i < S.n → S.Lone i → p i = 0) ∧
      ∀ q, S.Solves b (S.predict b) q → ∀ i, i < S.n → ¬ S.Lone i → q i = p i := by
  obtain ⟨p, h1, h2⟩ := wet_solvable hD he ha (fun i => S.source b (S.predict b) i)
  have hlone : ∀ i, S.Lone i → ¬ S.Wet (S.predict b) i := by
    rintro i hl ⟨k, hp, hE, hEk, hT⟩
    have hki : k = i := by
      rcases Relation.ReflTransGen.cases_head hp with e | ⟨j, hj, -⟩
      · exact e.symm
      · have := hj.2.2
        rw [nearSolid_lone hl] at this
        cases this
    subst hki
    rcases hT with hV | ⟨k, hk, -⟩
    · exact virtual_lone hl _ hV
    · rw [nearSolid_lone hl] at hk; cases hk
  have hpS : S.Solves b (S.predict b) p := by
    intro i hi
    by_cases hE : S.Equation (S.predict b) i
    · rw [operator_def hE]
      rcases hw i hE with k | k
      · exact h1 i k
      · rw [laplacian_lone k, source_def hE, compression_lone he.n0 k hE.2.1, mul_zero]
    · have hc : ¬ (S.Active i ∧ ¬ S.Surface (S.predict b).dens i) := fun k => hE ⟨hi, k⟩
      unfold Setting.operator Setting.source
      rw [if_neg hc, if_neg hc, h2 i (fun k => hE k.eqn)]
  refine ⟨p, hpS, fun i _ hl => h2 i (hlone i hl), ?_⟩
  intro q hq i hi hnl
  by_cases hE : S.Equation (S.predict b) i
  · have hW := (hw i hE).resolve_right hnl
    have e : ∀ k, S.Wet (S.predict b) k → S.laplacian (S.predict b) q k = S.laplacian (S.predict b) p k := by
      intro k hk
      rw [h1 k hk, ← operator_def hk.eqn]
      exact hq k hk.eqn.1
    exact le_antisymm (comparison hD he ha (fun k hk => (e k hk).ge) i hW) (comparison hD he ha (fun k hk => (e k hk).le) i hW)
  · rw [solves_none hq hi hE, solves_none hpS hi hE]

/-- **C57.**  The free surface is needed: in a body of fluid without free surface the equations leave the level of the pressure open. -/
theorem C57_without_surface_pressure_level_is_open {S : Setting D} {b s : Scene D} {p : ℕ → ℝ} (hp : S.Solves b s p) {i : ℕ} (hE : S.Equation s i)
    (hd : ¬ S.Wet s i) (c : ℝ) : ∃ q, S.Solves b s q ∧ q i = p i + c := by
  classical
  let χ : ℕ → ℝ := fun k => if Relation.ReflTransGen (S.Joined s) i k then 1 else 0
  have hreach : ∀ k, Relation.ReflTransGen (S.Joined s) i k → S.Equation s k ∧ ¬ S.Touches s k := by
    intro k hk
    have hEk : S.Equation s k := by
      rcases Relation.ReflTransGen.cases_tail hk with e | ⟨j, -, hj⟩
      · rw [e]; exact hE
      · exact hj.2.1
    exact ⟨hEk, fun hT => hd ⟨k, hk, hE, hEk, hT⟩⟩
  have hL : ∀ k, S.Equation s k → S.laplacian s χ k = 0 := by
    intro k hEk
    unfold Setting.laplacian
    by_cases hk : Relation.ReflTransGen (S.Joined s) i k
    · have hT := (hreach k hk).2
      rw [if_neg (fun hV => hT (Or.inl hV)), add_zero]
      apply Finset.sum_eq_zero
      intro j hj
      have hs : ¬ S.Surface s.dens j := fun hs => hT (Or.inr ⟨j, hj, hs⟩)
      have hj' : Relation.ReflTransGen (S.Joined s) i j := hk.tail (joined_of_near hEk hj hs).1
      rw [if_neg hs]
      simp only [χ, if_pos hk, if_pos hj', sub_self, mul_zero]
    · have h0 : χ k = 0 := if_neg hk
      rw [h0]
      have h1 : ∑ j ∈ S.nearSolid s.x k, S.laplace (len (s.x j - s.x k)) * ((if S.Surface s.dens j then 0 else χ j) - 0) = 0 := by
        apply Finset.sum_eq_zero
        intro j hj
        by_cases hs : S.Surface s.dens j
        · rw [if_pos hs, sub_zero, mul_zero]
        · have hj' : ¬ Relation.ReflTransGen (S.Joined s) i j := fun hc => hk (hc.tail (joined_of_near hEk hj hs).2)
          rw [if_neg hs]
          simp only [χ, if_neg hj', sub_zero, mul_zero]
      rw [h1, sub_zero, mul_zero, ite_self, add_zero]
  refine ⟨fun k => 1 * p k + c * χ k, ?_, ?_⟩
  · intro k hk
    by_cases hEk : S.Equation s k
    · rw [operator_def hEk, laplacian_comb, hL k hEk, mul_zero, add_zero, one_mul, ← operator_def hEk]
      exact hp k hk
    · have hχ : χ k = 0 := if_neg (fun hc => hEk (hreach k hc).1)
      have := hp k hk
      have hc : ¬ (S.Active k ∧ ¬ S.Surface s.dens k) := fun h => hEk ⟨hk, h⟩
      unfold Setting.operator at this ⊢
      rw [if_neg hc] at this ⊢
      simp only
      rw [hχ, ← this]; ring
  · have : χ i = 1 := if_pos .refl
    simp only
    rw [this]; ring

/-- **C57.**  Signs: where a fluid body with a free surface is nowhere expanded, its exact pressures are not negative (nothing is cut off at zero);
where it is nowhere compressed, they are not positive (all pressures are cut off). -/
theorem C57_pressure_signs {S : Setting D} {b s : Scene D} (hD : 0 < D ∧ D < 5) (he : S.env.Positive) (ha : S.Distinct s) (hrho : 0 < S.env.rho)
    (hdt : 0 < S.env.dt) {p : ℕ → ℝ} (hp : S.Solves b s p) :
    ((∀ i, S.Wet s i → 0 ≤ S.compression b s i) → ∀ i, S.Wet s i → 0 ≤ p i) ∧
    ((∀ i, S.Wet s i → S.compression b s i ≤ 0) → ∀ i, S.Wet s i → p i ≤ 0) := by
  have hz : ∀ i, S.laplacian s (fun _ => (0 : ℝ)) i = 0 := by
    intro i
    have := laplacian_comb (S := S) (s := s) (fun _ => (0 : ℝ)) (fun _ => 0) 0 0 i
    simpa using this
  have hk : 0 < S.env.rho / (S.env.n0 * S.env.dt) := by have := he.n0; positivity
  have hL : ∀ i, S.Wet s i → S.laplacian s p i = -(S.env.rho / (S.env.n0 * S.env.dt)) * S.compression b s i := by
    intro i hi
    rw [← source_def hi.eqn, ← operator_def hi.eqn]; exact hp i hi.eqn.1
  constructor
  · intro h i hi
    refine comparison hD he ha (y := p) (z := fun _ => 0) (fun k hk' => ?_) i hi
    rw [hL k hk', hz]
    have := mul_nonneg hk.le (h k hk')
    linarith
  · intro h i hi
    refine comparison hD he ha (y := fun _ => 0) (z := p) (fun k hk' => ?_) i hi
    rw [hL k hk', hz]
    have := mul_nonneg hk.le (neg_nonneg.mpr (h k hk'))
    linarith

/-- **C57.**  More compression gives higher pressure, at every particle: two steps with the same particles, options and positions at the pressure
computation (velocities may differ). -/
theorem C57_more_compression_more_pressure {S : Setting D} {b b' s s' : Scene D} (hD : 0 < D ∧ D < 5) (he : S.env.Positive) (ha : S.Distinct s)
    (hrho : 0 < S.env.rho) (hdt : 0 < S.env.dt) (hx : s'.x = s.x) (hn : s'.dens = s.dens) {p p' : ℕ → ℝ} (hp : S.Solves b s p)
    (hp' : S.Solves b' s' p') (h : ∀ i, S.Wet s i → S.compression b s i ≤ S.compression b' s' i) (i : ℕ) (hi : S.Wet s i) : p i ≤ p' i := by
  have hk : 0 < S.env.rho / (S.env.n0 * S.env.dt) := by have := he.n0; positivity
  refine comparison hD he ha (y := p') (z := p) (fun k hk' => ?_) i hi
  have e1 : S.laplacian s p k = -(S.env.rho / (S.env.n0 * S.env.dt)) * S.compression b s k := by
    rw [← source_def hk'.eqn, ← operator_def hk'.eqn]; exact hp k hk'.eqn.1
  have hE' : S.Equation s' k := ⟨hk'.eqn.1, hk'.eqn.2.1, by rw [hn]; exact hk'.eqn.2.2⟩
  have e2 : S.laplacian s' p' k = -(S.env.rho / (S.env.n0 * S.env.dt)) * S.compression b' s' k := by
    rw [← source_def hE', ← operator_def hE']; exact hp' k hE'.1
  have e3 : S.laplacian s' p' k = S.laplacian s p' k := by unfold Setting.laplacian; rw [hx, hn]
  rw [← e3, e1, e2]
  have := mul_le_mul_of_nonneg_left (h k hk') hk.le
  linarith

/-- **C57.**  No pressure peak without compression: a particle whose exact pressure is higher than that of all near particles (surface particles
and virtual particles count as zero) and that has at least one of them is being compressed. -/
theorem C57_no_peak_without_compression {S : Setting D} {b s : Scene D} (hD : 0 < D ∧ D < 5) (he : S.env.Positive) (ha : S.Distinct s)
    (hrho : 0 < S.env.rho) (hdt : 0 < S.env.dt) {p : ℕ → ℝ} (hp : S.Solves b s p) {i : ℕ} (hE : S.Equation s i)
    (h1 : ∀ j ∈ S.nearSolid s.x i, S.Surface s.dens j → 0 < p i) (h2 : ∀ j ∈ S.nearSolid s.x i, ¬ S.Surface s.dens j → p j < p i)
    (h3 : S.HasVirtual s.x i → 0 < p i) (h4 : (S.nearSolid s.x i).Nonempty ∨ S.HasVirtual s.x i) : 0 < S.compression b s i := by
  classical
  have hk : 0 < S.env.rho / (S.env.n0 * S.env.dt) := by have := he.n0; positivity
  have e1 : S.laplacian s p i = -(S.env.rho / (S.env.n0 * S.env.dt)) * S.compression b s i := by
    rw [← source_def hE, ← operator_def hE]; exact hp i hE.1
  have hterm : ∀ j ∈ S.nearSolid s.x i, S.laplace (len (s.x j - s.x i)) * ((if S.Surface s.dens j then 0 else p j) - p i) < 0 := by
    intro j hj
    apply mul_neg_of_pos_of_neg (near_coef hD he ha hE hj)
    split
    · rename_i hs; have := h1 j hj hs; linarith
    · rename_i hs; have := h2 j hj hs; linarith
  have hv : S.HasVirtual s.x i → S.laplace (len (S.virtual s.x i)) * (0 - p i) < 0 := by
    intro hV
    obtain ⟨a, c⟩ := len_virtual he hV
    exact mul_neg_of_pos_of_neg (laplace_pos hD he a c) (by have := h3 hV; linarith)
  have hneg : S.laplacian s p i < 0 := by
    unfold Setting.laplacian
    rcases h4 with hne | hV
    · have := Finset.sum_neg hterm hne
      by_cases hV : S.HasVirtual s.x i
      · rw [if_pos hV]; have := hv hV; linarith
      · rw [if_neg hV]; linarith
    · have h5 := Finset.sum_nonpos (fun j hj => (hterm j hj).le)
      rw [if_pos hV]
      have := hv hV
      linarith
  rw [e1] at hneg
  by_contra hc
  have := mul_nonneg hk.le (neg_nonneg.mpr (not_lt.mp hc))
  linarith

/-- **C57.**  Accuracy: after any history and under any schedule, the pressures of a successful implicit step differ from the exact solution (cut off at
zero) by at most the tolerance times the initial residual times the response of the fluid to a unit source; this response exists and is
nowhere negative.  Surface particles have exactly the pressure zero. -/
theorem C57_step_pressures_accurate {P : Params ℝ D ω} {env : Env ℝ D} {w : ω} {s0 s s' : State ℝ D ω} {dts : List ℝ}
    (hD : D = 2 ∨ D = 3) (hnew : State.new? env w = some s0) (hist : Hist P s0 dts s) (hok : s0.grid.ClearOK) (hL : 0 < env.neighborLength)
    (hpos : env.Positive) (himp : P.cfg.explicit = false) (heps : P.eps ≠ 0) (sch : Schedule) (hv : sch.Valid s.n) (dt : ℝ)
    (h : s.forwardTime P sch dt = .ok s') :
    let S := setting P s dt
    let b := scene s
    let m := S.predict b
    S.Distinct m → ∃ φ, S.Response m φ ∧ (∀ i, 0 ≤ φ i) ∧ ∀ p, S.Solves b m p → ∀ i, i < s.n → S.Active i →
      (S.Surface m.dens i → (s'.ps i).p = 0 ∧ p i = 0) ∧
      (S.Wet m i → |(s'.ps i).p - max (p i) 0| ≤ |P.eps| * √(S.residual b m (S.guess m)) * φ i) := by
  classical
  intro S b m hA
  have hD4 : 0 < D ∧ D < 5 := by omega
  have he : S.env.Positive := by
    have hc := hist_consts hnew hist
    have e1 : S.env.re = env.re := by change s.env.re = _; rw [hc]
    have e2 : S.env.n0 = env.n0 := by change s.env.n0 = _; rw [hc]
    have e3 : S.env.lambda = env.lambda := by change s.env.lambda = _; rw [hc]
    exact ⟨by rw [e1]; exact hpos.re, by rw [e2]; exact hpos.n0, by rw [e3]; exact hpos.lambda⟩
  obtain ⟨φ, hφ1, hφ2⟩ := wet_solvable hD4 he hA (fun _ => (-1 : ℝ))
  have hφ0 : ∀ i, 0 ≤ φ i := by
    intro i
    by_cases hW : S.Wet m i
    · exact minimum_principle hD4 he hA (fun k hk => by rw [hφ1 k hk]; norm_num) i hW
    · rw [hφ2 i hW]
  obtain ⟨y, hy1, hy2⟩ := C25_step_returns_only_converged_pressures hD hnew hist hok hL hpos.re.le himp heps sch hv dt h
  refine ⟨φ, hφ1, hφ0, ?_⟩
  intro p hp i hi hact
  refine ⟨fun hs => ⟨(hy2 i hi hact).2 hs, solves_none hp hi (fun hE => hE.2.2 hs)⟩, ?_⟩
  intro hW
  set T := |P.eps| * √(S.residual b m (S.guess m)) with hT
  have hT0 : 0 ≤ T := by positivity
  have hres : ∀ k, S.Wet m k → |S.laplacian m p k - S.laplacian m y k| ≤ T := by
    intro k hk
    have e1 : S.source b m k = S.laplacian m p k := by rw [← operator_def hk.eqn]; exact (hp k hk.eqn.1).symm
    have e2 : (S.source b m k - S.laplacian m y k) ^ 2 ≤ S.residual b m y := by
      unfold Setting.residual
      refine le_trans (le_of_eq ?_) (Finset.single_le_sum (f := fun k => (if S.Active k ∧ ¬ S.Surface m.dens k then
        -S.env.rho / (S.env.n0 * S.env.dt) * (S.rate m.x m.u m.dens k + S.compensation b.x b.u (S.reported b.x b.dens) k) - S.laplacian m y k
        else y k) ^ 2) (fun k _ => sq_nonneg _) (Finset.mem_range.mpr hk.eqn.1))
      rw [if_pos hk.eqn.2]
      unfold Setting.source
      rw [if_pos hk.eqn.2]
    rw [← e1, ← Real.sqrt_sq_eq_abs]
    exact le_trans (Real.sqrt_le_sqrt e2) hy1
  have hup : p i + T * φ i ≥ y i := by
    have := comparison hD4 he hA (y := fun k => 1 * p k + T * φ k) (z := y) (fun k hk => by
      rw [laplacian_comb, hφ1 k hk]
      have := abs_le.mp (hres k hk)
      linarith) i hW
    linarith
  have hlo : y i + T * φ i ≥ p i := by
    have := comparison hD4 he hA (y := fun k => 1 * y k + T * φ k) (z := p) (fun k hk => by
      rw [laplacian_comb, hφ1 k hk]
      have := abs_le.mp (hres k hk)
      linarith) i hW
    linarith
  rw [(hy2 i hi hact).1 hW.eqn.2.2]
  refine le_trans (abs_max_sub_max_le_abs _ _ _) ?_
  rw [abs_le]
  constructor <;> linarith

section
variable {S : Setting D} {t : State ℝ D ω} {c : Scene D}

theorem equation_iff (h : Tbl S t) (ha : Agree S t c) (i : ℕ) : HasEquation S.cfg t i ↔ S.Equation c i := by
  rw [hasEquation_iff, h.n]
  unfold Setting.Equation
  constructor
  · rintro ⟨h1, h2⟩; exact ⟨h1, (fixed_iff h ha h1).mp h2⟩
  · rintro ⟨h1, h2⟩; exact ⟨h1, (fixed_iff h ha h1).mpr h2⟩

theorem distinct_of (h : Tbl S t) (ha : Agree S t c) (hs : Separated t) : S.Distinct c := by
  intro i j hi hj hij h1 h2
  rw [← ha.x i hi, ← ha.x j hj]
  exact hs i j (by rw [h.n]; exact hi) (by rw [h.n]; exact hj) hij (by rw [h.ty i hi]; exact h1) (by rw [h.ty j hj]; exact h2)

theorem virtual_of (h : Tbl S t) (ha : Agree S t c) {i : ℕ} (hi : i < S.n) (hd : S.ty i ≠ .disabled) (hs : S.cfg.spp = true)
    (hV : OpenMps.HasVirtual t i) : S.HasVirtual c.x i := by
  obtain ⟨h1, h2⟩ := hV
  refine ⟨hs, ?_, ?_⟩
  · have := density_eq h ha.x hi hd
    unfold State.nearDensity at this
    rw [← this, ← h.env]
    exact h1
  · rw [len_eq]
    have e : (1 / t.env.n0) • ∑ j ∈ t.near i, W (dist (t.ps i).x (t.ps j).x) t.env.re • ((t.ps j).x - (t.ps i).x) = S.offset c.x i := by
      unfold Setting.offset
      rw [near_eq h ha.x hi hd, h.env]
      congr 1
      apply Finset.sum_congr rfl
      intro j hj
      rw [ha.x j (near_lt hj), ha.x i hi, weight_eq, len_sub, dist_comm']
    rw [e] at h2
    exact h2

/-- The hypotheses of C27 in terms of the reference. -/
theorem wet_of (h : Tbl S t) (ha : Agree S t c) (hs : EveryBodyHasSurface S.cfg t) (i : ℕ) (hi : S.Equation c i) : S.Wet c i ∨ S.Lone i := by
  rcases hs i ((equation_iff h ha i).mpr hi) with ⟨h1, h2⟩ | ⟨k, hp, hk, hT⟩
  · right
    refine ⟨h1, ?_⟩
    intro j hj hji hjd
    by_contra hc
    have : j ∈ t.neighbors i := (h.nbr i hi.1 hi.2.1.2 j).mpr ⟨hj, hjd, hji, not_le.mp hc⟩
    rw [h2] at this
    cases this
  · left
    have hEk := (equation_iff h ha k).mp hk
    refine ⟨k, ?_, hi, hEk, ?_⟩
    · refine Relation.ReflTransGen.mono (r := Linked S.cfg t) ?_ i k hp
      rintro a b ⟨p1, p2, p3⟩
      have q1 := (equation_iff h ha a).mp p1
      have q2 := (equation_iff h ha b).mp p2
      refine ⟨q1, q2, mem_nearSolid.mpr ⟨?_, q2.2.1.1⟩⟩
      rw [← near_eq h ha.x q1.1 q1.2.1.2]; exact p3
    · rcases hT with ⟨h1, h2⟩ | ⟨h1, j, h2, h3, h4⟩
      · exact Or.inl (virtual_of h ha hEk.1 hEk.2.1.2 h1 h2)
      · right
        rw [near_eq h ha.x hEk.1 hEk.2.1.2] at h2
        have hj := near_lt h2
        rw [h.ty j hj] at h3
        refine ⟨j, mem_nearSolid.mpr ⟨h2, h3⟩, h1, ?_⟩
        rw [ha.dens j hj, h.env] at h4
        exact h4

end

/-- **C57.**  Under the hypotheses of C27 (at the pressure computation no two enabled particles are at the same place and every body of fluid has a
free surface) the implicit step succeeds, the pressure equation has exactly one solution apart from single drops, and the pressures after the step
are this solution, cut off at zero, up to the tolerance times the initial residual times the response `φ`. -/
theorem C57_implicit_step_computes_the_pressures {P : Params ℝ D ω} {env : Env ℝ D} {w : ω} {s0 s t : State ℝ D ω} {dts : List ℝ}
    (hD : D = 2 ∨ D = 3) (hnew : State.new? env w = some s0) (hist : Hist P s0 dts s) (hok : s0.grid.ClearOK) (hL : 0 < env.neighborLength)
    (hpos : env.Positive) (himp : P.cfg.explicit = false) (heps : P.eps ≠ 0) (sch : Schedule) (hv : sch.Valid s.n) (dt : ℝ)
    (h : s.beforePressure P sch dt = .ok t) (hsep : Separated t) (hsurf : EveryBodyHasSurface P.cfg t) :
    let S := setting P s dt
    let b := scene s
    let m := S.predict b
    ∃ s' p φ, s.forwardTime P sch dt = .ok s' ∧ S.Solves b m p ∧
      (∀ q, S.Solves b m q → ∀ i, i < s.n → ¬ S.Lone i → q i = p i) ∧ S.Response m φ ∧ (∀ i, 0 ≤ φ i) ∧
      ∀ i, i < s.n → S.Active i → ¬ S.Lone i → |(s'.ps i).p - max (p i) 0| ≤ |P.eps| * √(S.residual b m (S.guess m)) * φ i := by
  intro S b m
  obtain ⟨s', hs'⟩ := (C27_pressure_equation_solvable hD hnew hist hok hL hpos sch hv dt h hsep hsurf).1
  obtain ⟨s1, hs1, rfl⟩ := beforePressure_midC hv h
  obtain ⟨-, T, A, -⟩ := step_mid (P := P) hD hnew hist hok hL hpos.re.le sch hv dt hs1
  have hap : S.Distinct m := distinct_of T A hsep
  have hw : ∀ i, S.Equation m i → S.Wet m i ∨ S.Lone i := wet_of T A hsurf
  have he : S.env.Positive := by
    have hc := hist_consts hnew hist
    have e1 : S.env.re = env.re := by change s.env.re = _; rw [hc]
    have e2 : S.env.n0 = env.n0 := by change s.env.n0 = _; rw [hc]
    have e3 : S.env.lambda = env.lambda := by change s.env.lambda = _; rw [hc]
    exact ⟨by rw [e1]; exact hpos.re, by rw [e2]; exact hpos.n0, by rw [e3]; exact hpos.lambda⟩
  obtain ⟨p, hp1, -, hp3⟩ := C57_pressure_equation_determines_pressures (by omega) he hap hw
  obtain ⟨φ, h1, h2, h3⟩ := C57_step_pressures_accurate hD hnew hist hok hL hpos himp heps sch hv dt hs' hap
  refine ⟨s', p, φ, hs', hp1, hp3, h1, h2, ?_⟩
  intro i hi hact hnl
  by_cases hS : S.Surface m.dens i
  · obtain ⟨a, c⟩ := (h3 p hp1 i hi hact).1 hS
    rw [a, c, max_self, sub_zero, abs_zero]
    have := h2 i
    positivity
  · exact (h3 p hp1 i hi hact).2 ((hw i ⟨hi, hact, hS⟩).resolve_right hnl)

/-- All hypotheses of C57 hold for the two fluid particles above a wall particle, with a single drop (`dropState`). -/
example :
    let S := setting dropP dropState (1 / 100)
    let b := scene dropState
    let m := S.predict b
    ∃ s' p φ, dropState.forwardTime dropP (Schedule.serial 4) (1 / 100) = .ok s' ∧ S.Solves b m p ∧ S.Response m φ ∧ S.Wet m 0 ∧ S.Lone 3 ∧
      |(s'.ps 0).p - max (p 0) 0| ≤ 1 / 10 ^ 6 * √(S.residual b m (S.guess m)) * φ 0 := by
  intro S b m
  obtain ⟨t, hb, hsep, hsurf, hE0, hE3, h1, h3⟩ := dropState_solvable (dt := 1 / 100) (by norm_num) (le_refl _)
  have hL : 0 < dropEnv.neighborLength := by rw [dropEnv_vals.2.1]; norm_num
  obtain ⟨s', p, φ, k1, k2, -, k4, k5, k6⟩ := C57_implicit_step_computes_the_pressures (Or.inl rfl) dropNew_eq (dropState_hist dropP) dropNew_ok hL
    dropEnv_positive rfl (by change (1 / 10 ^ 6 : ℝ) ≠ 0; norm_num) _ (Schedule.serial_valid 4) _ hb hsep hsurf
  obtain ⟨s1, hs1, rfl⟩ := beforePressure_midC (Schedule.serial_valid 4) hb
  obtain ⟨-, T, A, -⟩ := step_mid (P := dropP) (Or.inl rfl) dropNew_eq (dropState_hist dropP) dropNew_ok hL dropEnv_positive.re.le _
    (Schedule.serial_valid 4) _ hs1
  have q0 : S.Equation m 0 := (equation_iff T A 0).mp hE0
  have q3 : S.Equation m 3 := (equation_iff T A 3).mp hE3
  have hn0 : ¬ S.Lone 0 := by
    intro hl
    have e : (s1.midC dropP).near 0 = S.near m.x 0 := near_eq T A.x q0.1 q0.2.1.2
    rw [e, near_lone hl] at h1
    cases h1
  have hW0 := (wet_of T A hsurf 0 q0).resolve_right hn0
  have hL3 : S.Lone 3 := by
    refine ⟨rfl, ?_⟩
    intro j hj hji hjd
    by_contra hc
    have : j ∈ (s1.midC dropP).neighbors 3 := (T.nbr 3 q3.1 q3.2.1.2 j).mpr ⟨hj, hjd, hji, not_le.mp hc⟩
    rw [h3] at this
    cases this
  refine ⟨s', p, φ, k1, k2, k4, hW0, hL3, ?_⟩
  have := k6 0 q0.1 q0.2.1 hn0
  have e : |dropP.eps| = 1 / 10 ^ 6 := by change |(1 / 10 ^ 6 : ℝ)| = _; rw [abs_of_pos (by norm_num)]
  rwa [e] at this

end OpenMps
