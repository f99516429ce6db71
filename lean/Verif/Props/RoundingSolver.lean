import Verif.Lemmas.RoundingSolverRun
import Verif.Lemmas.Frame

/-! # C68: rounding errors do not spoil the pressure solver

The solver never recomputes `b - A x`: it updates a residual in every round and stops when that one is small.  In rounded arithmetic the updated
residual drifts away from the true one.  The theorems bound the drift, and with it the true residual of the pressures the solver accepts. -/

namespace OpenMps

variable {F : Type} [Scalar F] {D : Nat} {ω : Type}

/-- **C68.**  In every round the residual the solver works with differs from the true residual of its approximate solution by at most `k + 2` times the
rounding error of one round (`Spec/RoundingSolver.lean`). -/
theorem C68_watched_residual_is_nearly_the_true_one (R : Rounding F) (hR : R.DoubleLike) (hP : R.Propagates) {n m : ℕ} {A : Sparse F} {b x : ℕ → F} {eps : F}
    {X Λ : ℝ} (hn : n ≤ 2 ^ 20) (hm : m ≤ 2 ^ 20) (hrow : ∀ i < n, rowLength n A i ≤ m) (hΛ : 0 ≤ Λ) (hC : R.CalmRun n A b x eps X Λ) (k : ℕ) (hk : k ≤ n)
    (i : ℕ) (hi : i < n) :
    |R.val ((cgIterate n A b x eps k).r i) - R.trueResidual n A b (cgIterate n A b x eps k).x i| ≤ (k + 2) * R.drift n m A b X Λ i := by
  have hX : 0 ≤ X := (abs_nonneg _).trans (hC.x_le 0 (Nat.zero_le _) i hi)
  refine (R.gap_le hR hP hm hrow hC hn hΛ k hk hi).trans (mul_le_mul_of_nonneg_right ?_ (R.drift_nonneg hX hΛ i))
  have hk0 : (0 : ℝ) ≤ k := Nat.cast_nonneg k
  have h1 : (k : ℝ) ≤ 2 ^ 20 := by exact_mod_cast hk.trans hn
  have h2 : ((k : ℝ) + 1) * (k + 1) ≤ (2 ^ 20 + 1) * (2 ^ 20 + 1) := mul_le_mul (by linarith) (by linarith) (by linarith) (by norm_num)
  have h3 : e50 * (((k : ℝ) + 1) * (k + 1)) ≤ 1 / 4 := by
    refine (mul_le_mul_of_nonneg_left h2 e50_pos.le).trans ?_
    rw [e50_val]; norm_num
  nlinarith

/-- **C68.**  If the solver returns normally, the true residual of the solution is at most `eps` times the true residual of the initial guess, up to
`n + 4` rounding errors of one round and up to underflow. -/
theorem C68_returned_solution_is_accurate (R : Rounding F) (hR : R.DoubleLike) (hO : R.Ordinary) (hP : R.Propagates) {n m : ℕ} {A : Sparse F} {b x : ℕ → F}
    {eps : F} {X Λ : ℝ} (hn : n ≤ 2 ^ 20) (hm : m ≤ 2 ^ 20) (hrow : ∀ i < n, rowLength n A i ≤ m) (hΛ : 0 ≤ Λ) (hC : R.CalmRun n A b x eps X Λ)
    (he0 : R.val eps ≠ 0) (he : |R.val eps| ≤ 1) {y : ℕ → F} (h : cgSolve n A b x eps = (y, true)) :
    vecNorm n (R.trueResidual n A b y) ≤
      (1 + 1 / 2 ^ 26) * |R.val eps| * vecNorm n (R.trueResidual n A b x) + (n + 4) * vecNorm n (R.drift n m A b X Λ) + √(5 * (n + 1) * R.η) / |R.val eps| := by
  have h1 : (cgIterate n A b x eps n).x = y := congrArg Prod.fst h
  have h2 : (cgIterate n A b x eps n).conv = true := congrArg Prod.snd h
  rw [← h1]
  exact R.cg_accurate hR hO hP hm hrow hC hn hΛ he0 he h2

theorem midC_ppe (P : Params F D ω) (s : State F D ω) : (s.midC P).ppe = s.ppe := by
  unfold State.midC State.saveX; split <;> rfl

/-- **C68.**  The whole step in the implicit mode.  If it returns, the object holds the pressure equation and its solution; for the initial guess `x₀`
made of the old pressures, the true residual of the solution is bounded as above, and the pressures of the particles are that solution, with zeros. -/
theorem C68_step_pressures_are_accurate (R : Rounding F) (hR : R.DoubleLike) (hO : R.Ordinary) (hP : R.Propagates) {P : Params F D ω} {s s' : State F D ω}
    (himp : P.cfg.explicit = false) (sch : Schedule) (hv : sch.Valid s.n) (dt : F) (h : s.forwardTime P sch dt = .ok s') (hn : s.n ≤ 2 ^ 20)
    (he0 : R.val P.eps ≠ 0) (he : |R.val P.eps| ≤ 1) :
    s'.ppe.size = s.n ∧
    (∀ i, i < s.n → (s'.ps i).ty.active → (s'.ps i).p = s'.ppe.x i ∨ (s'.ps i).p = 0) ∧
    ∃ x₀ : ℕ → F, (∀ i, i < s.n → x₀ i = (s.ps i).p ∨ x₀ i = 0) ∧ (∀ i, s.n ≤ i → x₀ i = s.ppe.x i) ∧
      ∀ (m : ℕ) (X Λ : ℝ), m ≤ 2 ^ 20 → (∀ i < s.n, rowLength s.n s'.ppe.A i ≤ m) → 0 ≤ Λ → R.CalmRun s.n s'.ppe.A s'.ppe.b x₀ P.eps X Λ →
        vecNorm s.n (R.trueResidual s.n s'.ppe.A s'.ppe.b s'.ppe.x) ≤
          (1 + 1 / 2 ^ 26) * |R.val P.eps| * vecNorm s.n (R.trueResidual s.n s'.ppe.A s'.ppe.b x₀) +
          (s.n + 4) * vecNorm s.n (R.drift s.n m s'.ppe.A s'.ppe.b X Λ) + √(5 * (s.n + 1) * R.η) / |R.val P.eps| := by
  obtain ⟨s1, hs, ha⟩ := forwardTime_ok hv h
  obtain ⟨s2, hp, rfl⟩ := afterSearch_ok ha
  have hn1 : s1.n = s.n := searchNeighbor_n (s.start dt) s1 _ (hv 0) hs
  have hp1 : (∀ i, (s1.ps i).p = (s.ps i).p) ∧ s1.ppe = s.ppe := by
    obtain ⟨g0, g, nb, -, -, rfl, -, -⟩ := searchNeighbor_ok_frame (by exact hv 0) hs
    refine ⟨?_, rfl⟩
    intro i
    exact (marked_ps ({ s.start dt with grid := g0 } : State F D ω) (List.range (s.start dt).n) g i).2.2.1
  rcases pressureC_ok hp with ⟨hc, -⟩ | ⟨-, s3, h3, rfl⟩
  · rw [himp] at hc; cases hc
  obtain ⟨rfl, hconv⟩ := solvePpe_ok h3
  set t := s1.midC P with ht
  have htn : t.n = s.n := (midC_n P s1).trans hn1
  set y := (cgSolve (t.ppeC P.cfg).ppe.size (t.ppeC P.cfg).ppe.A (t.ppeC P.cfg).ppe.b (t.ppeC P.cfg).ppe.x P.eps).1 with hy
  set q : State F D ω := { t.ppeC P.cfg with ppe := { (t.ppeC P.cfg).ppe with x := y } } with hq
  have eppe : (((q.presC (State.presCompute P.cfg)).gradC P.cfg).dsC P.cfg).ppe = q.ppe := by
    unfold State.dsC; split <;> rfl
  rw [eppe]
  refine ⟨htn, ?_, (t.ppeC P.cfg).ppe.x, ?_, ?_, ?_⟩
  · intro i hi hact
    rw [dsC_ty, gradC_ty] at hact
    rw [dsC_p, gradC_p]
    have e : (q.presC (State.presCompute P.cfg)).ps i = { q.ps i with p := (q.presCompute P.cfg i).getD (q.ps i).p } := by
      change (if i < q.n then _ else _) = _
      rw [if_pos (by change i < t.n; omega)]
    rw [e] at hact ⊢
    have hact : (q.ps i).ty.active := hact
    change (q.presCompute P.cfg i).getD (q.ps i).p = q.ppe.x i ∨ (q.presCompute P.cfg i).getD (q.ps i).p = 0
    unfold State.presCompute
    rw [if_pos hact]
    simp only [Option.getD_some]
    split
    · right; rfl
    · left; rfl
  · intro i hi
    change (if i < t.n then (t.rhsCompute P.cfg i).2 else t.ppe.x i) = _ ∨ (if i < t.n then (t.rhsCompute P.cfg i).2 else t.ppe.x i) = _
    rw [if_pos (by omega)]
    unfold State.rhsCompute
    split
    · right; rfl
    · left
      change (t.ps i).p = _
      rw [ht, midC_p, hp1.1]
  · intro i hi
    change (if i < t.n then (t.rhsCompute P.cfg i).2 else t.ppe.x i) = _
    rw [if_neg (by omega), ht, midC_ppe, hp1.2]
  · intro m X Λ hm hrow hΛ hC
    have hsz : (t.ppeC P.cfg).ppe.size = s.n := htn
    rw [hsz] at hconv hy
    refine C68_returned_solution_is_accurate R hR hO hP hn hm hrow hΛ hC he0 he (y := y) ?_
    rw [hy]
    exact Prod.ext rfl hconv

end OpenMps
