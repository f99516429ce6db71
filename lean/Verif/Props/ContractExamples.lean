import Verif.Props.ContractSearch
import Verif.Props.DoubleExamples

/-! # Examples of contraction -/

set_option exponentiation.threshold 2000

namespace OpenMps

/-- `0.1 * 10 - 1`: zero operation by operation, `2^-54` fused. -/
def fusedExample : Expr := .sub (.mul (.num (dbl (1 / 10))) (.num (dbl 10))) (.num (dbl 1))

example : fusedExample.Eval (dbl 0) ∧ fusedExample.Eval (dbl (1 / 2 ^ 54)) := by
  have e1 : dbl (1 / 10) * dbl 10 - dbl 1 = dbl 0 := by decide +kernel
  have e2 : Double.fma (dbl (1 / 10)) (dbl 10) (-dbl 1) = dbl (1 / 2 ^ 54) := by decide +kernel
  rw [← e1, ← e2]
  exact ⟨.sub (.mul (.num _) (.num _)) (.num _), .mulSub (.num _) (.num _) (.num _)⟩

/-- Two choices for a squared distance, which differ. -/
def contractX : Vec Double 2 := ![dbl (1 / 10), dbl (1 / 3)]
def contractY : Vec Double 2 := ![dbl 1, dbl (6 / 5)]

def contractFused : Double :=
  let d := contractX - contractY
  Double.fma (d 1) (d 1) (Double.fma (d 0) (d 0) 0)

theorem contractFused_eval : (Expr.sqDist contractX contractY).Eval contractFused :=
  .addMul (.sub (.num _) (.num _)) (.sub (.num _) (.num _)) (.addMul (.sub (.num _) (.num _)) (.sub (.num _) (.num _)) (.num _))

example : contractFused ≠ dot (contractX - contractY) (contractX - contractY) := by decide +kernel

theorem contract_upto : ∀ a, (contractX a).Upto 490 ∧ (contractY a).Upto 490 := by
  have h : ∀ a, ((contractX a).isFinite = true ∧ -10 ≤ (contractX a).value ∧ (contractX a).value ≤ 10) ∧
      ((contractY a).isFinite = true ∧ -10 ≤ (contractY a).value ∧ (contractY a).value ≤ 10) := by decide +kernel
  have b : (10 : ℚ) ≤ 2 ^ 490 := le_trans (by norm_num : (10 : ℚ) ≤ 2 ^ 4) (pow_le_pow_right₀ (by norm_num) (by norm_num))
  intro a
  obtain ⟨⟨u1, u2, u3⟩, v1, v2, v3⟩ := h a
  constructor
  · refine Double.upto_of ?_
    generalize (2 : ℚ) ^ 490 = B at b
    exact ⟨u1, by linarith, by linarith⟩
  · refine Double.upto_of ?_
    generalize (2 : ℚ) ^ 490 = B at b
    exact ⟨v1, by linarith, by linarith⟩

/-- Both pass the test of a radius of 2. -/
example : Scalar.lt contractFused (dbl 2 * dbl 2) = true ∧ Scalar.lt (dot (contractX - contractY) (contractX - contractY)) (dbl 2 * dbl 2) = true := by
  have h2 : (dbl 2).val = 2 := by
    unfold Double.val
    rw [show (dbl 2).value = 2 by decide +kernel]
    norm_num
  have hre : (dbl 2).Sized 400 := by
    refine ⟨by decide +kernel, ?_, ?_⟩
    · rw [h2]
      have : (1 : ℝ) / 2 ^ 400 ≤ 1 := by rw [div_le_one (by positivity)]; exact one_le_pow₀ (by norm_num)
      linarith
    · rw [h2]
      exact le_trans (by norm_num : (2 : ℝ) ≤ 2 ^ 1) (pow_le_pow_right₀ (by norm_num) (by norm_num))
  have hd : Double.trueDist contractX contractY ≤ (1 - 1 / 2 ^ 26) * (dbl 2).val := by
    have hq : ((contractX 0).value - (contractY 0).value) ^ 2 + ((contractX 1).value - (contractY 1).value) ^ 2 ≤ 9 / 4 := by decide +kernel
    have hr : ((contractX 0).val - (contractY 0).val) ^ 2 + ((contractX 1).val - (contractY 1).val) ^ 2 ≤ 9 / 4 := by
      unfold Double.val
      have : ((((contractX 0).value - (contractY 0).value) ^ 2 + ((contractX 1).value - (contractY 1).value) ^ 2 : ℚ) : ℝ) ≤ ((9 / 4 : ℚ) : ℝ) := by exact_mod_cast hq
      push_cast at this
      exact this
    have : Double.trueDist contractX contractY ≤ 3 / 2 := by
      unfold Double.trueDist
      rw [Real.sqrt_le_left (by norm_num), Fin.sum_univ_two]
      refine hr.trans (by norm_num)
    rw [h2]
    refine this.trans (by norm_num)
  exact ⟨(C75_interaction_test (by norm_num) hre _ _ (fun a => (contract_upto a).1) (fun a => (contract_upto a).2) contractFused_eval).1 hd,
    (C75_interaction_test (by norm_num) hre _ _ (fun a => (contract_upto a).1) (fun a => (contract_upto a).2) (C75_uncontracted_is_a_choice _ _)).1 hd⟩

/-- Every product of a squared distance fused. -/
def allFused (x y : Vec Double 2) : Double :=
  let d := x - y
  Double.fma (d 1) (d 1) (Double.fma (d 0) (d 0) 0)

theorem allFused_eval (x y : Vec Double 2) : (Expr.sqDist x y).Eval (allFused x y) :=
  .addMul (.sub (.num _) (.num _)) (.sub (.num _) (.num _)) (.addMul (.sub (.num _) (.num _)) (.sub (.num _) (.num _)) (.num _))

/-- The hypotheses of the theorem on the search hold of a computer with a history, and with all products fused particle 1 is in the row of particle 0. -/
example : ∃ s1 l, (dblState.start (dbl (1 / 1000))).searchNeighbor (Schedule.serial 3 0) = .ok s1 ∧ s1.grid.visit (s1.ps 0).x = .done l ∧
    1 ∈ l.filter (fun j => decide (j ≠ 0) && decide ((s1.ps j).ty ≠ .disabled) &&
      Scalar.lt (Scalar.sqrt (allFused (s1.ps 0).x (s1.ps j).x)) s1.env.neighborLength) := by
  obtain ⟨s1, h1, h2, -, h4⟩ := dblState_search
  obtain ⟨l, row, r1, r2, -, r4, -⟩ := C75_contracted_search_loses_no_neighbour (by decide) dblEnv_eq dblCourant (Double.sized_of (by decide +kernel))
    (Double.sized_of (by decide +kernel)) dblNew_eq dblState_hist dblNew_ok (by decide +kernel)
    (fun a => Double.upto_of (by revert a; decide +kernel)) (fun i hi _ a => (Double.upto_of (dbl_bounds i (dblState_n ▸ hi) a).1).mono (by norm_num))
    (Schedule.serial 3) dblState_valid _ h1 0 (by decide +kernel) (by rw [h2]; decide) (fun j => Scalar.sqrt (allFused (s1.ps 0).x (s1.ps j).x))
    (fun j => .sqrt (allFused_eval _ _))
  refine ⟨s1, l, h1, r1, ?_⟩
  rw [← r2]
  exact r4 1 (by decide +kernel) (by decide) (by rw [h4]; decide) (Double.trueDist_le (by decide +kernel) (by decide +kernel))

end OpenMps
