import Verif.Model.Computer
import Verif.Model.Instances
import Mathlib.Tactic.Ring
import Mathlib.Tactic.Linarith
import Mathlib.Tactic.Positivity
import Mathlib.Tactic.FieldSimp
import Mathlib.Algebra.BigOperators.Fin
import Mathlib.Analysis.InnerProductSpace.PiL2

/-! # The operations of the model over the reals -/

namespace OpenMps

variable {D : Nat} {ω : Type}

theorem lt_real (x y : ℝ) : Scalar.lt x y = decide (x < y) := rfl
theorem le_real (x y : ℝ) : Scalar.le x y = decide (x ≤ y) := rfl
theorem eq_real (x y : ℝ) : Scalar.eq x y = decide (x = y) := rfl
theorem sqrt_real (x : ℝ) : Scalar.sqrt x = Real.sqrt x := rfl
theorem abs_real (x : ℝ) : Scalar.abs x = |x| := rfl
theorem ofInt_real (k : Int) : (Scalar.ofInt k : ℝ) = (k : ℝ) := rfl
theorem lt_real_iff {x y : ℝ} : Scalar.lt x y = true ↔ x < y := by simp [lt_real]

theorem foldl_add_sum {α : Type} (f : α → ℝ) (l : List α) (z : ℝ) :
    l.foldl (fun s a => s + f a) z = z + (l.map f).sum := by
  induction l generalizing z with
  | nil => simp
  | cons a l ih => simp only [List.foldl_cons, List.map_cons, List.sum_cons]; rw [ih]; ring

theorem finRange_sum (f : Fin D → ℝ) : ((List.finRange D).map f).sum = ∑ a, f a := by
  rw [← List.ofFn_eq_map, List.sum_ofFn]

theorem dot_real (v w : Vec ℝ D) : dot v w = ∑ a, v a * w a := by
  unfold dot
  rw [foldl_add_sum (fun a => v a * w a), finRange_sum]
  exact zero_add _

theorem dot_comm (v w : Vec ℝ D) : dot v w = dot w v := by
  rw [dot_real, dot_real]; exact Finset.sum_congr rfl (fun a _ => mul_comm _ _)

theorem dot_self_nonneg (v : Vec ℝ D) : 0 ≤ dot v v := by
  rw [dot_real]; exact Finset.sum_nonneg (fun a _ => mul_self_nonneg _)

theorem dot_self_eq_zero {v : Vec ℝ D} : dot v v = 0 ↔ v = 0 := by
  rw [dot_real]
  constructor
  · intro h
    rw [Finset.sum_eq_zero_iff_of_nonneg (fun a _ => mul_self_nonneg _)] at h
    funext a
    simpa using h a (Finset.mem_univ a)
  · intro h; rw [h]; exact Finset.sum_eq_zero (fun a _ => by simp)

theorem dot_add_left (u v w : Vec ℝ D) : dot (u + v) w = dot u w + dot v w := by
  simp only [dot_real, Pi.add_apply, add_mul, Finset.sum_add_distrib]

theorem dot_sub_left (u v w : Vec ℝ D) : dot (u - v) w = dot u w - dot v w := by
  simp only [dot_real, Pi.sub_apply, sub_mul, Finset.sum_sub_distrib]

theorem dot_smul_left (c : ℝ) (v w : Vec ℝ D) : dot (smul c v) w = c * dot v w := by
  simp only [dot_real, smul, Finset.mul_sum, mul_assoc]

theorem dot_neg_neg (v : Vec ℝ D) : dot (-v) (-v) = dot v v := by
  simp only [dot_real]
  exact Finset.sum_congr rfl (fun a _ => by simp)

theorem dot_sub_comm (x y : Vec ℝ D) : dot (x - y) (x - y) = dot (y - x) (y - x) := by
  rw [← dot_neg_neg, neg_sub]

theorem norm2_real (v : Vec ℝ D) : norm2 v = Real.sqrt (dot v v) := by
  unfold norm2
  rw [sqrt_real, foldl_add_sum (fun a => Scalar.abs (v a) * Scalar.abs (v a)), finRange_sum, dot_real]
  congr 1
  rw [zero_add]
  exact Finset.sum_congr rfl (fun a _ => abs_mul_abs_self (v a))

theorem dist_def (x y : Vec ℝ D) : dist x y = Real.sqrt (dot (x - y) (x - y)) := rfl

theorem dist_eq_euclidean (x y : Vec ℝ D) :
    dist x y = Dist.dist (WithLp.toLp 2 x : EuclideanSpace ℝ (Fin D)) (WithLp.toLp 2 y) := by
  rw [EuclideanSpace.dist_eq, dist_def, dot_real]
  congr 1
  apply Finset.sum_congr rfl
  intro a _
  rw [Real.dist_eq, sq_abs]
  simp only [Pi.sub_apply]
  exact (sq _).symm

theorem dist_nonneg' (x y : Vec ℝ D) : 0 ≤ dist x y := Real.sqrt_nonneg _

theorem dist_comm' (x y : Vec ℝ D) : dist x y = dist y x := by
  rw [dist_def, dist_def, dot_sub_comm]

theorem dist_triangle' (x y z : Vec ℝ D) : dist x z ≤ dist x y + dist y z := by
  rw [dist_eq_euclidean, dist_eq_euclidean, dist_eq_euclidean]
  exact dist_triangle _ _ _

theorem dist_eq_zero' {x y : Vec ℝ D} : dist x y = 0 ↔ x = y := by
  rw [dist_def, Real.sqrt_eq_zero (dot_self_nonneg _), dot_self_eq_zero, sub_eq_zero]

theorem dist_pos' {x y : Vec ℝ D} (h : x ≠ y) : 0 < dist x y :=
  lt_of_le_of_ne (dist_nonneg' x y) (fun hh => h (dist_eq_zero'.mp hh.symm))

theorem norm2_sub (x y : Vec ℝ D) : norm2 (x - y) = dist x y := by rw [norm2_real, dist_def]

theorem abs_sub_le_dist (x y : Vec ℝ D) (a : Fin D) : |x a - y a| ≤ dist x y := by
  rw [dist_def, ← Real.sqrt_sq_eq_abs, dot_real]
  apply Real.sqrt_le_sqrt
  have := Finset.single_le_sum (f := fun b => (x - y) b * (x - y) b) (fun b _ => mul_self_nonneg _) (Finset.mem_univ a)
  calc (x a - y a) ^ 2 = (x - y) a * (x - y) a := by rw [sq]; rfl
    _ ≤ _ := this

theorem dist_sq (x y : Vec ℝ D) : dist x y * dist x y = dot (x - y) (x - y) := by
  rw [dist_def]; exact Real.mul_self_sqrt (dot_self_nonneg _)

/-- The test `r2 < r_e^2` of the interaction loop. -/
theorem lt_sq_iff {x y : Vec ℝ D} {re : ℝ} (hre : 0 ≤ re) :
    dot (x - y) (x - y) < re * re ↔ dist x y < re := by
  rw [← dist_sq]
  constructor
  · intro h
    by_contra hc
    push Not at hc
    have := mul_le_mul hc hc hre (dist_nonneg' x y)
    linarith
  · intro h
    exact mul_self_lt_mul_self (dist_nonneg' x y) h

theorem block_real (g : Grid ℝ D) (x : Vec ℝ D) :
    g.block? x = some (fun a => ⌊(x a - g.origin a) / g.blockLength⌋) := by
  unfold Grid.block? allSome
  simp [Scalar.floorIdx]

theorem mkGrid_real (L l0 : ℝ) (minX maxX : Vec ℝ D) :
    Grid.mk? L l0 minX maxX = some
      { blockLength := L, origin := minX, size := fun a => ⌈(maxX a - minX a) / L⌉ + 2
        cap := ((⌈L / l0⌉ + 1) ^ D).toNat, count := fun _ => 0, slot := fun _ _ => 0 } := by
  unfold Grid.mk? allSome
  simp [Scalar.ceilIdx]

theorem W_real (r re : ℝ) : W r re = if 0 < r ∧ r < re then re / r - 1 else 0 := by
  unfold W
  simp only [lt_real, Bool.and_eq_true, decide_eq_true_eq]

theorem W_nonneg (r re : ℝ) : 0 ≤ W r re := by
  rw [W_real]
  split
  · rename_i h
    have : 1 ≤ re / r := by rw [le_div_iff₀ h.1]; linarith [h.2]
    linarith
  · exact le_refl _

theorem W_pos {r re : ℝ} (h0 : 0 < r) (h1 : r < re) : 0 < W r re := by
  rw [W_real, if_pos ⟨h0, h1⟩]
  have : 1 < re / r := by rw [lt_div_iff₀ h0]; linarith
  linarith

end OpenMps
