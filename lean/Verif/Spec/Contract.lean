import Verif.Model.Contract
import Verif.Spec.Double

/-! # Exact values and error bounds of expressions -/

namespace OpenMps

/-- The exact value. -/
noncomputable def Expr.exact : Expr → ℝ
  | num x => x.val
  | neg a => -a.exact
  | add a b => a.exact + b.exact
  | sub a b => a.exact - b.exact
  | mul a b => a.exact * b.exact
  | div a b => a.exact / b.exact
  | sqrt a => Real.sqrt a.exact

/-- The usual error bound of the evaluation operation by operation: the errors of the operands, propagated, and one rounding. -/
noncomputable def Expr.err : Expr → ℝ
  | num _ => 0
  | neg a => a.err
  | add a b => a.err + b.err + 1 / 2 ^ 53 * (|a.exact + b.exact| + a.err + b.err)
  | sub a b => a.err + b.err + 1 / 2 ^ 53 * (|a.exact - b.exact| + a.err + b.err)
  | mul a b => |a.exact| * b.err + a.err * |b.exact| + a.err * b.err + 1 / 2 ^ 53 * ((|a.exact| + a.err) * (|b.exact| + b.err)) + 1 / 2 ^ 1075
  | div a b => (a.err + |a.exact / b.exact| * b.err) / (|b.exact| - b.err) + 1 / 2 ^ 53 * ((|a.exact| + a.err) / (|b.exact| - b.err)) + 1 / 2 ^ 1075
  | sqrt a => a.err / Real.sqrt a.exact + 1 / 2 ^ 53 * (Real.sqrt a.exact + a.err / Real.sqrt a.exact)

/-- Finite leaves, nothing overflows, divisors and radicands are away from zero. -/
def Expr.Safe : Expr → Prop
  | num x => x.isFinite = true
  | neg a => a.Safe
  | add a b => a.Safe ∧ b.Safe ∧ |a.exact + b.exact| + a.err + b.err ≤ 2 ^ 1023
  | sub a b => a.Safe ∧ b.Safe ∧ |a.exact - b.exact| + a.err + b.err ≤ 2 ^ 1023
  | mul a b => a.Safe ∧ b.Safe ∧ (|a.exact| + a.err) * (|b.exact| + b.err) ≤ 2 ^ 1023
  | div a b => a.Safe ∧ b.Safe ∧ b.err < |b.exact| ∧ (|a.exact| + a.err) / (|b.exact| - b.err) ≤ 2 ^ 1023
  | sqrt a => a.Safe ∧ a.err < a.exact

end OpenMps
