import Verif.Spec.Rounding
import Verif.Spec.Reference

/-! # The accelerations of a time step, in real numbers

What the stored numbers of a computer in floating-point arithmetic stand for, and the exact accelerations at these numbers. -/

namespace OpenMps

variable {F : Type} [Scalar F] {D : Nat} {ω : Type}

/-- Sign change, absolute value, small integers and `<=` are exact. -/
structure Rounding.Exact (R : Rounding F) : Prop where
  neg : ∀ {x}, R.finite x → R.finite (-x) ∧ R.val (-x) = -R.val x
  abs : ∀ {x}, R.finite x → R.finite (Scalar.abs x) ∧ R.val (Scalar.abs x) = |R.val x|
  int : ∀ k : ℕ, k ≤ 6 → R.finite (Scalar.ofInt (k : Int)) ∧ R.val (Scalar.ofInt (k : Int)) = k
  le : ∀ {x y}, R.finite x → R.finite y → (Scalar.le x y = true ↔ R.val x ≤ R.val y)

/-- Neither underflow nor overflow for sizes between `2^-900` and `2^900` (`double` has `η = 2^-1074` and `Ω` nearly `2^1024`). -/
structure Rounding.Wide (R : Rounding F) : Prop where
  η_le : R.η ≤ 1 / 2 ^ 960
  Ω_ge : 2 ^ 910 ≤ R.Ω

/-- Finite and at most `2^b`. -/
def Rounding.Upto (R : Rounding F) (b : ℕ) (x : F) : Prop := R.finite x ∧ |R.val x| ≤ 2 ^ b

/-- Positive, between `2^-b` and `2^b`. -/
def Rounding.Sized (R : Rounding F) (b : ℕ) (x : F) : Prop := R.finite x ∧ 1 / 2 ^ b ≤ R.val x ∧ R.val x ≤ 2 ^ b

/-- The row of particle `i` in the neighbour table is fit for use: every entry is another enabled particle, at a distance of at least `ℓ` and not
absurdly far away; none occurs twice; all enabled particles within the radius of influence are there. -/
structure Rounding.Row (R : Rounding F) (ℓ : F) (t : State F D ω) (i : ℕ) : Prop where
  nodup : (t.neighbors i).Nodup
  entry : ∀ j ∈ t.neighbors i, j < t.n ∧ j ≠ i ∧ (t.ps j).ty ≠ .disabled
  cover : ∀ j, j < t.n → j ≠ i → (t.ps j).ty ≠ .disabled → R.trueDist (t.ps i).x (t.ps j).x < R.val t.env.re → j ∈ t.neighbors i
  length : (t.neighbors i).length ≤ 2 ^ 20
  this : ∀ a, R.finite ((t.ps i).x a)
  pair : ∀ j ∈ t.neighbors i, (∀ a, R.finite ((t.ps j).x a)) ∧ (∀ a, |R.val ((t.ps i).x a) - R.val ((t.ps j).x a)| ≤ R.Ω) ∧
    (∀ a, |R.val ((t.ps i).x a) - R.val ((t.ps j).x a)| ≤ 2 ^ 22 * R.val ℓ) ∧ R.val ℓ ≤ R.trueDist (t.ps i).x (t.ps j).x

/-- `N` is the set of the other enabled particles closer than `r_e`, except that rounding may decide about those whose distance is `r_e` within 14
significant digits. -/
def Rounding.Within (R : Rounding F) (t : State F D ω) (i : ℕ) (N : Finset ℕ) : Prop :=
  (∀ j ∈ N, j < t.n ∧ j ≠ i ∧ (t.ps j).ty ≠ .disabled ∧ R.trueDist (t.ps i).x (t.ps j).x < R.val t.env.re * (1 + 1 / 2 ^ 45)) ∧
  ∀ j, j < t.n → j ≠ i → (t.ps j).ty ≠ .disabled → R.trueDist (t.ps i).x (t.ps j).x < R.val t.env.re * (1 - 1 / 2 ^ 45) → j ∈ N

/-- Particle `i` has no virtual neighbour: the option SPP is off, or its number density is at least `n_0`. -/
def Rounding.NoVirtual (R : Rounding F) (cfg : Config) (t : State F D ω) (i : ℕ) : Prop :=
  cfg.spp = true → R.finite (t.nNoSpp i) ∧ R.finite t.env.n0 ∧ R.val t.env.n0 ≤ R.val (t.nNoSpp i)

/-- The size of a number: its absolute value, with a minimum of `2^-300` (underflow). -/
noncomputable def sz (v : ℝ) : ℝ := |v| + 1 / 2 ^ 300

/-- The constants are neither absurdly large nor absurdly small. -/
structure Rounding.Plain (R : Rounding F) (e : Env F D) : Prop where
  re : R.Sized 30 e.re
  n0 : R.Sized 30 e.n0
  lambda : R.Sized 60 e.lambda
  rho : R.Sized 30 e.rho
  dt : R.Sized 30 e.dt
  nu : R.Upto 30 e.nu
  nu_nonneg : 0 ≤ R.val e.nu
  g : ∀ a, R.Upto 30 (e.g a)

/-- Coefficient of the Laplacian for the distance `r`. -/
noncomputable def Rounding.laplace (R : Rounding F) (cfg : Config) (e : Env F D) (r : ℝ) : ℝ :=
  if cfg.hl then (5 - D) * R.val e.re / (R.val e.n0 * r ^ 3)
  else 2 * D / (R.val e.lambda * R.val e.n0) * Ref.weight (R.val e.re) r

/-- Its size (the standard weight is only known up to an error relative to `r_e / r + 1`). -/
noncomputable def Rounding.laplaceSize (R : Rounding F) (cfg : Config) (e : Env F D) (r : ℝ) : ℝ :=
  if cfg.hl then R.laplace cfg e r
  else 2 * D / (R.val e.lambda * R.val e.n0) * (Ref.weight (R.val e.re) r + 2)

/-- Viscosity and gravity, the interacting particles being those of `N`. -/
noncomputable def Rounding.trueAcceleration (R : Rounding F) (cfg : Config) (t : State F D ω) (i : ℕ) (N : Finset ℕ) (a : Fin D) : ℝ :=
  R.val t.env.nu * (∑ j ∈ N.filter (fun j => (t.ps j).ty ≠ .dummy),
    R.laplace cfg t.env (R.trueDist (t.ps i).x (t.ps j).x) * (R.val ((t.ps j).u a) - R.val ((t.ps i).u a))) + R.val (t.env.g a)

/-- The sum of the sizes of the contributions. -/
noncomputable def Rounding.accelerationSize (R : Rounding F) (cfg : Config) (t : State F D ω) (i : ℕ) (N : Finset ℕ) (a : Fin D) : ℝ :=
  sz (R.val t.env.nu) * (∑ j ∈ N.filter (fun j => (t.ps j).ty ≠ .dummy),
    R.laplaceSize cfg t.env (R.trueDist (t.ps i).x (t.ps j).x) * sz (R.val ((t.ps j).u a) - R.val ((t.ps i).u a))) +
    sz (R.val (t.env.g a)) + 1 / 2 ^ 300

/-- Change of velocity by the pressure gradient, the interacting particles being those of `N`. -/
noncomputable def Rounding.truePush (R : Rounding F) (t : State F D ω) (i : ℕ) (N : Finset ℕ) (a : Fin D) : ℝ :=
  -(R.val t.env.dt / R.val t.env.rho * (D / R.val t.env.n0)) * ∑ j ∈ N.filter (fun j => (t.ps j).ty ≠ .dummy),
    (R.val (t.ps j).p + R.val (t.ps i).p) / R.trueDist (t.ps i).x (t.ps j).x ^ 2 *
      Ref.weight (R.val t.env.re) (R.trueDist (t.ps i).x (t.ps j).x) * (R.val ((t.ps j).x a) - R.val ((t.ps i).x a))

/-- The sum of the sizes of the contributions. -/
noncomputable def Rounding.pushSize (R : Rounding F) (t : State F D ω) (i : ℕ) (N : Finset ℕ) (a : Fin D) : ℝ :=
  R.val t.env.dt / R.val t.env.rho * (D / R.val t.env.n0) * (∑ j ∈ N.filter (fun j => (t.ps j).ty ≠ .dummy),
    sz (R.val (t.ps j).p + R.val (t.ps i).p) / R.trueDist (t.ps i).x (t.ps j).x ^ 2 *
      (Ref.weight (R.val t.env.re) (R.trueDist (t.ps i).x (t.ps j).x) + 2) * sz (R.val ((t.ps j).x a) - R.val ((t.ps i).x a)) + 1 / 2 ^ 300)

/-- Pressure of the equation of state. -/
noncomputable def Rounding.trueEos (R : Rounding F) (t : State F D ω) (i : ℕ) : ℝ :=
  R.val t.env.c ^ 2 * max (R.val t.env.rho * R.val (t.ps i).n / R.val t.env.n0 - R.val t.env.rho) 0

end OpenMps
