import Verif.Spec.Reference

/-! # The whole time step as one function

Together with `Spec/Reference.lean`: the step as a function from scenes to scenes, with the conjugate gradient method of the textbook, without
matrix, grid, neighbour lists or loops over particles. -/

namespace OpenMps.Ref

variable {D : Nat}

/-- Scalar product of the first `n` entries. -/
noncomputable def inner (n : ℕ) (v w : ℕ → ℝ) : ℝ := ∑ i ∈ Finset.range n, v i * w i

/-- Conjugate gradients with at most `k` iterations: `y` is the current solution, `r` its residual, `d` the direction. -/
noncomputable def conjugate (n : ℕ) (L : (ℕ → ℝ) → ℕ → ℝ) (tol : ℝ) : ℕ → (ℕ → ℝ) → (ℕ → ℝ) → (ℕ → ℝ) → Option (ℕ → ℝ)
  | 0, _, _, _ => none
  | k + 1, y, r, d =>
    let alpha := inner n r r / inner n d (L d)
    let y' := y + alpha • d
    let r' := r - alpha • L d
    if inner n r' r' < tol then some y'
    else conjugate n L tol k y' r' (r' + (inner n r' r' / inner n r r) • d)

/-- Solution of `L y = b` with the relative tolerance `eps`, from the guess `y`, in at most `n` iterations; none if it is not reached. -/
noncomputable def solve (n : ℕ) (L : (ℕ → ℝ) → ℕ → ℝ) (b y : ℕ → ℝ) (eps : ℝ) : Option (ℕ → ℝ) :=
  let r := b - L y
  let tol := inner n r r * eps ^ 2
  if tol = 0 then some y else conjugate n L tol n y r r

namespace Setting

variable (S : Setting D)

open Classical in
/-- Left-hand side of the pressure equation; the pressure itself where there is no equation. -/
noncomputable def operator (s : Scene D) (y : ℕ → ℝ) (i : ℕ) : ℝ :=
  if S.Active i ∧ ¬ S.Surface s.dens i then S.laplacian s y i else y i

open Classical in
/-- Right-hand side; `b` is the scene at the beginning of the step, `s` that of the first stage. -/
noncomputable def source (b s : Scene D) (i : ℕ) : ℝ :=
  if S.Active i ∧ ¬ S.Surface s.dens i then
    -S.env.rho / (S.env.n0 * S.env.dt) * (S.rate s.x s.u s.dens i + S.compensation b.x b.u (S.reported b.x b.dens) i)
  else 0

open Classical in
/-- The pressures; none if the solver fails. -/
noncomputable def pressure (eps : ℝ) (b s : Scene D) : Option (ℕ → ℝ) :=
  if S.cfg.explicit then some (S.eos s.dens)
  else (solve S.n (S.operator s) (S.source b s) (S.guess s) eps).map
    (fun y i => if S.Active i then (if S.Surface s.dens i then 0 else max (y i) 0) else s.p i)

/-- The step; none if the solver fails. -/
noncomputable def step (eps : ℝ) (b : Scene D) : Option (Scene D) :=
  (S.pressure eps b (S.predict b)).map (fun p => S.finish { S.predict b with p := p })

end Setting

variable {ω : Type}

open Classical in
/-- The enabled particles in the cell `c` of the grid: the cube of side `NeighborLength` with the corner `MinX + c NeighborLength`. -/
noncomputable def cell (s : State ℝ D ω) (c : Fin D → ℤ) : Finset ℕ :=
  (Finset.range s.n).filter (fun i => (s.ps i).ty ≠ .disabled ∧ ∀ a,
    s.env.minX a + c a * s.env.neighborLength ≤ (s.ps i).x a ∧ (s.ps i).x a < s.env.minX a + (c a + 1) * s.env.neighborLength)

/-- Some cell of the grid holds more enabled particles than `(ceil(NeighborLength / L_0) + 1)^DIM`. -/
def Crowded (s : State ℝ D ω) : Prop :=
  ∃ c : Fin D → ℤ, (∀ a, 0 ≤ c a ∧ c a < ⌈(s.env.maxX a - s.env.minX a) / s.env.neighborLength⌉ + 2) ∧
    ((⌈s.env.neighborLength / s.env.l0⌉ + 1) ^ D).toNat < (cell s c).card

end OpenMps.Ref
