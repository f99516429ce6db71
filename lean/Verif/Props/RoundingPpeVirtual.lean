import Verif.Lemmas.RoundingPpeVirtual
import Verif.Props.RoundingPpeRun

/-! # C74 at a free surface -/

set_option linter.unusedSectionVars false
set_option exponentiation.threshold 1000

namespace OpenMps

variable {F : Type} [Scalar F] {D : Nat} {ω : Type}

/-- **C74**, the equation at a free surface (option SPP, the default).  Whatever the number density of a fluid particle: its equation has coefficients for
exactly the interacting real particles that are neither dummies nor on the surface, as in the interior; the diagonal is minus the sum of the coefficients of
all interacting particles except dummies and of the virtual neighbour `v`, if the particle has one, which lies at the distance `r_e / (n_0 - n + 1)`; there
is one if the density is below `n_0` and the centre of gravity of the neighbours is not the particle's position. -/
theorem C74_pressure_equation_at_a_free_surface (R : Rounding F) (hR : R.DoubleLike) (hW : R.Wide) (hE : R.Exact) (hD : D ≤ 3) (hD0 : 0 < D) {ℓ : F}
    (cfg : Config) (t : State F D ω) (hl : R.Lengths ℓ t.env.re) (hℓ : 1 / 2 ^ 30 ≤ R.val ℓ) (hP : R.Plain t.env) (i : ℕ) (hi : i < t.n)
    (hf : t.fixedRow cfg i = false) (h : R.Row ℓ t i) (hv : cfg.spp = true → R.Surroundings t i) (hn : R.Upto 60 (t.ps i).n)
    (he : cfg.ecs = true → R.Upto 60 (t.ecs i)) (hxi : ∀ a, R.Upto 60 ((t.ps i).x a) ∧ R.Upto 60 ((t.ps i).u a))
    (hxj : ∀ j ∈ t.neighbors i, ∀ a, R.Upto 60 ((t.ps j).x a) ∧ R.Upto 60 ((t.ps j).u a))
    (schB schA : List Ev) (hB : ValidSched t.n schB) (hA : ValidSched t.n schA) :
    ∃ N v, R.Within t i N ∧ R.Beyond cfg t i N v ∧
      (∀ j, j ≠ i → (j ∈ N ∧ (t.ps j).ty ≠ .dummy ∧ t.isSurface cfg (t.ps j).n = false →
        ∃ w, (t.setPpe cfg schB schA).ppe.A i j = some w ∧ R.finite w ∧
          |R.val w - R.laplace cfg t.env (R.trueDist (t.ps i).x (t.ps j).x)| ≤
            150 / 2 ^ 50 * R.laplaceSize cfg t.env (R.trueDist (t.ps i).x (t.ps j).x)) ∧
        (¬ (j ∈ N ∧ (t.ps j).ty ≠ .dummy ∧ t.isSurface cfg (t.ps j).n = false) → (t.setPpe cfg schB schA).ppe.A i j = none)) ∧
      (∃ w, (t.setPpe cfg schB schA).ppe.A i i = some w ∧ R.finite w ∧
        |R.val w - -(∑ j ∈ N.filter (fun j => (t.ps j).ty ≠ .dummy), R.laplace cfg t.env (R.trueDist (t.ps i).x (t.ps j).x) +
            R.beyond cfg t.env v)| ≤
          (2 * (t.neighbors i).length + 152) / 2 ^ 50 *
            (∑ j ∈ N.filter (fun j => (t.ps j).ty ≠ .dummy), R.laplaceSize cfg t.env (R.trueDist (t.ps i).x (t.ps j).x) + 1 / 2 ^ 300 +
              R.beyondSize cfg t.env v)) ∧
      R.finite ((t.setPpe cfg schB schA).ppe.b i) ∧
      |R.val ((t.setPpe cfg schB schA).ppe.b i) - R.surfaceSource cfg t i N| ≤
        (2 * (t.neighbors i).length + 200) / 2 ^ 50 * R.sourceSize cfg t i N := by
  obtain ⟨r1, r2⟩ := setPpe_row cfg t hB hA hi
  obtain ⟨e1, e2, e3⟩ := t.matCompute_entries cfg i h.nodup hf
  obtain ⟨v, hv1, -, hd⟩ := h.diagonal_surface hR hW hE hD hD0 hl hℓ hP cfg hv
  refine ⟨t.taken i, v, h.within hR hD hl, hv1, ?_, ?_, ?_⟩
  · intro j hji
    constructor
    · rintro ⟨h1, h2, h3⟩
      rw [r1, e1 j h1 h2 h3]
      obtain ⟨q1, q2⟩ := t.mem_taken.mp h1
      obtain ⟨f, g⟩ := (h.coef hR hW hE hD hD0 hl hℓ hP cfg q1 q2).result
      exact ⟨_, rfl, f, by push_cast at g; exact g⟩
    · intro h1
      rw [r1]
      exact e2 j hji h1
  · rw [r1, e3]
    obtain ⟨f, g⟩ := hd.result
    refine ⟨_, rfl, f, ?_⟩
    push_cast at g
    rwa [add_comm (152 : ℝ), ← neg_add] at g
  · rw [r2]
    obtain ⟨f, g⟩ := (h.source_surface hR hW hE hD hD0 hl hℓ hP hv hn he hxi hxj hf).result
    refine ⟨f, ?_⟩
    push_cast at g
    rwa [add_comm (200 : ℝ)] at g

/-- What any pressures leave of the exact equation, at a free surface. -/
theorem Rounding.surface_solutions {R : Rounding F} (hR : R.DoubleLike) (hW : R.Wide) (hE : R.Exact) (hD : D ≤ 3) (hD0 : 0 < D) {ℓ : F}
    (cfg : Config) (t : State F D ω) (hl : R.Lengths ℓ t.env.re) (hℓ : 1 / 2 ^ 30 ≤ R.val ℓ) (hP : R.Plain t.env) (i : ℕ) (hi : i < t.n)
    (hf : t.fixedRow cfg i = false) (h : R.Row ℓ t i) (hv : cfg.spp = true → R.Surroundings t i) (hn : R.Upto 60 (t.ps i).n)
    (he : cfg.ecs = true → R.Upto 60 (t.ecs i)) (hxi : ∀ a, R.Upto 60 ((t.ps i).x a) ∧ R.Upto 60 ((t.ps i).u a))
    (hxj : ∀ j ∈ t.neighbors i, ∀ a, R.Upto 60 ((t.ps j).x a) ∧ R.Upto 60 ((t.ps j).u a))
    (schB schA : List Ev) (hB : ValidSched t.n schB) (hA : ValidSched t.n schA) :
    ∃ N v, R.Within t i N ∧ R.Beyond cfg t i N v ∧ ∀ y : ℕ → F,
      |R.surfaceSource cfg t i N - R.surfaceLaplacian cfg t i N v (fun j => R.val (y j))| ≤
        |R.trueResidual t.n (t.setPpe cfg schB schA).ppe.A (t.setPpe cfg schB schA).ppe.b y i| +
        (2 * (t.neighbors i).length + 200) / 2 ^ 50 *
          (R.surfaceLaplacianSize cfg t i N v (fun j => R.val (y j)) + R.sourceSize cfg t i N) := by
  obtain ⟨v, hv1, -, hd⟩ := h.diagonal_surface hR hW hE hD hD0 hl hℓ hP cfg hv
  exact ⟨t.taken i, v, h.within hR hD hl, hv1, fun y => Rounding.solutions hR hW hE hD hD0 cfg t hl hℓ hP i hi hf h (K := 152) (by norm_num) hd
    (h.source_surface hR hW hE hD hD0 hl hℓ hP hv hn he hxi hxj hf) schB schA hB hA y⟩

/-- **C74**, at a free surface in a step of a running computer with the implicit method (option SPP, the default, or not).  As
`C74_pressures_of_a_step_solve_the_poisson_equation`, but without any condition on the density of the particle: where it is below `n_0`, the equation contains
the virtual neighbour `v` with pressure zero at the distance `r_e / (n_0 - n + 1)`, where the stored density `n` is the exact one up to rounding. -/
theorem C74_pressures_of_a_step_at_a_free_surface (R : Rounding F) (hR : R.DoubleLike) (hW : R.Wide) (hE : R.Exact) (hO : R.Ordinary)
    (hPr : R.Propagates) (hD : D ≤ 3) (hD0 : 0 < D) {ℓ : F}
    {P : Params F D ω} {env : Env F D} {w : ω} {s0 s t s' : State F D ω} {dts : List F}
    (hl : R.Lengths ℓ env.re) (hℓ : 1 / 2 ^ 30 ≤ R.val ℓ)
    (hnew : State.new? env w = some s0) (hist : Hist P s0 dts s) (hok : s0.grid.ClearOK)
    (hL : R.GoodLength env.neighborLength) (hLℓ : R.val env.neighborLength ≤ 2 ^ 21 * R.val ℓ)
    (hsize : ∀ a, s0.grid.size a ≤ 2 ^ 20) (hmin : R.InRange env.neighborLength env.minX)
    (hpos : ∀ i, i < s.n → (s.ps i).ty ≠ .disabled → R.InRange env.neighborLength (s.ps i).x)
    (sch : Schedule) (hv : sch.Valid s.n) (dt : F) (hP : R.Plain (s.start dt).env) (himp : P.cfg.explicit = false)
    (he0 : R.val P.eps ≠ 0) (he1 : |R.val P.eps| ≤ 1) (hn : s.n ≤ 2 ^ 20)
    (ht : s.beforePressure P sch dt = .ok t) (hs' : s.forwardTime P sch dt = .ok s')
    {m : ℝ} (hm : R.val env.re + 2 * m ≤ (1 - 1 / 2 ^ 26) * R.val env.neighborLength)
    (hmove : ∀ j, j < s.n → (t.ps j).ty ≠ .disabled → R.trueDist (s.ps j).x (t.ps j).x ≤ m ∧ R.InRange env.neighborLength (t.ps j).x ∧
      ∀ a, R.Upto 60 ((t.ps j).x a) ∧ R.Upto 60 ((t.ps j).u a))
    (hsep : ∀ i j, i < s.n → j < s.n → j ≠ i → (t.ps i).ty ≠ .disabled → (t.ps j).ty ≠ .disabled →
      R.val ℓ ≤ R.trueDist (t.ps i).x (t.ps j).x)
    (i : Nat) (hi : i < s.n) (hf : t.fixedRow P.cfg i = false) (hk : (t.neighbors i).length ≤ 2 ^ 20)
    (hg : R.finite (Scalar.epsilon : F) ∧ 1 / 2 ^ 60 ≤ R.val (Scalar.epsilon : F)) (h10 : R.val env.n0 ≤ 2 ^ 10)
    (hx : ∀ a, |R.val ((t.ps i).x a)| ≤ 2 ^ 20 * R.val env.re)
    (hni : R.Upto 60 (t.ps i).n) (hecs : P.cfg.ecs = true → R.Upto 60 (t.ecs i)) :
    (s'.ps i).p = (if Scalar.lt (s'.ppe.x i) 0 then 0 else s'.ppe.x i) ∧
    (P.cfg.spp = true → |R.val (t.nNoSpp i) - R.trueDensity t i| ≤ ((t.neighbors i).length + 1) * (R.trueDensity t i + 1) / 2 ^ 41) ∧
    ∃ N v, R.Within t i N ∧ R.Beyond P.cfg t i N v ∧
      |R.surfaceSource P.cfg t i N - R.surfaceLaplacian P.cfg t i N v (fun j => R.val (s'.ppe.x j))| ≤
        |R.trueResidual s.n s'.ppe.A s'.ppe.b s'.ppe.x i| +
        (2 * (t.neighbors i).length + 200) / 2 ^ 50 *
          (R.surfaceLaplacianSize P.cfg t i N v (fun j => R.val (s'.ppe.x j)) + R.sourceSize P.cfg t i N) ∧
      ∃ x₀ : ℕ → F, (∀ k, k < s.n → x₀ k = (s.ps k).p ∨ x₀ k = 0) ∧ (∀ k, s.n ≤ k → x₀ k = s.ppe.x k) ∧
        ∀ (q : ℕ) (X Λ : ℝ), q ≤ 2 ^ 20 → (∀ k < s.n, rowLength s.n s'.ppe.A k ≤ q) → 0 ≤ Λ → R.CalmRun s.n s'.ppe.A s'.ppe.b x₀ P.eps X Λ →
          |R.surfaceSource P.cfg t i N - R.surfaceLaplacian P.cfg t i N v (fun j => R.val (s'.ppe.x j))| ≤
            (1 + 1 / 2 ^ 26) * |R.val P.eps| * vecNorm s.n (R.trueResidual s.n s'.ppe.A s'.ppe.b x₀) +
            (s.n + 4) * vecNorm s.n (R.drift s.n q s'.ppe.A s'.ppe.b X Λ) + √(5 * (s.n + 1) * R.η) / |R.val P.eps| +
            (2 * (t.neighbors i).length + 200) / 2 ^ 50 *
              (R.surfaceLaplacianSize P.cfg t i N v (fun j => R.val (s'.ppe.x j)) + R.sourceSize P.cfg t i N) := by
  obtain ⟨hp, htn, hte, htre, htn0, row, hxj, hxi, hden, hA, hb, x₀, x1, x3, x2⟩ := R.step_equation hR hO hPr hD hl hnew hist hok hL hLℓ hsize hmin hpos
    sch hv dt hP himp he0 he1 hn ht hs' hm hmove hsep i hi hf hk
  have hPt : R.Plain t.env := by rw [hte]; exact hP
  have hsur : P.cfg.spp = true → R.Surroundings t i := by
    intro hs
    obtain ⟨d1, d2⟩ := hden hs
    exact ⟨hg, d1, R.density_lower row.length d2, by rw [htn0]; exact h10, fun a => by rw [htre]; exact hx a⟩
  obtain ⟨N, v, hN1, hv1, key⟩ := Rounding.surface_solutions hR hW hE hD hD0 P.cfg t (by rw [htre]; exact hl) hℓ hPt i (by rw [htn]; exact hi) hf row
    hsur hni hecs hxi hxj (sch 0) (sch 0) (by rw [htn]; exact hv 0) (by rw [htn]; exact hv 0)
  have k := key s'.ppe.x
  rw [← hA, ← hb, htn] at k
  refine ⟨hp, fun hs => (hden hs).2, N, v, hN1, hv1, k, x₀, x1, x3, ?_⟩
  intro q X Λ hq hrow hΛ hC
  have h5 := x2 q X Λ hq hrow hΛ hC
  linarith

end OpenMps
