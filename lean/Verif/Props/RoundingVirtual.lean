import Verif.Lemmas.RoundingVirtual

/-! # C71: the first stage of a step at a free surface -/

set_option linter.unusedSectionVars false
set_option exponentiation.threshold 1000

namespace OpenMps

variable {F : Type} [Scalar F] {D : Nat} {ω : Type}

/-- A finite factor times the difference of a number with itself. -/
theorem Rounding.times_self_difference {R : Rounding F} (hW : R.Wide) {c u : F} (hc : R.finite c) (hu : R.finite u) :
    R.finite (c * (u - u)) ∧ |R.val (c * (u - u))| ≤ R.η := by
  have hΩ : (0 : ℝ) ≤ R.Ω := le_trans (by positivity) hW.Ω_ge
  obtain ⟨f, δ, -, e⟩ := R.sub hu hu (by rw [sub_self, abs_zero]; exact hΩ)
  rw [sub_self, zero_mul] at e
  obtain ⟨f2, δ2, u2, -, h2, e2⟩ := R.mul hc f (by rw [e, mul_zero, abs_zero]; exact hΩ)
  refine ⟨f2, ?_⟩
  rw [e2, e, mul_zero, zero_mul, zero_add]
  exact h2

/-- The virtual neighbour has the velocity of the particle: it exerts no viscosity. -/
theorem Rounding.virtual_visc {R : Rounding F} (hR : R.DoubleLike) (hW : R.Wide) (hE : R.Exact) (hD : D ≤ 3) {t : State F D ω}
    (hP : R.Plain t.env) (cfg : Config) {i : ℕ} {q : Particle F D} (a : Fin D) (hui : R.Upto 30 ((t.ps i).u a)) (hu : q.u = (t.ps i).u)
    (hf : R.finite (dist (t.ps i).x q.x)) (lo : 1 / 2 ^ 14 * R.val t.env.re ≤ R.val (dist (t.ps i).x q.x))
    (hi : R.val (dist (t.ps i).x q.x) ≤ 4 * R.val t.env.re) :
    R.finite (t.viscFunc cfg i (-1) q a) ∧ |R.val (t.viscFunc cfg i (-1) q a)| ≤ R.η := by
  have hD0 : 0 < D := Nat.pos_of_ne_zero (fun h => by subst h; exact a.elim0)
  unfold State.viscFunc
  split
  swap
  · refine ⟨R.zero.1, ?_⟩
    change |R.val 0| ≤ _
    rw [R.zero.2, abs_zero]
    exact R.η_nonneg
  simp only
  rw [hu]
  set d := dist (t.ps i).x q.x with hd
  have re1 := hP.re.2.1
  have re2 := hP.re.2.2
  have b1 : 1 / 2 ^ 44 ≤ R.val d := by
    have := mul_le_mul_of_nonneg_left re1 (show (0 : ℝ) ≤ 1 / 2 ^ 14 by positivity)
    refine le_trans (le_of_eq ?_) (this.trans lo)
    norm_num
  have b2 : R.val d ≤ 2 ^ 44 := by norm_num at re2 ⊢; linarith
  have d0 : 0 < R.val d := lt_of_lt_of_le (by positivity) b1
  have mr : R.Mag d (R.val d) |R.val d| 0 44 := Rounding.Mag.sized hf (by rw [abs_of_pos d0]; exact b1) (by rw [abs_of_pos d0]; exact b2)
  have hν : R.Mag t.env.nu (R.val t.env.nu) (sz (R.val t.env.nu)) 0 300 := hP.nu.mag (by norm_num)
  split
  · have m5 : R.Mag (Scalar.ofInt ((5 - D : ℕ) : Int)) ((5 - D : ℕ) : ℝ) |((5 - D : ℕ) : ℝ)| 0 3 := hE.mag (by omega) (by omega)
    have mr2 := mr.mul hR hW mr (by norm_num) (by norm_num) (by norm_num) (by norm_num)
    have mr3 := mr2.mul hR hW mr (by norm_num) (by norm_num) (by norm_num) (by norm_num)
    have mr3 := mr3.cast rfl (show |R.val d| * |R.val d| * |R.val d| = |R.val d * R.val d * R.val d| by rw [abs_mul, abs_mul])
    have m1 := hν.mul hR hW m5 (by norm_num) (by norm_num) (by norm_num) (by norm_num)
    have m2 := m1.mul hR hW hP.re.mag (by norm_num) (by norm_num) (by norm_num) (by norm_num)
    have m3 := m2.div hR hW hP.n0.mag (by norm_num) (by norm_num) (by norm_num)
    have m4 := m3.div hR hW mr3 (by norm_num) (by norm_num) (by norm_num)
    exact Rounding.times_self_difference hW m4.fin hui.1
  · have m2 : R.Mag (Scalar.ofInt 2) ((2 : ℕ) : ℝ) |((2 : ℕ) : ℝ)| 0 3 := hE.mag (k := 2) (by omega) (by omega)
    have mD : R.Mag (Scalar.ofInt (D : Int)) (D : ℝ) |(D : ℝ)| 0 3 := hE.mag (by omega) hD0
    have mw : ∃ T M, R.Mag (W d t.env.re) T M 1 300 := by
      unfold W
      split
      · have q1 := hP.re.mag.div hR hW mr (by norm_num) (by norm_num) (by norm_num)
        have v1 : |R.val (t.env.re / d)| ≤ 2 ^ 80 := by
          refine q1.val_le.trans ?_
          have h1 := q1.hi
          have h2 : ((0 + 0 + 3 : ℕ) : ℝ) * e50 ≤ 1 := by unfold e50; norm_num
          have h3 := mul_le_mul_of_nonneg_right h2 q1.pos.le
          have h4 : (2 : ℝ) ^ 80 = 2 ^ 6 * 2 ^ (30 + 44) := by rw [← pow_add]
          rw [h4]
          have h5 : (0 : ℝ) < 2 ^ (30 + 44) := by positivity
          have h6 : (2 : ℝ) * 2 ^ (30 + 44) ≤ 2 ^ 6 * 2 ^ (30 + 44) := mul_le_mul_of_nonneg_right (by norm_num) h5.le
          linarith
        exact ⟨_, _, Rounding.Mag.sub_exact hR hW q1.fin R.one.1 v1 (by rw [R.one.2, abs_one]; exact one_le_pow₀ (by norm_num))
          (le_refl _) (by rw [div_le_one (by positivity)]; exact one_le_pow₀ (by norm_num)) (by norm_num) (by norm_num)⟩
      · have := R.mag_zero (b := 300)
        exact ⟨_, _, this.mono (le_refl _) (by norm_num) (le_refl _) this.hi⟩
    obtain ⟨T, M, mw⟩ := mw
    have m1 := hν.mul hR hW m2 (by norm_num) (by norm_num) (by norm_num) (by norm_num)
    have m3 := m1.mul hR hW mD (by norm_num) (by norm_num) (by norm_num) (by norm_num)
    have m4 := m3.div hR hW hP.lambda.mag (by norm_num) (by norm_num) (by norm_num)
    have m5 := m4.div hR hW hP.n0.mag (by norm_num) (by norm_num) (by norm_num)
    have m6 := m5.mul hR hW mw (by norm_num) (by norm_num) (by norm_num) (by norm_num)
    exact Rounding.times_self_difference hW m6.fin hui.1

/-- The virtual neighbour changes the sum of the first stage at most by an underflow. -/
theorem Rounding.Row.accumulate_visc {R : Rounding F} (hR : R.DoubleLike) (hW : R.Wide) (hE : R.Exact) (hD : D ≤ 3) {ℓ : F} {t : State F D ω}
    (hl : R.Lengths ℓ t.env.re) (hP : R.Plain t.env) {i : ℕ} (h : R.Row ℓ t i) (cfg : Config) (hv : cfg.spp = true → R.Surroundings t i)
    (hui : ∀ a, R.Upto 30 ((t.ps i).u a)) :
    R.Harmless cfg t i := by
  unfold Rounding.Harmless
  unfold State.accumulate
  cases hs : cfg.spp with
  | false => exact Or.inl rfl
  | true =>
    simp only [if_true]
    rw [State.accLoop_snd]
    cases hq : t.sppParticle i (t.accLoop i (0 : Vec F D) (t.pull i)).1 with
    | none => exact Or.inl rfl
    | some q =>
      obtain ⟨h1, -, -, -, h2, h3, h4, -, -⟩ := h.virtual hR hW hD hl hP (hv hs) hq
      exact Or.inr ⟨_, rfl, fun a => Rounding.virtual_visc hR hW hE hD hP cfg a (hui a) h1 h2 h3 h4⟩

/-- **C71.**  Rounding does not spoil the first stage of a step at a free surface either (option SPP, the default).  In every arithmetic as accurate as
`double`, for every row of the neighbour table that is fit for use, constants and velocities that are not absurd, and a domain not larger than a million
radii of influence: whatever the number density of a fluid particle and whatever order the threads work in, its virtual neighbour - which the code puts
beyond the free surface at a computed position - neither produces infinities or NaN nor changes the acceleration: the new velocity is the old one plus
`dt` times the exact viscosity of the real neighbours and gravity, with an error of at most `(2k+200) / 2^50` times the sum of the sizes of all
contributions; and the new position is the old one plus `dt` times the new velocity up to three roundings. -/
theorem C71_first_stage_at_a_free_surface (R : Rounding F) (hR : R.DoubleLike) (hW : R.Wide) (hE : R.Exact) (hD : D ≤ 3) {ℓ : F} (P : Params F D ω)
    (t : State F D ω) (hl : R.Lengths ℓ t.env.re) (hℓ : 1 / 2 ^ 30 ≤ R.val ℓ) (hP : R.Plain t.env) (i : ℕ) (hi : i < t.n)
    (hty : (t.ps i).ty = .incompressibleNewton) (h : R.Row ℓ t i) (hcg : P.cfg.centralGravity = false)
    (hs : P.cfg.spp = true → R.Surroundings t i)
    (hx : ∀ a, R.Upto 60 ((t.ps i).x a)) (hui : ∀ a, R.Upto 30 ((t.ps i).u a)) (huj : ∀ j ∈ t.neighbors i, ∀ a, R.Upto 30 ((t.ps j).u a))
    (sch1 sch2 : List Ev) (hv1 : ValidSched t.n sch1) (hv2 : ValidSched t.n sch2) :
    ∃ N, R.Within t i N ∧ ∀ a,
      R.finite (((t.computeExplicit P sch1 sch2).ps i).u a) ∧ R.finite (((t.computeExplicit P sch1 sch2).ps i).x a) ∧
      |R.val (((t.computeExplicit P sch1 sch2).ps i).u a) - (R.val ((t.ps i).u a) + R.val t.env.dt * R.trueAcceleration P.cfg t i N a)| ≤
        (2 * (t.neighbors i).length + 200) / 2 ^ 50 * (sz (R.val ((t.ps i).u a)) + R.val t.env.dt * R.accelerationSize P.cfg t i N a) ∧
      |R.val (((t.computeExplicit P sch1 sch2).ps i).x a) -
          (R.val ((t.ps i).x a) + R.val t.env.dt * R.val (((t.computeExplicit P sch1 sch2).ps i).u a))| ≤
        8 / 2 ^ 50 * (sz (R.val ((t.ps i).x a)) + R.val t.env.dt * sz (R.val (((t.computeExplicit P sch1 sch2).ps i).u a))) :=
  Rounding.first_stage hR hW hE hD P t hl hℓ hP i hi hty h hcg (h.accumulate_visc hR hW hE hD hl hP P.cfg hs hui) hx hui huj sch1 sch2 hv1 hv2

/-- **C71.**  The virtual neighbour lies where it should: its position is finite and its distance from the particle, as the code computes it, is between
`r_e / 2^14` and `4 r_e` and equals `r_e / (n_0 - n + 1)` - `n` being the stored number density - up to `r_e / 2^25`; it has the particle's velocity and no pressure. -/
theorem C71_virtual_neighbour_is_near (R : Rounding F) (hR : R.DoubleLike) (hW : R.Wide) (hD : D ≤ 3) {ℓ : F} (t : State F D ω)
    (hl : R.Lengths ℓ t.env.re) (hP : R.Plain t.env) (i : ℕ) (h : R.Row ℓ t i) (hv : R.Surroundings t i) {A : Type} [Add A] (z : A)
    (f : Int → Particle F D → A) (q : Particle F D) (hq : t.sppParticle i (t.accLoop i z f).2 = some q) :
    q.u = (t.ps i).u ∧ q.ty = .incompressibleNewton ∧ q.p = 0 ∧ (∀ a, R.finite (q.x a)) ∧ R.finite (dist (t.ps i).x q.x) ∧
      1 / 2 ^ 14 * R.val t.env.re ≤ R.val (dist (t.ps i).x q.x) ∧ R.val (dist (t.ps i).x q.x) ≤ 4 * R.val t.env.re ∧
      R.val (t.nNoSpp i) < R.val t.env.n0 ∧
      |R.val (dist (t.ps i).x q.x) - R.val t.env.re / (R.val t.env.n0 - R.val (t.nNoSpp i) + 1)| ≤ R.val t.env.re / 2 ^ 25 := by
  rw [State.accLoop_snd] at hq
  exact h.virtual hR hW hD hl hP hv hq

end OpenMps
