import Verif.Props.RoundingPpe
import Verif.Props.RoundingVirtualRun
import Verif.Props.RoundingForcesRun

/-! # C74 in a running computer -/

set_option linter.unusedSectionVars false
set_option exponentiation.threshold 1000

namespace OpenMps

variable {F : Type} [Scalar F] {D : Nat} {ω : Type}

theorem Rounding.trueDist_eq_euclid (R : Rounding F) (x y : Vec F D) :
    R.trueDist x y = Dist.dist (WithLp.toLp 2 (fun a => R.val (x a)) : EuclideanSpace ℝ (Fin D)) (WithLp.toLp 2 (fun a => R.val (y a))) := by
  rw [EuclideanSpace.dist_eq]
  unfold Rounding.trueDist
  congr 1
  apply Finset.sum_congr rfl
  intro a _
  rw [Real.dist_eq, sq_abs]

theorem Rounding.trueDist_triangle (R : Rounding F) (x y z : Vec F D) : R.trueDist x z ≤ R.trueDist x y + R.trueDist y z := by
  simp only [R.trueDist_eq_euclid]
  exact _root_.dist_triangle _ _ _

theorem Rounding.trueDist_symm (R : Rounding F) (x y : Vec F D) : R.trueDist x y = R.trueDist y x := by
  simp only [R.trueDist_eq_euclid]
  exact _root_.dist_comm _ _

/-- The row of a particle after particles have moved by at most `m` since the search. -/
theorem Rounding.row_after_move (R : Rounding F) (hR : R.DoubleLike) (hD : D ≤ 3) {ℓ : F}
    {P : Params F D ω} {env : Env F D} {w : ω} {s0 s s1 t : State F D ω} {dts : List F}
    (hnew : State.new? env w = some s0) (hist : Hist P s0 dts s) (hok : s0.grid.ClearOK)
    (hL : R.GoodLength env.neighborLength) (hLℓ : R.val env.neighborLength ≤ 2 ^ 21 * R.val ℓ)
    (hsize : ∀ a, s0.grid.size a ≤ 2 ^ 20) (hmin : R.InRange env.neighborLength env.minX)
    (hpos : ∀ i, i < s.n → (s.ps i).ty ≠ .disabled → R.InRange env.neighborLength (s.ps i).x)
    (sch : Schedule) (hv : sch.Valid s.n) (dt : F) (h : (s.start dt).searchNeighbor (sch 0) = .ok s1)
    (htn : t.n = s.n) (htb : t.nbr = s1.nbr) (hte : t.env.re = env.re) (htt : ∀ j, (t.ps j).ty = (s1.ps j).ty)
    {m : ℝ} (hm : R.val env.re + 2 * m ≤ (1 - 1 / 2 ^ 26) * R.val env.neighborLength)
    (hmove : ∀ j, j < s.n → (t.ps j).ty ≠ .disabled → R.trueDist (s.ps j).x (t.ps j).x ≤ m ∧ R.InRange env.neighborLength (t.ps j).x)
    (hsep : ∀ i j, i < s.n → j < s.n → j ≠ i → (t.ps i).ty ≠ .disabled → (t.ps j).ty ≠ .disabled →
      R.val ℓ ≤ R.trueDist (t.ps i).x (t.ps j).x) (hre : 0 ≤ R.val env.re)
    (i : Nat) (hi : i < s.n) (hdi : (t.ps i).ty ≠ .disabled) (hk : (t.neighbors i).length ≤ 2 ^ 20) : R.Row ℓ t i := by
  obtain ⟨b0, b1, b2, b3, b4⟩ := hist.geometry hnew
  obtain ⟨-, h2, -⟩ := hist.frame
  have hok' : (s.start dt).grid.ClearOK := h2.clearOK.mpr hok
  have hn : s1.n = s.n := by
    obtain ⟨g0, g, nb, -, -, hs1, -, -⟩ := searchNeighbor_ok_frame (s := s.start dt) (hv 0) h
    rw [hs1]; rfl
  have enb : t.neighbors i = s1.neighbors i := by unfold State.neighbors; rw [htb]
  have hdi1 : (s1.ps i).ty ≠ .disabled := by rw [← htt]; exact hdi
  obtain ⟨-, t2, t3⟩ := C08_neighbour_table_valid (s := s.start dt) (hv 0) hok' b0 h i hi hdi1
  have hC := fun j (hj : j < s.n) (hji : j ≠ i) (hdj : (s1.ps j).ty ≠ .disabled) =>
    C47_no_neighbour_lost_by_rounding R hR hD hnew hist hok hL hsize hmin hpos sch hv dt h i j hi hj hji hdi1 hdj
  have mi := hmove i hi hdi
  have hp := hL.pos
  refine ⟨by rw [enb]; exact t2, ?_, ?_, hk, fun a => (mi.2 a).1, ?_⟩
  · intro j hj
    rw [enb] at hj
    obtain ⟨j1, j2, j3⟩ := t3 j hj
    rw [htn, ← hn, htt]
    exact ⟨j1, j2, j3⟩
  · intro j hj hji hdj hd
    rw [htn] at hj
    rw [hte] at hd
    have mj := hmove j hj hdj
    rw [enb]
    rw [htt] at hdj
    apply (hC j hj hji hdj).1
    have a1 := R.trueDist_triangle (s.ps i).x (t.ps i).x (s.ps j).x
    have a2 := R.trueDist_triangle (t.ps i).x (t.ps j).x (s.ps j).x
    have a3 := R.trueDist_symm (t.ps j).x (s.ps j).x
    linarith [mi.1, mj.1]
  · intro j hj
    rw [enb] at hj
    obtain ⟨j1, j2, j3⟩ := t3 j hj
    rw [hn] at j1
    have hdj : (t.ps j).ty ≠ .disabled := by rw [htt]; exact j3
    have mj := hmove j j1 hdj
    have far := (hC j j1 j2 j3).2 hj
    refine ⟨fun a => (mj.2 a).1, fun a => ?_, fun a => ?_, hsep i j hi j1 j2 hdi hdj⟩
    · refine (abs_sub _ _).trans ?_
      have := (mi.2 a).2.1
      have := (mj.2 a).2.1
      have := abs_nonneg (R.val ((t.ps i).x a))
      linarith
    · have h3 : |R.val ((t.ps i).x a) - R.val ((t.ps j).x a)| ≤ R.trueDist (t.ps i).x (t.ps j).x := by
        unfold Rounding.trueDist
        apply Real.abs_le_sqrt
        exact Finset.single_le_sum (f := fun a => (R.val ((t.ps i).x a) - R.val ((t.ps j).x a)) ^ 2)
          (fun a _ => sq_nonneg _) (Finset.mem_univ a)
      have a1 := R.trueDist_triangle (t.ps i).x (s.ps i).x (t.ps j).x
      have a2 := R.trueDist_triangle (s.ps i).x (s.ps j).x (t.ps j).x
      have a3 := R.trueDist_symm (t.ps i).x (s.ps i).x
      have := mi.1
      have := mj.1
      norm_num at far hLℓ hm ⊢
      linarith

/-- The equations of a step and what the solver leaves of them. -/
theorem Rounding.step_equation (R : Rounding F) (hR : R.DoubleLike) (hO : R.Ordinary)
    (hPr : R.Propagates) (hD : D ≤ 3) {ℓ : F}
    {P : Params F D ω} {env : Env F D} {w : ω} {s0 s t s' : State F D ω} {dts : List F}
    (hl : R.Lengths ℓ env.re)
    (hnew : State.new? env w = some s0) (hist : Hist P s0 dts s) (hok : s0.grid.ClearOK)
    (hL : R.GoodLength env.neighborLength) (hLℓ : R.val env.neighborLength ≤ 2 ^ 21 * R.val ℓ)
    (hsize : ∀ a, s0.grid.size a ≤ 2 ^ 20) (hmin : R.InRange env.neighborLength env.minX)
    (hpos : ∀ i, i < s.n → (s.ps i).ty ≠ .disabled → R.InRange env.neighborLength (s.ps i).x)
    (sch : Schedule) (hv : sch.Valid s.n) (dt : F) (hP : R.Plain (s.start dt).env) (himp : P.cfg.explicit = false)
    (he0 : R.val P.eps ≠ 0) (he1 : |R.val P.eps| ≤ 1) (hn : s.n ≤ 2 ^ 20)
    (ht : s.beforePressure P sch dt = .ok t) (hs' : s.forwardTime P sch dt = .ok s')
    {m : ℝ} (hm : R.val env.re + 2 * m ≤ (1 - 1 / 2 ^ 26) * R.val env.neighborLength)
    (hmove : ∀ j, j < s.n → (t.ps j).ty ≠ .disabled → R.trueDist (s.ps j).x (t.ps j).x ≤ m ∧ R.InRange env.neighborLength (t.ps j).x ∧
      ∀ a, R.Upto 60 ((t.ps j).x a) ∧ R.Upto 60 ((t.ps j).u a))
    (hsep : ∀ i j, i < s.n → j < s.n → j ≠ i → (t.ps i).ty ≠ .disabled → (t.ps j).ty ≠ .disabled →
      R.val ℓ ≤ R.trueDist (t.ps i).x (t.ps j).x)
    (i : Nat) (hi : i < s.n) (hf : t.fixedRow P.cfg i = false) (hk : (t.neighbors i).length ≤ 2 ^ 20) :
    (s'.ps i).p = (if Scalar.lt (s'.ppe.x i) 0 then 0 else s'.ppe.x i) ∧
    t.n = s.n ∧ t.env = (s.start dt).env ∧ t.env.re = env.re ∧ t.env.n0 = env.n0 ∧ R.Row ℓ t i ∧
    (∀ j ∈ t.neighbors i, ∀ a, R.Upto 60 ((t.ps j).x a) ∧ R.Upto 60 ((t.ps j).u a)) ∧
    (∀ a, R.Upto 60 ((t.ps i).x a) ∧ R.Upto 60 ((t.ps i).u a)) ∧
    (P.cfg.spp = true → R.finite (t.nNoSpp i) ∧
      |R.val (t.nNoSpp i) - R.trueDensity t i| ≤ ((t.neighbors i).length + 1) * (R.trueDensity t i + 1) / 2 ^ 41) ∧
    s'.ppe.A = (t.setPpe P.cfg (sch 0) (sch 0)).ppe.A ∧ s'.ppe.b = (t.setPpe P.cfg (sch 0) (sch 0)).ppe.b ∧
    ∃ x₀ : ℕ → F, (∀ k, k < s.n → x₀ k = (s.ps k).p ∨ x₀ k = 0) ∧ (∀ k, s.n ≤ k → x₀ k = s.ppe.x k) ∧
      ∀ (q : ℕ) (X Λ : ℝ), q ≤ 2 ^ 20 → (∀ k < s.n, rowLength s.n s'.ppe.A k ≤ q) → 0 ≤ Λ → R.CalmRun s.n s'.ppe.A s'.ppe.b x₀ P.eps X Λ →
        |R.trueResidual s.n s'.ppe.A s'.ppe.b s'.ppe.x i| ≤
          (1 + 1 / 2 ^ 26) * |R.val P.eps| * vecNorm s.n (R.trueResidual s.n s'.ppe.A s'.ppe.b x₀) +
          (s.n + 4) * vecNorm s.n (R.drift s.n q s'.ppe.A s'.ppe.b X Λ) + √(5 * (s.n + 1) * R.η) / |R.val P.eps| := by
  obtain ⟨-, -, x₀, x1, x3, x2⟩ := C68_step_pressures_are_accurate R hR hO hPr himp sch hv dt hs' hn he0 he1
  obtain ⟨s1, h, ht'⟩ := beforePressure_midC hv ht
  obtain ⟨s1', h', ha⟩ := forwardTime_ok hv hs'
  rw [h] at h'
  injection h' with h'
  subst h'
  obtain ⟨s2, hp, hs2⟩ := afterSearch_ok ha
  have hn1 : s1.n = s.n := searchNeighbor_n (s.start dt) s1 _ (hv 0) h
  have htn : t.n = s.n := by rw [ht', midC_n]; exact hn1
  have henv1 : s1.env = (s.start dt).env := by
    obtain ⟨g0, g, nb, -, -, hs1, -, -⟩ := searchNeighbor_ok_frame (s := s.start dt) (hv 0) h
    rw [hs1]; rfl
  have hte : t.env = (s.start dt).env := by rw [ht', midC_env]; exact henv1
  have henv : (s.start dt).env.re = env.re ∧ (s.start dt).env.n0 = env.n0 := by
    have e0 : s0.env = env := by
      unfold State.new? at hnew
      cases hm : Grid.mk? env.neighborLength env.l0 env.minX env.maxX with
      | none => rw [hm] at hnew; cases hnew
      | some g =>
        rw [hm] at hnew
        simp only [Option.some.injEq] at hnew
        rw [← hnew]
    change s.env.re = env.re ∧ s.env.n0 = env.n0
    refine Hist.rec' (Q := fun _ s => s.env.re = env.re ∧ s.env.n0 = env.n0) (by rw [e0]; exact ⟨rfl, rfl⟩) ?_ ?_ hist
    · intro _ _ _ _ h; exact h
    · intro _ _ _ _ _ _ h hv hl
      rw [(step_frame hv hl).2.1]; exact h
  have htre : t.env.re = env.re := by rw [hte]; exact henv.1
  have htn0 : t.env.n0 = env.n0 := by rw [hte]; exact henv.2
  have hty : (t.ps i).ty.active = true := by
    unfold State.fixedRow at hf
    rw [Bool.or_eq_false_iff, Bool.or_eq_false_iff] at hf
    obtain ⟨⟨h1, h2⟩, -⟩ := hf
    cases hh : (t.ps i).ty <;> simp [hh, PType.active] at h1 h2 ⊢
  have hdi : (t.ps i).ty ≠ .disabled := by
    intro h
    rw [h] at hty
    cases hty
  have htb : t.nbr = s1.nbr := by
    rw [ht']
    unfold State.midC
    rw [saveX_nbr]
    rfl
  have row : R.Row ℓ t i := R.row_after_move hR hD hnew hist hok hL hLℓ hsize hmin hpos sch hv dt h htn htb htre
    (fun j => by rw [ht', midC_ty]) hm (fun j hj hd => ⟨(hmove j hj hd).1, (hmove j hj hd).2.1⟩) hsep
    ((hl.good.pos.trans_le hl.le).le) i hi hdi hk
  have hlt : R.Lengths ℓ t.env.re := by rw [htre]; exact hl
  have hPt : R.Plain t.env := by rw [hte]; exact hP
  -- the stored density
  have hden : P.cfg.spp = true → R.finite (t.nNoSpp i) ∧
      |R.val (t.nNoSpp i) - R.trueDensity t i| ≤ ((t.neighbors i).length + 1) * (R.trueDensity t i + 1) / 2 ^ 41 := by
    intro hs
    set mc := ((((s1.densC P.cfg).ecsC P.cfg).duC (State.accelCompute P.cfg)).preC P.walls).moveC P.walls with hmc
    have hd : t = (mc.densC P.cfg).saveX P.cfg := ht'
    have hps : ∀ j, (mc.ps j).x = (t.ps j).x ∧ (mc.ps j).ty = (t.ps j).ty := by
      intro j
      rw [hd, saveX_ps]
      exact ⟨(densC_x ..).symm, (densC_ty ..).symm⟩
    have hmn : mc.n = t.n := by rw [hd, saveX_n]; rfl
    have hmb : mc.nbr = t.nbr := by rw [hd, saveX_nbr]; rfl
    have hme : mc.env = t.env := by rw [hd, saveX_env]; rfl
    have hmd : R.trueDensity mc i = R.trueDensity t i := by
      unfold Rounding.trueDensity
      simp only [hps, hmn, hme]
    have hml : mc.neighbors i = t.neighbors i := by unfold State.neighbors; rw [hmb]
    have := R.stored_density hR hD (t := mc) (by rw [hme]; exact hlt) (by rw [hme]; exact hPt.n0.1) (i := i) (by rw [hmn, htn]; exact hi)
      (by rw [(hps i).2]; exact hty) (row.congr hmn (by rw [hme]) hmb hps) P.cfg hs
    have e1 : t.nNoSpp = (mc.densC P.cfg).nNoSpp := by rw [hd]; exact saveX_nNoSpp _ _
    rw [e1, ← hmd, ← hml]
    exact this
  rcases pressureC_ok hp with ⟨hc, -⟩ | ⟨-, s3, h3, rfl⟩
  · rw [himp] at hc; cases hc
  rw [← ht'] at h3
  obtain ⟨h4, hconv⟩ := solvePpe_ok h3
  have hA : s'.ppe.A = (t.setPpe P.cfg (sch 0) (sch 0)).ppe.A ∧ s'.ppe.b = (t.setPpe P.cfg (sch 0) (sch 0)).ppe.b ∧ s'.ppe.x = s3.ppe.x := by
    have eppe : s'.ppe = s3.ppe := by
      rw [hs2]
      unfold State.dsC; split <;> rfl
    rw [eppe, setPpe_eq P.cfg t _ _ (by rw [htn]; exact hv 0) (by rw [htn]; exact hv 0), h4]
    exact ⟨rfl, rfl, rfl⟩
  refine ⟨?_, htn, hte, htre, htn0, row, (fun j hj => by
      obtain ⟨j1, -, j3⟩ := row.entry j hj
      rw [htn] at j1
      exact (hmove j j1 j3).2.2), (hmove i hi hdi).2.2, hden, hA.1, hA.2.1, x₀, x1, x3, ?_⟩
  · rw [hA.2.2, hs2, dsC_p, gradC_p]
    have e3 : s3.n = t.n ∧ s3.ps = t.ps ∧ s3.env = t.env := by rw [h4]; exact ⟨rfl, rfl, rfl⟩
    have e : (s3.presC (State.presCompute P.cfg)).ps i = { s3.ps i with p := (s3.presCompute P.cfg i).getD (s3.ps i).p } := by
      change (if i < s3.n then _ else _) = _
      rw [if_pos (by rw [e3.1, htn]; exact hi)]
    rw [e]
    change (s3.presCompute P.cfg i).getD (s3.ps i).p = _
    unfold State.presCompute
    have hsf : s3.isSurface P.cfg (s3.ps i).n = false := by
      unfold State.fixedRow at hf
      rw [Bool.or_eq_false_iff] at hf
      have := hf.2
      unfold State.isSurface at this ⊢
      rw [e3.2.1, e3.2.2]
      exact this
    rw [if_pos (by rw [e3.2.1]; exact hty), hsf]
    simp only [Option.getD_some, Bool.or_false]
  · intro q X Λ hq hrow hΛ hC
    have h5 := x2 q X Λ hq hrow hΛ hC
    exact (abs_le_vecNorm (R.trueResidual s.n s'.ppe.A s'.ppe.b s'.ppe.x) hi).trans h5

/-- **C74**, in a step of a running computer with the implicit method.  `t` is the state when the pressures are about to be computed (after the first stage
has moved the particles, by at most `m`, and the densities have been computed again); `s'` is the state at the end of the step.  The pressures the step leaves in the
particles are, before the pressure gradient moves them, the solution of the exact discrete Poisson equation at the stored numbers, up to what the solver leaves (C68) and the
rounding errors of the coefficients. -/
theorem C74_pressures_of_a_step_solve_the_poisson_equation (R : Rounding F) (hR : R.DoubleLike) (hW : R.Wide) (hE : R.Exact) (hO : R.Ordinary)
    (hPr : R.Propagates) (hD : D ≤ 3) (hD0 : 0 < D) {ℓ : F}
    {P : Params F D ω} {env : Env F D} {w : ω} {s0 s t s' : State F D ω} {dts : List F}
    (hl : R.Lengths ℓ env.re) (hℓ : 1 / 2 ^ 30 ≤ R.val ℓ)
    (hnew : State.new? env w = some s0) (hist : Hist P s0 dts s) (hok : s0.grid.ClearOK)
    (hL : R.GoodLength env.neighborLength) (hLℓ : R.val env.neighborLength ≤ 2 ^ 21 * R.val ℓ)
    (hsize : ∀ a, s0.grid.size a ≤ 2 ^ 20) (hmin : R.InRange env.neighborLength env.minX)
    (hpos : ∀ i, i < s.n → (s.ps i).ty ≠ .disabled → R.InRange env.neighborLength (s.ps i).x)
    (sch : Schedule) (hv : sch.Valid s.n) (dt : F) (hP : R.Plain (s.start dt).env) (himp : P.cfg.explicit = false)
    (he0 : R.val P.eps ≠ 0) (he1 : |R.val P.eps| ≤ 1) (hn : s.n ≤ 2 ^ 20)
    (ht : s.beforePressure P sch dt = .ok t) (hs' : s.forwardTime P sch dt = .ok s')
    {m : ℝ} (hm : R.val env.re + 2 * m ≤ (1 - 1 / 2 ^ 26) * R.val env.neighborLength)
    (hmove : ∀ j, j < s.n → (t.ps j).ty ≠ .disabled → R.trueDist (s.ps j).x (t.ps j).x ≤ m ∧ R.InRange env.neighborLength (t.ps j).x ∧
      ∀ a, R.Upto 60 ((t.ps j).x a) ∧ R.Upto 60 ((t.ps j).u a))
    (hsep : ∀ i j, i < s.n → j < s.n → j ≠ i → (t.ps i).ty ≠ .disabled → (t.ps j).ty ≠ .disabled →
      R.val ℓ ≤ R.trueDist (t.ps i).x (t.ps j).x)
    (i : Nat) (hi : i < s.n) (hf : t.fixedRow P.cfg i = false) (hk : (t.neighbors i).length ≤ 2 ^ 20)
    (hN : P.cfg.spp = true → R.val env.n0 + ((t.neighbors i).length + 1) * (R.trueDensity t i + 1) / 2 ^ 41 ≤ R.trueDensity t i)
    (hni : R.Upto 60 (t.ps i).n) (hecs : P.cfg.ecs = true → R.Upto 60 (t.ecs i)) :
    (s'.ps i).p = (if Scalar.lt (s'.ppe.x i) 0 then 0 else s'.ppe.x i) ∧
    ∃ N, R.Within t i N ∧
      |R.trueSource P.cfg t i N - R.trueLaplacian P.cfg t i N (fun j => R.val (s'.ppe.x j))| ≤
        |R.trueResidual s.n s'.ppe.A s'.ppe.b s'.ppe.x i| +
        (2 * (t.neighbors i).length + 200) / 2 ^ 50 *
          (R.laplacianSize P.cfg t i N (fun j => R.val (s'.ppe.x j)) + R.sourceSize P.cfg t i N) ∧
      ∃ x₀ : ℕ → F, (∀ k, k < s.n → x₀ k = (s.ps k).p ∨ x₀ k = 0) ∧ (∀ k, s.n ≤ k → x₀ k = s.ppe.x k) ∧
        ∀ (q : ℕ) (X Λ : ℝ), q ≤ 2 ^ 20 → (∀ k < s.n, rowLength s.n s'.ppe.A k ≤ q) → 0 ≤ Λ → R.CalmRun s.n s'.ppe.A s'.ppe.b x₀ P.eps X Λ →
          |R.trueSource P.cfg t i N - R.trueLaplacian P.cfg t i N (fun j => R.val (s'.ppe.x j))| ≤
            (1 + 1 / 2 ^ 26) * |R.val P.eps| * vecNorm s.n (R.trueResidual s.n s'.ppe.A s'.ppe.b x₀) +
            (s.n + 4) * vecNorm s.n (R.drift s.n q s'.ppe.A s'.ppe.b X Λ) + √(5 * (s.n + 1) * R.η) / |R.val P.eps| +
            (2 * (t.neighbors i).length + 200) / 2 ^ 50 *
              (R.laplacianSize P.cfg t i N (fun j => R.val (s'.ppe.x j)) + R.sourceSize P.cfg t i N) := by
  obtain ⟨hp, htn, hte, htre, htn0, row, hxj, hxi, hden, hA, hb, x₀, x1, x3, x2⟩ := R.step_equation hR hO hPr hD hl hnew hist hok hL hLℓ hsize hmin hpos
    sch hv dt hP himp he0 he1 hn ht hs' hm hmove hsep i hi hf hk
  have hPt : R.Plain t.env := by rw [hte]; exact hP
  have hnv : R.NoVirtual P.cfg t i := by
    intro hs
    obtain ⟨d1, d2⟩ := hden hs
    refine ⟨d1, hPt.n0.1, ?_⟩
    have := hN hs
    rw [abs_le] at d2
    rw [htn0]
    linarith [d2.1]
  obtain ⟨N, hN1, key⟩ := C74_solutions_solve_the_poisson_equation R hR hW hE hD hD0 P.cfg t (by rw [htre]; exact hl) hℓ hPt i (by rw [htn]; exact hi) hf row
    hnv hni hecs hxi hxj (sch 0) (sch 0) (by rw [htn]; exact hv 0) (by rw [htn]; exact hv 0)
  have k := key s'.ppe.x
  rw [← hA, ← hb, htn] at k
  refine ⟨hp, N, hN1, k, x₀, x1, x3, ?_⟩
  intro q X Λ hq hrow hΛ hC
  have h5 := x2 q X Λ hq hrow hΛ hC
  linarith

end OpenMps
