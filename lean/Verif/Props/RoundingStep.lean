import Verif.Props.RoundingPpeRun

/-! # C71 for a whole time step: from the state before it to the state after it -/

set_option linter.unusedSectionVars false
set_option exponentiation.threshold 1000

namespace OpenMps

variable {F : Type} [Scalar F] {D : Nat} {ω : Type}

/-- The particles of `t` with the pressures they have in `s'`. -/
def State.withPressures (t s' : State F D ω) : State F D ω := { t with ps := fun j => { t.ps j with p := (s'.ps j).p } }

/-- When the pressures are about to be computed, the row of a particle is fit for use and there is no virtual neighbour. -/
theorem Rounding.row_before_pressure (R : Rounding F) (hR : R.DoubleLike) (hD : D ≤ 3) {ℓ : F}
    {P : Params F D ω} {env : Env F D} {w : ω} {s0 s s1 t : State F D ω} {dts : List F}
    (hl : R.Lengths ℓ env.re) (hnew : State.new? env w = some s0) (hist : Hist P s0 dts s) (hok : s0.grid.ClearOK)
    (hL : R.GoodLength env.neighborLength) (hLℓ : R.val env.neighborLength ≤ 2 ^ 21 * R.val ℓ)
    (hsize : ∀ a, s0.grid.size a ≤ 2 ^ 20) (hmin : R.InRange env.neighborLength env.minX)
    (hpos : ∀ i, i < s.n → (s.ps i).ty ≠ .disabled → R.InRange env.neighborLength (s.ps i).x)
    (sch : Schedule) (hv : sch.Valid s.n) (dt : F) (hP : R.Plain (s.start dt).env)
    (h : (s.start dt).searchNeighbor (sch 0) = .ok s1) (ht' : t = s1.midC P)
    {m : ℝ} (hm : R.val env.re + 2 * m ≤ (1 - 1 / 2 ^ 26) * R.val env.neighborLength)
    (hmove : ∀ j, j < s.n → (t.ps j).ty ≠ .disabled → R.trueDist (s.ps j).x (t.ps j).x ≤ m ∧ R.InRange env.neighborLength (t.ps j).x)
    (hsep : ∀ i j, i < s.n → j < s.n → j ≠ i → (t.ps i).ty ≠ .disabled → (t.ps j).ty ≠ .disabled →
      R.val ℓ ≤ R.trueDist (t.ps i).x (t.ps j).x)
    (i : Nat) (hi : i < s.n) (hty : (t.ps i).ty.active = true) (hk : (t.neighbors i).length ≤ 2 ^ 20)
    (hN : P.cfg.spp = true → R.val env.n0 + ((t.neighbors i).length + 1) * (R.trueDensity t i + 1) / 2 ^ 41 ≤ R.trueDensity t i) :
    t.n = s.n ∧ t.env = (s.start dt).env ∧ t.env.re = env.re ∧ R.Row ℓ t i ∧ R.NoVirtual P.cfg t i := by
  have hn1 : s1.n = s.n := searchNeighbor_n (s.start dt) s1 _ (hv 0) h
  have htn : t.n = s.n := by rw [ht', midC_n]; exact hn1
  have henv1 : s1.env = (s.start dt).env := by
    obtain ⟨g0, g, nb, -, -, hs1, -, -⟩ := searchNeighbor_ok_frame (s := s.start dt) (hv 0) h
    rw [hs1]; rfl
  have hte : t.env = (s.start dt).env := by rw [ht', midC_env]; exact henv1
  have henv : (s.start dt).env.re = env.re ∧ (s.start dt).env.n0 = env.n0 := by
    have e0 : s0.env = env := by
      unfold State.new? at hnew
      cases hm : Grid.mk? env.neighborLength env.l0 env.minX env.maxX with
      | none => rw [hm] at hnew; cases hnew
      | some g =>
        rw [hm] at hnew
        simp only [Option.some.injEq] at hnew
        rw [← hnew]
    change s.env.re = env.re ∧ s.env.n0 = env.n0
    refine Hist.rec' (Q := fun _ s => s.env.re = env.re ∧ s.env.n0 = env.n0) (by rw [e0]; exact ⟨rfl, rfl⟩) ?_ ?_ hist
    · intro _ _ _ _ h; exact h
    · intro _ _ _ _ _ _ h hv hl
      rw [(step_frame hv hl).2.1]; exact h
  have htre : t.env.re = env.re := by rw [hte]; exact henv.1
  have htn0 : t.env.n0 = env.n0 := by rw [hte]; exact henv.2
  have hdi : (t.ps i).ty ≠ .disabled := by
    intro h
    rw [h] at hty
    cases hty
  have htb : t.nbr = s1.nbr := by
    rw [ht']
    unfold State.midC
    rw [saveX_nbr]
    rfl
  have row : R.Row ℓ t i := R.row_after_move hR hD hnew hist hok hL hLℓ hsize hmin hpos sch hv dt h htn htb htre
    (fun j => by rw [ht', midC_ty]) hm hmove hsep
    ((hl.good.pos.trans_le hl.le).le) i hi hdi hk
  have hlt : R.Lengths ℓ t.env.re := by rw [htre]; exact hl
  have hPt : R.Plain t.env := by rw [hte]; exact hP
  -- no virtual neighbour
  have hnv : R.NoVirtual P.cfg t i := by
    set mc := ((((s1.densC P.cfg).ecsC P.cfg).duC (State.accelCompute P.cfg)).preC P.walls).moveC P.walls with hmc
    have hd : t = (mc.densC P.cfg).saveX P.cfg := ht'
    have hps : ∀ j, (mc.ps j).x = (t.ps j).x ∧ (mc.ps j).ty = (t.ps j).ty := by
      intro j
      rw [hd, saveX_ps]
      exact ⟨(densC_x ..).symm, (densC_ty ..).symm⟩
    have hmn : mc.n = t.n := by rw [hd, saveX_n]; rfl
    have hmb : mc.nbr = t.nbr := by rw [hd, saveX_nbr]; rfl
    have hme : mc.env = t.env := by rw [hd, saveX_env]; rfl
    have hmd : R.trueDensity mc i = R.trueDensity t i := by
      unfold Rounding.trueDensity
      simp only [hps, hmn, hme]
    have hml : mc.neighbors i = t.neighbors i := by unfold State.neighbors; rw [hmb]
    have := R.noVirtual_of_density hR hD (t := mc) (by rw [hme]; exact hlt) (by rw [hme]; exact hPt.n0.1) (i := i) (by rw [hmn, htn]; exact hi)
      (by rw [(hps i).2]; exact hty) (row.congr hmn (by rw [hme]) hmb hps) P.cfg (by rw [hmd, hme, htn0, hml]; exact hN)
    intro hs
    obtain ⟨q1, q2, q3⟩ := this hs
    have e1 : t.nNoSpp = (mc.densC P.cfg).nNoSpp := by rw [hd]; exact saveX_nNoSpp _ _
    rw [e1, ← hme]
    exact ⟨q1, q2, q3⟩
  exact ⟨htn, hte, htre, row, hnv⟩

theorem presC_frame (f : State F D ω → Nat → Option F) (s : State F D ω) :
    (s.presC f).n = s.n ∧ (s.presC f).env = s.env ∧ (s.presC f).nbr = s.nbr ∧ (s.presC f).nNoSpp = s.nNoSpp ∧
      ∀ j, (s.presC f).ps j = { s.ps j with p := ((s.presC f).ps j).p } := by
  refine ⟨rfl, rfl, rfl, rfl, fun j => ?_⟩
  unfold State.presC
  simp only
  split <;> rfl

/-- The pressure stage changes the pressures only. -/
theorem pressureC_only {P : Params F D ω} {t s2 : State F D ω} (h : t.pressureC P = .ok s2) :
    s2.n = t.n ∧ s2.env = t.env ∧ s2.nbr = t.nbr ∧ s2.nNoSpp = t.nNoSpp ∧ ∀ j, s2.ps j = { t.ps j with p := (s2.ps j).p } := by
  rcases pressureC_ok h with ⟨-, rfl⟩ | ⟨-, s3, h3, rfl⟩
  · exact presC_frame _ _
  · obtain ⟨h4, -⟩ := solvePpe_ok h3
    obtain ⟨e1, e2, e3, e4, e5⟩ := presC_frame (State.presCompute P.cfg) s3
    have e : s3.n = t.n ∧ s3.env = t.env ∧ s3.nbr = t.nbr ∧ s3.nNoSpp = t.nNoSpp ∧ s3.ps = t.ps := by rw [h4]; exact ⟨rfl, rfl, rfl, rfl, rfl⟩
    refine ⟨e1.trans e.1, e2.trans e.2.1, e3.trans e.2.2.1, e4.trans e.2.2.2.1, fun j => ?_⟩
    rw [e5 j, e.2.2.2.2]

/-- **C71**, second stage of a step of a running computer (without gradient correction and dynamic stabilisation; implicit or explicit pressures).  `t` is the
state when the pressures are about to be computed, `s'` the state at the end of the step.  The step changes velocity and position of a fluid particle since `t` by the exact
pressure gradient - at the positions of `t` and the pressures the particles have at the end of the step - and by `dt` times it, up to rounding. -/
theorem C71_second_stage_of_a_step_is_accurate (R : Rounding F) (hR : R.DoubleLike) (hW : R.Wide) (hE : R.Exact) (hD : D ≤ 3) {ℓ : F}
    {P : Params F D ω} {env : Env F D} {w : ω} {s0 s t s' : State F D ω} {dts : List F}
    (hl : R.Lengths ℓ env.re) (hℓ : 1 / 2 ^ 30 ≤ R.val ℓ)
    (hnew : State.new? env w = some s0) (hist : Hist P s0 dts s) (hok : s0.grid.ClearOK)
    (hL : R.GoodLength env.neighborLength) (hLℓ : R.val env.neighborLength ≤ 2 ^ 21 * R.val ℓ)
    (hsize : ∀ a, s0.grid.size a ≤ 2 ^ 20) (hmin : R.InRange env.neighborLength env.minX)
    (hpos : ∀ i, i < s.n → (s.ps i).ty ≠ .disabled → R.InRange env.neighborLength (s.ps i).x)
    (sch : Schedule) (hv : sch.Valid s.n) (dt : F) (hP : R.Plain (s.start dt).env) (hgc : P.cfg.gc = false) (hds : P.cfg.ds = false)
    (ht : s.beforePressure P sch dt = .ok t) (hs' : s.forwardTime P sch dt = .ok s')
    {m : ℝ} (hm : R.val env.re + 2 * m ≤ (1 - 1 / 2 ^ 26) * R.val env.neighborLength)
    (hmove : ∀ j, j < s.n → (t.ps j).ty ≠ .disabled → R.trueDist (s.ps j).x (t.ps j).x ≤ m ∧ R.InRange env.neighborLength (t.ps j).x ∧
      R.Upto 60 (s'.ps j).p ∧ ∀ a, R.Upto 60 ((t.ps j).x a) ∧ R.Upto 60 ((t.ps j).u a))
    (hsep : ∀ i j, i < s.n → j < s.n → j ≠ i → (t.ps i).ty ≠ .disabled → (t.ps j).ty ≠ .disabled →
      R.val ℓ ≤ R.trueDist (t.ps i).x (t.ps j).x)
    (i : Nat) (hi : i < s.n) (hty : (t.ps i).ty = .incompressibleNewton) (hk : (t.neighbors i).length ≤ 2 ^ 20)
    (hN : P.cfg.spp = true → R.val env.n0 + ((t.neighbors i).length + 1) * (R.trueDensity t i + 1) / 2 ^ 41 ≤ R.trueDensity t i) :
    ∃ N, R.Within t i N ∧ ∀ a, R.finite ((s'.ps i).u a) ∧ R.finite ((s'.ps i).x a) ∧
      |R.val ((s'.ps i).u a) - (R.val ((t.ps i).u a) + R.truePush (t.withPressures s') i N a)| ≤
        (2 * (t.neighbors i).length + 220) / 2 ^ 50 * (sz (R.val ((t.ps i).u a)) + R.pushSize (t.withPressures s') i N a) ∧
      |R.val ((s'.ps i).x a) - (R.val ((t.ps i).x a) + R.val dt * R.truePush (t.withPressures s') i N a)| ≤
        (2 * (t.neighbors i).length + 220) / 2 ^ 50 * (sz (R.val ((t.ps i).x a)) + R.val dt * R.pushSize (t.withPressures s') i N a) := by
  obtain ⟨s1, h, ht'⟩ := beforePressure_midC hv ht
  obtain ⟨s1', h', ha⟩ := forwardTime_ok hv hs'
  rw [h] at h'
  injection h' with h'
  subst h'
  obtain ⟨s2, hp, hs2⟩ := afterSearch_ok ha
  rw [← ht'] at hp
  have hds' : s' = s2.gradC P.cfg := by
    rw [hs2]; unfold State.dsC; rw [hds]; rfl
  obtain ⟨htn, hte, htre, row, hnv⟩ := R.row_before_pressure hR hD hl hnew hist hok hL hLℓ hsize hmin hpos sch hv dt hP h ht' hm
    (fun j hj hd => ⟨(hmove j hj hd).1, (hmove j hj hd).2.1⟩) hsep i hi (by rw [hty]; rfl) hk hN
  obtain ⟨e1, e2, e3, e4, e5⟩ := pressureC_only hp
  have ep : ∀ j, (s2.ps j).p = (s'.ps j).p := fun j => by rw [hds', gradC_p]
  have hps : ∀ j, s2.ps j = (t.withPressures s').ps j := fun j => by rw [e5 j, ep j]; rfl
  have hx : ∀ j, (s2.ps j).x = (t.ps j).x ∧ (s2.ps j).u = (t.ps j).u ∧ (s2.ps j).ty = (t.ps j).ty := fun j => by rw [hps]; exact ⟨rfl, rfl, rfl⟩
  have row2 : R.Row ℓ s2 i := row.congr e1 (by rw [e2]) e3 (fun j => ⟨(hx j).1, (hx j).2.2⟩)
  have enb : s2.neighbors i = t.neighbors i := by unfold State.neighbors; rw [e3]
  have hdi : (t.ps i).ty ≠ .disabled := by rw [hty]; decide
  have hv9 : ValidSched s2.n (sch 0) := by rw [e1, htn]; exact hv 0
  obtain ⟨N, ⟨w1, w2⟩, key⟩ := C71_pressure_gradient_is_accurate R hR hW hE hD P.cfg hgc s2 (by rw [e2, htre]; exact hl) hℓ (by rw [e2, hte]; exact hP) i
    (by rw [e1, htn]; exact hi) (by rw [(hx i).2.2]; exact hty) row2 (by
      intro hs
      rw [e4, e2]
      exact hnv hs)
    (fun a => by rw [(hx i).1]; exact ((hmove i hi hdi).2.2.2 a).1) (fun a => by rw [(hx i).2.1]; exact ((hmove i hi hdi).2.2.2 a).2)
    (by rw [ep]; exact (hmove i hi hdi).2.2.1)
    (fun j hj => by
      rw [enb] at hj
      obtain ⟨j1, -, j3⟩ := row.entry j hj
      rw [htn] at j1
      exact ⟨fun a => by rw [(hx j).1]; exact ((hmove j j1 j3).2.2.2 a).1, by rw [ep]; exact (hmove j j1 j3).2.2.1⟩) (sch 0) (sch 0) hv9 hv9
  rw [modifyByGradient_eq P.cfg s2 _ _ hv9 hv9, ← hds', enb, (hx i).1, (hx i).2.1] at key
  have hdt : s2.env.dt = dt := by rw [e2, hte]; rfl
  rw [hdt] at key
  refine ⟨N, ⟨?_, ?_⟩, fun a => ?_⟩
  · intro j hj
    have := w1 j hj
    rw [e1, (hx j).2.2, (hx i).1, (hx j).1, e2] at this
    exact this
  · intro j h1 h2 h3 h4
    apply w2 j
    · rw [e1]; exact h1
    · exact h2
    · rw [(hx j).2.2]; exact h3
    · rw [(hx i).1, (hx j).1, e2]; exact h4
  · have hA : R.truePush s2 i N a = R.truePush (t.withPressures s') i N a := by
      unfold Rounding.truePush
      simp only [hps, e2]
      rfl
    have hS : R.pushSize s2 i N a = R.pushSize (t.withPressures s') i N a := by
      unfold Rounding.pushSize
      simp only [hps, e2]
      rfl
    have := key a
    rw [hA, hS] at this
    exact this

/-- **C71**, a whole step of a running computer (without central gravity, gradient correction and dynamic stabilisation), from the state `s` before it to the
state `s'` after it; `s1` is the state after the neighbour search (which moves no particle and may disable some), `t` the state when the pressures are about to be computed.
The velocity of a fluid particle changes by `dt` times viscosity and gravity at `s1` plus the pressure gradient with the pressures of the step, and its position by `dt` times
the new velocity, up to rounding. -/
theorem C71_step_is_accurate (R : Rounding F) (hR : R.DoubleLike) (hW : R.Wide) (hE : R.Exact) (hD : D ≤ 3) {ℓ : F}
    {P : Params F D ω} {cfg : Config} {e : EnvArgs F D} {env : Env F D} {w : ω} {s0 s s1 t s' : State F D ω} {dts : List F}
    (hmk : Env.mk? cfg e = some env)
    (hc : R.finite e.courant ∧ 1 / 2 ^ 20 ≤ R.val e.courant ∧ R.val e.courant ≤ 1)
    (hl : R.Lengths ℓ env.re) (hℓ : 1 / 2 ^ 30 ≤ R.val ℓ)
    (hnew : State.new? env w = some s0) (hist : Hist P s0 dts s) (hok : s0.grid.ClearOK)
    (hL : R.GoodLength env.neighborLength) (hLℓ : R.val env.neighborLength ≤ 2 ^ 21 * R.val ℓ)
    (hsize : ∀ a, s0.grid.size a ≤ 2 ^ 20) (hmin : R.InRange env.neighborLength env.minX)
    (hpos : ∀ i, i < s.n → (s.ps i).ty ≠ .disabled →
      R.InRange env.neighborLength (s.ps i).x ∧ ∀ a, R.Upto 60 ((s.ps i).x a) ∧ R.Upto 30 ((s.ps i).u a))
    (hsep0 : ∀ i j, i < s.n → j < s.n → j ≠ i → (s.ps i).ty ≠ .disabled → (s.ps j).ty ≠ .disabled →
      R.val ℓ ≤ R.trueDist (s.ps i).x (s.ps j).x)
    (sch : Schedule) (hv : sch.Valid s.n) (dt : F) (hP : R.Plain (s.start dt).env)
    (hcg : P.cfg.centralGravity = false) (hgc : P.cfg.gc = false) (hds : P.cfg.ds = false)
    (h : (s.start dt).searchNeighbor (sch 0) = .ok s1) (ht : s.beforePressure P sch dt = .ok t) (hs' : s.forwardTime P sch dt = .ok s')
    {m : ℝ} (hm : R.val env.re + 2 * m ≤ (1 - 1 / 2 ^ 26) * R.val env.neighborLength)
    (hmove : ∀ j, j < s.n → (t.ps j).ty ≠ .disabled → R.trueDist (s.ps j).x (t.ps j).x ≤ m ∧ R.InRange env.neighborLength (t.ps j).x ∧
      R.Upto 60 (s'.ps j).p ∧ ∀ a, R.Upto 60 ((t.ps j).x a) ∧ R.Upto 60 ((t.ps j).u a))
    (hsep : ∀ i j, i < s.n → j < s.n → j ≠ i → (t.ps i).ty ≠ .disabled → (t.ps j).ty ≠ .disabled →
      R.val ℓ ≤ R.trueDist (t.ps i).x (t.ps j).x)
    (i : Nat) (hi : i < s.n) (hty : (s1.ps i).ty = .incompressibleNewton) (hk : (s1.neighbors i).length ≤ 2 ^ 20)
    (hN : P.cfg.spp = true →
      R.val env.n0 + ((s1.neighbors i).length + 1) * (R.trueDensity s1 i + 1) / 2 ^ 41 ≤ R.trueDensity s1 i ∧
      R.val env.n0 + ((s1.neighbors i).length + 1) * (R.trueDensity t i + 1) / 2 ^ 41 ≤ R.trueDensity t i) :
    ∃ N N', R.Within s1 i N ∧ R.Within t i N' ∧ ∀ a, R.finite ((s'.ps i).u a) ∧ R.finite ((s'.ps i).x a) ∧
      |R.val ((s'.ps i).u a) - (R.val ((s.ps i).u a) + R.val dt * R.trueAcceleration P.cfg s1 i N a + R.truePush (t.withPressures s') i N' a)| ≤
        (2 * (s1.neighbors i).length + 220) / 2 ^ 50 * (sz (R.val ((s.ps i).u a)) + R.val dt * R.accelerationSize P.cfg s1 i N a +
          sz (R.val ((t.ps i).u a)) + R.pushSize (t.withPressures s') i N' a) ∧
      |R.val ((s'.ps i).x a) - (R.val ((s.ps i).x a) + R.val dt * R.val ((s'.ps i).u a))| ≤
        (2 * (s1.neighbors i).length + 220) / 2 ^ 50 * (sz (R.val ((s.ps i).x a)) + sz (R.val ((t.ps i).x a)) +
          2 * R.val dt * (sz (R.val ((t.ps i).u a)) + R.pushSize (t.withPressures s') i N' a)) := by
  obtain ⟨s1', h', ht'⟩ := beforePressure_midC hv ht
  rw [h] at h'
  injection h' with h'
  subst h'
  have htt : (t.ps i).ty = .incompressibleNewton := by rw [ht', midC_ty]; exact hty
  have enb : t.neighbors i = s1.neighbors i := by
    unfold State.neighbors
    have : t.nbr = s1.nbr := by
      rw [ht']
      unfold State.midC
      rw [saveX_nbr]
      rfl
    rw [this]
  obtain ⟨N, n1, n2⟩ := C71_first_stage_of_a_step_is_accurate R hR hW hE hD hmk hc hl hℓ hnew hist hok hL hLℓ hsize hmin hpos hsep0 sch hv dt hP hcg h ht i hi hty hk
    (fun hs => (hN hs).1)
  obtain ⟨N', m1, m2⟩ := C71_second_stage_of_a_step_is_accurate R hR hW hE hD hl hℓ hnew hist hok hL hLℓ hsize hmin (fun i h1 h2 => (hpos i h1 h2).1) sch hv dt hP hgc hds ht
    hs' hm hmove hsep i hi htt (by rw [enb]; exact hk) (fun hs => by rw [enb]; exact (hN hs).2)
  rw [enb] at m2
  refine ⟨N, N', n1, m1, fun a => ?_⟩
  obtain ⟨-, -, a3, a4⟩ := n2 a
  obtain ⟨b1, b2, b3, b4⟩ := m2 a
  have dt0 : 0 < R.val dt := hP.dt.pos
  have hk0 : (0 : ℝ) ≤ (s1.neighbors i).length := Nat.cast_nonneg _
  generalize ((s1.neighbors i).length : ℝ) = k at *
  have hA : 0 ≤ sz (R.val ((s.ps i).u a)) + R.val dt * R.accelerationSize P.cfg s1 i N a := by
    have h2 : (0 : ℝ) < (2 * k + 200) / 2 ^ 50 := by positivity
    exact nonneg_of_mul_nonneg_right (le_trans (abs_nonneg _) a3) h2
  have hB : 0 ≤ sz (R.val ((t.ps i).u a)) + R.pushSize (t.withPressures s') i N' a := by
    have h2 : (0 : ℝ) < (2 * k + 220) / 2 ^ 50 := by positivity
    exact nonneg_of_mul_nonneg_right (le_trans (abs_nonneg _) b3) h2
  have hC : 0 ≤ sz (R.val ((s.ps i).x a)) + R.val dt * sz (R.val ((t.ps i).u a)) :=
    add_nonneg (sz_pos _).le (mul_nonneg dt0.le (sz_pos _).le)
  have hε : (2 * k + 200) / 2 ^ 50 ≤ (2 * k + 220) / 2 ^ 50 := by
    apply div_le_div_of_nonneg_right _ (by positivity)
    linarith
  have hε' : (8 : ℝ) / 2 ^ 50 ≤ (2 * k + 220) / 2 ^ 50 := by
    apply div_le_div_of_nonneg_right _ (by positivity)
    linarith
  have a3' := a3.trans (mul_le_mul_of_nonneg_right hε hA)
  have a4' := a4.trans (mul_le_mul_of_nonneg_right hε' hC)
  generalize (2 * k + 220) / 2 ^ 50 = ε at *
  clear a3 a4 hε hε'
  refine ⟨b1, b2, ?_, ?_⟩
  · have e : R.val ((s'.ps i).u a) - (R.val ((s.ps i).u a) + R.val dt * R.trueAcceleration P.cfg s1 i N a + R.truePush (t.withPressures s') i N' a) =
      (R.val ((s'.ps i).u a) - (R.val ((t.ps i).u a) + R.truePush (t.withPressures s') i N' a)) +
      (R.val ((t.ps i).u a) - (R.val ((s.ps i).u a) + R.val dt * R.trueAcceleration P.cfg s1 i N a)) := by ring
    rw [e]
    refine (abs_add_le _ _).trans ?_
    linarith
  · have e : R.val ((s'.ps i).x a) - (R.val ((s.ps i).x a) + R.val dt * R.val ((s'.ps i).u a)) =
      (R.val ((s'.ps i).x a) - (R.val ((t.ps i).x a) + R.val dt * R.truePush (t.withPressures s') i N' a)) +
      (R.val ((t.ps i).x a) - (R.val ((s.ps i).x a) + R.val dt * R.val ((t.ps i).u a))) -
      R.val dt * (R.val ((s'.ps i).u a) - (R.val ((t.ps i).u a) + R.truePush (t.withPressures s') i N' a)) := by ring
    rw [e]
    refine (abs_sub _ _).trans ?_
    have := abs_add_le (R.val ((s'.ps i).x a) - (R.val ((t.ps i).x a) + R.val dt * R.truePush (t.withPressures s') i N' a))
      (R.val ((t.ps i).x a) - (R.val ((s.ps i).x a) + R.val dt * R.val ((t.ps i).u a)))
    rw [abs_mul, abs_of_pos dt0]
    have := mul_le_mul_of_nonneg_left b3 dt0.le
    linarith

end OpenMps
