import Verif.Props.RoundingForces
import Verif.Lemmas.Before

/-! # C71 in a running computer -/

set_option linter.unusedSectionVars false
set_option exponentiation.threshold 1000

namespace OpenMps

variable {F : Type} [Scalar F] {D : Nat} {ω : Type}

/-- The row of an enabled particle after the neighbour search. -/
theorem Rounding.row_after_search (R : Rounding F) (hR : R.DoubleLike) (hD : D ≤ 3) {ℓ : F}
    {P : Params F D ω} {cfg : Config} {e : EnvArgs F D} {env : Env F D} {w : ω} {s0 s s1 : State F D ω} {dts : List F}
    (hmk : Env.mk? cfg e = some env)
    (hc : R.finite e.courant ∧ 1 / 2 ^ 20 ≤ R.val e.courant ∧ R.val e.courant ≤ 1)
    (hl : R.Lengths ℓ env.re) (hΩ : 4 * R.val env.re ≤ R.Ω)
    (hnew : State.new? env w = some s0) (hist : Hist P s0 dts s) (hok : s0.grid.ClearOK)
    (hL : R.GoodLength env.neighborLength) (hLℓ : R.val env.neighborLength ≤ 2 ^ 21 * R.val ℓ)
    (hsize : ∀ a, s0.grid.size a ≤ 2 ^ 20) (hmin : R.InRange env.neighborLength env.minX)
    (hpos : ∀ i, i < s.n → (s.ps i).ty ≠ .disabled → R.InRange env.neighborLength (s.ps i).x)
    (hsep : ∀ i j, i < s.n → j < s.n → j ≠ i → (s.ps i).ty ≠ .disabled → (s.ps j).ty ≠ .disabled →
      R.val ℓ ≤ R.trueDist (s.ps i).x (s.ps j).x)
    (sch : Schedule) (hv : sch.Valid s.n) (dt : F) (h : (s.start dt).searchNeighbor (sch 0) = .ok s1)
    (i : Nat) (hi : i < s.n) (hdi : (s1.ps i).ty ≠ .disabled) (hk : (s1.neighbors i).length ≤ 2 ^ 20) :
    R.Row ℓ s1 i ∧ s1.env = (s.start dt).env ∧ s1.env.re = env.re ∧ s1.env.n0 = env.n0 ∧ s1.n = s.n ∧ (s.ps i).ty ≠ .disabled ∧
      (∀ j, (s1.ps j).x = (s.ps j).x ∧ (s1.ps j).u = (s.ps j).u ∧ (s1.ps j).p = (s.ps j).p) ∧
      ∀ j, j < s.n → (s1.ps j).ty ≠ .disabled → (s.ps j).ty ≠ .disabled := by
  obtain ⟨b0, b1, b2, b3, b4⟩ := hist.geometry hnew
  obtain ⟨-, h2, -⟩ := hist.frame
  have hok' : (s.start dt).grid.ClearOK := h2.clearOK.mpr hok
  obtain ⟨n1, n2⟩ := neighbors_iff (s := s.start dt) (hv 0) hok' b0 h
  have henv : s.env.re = env.re ∧ s.env.n0 = env.n0 := by
    have e0 : s0.env = env := by
      unfold State.new? at hnew
      cases hm : Grid.mk? env.neighborLength env.l0 env.minX env.maxX with
      | none => rw [hm] at hnew; cases hnew
      | some g =>
        rw [hm] at hnew
        simp only [Option.some.injEq] at hnew
        rw [← hnew]
    refine Hist.rec' (Q := fun _ s => s.env.re = env.re ∧ s.env.n0 = env.n0) (by rw [e0]; exact ⟨rfl, rfl⟩) ?_ ?_ hist
    · intro _ _ _ _ h; exact h
    · intro _ _ _ _ _ _ h hv hl
      rw [(step_frame hv hl).2.1]; exact h
  obtain ⟨g0, g, nb, -, -, hs1, -, -⟩ := searchNeighbor_ok_frame (s := s.start dt) (hv 0) h
  have hxu : ∀ j, (s1.ps j).x = (s.ps j).x ∧ (s1.ps j).u = (s.ps j).u ∧ (s1.ps j).p = (s.ps j).p := by
    intro j
    have := marked_ps ({ s.start dt with grid := g0 } : State F D ω) (List.range (s.start dt).n) g j
    rw [hs1]
    exact ⟨this.1, this.2.1, this.2.2.1⟩
  have hx : ∀ j, (s1.ps j).x = (s.ps j).x := fun j => (hxu j).1
  have hn : s1.n = s.n := by rw [hs1]; rfl
  have hen : s1.env = (s.start dt).env := by rw [hs1]; rfl
  have hre1 : s1.env.re = env.re := by rw [hen]; exact henv.1
  have hn01 : s1.env.n0 = env.n0 := by rw [hen]; exact henv.2
  obtain ⟨-, t2, t3⟩ := C08_neighbour_table_valid (s := s.start dt) (hv 0) hok' b0 h i hi hdi
  have ei := (n1 i hi hdi).1
  have xi := hpos i hi ei
  refine ⟨⟨t2, ?_, ?_, hk, fun a => by rw [hx]; exact (xi a).1, ?_⟩, hen, hre1, hn01, hn, ei, hxu, fun j hj hd => (n1 j hj hd).1⟩
  · exact t3
  · intro j hj hji hdj hd
    rw [hn] at hj
    rw [hx, hx, hre1] at hd
    exact C47_radius_of_influence_covered R hR hD hmk hc ⟨hl.finite, (hl.good.pos.trans_le hl.le).le, hΩ⟩ (le_trans (by norm_num) hl.Ω) hnew hist hok hL hsize
      hmin hpos sch hv dt h i j hi hj hji hdi hdj hd.le
  · intro j hj
    obtain ⟨j1, j2, j3⟩ := t3 j hj
    rw [hn] at j1
    have ej := (n1 j j1 j3).1
    have xj := hpos j j1 ej
    have far := (C47_no_neighbour_lost_by_rounding R hR hD hnew hist hok hL hsize hmin hpos sch hv dt h i j hi j1 j2 hdi j3).2 hj
    have hp := hL.pos
    refine ⟨fun a => by rw [hx]; exact (xj a).1, fun a => ?_, fun a => ?_, ?_⟩
    · rw [hx, hx]
      refine (abs_sub _ _).trans ?_
      have := (xi a).2.1
      have := (xj a).2.1
      have := abs_nonneg (R.val ((s.ps i).x a))
      linarith
    · rw [hx, hx]
      have h3 : |R.val ((s.ps i).x a) - R.val ((s.ps j).x a)| ≤ R.trueDist (s.ps i).x (s.ps j).x := by
        unfold Rounding.trueDist
        apply Real.abs_le_sqrt
        exact Finset.single_le_sum (f := fun a => (R.val ((s.ps i).x a) - R.val ((s.ps j).x a)) ^ 2)
          (fun a _ => sq_nonneg _) (Finset.mem_univ a)
      norm_num at far hLℓ ⊢
      linarith
    · rw [hx, hx]; exact hsep i j hi j1 j2 ei ej

/-- With SPP: a particle whose exact density exceeds `n_0` by the rounding error gets no virtual neighbour. -/
theorem Rounding.noVirtual_of_density (R : Rounding F) (hR : R.DoubleLike) (hD : D ≤ 3) {ℓ : F} {t : State F D ω} (hl : R.Lengths ℓ t.env.re)
    (hn0 : R.finite t.env.n0) {i : ℕ} (hi : i < t.n) (hact : (t.ps i).ty.active = true) (h : R.Row ℓ t i) (cfg : Config)
    (hN : cfg.spp = true → R.val t.env.n0 + ((t.neighbors i).length + 1) * (R.trueDensity t i + 1) / 2 ^ 41 ≤ R.trueDensity t i) :
    R.NoVirtual cfg (t.densC cfg) i := by
  intro hs
  have hNd := R.trueDensity_list t i h.nodup h.entry h.cover
  have hst : (t.densC cfg).nNoSpp i = (t.densCompute cfg i).1 := by
    unfold State.densC
    simp only [hs, if_true]
    rw [if_pos hi]
  rw [hst]
  refine ⟨?_, hn0, ?_⟩ <;>
  · unfold State.densCompute
    simp only [if_pos hact]
    unfold State.accumulate
    simp only [hs, if_true, Bool.true_and]
    have hlt : Scalar.lt t.env.n0 t.env.n0 = false := by
      cases h : Scalar.lt t.env.n0 t.env.n0 with
      | false => rfl
      | true => exact absurd ((R.lt hn0 hn0).mp h) (lt_irrefl _)
    have hspp : ∀ g : Vec F D, State.sppParticle { t with nNoSpp := upd t.nNoSpp i t.env.n0 } i g = none := by
      intro g
      unfold State.sppParticle
      simp only [upd, if_true, hlt, Bool.false_eq_true, if_false]
    rw [hspp]
    simp only
    obtain ⟨a1, a2⟩ := R.accLoop_accurate hR hD { t with nNoSpp := upd t.nNoSpp i t.env.n0 } hl i (fun j hj => (h.entry j hj).2.1) h.length h.this h.pair
      (fun j q' => if decide (j < 0) = true then 0 else W (dist (t.ps i).x q'.x) t.env.re) (fun j hj => by
        rw [if_neg]; simp) _ hNd
    have h1 := hN hs
    rw [abs_le] at a2
    have a3 := a2.1
    change -(((t.neighbors i).length + 1) * (R.trueDensity t i + 1) / 2 ^ 41) ≤ _ at a3
    first
      | exact a1
      | (change R.val t.env.n0 ≤ _
         linarith)

theorem Rounding.Row.congr {R : Rounding F} {ℓ : F} {t t' : State F D ω} {i : ℕ} (h : R.Row ℓ t i) (hn : t'.n = t.n) (hre : t'.env.re = t.env.re)
    (hnb : t'.nbr = t.nbr) (hps : ∀ j, (t'.ps j).x = (t.ps j).x ∧ (t'.ps j).ty = (t.ps j).ty) : R.Row ℓ t' i := by
  have e : t'.neighbors i = t.neighbors i := by unfold State.neighbors; rw [hnb]
  refine ⟨by rw [e]; exact h.nodup, ?_, ?_, by rw [e]; exact h.length, fun a => by rw [(hps i).1]; exact h.this a, ?_⟩
  · intro j hj
    rw [e] at hj
    rw [hn, (hps j).2]
    exact h.entry j hj
  · intro j h1 h2 h3 h4
    rw [e]
    rw [hn] at h1
    rw [(hps j).2] at h3
    rw [(hps i).1, (hps j).1, hre] at h4
    exact h.cover j h1 h2 h3 h4
  · intro j hj
    rw [e] at hj
    rw [(hps i).1, (hps j).1]
    exact h.pair j hj

/-- The first stage of a step if the virtual neighbour is harmless. -/
theorem Rounding.first_stage_of_a_step (R : Rounding F) (hR : R.DoubleLike) (hW : R.Wide) (hE : R.Exact) (hD : D ≤ 3) {ℓ : F}
    {P : Params F D ω} {cfg : Config} {e : EnvArgs F D} {env : Env F D} {w : ω} {s0 s s1 t : State F D ω} {dts : List F}
    (hmk : Env.mk? cfg e = some env)
    (hc : R.finite e.courant ∧ 1 / 2 ^ 20 ≤ R.val e.courant ∧ R.val e.courant ≤ 1)
    (hl : R.Lengths ℓ env.re) (hℓ : 1 / 2 ^ 30 ≤ R.val ℓ)
    (hnew : State.new? env w = some s0) (hist : Hist P s0 dts s) (hok : s0.grid.ClearOK)
    (hL : R.GoodLength env.neighborLength) (hLℓ : R.val env.neighborLength ≤ 2 ^ 21 * R.val ℓ)
    (hsize : ∀ a, s0.grid.size a ≤ 2 ^ 20) (hmin : R.InRange env.neighborLength env.minX)
    (hpos : ∀ i, i < s.n → (s.ps i).ty ≠ .disabled →
      R.InRange env.neighborLength (s.ps i).x ∧ ∀ a, R.Upto 60 ((s.ps i).x a) ∧ R.Upto 30 ((s.ps i).u a))
    (hsep : ∀ i j, i < s.n → j < s.n → j ≠ i → (s.ps i).ty ≠ .disabled → (s.ps j).ty ≠ .disabled →
      R.val ℓ ≤ R.trueDist (s.ps i).x (s.ps j).x)
    (sch : Schedule) (hv : sch.Valid s.n) (dt : F) (hP : R.Plain (s.start dt).env) (hcg : P.cfg.centralGravity = false)
    (h : (s.start dt).searchNeighbor (sch 0) = .ok s1) (ht : s.beforePressure P sch dt = .ok t)
    (i : Nat) (hi : i < s.n) (hty : (s1.ps i).ty = .incompressibleNewton) (hk : (s1.neighbors i).length ≤ 2 ^ 20)
    (hH : R.Lengths ℓ s1.env.re → R.Plain s1.env → s1.env.n0 = env.n0 → i < s1.n → R.Row ℓ s1 i → R.Row ℓ ((s1.densC P.cfg).ecsC P.cfg) i →
      (∀ j, (s1.ps j).x = (s.ps j).x ∧ (s1.ps j).u = (s.ps j).u ∧ (s1.ps j).p = (s.ps j).p) → (s.ps i).ty ≠ .disabled → s1.env.re = env.re →
      R.Harmless P.cfg ((s1.densC P.cfg).ecsC P.cfg) i) :
    ∃ N, R.Within s1 i N ∧ ∀ a, R.finite ((t.ps i).u a) ∧ R.finite ((t.ps i).x a) ∧
      |R.val ((t.ps i).u a) - (R.val ((s.ps i).u a) + R.val dt * R.trueAcceleration P.cfg s1 i N a)| ≤
        (2 * (s1.neighbors i).length + 200) / 2 ^ 50 * (sz (R.val ((s.ps i).u a)) + R.val dt * R.accelerationSize P.cfg s1 i N a) ∧
      |R.val ((t.ps i).x a) - (R.val ((s.ps i).x a) + R.val dt * R.val ((t.ps i).u a))| ≤
        8 / 2 ^ 50 * (sz (R.val ((s.ps i).x a)) + R.val dt * sz (R.val ((t.ps i).u a))) := by
  have hΩ : 4 * R.val env.re ≤ R.Ω := by
    have h1 : (s.start dt).env.re = env.re := by
      have henv : s.env.re = env.re := by
        have e0 : s0.env = env := by
          unfold State.new? at hnew
          cases hm : Grid.mk? env.neighborLength env.l0 env.minX env.maxX with
          | none => rw [hm] at hnew; cases hnew
          | some g =>
            rw [hm] at hnew
            simp only [Option.some.injEq] at hnew
            rw [← hnew]
        refine Hist.rec' (Q := fun _ s => s.env.re = env.re) (by rw [e0]) ?_ ?_ hist
        · intro _ _ _ _ h; exact h
        · intro _ _ _ _ _ _ h hv hl
          rw [(step_frame hv hl).2.1]; exact h
      exact henv
    have h2 := hP.re.2.2
    rw [h1] at h2
    have h3 := hl.Ω
    norm_num at h2 h3
    linarith
  have hdi : (s1.ps i).ty ≠ .disabled := by rw [hty]; decide
  obtain ⟨row, r2, r3, r4, r5, r6, r7, r8⟩ := R.row_after_search hR hD hmk hc hl hΩ hnew hist hok hL hLℓ hsize hmin (fun i h1 h2 => (hpos i h1 h2).1) hsep sch hv dt h
    i hi hdi hk
  obtain ⟨s1', h', ht'⟩ := beforePressure_midC hv ht
  rw [h] at h'
  injection h' with h'
  subst h'
  have hl1 : R.Lengths ℓ s1.env.re := by rw [r3]; exact hl
  have hP1 : R.Plain s1.env := by rw [r2]; exact hP
  set t0 := (s1.densC P.cfg).ecsC P.cfg with ht0
  have hecs : t0.ps = (s1.densC P.cfg).ps ∧ t0.n = s1.n ∧ t0.env = s1.env ∧ t0.nbr = s1.nbr ∧ t0.nNoSpp = (s1.densC P.cfg).nNoSpp := by
    rw [ht0]
    unfold State.ecsC
    split <;> exact ⟨rfl, rfl, rfl, rfl, rfl⟩
  obtain ⟨c1, c2, c3, c4, c5⟩ := hecs
  have hps : ∀ j, (t0.ps j).x = (s1.ps j).x ∧ (t0.ps j).u = (s1.ps j).u ∧ (t0.ps j).ty = (s1.ps j).ty := by
    intro j
    rw [c1]
    exact ⟨densC_x .., densC_u .., densC_ty ..⟩
  have row0 : R.Row ℓ t0 i := row.congr c2 (by rw [c3]) c4 (fun j => ⟨(hps j).1, (hps j).2.2⟩)
  have enb : t0.neighbors i = s1.neighbors i := by unfold State.neighbors; rw [c4]
  have hv' : ValidSched t0.n (sch 3) ∧ ValidSched t0.n (sch 4) := by rw [c2, r5]; exact ⟨hv 3, hv 4⟩
  obtain ⟨N, w1, w2⟩ := Rounding.first_stage hR hW hE hD P t0 (by rw [c3]; exact hl1) hℓ (by rw [c3]; exact hP1) i (by rw [c2, r5]; exact hi)
    (by rw [(hps i).2.2]; exact hty) row0 hcg (hH hl1 hP1 r4 (by rw [r5]; exact hi) row row0 r7 r6 r3)
    (fun a => by rw [(hps i).1, (r7 i).1]; exact ((hpos i hi r6).2 a).1)
    (fun a => by rw [(hps i).2.1, (r7 i).2.1]; exact ((hpos i hi r6).2 a).2)
    (fun j hj a => by
      rw [enb] at hj
      obtain ⟨j1, -, j3⟩ := row.entry j hj
      rw [r5] at j1
      rw [(hps j).2.1, (r7 j).2.1]
      exact ((hpos j j1 (r8 j j1 j3)).2 a).2) (sch 3) (sch 4) hv'.1 hv'.2
  have hmid : (t.ps i).x = ((t0.computeExplicit P (sch 3) (sch 4)).ps i).x ∧ (t.ps i).u = ((t0.computeExplicit P (sch 3) (sch 4)).ps i).u := by
    rw [computeExplicit_eq P t0 _ _ hv'.1 hv'.2, ht']
    unfold State.midC State.saveX
    split <;> exact ⟨densC_x .., densC_u ..⟩
  have hdt : t0.env.dt = dt := by rw [c3, r2]; rfl
  refine ⟨N, ?_, ?_⟩
  · obtain ⟨v1, v2⟩ := w1
    constructor
    · intro j hj
      have := v1 j hj
      rw [c2, (hps j).2.2, (hps i).1, (hps j).1, c3] at this
      exact this
    · intro j h1 h2 h3 h4
      apply v2 j
      · rw [c2]; exact h1
      · exact h2
      · rw [(hps j).2.2]; exact h3
      · rw [(hps i).1, (hps j).1, c3]; exact h4
  · intro a
    have := w2 a
    rw [← hmid.1, ← hmid.2, hdt, enb, (hps i).1, (hps i).2.1, (r7 i).1, (r7 i).2.1] at this
    have hA : R.trueAcceleration P.cfg t0 i N a = R.trueAcceleration P.cfg s1 i N a := by
      unfold Rounding.trueAcceleration
      simp only [hps, c3]
    have hS : R.accelerationSize P.cfg t0 i N a = R.accelerationSize P.cfg s1 i N a := by
      unfold Rounding.accelerationSize
      simp only [hps, c3]
    rw [hA, hS] at this
    exact this

/-- **C71**, in a step of a running computer.  In a computer made from accepted constants, after any history, in a box of up to `2^20` blocks per axis,
with particles in the range of the arithmetic and not closer than `ℓ`: whatever table the search of the next step builds and whatever order the threads
work in, the first stage of the step - after densities and error compensation - gives every fluid particle (with SPP: every one whose density is safely above
`n_0`) the exact acceleration up to rounding. -/
theorem C71_first_stage_of_a_step_is_accurate (R : Rounding F) (hR : R.DoubleLike) (hW : R.Wide) (hE : R.Exact) (hD : D ≤ 3) {ℓ : F}
    {P : Params F D ω} {cfg : Config} {e : EnvArgs F D} {env : Env F D} {w : ω} {s0 s s1 t : State F D ω} {dts : List F}
    (hmk : Env.mk? cfg e = some env)
    (hc : R.finite e.courant ∧ 1 / 2 ^ 20 ≤ R.val e.courant ∧ R.val e.courant ≤ 1)
    (hl : R.Lengths ℓ env.re) (hℓ : 1 / 2 ^ 30 ≤ R.val ℓ)
    (hnew : State.new? env w = some s0) (hist : Hist P s0 dts s) (hok : s0.grid.ClearOK)
    (hL : R.GoodLength env.neighborLength) (hLℓ : R.val env.neighborLength ≤ 2 ^ 21 * R.val ℓ)
    (hsize : ∀ a, s0.grid.size a ≤ 2 ^ 20) (hmin : R.InRange env.neighborLength env.minX)
    (hpos : ∀ i, i < s.n → (s.ps i).ty ≠ .disabled →
      R.InRange env.neighborLength (s.ps i).x ∧ ∀ a, R.Upto 60 ((s.ps i).x a) ∧ R.Upto 30 ((s.ps i).u a))
    (hsep : ∀ i j, i < s.n → j < s.n → j ≠ i → (s.ps i).ty ≠ .disabled → (s.ps j).ty ≠ .disabled →
      R.val ℓ ≤ R.trueDist (s.ps i).x (s.ps j).x)
    (sch : Schedule) (hv : sch.Valid s.n) (dt : F) (hP : R.Plain (s.start dt).env) (hcg : P.cfg.centralGravity = false)
    (h : (s.start dt).searchNeighbor (sch 0) = .ok s1) (ht : s.beforePressure P sch dt = .ok t)
    (i : Nat) (hi : i < s.n) (hty : (s1.ps i).ty = .incompressibleNewton) (hk : (s1.neighbors i).length ≤ 2 ^ 20)
    (hN : P.cfg.spp = true →
      R.val env.n0 + ((s1.neighbors i).length + 1) * (R.trueDensity s1 i + 1) / 2 ^ 41 ≤ R.trueDensity s1 i) :
    ∃ N, R.Within s1 i N ∧ ∀ a, R.finite ((t.ps i).u a) ∧ R.finite ((t.ps i).x a) ∧
      |R.val ((t.ps i).u a) - (R.val ((s.ps i).u a) + R.val dt * R.trueAcceleration P.cfg s1 i N a)| ≤
        (2 * (s1.neighbors i).length + 200) / 2 ^ 50 * (sz (R.val ((s.ps i).u a)) + R.val dt * R.accelerationSize P.cfg s1 i N a) ∧
      |R.val ((t.ps i).x a) - (R.val ((s.ps i).x a) + R.val dt * R.val ((t.ps i).u a))| ≤
        8 / 2 ^ 50 * (sz (R.val ((s.ps i).x a)) + R.val dt * sz (R.val ((t.ps i).u a))) :=
  R.first_stage_of_a_step hR hW hE hD hmk hc hl hℓ hnew hist hok hL hLℓ hsize hmin hpos hsep sch hv dt hP hcg h ht i hi hty hk (by
    intro hl1 hP1 r4 hi1 row _ _ _ _
    have nv := R.noVirtual_of_density hR hD hl1 hP1.n0.1 hi1 (by rw [hty]; rfl) row P.cfg (by rw [r4]; exact hN)
    have e : ((s1.densC P.cfg).ecsC P.cfg).nNoSpp = (s1.densC P.cfg).nNoSpp ∧ ((s1.densC P.cfg).ecsC P.cfg).env = (s1.densC P.cfg).env := by
      unfold State.ecsC
      split <;> exact ⟨rfl, rfl⟩
    refine Or.inl (Rounding.NoVirtual.accumulate (R := R) ?_ _ _)
    intro hs
    rw [e.1, e.2]
    exact nv hs)

end OpenMps
