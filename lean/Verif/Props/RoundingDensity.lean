import Verif.Lemmas.RoundingDensity
import Verif.Props.Rounding

/-! # C63: rounding does not spoil the number density -/

set_option linter.unusedSectionVars false

namespace OpenMps

variable {F : Type} [Scalar F] {D : Nat} {ω : Type}

/-- The exact number density of particle `i` at the stored positions: the sum of `w(|x_j - x_i|)` over the other enabled particles, in real numbers. -/
noncomputable def Rounding.trueDensity (R : Rounding F) (s : State F D ω) (i : Nat) : ℝ :=
  ∑ j ∈ (Finset.range s.n).filter (fun j => j ≠ i ∧ (s.ps j).ty ≠ .disabled),
    Ref.weight (R.val s.env.re) (R.trueDist (s.ps i).x (s.ps j).x)

theorem Rounding.trueDist_comm (R : Rounding F) (x y : Vec F D) : R.trueDist x y = R.trueDist y x := by
  unfold Rounding.trueDist
  congr 1
  exact Finset.sum_congr rfl (fun a _ => by ring)

theorem weight_nonneg' {re r : ℝ} : 0 ≤ Ref.weight re r := by
  unfold Ref.weight
  split
  · rename_i h
    have := (one_lt_div h.1).mpr h.2
    linarith
  · exact le_refl _

theorem Rounding.stdMax_val (R : Rounding F) {a b : F} (ha : R.finite a) (hb : R.finite b) :
    R.finite (stdMax a b) ∧ R.val (stdMax a b) = max (R.val a) (R.val b) := by
  unfold stdMax
  split
  · rename_i h
    exact ⟨hb, (max_eq_right ((R.lt ha hb).mp h).le).symm⟩
  · rename_i h
    have : ¬ R.val a < R.val b := fun k => h ((R.lt ha hb).mpr k)
    exact ⟨ha, (max_eq_left (not_lt.mp this)).symm⟩

/-- The sum over the table is the exact density. -/
theorem Rounding.trueDensity_list (R : Rounding F) (t : State F D ω) (i : Nat) (hnd : (t.neighbors i).Nodup)
    (hin : ∀ j ∈ t.neighbors i, j < t.n ∧ j ≠ i ∧ (t.ps j).ty ≠ .disabled)
    (hcov : ∀ j, j < t.n → j ≠ i → (t.ps j).ty ≠ .disabled → R.trueDist (t.ps i).x (t.ps j).x < R.val t.env.re → j ∈ t.neighbors i) :
    ((t.neighbors i).map (fun j => Ref.weight (R.val t.env.re) (R.trueDist (t.ps i).x (t.ps j).x))).sum = R.trueDensity t i := by
  unfold Rounding.trueDensity
  rw [← List.sum_toFinset _ hnd]
  apply Finset.sum_subset
  · intro j hj
    rw [List.mem_toFinset] at hj
    obtain ⟨h1, h2, h3⟩ := hin j hj
    rw [Finset.mem_filter, Finset.mem_range]
    exact ⟨h1, h2, h3⟩
  · intro j hj hn
    rw [Finset.mem_filter, Finset.mem_range] at hj
    rw [List.mem_toFinset] at hn
    unfold Ref.weight
    rw [if_neg]
    rintro ⟨-, h⟩
    exact hn (hcov j hj.1 hj.2.1 hj.2.2 h)

/-- The sum of the weights over the table. -/
theorem Rounding.accLoop_accurate (R : Rounding F) (hR : R.DoubleLike) (hD : D ≤ 3) {ℓ : F} (t : State F D ω) (hl : R.Lengths ℓ t.env.re) (i : Nat)
    (hne : ∀ j ∈ t.neighbors i, j ≠ i)
    (hk : (t.neighbors i).length ≤ 2 ^ 20)
    (hxi : ∀ a, R.finite ((t.ps i).x a))
    (hpair : ∀ j ∈ t.neighbors i, (∀ a, R.finite ((t.ps j).x a)) ∧ (∀ a, |R.val ((t.ps i).x a) - R.val ((t.ps j).x a)| ≤ R.Ω) ∧
      (∀ a, |R.val ((t.ps i).x a) - R.val ((t.ps j).x a)| ≤ 2 ^ 22 * R.val ℓ) ∧ R.val ℓ ≤ R.trueDist (t.ps i).x (t.ps j).x)
    (f : Int → Particle F D → F) (hf : ∀ j ∈ t.neighbors i, f j (t.ps j) = W (dist (t.ps i).x (t.ps j).x) t.env.re) (N : ℝ)
    (hN : ((t.neighbors i).map (fun j => Ref.weight (R.val t.env.re) (R.trueDist (t.ps i).x (t.ps j).x))).sum = N) :
    R.finite (t.accLoop i (0 : F) f).1 ∧
    |R.val (t.accLoop i (0 : F) f).1 - N| ≤ ((t.neighbors i).length + 1) * (N + 1) / 2 ^ 41 := by
  have he : e50 = 1 / 2 ^ 50 := rfl
  have e0 : 0 < e50 := by rw [he]; norm_num
  have hp := hl.good.pos
  have hre : 0 < R.val t.env.re := lt_of_lt_of_le hp hl.le
  set w : ℕ → ℝ := fun j => Ref.weight (R.val t.env.re) (R.trueDist (t.ps i).x (t.ps j).x) with hw
  set a : ℕ → ℝ := fun j => 128 * e50 * (R.val t.env.re / R.trueDist (t.ps i).x (t.ps j).x + 1) with ha
  unfold State.accLoop
  simp only
  set step : F × Vec F D → ℕ → F × Vec F D := fun acc j =>
    if j ≠ i then
      if Scalar.lt (dot ((t.ps j).x - (t.ps i).x) ((t.ps j).x - (t.ps i).x)) (t.env.re * t.env.re) = true then
        (acc.1 + f (j : Int) (t.ps j), acc.2 + smul (W (Scalar.sqrt (dot ((t.ps j).x - (t.ps i).x) ((t.ps j).x - (t.ps i).x))) t.env.re)
          ((t.ps j).x - (t.ps i).x))
      else acc
    else acc with hstep
  have key := R.sum_accurate hR hl.Ω step (fun j => f (j : Int) (t.ps j)) w a (t.neighbors i) (0, 0) 0 0 0 R.zero.1 (le_refl _)
    (by norm_num) (le_refl _) (by norm_num) (by rw [R.zero.2]; simp) (by simpa using hk) (by
      intro j hj
      obtain ⟨p1, p2, p3, p4⟩ := hpair j hj
      have r0 : 0 < R.trueDist (t.ps i).x (t.ps j).x := lt_of_lt_of_le hp p4
      have q0 : 0 < R.val t.env.re / R.trueDist (t.ps i).x (t.ps j).x := div_pos hre r0
      have q1 : R.val t.env.re / R.trueDist (t.ps i).x (t.ps j).x ≤ 2 ^ 20 := by
        rw [div_le_iff₀ r0]
        exact hl.ge.trans (mul_le_mul_of_nonneg_left p4 (by norm_num))
      obtain ⟨-, d1, d2⟩ := R.dist_accurate hR hl.good hD (t.ps i).x (t.ps j).x hxi p1 p2 p3 p4
      have p2' : ∀ a, |R.val ((t.ps j).x a) - R.val ((t.ps i).x a)| ≤ R.Ω := fun a => by rw [abs_sub_comm]; exact p2 a
      have p3' : ∀ a, |R.val ((t.ps j).x a) - R.val ((t.ps i).x a)| ≤ 2 ^ 22 * R.val ℓ := fun a => by rw [abs_sub_comm]; exact p3 a
      obtain ⟨⟨s1, s2⟩, -⟩ := R.dist_accurate hR hl.good hD (t.ps j).x (t.ps i).x p1 hxi p2' p3' (by rw [R.trueDist_comm]; exact p4)
      rw [R.trueDist_comm] at s2
      obtain ⟨w1, w2⟩ := R.weight_accurate hR hl p4 d1 d2
      refine ⟨weight_nonneg', ?_, ?_, ?_, ?_⟩
      · simp only [hw]
        rw [weight_eq_max r0]
        exact max_le (by linarith) (by norm_num)
      · simp only [ha]; positivity
      · simp only [ha]
        rw [he]
        norm_num at q1 ⊢
        linarith
      · by_cases hlt : Scalar.lt (dot ((t.ps j).x - (t.ps i).x) ((t.ps j).x - (t.ps i).x)) (t.env.re * t.env.re) = true
        · right
          refine ⟨fun s => ?_, ?_, ?_⟩
          · simp only [hstep]
            rw [if_pos (hne j hj), if_pos hlt]
          · rw [hf j hj]; exact w1
          · rw [hf j hj]; exact w2
        · left
          intro s
          constructor
          · simp only [hstep]
            rw [if_pos (hne j hj), if_neg hlt]
          · exact R.far_weight hR hl p4 s1 s2 (by simpa using hlt))
  refine ⟨key.1, ?_⟩
  have k2 := key.2
  rw [zero_add, zero_add, zero_add, hN] at k2
  refine k2.trans ?_
  have hNn : 0 ≤ N := by
    rw [← hN]
    apply List.sum_nonneg
    intro x hx
    obtain ⟨j, -, rfl⟩ := List.mem_map.mp hx
    exact weight_nonneg'
  have hA : ((t.neighbors i).map a).sum ≤ 128 * e50 * (N + 2 * (t.neighbors i).length) := by
    rw [← hN]
    have : ∀ l : List ℕ, (∀ j ∈ l, R.val ℓ ≤ R.trueDist (t.ps i).x (t.ps j).x) →
        (l.map a).sum ≤ 128 * e50 * ((l.map w).sum + 2 * l.length) := by
      intro l
      induction l with
      | nil => intro _; simp
      | cons j l ih =>
        intro h
        have h1 := ih (fun k hk => h k (List.mem_cons_of_mem _ hk))
        have r0 : 0 < R.trueDist (t.ps i).x (t.ps j).x := lt_of_lt_of_le hp (h j List.mem_cons_self)
        rw [List.map_cons, List.sum_cons, List.map_cons, List.sum_cons, List.length_cons]
        have h2 : a j ≤ 128 * e50 * (w j + 2) := by
          simp only [ha, hw]
          apply mul_le_mul_of_nonneg_left _ (by positivity)
          rw [weight_eq_max r0]
          linarith [le_max_left (R.val t.env.re / R.trueDist (t.ps i).x (t.ps j).x - 1) 0]
        push_cast
        linarith
    exact this _ (fun j hj => (hpair j hj).2.2.2)
  have hk' : ((t.neighbors i).length : ℝ) ≤ 1048576 := by
    have : (t.neighbors i).length ≤ 1048576 := by norm_num at hk ⊢; omega
    exact_mod_cast this
  have k0 : (0 : ℝ) ≤ (t.neighbors i).length := Nat.cast_nonneg _
  set k : ℝ := ((t.neighbors i).length : ℝ) with hkd
  have h1 : 1 + 2 * k * e50 ≤ 2 := by rw [he]; norm_num; linarith
  have hs0 : 0 ≤ 128 * e50 * (N + 2 * k) := by positivity
  have h2 : (1 + 2 * k * e50) * ((t.neighbors i).map a).sum ≤ 2 * (128 * e50 * (N + 2 * k)) := by
    calc _ ≤ (1 + 2 * k * e50) * (128 * e50 * (N + 2 * k)) := mul_le_mul_of_nonneg_left hA (by positivity)
      _ ≤ _ := mul_le_mul_of_nonneg_right h1 hs0
  have h3 : (0 : ℝ) ≤ k * N := by positivity
  have h4 : 2 * (128 * e50 * (N + 2 * k)) + 2 * k * e50 * N ≤ (k + 1) * (N + 1) / 2 ^ 41 := by
    rw [he]
    norm_num
    nlinarith
  linarith

/-- **C63.**  Rounding does not spoil the number density.  In every arithmetic as accurate as `double` (for which nothing but the standard model of
rounding is assumed), for every table of neighbours that covers the radius of influence and particles not closer than `ℓ ≥ r_e / 2^20`: the stored
number density of a particle differs from the exact one by at most `(k+1)(n+1) / 2^41`, where `k ≤ 2^20` is the number of neighbours in the table;
with the option SPP the stored density is the larger one of this and `n_0`. -/
theorem C63_density_is_accurate (R : Rounding F) (hR : R.DoubleLike) (hD : D ≤ 3) {ℓ : F} (cfg : Config) (t : State F D ω)
    (hl : R.Lengths ℓ t.env.re) (hn0 : R.finite t.env.n0) (i : Nat) (hi : i < t.n) (hact : (t.ps i).ty.active = true)
    (hnd : (t.neighbors i).Nodup)
    (hin : ∀ j ∈ t.neighbors i, j < t.n ∧ j ≠ i ∧ (t.ps j).ty ≠ .disabled)
    (hcov : ∀ j, j < t.n → j ≠ i → (t.ps j).ty ≠ .disabled → R.trueDist (t.ps i).x (t.ps j).x < R.val t.env.re → j ∈ t.neighbors i)
    (hk : (t.neighbors i).length ≤ 2 ^ 20)
    (hxi : ∀ a, R.finite ((t.ps i).x a))
    (hpair : ∀ j ∈ t.neighbors i, (∀ a, R.finite ((t.ps j).x a)) ∧ (∀ a, |R.val ((t.ps i).x a) - R.val ((t.ps j).x a)| ≤ R.Ω) ∧
      (∀ a, |R.val ((t.ps i).x a) - R.val ((t.ps j).x a)| ≤ 2 ^ 22 * R.val ℓ) ∧ R.val ℓ ≤ R.trueDist (t.ps i).x (t.ps j).x)
    (sch : List Ev) (hv : ValidSched t.n sch) :
    R.finite (((t.computeDensities cfg sch).ps i).n) ∧
    |R.val (((t.computeDensities cfg sch).ps i).n) - (if cfg.spp then max (R.trueDensity t i) (R.val t.env.n0) else R.trueDensity t i)|
      ≤ ((t.neighbors i).length + 1) * (R.trueDensity t i + 1) / 2 ^ 41 := by
  have hN := R.trueDensity_list t i hnd hin hcov
  have hlt : Scalar.lt t.env.n0 t.env.n0 = false := by
    cases h : Scalar.lt t.env.n0 t.env.n0 with
    | false => rfl
    | true => exact absurd ((R.lt hn0 hn0).mp h) (lt_irrefl _)
  rw [computeDensities_C cfg t sch hv]
  have hstored : ((t.densC cfg).ps i).n = ((t.densCompute cfg i).2).getD (t.ps i).n := by
    simp only [State.densC, if_pos hi]
    cases (t.densCompute cfg i).2 <;> rfl
  rw [hstored]
  unfold State.densCompute
  simp only [if_pos hact]
  rw [Option.getD_some]
  cases hs : cfg.spp with
  | false =>
    unfold State.accumulate
    simp only [hs, Bool.false_eq_true, if_false, Bool.false_and]
    exact R.accLoop_accurate hR hD t hl i (fun j hj => (hin j hj).2.1) hk hxi hpair _ (fun j hj => rfl) _ hN
  | true =>
    unfold State.accumulate
    simp only [hs, if_true, Bool.true_and]
    have hspp : ∀ g : Vec F D, State.sppParticle { t with nNoSpp := upd t.nNoSpp i t.env.n0 } i g = none := by
      intro g
      unfold State.sppParticle
      simp only [upd, if_true, hlt, Bool.false_eq_true, if_false]
    rw [hspp]
    simp only
    obtain ⟨a1, a2⟩ := R.accLoop_accurate hR hD { t with nNoSpp := upd t.nNoSpp i t.env.n0 } hl i (fun j hj => (hin j hj).2.1) hk hxi hpair
      (fun j q' => if decide (j < 0) = true then 0 else W (dist (t.ps i).x q'.x) t.env.re) (fun j hj => by
        rw [if_neg]; simp) _ hN
    obtain ⟨m1, m2⟩ := Rounding.stdMax_val R a1 hn0
    refine ⟨m1, ?_⟩
    rw [m2]
    exact (abs_max_sub_max_le_abs _ _ _).trans a2

/-- **C63**, at the beginning of a step.  In a computer made from accepted constants, after any history, in a box of up to `2^20` blocks per axis: if
the enabled particles are in the range of the arithmetic and no two of them are closer than `ℓ`, the number densities computed after the neighbour
search of the next step - whatever table it built and in whatever order the threads worked - are accurate. -/
theorem C63_density_after_search_is_accurate (R : Rounding F) (hR : R.DoubleLike) (hD : D ≤ 3) {ℓ : F}
    {P : Params F D ω} {cfg : Config} {e : EnvArgs F D} {env : Env F D} {w : ω} {s0 s s1 : State F D ω} {dts : List F}
    (hmk : Env.mk? cfg e = some env)
    (hc : R.finite e.courant ∧ 1 / 2 ^ 20 ≤ R.val e.courant ∧ R.val e.courant ≤ 1)
    (hl : R.Lengths ℓ env.re) (hΩ : 4 * R.val env.re ≤ R.Ω) (hn0 : R.finite env.n0)
    (hnew : State.new? env w = some s0) (hist : Hist P s0 dts s) (hok : s0.grid.ClearOK)
    (hL : R.GoodLength env.neighborLength) (hLℓ : R.val env.neighborLength ≤ 2 ^ 21 * R.val ℓ)
    (hsize : ∀ a, s0.grid.size a ≤ 2 ^ 20) (hmin : R.InRange env.neighborLength env.minX)
    (hpos : ∀ i, i < s.n → (s.ps i).ty ≠ .disabled → R.InRange env.neighborLength (s.ps i).x)
    (hsep : ∀ i j, i < s.n → j < s.n → j ≠ i → (s.ps i).ty ≠ .disabled → (s.ps j).ty ≠ .disabled →
      R.val ℓ ≤ R.trueDist (s.ps i).x (s.ps j).x)
    (sch : Schedule) (hv : sch.Valid s.n) (dt : F) (h : (s.start dt).searchNeighbor (sch 0) = .ok s1)
    (i : Nat) (hi : i < s.n) (hact : (s1.ps i).ty.active = true) (hk : (s1.neighbors i).length ≤ 2 ^ 20)
    (sch' : List Ev) (hv' : ValidSched s.n sch') (cfg' : Config) :
    R.finite (((s1.computeDensities cfg' sch').ps i).n) ∧
    |R.val (((s1.computeDensities cfg' sch').ps i).n) - (if cfg'.spp then max (R.trueDensity s1 i) (R.val env.n0) else R.trueDensity s1 i)|
      ≤ ((s1.neighbors i).length + 1) * (R.trueDensity s1 i + 1) / 2 ^ 41 := by
  obtain ⟨b0, b1, b2, b3, b4⟩ := hist.geometry hnew
  obtain ⟨-, h2, -⟩ := hist.frame
  have hok' : (s.start dt).grid.ClearOK := h2.clearOK.mpr hok
  obtain ⟨n1, n2⟩ := neighbors_iff (s := s.start dt) (hv 0) hok' b0 h
  have henv : s.env.re = env.re ∧ s.env.n0 = env.n0 := by
    have e0 : s0.env = env := by
      unfold State.new? at hnew
      cases hm : Grid.mk? env.neighborLength env.l0 env.minX env.maxX with
      | none => rw [hm] at hnew; cases hnew
      | some g =>
        rw [hm] at hnew
        simp only [Option.some.injEq] at hnew
        rw [← hnew]
    refine Hist.rec' (Q := fun _ s => s.env.re = env.re ∧ s.env.n0 = env.n0) (by rw [e0]; exact ⟨rfl, rfl⟩) ?_ ?_ hist
    · intro _ _ _ _ h; exact h
    · intro _ _ _ _ _ _ h hv hl
      rw [(step_frame hv hl).2.1]; exact h
  obtain ⟨g0, g, nb, -, -, hs1, -, -⟩ := searchNeighbor_ok_frame (s := s.start dt) (hv 0) h
  have hx : ∀ j, (s1.ps j).x = (s.ps j).x := by
    intro j
    rw [hs1]
    exact (marked_ps ({ s.start dt with grid := g0 } : State F D ω) (List.range (s.start dt).n) g j).1
  have hn : s1.n = s.n := by rw [hs1]; rfl
  have hre1 : s1.env.re = env.re := by rw [hs1]; exact henv.1
  have hn01 : s1.env.n0 = env.n0 := by rw [hs1]; exact henv.2
  have hdi : (s1.ps i).ty ≠ .disabled := by
    intro hc; rw [hc] at hact; exact absurd hact (by decide)
  obtain ⟨-, t2, t3⟩ := C08_neighbour_table_valid (s := s.start dt) (hv 0) hok' b0 h i hi hdi
  have ei := (n1 i hi hdi).1
  have xi := hpos i hi ei
  have key := C63_density_is_accurate R hR hD (ℓ := ℓ) cfg' s1 (by rw [hre1]; exact hl) (by rw [hn01]; exact hn0) i (by rw [hn]; exact hi) hact t2
    t3 (by
      intro j hj hji hdj hd
      rw [hn] at hj
      rw [hx, hx, hre1] at hd
      exact C47_radius_of_influence_covered R hR hD hmk hc ⟨hl.finite, (hl.good.pos.trans_le hl.le).le, hΩ⟩ (le_trans (by norm_num) hl.Ω) hnew hist hok hL hsize
        hmin hpos sch hv dt h i j hi hj hji hdi hdj hd.le) hk (fun a => by rw [hx]; exact (xi a).1) (by
      intro j hj
      obtain ⟨j1, j2, j3⟩ := t3 j hj
      rw [hn] at j1
      have ej := (n1 j j1 j3).1
      have xj := hpos j j1 ej
      have far := (C47_no_neighbour_lost_by_rounding R hR hD hnew hist hok hL hsize hmin hpos sch hv dt h i j hi j1 j2 hdi j3).2 hj
      have hp := hL.pos
      refine ⟨fun a => by rw [hx]; exact (xj a).1, fun a => ?_, fun a => ?_, ?_⟩
      · rw [hx, hx]
        refine (abs_sub _ _).trans ?_
        have := (xi a).2.1
        have := (xj a).2.1
        have := abs_nonneg (R.val ((s.ps i).x a))
        linarith
      · rw [hx, hx]
        have h3 : |R.val ((s.ps i).x a) - R.val ((s.ps j).x a)| ≤ R.trueDist (s.ps i).x (s.ps j).x := by
          unfold Rounding.trueDist
          apply Real.abs_le_sqrt
          exact Finset.single_le_sum (f := fun a => (R.val ((s.ps i).x a) - R.val ((s.ps j).x a)) ^ 2)
            (fun a _ => sq_nonneg _) (Finset.mem_univ a)
        norm_num at far hLℓ ⊢
        linarith
      · rw [hx, hx]; exact hsep i j hi j1 j2 ei ej) sch' (by rw [hn]; exact hv')
  rw [hn01] at key
  exact key

end OpenMps
