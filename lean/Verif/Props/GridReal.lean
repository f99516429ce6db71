import Verif.Lemmas.Real
import Verif.Props.Grid
import Verif.Props.Step

/-! # Properties C02, C06, C07, C11 (grid and neighbour search in exact arithmetic) -/

set_option linter.unusedSectionVars false

namespace OpenMps

variable {D : Nat} {ω : Type}

/-! ## C02 -/

/-- Positions closer than the block length are in neighbouring blocks. -/
theorem floor_close {L u v : ℝ} (hL : 0 < L) (h : |u - v| < L) : |⌊v / L⌋ - ⌊u / L⌋| ≤ 1 := by
  have h1 : |u / L - v / L| < 1 := by
    rw [← sub_div, abs_div, abs_of_pos hL, div_lt_one hL]; exact h
  rw [abs_lt] at h1
  have a1 := Int.floor_le (u / L)
  have a2 := Int.lt_floor_add_one (u / L)
  have b1 := Int.floor_le (v / L)
  have b2 := Int.lt_floor_add_one (v / L)
  rw [abs_le]
  constructor
  · have : ((⌊u / L⌋ : ℤ) : ℝ) < (⌊v / L⌋ : ℤ) + 2 := by linarith [h1.2]
    have : ⌊u / L⌋ < ⌊v / L⌋ + 2 := by exact_mod_cast this
    omega
  · have : ((⌊v / L⌋ : ℤ) : ℝ) < (⌊u / L⌋ : ℤ) + 2 := by linarith [h1.1]
    have : ⌊v / L⌋ < ⌊u / L⌋ + 2 := by exact_mod_cast this
    omega

theorem block_close {g : Grid ℝ D} (hL : 0 < g.blockLength) {x y : Vec ℝ D} {b c : Blk D}
    (hb : g.block? x = some b) (hc : g.block? y = some c) (h : dist x y < g.blockLength) (a : Fin D) :
    |c a - b a| ≤ 1 := by
  rw [block_real] at hb hc
  injection hb with hb
  injection hc with hc
  rw [← hb, ← hc]
  apply floor_close hL
  refine lt_of_le_of_lt ?_ h
  have : x a - g.origin a - (y a - g.origin a) = x a - y a := by ring
  rw [this]
  exact abs_sub_le_dist x y a

/-- **C02.**  Clear a grid, store any list of particles successfully and iterate around a position `x` inside the grid: every
particle stored at a position `y` closer to `x` than the block length is yielded. -/
theorem C02_near_particle_is_yielded (g0 g g' : Grid ℝ D) (hL : 0 < g0.blockLength) (hok : g0.ClearOK)
    (hclear : g0.clear? = some g) (log : List (Vec ℝ D × Nat)) (hstore : g.storeSeq log = some g')
    (x : Vec ℝ D) (b : Blk D) (hb : g0.block? x = some b) (hin : ∀ a, 0 ≤ b a ∧ b a < g0.size a)
    (y : Vec ℝ D) (j : Nat) (hy : (y, j) ∈ log) (hnear : dist x y < g0.blockLength) :
    ∃ l, g'.visit x = .done l ∧ j ∈ l := by
  refine ⟨_, C01_iteration_enumerates_surrounding_blocks g0 g g' hok hclear log hstore x b hb hin, ?_⟩
  obtain ⟨c, hc⟩ : ∃ c, g0.block? y = some c := ⟨_, block_real g0 y⟩
  simp only [List.mem_flatMap, List.mem_map, List.mem_filter, decide_eq_true_eq, mem_offsets]
  refine ⟨c - b, fun a => ?_, (y, j), ⟨hy, ?_⟩, rfl⟩
  · have := abs_le.mp (block_close hL hb hc hnear a)
    simpa using this
  · rw [hc]; congr 1; funext a; simp

/-- A real 2-D grid over `[0,10]^2` with block length 2 and `l0 = 1`. -/
noncomputable def realGrid : Grid ℝ 2 :=
  { blockLength := 2, origin := ![0, 0], size := ![7, 7], cap := 9, count := fun _ => 0, slot := fun _ _ => 0 }

theorem realGrid_eq : Grid.mk? 2 1 ![0, 0] ![10, 10] = some realGrid := by
  rw [mkGrid_real]
  unfold realGrid
  have h1 : ⌈(2 : ℝ) / 1⌉ = 2 := by rw [Int.ceil_eq_iff]; norm_num
  have h2 : ⌈((10 : ℝ) - 0) / 2⌉ = 5 := by rw [Int.ceil_eq_iff]; norm_num
  congr 1
  congr 1
  · funext a
    fin_cases a
    · simp only [Fin.zero_eta, Matrix.cons_val_zero, h2]; norm_num
    · simp only [Fin.mk_one, Matrix.cons_val_one, Matrix.cons_val_zero, h2]; norm_num
  · rw [h1]; norm_num; rfl

/-! ## C06 -/

/-- Number of points of a block with pairwise spacing `l0` along some axis. -/
theorem spaced_block_count {L l0 : ℝ} (hl : 0 < l0) (hL : 0 < L) (o : Fin D → ℝ) (b : Blk D) (pts : List (Vec ℝ D))
    (hpts : ∀ x ∈ pts, ∀ a, ⌊(x a - o a) / L⌋ = b a)
    (hsp : pts.Pairwise (fun x y => ∃ a, l0 ≤ |x a - y a|)) :
    pts.length ≤ (⌈L / l0⌉.toNat) ^ D := by
  classical
  let cell : Vec ℝ D → (Fin D → ℤ) := fun x a => ⌊(x a - (o a + b a * L)) / l0⌋
  have hnd : (pts.map cell).Nodup := by
    rw [List.Nodup, List.pairwise_map]
    refine hsp.imp ?_
    rintro x y ⟨a, ha⟩ heq
    have := congrFun heq a
    simp only [cell] at this
    have h1 := Int.abs_sub_lt_one_of_floor_eq_floor this
    rw [← sub_div, abs_div, abs_of_pos hl, div_lt_one hl] at h1
    have h2 : x a - (o a + b a * L) - (y a - (o a + b a * L)) = x a - y a := by ring
    rw [h2] at h1
    linarith
  have hsub : (pts.map cell).toFinset ⊆ Fintype.piFinset (fun _ : Fin D => Finset.Ico (0 : ℤ) ⌈L / l0⌉) := by
    intro v hv
    simp only [List.mem_toFinset, List.mem_map] at hv
    obtain ⟨x, hx, rfl⟩ := hv
    rw [Fintype.mem_piFinset]
    intro a
    have hb := hpts x hx a
    rw [Int.floor_eq_iff] at hb
    rw [le_div_iff₀ hL, div_lt_iff₀ hL] at hb
    rw [Finset.mem_Ico]
    constructor
    · apply Int.floor_nonneg.mpr
      apply div_nonneg _ hl.le
      linarith [hb.1]
    · have h1 : (x a - (o a + b a * L)) / l0 < L / l0 := by
        apply div_lt_div_of_pos_right _ hl
        nlinarith [hb.2]
      have h2 : (x a - (o a + b a * L)) / l0 < (⌈L / l0⌉ : ℤ) := lt_of_lt_of_le h1 (Int.le_ceil _)
      exact Int.floor_lt.mpr h2
  have hcard := Finset.card_le_card hsub
  rw [List.toFinset_card_of_nodup hnd, List.length_map, Fintype.card_piFinset_const, Int.card_Ico, sub_zero] at hcard
  exact hcard

theorem ceil_pow_le_cap {L l0 : ℝ} (hl : 0 < l0) (hL : 0 < L) :
    (⌈L / l0⌉.toNat) ^ D ≤ ((⌈L / l0⌉ + 1) ^ D).toNat := by
  have h0 : 0 ≤ ⌈L / l0⌉ := Int.ceil_nonneg (by positivity)
  obtain ⟨k, hk⟩ := Int.eq_ofNat_of_zero_le h0
  rw [hk]
  have : (((k : ℤ) + 1) ^ D).toNat = (k + 1) ^ D := by
    have h : ((k : ℤ) + 1) ^ D = (((k + 1) ^ D : ℕ) : ℤ) := by push_cast; ring
    rw [h]; exact Int.toNat_natCast _
  rw [this]
  simp only [Int.toNat_natCast]
  exact Nat.pow_le_pow_left (Nat.le_succ k) D

/-- **C06.**  Any list of positions inside the grid of which any two are at least `l0` apart along some axis can be stored
in a cleared grid without exception. -/
theorem C06_spaced_particles_fit (L l0 : ℝ) (hl : 0 < l0) (hL : 0 < L) (minX maxX : Vec ℝ D) (g0 g gc : Grid ℝ D)
    (hg : Grid.mk? L l0 minX maxX = some g0) (hreach : Grid.Reach g0 g) (hok : g0.ClearOK)
    (hclear : g.clear? = some gc) (log : List (Vec ℝ D × Nat))
    (hin : ∀ e ∈ log, ∃ b, g0.block? e.1 = some b ∧ ∀ a, 0 ≤ b a ∧ b a < g0.size a)
    (hsp : log.Pairwise (fun e e' => ∃ a, l0 ≤ |e.1 a - e'.1 a|)) :
    ∃ g', gc.storeSeq log = some g' := by
  have hgeom := hreach.geom
  have hokg : g.ClearOK := hgeom.clearOK.mpr hok
  have hgc : SameGeom g gc := clear_geom hclear
  induction log using List.reverseRecOn with
  | nil => exact ⟨gc, rfl⟩
  | append_singleton log e ih =>
    rw [List.pairwise_append] at hsp
    obtain ⟨g', hg'⟩ := ih (fun e' he' => hin e' (by simp [he'])) hsp.1
    obtain ⟨b, hb, hbin⟩ := hin e (by simp)
    have hbg : g.block? e.1 = some b := by rw [hgeom.block]; exact hb
    have hthr := C04_throws_iff_full g gc g' hokg hclear log hg' e.1 e.2 b hbg (by rw [hgeom.size]; exact hbin)
    have hlt : (log.filter (fun e => decide (g.block? e.1 = some b))).length < g.cap := by
      rw [mkGrid_real] at hg
      injection hg with hg
      have hcap : g.cap = ((⌈L / l0⌉ + 1) ^ D).toNat := by rw [hgeom.cap, ← hg]
      have hcount := spaced_block_count (D := D) hl hL minX b
        ((log.filter (fun e => decide (g.block? e.1 = some b))).map (·.1) ++ [e.1]) (by
          intro x hx a
          have hx' : g.block? x = some b := by
            rw [List.mem_append] at hx
            rcases hx with hx | hx
            · simp only [List.mem_map, List.mem_filter, decide_eq_true_eq] at hx
              obtain ⟨e', ⟨-, h⟩, rfl⟩ := hx
              exact h
            · rw [List.mem_singleton] at hx; rw [hx]; exact hbg
          rw [block_real, hgeom.origin, hgeom.bl, ← hg] at hx'
          injection hx' with hx'
          rw [← hx']) (by
          rw [List.pairwise_append]
          refine ⟨?_, List.pairwise_singleton _ _, ?_⟩
          · rw [List.pairwise_map]; exact hsp.1.filter _
          · intro x hx y hy
            simp only [List.mem_map, List.mem_filter, List.mem_singleton] at hx hy
            obtain ⟨e', ⟨he', -⟩, rfl⟩ := hx
            subst hy
            exact hsp.2.2 e' he' e (by simp))
      rw [List.length_append, List.length_map, List.length_singleton] at hcount
      have := ceil_pow_le_cap (D := D) hl hL
      rw [hcap]; omega
    obtain ⟨g'', hg''⟩ := hthr.2.mpr hlt
    refine ⟨g'', ?_⟩
    rw [storeSeq_append, hg']
    simp only [Option.bind_some, Grid.storeSeq, hg'']

/-- The geometry of the grid and the constant parameters after any history. -/
theorem Hist.built {P : Params ℝ D ω} {env : Env ℝ D} {w : ω} {s0 s : State ℝ D ω} {dts : List ℝ}
    (hnew : State.new? env w = some s0) (hist : Hist P s0 dts s) :
    s.ub = false ∧ s.grid.blockLength = s.env.neighborLength ∧ s.grid.origin = s.env.minX ∧
    s.grid.size = (fun a => ⌈(s.env.maxX a - s.env.minX a) / s.env.neighborLength⌉ + 2) ∧
    s.grid.cap = ((⌈s.env.neighborLength / s.env.l0⌉ + 1) ^ D).toNat ∧
    s.env.neighborLength = env.neighborLength ∧ s.env.l0 = env.l0 ∧ s.env.minX = env.minX ∧ s.env.maxX = env.maxX ∧
    s.env.re = env.re ∧ s.env.n0 = env.n0 ∧ s.env.maxDx = env.maxDx ∧ s.env.maxDt = env.maxDt := by
  obtain ⟨h1, h2, h3⟩ := hist.frame
  unfold State.new? at hnew
  rw [mkGrid_real] at hnew
  simp only [Option.some.injEq] at hnew
  have he : s.env.neighborLength = env.neighborLength ∧ s.env.l0 = env.l0 ∧ s.env.minX = env.minX ∧ s.env.maxX = env.maxX ∧
    s.env.re = env.re ∧ s.env.n0 = env.n0 ∧ s.env.maxDx = env.maxDx ∧ s.env.maxDt = env.maxDt := by
    refine Hist.rec' (Q := fun _ s => s.env.neighborLength = env.neighborLength ∧ s.env.l0 = env.l0 ∧
      s.env.minX = env.minX ∧ s.env.maxX = env.maxX ∧ s.env.re = env.re ∧ s.env.n0 = env.n0 ∧
      s.env.maxDx = env.maxDx ∧ s.env.maxDt = env.maxDt)
      (by rw [← hnew]; exact ⟨rfl, rfl, rfl, rfl, rfl, rfl, rfl, rfl⟩) ?_ ?_ hist
    · intro _ _ _ _ h; exact h
    · intro _ _ _ _ _ _ h hv hl
      rw [(step_frame hv hl).2.1]; exact h
  refine ⟨by rw [h3, ← hnew], ?_, ?_, ?_, ?_, he⟩
  · rw [h2.bl, ← hnew, he.1]
  · rw [h2.origin, ← hnew, he.2.2.1]
  · rw [h2.size, ← hnew, he.1, he.2.2.1, he.2.2.2.1]
  · rw [h2.cap, ← hnew, he.1, he.2.1]

/-- The grid that the constructor of the computer builds. -/
noncomputable def Env.builtGrid (env : Env ℝ D) : Grid ℝ D where
  blockLength := env.neighborLength
  origin := env.minX
  size := fun a => ⌈(env.maxX a - env.minX a) / env.neighborLength⌉ + 2
  cap := ((⌈env.neighborLength / env.l0⌉ + 1) ^ D).toNat
  count := fun _ => 0
  slot := fun _ _ => 0

theorem Env.builtGrid_eq (env : Env ℝ D) :
    Grid.mk? env.neighborLength env.l0 env.minX env.maxX = some env.builtGrid := mkGrid_real _ _ _ _

/-- **C06**, for the computer: after any history from construction on, if any two enabled particles are at least `l0` apart
along some axis, `ForwardTime(dt)` does not throw "Too many particle in a block". -/
theorem C06_step_never_overflows {P : Params ℝ D ω} {env : Env ℝ D} {w : ω} {s0 s : State ℝ D ω} {dts : List ℝ}
    (hnew : State.new? env w = some s0) (hist : Hist P s0 dts s) (hok : s0.grid.ClearOK)
    (hl : 0 < env.l0) (hL : 0 < env.neighborLength)
    (hsp : ∀ i j, i < j → j < s.n → (s.ps i).ty ≠ .disabled → (s.ps j).ty ≠ .disabled →
      ∃ a, env.l0 ≤ |(s.ps i).x a - (s.ps j).x a|)
    (sch : Schedule) (hv : sch.Valid s.n) (dt : ℝ) (s' : State ℝ D ω) :
    s.forwardTime P sch dt ≠ .exn .gridFull s' := by
  intro hex
  obtain ⟨b0, b1, b2, b3, b4, b5, b6, b7, b8, -⟩ := hist.built hnew
  obtain ⟨-, h2, -⟩ := hist.frame
  have hclearOK : s.grid.ClearOK := h2.clearOK.mpr hok
  have hse : (s.start dt).searchNeighbor (sch 0) = .exn .gridFull s' := by
    rcases forwardTime_exn hv hex with h | ⟨s1, -, h⟩
    · exact h
    · obtain ⟨f0, -⟩ := pressureC_exn_frame (afterSearch_exn h)
      cases f0
  rcases searchNeighbor_spec (s.start dt) (sch 0) (hv 0) hclearOK b0 with
    ⟨g, k1, k2, k3⟩ | ⟨j, g, g', k1, k2, k3, k4, k5, k6⟩ | ⟨j, k1, k2, k3, k4⟩
  · rw [hse] at k3; cases k3
  · obtain ⟨-, b, hb1, hb2, -⟩ := store_full k5
    have k1' : j < s.n := k1
    -- the whole list including the failing particle is spaced, hence can be stored
    set m := ({ s.start dt with grid := (s.start dt).grid.cleared } : State ℝ D ω) with hm
    have hgeomg : SameGeom s.grid g := (cleared_geom s.grid).trans (storeSeq_contents k4).1
    have hlog : ∀ e ∈ m.storeLog (List.range j) ++ [((s.ps j).x, j)], e.1 = (s.ps e.2).x ∧ e.2 ≤ j ∧
        (s.ps e.2).ty ≠ .disabled ∧ ∃ b, s.grid.block? e.1 = some b ∧ s.grid.inRange b = true := by
      intro e he
      rw [List.mem_append] at he
      rcases he with he | he
      · unfold State.storeLog at he
        simp only [List.mem_map, List.mem_filter, List.mem_range] at he
        obtain ⟨i, ⟨hi, hst⟩, rfl⟩ := he
        unfold State.staying at hst
        simp only [Bool.and_eq_true, decide_eq_true_eq] at hst
        refine ⟨rfl, hi.le, hst.1, ?_⟩
        have hst2 := hst.2
        have e1 : m.grid.block? (m.ps i).x = s.grid.block? (s.ps i).x := (cleared_geom s.grid).block _
        rw [e1] at hst2
        cases hbb : s.grid.block? (s.ps i).x with
        | none => rw [hbb] at hst2; cases hst2
        | some b =>
          rw [hbb] at hst2
          exact ⟨b, hbb, by rw [← (cleared_geom s.grid).inRange]; exact hst2⟩
      · rw [List.mem_singleton] at he
        subst he
        refine ⟨rfl, le_refl _, k2, b, ?_, ?_⟩
        · rw [← hgeomg.block]; exact hb1
        · rw [← hgeomg.inRange]; exact hb2
    have hfit := C06_spaced_particles_fit env.neighborLength env.l0 hl hL env.minX env.maxX
      env.builtGrid
      env.builtGrid
    have hgeomN : SameGeom s.grid env.builtGrid :=
      ⟨by rw [b1, b5]; rfl, by rw [b2, b7]; rfl, by rw [b3, b5, b7, b8]; rfl, by rw [b4, b5, b6]; rfl⟩
    have hokN := hgeomN.clearOK.mpr hclearOK
    obtain ⟨gN, hgN⟩ := hfit _ env.builtGrid_eq .start hokN (clear_eq hokN)
      (m.storeLog (List.range j) ++ [((s.ps j).x, j)]) (by
        intro e he
        obtain ⟨-, -, -, b, hb, hr⟩ := hlog e he
        refine ⟨b, by rw [hgeomN.block]; exact hb, ?_⟩
        rw [hgeomN.size]
        simpa [Grid.inRange] using hr) (by
        have hmono : (m.storeLog (List.range j) ++ [((s.ps j).x, j)]).Pairwise (fun e e' => e.2 < e'.2) := by
          rw [List.pairwise_append]
          refine ⟨?_, List.pairwise_singleton _ _, ?_⟩
          · unfold State.storeLog
            rw [List.pairwise_map]
            exact List.pairwise_lt_range.filter _
          · intro e he e' he'
            unfold State.storeLog at he
            simp only [List.mem_map, List.mem_filter, List.mem_range, List.mem_singleton] at he he'
            obtain ⟨i, ⟨hi, -⟩, rfl⟩ := he
            subst he'
            exact hi
        refine hmono.imp_of_mem ?_
        intro e e' he he' hlt
        obtain ⟨x1, l1, d1, -⟩ := hlog e he
        obtain ⟨x2, l2, d2, -⟩ := hlog e' he'
        rw [x1, x2]
        exact hsp e.2 e'.2 hlt (lt_of_le_of_lt l2 k1') d1 d2)
    -- contradiction: the grids are equivalent
    have heq : GridEquiv s.grid.cleared (Grid.cleared env.builtGrid) := by
      refine ⟨((cleared_geom s.grid).symm.trans hgeomN).trans (cleared_geom _), ?_⟩
      intro c hc
      have hc' : s.grid.inRange c = true := hc
      rw [cleared_contents hc', cleared_contents (by rw [hgeomN.inRange]; exact hc')]
    have hgN' := (storeSeq_equiv _ _ _ heq.symm).1 gN hgN
    obtain ⟨g1, hg1, -⟩ := hgN'
    rw [storeSeq_append, show s.grid.cleared.storeSeq (m.storeLog (List.range j)) = some g from k4] at hg1
    simp only [Option.bind_some, Grid.storeSeq] at hg1
    have k5' : g.store (s.ps j).x j = .full g' := k5
    rw [k5'] at hg1
    cases hg1
  · rw [hse] at k4; cases k4

/-- **C06**, with the explicit pressure: after any history, a step with spaced particles succeeds. -/
theorem C06_explicit_step_succeeds {P : Params ℝ D ω} {env : Env ℝ D} {w : ω} {s0 s : State ℝ D ω} {dts : List ℝ}
    (hnew : State.new? env w = some s0) (hist : Hist P s0 dts s) (hok : s0.grid.ClearOK)
    (hl : 0 < env.l0) (hL : 0 < env.neighborLength)
    (hsp : ∀ i j, i < j → j < s.n → (s.ps i).ty ≠ .disabled → (s.ps j).ty ≠ .disabled →
      ∃ a, env.l0 ≤ |(s.ps i).x a - (s.ps j).x a|)
    (hexp : P.cfg.explicit = true) (sch : Schedule) (hv : sch.Valid s.n) (dt : ℝ) :
    ∃ s', s.forwardTime P sch dt = .ok s' := by
  cases h : s.forwardTime P sch dt with
  | ok s' => exact ⟨s', rfl⟩
  | ub =>
    refine absurd h (C08_no_undefined_behaviour hnew hist hok ?_ sch hv dt)
    intro i _ _; rw [block_real]; exact Option.some_ne_none _
  | exn e s' =>
    exfalso
    rcases forwardTime_exn hv h with h' | ⟨s1, -, h'⟩
    · obtain ⟨-, -, -, -, -, -, rfl, -⟩ := searchNeighbor_exn_frame h'
      exact C06_step_never_overflows hnew hist hok hl hL hsp sch hv dt s' h
    · have := (pressureC_exn (afterSearch_exn h')).1
      rw [hexp] at this; cases this

/-! ## C07 -/

/-- **C07.**  After the neighbour search the list of every enabled particle contains exactly the enabled other particles closer
than the search radius, each once. -/
theorem C07_neighbour_lists_exact {s s1 : State ℝ D ω} {sch : List Ev} (hv : ValidSched s.n sch)
    (hok : s.grid.ClearOK) (hub : s.ub = false) (hbl : s.grid.blockLength = s.env.neighborLength)
    (hL : 0 < s.env.neighborLength) (h : s.searchNeighbor sch = .ok s1)
    (i : Nat) (hi : i < s.n) (hd : (s1.ps i).ty ≠ .disabled) :
    (s1.neighbors i).Nodup ∧
    ∀ j, j ∈ s1.neighbors i ↔
      j < s.n ∧ (s1.ps j).ty ≠ .disabled ∧ j ≠ i ∧ dist (s.ps i).x (s.ps j).x < s.env.neighborLength := by
  refine ⟨(C08_neighbour_table_valid hv hok hub h i hi hd).2.1, ?_⟩
  rcases searchNeighbor_spec s sch hv hok hub with
    ⟨g, k1, k2, k3⟩ | ⟨j, g, g', k1, k2, k3, k4, k5, k6⟩ | ⟨j, k1, k2, k3, k4⟩
  · rw [h] at k3
    injection k3 with k3
    obtain ⟨f1, f2, f3, f4⟩ := marked_facts s g k1 k2
    set m := State.marked ({ s with grid := s.grid.cleared }) (List.range s.n) g with hm
    have hmd : (m.ps i).ty ≠ .disabled := by rw [k3] at hd; exact hd
    have hmi : i < m.n := hi
    have hnb : s1.neighbors i = m.nbrList i := by rw [k3]; exact neighbors_withRows m i hmi hmd
    have hps : s1.ps = m.ps := by rw [k3]; rfl
    have hx : ∀ j, (m.ps j).x = (s.ps j).x := fun j => (marked_ps _ _ g j).1
    intro j
    rw [hnb, hps]
    constructor
    · intro hj
      obtain ⟨a1, a2, a3, a4⟩ := nbrList_mem hj
      rw [hx, hx, lt_real_iff] at a4
      exact ⟨a1, a2, a3, a4⟩
    · rintro ⟨a1, a2, a3, a4⟩
      obtain ⟨b, hb, -⟩ := f3 i hmi hmd
      obtain ⟨c, hc, -⟩ := f3 j a1 a2
      unfold State.nbrList
      rw [hb]
      simp only [List.mem_flatMap, List.mem_filter, List.mem_range, Bool.and_eq_true, decide_eq_true_eq, mem_offsets]
      have hclose : ∀ a, |c a - b a| ≤ 1 := by
        intro a
        refine block_close (g := m.grid) ?_ hb hc ?_ a
        · rw [f1.bl, hbl]; exact hL
        · rw [f1.bl, hbl, hx, hx]; exact a4
      refine ⟨c - b, fun a => ?_, a1, ⟨⟨a2, ?_⟩, a3⟩, ?_⟩
      · have := abs_le.mp (hclose a)
        simpa using this
      · rw [hc]; congr 1; funext a; simp
      · rw [lt_real_iff, hx, hx]; exact a4
  · rw [h] at k6; cases k6
  · rw [h] at k4; cases k4

/-- **C07**, in a time step of a computer with any history; in particular being a neighbour is symmetric. -/
theorem C07_neighbours_in_step {P : Params ℝ D ω} {env : Env ℝ D} {w : ω} {s0 s s1 : State ℝ D ω} {dts : List ℝ}
    (hnew : State.new? env w = some s0) (hist : Hist P s0 dts s) (hok : s0.grid.ClearOK)
    (hL : 0 < env.neighborLength) (sch : Schedule) (hv : sch.Valid s.n) (dt : ℝ)
    (h : (s.start dt).searchNeighbor (sch 0) = .ok s1)
    (i j : Nat) (hi : i < s.n) (hj : j < s.n) (hdi : (s1.ps i).ty ≠ .disabled) (hdj : (s1.ps j).ty ≠ .disabled) :
    (j ∈ s1.neighbors i ↔ j ≠ i ∧ dist (s.ps i).x (s.ps j).x < env.neighborLength) ∧
    (j ∈ s1.neighbors i ↔ i ∈ s1.neighbors j) := by
  obtain ⟨b0, b1, b2, b3, b4, b5, b6, b7, b8, -⟩ := hist.built hnew
  obtain ⟨-, h2, -⟩ := hist.frame
  have key : ∀ i j, i < s.n → j < s.n → (s1.ps i).ty ≠ .disabled → (s1.ps j).ty ≠ .disabled →
      (j ∈ s1.neighbors i ↔ j ≠ i ∧ dist (s.ps i).x (s.ps j).x < env.neighborLength) := by
    intro i j hi hj hdi hdj
    have hL' : 0 < (s.start dt).env.neighborLength := by
      change 0 < s.env.neighborLength
      rw [b5]; exact hL
    rw [(C07_neighbour_lists_exact (s := s.start dt) (hv 0) (h2.clearOK.mpr hok) b0 b1 hL' h i hi hdi).2 j]
    have e : (s.start dt).env.neighborLength = env.neighborLength := b5
    rw [e]
    exact ⟨fun hh => ⟨hh.2.2.1, hh.2.2.2⟩, fun hh => ⟨hj, hdj, hh.1, hh.2⟩⟩
  refine ⟨key i j hi hj hdi hdj, ?_⟩
  rw [key i j hi hj hdi hdj, key j i hj hi hdj hdi, dist_comm', ne_comm]

/-! ## C11 -/

/-- Which particles the search disables. -/
theorem search_disabled_iff {s s1 : State ℝ D ω} (hbl : s.grid.blockLength = s.env.neighborLength) (hor : s.grid.origin = s.env.minX)
    (hsz : s.grid.size = (fun a => ⌈(s.env.maxX a - s.env.minX a) / s.env.neighborLength⌉ + 2)) (hL : 0 < s.env.neighborLength)
    {sch : List Ev} (hv : ValidSched s.n sch) (h1 : s.searchNeighbor sch = .ok s1) (i : Nat) (hi : i < s.n) (hen : (s.ps i).ty ≠ .disabled) :
    (s1.ps i).ty = .disabled ↔ ∃ a, (s.ps i).x a < s.env.minX a ∨
      s.env.minX a + (⌈(s.env.maxX a - s.env.minX a) / s.env.neighborLength⌉ + 2) * s.env.neighborLength ≤ (s.ps i).x a := by
  obtain ⟨g0, g, nb, k1, k2, k3, k4, -⟩ := searchNeighbor_ok_frame hv h1
  rw [k3]
  have e1 : ((State.marked { s with grid := g0 } (List.range s.n) g).ps i).ty
      = if i ∈ List.range s.n ∧ State.leaving { s with grid := g0 } i = true then PType.disabled
        else (s.ps i).ty := (marked_ps _ _ g i).2.2.2.2
  have hmem : i ∈ List.range s.n := List.mem_range.mpr hi
  have hleave : State.leaving { s with grid := g0 } i = true ↔ ∃ a, (s.ps i).x a < s.env.minX a ∨
      s.env.minX a + (⌈(s.env.maxX a - s.env.minX a) / s.env.neighborLength⌉ + 2) * s.env.neighborLength ≤ (s.ps i).x a := by
    have hgs := clear_geom k1
    unfold State.leaving
    have e2 : (State.ps { s with grid := g0 } i) = s.ps i := rfl
    have e3 : (State.grid { s with grid := g0 }) = g0 := rfl
    rw [e2, e3, hgs.block, block_real, hbl, hor]
    simp only [hen, ne_eq, not_false_eq_true, decide_true, Bool.true_and, hgs.inRange, Bool.not_eq_true']
    unfold Grid.inRange
    rw [decide_eq_false_iff_not]
    push Not
    rw [hsz]
    apply exists_congr
    intro a
    have hfl : (0 ≤ ⌊((s.ps i).x a - s.env.minX a) / s.env.neighborLength⌋) ↔ s.env.minX a ≤ (s.ps i).x a := by
      rw [Int.floor_nonneg, le_div_iff₀ hL, zero_mul, sub_nonneg]
    rw [hfl]
    simp only
    rw [Int.le_floor, le_div_iff₀ hL]
    push_cast
    constructor
    · intro hh
      by_cases hx : s.env.minX a ≤ (s.ps i).x a
      · right; have := hh hx; linarith
      · left; push Not at hx; exact hx
    · rintro (hh | hh) hx
      · linarith
      · linarith
  constructor
  · intro hd
    rw [← hleave]
    by_contra hc
    have : ((State.marked { s with grid := g0 } (List.range s.n) g).ps i).ty = .disabled := hd
    rw [e1, if_neg (fun hh => hc hh.2)] at this
    exact hen this
  · intro hh
    change ((State.marked { s with grid := g0 } (List.range s.n) g).ps i).ty = .disabled
    rw [e1, if_pos ⟨hmem, hleave.mpr hh⟩]

/-- **C11.**  A successful step disables an enabled particle exactly when, at the beginning of the step, it is below `MinX` or at or
above `MinX + (ceil((MaxX-MinX)/NeighborLength)+2)*NeighborLength` on some axis. -/
theorem C11_disabled_iff_outside {P : Params ℝ D ω} {env : Env ℝ D} {w : ω} {s0 s s' : State ℝ D ω} {dts : List ℝ}
    (hnew : State.new? env w = some s0) (hist : Hist P s0 dts s) (hL : 0 < env.neighborLength)
    (sch : Schedule) (hv : sch.Valid s.n) (dt : ℝ) (h : s.forwardTime P sch dt = .ok s')
    (i : Nat) (hi : i < s.n) (hen : (s.ps i).ty ≠ .disabled) :
    (s'.ps i).ty = .disabled ↔ ∃ a, (s.ps i).x a < env.minX a ∨
      env.minX a + (⌈(env.maxX a - env.minX a) / env.neighborLength⌉ + 2) * env.neighborLength ≤ (s.ps i).x a := by
  obtain ⟨b0, b1, b2, b3, b4, b5, b6, b7, b8, -⟩ := hist.built hnew
  obtain ⟨s1, h1, h2⟩ := forwardTime_ok hv h
  obtain ⟨s2, h3, rfl⟩ := afterSearch_ok h2
  obtain ⟨-, -, -, -, -, -, -, -, -, -, f11⟩ := pressureC_frame h3
  rw [dsC_ty, gradC_ty, (f11 i).2.2.2, midC_ty]
  have key := search_disabled_iff (s := s.start dt) b1 b2 b3 (by change 0 < s.env.neighborLength; rw [b5]; exact hL) (hv 0) h1 i hi hen
  rw [key]
  change (∃ a, (s.ps i).x a < s.env.minX a ∨
      s.env.minX a + (⌈(s.env.maxX a - s.env.minX a) / s.env.neighborLength⌉ + 2) * s.env.neighborLength ≤ (s.ps i).x a) ↔ _
  rw [b5, b7, b8]

/-- **C11.**  A particle inside the box `[MinX, MaxX]`, or above it by less than two blocks, is not disabled; one that is three
blocks or more above, or below `MinX`, is. -/
theorem C11_box {P : Params ℝ D ω} {env : Env ℝ D} {w : ω} {s0 s s' : State ℝ D ω} {dts : List ℝ}
    (hnew : State.new? env w = some s0) (hist : Hist P s0 dts s) (hL : 0 < env.neighborLength)
    (sch : Schedule) (hv : sch.Valid s.n) (dt : ℝ) (h : s.forwardTime P sch dt = .ok s')
    (i : Nat) (hi : i < s.n) (hen : (s.ps i).ty ≠ .disabled) :
    ((∀ a, env.minX a ≤ (s.ps i).x a ∧ (s.ps i).x a < env.maxX a + 2 * env.neighborLength) → (s'.ps i).ty = (s.ps i).ty) ∧
    (∀ a, ((s.ps i).x a < env.minX a ∨ env.maxX a + 3 * env.neighborLength ≤ (s.ps i).x a) → (s'.ps i).ty = .disabled) := by
  have hiff := C11_disabled_iff_outside hnew hist hL sch hv dt h i hi hen
  have hlow : ∀ a, env.maxX a ≤ env.minX a + ⌈(env.maxX a - env.minX a) / env.neighborLength⌉ * env.neighborLength := by
    intro a
    have := Int.le_ceil ((env.maxX a - env.minX a) / env.neighborLength)
    rw [div_le_iff₀ hL] at this
    linarith
  have hup : ∀ a, env.minX a + ⌈(env.maxX a - env.minX a) / env.neighborLength⌉ * env.neighborLength
      < env.maxX a + env.neighborLength := by
    intro a
    have := Int.ceil_lt_add_one ((env.maxX a - env.minX a) / env.neighborLength)
    have h2 := mul_lt_mul_of_pos_right this hL
    rw [add_mul, div_mul_cancel₀ _ hL.ne'] at h2
    linarith
  constructor
  · intro hbox
    rcases (step_frame hv (Or.inl h)).2.2.2.2 i with k | ⟨-, -, k, -⟩
    · exact k
    · exfalso
      obtain ⟨a, ha | ha⟩ := hiff.mp k
      · linarith [(hbox a).1]
      · have := (hbox a).2
        have := hlow a
        rw [add_mul] at ha
        linarith
  · intro a ha
    apply hiff.mpr
    refine ⟨a, ?_⟩
    rcases ha with ha | ha
    · exact Or.inl ha
    · right
      have := hup a
      rw [add_mul]
      linarith

/-! ## Concrete instances -/

/-- Box `[0,10]^2`, `l0 = 1`, `r_e = 1.5`, search radius 2. -/
noncomputable def realEnv : Env ℝ 2 :=
  { t := 0, dt := 0, n0 := 4, lambda := 1, c := 10, maxDt := 1, maxDx := 1 / 10, l0 := 1, re := 3 / 2, g := ![0, -1], rho := 1,
    nu := 1, surfaceRatio := 0, minX := ![0, 0], maxX := ![10, 10], neighborLength := 2 }

/-- Two fluid particles with a wall particle above the first, and a fluid particle far outside the box. -/
noncomputable def realParticles : List (Particle ℝ 2) :=
  [{ x := ![1, 1], u := ![0, 0], p := 0, n := 0, ty := .incompressibleNewton },
   { x := ![2, 1], u := ![1, 0], p := 0, n := 0, ty := .incompressibleNewton },
   { x := ![1, 2], u := ![0, 0], p := 0, n := 0, ty := .wall },
   { x := ![20, 8], u := ![3, 0], p := 0, n := 0, ty := .incompressibleNewton }]

/-- Explicit pressure; the wall does not move. -/
noncomputable def realP : Params ℝ 2 Unit :=
  { cfg := { Config.default with explicit := true }, eps := 1 / 1000, walls := { pre := fun w _ _ => w, pos := fun _ _ _ _ => ![1, 2] } }

/-- A new computer. -/
noncomputable def realNew : State ℝ 2 Unit :=
  { n := 0, ps := fun _ => Particle.new .disabled, env := realEnv, grid := realEnv.builtGrid, nbr := fun _ _ => 0
    ppe := { size := 0, x := fun _ => 0, b := fun _ => 0, rows := fun _ => [], A := fun _ _ => none }
    du := fun _ => 0, ecs := fun _ => 0, origX := fun _ => 0, nNoSpp := fun _ => 0, world := (), ub := false }

theorem realNew_eq : State.new? realEnv () = some realNew := by
  unfold State.new?; rw [Env.builtGrid_eq]; rfl

/-- With these particles. -/
noncomputable def realState : State ℝ 2 Unit := realNew.addParticles realParticles

theorem realState_hist : Hist realP realNew [] realState := .add _ .start

theorem realNew_ok : realNew.grid.ClearOK := fun h => absurd h (by decide)

theorem realState_spaced : ∀ i j, i < j → j < realState.n → (realState.ps i).ty ≠ .disabled →
    (realState.ps j).ty ≠ .disabled → ∃ a, realEnv.l0 ≤ |(realState.ps i).x a - (realState.ps j).x a| := by
  intro i j hij hj _ _
  have hj : j < 4 := hj
  have : ∀ k, realState.ps k = realParticles.getD k (Particle.new .disabled) := fun k => rfl
  simp only [this]
  have hl : realEnv.l0 = 1 := rfl
  rw [hl]
  interval_cases j <;> interval_cases i
  · exact ⟨0, by simp [realParticles]; norm_num⟩
  · exact ⟨1, by simp [realParticles]; norm_num⟩
  · exact ⟨0, by simp [realParticles]; norm_num⟩
  · exact ⟨0, by simp [realParticles]; norm_num⟩
  · exact ⟨0, by simp [realParticles]; norm_num⟩
  · exact ⟨0, by simp [realParticles]; norm_num⟩

/-- A successful step in exact arithmetic: the hypotheses of C06, C07 and C11 are met. -/
theorem realState_step : ∃ s', realState.forwardTime realP (Schedule.serial 4) (1 / 100) = .ok s' :=
  C06_explicit_step_succeeds realNew_eq realState_hist realNew_ok one_pos two_pos realState_spaced rfl _
    (Schedule.serial_valid 4) _

/-- The search of this step, for C07. -/
example : ∃ s1, (realState.start (1 / 100)).searchNeighbor (Schedule.serial 4 0) = .ok s1 ∧
    (s1.ps 0).ty ≠ .disabled ∧ (s1.ps 1).ty ≠ .disabled := by
  obtain ⟨s', h⟩ := realState_step
  obtain ⟨s1, h1, h2⟩ := forwardTime_ok (Schedule.serial_valid 4) h
  have hty : ∀ i, (s'.ps i).ty = (s1.ps i).ty := by
    intro i
    obtain ⟨s2, h3, rfl⟩ := afterSearch_ok h2
    obtain ⟨-, -, -, -, -, -, -, -, -, -, f11⟩ := pressureC_frame h3
    rw [dsC_ty, gradC_ty, (f11 i).2.2.2, midC_ty]
  refine ⟨s1, h1, ?_, ?_⟩
  · rw [← hty, (C11_box realNew_eq realState_hist two_pos _ (Schedule.serial_valid 4) _ h 0 (by decide) (by decide)).1]
    · decide
    · intro a
      change (![0, 0] : Vec ℝ 2) a ≤ (![1, 1] : Vec ℝ 2) a ∧ (![1, 1] : Vec ℝ 2) a < (![10, 10] : Vec ℝ 2) a + 2 * 2
      fin_cases a <;> norm_num
  · rw [← hty, (C11_box realNew_eq realState_hist two_pos _ (Schedule.serial_valid 4) _ h 1 (by decide) (by decide)).1]
    · decide
    · intro a
      change (![0, 0] : Vec ℝ 2) a ≤ (![2, 1] : Vec ℝ 2) a ∧ (![2, 1] : Vec ℝ 2) a < (![10, 10] : Vec ℝ 2) a + 2 * 2
      fin_cases a <;> norm_num

/-- The fourth particle leaves, the others stay (C11). -/
example : ∃ s', realState.forwardTime realP (Schedule.serial 4) (1 / 100) = .ok s' ∧ (s'.ps 3).ty = .disabled := by
  obtain ⟨s', h⟩ := realState_step
  refine ⟨s', h, (C11_box realNew_eq realState_hist two_pos _ (Schedule.serial_valid 4) _ h 3 (by decide) (by decide)).2 0
    (Or.inr ?_)⟩
  change (![10, 10] : Vec ℝ 2) 0 + 3 * 2 ≤ (![20, 8] : Vec ℝ 2) 0
  norm_num

/-- An instance of C02: the particle at `(2,1)` is found from `(1,1)`. -/
example : ∃ g g' b, realGrid.clear? = some g ∧ g.storeSeq [((![2, 1] : Vec ℝ 2), 5)] = some g' ∧
    realGrid.block? (![1, 1] : Vec ℝ 2) = some b ∧ (∀ a, 0 ≤ b a ∧ b a < realGrid.size a) ∧
    dist (![1, 1] : Vec ℝ 2) (![2, 1] : Vec ℝ 2) < realGrid.blockLength ∧ realGrid.ClearOK := by
  have hok : realGrid.ClearOK := fun h => absurd h (by decide)
  have hfl : ∀ x y : ℝ, 0 ≤ x → x ≤ 2 → 0 ≤ y → y < 2 → ∀ a, 0 ≤ (fun a => ⌊((![x, y] : Vec ℝ 2) a - realGrid.origin a) / realGrid.blockLength⌋ : Blk 2) a ∧
      (fun a => ⌊((![x, y] : Vec ℝ 2) a - realGrid.origin a) / realGrid.blockLength⌋ : Blk 2) a < realGrid.size a := by
    intro x y hx hx' hy hy' a
    fin_cases a
    · change 0 ≤ ⌊(x - 0) / 2⌋ ∧ ⌊(x - 0) / 2⌋ < 7
      exact ⟨Int.floor_nonneg.mpr (by linarith), Int.floor_lt.mpr (by push_cast; linarith)⟩
    · change 0 ≤ ⌊(y - 0) / 2⌋ ∧ ⌊(y - 0) / 2⌋ < 7
      exact ⟨Int.floor_nonneg.mpr (by linarith), Int.floor_lt.mpr (by push_cast; linarith)⟩
  obtain ⟨g', hg'⟩ := C06_spaced_particles_fit 2 1 one_pos two_pos ![0, 0] ![10, 10] realGrid realGrid _ realGrid_eq .start hok
    (clear_eq hok) [((![2, 1] : Vec ℝ 2), 5)] (by
      intro e he
      rw [List.mem_singleton] at he
      subst he
      exact ⟨_, block_real _ _, hfl 2 1 (by norm_num) (by norm_num) (by norm_num) (by norm_num)⟩) (List.pairwise_singleton _ _)
  refine ⟨_, g', _, clear_eq hok, hg', block_real _ _, hfl 1 1 (by norm_num) (by norm_num) (by norm_num) (by norm_num), ?_, hok⟩
  rw [dist_def, dot_real, Fin.sum_univ_two]
  change Real.sqrt ((1 - 2) * (1 - 2) + (1 - 1) * (1 - 1)) < 2
  rw [Real.sqrt_lt' (by norm_num)]
  norm_num

end OpenMps
