import Verif.Lemmas.Rounding
import Verif.Props.Step
import Verif.Props.GridReal

/-! # Property C47 (the neighbour search in floating-point arithmetic) -/

set_option linter.unusedSectionVars false

namespace OpenMps

variable {F : Type} [Scalar F] {D : Nat} {ω : Type}

theorem block_axis {g : Grid F D} {x : Vec F D} {b : Blk D} (h : g.block? x = some b) (a : Fin D) :
    Scalar.floorIdx ((x a - g.origin a) / g.blockLength) = some (b a) := by
  unfold Grid.block? allSome at h
  split at h
  · rename_i hs
    injection h with h
    rw [← h]
    obtain ⟨v, hv⟩ := Option.isSome_iff_exists.mp (hs a)
    have hv' : Scalar.floorIdx ((x a - g.origin a) / g.blockLength) = some v := hv
    simp only [hv', Option.getD_some]
  · cases h

/-- The lists after a successful search, for any arithmetic: adjacent blocks and computed distance below the search radius. -/
theorem neighbors_iff {s s1 : State F D ω} {sch : List Ev} (hv : ValidSched s.n sch)
    (hok : s.grid.ClearOK) (hub : s.ub = false) (h : s.searchNeighbor sch = .ok s1) :
    (∀ j, j < s.n → (s1.ps j).ty ≠ .disabled →
      (s.ps j).ty ≠ .disabled ∧ ∃ b, s.grid.block? (s.ps j).x = some b ∧ s.grid.inRange b = true) ∧
    ∀ i, i < s.n → (s1.ps i).ty ≠ .disabled → ∀ b, s.grid.block? (s.ps i).x = some b →
    ∀ j, j ∈ s1.neighbors i ↔
      j < s.n ∧ (s1.ps j).ty ≠ .disabled ∧ j ≠ i ∧
      (∃ c, s.grid.block? (s.ps j).x = some c ∧ ∀ a, |c a - b a| ≤ 1) ∧
      Scalar.lt (dist (s.ps i).x (s.ps j).x) s.env.neighborLength = true := by
  rcases searchNeighbor_spec s sch hv hok hub with
    ⟨g, k1, k2, k3⟩ | ⟨j, g, g', k1, k2, k3, k4, k5, k6⟩ | ⟨j, k1, k2, k3, k4⟩
  · rw [h] at k3
    injection k3 with k3
    obtain ⟨f1, f2, f3, f4⟩ := marked_facts s g k1 k2
    set m := State.marked ({ s with grid := s.grid.cleared }) (List.range s.n) g with hm
    have hps : s1.ps = m.ps := by rw [k3]; rfl
    have hx : ∀ j, (m.ps j).x = (s.ps j).x := fun j => (marked_ps _ _ g j).1
    have hblk : ∀ x, m.grid.block? x = s.grid.block? x := f1.block
    constructor
    · intro j hj hd
      rw [hps] at hd
      refine ⟨fun hs => hd ?_, ?_⟩
      · rw [(marked_ps _ _ g j).2.2.2.2]
        split
        · rfl
        · exact hs
      obtain ⟨b, hb, hin⟩ := f3 j hj hd
      rw [hx, hblk] at hb
      rw [f1.inRange] at hin
      exact ⟨b, hb, hin⟩
    intro i hi hd b hb j
    have hmd : (m.ps i).ty ≠ .disabled := by rw [hps] at hd; exact hd
    have hmi : i < m.n := hi
    have hnb : s1.neighbors i = m.nbrList i := by rw [k3]; exact neighbors_withRows m i hmi hmd
    rw [hnb, hps]
    unfold State.nbrList
    rw [hblk, hx, hb]
    simp only [List.mem_flatMap, List.mem_filter, List.mem_range, Bool.and_eq_true, decide_eq_true_eq, mem_offsets]
    simp only [hblk, hx]
    constructor
    · rintro ⟨o, ho, a1, ⟨⟨a2, a3⟩, a4⟩, a5⟩
      refine ⟨a1, a2, a4, ⟨b + o, a3, fun a => ?_⟩, a5⟩
      rw [abs_le, Pi.add_apply, add_sub_cancel_left]
      exact ho a
    · rintro ⟨a1, a2, a4, ⟨c, hc, hcl⟩, a5⟩
      refine ⟨c - b, fun a => ?_, a1, ⟨⟨a2, ?_⟩, a4⟩, a5⟩
      · have := abs_le.mp (hcl a); simpa using this
      · rw [hc]; congr 1; funext a; simp
  · rw [h] at k6; cases k6
  · rw [h] at k4; cases k4

/-- The constants after any history, for any arithmetic. -/
theorem Hist.geometry {P : Params F D ω} {env : Env F D} {w : ω} {s0 s : State F D ω} {dts : List F}
    (hnew : State.new? env w = some s0) (hist : Hist P s0 dts s) :
    s.ub = false ∧ s.grid.blockLength = env.neighborLength ∧ s.grid.origin = env.minX ∧
    s.env.neighborLength = env.neighborLength ∧ s.grid.size = s0.grid.size := by
  obtain ⟨h1, h2, h3⟩ := hist.frame
  have hg : s0.ub = false ∧ s0.grid.blockLength = env.neighborLength ∧ s0.grid.origin = env.minX ∧ s0.env = env := by
    unfold State.new? at hnew
    cases hm : Grid.mk? env.neighborLength env.l0 env.minX env.maxX with
    | none => rw [hm] at hnew; cases hnew
    | some g =>
      rw [hm] at hnew
      simp only [Option.some.injEq] at hnew
      unfold Grid.mk? at hm
      split at hm
      · injection hm with hm
        rw [← hnew, ← hm]; exact ⟨rfl, rfl, rfl, rfl⟩
      · cases hm
  have he : s.env.neighborLength = env.neighborLength := by
    refine Hist.rec' (Q := fun _ s => s.env.neighborLength = env.neighborLength) (by rw [hg.2.2.2]) ?_ ?_ hist
    · intro _ _ _ _ h; exact h
    · intro _ _ _ _ _ _ h hv hl
      rw [(step_frame hv hl).2.1]; exact h
  exact ⟨by rw [h3, hg.1], by rw [h2.bl, hg.2.1], by rw [h2.origin, hg.2.2.1], he, h2.size⟩

/-- **C47.**  A time step of a computer with any history, in an arithmetic as accurate as `double` (relative error `2^-50` per operation,
underflow and overflow included), in a grid of up to `2^20` blocks per axis: no neighbour is lost and none is invented, up to a
relative tolerance of `2^-26` of the search radius.  The list of an enabled particle contains every other enabled particle whose exact distance is
at most `(1 - 2^-26)` search radii, and none whose distance is at least `(1 + 2^-26)` search radii. -/
theorem C47_no_neighbour_lost_by_rounding (R : Rounding F) (hR : R.DoubleLike) (hD : D ≤ 3)
    {P : Params F D ω} {env : Env F D} {w : ω} {s0 s s1 : State F D ω} {dts : List F}
    (hnew : State.new? env w = some s0) (hist : Hist P s0 dts s) (hok : s0.grid.ClearOK)
    (hL : R.GoodLength env.neighborLength) (hsize : ∀ a, s0.grid.size a ≤ 2 ^ 20) (hmin : R.InRange env.neighborLength env.minX)
    (hpos : ∀ i, i < s.n → (s.ps i).ty ≠ .disabled → R.InRange env.neighborLength (s.ps i).x)
    (sch : Schedule) (hv : sch.Valid s.n) (dt : F) (h : (s.start dt).searchNeighbor (sch 0) = .ok s1)
    (i j : Nat) (hi : i < s.n) (hj : j < s.n) (hij : j ≠ i) (hdi : (s1.ps i).ty ≠ .disabled) (hdj : (s1.ps j).ty ≠ .disabled) :
    (R.trueDist (s.ps i).x (s.ps j).x ≤ (1 - 1 / 2 ^ 26) * R.val env.neighborLength → j ∈ s1.neighbors i) ∧
    (j ∈ s1.neighbors i → R.trueDist (s.ps i).x (s.ps j).x < (1 + 1 / 2 ^ 26) * R.val env.neighborLength) := by
  obtain ⟨b0, b1, b2, b3, b4⟩ := hist.geometry hnew
  obtain ⟨-, h2, -⟩ := hist.frame
  obtain ⟨n1, n2⟩ := neighbors_iff (s := s.start dt) (hv 0) (h2.clearOK.mpr hok) b0 h
  obtain ⟨ei, b, hb, inb⟩ := n1 i hi hdi
  obtain ⟨ej, c, hc, inc⟩ := n1 j hj hdj
  have xi := hpos i hi ei
  have xj := hpos j hj ej
  have hb' : s.grid.block? (s.ps i).x = some b := hb
  have hc' : s.grid.block? (s.ps j).x = some c := hc
  unfold Grid.inRange at inb inc
  rw [decide_eq_true_eq] at inb inc
  have hsz : ∀ a, s.grid.size a ≤ 2 ^ 20 := fun a => by rw [b4]; exact hsize a
  have kb : ∀ a, Scalar.floorIdx (((s.ps i).x a - env.minX a) / env.neighborLength) = some (b a) := by
    intro a; rw [← b1, ← b2]; exact block_axis hb' a
  have kc : ∀ a, Scalar.floorIdx (((s.ps j).x a - env.minX a) / env.neighborLength) = some (c a) := by
    intro a; rw [← b1, ← b2]; exact block_axis hc' a
  have ib : ∀ a, 0 ≤ b a ∧ b a < 2 ^ 20 := fun a => ⟨(inb a).1, lt_of_lt_of_le (inb a).2 (hsz a)⟩
  have ic : ∀ a, 0 ≤ c a ∧ c a < 2 ^ 20 := fun a => ⟨(inc a).1, lt_of_lt_of_le (inc a).2 (hsz a)⟩
  have hΩ' : ∀ a, |R.val ((s.ps i).x a) - R.val ((s.ps j).x a)| ≤ R.Ω := by
    intro a
    refine (abs_sub _ _).trans ?_
    have := (xi a).2.1
    have := (xj a).2.1
    have := abs_nonneg (R.val ((s.ps i).x a))
    linarith
  have hfar : ∀ a, |R.val ((s.ps i).x a) - R.val ((s.ps j).x a)| ≤ 2 ^ 22 * R.val env.neighborLength := fun a =>
    R.coord_far hR hL (xi a) (xj a) (hmin a) (kb a) (ib a).1 (ib a).2 (kc a) (ic a).1 (ic a).2
  obtain ⟨d1, d2⟩ := R.dist_lt hR hL hD (s.ps i).x (s.ps j).x (fun a => (xi a).1) (fun a => (xj a).1) hΩ' hfar
  have n3 := n2 i hi hdi b hb j
  rw [n3]
  have hp := hL.pos
  have eL : (s.start dt).env.neighborLength = env.neighborLength := b3
  constructor
  · intro hd
    refine ⟨hj, hdj, hij, ⟨c, hc, fun a => ?_⟩, ?_⟩
    · refine R.coord_close hR hL (xi a) (xj a) (hmin a) (kb a) (ib a).1 (ib a).2 (kc a) (ic a).1 (ic a).2 ?_
      have h3 : |R.val ((s.ps i).x a) - R.val ((s.ps j).x a)| ≤ R.trueDist (s.ps i).x (s.ps j).x := by
        unfold Rounding.trueDist
        apply Real.abs_le_sqrt
        exact Finset.single_le_sum (f := fun a => (R.val ((s.ps i).x a) - R.val ((s.ps j).x a)) ^ 2)
          (fun a _ => sq_nonneg _) (Finset.mem_univ a)
      refine (h3.trans hd).trans ?_
      refine mul_le_mul_of_nonneg_right ?_ hp.le
      norm_num
    · rw [eL]; exact d1 hd
  · rintro ⟨-, -, -, -, h5⟩
    rw [eL] at h5
    exact d2 h5

/-- **C47**, symmetry.  In every arithmetic in which `(x - y) * (x - y)` and `(y - x) * (y - x)` are the same scalar (true of IEEE doubles) being
neighbours is exactly symmetric: rounding never puts `j` in the list of `i` without putting `i` in the list of `j`. -/
theorem C47_neighbours_symmetric (hsq : ∀ x y : F, (x - y) * (x - y) = (y - x) * (y - x))
    {s s1 : State F D ω} {sch : List Ev} (hv : ValidSched s.n sch)
    (hok : s.grid.ClearOK) (hub : s.ub = false) (h : s.searchNeighbor sch = .ok s1)
    (i j : Nat) (hi : i < s.n) (hj : j < s.n) (hdi : (s1.ps i).ty ≠ .disabled) (hdj : (s1.ps j).ty ≠ .disabled) :
    j ∈ s1.neighbors i ↔ i ∈ s1.neighbors j := by
  obtain ⟨n1, n2⟩ := neighbors_iff hv hok hub h
  obtain ⟨-, b, hb, -⟩ := n1 i hi hdi
  obtain ⟨-, c, hc, -⟩ := n1 j hj hdj
  have hdist : dist (s.ps i).x (s.ps j).x = dist (s.ps j).x (s.ps i).x := by
    unfold dist dot
    congr 2
    funext v a
    rw [Pi.sub_apply, Pi.sub_apply, hsq]
  rw [n2 i hi hdi b hb j, n2 j hj hdj c hc i, hb, hc, hdist]
  simp only [Option.some.injEq, exists_eq_left', hi, hj, hdi, hdj, true_and, ne_eq, not_false_eq_true]
  have : (∀ a, |c a - b a| ≤ 1) ↔ (∀ a, |b a - c a| ≤ 1) := by
    refine forall_congr' fun a => ?_
    rw [abs_sub_comm]
  rw [this, eq_comm]

/-- The search radius computed by the `Environment` constructor exceeds the radius of influence, in spite of rounding. -/
theorem searchRadius_margin (R : Rounding F) (hR : R.DoubleLike) {cfg : Config} {e : EnvArgs F D} {env : Env F D}
    (hmk : Env.mk? cfg e = some env) (hL : R.GoodLength env.neighborLength)
    (hc : R.finite e.courant ∧ 1 / 2 ^ 20 ≤ R.val e.courant ∧ R.val e.courant ≤ 1)
    (hre : R.finite env.re ∧ 0 ≤ R.val env.re ∧ 4 * R.val env.re ≤ R.Ω) (hΩ : 4 ≤ R.Ω) :
    R.val env.re ≤ (1 - 1 / 2 ^ 26) * R.val env.neighborLength := by
  have hre' : env.re = e.reByL0 * e.l0 ∧ env.neighborLength = e.reByL0 * e.l0 * (1 + e.courant * Scalar.ofInt 2) := by
    unfold Env.mk? at hmk
    split at hmk
    · cases hmk
    · injection hmk with hmk
      rw [← hmk]; exact ⟨rfl, rfl⟩
  obtain ⟨h1, h2⟩ := hre'
  rw [← h1] at h2
  obtain ⟨c0, c1, c2⟩ := hc
  obtain ⟨r0, r1, r2⟩ := hre
  have he : e50 = 1 / 2 ^ 50 := rfl
  have hη := hR.η_le
  have hηL := hL.η_le
  have hp := hL.pos
  have cp : 0 < R.val e.courant := lt_of_lt_of_le (by positivity) c1
  obtain ⟨f1, g1⟩ := R.mul c0 R.two.1 (by rw [R.two.2, abs_of_pos (by positivity)]; linarith)
  have g1 := g1.bounds hR.ε_le
  rw [R.two.2, abs_of_pos (show (0 : ℝ) < R.val e.courant * 2 by positivity), abs_le] at g1
  set k := R.val (e.courant * Scalar.ofInt 2) with hk
  have k1 : 1 / 2 ^ 20 ≤ k := by rw [he] at g1; norm_num at *; linarith
  have k2 : k ≤ 5 / 2 := by rw [he] at g1; norm_num at *; linarith
  obtain ⟨f2, g2⟩ := R.add R.one.1 f1 (by
    rw [R.one.2, ← hk, abs_of_pos (by norm_num at *; linarith)]; linarith)
  have g2 := g2.bounds hR.ε_le
  rw [R.one.2, ← hk, abs_of_pos (show (0 : ℝ) < 1 + k by norm_num at *; linarith), abs_le] at g2
  set q := R.val (1 + e.courant * Scalar.ofInt 2) with hq
  have q1 : 1 + 1 / 2 ^ 21 ≤ q := by rw [he] at g2; norm_num at *; linarith
  have q2 : q ≤ 4 := by rw [he] at g2; norm_num at *; linarith
  have q0 : 0 < q := by norm_num at *; linarith
  obtain ⟨f3, g3⟩ := R.mul r0 f2 (by
    rw [← hq, abs_of_nonneg (_root_.mul_nonneg r1 q0.le)]
    nlinarith)
  rw [← h2] at g3
  have g3 := g3.bounds hR.ε_le
  rw [← hq, abs_of_nonneg (_root_.mul_nonneg r1 q0.le), abs_le] at g3
  set L := R.val env.neighborLength with hLdef
  have hη3 : R.η ≤ L / 2 ^ 50 := by
    by_cases h1 : L ≤ 1
    · have : L ^ 2 ≤ L := by nlinarith
      norm_num at *; linarith
    · norm_num at *; linarith
  have hm : R.val env.re * (1 + 1 / 2 ^ 21) ≤ R.val env.re * q := mul_le_mul_of_nonneg_left q1 r1
  rw [he] at g3
  norm_num at *
  linarith

/-- **C47**, for the radius of influence.  With a Courant number of at least `2^-20` every enabled particle within the radius of influence `r_e`
of an enabled particle is in its list: the `1 + 2 C` in the search radius dominates all rounding errors. -/
theorem C47_radius_of_influence_covered (R : Rounding F) (hR : R.DoubleLike) (hD : D ≤ 3)
    {P : Params F D ω} {cfg : Config} {e : EnvArgs F D} {env : Env F D} {w : ω} {s0 s s1 : State F D ω} {dts : List F}
    (hmk : Env.mk? cfg e = some env)
    (hc : R.finite e.courant ∧ 1 / 2 ^ 20 ≤ R.val e.courant ∧ R.val e.courant ≤ 1)
    (hre : R.finite env.re ∧ 0 ≤ R.val env.re ∧ 4 * R.val env.re ≤ R.Ω) (hΩ : 4 ≤ R.Ω)
    (hnew : State.new? env w = some s0) (hist : Hist P s0 dts s) (hok : s0.grid.ClearOK)
    (hL : R.GoodLength env.neighborLength) (hsize : ∀ a, s0.grid.size a ≤ 2 ^ 20) (hmin : R.InRange env.neighborLength env.minX)
    (hpos : ∀ i, i < s.n → (s.ps i).ty ≠ .disabled → R.InRange env.neighborLength (s.ps i).x)
    (sch : Schedule) (hv : sch.Valid s.n) (dt : F) (h : (s.start dt).searchNeighbor (sch 0) = .ok s1)
    (i j : Nat) (hi : i < s.n) (hj : j < s.n) (hij : j ≠ i) (hdi : (s1.ps i).ty ≠ .disabled) (hdj : (s1.ps j).ty ≠ .disabled)
    (hd : R.trueDist (s.ps i).x (s.ps j).x ≤ R.val env.re) : j ∈ s1.neighbors i :=
  (C47_no_neighbour_lost_by_rounding R hR hD hnew hist hok hL hsize hmin hpos sch hv dt h i j hi hj hij hdi hdj).1
    (hd.trans (searchRadius_margin R hR hmk hL hc hre hΩ))

end OpenMps
