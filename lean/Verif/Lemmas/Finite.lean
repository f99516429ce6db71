import Verif.Spec.Finite
import Verif.Spec.Shift
import Verif.Props.Solver
import Verif.Lemmas.Step
import Verif.Lemmas.Sums
import Verif.Lemmas.Ppe
import Verif.Lemmas.Sim

/-! # Steps in arithmetic where a division by zero is an error -/

set_option linter.unusedSectionVars false

namespace OpenMps

variable {D : Nat} {ω : Type}

theorem foldl_hom_mem {α β γ : Type} (f : β → γ) (g : β → α → β) (g' : γ → α → γ) :
    ∀ (l : List α) (z : β), (∀ z, ∀ a ∈ l, g' (f z) a = f (g z a)) → l.foldl g' (f z) = f (l.foldl g z) := by
  intro l
  induction l with
  | nil => intro z _; rfl
  | cons a l ih =>
    intro z h
    simp only [List.foldl_cons]
    rw [h z a (List.mem_cons_self ..)]
    exact ih _ (fun z b hb => h z b (List.mem_cons_of_mem _ hb))

/-! ## Arithmetic -/

theorem pr_neg (a : ℝ) : -PReal.val a = .val (-a) := rfl
theorem pr_abs (a : ℝ) : Scalar.abs (PReal.val a) = .val (Scalar.abs a) := rfl
theorem pr_sqrt {a : ℝ} (h : 0 ≤ a) : Scalar.sqrt (PReal.val a) = .val (Scalar.sqrt a) := if_neg (not_lt.mpr h)
theorem pr_le (a b : ℝ) : Scalar.le (PReal.val a) (PReal.val b) = Scalar.le a b := rfl
theorem pr_lt' (a b : ℝ) : Scalar.lt (PReal.val a) (PReal.val b) = Scalar.lt a b := rfl
theorem pr_eq' (a b : ℝ) : Scalar.eq (PReal.val a) (PReal.val b) = Scalar.eq a b := rfl
theorem pr_ofInt (k : Int) : (Scalar.ofInt k : PReal) = .val (Scalar.ofInt k) := rfl
theorem pr_eps : (Scalar.epsilon : PReal) = .val Scalar.epsilon := rfl

theorem vval_add (v w : Vec ℝ D) : vval v + vval w = vval (v + w) := rfl
theorem vval_sub (v w : Vec ℝ D) : vval v - vval w = vval (v - w) := rfl
theorem vval_zero : (0 : Vec PReal D) = vval 0 := rfl
theorem vval_smul (c : ℝ) (v : Vec ℝ D) : smul (.val c) (vval v) = vval (smul c v) := rfl
theorem vval_vmul (c : ℝ) (v : Vec ℝ D) : vmul (vval v) (.val c) = vval (vmul v c) := rfl
theorem vval_vdiv {c : ℝ} (h : c ≠ 0) (v : Vec ℝ D) : vdiv (vval v) (.val c) = vval (vdiv v c) := by
  funext a; exact pr_div h

theorem dot_val (v w : Vec ℝ D) : dot (vval v) (vval w) = .val (dot v w) := by
  unfold dot
  exact foldl_hom_mem PReal.val (fun s a => s + v a * w a) (fun s a => s + vval v a * vval w a) _ 0 (fun _ _ _ => rfl)

theorem norm2_val (v : Vec ℝ D) : norm2 (vval v) = .val (norm2 v) := by
  have h : norm2 v = Scalar.sqrt ((List.finRange D).foldl (fun s a => s + Scalar.abs (v a) * Scalar.abs (v a)) 0) := rfl
  have hn : 0 ≤ (List.finRange D).foldl (fun (s : ℝ) a => s + Scalar.abs (v a) * Scalar.abs (v a)) 0 := by
    rw [foldl_add_sum (fun a => Scalar.abs (v a) * Scalar.abs (v a)), finRange_sum, zero_add]
    exact Finset.sum_nonneg (fun a _ => mul_self_nonneg _)
  rw [h, ← pr_sqrt hn]
  unfold norm2
  congr 1
  exact foldl_hom_mem PReal.val (fun s a => s + Scalar.abs (v a) * Scalar.abs (v a))
    (fun s a => s + Scalar.abs (vval v a) * Scalar.abs (vval v a)) _ 0 (fun _ _ _ => rfl)

theorem dist_val (x y : Vec ℝ D) : dist (vval x) (vval y) = .val (dist x y) := by
  unfold dist
  rw [vval_sub, dot_val, pr_sqrt (dot_self_nonneg _)]

theorem W_val (r re : ℝ) : W (.val r) (.val re) = PReal.val (W r re) := by
  unfold W
  rw [pr_zero, pr_lt', pr_lt']
  split
  · rename_i h
    rw [Bool.and_eq_true, lt_real_iff] at h
    rw [pr_div h.1.ne']; rfl
  · rfl

theorem stdMin_val (a b : ℝ) : stdMin (.val a) (.val b) = PReal.val (stdMin a b) := by
  unfold stdMin; rw [pr_lt']; split <;> rfl

theorem stdMax_val (a b : ℝ) : stdMax (.val a) (.val b) = PReal.val (stdMax a b) := by
  unfold stdMax; rw [pr_lt']; split <;> rfl

theorem val_ne_zero_cube {r : ℝ} (h : r ≠ 0) : r * r * r ≠ 0 := mul_ne_zero (mul_ne_zero h h) h

/-! ## Grid and neighbour search -/

theorem block_val (g : Grid ℝ D) (hL : g.blockLength ≠ 0) (x : Vec ℝ D) : g.val.block? (vval x) = g.block? x := by
  unfold Grid.block?
  congr 1
  funext a
  have : (vval x a - g.val.origin a) / g.val.blockLength = PReal.val ((x a - g.origin a) / g.blockLength) := pr_div hL
  rw [this]
  rfl

theorem clear_val (g : Grid ℝ D) : g.val.clear? = g.clear?.map Grid.val := by
  unfold Grid.clear?
  change (if (∃ a, g.size a < g.clearBound a) ∧ (∀ a, 0 < g.clearBound a) then _ else _) = _
  split <;> rfl

/-- Results of `Store`. -/
def StoreRes.val : StoreRes ℝ D → StoreRes PReal D
  | .ub => .ub
  | .outside g => .outside g.val
  | .full g => .full g.val
  | .stored g => .stored g.val

theorem store_val (g : Grid ℝ D) (hL : g.blockLength ≠ 0) (x : Vec ℝ D) (pid : Nat) :
    g.val.store (vval x) pid = (g.store x pid).val := by
  unfold Grid.store
  rw [block_val g hL]
  cases g.block? x with
  | none => rfl
  | some b =>
    simp only
    change (if g.inRange b = true then _ else _) = _
    split
    · change (if g.count b ≥ g.cap then _ else _) = _
      split <;> rfl
    · rfl

theorem scan_val (g : Grid ℝ D) (it : Iter D) (k : Nat) : ∀ (m : Nat) (b : Bool), lastNeighbor D - m = k →
    it.scan g.val m b = it.scan g m b := by
  induction k using Nat.strong_induction_on with
  | _ k ih =>
    intro m b hk
    unfold Iter.scan
    by_cases h : (!b && decide (m + 1 < lastNeighbor D)) = true
    · rw [if_pos h, if_pos h]
      simp at h
      exact ih (lastNeighbor D - (m + 1)) (by omega) (m + 1) _ rfl
    · rw [if_neg h, if_neg h]

theorem increment_val (g : Grid ℝ D) (it : Iter D) : it.increment g.val = it.increment g := by
  unfold Iter.increment
  simp only [scan_val g it _ _ _ rfl]
  rfl

theorem collect_val (g : Grid ℝ D) (k : Nat) : ∀ it : Iter D, it.collect g.val k = it.collect g k := by
  induction k with
  | zero => intro it; rfl
  | succ k ih =>
    intro it
    unfold Iter.collect
    rw [increment_val]
    simp only [ih]
    rfl

theorem visit_val (g : Grid ℝ D) (hL : g.blockLength ≠ 0) (x : Vec ℝ D) : g.val.visit (vval x) = g.visit x := by
  unfold Grid.visit Grid.cbegin
  rw [block_val g hL]
  cases g.block? x with
  | none => rfl
  | some b =>
    simp only [increment_val, collect_val]
    rfl

theorem mk_val {L l0 : ℝ} (hL : L ≠ 0) (hl : l0 ≠ 0) (minX maxX : Vec ℝ D) :
    Grid.mk? (.val L) (.val l0) (vval minX) (vval maxX) = (Grid.mk? L l0 minX maxX).map Grid.val := by
  have e1 : ∀ a, (vval maxX a - vval minX a) / PReal.val L = .val ((maxX a - minX a) / L) := fun a => pr_div hL
  have e2 : PReal.val L / PReal.val l0 = .val (L / l0) := pr_div hl
  unfold Grid.mk?
  simp only [e1, e2]
  rw [show (fun a => Scalar.ceilIdx (PReal.val ((maxX a - minX a) / L))) = (fun a => Scalar.ceilIdx ((maxX a - minX a) / L)) from rfl,
    show Scalar.ceilIdx (PReal.val (L / l0)) = Scalar.ceilIdx (L / l0) from rfl]
  cases allSome (fun a => Scalar.ceilIdx ((maxX a - minX a) / L)) with
  | none => rfl
  | some sz =>
    cases Scalar.ceilIdx (L / l0) with
    | none => rfl
    | some c => rfl

section
variable (pp : Ppe PReal)

theorem val_andThen {S T : Type} (f : S → T) (r : Res S) (k : S → Res S) (k' : T → Res T) (h : ∀ s, r = .ok s → k' (f s) = (k s).map f) :
    (r.map f).andThen k' = (r.andThen k).map f := by
  cases r with
  | ok s => exact h s rfl
  | exn e s => rfl
  | ub => rfl

theorem storeOne_val (s : State ℝ D ω) (hL : s.grid.blockLength ≠ 0) (i : Nat) :
    (s.val pp).storeOne i = (s.storeOne i).map (State.val pp) := by
  unfold State.storeOne
  have e : (s.val pp).grid.store ((s.val pp).ps i).x i = (s.grid.store (s.ps i).x i).val := store_val _ hL _ _
  rw [e, show ((s.val pp).ps i).ty = (s.ps i).ty from rfl]
  split
  · rfl
  · cases s.grid.store (s.ps i).x i with
    | ub => rfl
    | full g => rfl
    | stored g => rfl
    | outside g =>
      simp only [StoreRes.val, Res.map, State.val]
      congr 2
      funext j
      unfold upd
      split <;> rfl

theorem store_blockLength (g : Grid ℝ D) (x : Vec ℝ D) (i : Nat) (g' : Grid ℝ D)
    (h : g.store x i = .stored g' ∨ g.store x i = .outside g') : g'.blockLength = g.blockLength := by
  unfold Grid.store at h
  rw [block_real] at h
  simp only at h
  split at h
  · split at h <;> rcases h with h | h <;> cases h; rfl
  · rcases h with h | h <;> cases h; rfl

theorem storeOne_blockLength {s s' : State ℝ D ω} {i : Nat} (h : s.storeOne i = .ok s') : s'.grid.blockLength = s.grid.blockLength := by
  unfold State.storeOne at h
  split at h
  · cases h; rfl
  · cases hg : s.grid.store (s.ps i).x i with
    | ub => rw [hg] at h; cases h
    | full g => rw [hg] at h; cases h
    | stored g => rw [hg] at h; cases h; exact store_blockLength _ _ _ _ (Or.inl hg)
    | outside g => rw [hg] at h; cases h; exact store_blockLength _ _ _ _ (Or.inr hg)

theorem storeAll_val (is : List Nat) : ∀ s : State ℝ D ω, s.grid.blockLength ≠ 0 →
    State.storeAll is (s.val pp) = (State.storeAll is s).map (State.val pp) := by
  induction is with
  | nil => intro s _; rfl
  | cons i is ih =>
    intro s hL
    unfold State.storeAll
    rw [storeOne_val pp s hL]
    apply val_andThen
    intro s' h
    exact ih s' (by rw [storeOne_blockLength h]; exact hL)

theorem storeAll_blockLength (is : List Nat) : ∀ s s' : State ℝ D ω, State.storeAll is s = .ok s' → s'.grid.blockLength = s.grid.blockLength := by
  induction is with
  | nil => intro s s' h; cases h; rfl
  | cons i is ih =>
    intro s s' h
    unfold State.storeAll at h
    cases h1 : s.storeOne i with
    | ok s1 => rw [h1] at h; rw [ih _ _ h, storeOne_blockLength h1]
    | exn e s1 => rw [h1] at h; cases h
    | ub => rw [h1] at h; cases h

theorem rowCompute_val (s : State ℝ D ω) (hL : s.grid.blockLength ≠ 0) (i : Nat) : (s.val pp).rowCompute i = s.rowCompute i := by
  unfold State.rowCompute
  have e : (s.val pp).grid.visit ((s.val pp).ps i).x = s.grid.visit (s.ps i).x := visit_val _ hL _
  have e2 : ∀ j, dist ((s.val pp).ps i).x ((s.val pp).ps j).x = .val (dist (s.ps i).x (s.ps j).x) := fun j => dist_val _ _
  rw [e]
  simp only [e2]
  rfl

/-- The loop over the rows in canonical form; see `rowLoop_eq`. -/
theorem searchNeighbor_val (sch : List Ev) (s : State ℝ D ω) (hv : ValidSched s.n sch) (hL : s.grid.blockLength ≠ 0) :
    (s.val pp).searchNeighbor sch = (s.searchNeighbor sch).map (State.val pp) := by
  unfold State.searchNeighbor
  rw [show (s.val pp).grid.clear? = s.grid.clear?.map Grid.val from clear_val _]
  cases hc : s.grid.clear? with
  | none => rfl
  | some g =>
    have hgL : g.blockLength = s.grid.blockLength := by
      unfold Grid.clear? at hc
      split at hc
      · cases hc
      · injection hc with hc; rw [← hc]
    simp only [Option.map]
    rw [show ({ s.val pp with grid := g.val } : State PReal D ω) = State.val pp { s with grid := g } from rfl,
      show (s.val pp).n = s.n from rfl, storeAll_val pp _ _ (by rw [show State.grid _ = g from rfl, hgL]; exact hL)]
    apply val_andThen
    intro s1 h1
    have hn : s1.n = s.n := storeAll_n _ { s with grid := g } s1 (Or.inl h1)
    have hL1 : s1.grid.blockLength ≠ 0 := by rw [storeAll_blockLength _ _ _ h1, show State.grid _ = g from rfl, hgL]; exact hL
    rw [rowLoop_eq s1 sch (by rw [hn]; exact hv), rowLoop_eq (s1.val pp) sch (by rw [show (s1.val pp).n = s1.n from rfl, hn]; exact hv)]
    simp only [rowCompute_val pp s1 hL1]
    cases hub : (s1.ub || (List.range s1.n).any (fun i => match s1.rowCompute i with | .bad => true | _ => false)) with
    | true => exact if_pos hub
    | false =>
      refine Eq.trans (if_neg (fun h => Bool.false_ne_true (Eq.trans (Eq.symm hub) h))) ?_
      simp only [if_neg Bool.false_ne_true, Res.map, State.val]
      congr 2

/-! ## Interactions -/

variable {cfg : Config}

theorem neighbors_val (s : State ℝ D ω) (i : Nat) : (s.val pp).neighbors i = s.neighbors i := rfl

theorem accLoop_val {A B : Type} [Add A] [Add B] (g : A → B) (hg : ∀ a b, g (a + b) = g a + g b) (s : State ℝ D ω) (i : Nat) (zero : A)
    (f : Int → Particle ℝ D → A) (f' : Int → Particle PReal D → B)
    (hf : ∀ j ∈ s.neighbors i, j ≠ i → f' j (s.ps j).val = g (f j (s.ps j))) :
    (s.val pp).accLoop i (g zero) f' = (g (s.accLoop i zero f).1, vval (s.accLoop i zero f).2) := by
  unfold State.accLoop
  simp only [neighbors_val]
  refine foldl_hom_mem (fun z : A × Vec ℝ D => (g z.1, vval z.2)) _ _ (s.neighbors i) (zero, 0) ?_
  intro z j hj
  simp only
  by_cases hji : j ≠ i
  · rw [if_pos hji, if_pos hji]
    have e1 : ((s.val pp).ps j).x - ((s.val pp).ps i).x = vval ((s.ps j).x - (s.ps i).x) := rfl
    have e2 : (s.val pp).env.re * (s.val pp).env.re = .val (s.env.re * s.env.re) := rfl
    rw [e1, e2, dot_val, pr_lt', pr_sqrt (dot_self_nonneg _), show (s.val pp).env.re = .val s.env.re from rfl, W_val,
      show (s.val pp).ps j = (s.ps j).val from rfl, hf j hj hji]
    split
    · rw [hg]; rfl
    · rfl
  · rw [if_neg hji, if_neg hji]

theorem sppParticle_val (s : State ℝ D ω) (hn0 : s.env.n0 ≠ 0) (i : Nat) (g : Vec ℝ D) :
    (s.val pp).sppParticle i (vval g) = (s.sppParticle i g).map Particle.val := by
  unfold State.sppParticle
  simp only
  rw [show (s.val pp).nNoSpp i = .val (s.nNoSpp i) from rfl, show (s.val pp).env.n0 = .val s.env.n0 from rfl,
    show (s.val pp).env.re = .val s.env.re from rfl, vval_vdiv hn0, dot_val, pr_sqrt (dot_self_nonneg _), pr_eps, pr_lt', pr_lt']
  split
  · rename_i h1
    rw [lt_real_iff] at h1
    split
    · rename_i h2
      rw [lt_real_iff] at h2
      have heps : (0 : ℝ) < Scalar.epsilon := by change (0 : ℝ) < 1 / 2 ^ 52; positivity
      have e1 : PReal.val s.env.re / (PReal.val s.env.n0 - PReal.val (s.nNoSpp i) + 1) = .val (s.env.re / (s.env.n0 - s.nNoSpp i + 1)) :=
        pr_div (by linarith)
      rw [e1, pr_div (by linarith), vval_smul]
      rfl
    · rfl
  · rfl

theorem accumulate_val {A B : Type} [Add A] [Add B] (g : A → B) (hg : ∀ a b, g (a + b) = g a + g b) (s : State ℝ D ω)
    (hn0 : s.env.n0 ≠ 0) (i : Nat) (zero : A) (f : Int → Particle ℝ D → A) (f' : Int → Particle PReal D → B)
    (hf : ∀ j ∈ s.neighbors i, j ≠ i → f' j (s.ps j).val = g (f j (s.ps j)))
    (hs : ∀ d q, cfg.spp = true → s.sppParticle i d = some q → f' (-1) q.val = g (f (-1) q)) :
    (s.val pp).accumulate cfg i (g zero) f' = g (s.accumulate cfg i zero f) := by
  unfold State.accumulate
  simp only
  rw [accLoop_val pp g hg s i zero f f' hf]
  simp only
  rw [sppParticle_val pp s hn0]
  by_cases hspp : cfg.spp = true
  · rw [if_pos hspp, if_pos hspp]
    cases hq : s.sppParticle i (s.accLoop i zero f).2 with
    | none => rfl
    | some q =>
      simp only [Option.map]
      rw [hs _ q hspp hq, hg]
  · rw [if_neg hspp, if_neg hspp]

/-- The virtual particle is at a positive distance. -/
theorem sppParticle_ne {s : State ℝ D ω} {i : Nat} {d : Vec ℝ D} {q : Particle ℝ D} (hre : s.env.re ≠ 0) (h : s.sppParticle i d = some q) :
    q.x ≠ (s.ps i).x := by
  unfold State.sppParticle at h
  simp only at h
  split at h
  · rename_i h1
    rw [lt_real_iff] at h1
    split at h
    · rename_i h2
      rw [lt_real_iff] at h2
      have heps : (0 : ℝ) < Scalar.epsilon := by change (0 : ℝ) < 1 / 2 ^ 52; positivity
      injection h with h
      intro hx
      rw [← h] at hx
      have hz : smul (s.env.re / (s.env.n0 - s.nNoSpp i + 1) / Scalar.sqrt (dot (vdiv d s.env.n0) (vdiv d s.env.n0))) (vdiv d s.env.n0) = 0 := by
        funext a
        have := congrFun hx a
        change (s.ps i).x a - smul _ _ a = (s.ps i).x a at this
        change smul _ _ a = (0 : ℝ)
        linarith
      have hc : s.env.re / (s.env.n0 - s.nNoSpp i + 1) / Scalar.sqrt (dot (vdiv d s.env.n0) (vdiv d s.env.n0)) ≠ 0 :=
        div_ne_zero (div_ne_zero hre (by linarith)) (by linarith)
      have hv : vdiv d s.env.n0 = 0 := by
        funext a
        have := congrFun hz a
        change _ * vdiv d s.env.n0 a = (0 : ℝ) at this
        exact (mul_eq_zero.mp this).resolve_left hc
      rw [hv, dot_self_eq_zero.mpr rfl, sqrt_real, Real.sqrt_zero] at h2
      linarith
    · cases h
  · cases h

/-- No listed neighbour is at the same place. -/
def State.SepAt (s : State ℝ D ω) (i : Nat) : Prop := ∀ j ∈ s.neighbors i, j ≠ i → (s.ps j).x ≠ (s.ps i).x

/-- Interactions that are defined at a positive distance. -/
theorem accumulate_val' {A B : Type} [Add A] [Add B] (g : A → B) (hg : ∀ a b, g (a + b) = g a + g b) (s : State ℝ D ω)
    (hn0 : s.env.n0 ≠ 0) (hre : s.env.re ≠ 0) (i : Nat) (hsep : s.SepAt i) (zero : A) (f : Int → Particle ℝ D → A)
    (f' : Int → Particle PReal D → B) (hf : ∀ j q, q.x ≠ (s.ps i).x → f' j q.val = g (f j q)) :
    (s.val pp).accumulate cfg i (g zero) f' = g (s.accumulate cfg i zero f) :=
  accumulate_val pp g hg s hn0 i zero f f' (fun j hj hne => hf _ _ (hsep j hj hne)) (fun _ _ _ h => hf _ _ (sppParticle_ne hre h))

theorem dist_ne {x y : Vec ℝ D} (h : x ≠ y) : dist y x ≠ 0 := (dist_pos' (Ne.symm h)).ne'

/-! ## Loops -/

theorem densCompute_val (s : State ℝ D ω) (hn0 : s.env.n0 ≠ 0) (i : Nat) :
    (s.val pp).densCompute cfg i = (.val (s.densCompute cfg i).1, (s.densCompute cfg i).2.map .val) := by
  unfold State.densCompute
  simp only
  rw [show ((s.val pp).ps i).ty = (s.ps i).ty from rfl]
  by_cases ha : (s.ps i).ty.active = true
  · rw [if_pos ha, if_pos ha]
    have key : ∀ t : State ℝ D ω, t.env.n0 ≠ 0 → (t.val pp).accumulate cfg i (0 : PReal) (fun j q' =>
        if (cfg.spp && decide (j < 0)) = true then 0 else W (dist ((s.val pp).ps i).x q'.x) (s.val pp).env.re)
        = PReal.val (t.accumulate cfg i (0 : ℝ) (fun j q' =>
        if (cfg.spp && decide (j < 0)) = true then 0 else W (dist (s.ps i).x q'.x) s.env.re)) := by
      intro t ht
      have : ∀ (j : Int) (q : Particle ℝ D), (if (cfg.spp && decide (j < 0)) = true then (0 : PReal)
          else W (dist ((s.val pp).ps i).x q.val.x) (s.val pp).env.re)
          = .val (if (cfg.spp && decide (j < 0)) = true then 0 else W (dist (s.ps i).x q.x) s.env.re) := by
        intro j q
        split
        · rfl
        · exact Eq.trans (congrArg (fun z => W z _) (dist_val _ _)) (W_val _ _)
      exact accumulate_val pp PReal.val (fun _ _ => rfl) t ht i 0 _ _ (fun j _ _ => this _ _) (fun _ q _ _ => this _ q)
    by_cases h : cfg.spp = true
    · have e := key { s with nNoSpp := upd s.nNoSpp i s.env.n0 } hn0
      have e' : ({ s.val pp with nNoSpp := upd (s.val pp).nNoSpp i (s.val pp).env.n0 } : State PReal D ω)
          = State.val pp { s with nNoSpp := upd s.nNoSpp i s.env.n0 } := by
        simp only [State.val]
        congr 1
        funext k
        unfold upd
        split <;> rfl
      simp only [if_pos h]
      rw [e', e]
      simp only [Option.map]
      rw [← stdMax_val]
      rfl
    · have e := key s hn0
      simp only [if_neg h]
      rw [e]; rfl
  · rw [if_neg ha, if_neg ha]; rfl

theorem densC_val (s : State ℝ D ω) (hn0 : s.env.n0 ≠ 0) : (s.val pp).densC cfg = (s.densC cfg).val pp := by
  unfold State.densC
  simp only [densCompute_val pp s hn0]
  simp only [State.val]
  congr 1
  · funext i
    by_cases hi : i < s.n
    · refine Eq.trans (if_pos hi) (Eq.trans ?_ (congrArg Particle.val (if_pos hi).symm))
      cases (s.densCompute cfg i).2 <;> rfl
    · exact Eq.trans (if_neg hi) (congrArg Particle.val (if_neg hi).symm)
  · by_cases h : cfg.spp = true
    · simp only [if_pos h]
      funext i
      by_cases hi : i < s.n
      · exact Eq.trans (if_pos hi) (congrArg PReal.val (if_pos hi).symm)
      · exact Eq.trans (if_neg hi) (congrArg PReal.val (if_neg hi).symm)
    · simp only [if_neg h]

theorem densitySpeed_val (s : State ℝ D ω) (hn0 : s.env.n0 ≠ 0) (hre : s.env.re ≠ 0) (hdt : s.env.dt ≠ 0) (i : Nat) (hsep : s.SepAt i) :
    (s.val pp).densitySpeed cfg i = .val (s.densitySpeed cfg i) := by
  unfold State.densitySpeed
  split
  · change (if (cfg.spp && Scalar.lt (s.nNoSpp i) s.env.n0) = true then _ else _) = _
    split
    · rfl
    · have e := accumulate_val' (cfg := cfg) pp PReal.val (fun _ _ => rfl) s hn0 hre i hsep (0 : ℝ) (fun _ q =>
          let dx := q.x - (s.ps i).x
          let du := q.u - (s.ps i).u
          let r := norm2 dx
          dot dx du / (r * r * r)) (fun _ q =>
          let dx := q.x - ((s.val pp).ps i).x
          let du := q.u - ((s.val pp).ps i).u
          let r := norm2 dx
          dot dx du / (r * r * r)) (by
        intro j q hq
        simp only
        have h1 : q.val.x - ((s.val pp).ps i).x = vval (q.x - (s.ps i).x) := rfl
        have h2 : q.val.u - ((s.val pp).ps i).u = vval (q.u - (s.ps i).u) := rfl
        have hr : norm2 (q.x - (s.ps i).x) ≠ 0 := by rw [norm2_sub]; exact dist_ne (Ne.symm hq)
        rw [h1, h2, norm2_val, dot_val]
        exact pr_div (val_ne_zero_cube hr))
      refine Eq.trans (congrArg (fun z => -(s.val pp).env.re * z) e) ?_
      rfl
  · exact pr_div hdt

theorem ecsCompute_val (s : State ℝ D ω) (hn0 : s.env.n0 ≠ 0) (hre : s.env.re ≠ 0) (hdt : s.env.dt ≠ 0) (i : Nat)
    (hsep : (s.ps i).ty.active = true → s.SepAt i) : (s.val pp).ecsCompute cfg i = (s.ecsCompute cfg i).map .val := by
  unfold State.ecsCompute
  rw [show ((s.val pp).ps i).ty = (s.ps i).ty from rfl]
  split
  · rename_i ha
    rw [densitySpeed_val pp s hn0 hre hdt i (hsep ha)]
    have e : (((s.val pp).ps i).n - (s.val pp).env.n0) / (s.val pp).env.n0 = .val (((s.ps i).n - s.env.n0) / s.env.n0) := pr_div hn0
    rw [e]
    rfl
  · rfl

theorem getD_map {α β : Type} (f : α → β) (o : Option α) (d : α) : (o.map f).getD (f d) = f (o.getD d) := by cases o <;> rfl

theorem ecsC_val (s : State ℝ D ω) (hn0 : s.env.n0 ≠ 0) (hre : s.env.re ≠ 0) (hdt : s.env.dt ≠ 0)
    (hsep : ∀ i, i < s.n → (s.ps i).ty.active = true → s.SepAt i) : (s.val pp).ecsC cfg = (s.ecsC cfg).val pp := by
  unfold State.ecsC
  simp only [State.val]
  congr 1
  by_cases h : cfg.ecs = true
  · simp only [if_pos h]
    funext i
    by_cases hi : i < s.n
    · refine Eq.trans (if_pos hi) (Eq.trans ?_ (congrArg PReal.val (if_pos hi).symm))
      exact Eq.trans (congrArg (fun z => Option.getD z _) (ecsCompute_val pp s hn0 hre hdt i (hsep i hi))) (getD_map _ _ _)
    · exact Eq.trans (if_neg hi) (congrArg PReal.val (if_neg hi).symm)
  · simp only [if_neg h]

theorem duC_val (c : State ℝ D ω → Nat → Option (Vec ℝ D)) (c' : State PReal D ω → Nat → Option (Vec PReal D)) (s : State ℝ D ω)
    (hc : ∀ i, i < s.n → c' (s.val pp) i = (c s i).map vval) : (s.val pp).duC c' = (s.duC c).val pp := by
  unfold State.duC
  simp only [State.val]
  congr 1
  funext i
  by_cases hi : i < s.n
  · refine Eq.trans (if_pos hi) (Eq.trans ?_ (congrArg vval (if_pos hi).symm))
    exact Eq.trans (congrArg (fun z => Option.getD z _) (hc i hi)) (getD_map _ _ _)
  · exact Eq.trans (if_neg hi) (congrArg vval (if_neg hi).symm)

theorem gravity_val (s : State ℝ D ω) (hl0 : cfg.centralGravity = true → 0 < s.env.l0) (i : Nat) :
    (s.val pp).gravity cfg i = vval (s.gravity cfg i) := by
  unfold State.gravity
  split
  · rename_i hcg
    have h100 : (Scalar.ofInt 1 / Scalar.ofInt 100 : PReal) = .val (Scalar.ofInt 1 / Scalar.ofInt 100) := by
      rw [pr_ofInt, pr_ofInt, pr_div]
      rw [ofInt_real]; norm_num
    simp only
    have e1 : norm2 ((s.val pp).ps i).x = .val (norm2 (s.ps i).x) := norm2_val _
    have e2 : (s.val pp).env.l0 * (Scalar.ofInt 1 / Scalar.ofInt 100 : PReal) = .val (s.env.l0 * (Scalar.ofInt 1 / Scalar.ofInt 100)) := by
      rw [h100]; rfl
    have e3 : (List.finRange D).foldl (fun z a => if a.val + 1 = D then (s.val pp).env.g a else z) 0
        = PReal.val ((List.finRange D).foldl (fun z a => if a.val + 1 = D then s.env.g a else z) 0) :=
      foldl_hom_mem PReal.val (fun z a => if a.val + 1 = D then s.env.g a else z) _ _ 0 (fun z a _ => by
        by_cases h : a.val + 1 = D
        · rw [if_pos h, if_pos h]; rfl
        · rw [if_neg h, if_neg h])
    rw [e1, e2, e3, pr_lt']
    split
    · rfl
    · rename_i hlt
      rw [lt_real_iff, not_lt, ofInt_real, ofInt_real] at hlt
      have : norm2 (s.ps i).x ≠ 0 := by
        have := hl0 hcg
        have h2 : (0 : ℝ) < s.env.l0 * (((1 : Int) : ℝ) / ((100 : Int) : ℝ)) := by push_cast; positivity
        linarith
      rw [show ((s.val pp).ps i).x = vval (s.ps i).x from rfl, vval_vdiv this, vval_smul]
  · rfl

theorem accelCompute_val (s : State ℝ D ω) (he : s.env.Regular cfg) (i : Nat)
    (hsep : (s.ps i).ty.active = true → s.SepAt i) : (s.val pp).accelCompute cfg i = (s.accelCompute cfg i).map vval := by
  unfold State.accelCompute
  rw [show ((s.val pp).ps i).ty = (s.ps i).ty from rfl]
  split
  · rename_i hf
    have hn0 := he.n0.ne'
    have e := accumulate_val' (cfg := cfg) pp (vval (D := D)) (fun _ _ => rfl) s hn0 he.re.ne' i (hsep (by rw [hf]; rfl)) 0 (s.viscFunc cfg i)
      ((s.val pp).viscFunc cfg i) (by
        intro j q hq
        unfold State.viscFunc
        rw [show q.val.ty = q.ty from rfl]
        by_cases hd : q.ty ≠ .dummy
        · rw [if_pos hd, if_pos hd]
          have hr : dist (s.ps i).x q.x ≠ 0 := dist_ne hq
          have e1 : dist ((s.val pp).ps i).x q.val.x = .val (dist (s.ps i).x q.x) := dist_val _ _
          have e2 : q.val.u - ((s.val pp).ps i).u = vval (q.u - (s.ps i).u) := rfl
          simp only
          rw [e1, e2]
          by_cases hl : cfg.hl = true
          · rw [if_pos hl, if_pos hl]
            have e3 : (s.val pp).env.nu * Scalar.ofInt ((5 - D : Nat) : Int) * (s.val pp).env.re / (s.val pp).env.n0
                = .val (s.env.nu * Scalar.ofInt ((5 - D : Nat) : Int) * s.env.re / s.env.n0) := pr_div hn0
            rw [e3, show PReal.val (dist (s.ps i).x q.x) * PReal.val (dist (s.ps i).x q.x) * PReal.val (dist (s.ps i).x q.x)
              = .val (dist (s.ps i).x q.x * dist (s.ps i).x q.x * dist (s.ps i).x q.x) from rfl, pr_div (val_ne_zero_cube hr), vval_smul]
          · rw [if_neg hl, if_neg hl]
            have e3 : (s.val pp).env.nu * Scalar.ofInt 2 * Scalar.ofInt (D : Int) / (s.val pp).env.lambda
                = .val (s.env.nu * Scalar.ofInt 2 * Scalar.ofInt (D : Int) / s.env.lambda) := pr_div (he.lambda (by simpa using hl))
            rw [e3, show (s.val pp).env.n0 = .val s.env.n0 from rfl, pr_div hn0, show (s.val pp).env.re = .val s.env.re from rfl, W_val,
              pr_mul, vval_smul]
        · rw [if_neg hd, if_neg hd]; rfl)
    rw [gravity_val pp s he.l0]
    exact congrArg (fun z => some (z + vval (s.gravity cfg i))) e
  · rfl

theorem preC_val {P : Params ℝ D ω} {P' : Params PReal D ω} (hP : P.Alike P') (s : State ℝ D ω) :
    (s.val pp).preC P'.walls = (s.preC P.walls).val pp := by
  unfold State.preC
  simp only [State.val]
  congr 1
  exact hP.pre _ _ _

theorem moveC_val {P : Params ℝ D ω} {P' : Params PReal D ω} (hP : P.Alike P') (s : State ℝ D ω) (hdt : s.env.dt ≠ 0) :
    (s.val pp).moveC P'.walls = (s.moveC P.walls).val pp := by
  have key : ∀ i, (s.val pp).moveCompute P'.walls i = (vval (s.moveCompute P.walls i).1, vval (s.moveCompute P.walls i).2) := by
    intro i
    unfold State.moveCompute
    simp only
    rw [show ((s.val pp).ps i).ty = (s.ps i).ty from rfl]
    split
    · rfl
    · have e : P'.walls.pos (s.val pp).world i (s.val pp).env.t (s.val pp).env.dt = vval (P.walls.pos s.world i s.env.t s.env.dt) := hP.pos _ _ _ _
      rw [e]
      refine Prod.ext rfl ?_
      exact vval_vdiv hdt (P.walls.pos s.world i s.env.t s.env.dt - (s.ps i).x)
  unfold State.moveC
  simp only [key]
  simp only [State.val]
  congr 1
  funext i
  by_cases hi : i < s.n
  · refine Eq.trans (if_pos hi) (Eq.trans ?_ (congrArg Particle.val (if_pos hi).symm))
    rfl
  · exact Eq.trans (if_neg hi) (congrArg Particle.val (if_neg hi).symm)

theorem saveX_val (s : State ℝ D ω) : (s.val pp).saveX cfg = (s.saveX cfg).val pp := by
  unfold State.saveX
  split
  · simp only [State.val]
    congr 1
    funext i
    by_cases hi : i < s.n ∧ (s.ps i).ty.active = true
    · exact Eq.trans (if_pos hi) (congrArg vval (if_pos hi).symm)
    · exact Eq.trans (if_neg hi) (congrArg vval (if_neg hi).symm)
  · rfl

theorem pushC_val (s : State ℝ D ω) : (s.val pp).pushC = (s.pushC).val pp := by
  unfold State.pushC
  simp only [State.val]
  congr 1
  funext i
  by_cases hi : i < s.n ∧ (s.ps i).ty = PType.incompressibleNewton
  · refine Eq.trans (if_pos hi) (Eq.trans ?_ (congrArg Particle.val (if_pos hi).symm))
    rfl
  · exact Eq.trans (if_neg hi) (congrArg Particle.val (if_neg hi).symm)

/-! ## Pressure -/

theorem isSurface_val (s : State ℝ D ω) (hn0 : s.env.n0 ≠ 0) (n : ℝ) : (s.val pp).isSurface cfg (.val n) = s.isSurface cfg n := by
  unfold State.isSurface
  rw [show (s.val pp).env.n0 = .val s.env.n0 from rfl, pr_div hn0]
  rfl

theorem fixedRow_val (s : State ℝ D ω) (hn0 : s.env.n0 ≠ 0) (i : Nat) : (s.val pp).fixedRow cfg i = s.fixedRow cfg i := by
  unfold State.fixedRow
  rw [show ((s.val pp).ps i).n = .val (s.ps i).n from rfl, isSurface_val pp s hn0]
  rfl

theorem active_of_not_fixed {s : State ℝ D ω} {i : Nat} (h : ¬ s.fixedRow cfg i = true) : (s.ps i).ty.active = true := by
  unfold State.fixedRow at h
  unfold PType.active
  simp only [Bool.or_eq_true, decide_eq_true_eq, not_or] at h
  simp [h.1.1, h.1.2]

theorem rhsCompute_val (s : State ℝ D ω) (he : s.env.Regular cfg) (hdt : s.env.dt ≠ 0) (i : Nat)
    (hsep : (s.ps i).ty.active = true → s.SepAt i) :
    (s.val pp).rhsCompute cfg i = (.val (s.rhsCompute cfg i).1, .val (s.rhsCompute cfg i).2) := by
  unfold State.rhsCompute
  rw [fixedRow_val pp s he.n0.ne']
  by_cases h : s.fixedRow cfg i = true
  · rw [if_pos h, if_pos h]; rfl
  · rw [if_neg h, if_neg h, densitySpeed_val pp s he.n0.ne' he.re.ne' hdt i (hsep (active_of_not_fixed h))]
    have e : -(s.val pp).env.rho / ((s.val pp).env.n0 * (s.val pp).env.dt) = .val (-s.env.rho / (s.env.n0 * s.env.dt)) :=
      pr_div (mul_ne_zero he.n0.ne' hdt)
    simp only
    rw [e]
    by_cases hE : cfg.ecs = true
    · rw [if_pos hE, if_pos hE]; rfl
    · rw [if_neg hE, if_neg hE]; rfl

/-- Entries of a row. -/
def entryVal (e : Nat × ℝ) : Nat × PReal := (e.1, .val e.2)

/-- Accumulated rows. -/
def RowAcc.val (a : RowAcc ℝ) : RowAcc PReal := { sum := .val a.sum, entries := a.entries.map entryVal }

theorem RowAcc.val_add (a b : RowAcc ℝ) : (a + b).val = a.val + b.val := by
  change RowAcc.mk _ _ = RowAcc.mk _ _
  congr 1
  exact List.map_append

theorem coef_val (s : State ℝ D ω) (he : s.env.Regular cfg) {r : ℝ} (hr : r ≠ 0) : (s.val pp).coef cfg (.val r) = .val (s.coef cfg r) := by
  unfold State.coef
  by_cases hl : cfg.hl = true
  · rw [if_pos hl, if_pos hl]
    have e3 : Scalar.ofInt ((5 - D : Nat) : Int) * (s.val pp).env.re / (s.val pp).env.n0
        = .val (Scalar.ofInt ((5 - D : Nat) : Int) * s.env.re / s.env.n0) := pr_div he.n0.ne'
    rw [e3]
    exact pr_div (val_ne_zero_cube hr)
  · rw [if_neg hl, if_neg hl]
    have e3 : Scalar.ofInt ((2 * D : Nat) : Int) / (s.val pp).env.lambda
        = .val (Scalar.ofInt ((2 * D : Nat) : Int) / s.env.lambda) := pr_div (he.lambda (by simpa using hl))
    rw [e3, show (s.val pp).env.n0 = .val s.env.n0 from rfl, pr_div he.n0.ne', show (s.val pp).env.re = .val s.env.re from rfl, W_val]
    rfl

theorem matCompute_val (s : State ℝ D ω) (he : s.env.Regular cfg) (i : Nat) (hsep : (s.ps i).ty.active = true → s.SepAt i) :
    (s.val pp).matCompute cfg i = (s.matCompute cfg i).map entryVal := by
  unfold State.matCompute
  rw [fixedRow_val pp s he.n0.ne']
  by_cases h : s.fixedRow cfg i = true
  · rw [if_pos h, if_pos h]; rfl
  · rw [if_neg h, if_neg h]
    have e := accumulate_val' (cfg := cfg) pp RowAcc.val RowAcc.val_add s he.n0.ne' he.re.ne' i (hsep (active_of_not_fixed h))
      ({ sum := 0, entries := [] } : RowAcc ℝ) (s.rowFunc cfg i) ((s.val pp).rowFunc cfg i) (by
        intro j q hq
        unfold State.rowFunc
        rw [show q.val.ty = q.ty from rfl]
        by_cases hd : q.ty ≠ .dummy
        · rw [if_pos hd, if_pos hd]
          have e1 : dist ((s.val pp).ps i).x q.val.x = .val (dist (s.ps i).x q.x) := dist_val _ _
          simp only
          rw [e1, coef_val pp s he (dist_ne hq), show q.val.n = .val q.n from rfl, isSurface_val pp s he.n0.ne']
          change RowAcc.mk _ _ = RowAcc.mk _ _
          congr 1
          by_cases ho : (if cfg.spp = true then decide (0 ≤ j) else !s.isSurface cfg q.n) = true
          · rw [if_pos ho, if_pos ho]; rfl
          · rw [if_neg ho, if_neg ho]; rfl
        · rw [if_neg hd, if_neg hd]; rfl)
    have e' : (s.val pp).accumulate cfg i ({ sum := 0, entries := [] } : RowAcc PReal) ((s.val pp).rowFunc cfg i)
        = (s.accumulate cfg i ({ sum := 0, entries := [] } : RowAcc ℝ) (s.rowFunc cfg i)).val := e
    simp only
    rw [e', List.map_append]
    rfl

theorem rowOf_val (l : List (Nat × ℝ)) (j : Nat) : rowOf (l.map entryVal) j = (rowOf l j).map PReal.val := by
  unfold rowOf
  rw [List.foldl_map]
  have := foldl_hom_mem (fun (r : Nat → Option ℝ) => fun j => (r j).map PReal.val) (fun r e => upd r e.1 (some e.2))
    (fun r (e : Nat × ℝ) => upd r (entryVal e).1 (some (entryVal e).2)) l (fun _ => none) (by
      intro r e _
      funext k
      unfold upd
      by_cases h : k = e.1
      · exact Eq.trans (if_pos h) (Eq.trans rfl (congrArg (Option.map PReal.val) (if_pos h : (if k = e.1 then some e.2 else r k) = some e.2).symm))
      · exact Eq.trans (if_neg h) (congrArg (Option.map PReal.val) (if_neg h).symm))
  exact congrFun this j

/-- The pressure equation is the one of exact arithmetic. -/
theorem ppeC_val (s : State ℝ D ω) (he : s.env.Regular cfg) (hdt : s.env.dt ≠ 0)
    (hsep : ∀ i, i < s.n → (s.ps i).ty.active = true → s.SepAt i) :
    (∀ i, i < s.n → ∀ j, ((s.val pp).ppeC cfg).ppe.A i j = ((s.ppeC cfg).ppe.A i j).map PReal.val) ∧
    (∀ i, i < s.n → ((s.val pp).ppeC cfg).ppe.b i = .val ((s.ppeC cfg).ppe.b i)) ∧
    (∀ i, i < s.n → ((s.val pp).ppeC cfg).ppe.x i = .val ((s.ppeC cfg).ppe.x i)) := by
  refine ⟨?_, ?_, ?_⟩
  · intro i hi j
    change assemble s.n _ i j = (assemble s.n _ i j).map PReal.val
    rw [assemble_row, assemble_row, if_pos hi, if_pos hi]
    change rowOf (if i < s.n then _ else _) j = _
    rw [if_pos hi, if_pos hi, matCompute_val pp s he i (hsep i hi), rowOf_val]
  · intro i hi
    refine Eq.trans (if_pos hi) (Eq.trans ?_ (congrArg PReal.val (if_pos hi).symm))
    rw [rhsCompute_val pp s he hdt i (hsep i hi)]
  · intro i hi
    refine Eq.trans (if_pos hi) (Eq.trans ?_ (congrArg PReal.val (if_pos hi).symm))
    rw [rhsCompute_val pp s he hdt i (hsep i hi)]

/-- The pressures of an implicit step. -/
theorem solve_val (s : State ℝ D ω) (he : s.env.Regular cfg) (hdt : s.env.dt ≠ 0)
    (hsep : ∀ i, i < s.n → (s.ps i).ty.active = true → s.SepAt i) (eps : ℝ) {y : Nat → PReal}
    (h : cgSolve s.n ((s.val pp).ppeC cfg).ppe.A ((s.val pp).ppeC cfg).ppe.b ((s.val pp).ppeC cfg).ppe.x (.val eps) = (y, true)) :
    ∃ y', cgSolve s.n (s.ppeC cfg).ppe.A (s.ppeC cfg).ppe.b (s.ppeC cfg).ppe.x eps = (y', true) ∧ ∀ i, i < s.n → y i = .val (y' i) := by
  obtain ⟨hA, hb, hx⟩ := ppeC_val pp s he hdt hsep
  by_cases hn : s.n = 0
  · have : (cgSolve s.n (s.ppeC cfg).ppe.A (s.ppeC cfg).ppe.b (s.ppeC cfg).ppe.x eps).2 = true := by
      rw [hn]
      change Scalar.eq ((0 : ℝ) * eps * eps) 0 = true
      rw [eq_real]; simp
    exact ⟨_, Prod.ext rfl this, fun i hi => by omega⟩
  · obtain ⟨-, -, -, y', h1, h2⟩ := cgSolve_fin (fun i hi => ⟨_, hx i hi⟩) h (Nat.pos_of_ne_zero hn)
    have hs := cgSolve_sim (n := s.n) (A' := realMat ((s.val pp).ppeC cfg).ppe.A) (A := (s.ppeC cfg).ppe.A)
      (b' := fun i => (((s.val pp).ppeC cfg).ppe.b i).toReal) (b := (s.ppeC cfg).ppe.b)
      (x' := fun i => (((s.val pp).ppeC cfg).ppe.x i).toReal) (x := (s.ppeC cfg).ppe.x) eps
      (fun i hi j _ => by
        unfold realMat
        rw [hA i hi j]
        cases (s.ppeC cfg).ppe.A i j <;> rfl)
      (fun i hi => by rw [hb i hi]; rfl) (fun i hi => by rw [hx i hi]; rfl)
    rw [show (PReal.val eps).toReal = eps from rfl] at h1
    rw [h1] at hs
    refine ⟨_, Prod.ext rfl hs.1.symm, ?_⟩
    intro i hi
    rw [h2 i hi]
    exact congrArg PReal.val (hs.2 i hi)

theorem presC_val (c : State ℝ D ω → Nat → Option ℝ) (c' : State PReal D ω → Nat → Option PReal) (s : State ℝ D ω)
    (hc : ∀ i, i < s.n → c' (s.val pp) i = (c s i).map .val) : (s.val pp).presC c' = (s.presC c).val pp := by
  unfold State.presC
  simp only [State.val]
  congr 1
  funext i
  by_cases hi : i < s.n
  · refine Eq.trans (if_pos hi) (Eq.trans ?_ (congrArg Particle.val (if_pos hi).symm))
    have e : (c' (s.val pp) i).getD ((s.val pp).ps i).p = .val ((c s i).getD (s.ps i).p) := by
      rw [hc i hi]; exact getD_map _ _ _
    change { (s.ps i).val with p := (c' (s.val pp) i).getD ((s.val pp).ps i).p } = _
    rw [e]; rfl
  · exact Eq.trans (if_neg hi) (congrArg Particle.val (if_neg hi).symm)

theorem eosCompute_val (s : State ℝ D ω) (hn0 : s.env.n0 ≠ 0) (i : Nat) : (s.val pp).eosCompute i = (s.eosCompute i).map .val := by
  unfold State.eosCompute
  have e : (s.val pp).env.rho / (s.val pp).env.n0 = .val (s.env.rho / s.env.n0) := pr_div hn0
  simp only [Option.map]
  rw [e]
  change some (if Scalar.le (s.env.rho / s.env.n0 * (s.ps i).n) s.env.rho = true then _ else _) = _
  split <;> rfl

/-- The solver does not converge on the pressure equation of `s`. -/
def State.SolverFails (P : Params ℝ D ω) (s : State ℝ D ω) : Prop :=
  (cgSolve s.n (fun i j => ((s.ppeC P.cfg).ppe.A i j).map PReal.val) (fun i => .val ((s.ppeC P.cfg).ppe.b i))
    (fun i => .val ((s.ppeC P.cfg).ppe.x i)) (.val P.eps)).2 = false

/-- The pressure computation: finite pressures, those of exact arithmetic, or the exception of the solver. -/
theorem pressureC_val {P : Params ℝ D ω} {P' : Params PReal D ω} (hP : P.Alike P') (s : State ℝ D ω) (he : s.env.Regular P.cfg)
    (hdt : s.env.dt ≠ 0) (hsep : ∀ i, i < s.n → (s.ps i).ty.active = true → s.SepAt i) :
    (∃ s' pp', s.pressureC P = .ok s' ∧ (s.val pp).pressureC P' = .ok (s'.val pp')) ∨
    (∃ pp', P.cfg.explicit = false ∧ s.SolverFails P ∧ (s.val pp).pressureC P' = .exn .solver (s.val pp')) := by
  have hn0 := he.n0.ne'
  unfold State.pressureC
  rw [hP.cfg, hP.eps]
  cases hexp : P.cfg.explicit with
  | true =>
    simp only [if_true]
    left
    exact ⟨_, pp, rfl, congrArg Res.ok (presC_val pp _ _ s (fun i _ => eosCompute_val pp s hn0 i))⟩
  | false =>
    simp only [Bool.false_eq_true, if_false]
    rw [solvePpe_withX, solvePpe_withX]
    have hsz : ((s.val pp).ppeC P.cfg).ppe.size = s.n := rfl
    have hsz' : (s.ppeC P.cfg).ppe.size = s.n := rfl
    rw [hsz, hsz']
    cases hc : (cgSolve s.n ((s.val pp).ppeC P.cfg).ppe.A ((s.val pp).ppeC P.cfg).ppe.b ((s.val pp).ppeC P.cfg).ppe.x (.val P.eps)).2 with
    | false =>
      right
      obtain ⟨hA, hb, hx⟩ := ppeC_val pp s he hdt hsep
      refine ⟨_, trivial, ?_, rfl⟩
      unfold State.SolverFails
      rw [← hc]
      exact ((cgSolve_sim (.val P.eps) (fun i hi j _ => hA i hi j) hb hx).1).symm
    | true =>
      left
      obtain ⟨y', h1, h2⟩ := solve_val pp s he hdt hsep P.eps (Prod.ext rfl hc)
      rw [h1]
      simp only [if_true, Res.andThen, Res.bind]
      set y := (cgSolve s.n ((s.val pp).ppeC P.cfg).ppe.A ((s.val pp).ppeC P.cfg).ppe.b ((s.val pp).ppeC P.cfg).ppe.x (.val P.eps)).1 with hy
      refine ⟨_, { ((s.val pp).ppeC P.cfg).ppe with x := y }, rfl, ?_⟩
      refine congrArg Res.ok ?_
      have key := presC_val { ((s.val pp).ppeC P.cfg).ppe with x := y } (State.presCompute P.cfg) (State.presCompute P.cfg)
        ((s.ppeC P.cfg).withX y') (by
          intro i hi
          unfold State.presCompute
          have e1 : (State.val { ((s.val pp).ppeC P.cfg).ppe with x := y } ((s.ppeC P.cfg).withX y')).ppe.x i = .val (y' i) := h2 i hi
          have e2 : ((State.val { ((s.val pp).ppeC P.cfg).ppe with x := y } ((s.ppeC P.cfg).withX y')).ps i).n = .val (s.ps i).n := rfl
          have e3 : ((State.val { ((s.val pp).ppeC P.cfg).ppe with x := y } ((s.ppeC P.cfg).withX y')).ps i).ty = (s.ps i).ty := rfl
          simp only
          rw [e1, e2, e3, pr_zero, pr_lt', isSurface_val _ _ (show ((s.ppeC P.cfg).withX y').env.n0 ≠ 0 from hn0)]
          change (if (s.ps i).ty.active = true then _ else _) = Option.map _ (if (s.ps i).ty.active = true then _ else _)
          by_cases ha : (s.ps i).ty.active = true
          · rw [if_pos ha, if_pos ha]
            change some (if (Scalar.lt (y' i) 0 || ((s.ppeC P.cfg).withX y').isSurface P.cfg (s.ps i).n) = true then _ else _)
              = Option.map _ (some (if (Scalar.lt (y' i) 0 || ((s.ppeC P.cfg).withX y').isSurface P.cfg (s.ps i).n) = true then _ else _))
            split <;> rfl
          · rw [if_neg ha, if_neg ha]; rfl)
      exact key

/-! ## Pressure gradient -/

/-- A matrix of finite numbers. -/
def mval (m : Mat ℝ D) : Mat PReal D := fun i j => .val (m i j)

theorem identityMatrix_val (v : ℝ) : (identityMatrix (.val v) : Mat PReal D) = mval (identityMatrix v) := by
  funext i j
  unfold identityMatrix mval
  by_cases h : i = j
  · simp only [if_pos h]
  · simp only [if_neg h]; rfl

theorem invertMatrix_val (hD : D = 2 ∨ D = 3) (m : Mat ℝ D) (v : ℝ) : invertMatrix (mval m) (.val v) = mval (invertMatrix m v) := by
  rcases hD with rfl | rfl
  · change invert2 (mval m) (.val v) = mval (invert2 m v)
    unfold invert2
    simp only
    have e : det2 (mval m 0 0) (mval m 0 1) (mval m 1 0) (mval m 1 1) = .val (det2 (m 0 0) (m 0 1) (m 1 0) (m 1 1)) := rfl
    rw [e, pr_zero, pr_eq']
    split
    · exact identityMatrix_val v
    · rename_i h
      rw [eq_real, decide_eq_true_eq] at h
      funext i j
      simp only [mval]
      fin_cases i <;> fin_cases j <;> exact pr_div h
  · change invert3 (mval m) (.val v) = mval (invert3 m v)
    unfold invert3
    simp only
    have e : det3 (mval m 0 0) (mval m 0 1) (mval m 0 2) (mval m 1 0) (mval m 1 1) (mval m 1 2) (mval m 2 0) (mval m 2 1) (mval m 2 2)
      = .val (det3 (m 0 0) (m 0 1) (m 0 2) (m 1 0) (m 1 1) (m 1 2) (m 2 0) (m 2 1) (m 2 2)) := rfl
    rw [e, pr_zero, pr_eq']
    split
    · exact identityMatrix_val v
    · rename_i h
      rw [eq_real, decide_eq_true_eq] at h
      funext i j
      simp only [mval]
      fin_cases i <;> fin_cases j <;> exact pr_div h

theorem matVec_val (m : Mat ℝ D) (v : Vec ℝ D) : matVec (mval m) (vval v) = vval (matVec m v) := by
  funext i
  unfold matVec
  exact foldl_hom_mem PReal.val (fun s j => s + m i j * v j) (fun s j => s + mval m i j * vval v j) _ 0 (fun _ _ _ => rfl)

theorem dot_sub_ne {x y : Vec ℝ D} (h : x ≠ y) : dot (x - y) (x - y) ≠ 0 := fun hz => h (sub_eq_zero.mp (dot_self_eq_zero.mp hz))

theorem gradFunc_val (s : State ℝ D ω) (i : Nat) (j : Int) (q : Particle ℝ D) (hq : q.x ≠ (s.ps i).x) :
    (s.val pp).gradFunc i j q.val = vval (s.gradFunc i j q) := by
  unfold State.gradFunc
  rw [show q.val.ty = q.ty from rfl]
  by_cases hd : q.ty ≠ .dummy
  · rw [if_pos hd, if_pos hd]
    have e1 : q.val.x - ((s.val pp).ps i).x = vval (q.x - (s.ps i).x) := rfl
    have e2 : q.val.p + ((s.val pp).ps i).p = .val (q.p + (s.ps i).p) := rfl
    simp only
    rw [e1, e2, dot_val, pr_div (dot_sub_ne hq), pr_sqrt (dot_self_nonneg _), show (s.val pp).env.re = .val s.env.re from rfl, W_val, pr_mul,
      vval_smul]
  · rw [if_neg hd, if_neg hd]; rfl

theorem gcMatFunc_val (s : State ℝ D ω) (i : Nat) (j : Int) (q : Particle ℝ D) (hq : q.x ≠ (s.ps i).x) :
    (s.val pp).gcMatFunc i j q.val = mval (s.gcMatFunc i j q) := by
  unfold State.gcMatFunc
  have e1 : q.val.x - ((s.val pp).ps i).x = vval (q.x - (s.ps i).x) := rfl
  have e2 : dist q.val.x ((s.val pp).ps i).x = .val (dist q.x (s.ps i).x) := dist_val _ _
  simp only
  rw [e1, e2, dot_val, show (s.val pp).env.re = .val s.env.re from rfl, W_val, pr_div (dot_sub_ne hq)]
  rfl

theorem gcFunc_val (s : State ℝ D ω) (i : Nat) (C : Mat ℝ D) (j : Int) (q : Particle ℝ D) (hq : q.x ≠ (s.ps i).x) :
    (s.val pp).gcFunc cfg i (mval C) j q.val = vval (s.gcFunc cfg i C j q) := by
  unfold State.gcFunc
  rw [show q.val.ty = q.ty from rfl]
  by_cases hd : q.ty ≠ .dummy
  · rw [if_pos hd, if_pos hd]
    have e1 : q.val.x - ((s.val pp).ps i).x = vval (q.x - (s.ps i).x) := rfl
    have e2 : dist q.val.x ((s.val pp).ps i).x = .val (dist q.x (s.ps i).x) := dist_val _ _
    have e3 : (if cfg.midpoint = true then q.val.p + ((s.val pp).ps i).p else q.val.p - ((s.val pp).ps i).p)
        = .val (if cfg.midpoint = true then q.p + (s.ps i).p else q.p - (s.ps i).p) := by split <;> rfl
    simp only
    rw [e1, e2, e3, dot_val, show (s.val pp).env.re = .val s.env.re from rfl, W_val, pr_div (dot_sub_ne hq), matVec_val, pr_mul, vval_smul]
  · rw [if_neg hd, if_neg hd]; rfl

theorem gradCompute_val (hD : cfg.gc = true → D = 2 ∨ D = 3) (s : State ℝ D ω) (he : s.env.Regular cfg) (i : Nat)
    (hsep : (s.ps i).ty.active = true → s.SepAt i) : (s.val pp).gradCompute cfg i = (s.gradCompute cfg i).map vval := by
  have hn0 := he.n0.ne'
  unfold State.gradCompute
  rw [show ((s.val pp).ps i).ty = (s.ps i).ty from rfl]
  by_cases hf : (s.ps i).ty = .incompressibleNewton
  · rw [if_pos hf, if_pos hf]
    have hs := hsep (by rw [hf]; rfl)
    simp only
    by_cases hgc : cfg.gc = true
    · rw [if_pos hgc, if_pos hgc]
      have e1 : (s.val pp).accumulate cfg i (0 : Mat PReal D) ((s.val pp).gcMatFunc i) = mval (s.accumulate cfg i (0 : Mat ℝ D) (s.gcMatFunc i)) :=
        accumulate_val' (cfg := cfg) pp (mval (D := D)) (fun _ _ => rfl) s hn0 he.re.ne' i hs 0 (s.gcMatFunc i) ((s.val pp).gcMatFunc i)
          (gcMatFunc_val pp s i)
      have e2 : (Scalar.ofInt (D : Int) : PReal) / (s.val pp).env.n0 = .val (Scalar.ofInt (D : Int) / s.env.n0) := pr_div hn0
      have e3 : -(s.val pp).env.dt * ((s.val pp).ps i).n / ((s.val pp).env.rho * (s.val pp).env.n0)
          = .val (-s.env.dt * (s.ps i).n / (s.env.rho * s.env.n0)) := pr_div (mul_ne_zero he.rho hn0)
      rw [e1, e2, e3, invertMatrix_val (hD hgc)]
      refine congrArg some ?_
      set C := invertMatrix (s.accumulate cfg i (0 : Mat ℝ D) (s.gcMatFunc i)) (Scalar.ofInt (D : Int) / s.env.n0) with hC
      have e4 : (s.val pp).accumulate cfg i (0 : Vec PReal D) ((s.val pp).gcFunc cfg i (mval C))
          = vval (s.accumulate cfg i (0 : Vec ℝ D) (s.gcFunc cfg i C)) :=
        accumulate_val' (cfg := cfg) pp (vval (D := D)) (fun _ _ => rfl) s hn0 he.re.ne' i hs 0 (s.gcFunc cfg i C) ((s.val pp).gcFunc cfg i (mval C))
          (gcFunc_val pp s i C)
      rw [e4, vval_smul]
    · rw [if_neg hgc, if_neg hgc]
      refine congrArg some ?_
      have e4 : (s.val pp).accumulate cfg i (0 : Vec PReal D) ((s.val pp).gradFunc i)
          = vval (s.accumulate cfg i (0 : Vec ℝ D) (s.gradFunc i)) :=
        accumulate_val' (cfg := cfg) pp (vval (D := D)) (fun _ _ => rfl) s hn0 he.re.ne' i hs 0 (s.gradFunc i) ((s.val pp).gradFunc i)
          (gradFunc_val pp s i)
      have e5 : -(s.val pp).env.dt / (s.val pp).env.rho = .val (-s.env.dt / s.env.rho) := pr_div he.rho
      have e6 : PReal.val (-s.env.dt / s.env.rho) * Scalar.ofInt (D : Int) / (s.val pp).env.n0
          = .val (-s.env.dt / s.env.rho * Scalar.ofInt (D : Int) / s.env.n0) := pr_div hn0
      rw [e4, e5, e6, vval_smul]
  · rw [if_neg hf, if_neg hf]; rfl

theorem gradC_val (hD : cfg.gc = true → D = 2 ∨ D = 3) (s : State ℝ D ω) (he : s.env.Regular cfg)
    (hsep : ∀ i, i < s.n → (s.ps i).ty.active = true → s.SepAt i) : (s.val pp).gradC cfg = (s.gradC cfg).val pp := by
  unfold State.gradC
  rw [duC_val pp (State.gradCompute cfg) (State.gradCompute cfg) s (fun i hi => gradCompute_val pp hD s he i (hsep i hi)), pushC_val]

/-! ## Dynamic stabilisation -/

/-- The part of a vector perpendicular to a unit vector is not longer than the vector. -/
theorem perp_le (dx e : Vec ℝ D) (h1 : dot e e = 1) : dot (dx - smul (dot dx e) e) (dx - smul (dot dx e) e) ≤ dot dx dx := by
  have : dot (dx - smul (dot dx e) e) (dx - smul (dot dx e) e) = dot dx dx - dot dx e * dot dx e := by
    rw [dot_sub_left, dot_comm dx, dot_sub_left, dot_smul_left, dot_comm e dx, dot_smul_left, dot_comm e (dx - smul (dot dx e) e), dot_sub_left,
      dot_smul_left, h1]
    ring
  rw [this]
  nlinarith [mul_self_nonneg (dot dx e)]

theorem dot_unit {v : Vec ℝ D} (h : v ≠ 0) : dot (vdiv v (norm2 v)) (vdiv v (norm2 v)) = 1 := by
  have hv : 0 < dot v v := lt_of_le_of_ne (dot_self_nonneg v) (fun hz => h (dot_self_eq_zero.mp hz.symm))
  have e : vdiv v (norm2 v) = smul (1 / norm2 v) v := by
    funext a; change v a / norm2 v = 1 / norm2 v * v a; ring
  have hq : norm2 v * norm2 v = dot v v := by rw [norm2_real]; exact Real.mul_self_sqrt (dot_self_nonneg _)
  have hn : norm2 v ≠ 0 := fun hz => by rw [hz, mul_zero] at hq; linarith
  rw [e, dot_smul_left, dot_comm, dot_smul_left, ← hq]
  field_simp

theorem dsFunc_val (s : State ℝ D ω) (i : Nat) (d2 : ℝ) (j : Int) (q : Particle ℝ D) (hq : q.ty ≠ .dummy → s.origX j.toNat ≠ s.origX i) :
    (s.val pp).dsFunc cfg i (.val d2) j q.val = vval (s.dsFunc cfg i d2 j q) := by
  unfold State.dsFunc
  rw [show q.val.ty = q.ty from rfl]
  by_cases hd : q.ty ≠ .dummy ∧ (cfg.spp = false ∨ 0 ≤ j)
  · rw [if_pos hd, if_pos hd]
    have e1 : q.val.x - ((s.val pp).ps i).x = vval (q.x - (s.ps i).x) := rfl
    have e2 : (s.val pp).origX j.toNat - (s.val pp).origX i = vval (s.origX j.toNat - s.origX i) := rfl
    have h0 : s.origX j.toNat - s.origX i ≠ 0 := sub_ne_zero.mpr (hq hd.1)
    have hn : norm2 (s.origX j.toNat - s.origX i) ≠ 0 := by rw [norm2_sub]; exact dist_ne (Ne.symm (hq hd.1))
    simp only
    rw [e1, e2, dot_val, pr_lt', norm2_val, vval_vdiv hn, dot_val, vval_smul, vval_sub, dot_val]
    split
    · rename_i hlt
      rw [lt_real_iff] at hlt
      have := perp_le (q.x - (s.ps i).x) _ (dot_unit h0)
      rw [pr_sub, pr_sqrt (by linarith), pr_sub, vval_smul]
    · rfl
  · rw [if_neg hd, if_neg hd]; rfl

/-- No listed neighbour other than a dummy had the same saved position. -/
def State.SepOrig (s : State ℝ D ω) (i : Nat) : Prop := ∀ j ∈ s.neighbors i, j ≠ i → (s.ps j).ty ≠ .dummy → s.origX j ≠ s.origX i

theorem dsCompute_val (s : State ℝ D ω) (hn0 : s.env.n0 ≠ 0) (hdt : s.env.dt ≠ 0) (i : Nat)
    (hsep : (s.ps i).ty = .incompressibleNewton → s.SepOrig i) : (s.val pp).dsCompute cfg i = (s.dsCompute cfg i).map vval := by
  unfold State.dsCompute
  rw [show ((s.val pp).ps i).ty = (s.ps i).ty from rfl]
  by_cases hf : (s.ps i).ty = .incompressibleNewton
  · rw [if_pos hf, if_pos hf]
    simp only [Option.map]
    have e1 : ((s.val pp).env.l0 - (s.val pp).env.maxDx) * ((s.val pp).env.l0 - (s.val pp).env.maxDx)
        = .val ((s.env.l0 - s.env.maxDx) * (s.env.l0 - s.env.maxDx)) := rfl
    have e2 : -(1 : PReal) / (Scalar.ofInt 2 * (s.val pp).env.dt * (s.val pp).env.n0) = .val (-1 / (Scalar.ofInt 2 * s.env.dt * s.env.n0)) :=
      pr_div (mul_ne_zero (mul_ne_zero (show ((2 : Int) : ℝ) ≠ 0 by norm_num) hdt) hn0)
    have e3 := accumulate_val (cfg := cfg) pp (vval (D := D)) (fun _ _ => rfl) s hn0 i 0
      (s.dsFunc cfg i ((s.env.l0 - s.env.maxDx) * (s.env.l0 - s.env.maxDx)))
      ((s.val pp).dsFunc cfg i (.val ((s.env.l0 - s.env.maxDx) * (s.env.l0 - s.env.maxDx))))
      (fun j hj hne => dsFunc_val pp s i _ j _ (fun hd => hsep hf j hj hne hd))
      (fun d q hspp _ => by
        unfold State.dsFunc
        have : ¬ (q.ty ≠ .dummy ∧ (cfg.spp = false ∨ (0 : Int) ≤ -1)) := by
          rintro ⟨-, h | h⟩
          · rw [hspp] at h; cases h
          · exact absurd h (by decide)
        rw [if_neg this, if_neg (show ¬ (q.val.ty ≠ .dummy ∧ (cfg.spp = false ∨ (0 : Int) ≤ -1)) from this)]
        rfl)
    rw [e1, e2]
    refine congrArg some ?_
    exact Eq.trans (congrArg (smul _) e3) (vval_smul _ _)
  · rw [if_neg hf, if_neg hf]; rfl

theorem dsC_val (s : State ℝ D ω) (hn0 : s.env.n0 ≠ 0) (hdt : s.env.dt ≠ 0)
    (hsep : cfg.ds = true → ∀ i, i < s.n → (s.ps i).ty = .incompressibleNewton → s.SepOrig i) : (s.val pp).dsC cfg = (s.dsC cfg).val pp := by
  unfold State.dsC
  by_cases h : cfg.ds = true
  · rw [if_pos h, if_pos h,
      duC_val pp (State.dsCompute cfg) (State.dsCompute cfg) s (fun i hi => dsCompute_val pp s hn0 hdt i (hsep h i hi)), pushC_val]
  · rw [if_neg h, if_neg h]

/-! ## The step after the neighbour search -/

theorem State.SepAt.congr {s t : State ℝ D ω} {i : Nat} (h : s.SepAt i) (hn : t.nbr = s.nbr) (hx : ∀ j, (t.ps j).x = (s.ps j).x) : t.SepAt i := by
  intro j hj hne
  rw [hx, hx]
  refine h j ?_ hne
  unfold State.neighbors at hj ⊢
  rw [hn] at hj; exact hj

theorem midC_val {P : Params ℝ D ω} {P' : Params PReal D ω} (hP : P.Alike P') (s : State ℝ D ω) (he : s.env.Regular P.cfg)
    (hdt : s.env.dt ≠ 0) (hsep : ∀ i, i < s.n → (s.ps i).ty.active = true → s.SepAt i) :
    (s.val pp).midC P' = (s.midC P).val pp := by
  have hn0 := he.n0.ne'
  have hsep1 : ∀ i, i < (s.densC P.cfg).n → ((s.densC P.cfg).ps i).ty.active = true → (s.densC P.cfg).SepAt i := by
    intro i hi ha
    rw [densC_ty] at ha
    exact State.SepAt.congr (hsep i hi ha) rfl (fun j => densC_x _ _ j)
  unfold State.midC
  rw [hP.cfg, densC_val pp s hn0, ecsC_val pp (s.densC P.cfg) hn0 he.re.ne' hdt hsep1,
    duC_val pp (State.accelCompute P.cfg) (State.accelCompute P.cfg) ((s.densC P.cfg).ecsC P.cfg)
      (fun i hi => accelCompute_val pp ((s.densC P.cfg).ecsC P.cfg) he i (fun ha => State.SepAt.congr (hsep1 i hi ha) rfl (fun _ => rfl))),
    preC_val pp hP, moveC_val pp hP _ (by exact hdt), densC_val pp _ (by exact hn0), saveX_val]

theorem afterSearch_val {P : Params ℝ D ω} {P' : Params PReal D ω} (hD : P.cfg.gc = true → D = 2 ∨ D = 3) (hP : P.Alike P') (s : State ℝ D ω)
    (he : s.env.Regular P.cfg) (hdt : s.env.dt ≠ 0) (hsep : ∀ i, i < s.n → (s.ps i).ty.active = true → s.SepAt i)
    (hsep' : ∀ i, i < s.n → (s.ps i).ty.active = true → (s.midC P).SepAt i)
    (hnb : ∀ i, i < s.n → (s.ps i).ty.active = true → ∀ j ∈ s.neighbors i, j < s.n ∧ (s.ps j).ty ≠ .disabled) :
    (∃ s' pp', s.afterSearch P = .ok s' ∧ (s.val pp).afterSearch P' = .ok (s'.val pp')) ∨
    (∃ pp', P.cfg.explicit = false ∧ (s.midC P).SolverFails P ∧ (s.val pp).afterSearch P' = .exn .solver ((s.midC P).val pp')) := by
  have hen : (s.midC P).env = s.env := by unfold State.midC; rw [saveX_env]; rfl
  have hem : (s.midC P).env.Regular P.cfg := by rw [hen]; exact he
  have hdm : (s.midC P).env.dt ≠ 0 := by rw [hen]; exact hdt
  have hnm : (s.midC P).n = s.n := midC_n P s
  have hsm : ∀ i, i < (s.midC P).n → ((s.midC P).ps i).ty.active = true → (s.midC P).SepAt i := by
    intro i hi ha
    rw [midC_ty] at ha
    exact hsep' i (by rw [← hnm]; exact hi) ha
  unfold State.afterSearch
  rw [midC_val pp hP s he hdt hsep]
  rcases pressureC_val pp hP (s.midC P) hem hdm hsm with ⟨s', pp', h1, h2⟩ | ⟨pp', h1, hf, h2⟩
  · left
    obtain ⟨f1, f2, f3, f4, f5, f6, f7, f8, f9, f10, f11⟩ := pressureC_frame h1
    have hs2 : ∀ i, i < s'.n → (s'.ps i).ty.active = true → s'.SepAt i := by
      intro i hi ha
      rw [(f11 i).2.2.2] at ha
      exact State.SepAt.congr (hsm i (by rw [← f1]; exact hi) ha) f5 (fun j => (f11 j).1)
    rw [h1, h2]
    simp only [Res.andThen, Res.bind]
    refine ⟨_, pp', rfl, ?_⟩
    rw [hP.cfg, gradC_val pp' hD s' (by rw [f2]; exact hem) hs2, dsC_val pp' _ (by rw [show (s'.gradC P.cfg).env = s'.env from rfl, f2]; exact hem.n0.ne')
      (by rw [show (s'.gradC P.cfg).env = s'.env from rfl, f2]; exact hdm)]
    intro hds i hi hf j hj hne hd
    rw [gradC_ty] at hf hd
    have hin : i < s.n := by rw [← hnm, ← f1]; exact hi
    have hty : ∀ k, (s'.ps k).ty = (s.ps k).ty := fun k => by rw [(f11 k).2.2.2, midC_ty]
    have hai : (s.ps i).ty.active = true := by rw [← hty i, hf]; rfl
    have hjm : j ∈ (s.midC P).neighbors i := by
      unfold State.neighbors at hj ⊢
      rw [show (s'.gradC P.cfg).nbr = s'.nbr from rfl, f5] at hj; exact hj
    have hjs : j ∈ s.neighbors i := by
      unfold State.neighbors at hjm ⊢
      rw [show (s.midC P).nbr = s.nbr by unfold State.midC; rw [saveX_nbr]; rfl] at hjm; exact hjm
    obtain ⟨hjn, hjd⟩ := hnb i hin hai j hjs
    have horig : ∀ k, k < s.n → (s.ps k).ty.active = true → (s.midC P).origX k = ((s.midC P).ps k).x := by
      intro k hk hka
      have hk2 := hka
      rw [← midC_ty P s k] at hk2
      unfold State.midC at hk2 ⊢
      rw [saveX_ps] at hk2 ⊢
      unfold State.saveX
      rw [if_pos hds]
      exact if_pos ⟨hk, hk2⟩
    rw [show (s'.gradC P.cfg).origX = s'.origX from rfl, f7, horig i hin hai, horig j hjn (by
      rw [hty] at hd
      unfold PType.active
      simp [hd, hjd])]
    exact hsep' i hin hai j hjm hne
  · right
    rw [h2]
    exact ⟨pp', h1, hf, rfl⟩

end

end OpenMps
