import Verif.Lemmas.Real
import Verif.Spec.Shift
import Verif.Lemmas.Step

/-! # Translation of a whole computer -/

set_option linter.unusedSectionVars false

namespace OpenMps

variable {D : Nat} {ω : Type}

/-- A parallel loop commutes with a map of states if its two phases do. -/
theorem parRun_map {S R : Type} {compute compute' : S → Nat → R} {commit commit' : Nat → R → S → S} (f : S → S) (g : R → R)
    (hc : ∀ s i, compute' (f s) i = g (compute s i)) (hm : ∀ s i r, commit' i (g r) (f s) = f (commit i r s)) :
    ∀ (es : List Ev) (s : S) (loc loc' : Nat → Option R), (∀ i, loc' i = (loc i).map g) →
      parRun compute' commit' es (f s) loc' = f (parRun compute commit es s loc) := by
  intro es
  induction es with
  | nil => intro s loc loc' _; rfl
  | cons e es ih =>
    intro s loc loc' h
    cases e with
    | rd i =>
      unfold parRun
      apply ih
      intro j
      unfold upd
      split
      · rw [hc]; rfl
      · exact h j
    | wr i =>
      unfold parRun
      have hi := h i
      cases hl : loc i with
      | none =>
        rw [hl] at hi
        rw [hi]
        exact ih s loc loc' h
      | some r =>
        rw [hl] at hi
        rw [hi]
        simp only [Option.map]
        rw [hm]
        exact ih _ loc loc' h

theorem parLoop_map {S R : Type} {compute compute' : S → Nat → R} {commit commit' : Nat → R → S → S} (f : S → S) (g : R → R)
    (hc : ∀ s i, compute' (f s) i = g (compute s i)) (hm : ∀ s i r, commit' i (g r) (f s) = f (commit i r s))
    (es : List Ev) (s : S) : parLoop compute' commit' es (f s) = f (parLoop compute commit es s) :=
  parRun_map f g hc hm es s _ _ (fun _ => rfl)

section
variable (v : Vec ℝ D)

theorem shift_sub (a b : Vec ℝ D) : (a + v) - (b + v) = a - b := add_sub_add_right_eq_sub a b v

@[simp] theorem shift_n (s : State ℝ D ω) : (s.shift v).n = s.n := rfl
@[simp] theorem shift_x (s : State ℝ D ω) (i : Nat) : ((s.shift v).ps i).x = (s.ps i).x + v := rfl
@[simp] theorem shift_u (s : State ℝ D ω) (i : Nat) : ((s.shift v).ps i).u = (s.ps i).u := rfl
@[simp] theorem shift_p (s : State ℝ D ω) (i : Nat) : ((s.shift v).ps i).p = (s.ps i).p := rfl
@[simp] theorem shift_N (s : State ℝ D ω) (i : Nat) : ((s.shift v).ps i).n = (s.ps i).n := rfl
@[simp] theorem shift_ty (s : State ℝ D ω) (i : Nat) : ((s.shift v).ps i).ty = (s.ps i).ty := rfl

theorem dist_shift (a b : Vec ℝ D) : dist (a + v) (b + v) = dist a b := by
  unfold dist; rw [shift_sub]

theorem neighbors_shift (s : State ℝ D ω) (i : Nat) : (s.shift v).neighbors i = s.neighbors i := rfl

theorem accLoop_shift {A : Type} [Add A] (s : State ℝ D ω) (i : Nat) (zero : A) (f f' : Int → Particle ℝ D → A)
    (hf : ∀ j q, f' j (q.shift v) = f j q) : (s.shift v).accLoop i zero f' = s.accLoop i zero f := by
  unfold State.accLoop
  simp only [neighbors_shift]
  congr 1
  funext acc j
  have hd : ((s.shift v).ps j).x - ((s.shift v).ps i).x = (s.ps j).x - (s.ps i).x := shift_sub v _ _
  rw [hd, show (s.shift v).ps j = (s.ps j).shift v from rfl, hf]
  rfl

theorem sppParticle_shift (s : State ℝ D ω) (i : Nat) (g : Vec ℝ D) :
    (s.shift v).sppParticle i g = (s.sppParticle i g).map (Particle.shift v) := by
  unfold State.sppParticle
  simp only
  change (if Scalar.lt (s.nNoSpp i) s.env.n0 then _ else _) = _
  split
  · change (if Scalar.lt Scalar.epsilon (Scalar.sqrt (dot (vdiv g s.env.n0) (vdiv g s.env.n0))) then _ else _) = _
    split
    · simp only [Option.map, Particle.shift]
      congr 2
      exact add_sub_right_comm _ _ _
    · rfl
  · rfl

theorem accumulate_shift {A : Type} [Add A] (cfg : Config) (s : State ℝ D ω) (i : Nat) (zero : A)
    (f f' : Int → Particle ℝ D → A) (hf : ∀ j q, f' j (q.shift v) = f j q) :
    (s.shift v).accumulate cfg i zero f' = s.accumulate cfg i zero f := by
  unfold State.accumulate
  simp only
  rw [accLoop_shift v s i zero f f' hf, sppParticle_shift]
  split
  · cases s.sppParticle i (s.accLoop i zero f).2 with
    | none => rfl
    | some q => exact congrArg _ (hf _ _)
  · rfl

/-! ## Grid -/

theorem block_shift (g : Grid ℝ D) (x : Vec ℝ D) : (g.shift v).block? (x + v) = g.block? x := by
  unfold Grid.block?
  congr 1
  funext a
  change Scalar.floorIdx (((x a + v a) - (g.origin a + v a)) / g.blockLength) = _
  rw [show (x a + v a) - (g.origin a + v a) = x a - g.origin a from add_sub_add_right_eq_sub _ _ _]

theorem mk_shift (L l0 : ℝ) (minX maxX : Vec ℝ D) :
    Grid.mk? L l0 (minX + v) (maxX + v) = (Grid.mk? L l0 minX maxX).map (Grid.shift v) := by
  rw [mkGrid_real, mkGrid_real]
  simp only [Option.map, Grid.shift]
  congr 2
  funext a
  change ⌈((maxX a + v a) - (minX a + v a)) / L⌉ + 2 = _
  rw [add_sub_add_right_eq_sub]

theorem clear_shift (g : Grid ℝ D) : (g.shift v).clear? = g.clear?.map (Grid.shift v) := by
  unfold Grid.clear?
  change (if (∃ a, g.size a < g.clearBound a) ∧ (∀ a, 0 < g.clearBound a) then _ else _) = _
  split <;> rfl

/-- Translation of the result of `Store`. -/
def StoreRes.shift : StoreRes ℝ D → StoreRes ℝ D
  | .ub => .ub
  | .outside g => .outside (g.shift v)
  | .full g => .full (g.shift v)
  | .stored g => .stored (g.shift v)

theorem store_shift (g : Grid ℝ D) (x : Vec ℝ D) (pid : Nat) :
    (g.shift v).store (x + v) pid = (g.store x pid).shift v := by
  unfold Grid.store
  rw [block_shift]
  cases g.block? x with
  | none => rfl
  | some b =>
    simp only
    change (if g.inRange b = true then _ else _) = _
    split
    · change (if g.count b ≥ g.cap then _ else _) = _
      split <;> rfl
    · rfl

theorem scan_shift (g : Grid ℝ D) (it : Iter D) (k : Nat) : ∀ (m : Nat) (b : Bool), lastNeighbor D - m = k →
    it.scan (g.shift v) m b = it.scan g m b := by
  induction k using Nat.strong_induction_on with
  | _ k ih =>
    intro m b hk
    unfold Iter.scan
    by_cases h : (!b && decide (m + 1 < lastNeighbor D)) = true
    · rw [if_pos h, if_pos h]
      simp at h
      exact ih (lastNeighbor D - (m + 1)) (by omega) (m + 1) _ rfl
    · rw [if_neg h, if_neg h]

theorem increment_shift (g : Grid ℝ D) (it : Iter D) : it.increment (g.shift v) = it.increment g := by
  unfold Iter.increment
  simp only [scan_shift v g it _ _ _ rfl]
  rfl

theorem collect_shift (g : Grid ℝ D) (k : Nat) : ∀ it : Iter D, it.collect (g.shift v) k = it.collect g k := by
  induction k with
  | zero => intro it; rfl
  | succ k ih =>
    intro it
    unfold Iter.collect
    rw [increment_shift]
    simp only [ih]
    rfl

theorem visit_shift (g : Grid ℝ D) (x : Vec ℝ D) : (g.shift v).visit (x + v) = g.visit x := by
  unfold Grid.visit Grid.cbegin
  rw [block_shift]
  cases g.block? x with
  | none => rfl
  | some b =>
    simp only [increment_shift, collect_shift]
    rfl

/-! ## Neighbour search -/

theorem map_andThen {S : Type} (f : S → S) (r : Res S) (k k' : S → Res S) (h : ∀ s, k' (f s) = (k s).map f) :
    (r.map f).andThen k' = (r.andThen k).map f := by
  cases r with
  | ok s => exact h s
  | exn e s => rfl
  | ub => rfl

theorem storeOne_shift (s : State ℝ D ω) (i : Nat) : (s.shift v).storeOne i = (s.storeOne i).map (State.shift v) := by
  unfold State.storeOne
  rw [shift_ty, shift_x, show (s.shift v).grid = s.grid.shift v from rfl, store_shift]
  split
  · rfl
  · cases s.grid.store (s.ps i).x i with
    | ub => rfl
    | full g => rfl
    | stored g => rfl
    | outside g =>
      simp only [StoreRes.shift, Res.map, State.shift]
      congr 2
      funext j
      unfold upd
      split <;> rfl

theorem storeAll_shift (is : List Nat) : ∀ s : State ℝ D ω,
    State.storeAll is (s.shift v) = (State.storeAll is s).map (State.shift v) := by
  induction is with
  | nil => intro s; rfl
  | cons i is ih =>
    intro s
    unfold State.storeAll
    rw [storeOne_shift]
    exact map_andThen _ _ _ _ ih

theorem rowCompute_shift (s : State ℝ D ω) (i : Nat) : (s.shift v).rowCompute i = s.rowCompute i := by
  unfold State.rowCompute
  simp only [shift_ty, shift_x, dist_shift]
  rw [show (s.shift v).grid.visit ((s.ps i).x + v) = s.grid.visit (s.ps i).x from visit_shift v _ _]
  rfl

theorem searchNeighbor_shift (sch : List Ev) (s : State ℝ D ω) :
    (s.shift v).searchNeighbor sch = (s.searchNeighbor sch).map (State.shift v) := by
  unfold State.searchNeighbor
  rw [show (s.shift v).grid.clear? = s.grid.clear?.map (Grid.shift v) from clear_shift v _]
  cases s.grid.clear? with
  | none => rfl
  | some g =>
    simp only [Option.map]
    rw [show ({ s.shift v with grid := g.shift v } : State ℝ D ω) = State.shift v { s with grid := g } from rfl, storeAll_shift]
    apply map_andThen
    intro s
    rw [parLoop_map (commit := State.rowCommit) (State.shift v) (fun r => r) (rowCompute_shift v) (by intro s i r; cases r <;> rfl)]
    change (if (parLoop State.rowCompute State.rowCommit sch s).ub = true then _ else _) = _
    split <;> rfl

/-! ## Loops -/

variable {cfg : Config}

theorem densCompute_shift (s : State ℝ D ω) (i : Nat) : (s.shift v).densCompute cfg i = s.densCompute cfg i := by
  unfold State.densCompute
  simp only
  by_cases ha : (s.ps i).ty.active = true
  · rw [if_pos (show ((s.shift v).ps i).ty.active = true from ha), if_pos ha]
    have : ∀ t : State ℝ D ω, (t.shift v).accumulate cfg i (0 : ℝ) (fun j q' =>
        if cfg.spp && decide (j < 0) then 0 else W (dist ((s.ps i).x + v) q'.x) (s.shift v).env.re)
        = t.accumulate cfg i (0 : ℝ) (fun j q' =>
        if cfg.spp && decide (j < 0) then 0 else W (dist (s.ps i).x q'.x) s.env.re) := by
      intro t
      apply accumulate_shift
      intro j q
      rw [show (q.shift v).x = q.x + v from rfl, dist_shift]
      rfl
    by_cases h : cfg.spp = true
    · have e := this { s with nNoSpp := upd s.nNoSpp i s.env.n0 }
      simp only [if_pos h]
      exact congrArg (fun z : ℝ => (z, some (stdMax z s.env.n0))) e
    · have e := this s
      simp only [if_neg h]
      exact congrArg (fun z : ℝ => (z, some z)) e
  · rw [if_neg (show ¬ ((s.shift v).ps i).ty.active = true from ha), if_neg ha]
    rfl

theorem densCommit_shift (s : State ℝ D ω) (i : Nat) (r : ℝ × Option ℝ) :
    State.densCommit cfg i r (s.shift v) = (State.densCommit cfg i r s).shift v := by
  unfold State.densCommit
  cases h : r.2 with
  | none => rfl
  | some z =>
    simp only [State.shift]
    congr 1
    funext j
    unfold upd
    split <;> rfl

theorem densitySpeed_shift (s : State ℝ D ω) (i : Nat) : (s.shift v).densitySpeed cfg i = s.densitySpeed cfg i := by
  unfold State.densitySpeed
  split
  · change (if (cfg.spp && Scalar.lt (s.nNoSpp i) s.env.n0) = true then (0 : ℝ) else _) = _
    split
    · rfl
    · rw [accumulate_shift v cfg s i (0 : ℝ) (fun _ q =>
          let dx := q.x - (s.ps i).x
          let du := q.u - (s.ps i).u
          let r := norm2 dx
          dot dx du / (r * r * r))]
      · rfl
      · intro j q
        simp only [shift_x, shift_u]
        rw [show (q.shift v).x = q.x + v from rfl, show (q.shift v).u = q.u from rfl, shift_sub]
  · rfl

theorem ecsCompute_shift (s : State ℝ D ω) (i : Nat) : (s.shift v).ecsCompute cfg i = s.ecsCompute cfg i := by
  unfold State.ecsCompute
  rw [densitySpeed_shift]
  rfl

theorem accelCompute_shift (hcg : cfg.centralGravity = false) (s : State ℝ D ω) (i : Nat) :
    (s.shift v).accelCompute cfg i = s.accelCompute cfg i := by
  unfold State.accelCompute State.gravity
  rw [hcg, accumulate_shift v cfg s i (0 : Vec ℝ D) (s.viscFunc cfg i)]
  · rfl
  · intro j q
    unfold State.viscFunc
    simp only [shift_x]
    rw [show (q.shift v).x = q.x + v from rfl, dist_shift]
    rfl

theorem duCommit_shift (s : State ℝ D ω) (i : Nat) (r : Option (Vec ℝ D)) :
    State.duCommit i r (s.shift v) = (State.duCommit i r s).shift v := by
  cases r <;> rfl

theorem moveCompute_shift (w : Walls ℝ D ω) (s : State ℝ D ω) (i : Nat) :
    (s.shift v).moveCompute (w.shift v) i = ((s.moveCompute w i).1 + v, (s.moveCompute w i).2) := by
  unfold State.moveCompute
  simp only
  by_cases h : (s.ps i).ty = PType.incompressibleNewton
  · rw [if_pos (show ((s.shift v).ps i).ty = _ from h), if_pos h]
    congr 1
    exact add_right_comm (G := Vec ℝ D) _ _ _
  · rw [if_neg (show ¬ ((s.shift v).ps i).ty = _ from h), if_neg h]
    rw [show (w.shift v).pos (s.shift v).world i (s.shift v).env.t (s.shift v).env.dt = w.pos s.world i s.env.t s.env.dt + v from rfl,
      shift_x, shift_sub]
    rfl

theorem moveCommit_shift (s : State ℝ D ω) (i : Nat) (r : Vec ℝ D × Vec ℝ D) :
    State.moveCommit i (r.1 + v, r.2) (s.shift v) = (State.moveCommit i r s).shift v := by
  unfold State.moveCommit
  simp only [State.shift]
  congr 1
  funext j
  unfold upd
  split <;> rfl

theorem saveX_shift (s : State ℝ D ω) : (s.shift v).saveX cfg = (s.saveX cfg).shift v := by
  unfold State.saveX
  split
  · simp only [State.shift]
    congr 1
    funext i
    change (if i < s.n ∧ (s.ps i).ty.active = true then (s.ps i).x + v else s.origX i + v) = _
    split <;> rfl
  · rfl

theorem rhsCompute_shift (s : State ℝ D ω) (i : Nat) : (s.shift v).rhsCompute cfg i = s.rhsCompute cfg i := by
  unfold State.rhsCompute
  rw [densitySpeed_shift]
  rfl

theorem matCompute_shift (s : State ℝ D ω) (i : Nat) : (s.shift v).matCompute cfg i = s.matCompute cfg i := by
  unfold State.matCompute
  rw [accumulate_shift v cfg s i _ (s.rowFunc cfg i)]
  · rfl
  · intro j q
    unfold State.rowFunc
    simp only [shift_x]
    rw [show (q.shift v).x = q.x + v from rfl, dist_shift]
    rfl

theorem presCommit_shift (s : State ℝ D ω) (i : Nat) (r : Option ℝ) :
    State.presCommit i r (s.shift v) = (State.presCommit i r s).shift v := by
  cases r with
  | none => rfl
  | some z =>
    simp only [State.presCommit, State.shift]
    congr 1
    funext j
    unfold upd
    split <;> rfl

theorem gradCompute_shift (s : State ℝ D ω) (i : Nat) : (s.shift v).gradCompute cfg i = s.gradCompute cfg i := by
  unfold State.gradCompute
  simp only [shift_ty]
  split
  · split
    · rw [accumulate_shift v cfg s i _ (s.gcMatFunc i)]
      · rw [accumulate_shift v cfg s i _ (s.gcFunc cfg i
          (invertMatrix (s.accumulate cfg i (0 : Mat ℝ D) (s.gcMatFunc i)) (Scalar.ofInt (D : Int) / s.env.n0)))]
        · rfl
        · intro j q
          unfold State.gcFunc
          simp only [shift_x]
          rw [show (q.shift v).x = q.x + v from rfl, dist_shift, shift_sub]
          rfl
      · intro j q
        unfold State.gcMatFunc
        simp only [shift_x]
        rw [show (q.shift v).x = q.x + v from rfl, dist_shift, shift_sub]
        rfl
    · rw [accumulate_shift v cfg s i _ (s.gradFunc i)]
      · rfl
      · intro j q
        unfold State.gradFunc
        simp only [shift_x]
        rw [show (q.shift v).x = q.x + v from rfl, shift_sub]
        rfl
  · rfl

theorem pushCompute_shift (s : State ℝ D ω) (i : Nat) :
    (s.shift v).pushCompute i = (s.pushCompute i).map (fun r => (r.1 + v, r.2)) := by
  unfold State.pushCompute
  by_cases h : (s.ps i).ty = PType.incompressibleNewton
  · rw [if_pos (show ((s.shift v).ps i).ty = _ from h), if_pos h]
    simp only [Option.map, shift_x]
    congr 2
    exact add_right_comm (G := Vec ℝ D) _ _ _
  · rw [if_neg (show ¬ ((s.shift v).ps i).ty = _ from h), if_neg h]
    rfl

theorem pushCommit_shift (s : State ℝ D ω) (i : Nat) (r : Option (Vec ℝ D × Vec ℝ D)) :
    State.pushCommit i (r.map (fun r => (r.1 + v, r.2))) (s.shift v) = (State.pushCommit i r s).shift v := by
  cases r with
  | none => rfl
  | some z =>
    simp only [Option.map, State.pushCommit, State.shift]
    congr 1
    funext j
    unfold upd
    split <;> rfl

theorem dsFunc_shift (s : State ℝ D ω) (i : Nat) (d2 : ℝ) (j : Int) (q : Particle ℝ D) :
    (s.shift v).dsFunc cfg i d2 j (q.shift v) = s.dsFunc cfg i d2 j q := by
  unfold State.dsFunc
  have e1 : (q.shift v).x - ((s.shift v).ps i).x = q.x - (s.ps i).x := shift_sub v _ _
  have e2 : (s.shift v).origX j.toNat - (s.shift v).origX i = s.origX j.toNat - s.origX i := shift_sub v _ _
  simp only [e1, e2]
  rfl

theorem dsCompute_shift (s : State ℝ D ω) (i : Nat) : (s.shift v).dsCompute cfg i = s.dsCompute cfg i := by
  unfold State.dsCompute
  have e : ∀ d2, (s.shift v).accumulate cfg i (0 : Vec ℝ D) ((s.shift v).dsFunc cfg i d2)
        = s.accumulate cfg i (0 : Vec ℝ D) (s.dsFunc cfg i d2) := by
    intro d2
    exact accumulate_shift v cfg s i _ _ _ (dsFunc_shift v s i d2)
  simp only [e]
  rfl

/-! ## The step -/

theorem gradDs_shift (sch1 sch2 : List Ev) (s : State ℝ D ω) :
    (s.shift v).modifyByGradient cfg sch1 sch2 = (s.modifyByGradient cfg sch1 sch2).shift v := by
  unfold State.modifyByGradient
  simp only
  rw [parLoop_map (State.shift v) (fun r => r) (gradCompute_shift v) (duCommit_shift v),
    parLoop_map (State.shift v) _ (pushCompute_shift v) (pushCommit_shift v)]

theorem dynamicStabilize_shift (sch1 sch2 : List Ev) (s : State ℝ D ω) :
    (s.shift v).dynamicStabilize cfg sch1 sch2 = (s.dynamicStabilize cfg sch1 sch2).shift v := by
  unfold State.dynamicStabilize
  split
  · simp only
    rw [parLoop_map (State.shift v) (fun r => r) (dsCompute_shift v) (duCommit_shift v),
      parLoop_map (State.shift v) _ (pushCompute_shift v) (pushCommit_shift v)]
  · rfl

theorem setPpe_shift (schB schA : List Ev) (s : State ℝ D ω) :
    (s.shift v).setPpe cfg schB schA = (s.setPpe cfg schB schA).shift v := by
  unfold State.setPpe
  simp only
  rw [show ({ s.shift v with ppe := { (s.shift v).ppe with size := (s.shift v).n } } : State ℝ D ω)
      = State.shift v { s with ppe := { s.ppe with size := s.n } } from rfl,
    parLoop_map (commit := State.rhsCommit) (State.shift v) (fun r => r) (rhsCompute_shift v) (fun _ _ _ => rfl),
    parLoop_map (commit := State.matCommit) (State.shift v) (fun r => r) (matCompute_shift v) (fun _ _ _ => rfl)]
  rfl

theorem solvePpe_shift (eps : ℝ) (s : State ℝ D ω) : (s.shift v).solvePpe eps = (s.solvePpe eps).map (State.shift v) := by
  unfold State.solvePpe
  simp only
  change (if (cgSolve s.ppe.size s.ppe.A s.ppe.b s.ppe.x eps).2 = true then _ else _) = _
  split <;> rfl

theorem computeImplicit_shift (P : Params ℝ D ω) (sch : Schedule) (s : State ℝ D ω) :
    (s.shift v).computeImplicit (P.shift v) sch = (s.computeImplicit P sch).map (State.shift v) := by
  unfold State.computeImplicit
  simp only [show (P.shift v).cfg = P.cfg from rfl, show (P.shift v).eps = P.eps from rfl]
  have e : (if P.cfg.explicit = true then
        (.ok (parLoop State.eosCompute State.presCommit (sch 8) (s.shift v)) : Res (State ℝ D ω))
      else (((s.shift v).setPpe P.cfg (sch 6) (sch 7)).solvePpe P.eps).andThen (fun s =>
        .ok (parLoop (State.presCompute P.cfg) State.presCommit (sch 8) s)))
      = Res.map (State.shift v) (if P.cfg.explicit = true then
        (.ok (parLoop State.eosCompute State.presCommit (sch 8) s) : Res (State ℝ D ω))
      else ((s.setPpe P.cfg (sch 6) (sch 7)).solvePpe P.eps).andThen (fun s =>
        .ok (parLoop (State.presCompute P.cfg) State.presCommit (sch 8) s))) := by
    split
    · rw [parLoop_map (State.shift v) (fun r => r) (fun _ _ => rfl) (presCommit_shift v)]
      rfl
    · rw [setPpe_shift, solvePpe_shift]
      apply map_andThen
      intro s
      rw [parLoop_map (State.shift v) (fun r => r) (fun _ _ => rfl) (presCommit_shift v)]
      rfl
  rw [e]
  apply map_andThen
  intro s
  rw [gradDs_shift]
  rfl

theorem computeExplicit_shift (P : Params ℝ D ω) (hcg : P.cfg.centralGravity = false) (sch1 sch2 : List Ev) (s : State ℝ D ω) :
    (s.shift v).computeExplicit (P.shift v) sch1 sch2 = (s.computeExplicit P sch1 sch2).shift v := by
  unfold State.computeExplicit
  simp only [show (P.shift v).cfg = P.cfg from rfl]
  rw [parLoop_map (State.shift v) (fun r => r) (accelCompute_shift v hcg) (duCommit_shift v)]
  exact parLoop_map (State.shift v) _ (moveCompute_shift v P.walls) (moveCommit_shift v) sch2
    (State.preC P.walls (parLoop (State.accelCompute P.cfg) State.duCommit sch1 s))

theorem forwardTime_shift (P : Params ℝ D ω) (hcg : P.cfg.centralGravity = false) (sch : Schedule) (dt : ℝ) (s : State ℝ D ω) :
    (s.shift v).forwardTime (P.shift v) sch dt = (s.forwardTime P sch dt).map (State.shift v) := by
  unfold State.forwardTime
  simp only
  have e0 := searchNeighbor_shift v (sch 0) { s with env := ({ s.env with dt := dt } : Env ℝ D).setNextT }
  refine Eq.trans (congrArg (fun z => Res.andThen z _) e0) ?_
  apply map_andThen
  intro s
  have hd : ∀ sc (s : State ℝ D ω), (s.shift v).computeDensities P.cfg sc = (s.computeDensities P.cfg sc).shift v := by
    intro sc s
    exact parLoop_map (State.shift v) (fun r => r) (densCompute_shift v) (densCommit_shift v) _ _
  have he : ∀ sc (s : State ℝ D ω), (s.shift v).computeEcs P.cfg sc = (s.computeEcs P.cfg sc).shift v := by
    intro sc s
    unfold State.computeEcs
    split
    · exact parLoop_map (State.shift v) (fun r => r) (ecsCompute_shift v) (by intro s i r; cases r <;> rfl) _ _
    · rfl
  simp only [show (P.shift v).cfg = P.cfg from rfl]
  rw [hd, he, computeExplicit_shift v P hcg, hd, saveX_shift, computeImplicit_shift]
  apply map_andThen
  intro s
  rw [dynamicStabilize_shift]
  rfl

theorem fastest_shift (s : State ℝ D ω) : (s.shift v).fastest = s.fastest := rfl

theorem determineDt_shift (s : State ℝ D ω) : (s.shift v).determineDt = s.determineDt := rfl

end

end OpenMps
