import Verif.Lemmas.Shift
import Verif.Props.Step
import Verif.Lemmas.Main
import Verif.Spec.Restart

set_option linter.unusedSectionVars false

/-! Nothing but the wall callbacks sees the clock: a step at another time, and a step with other callbacks. -/

namespace OpenMps

variable {F : Type} [Scalar F] {D : Nat} {ω : Type}

/-- The same computer with another time on its clock. -/
def State.atTime (τ : F) (s : State F D ω) : State F D ω := { s with env := { s.env with t := τ } }

variable (τ : F)

theorem storeOne_atTime (s : State F D ω) (i : Nat) : (s.atTime τ).storeOne i = (s.storeOne i).map (State.atTime τ) := by
  unfold State.storeOne
  rw [show (s.atTime τ).grid = s.grid from rfl, show (s.atTime τ).ps = s.ps from rfl]
  split
  · rfl
  · cases s.grid.store (s.ps i).x i <;> rfl

theorem storeAll_atTime (is : List Nat) : ∀ s : State F D ω,
    State.storeAll is (s.atTime τ) = (State.storeAll is s).map (State.atTime τ) := by
  induction is with
  | nil => intro s; rfl
  | cons i is ih =>
    intro s
    unfold State.storeAll
    rw [storeOne_atTime]
    exact map_andThen _ _ _ _ ih

theorem searchNeighbor_atTime (sch : List Ev) (s : State F D ω) :
    (s.atTime τ).searchNeighbor sch = (s.searchNeighbor sch).map (State.atTime τ) := by
  unfold State.searchNeighbor
  rw [show (s.atTime τ).grid = s.grid from rfl, show (s.atTime τ).n = s.n from rfl]
  cases s.grid.clear? with
  | none => rfl
  | some g =>
    simp only
    change (State.storeAll (List.range s.n) (State.atTime τ { s with grid := g })).andThen _ = _
    rw [storeAll_atTime]
    apply map_andThen
    intro s
    rw [parLoop_map (commit := State.rowCommit) (State.atTime τ) (fun r => r) (fun _ _ => rfl) (by intro s i r; cases r <;> rfl)]
    change (if (parLoop State.rowCompute State.rowCommit sch s).ub = true then _ else _) = _
    split <;> rfl

theorem moveC_atTime {w : Walls F D ω} (hw : w.Timeless) (s : State F D ω) : (s.atTime τ).moveC w = (s.moveC w).atTime τ := by
  have h : ∀ i, (s.atTime τ).moveCompute w i = s.moveCompute w i := by
    intro i
    unfold State.moveCompute
    simp only
    change (if (s.ps i).ty = PType.incompressibleNewton then _ else _) = _
    split
    · rfl
    · change (w.pos s.world i τ s.env.dt, vdiv (w.pos s.world i τ s.env.dt - (s.ps i).x) s.env.dt) = _
      rw [hw.2 s.world i τ s.env.t s.env.dt]
  unfold State.moveC
  simp only [h]
  rfl

theorem preC_atTime {w : Walls F D ω} (hw : w.Timeless) (s : State F D ω) : (s.atTime τ).preC w = (s.preC w).atTime τ := by
  unfold State.preC
  rw [show w.pre (s.atTime τ).world (s.atTime τ).env.t (s.atTime τ).env.dt = w.pre s.world s.env.t s.env.dt from hw.1 _ _ _ _]
  rfl

theorem midC_atTime {P : Params F D ω} (hw : P.walls.Timeless) (s : State F D ω) : (s.atTime τ).midC P = (s.midC P).atTime τ := by
  have hd : ∀ s : State F D ω, (s.atTime τ).densC P.cfg = (s.densC P.cfg).atTime τ := fun s => by
    unfold State.densC
    have : ∀ i, (s.atTime τ).densCompute P.cfg i = s.densCompute P.cfg i := fun i => by
      unfold State.densCompute
      cases P.cfg.spp <;> rfl
    simp only [this]
    rfl
  have he : ∀ s : State F D ω, (s.atTime τ).ecsC P.cfg = (s.ecsC P.cfg).atTime τ := fun s => rfl
  have ha : ∀ s : State F D ω, (s.atTime τ).duC (State.accelCompute P.cfg) = (s.duC (State.accelCompute P.cfg)).atTime τ := fun s => rfl
  have hs : ∀ s : State F D ω, (s.atTime τ).saveX P.cfg = (s.saveX P.cfg).atTime τ := fun s => by
    unfold State.saveX
    split <;> rfl
  unfold State.midC
  rw [hd, he, ha, preC_atTime τ hw, moveC_atTime τ hw, hd, hs]

theorem pressureC_atTime (P : Params F D ω) (s : State F D ω) :
    (s.atTime τ).pressureC P = (s.pressureC P).map (State.atTime τ) := by
  unfold State.pressureC
  split
  · rfl
  · rw [show (s.atTime τ).ppeC P.cfg = (s.ppeC P.cfg).atTime τ from rfl,
      show ((s.ppeC P.cfg).atTime τ).solvePpe P.eps = ((s.ppeC P.cfg).solvePpe P.eps).map (State.atTime τ) from ?_]
    · exact map_andThen _ _ _ _ (fun _ => rfl)
    · unfold State.solvePpe
      change (if (cgSolve (s.ppeC P.cfg).ppe.size (s.ppeC P.cfg).ppe.A (s.ppeC P.cfg).ppe.b (s.ppeC P.cfg).ppe.x P.eps).2 = true then _ else _) = _
      simp only
      split <;> rfl

theorem pushC_atTime (s : State F D ω) : (s.atTime τ).pushC = s.pushC.atTime τ := rfl

theorem gradC_atTime (cfg : Config) (s : State F D ω) : (s.atTime τ).gradC cfg = (s.gradC cfg).atTime τ := by
  have h : ∀ i, State.gradCompute cfg (s.atTime τ) i = State.gradCompute cfg s i := fun i => rfl
  unfold State.gradC State.duC
  simp only [h]
  rfl

theorem dsC_atTime (cfg : Config) (s : State F D ω) : (s.atTime τ).dsC cfg = (s.dsC cfg).atTime τ := by
  have h : ∀ i, State.dsCompute cfg (s.atTime τ) i = State.dsCompute cfg s i := fun i => rfl
  unfold State.dsC
  split
  · unfold State.duC
    simp only [h]
    rfl
  · rfl

theorem afterSearch_atTime {P : Params F D ω} (hw : P.walls.Timeless) (s : State F D ω) :
    (s.atTime τ).afterSearch P = (s.afterSearch P).map (State.atTime τ) := by
  unfold State.afterSearch
  rw [midC_atTime τ hw, pressureC_atTime]
  refine map_andThen _ _ _ _ (fun s => ?_)
  simp only [gradC_atTime, dsC_atTime, Res.map]

/-- The step at another time. -/
theorem forwardTime_atTime {P : Params F D ω} (hw : P.walls.Timeless) (s : State F D ω) (sch : Schedule) (hv : sch.Valid s.n) (dt : F) :
    (s.atTime τ).forwardTime P sch dt = (s.forwardTime P sch dt).map (State.atTime (τ + dt)) := by
  rw [forwardTime_eq P sch dt s hv, forwardTime_eq P sch dt (s.atTime τ) hv,
    show (s.atTime τ).start dt = (s.start dt).atTime (τ + dt) from rfl, searchNeighbor_atTime]
  exact map_andThen _ _ _ _ (afterSearch_atTime _ hw)

/-- The step with other callbacks: what happens after the search depends only on the callbacks for the particles that are not fluid then. -/
theorem afterSearch_walls {P P' : Params F D ω} (hcfg : P'.cfg = P.cfg) (heps : P'.eps = P.eps) (hpre : P'.walls.pre = P.walls.pre)
    (s : State F D ω) (h : ∀ i, i < s.n → (s.ps i).ty ≠ .incompressibleNewton → ∀ w t dt, P'.walls.pos w i t dt = P.walls.pos w i t dt) :
    s.afterSearch P' = s.afterSearch P := by
  have hmid : s.midC P' = s.midC P := by
    unfold State.midC
    rw [hcfg]
    have e1 : ∀ t : State F D ω, t.preC P'.walls = t.preC P.walls := fun t => by unfold State.preC; rw [hpre]
    have e2 : ∀ t : State F D ω, t.n = s.n → (∀ i, (t.ps i).ty = (s.ps i).ty) → t.moveC P'.walls = t.moveC P.walls := by
      intro t hn hty
      have e : ∀ i, i < t.n → t.moveCompute P'.walls i = t.moveCompute P.walls i := by
        intro i hi
        unfold State.moveCompute
        simp only
        split
        · rfl
        · rename_i hne
          rw [h i (by rw [← hn]; exact hi) (by rw [← hty]; exact hne)]
      unfold State.moveC
      congr 1
      funext i
      split
      · rename_i hi; rw [e i hi]
      · rfl
    rw [e1, e2]
    · rfl
    · intro i; exact densC_ty _ _ _
  unfold State.afterSearch State.pressureC
  rw [hmid, hcfg, heps]

end OpenMps
