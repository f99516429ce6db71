import Verif.Lemmas.Search

set_option linter.unusedSectionVars false

/-! Schedule-free form of a time step. -/

namespace OpenMps

variable {F : Type} [Scalar F] {D : Nat} {ω : Type}

/-- Densities. -/
def State.densC (cfg : Config) (s : State F D ω) : State F D ω :=
  { s with
    nNoSpp := if cfg.spp then (fun i => if i < s.n then (s.densCompute cfg i).1 else s.nNoSpp i)
      else s.nNoSpp
    ps := fun i => if i < s.n then
        (match (s.densCompute cfg i).2 with
          | some v => { s.ps i with n := v }
          | none => s.ps i)
      else s.ps i }

/-- ECS. -/
def State.ecsC (cfg : Config) (s : State F D ω) : State F D ω :=
  { s with ecs := if cfg.ecs then
      (fun i => if i < s.n then (s.ecsCompute cfg i).getD (s.ecs i) else s.ecs i) else s.ecs }

/-- Fill `du`. -/
def State.duC (compute : State F D ω → Nat → Option (Vec F D)) (s : State F D ω) : State F D ω :=
  { s with du := fun i => if i < s.n then (compute s i).getD (s.du i) else s.du i }

/-- `positionWallPre`. -/
def State.preC (w : Walls F D ω) (s : State F D ω) : State F D ω :=
  { s with world := w.pre s.world s.env.t s.env.dt }

/-- Movement of all particles. -/
def State.moveC (w : Walls F D ω) (s : State F D ω) : State F D ω :=
  { s with ps := fun i => if i < s.n then
      { s.ps i with x := (s.moveCompute w i).1, u := (s.moveCompute w i).2 } else s.ps i }

/-- Correction of fluid particles by `du`. -/
def State.pushC (s : State F D ω) : State F D ω :=
  { s with ps := fun i => if i < s.n ∧ (s.ps i).ty = PType.incompressibleNewton then
      { s.ps i with x := (s.ps i).x + vmul (s.du i) s.env.dt, u := (s.ps i).u + s.du i } else s.ps i }

/-- The linear system. -/
def State.ppeC (cfg : Config) (s : State F D ω) : State F D ω :=
  { s with ppe :=
    { size := s.n
      b := fun i => if i < s.n then (s.rhsCompute cfg i).1 else s.ppe.b i
      x := fun i => if i < s.n then (s.rhsCompute cfg i).2 else s.ppe.x i
      rows := fun i => if i < s.n then s.matCompute cfg i else s.ppe.rows i
      A := assemble s.n (fun i => if i < s.n then s.matCompute cfg i else s.ppe.rows i) } }

/-- Pressure assignment. -/
def State.presC (compute : State F D ω → Nat → Option F) (s : State F D ω) : State F D ω :=
  { s with ps := fun i => if i < s.n then
      { s.ps i with p := (compute s i).getD (s.ps i).p } else s.ps i }

/-- Everything between the neighbour search and the pressure computation. -/
def State.midC (P : Params F D ω) (s : State F D ω) : State F D ω :=
  (((((((s.densC P.cfg).ecsC P.cfg).duC (State.accelCompute P.cfg)).preC P.walls).moveC P.walls).densC P.cfg).saveX P.cfg)

/-- Pressure computation. -/
def State.pressureC (P : Params F D ω) (s : State F D ω) : Res (State F D ω) :=
  if P.cfg.explicit then .ok (s.presC State.eosCompute)
  else ((s.ppeC P.cfg).solvePpe P.eps).andThen (fun s => .ok (s.presC (State.presCompute P.cfg)))

/-- Pressure gradient. -/
def State.gradC (cfg : Config) (s : State F D ω) : State F D ω := (s.duC (State.gradCompute cfg)).pushC

/-- Dynamic stabilisation. -/
def State.dsC (cfg : Config) (s : State F D ω) : State F D ω :=
  if cfg.ds then (s.duC (State.dsCompute cfg)).pushC else s

/-- Everything after the neighbour search. -/
def State.afterSearch (P : Params F D ω) (s : State F D ω) : Res (State F D ω) :=
  ((s.midC P).pressureC P).andThen (fun s => .ok ((s.gradC P.cfg).dsC P.cfg))

/-- The new time. -/
def State.start (dt : F) (s : State F D ω) : State F D ω :=
  { s with env := { s.env with dt := dt, t := s.env.t + dt } }

theorem setPpe_eq (cfg : Config) (s : State F D ω) (schB schA : List Ev) (hB : ValidSched s.n schB)
    (hA : ValidSched s.n schA) : s.setPpe cfg schB schA = s.ppeC cfg := by
  unfold State.setPpe
  simp only
  rw [rhsLoop_eq cfg _ schB (by exact hB), matLoop_eq cfg _ schA (by exact hA)]
  rfl

theorem solvePpe_n (eps : F) (s s' : State F D ω) (h : s.solvePpe eps = .ok s') : s'.n = s.n := by
  unfold State.solvePpe at h
  simp only at h
  split at h
  · injection h with h; subst h; rfl
  · cases h

theorem storeOne_n (s : State F D ω) (i : Nat) :
    ∀ s', (s.storeOne i = .ok s' ∨ ∃ e, s.storeOne i = .exn e s') → s'.n = s.n := by
  intro s' h
  unfold State.storeOne at h
  split at h
  · rcases h with h | ⟨e, h⟩ <;> cases h; rfl
  · split at h <;> rcases h with h | ⟨e, h⟩ <;> cases h <;> rfl

theorem storeAll_n (is : List Nat) : ∀ (s s' : State F D ω),
    (State.storeAll is s = .ok s' ∨ ∃ e, State.storeAll is s = .exn e s') → s'.n = s.n := by
  induction is with
  | nil =>
    intro s s' h
    rcases h with h | ⟨e, h⟩ <;> cases h; rfl
  | cons i is ih =>
    intro s s' h
    unfold State.storeAll at h
    cases hs : s.storeOne i with
    | ok s1 =>
      rw [hs] at h
      rw [ih s1 s' h, storeOne_n s i s1 (Or.inl hs)]
    | exn e s1 =>
      rw [hs] at h
      rcases h with h | ⟨e', h⟩ <;> cases h
      exact storeOne_n s i _ (Or.inr ⟨_, hs⟩)
    | ub =>
      rw [hs] at h
      rcases h with h | ⟨e', h⟩ <;> cases h

theorem searchNeighbor_n (s s' : State F D ω) (sch : List Ev) (hv : ValidSched s.n sch)
    (h : s.searchNeighbor sch = .ok s') : s'.n = s.n := by
  unfold State.searchNeighbor at h
  split at h
  · cases h
  · rename_i g hg
    cases hs : State.storeAll (List.range s.n) { s with grid := g } with
    | ok s1 =>
      have hn := storeAll_n _ _ s1 (Or.inl hs)
      rw [hs] at h
      simp only [Res.andThen, Res.bind] at h
      rw [rowLoop_eq s1 sch (by rw [hn]; exact hv)] at h
      simp only at h
      split at h
      · cases h
      · injection h with h; subst h; exact hn
    | exn e s1 => rw [hs] at h; cases h
    | ub => rw [hs] at h; cases h

theorem searchNeighbor_sched (s : State F D ω) (sch sch' : List Ev) (hv : ValidSched s.n sch)
    (hv' : ValidSched s.n sch') : s.searchNeighbor sch = s.searchNeighbor sch' := by
  unfold State.searchNeighbor
  split
  · rfl
  · rename_i g hg
    cases hs : State.storeAll (List.range s.n) { s with grid := g } with
    | ok s1 =>
      have hn := storeAll_n _ _ s1 (Or.inl hs)
      simp only [Res.andThen, Res.bind]
      rw [rowLoop_eq s1 sch (by rw [hn]; exact hv), rowLoop_eq s1 sch' (by rw [hn]; exact hv')]
    | exn e s1 => rfl
    | ub => rfl

theorem computeExplicit_eq (P : Params F D ω) (s : State F D ω) (sch1 sch2 : List Ev)
    (h1 : ValidSched s.n sch1) (h2 : ValidSched s.n sch2) :
    s.computeExplicit P sch1 sch2
      = ((s.duC (State.accelCompute P.cfg)).preC P.walls).moveC P.walls := by
  unfold State.computeExplicit
  simp only
  rw [accelLoop_eq P.cfg s sch1 h1, moveLoop_eq P.walls _ sch2 (by exact h2)]
  rfl

theorem modifyByGradient_eq (cfg : Config) (s : State F D ω) (sch1 sch2 : List Ev)
    (h1 : ValidSched s.n sch1) (h2 : ValidSched s.n sch2) : s.modifyByGradient cfg sch1 sch2 = s.gradC cfg := by
  unfold State.modifyByGradient
  simp only
  rw [gradLoop_eq cfg s sch1 h1, pushLoop_eq _ sch2 (by exact h2)]
  rfl

theorem dynamicStabilize_eq (cfg : Config) (s : State F D ω) (sch1 sch2 : List Ev)
    (h1 : ValidSched s.n sch1) (h2 : ValidSched s.n sch2) : s.dynamicStabilize cfg sch1 sch2 = s.dsC cfg := by
  unfold State.dynamicStabilize State.dsC
  split
  · simp only
    rw [dsLoop_eq cfg s sch1 h1, pushLoop_eq _ sch2 (by exact h2)]
    rfl
  · rfl

theorem computeImplicit_eq (P : Params F D ω) (s : State F D ω) (sch : Schedule) (hv : sch.Valid s.n) :
    s.computeImplicit P sch = (s.pressureC P).andThen (fun s => .ok (s.gradC P.cfg)) := by
  unfold State.computeImplicit State.pressureC
  simp only
  split
  · rw [eosLoop_eq s _ (hv 8)]
    simp only [Res.andThen, Res.bind]
    rw [modifyByGradient_eq P.cfg _ _ _ (by exact hv 9) (by exact hv 10)]
    rfl
  · rw [setPpe_eq P.cfg s _ _ (hv 6) (hv 7)]
    cases hs : (s.ppeC P.cfg).solvePpe P.eps with
    | ok s1 =>
      have hn : s1.n = s.n := solvePpe_n _ (s.ppeC P.cfg) _ hs
      simp only [Res.andThen, Res.bind]
      rw [presLoop_eq P.cfg s1 _ (by rw [hn]; exact hv 8)]
      rw [modifyByGradient_eq P.cfg _ _ _ (by rw [show State.n _ = s1.n from rfl, hn]; exact hv 9)
        (by rw [show State.n _ = s1.n from rfl, hn]; exact hv 10)]
      rfl
    | exn e s1 => rfl
    | ub => rfl

theorem gradC_n (cfg : Config) (s : State F D ω) : (s.gradC cfg).n = s.n := rfl

theorem pressureC_n (P : Params F D ω) (s s' : State F D ω) (h : s.pressureC P = .ok s') : s'.n = s.n := by
  unfold State.pressureC at h
  split at h
  · injection h with h; subst h; rfl
  · cases hs : (s.ppeC P.cfg).solvePpe P.eps with
    | ok s1 =>
      rw [hs] at h
      simp only [Res.andThen, Res.bind] at h
      injection h with h; subst h
      exact (solvePpe_n _ (s.ppeC P.cfg) s1 hs : s1.n = s.n)
    | exn e s1 => rw [hs] at h; cases h
    | ub => rw [hs] at h; cases h

theorem saveX_n (cfg : Config) (s : State F D ω) : (s.saveX cfg).n = s.n := by
  unfold State.saveX; split <;> rfl

theorem midC_n (P : Params F D ω) (s : State F D ω) : (s.midC P).n = s.n := by
  unfold State.midC; rw [saveX_n]; rfl

theorem computeDensities_C (cfg : Config) (s : State F D ω) (sch : List Ev) (hv : ValidSched s.n sch) :
    s.computeDensities cfg sch = s.densC cfg := computeDensities_eq cfg s sch hv

theorem computeEcs_C (cfg : Config) (s : State F D ω) (sch : List Ev) (hv : ValidSched s.n sch) :
    s.computeEcs cfg sch = s.ecsC cfg := computeEcs_eq cfg s sch hv

/-- A time step, for every valid schedule. -/
theorem forwardTime_eq (P : Params F D ω) (sch : Schedule) (dt : F) (s : State F D ω) (hv : sch.Valid s.n) :
    s.forwardTime P sch dt
      = ((s.start dt).searchNeighbor (sch 0)).andThen (State.afterSearch P) := by
  unfold State.forwardTime
  simp only
  have h0 : ({ s with env := ({ s.env with dt := dt } : Env F D).setNextT } : State F D ω) = s.start dt := rfl
  rw [h0]
  cases hs : (s.start dt).searchNeighbor (sch 0) with
  | exn e s1 => rfl
  | ub => rfl
  | ok s1 =>
    have hn : s1.n = s.n := searchNeighbor_n (s.start dt) s1 _ (hv 0) hs
    have hv1 : sch.Valid s1.n := by rw [hn]; exact hv
    simp only [Res.andThen, Res.bind]
    rw [computeDensities_C P.cfg s1 _ (hv1 1), computeEcs_C P.cfg _ _ (by exact hv1 2),
      computeExplicit_eq P _ _ _ (by exact hv1 3) (by exact hv1 4),
      computeDensities_C P.cfg _ _ (by exact hv1 5)]
    rw [← State.midC, computeImplicit_eq P _ _ (by rw [midC_n]; exact hv1)]
    unfold State.afterSearch
    cases hp : (s1.midC P).pressureC P with
    | exn e s2 => rfl
    | ub => rfl
    | ok s2 =>
      have hn2 : s2.n = s1.n := by rw [pressureC_n P _ _ hp, midC_n]
      simp only [Res.andThen, Res.bind]
      rw [dynamicStabilize_eq P.cfg _ _ _ (by rw [gradC_n, hn2]; exact hv1 11)
        (by rw [gradC_n, hn2]; exact hv1 12)]

end OpenMps
