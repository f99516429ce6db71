import Verif.Lemmas.Step

set_option linter.unusedSectionVars false

/-! What the phases of a step leave alone. -/

namespace OpenMps

variable {F : Type} [Scalar F] {D : Nat} {ω : Type}

section
variable (cfg : Config) (s : State F D ω) (i : Nat)

theorem densC_x : ((s.densC cfg).ps i).x = (s.ps i).x := by
  simp only [State.densC]; split <;> [(split <;> rfl); rfl]
theorem densC_u : ((s.densC cfg).ps i).u = (s.ps i).u := by
  simp only [State.densC]; split <;> [(split <;> rfl); rfl]
theorem densC_p : ((s.densC cfg).ps i).p = (s.ps i).p := by
  simp only [State.densC]; split <;> [(split <;> rfl); rfl]
theorem densC_ty : ((s.densC cfg).ps i).ty = (s.ps i).ty := by
  simp only [State.densC]; split <;> [(split <;> rfl); rfl]
theorem densC_ge (h : ¬ i < s.n) : (s.densC cfg).ps i = s.ps i := by
  simp only [State.densC, h, if_false]

theorem saveX_ps : (s.saveX cfg).ps = s.ps := by unfold State.saveX; split <;> rfl
theorem saveX_env : (s.saveX cfg).env = s.env := by unfold State.saveX; split <;> rfl
theorem saveX_world : (s.saveX cfg).world = s.world := by unfold State.saveX; split <;> rfl
theorem saveX_nbr : (s.saveX cfg).nbr = s.nbr := by unfold State.saveX; split <;> rfl
theorem saveX_grid : (s.saveX cfg).grid = s.grid := by unfold State.saveX; split <;> rfl
theorem saveX_nNoSpp : (s.saveX cfg).nNoSpp = s.nNoSpp := by unfold State.saveX; split <;> rfl
theorem saveX_ecs : (s.saveX cfg).ecs = s.ecs := by unfold State.saveX; split <;> rfl
theorem saveX_ub : (s.saveX cfg).ub = s.ub := by unfold State.saveX; split <;> rfl

theorem moveC_ty (w : Walls F D ω) : ((s.moveC w).ps i).ty = (s.ps i).ty := by
  simp only [State.moveC]; split <;> rfl
theorem moveC_p (w : Walls F D ω) : ((s.moveC w).ps i).p = (s.ps i).p := by
  simp only [State.moveC]; split <;> rfl
theorem moveC_nn (w : Walls F D ω) : ((s.moveC w).ps i).n = (s.ps i).n := by
  simp only [State.moveC]; split <;> rfl

theorem pushC_ty : ((s.pushC).ps i).ty = (s.ps i).ty := by
  simp only [State.pushC]; split <;> rfl
theorem pushC_p : ((s.pushC).ps i).p = (s.ps i).p := by
  simp only [State.pushC]; split <;> rfl
theorem pushC_nn : ((s.pushC).ps i).n = (s.ps i).n := by
  simp only [State.pushC]; split <;> rfl
theorem pushC_other (h : (s.ps i).ty ≠ .incompressibleNewton) : (s.pushC).ps i = s.ps i := by
  simp [State.pushC, h]

theorem presC_ty (c : State F D ω → Nat → Option F) : ((s.presC c).ps i).ty = (s.ps i).ty := by
  simp only [State.presC]; split <;> rfl
theorem presC_x (c : State F D ω → Nat → Option F) : ((s.presC c).ps i).x = (s.ps i).x := by
  simp only [State.presC]; split <;> rfl
theorem presC_u (c : State F D ω → Nat → Option F) : ((s.presC c).ps i).u = (s.ps i).u := by
  simp only [State.presC]; split <;> rfl
theorem presC_nn (c : State F D ω → Nat → Option F) : ((s.presC c).ps i).n = (s.ps i).n := by
  simp only [State.presC]; split <;> rfl

theorem gradC_ty : ((s.gradC cfg).ps i).ty = (s.ps i).ty := pushC_ty _ _
theorem gradC_p : ((s.gradC cfg).ps i).p = (s.ps i).p := pushC_p _ _
theorem gradC_nn : ((s.gradC cfg).ps i).n = (s.ps i).n := pushC_nn _ _
theorem gradC_other (h : (s.ps i).ty ≠ .incompressibleNewton) : (s.gradC cfg).ps i = s.ps i :=
  pushC_other (s.duC (State.gradCompute cfg)) i h

theorem dsC_ty : ((s.dsC cfg).ps i).ty = (s.ps i).ty := by
  unfold State.dsC; split
  · exact pushC_ty _ _
  · rfl
theorem dsC_p : ((s.dsC cfg).ps i).p = (s.ps i).p := by
  unfold State.dsC; split
  · exact pushC_p _ _
  · rfl
theorem dsC_nn : ((s.dsC cfg).ps i).n = (s.ps i).n := by
  unfold State.dsC; split
  · exact pushC_nn _ _
  · rfl
theorem dsC_other (h : (s.ps i).ty ≠ .incompressibleNewton) : (s.dsC cfg).ps i = s.ps i := by
  unfold State.dsC; split
  · exact pushC_other (s.duC (State.dsCompute cfg)) i h
  · rfl
theorem dsC_n : (s.dsC cfg).n = s.n := by unfold State.dsC; split <;> rfl
theorem dsC_env : (s.dsC cfg).env = s.env := by unfold State.dsC; split <;> rfl
theorem dsC_world : (s.dsC cfg).world = s.world := by unfold State.dsC; split <;> rfl
theorem dsC_grid : (s.dsC cfg).grid = s.grid := by unfold State.dsC; split <;> rfl
theorem dsC_ub : (s.dsC cfg).ub = s.ub := by unfold State.dsC; split <;> rfl

end

/-! ### Solver -/

theorem solvePpe_ok {eps : F} {s s' : State F D ω} (h : s.solvePpe eps = .ok s') :
    s' = { s with ppe := { s.ppe with x := (cgSolve s.ppe.size s.ppe.A s.ppe.b s.ppe.x eps).1 } } ∧
      (cgSolve s.ppe.size s.ppe.A s.ppe.b s.ppe.x eps).2 = true := by
  unfold State.solvePpe at h
  simp only at h
  split at h
  · rename_i hc; injection h with h; exact ⟨h.symm, hc⟩
  · cases h

theorem solvePpe_exn {eps : F} {s s' : State F D ω} {e : Exn} (h : s.solvePpe eps = .exn e s') :
    e = .solver ∧
    s' = { s with ppe := { s.ppe with x := (cgSolve s.ppe.size s.ppe.A s.ppe.b s.ppe.x eps).1 } } ∧
      (cgSolve s.ppe.size s.ppe.A s.ppe.b s.ppe.x eps).2 = false := by
  unfold State.solvePpe at h
  simp only at h
  split at h
  · cases h
  · rename_i hc
    injection h with h h'
    exact ⟨h.symm, h'.symm, by simpa using hc⟩

theorem solvePpe_ub {eps : F} {s : State F D ω} : s.solvePpe eps ≠ .ub := by
  unfold State.solvePpe
  simp only
  split <;> simp

/-- Outcome of the pressure computation. -/
theorem pressureC_ok {P : Params F D ω} {s s' : State F D ω} (h : s.pressureC P = .ok s') :
    (P.cfg.explicit = true ∧ s' = s.presC State.eosCompute) ∨
    (P.cfg.explicit = false ∧ ∃ s1, (s.ppeC P.cfg).solvePpe P.eps = .ok s1 ∧
      s' = s1.presC (State.presCompute P.cfg)) := by
  unfold State.pressureC at h
  split at h
  · rename_i he
    injection h with h
    exact Or.inl ⟨he, h.symm⟩
  · rename_i he
    right
    refine ⟨by simpa using he, ?_⟩
    cases hs : (s.ppeC P.cfg).solvePpe P.eps with
    | ok s1 =>
      rw [hs] at h
      simp only [Res.andThen, Res.bind] at h
      injection h with h
      exact ⟨s1, rfl, h.symm⟩
    | exn e s1 => rw [hs] at h; cases h
    | ub => rw [hs] at h; cases h

theorem pressureC_exn {P : Params F D ω} {s s' : State F D ω} {e : Exn} (h : s.pressureC P = .exn e s') :
    P.cfg.explicit = false ∧ (s.ppeC P.cfg).solvePpe P.eps = .exn e s' := by
  unfold State.pressureC at h
  split at h
  · cases h
  · rename_i he
    refine ⟨by simpa using he, ?_⟩
    cases hs : (s.ppeC P.cfg).solvePpe P.eps with
    | ok s1 => rw [hs] at h; cases h
    | exn e s1 => rw [hs] at h; exact h
    | ub => rw [hs] at h; cases h

theorem pressureC_ub {P : Params F D ω} {s : State F D ω} : s.pressureC P ≠ .ub := by
  unfold State.pressureC
  split
  · simp
  · cases hs : (s.ppeC P.cfg).solvePpe P.eps with
    | ok s1 => simp [Res.andThen, Res.bind]
    | exn e s1 => simp [Res.andThen, Res.bind]
    | ub => exact absurd hs solvePpe_ub

/-- Everything but pressures and the linear system is as before. -/
theorem pressureC_frame {P : Params F D ω} {s s' : State F D ω} (h : s.pressureC P = .ok s') :
    s'.n = s.n ∧ s'.env = s.env ∧ s'.world = s.world ∧ s'.grid = s.grid ∧ s'.nbr = s.nbr ∧
    s'.du = s.du ∧ s'.origX = s.origX ∧ s'.nNoSpp = s.nNoSpp ∧ s'.ub = s.ub ∧ s'.ecs = s.ecs ∧
    ∀ i, (s'.ps i).x = (s.ps i).x ∧ (s'.ps i).u = (s.ps i).u ∧ (s'.ps i).n = (s.ps i).n ∧
      (s'.ps i).ty = (s.ps i).ty := by
  rcases pressureC_ok h with ⟨-, rfl⟩ | ⟨-, s1, h1, rfl⟩
  · exact ⟨rfl, rfl, rfl, rfl, rfl, rfl, rfl, rfl, rfl, rfl, fun i =>
      ⟨presC_x _ _ _, presC_u _ _ _, presC_nn _ _ _, presC_ty _ _ _⟩⟩
  · obtain ⟨rfl, -⟩ := solvePpe_ok h1
    exact ⟨rfl, rfl, rfl, rfl, rfl, rfl, rfl, rfl, rfl, rfl, fun i =>
      ⟨presC_x _ _ _, presC_u _ _ _, presC_nn _ _ _, presC_ty _ _ _⟩⟩

theorem pressureC_exn_frame {P : Params F D ω} {s s' : State F D ω} {e : Exn} (h : s.pressureC P = .exn e s') :
    e = .solver ∧ s'.ps = s.ps ∧ s'.n = s.n ∧ s'.env = s.env ∧ s'.world = s.world ∧ s'.grid = s.grid ∧
      s'.ub = s.ub := by
  obtain ⟨-, h⟩ := pressureC_exn h
  obtain ⟨he, rfl, -⟩ := solvePpe_exn h
  exact ⟨he, rfl, rfl, rfl, rfl, rfl, rfl⟩

/-! ### The part before the pressure -/

theorem midC_ty (P : Params F D ω) (s : State F D ω) (i : Nat) : ((s.midC P).ps i).ty = (s.ps i).ty := by
  unfold State.midC
  rw [saveX_ps, densC_ty, moveC_ty]
  exact densC_ty _ _ _

theorem midC_p (P : Params F D ω) (s : State F D ω) (i : Nat) : ((s.midC P).ps i).p = (s.ps i).p := by
  unfold State.midC
  rw [saveX_ps, densC_p, moveC_p]
  exact densC_p _ _ _

theorem midC_env (P : Params F D ω) (s : State F D ω) : (s.midC P).env = s.env := by
  unfold State.midC; rw [saveX_env]; rfl

theorem midC_grid (P : Params F D ω) (s : State F D ω) : (s.midC P).grid = s.grid := by
  unfold State.midC; rw [saveX_grid]; rfl

theorem midC_ub (P : Params F D ω) (s : State F D ω) : (s.midC P).ub = s.ub := by
  unfold State.midC; rw [saveX_ub]; rfl

theorem midC_world (P : Params F D ω) (s : State F D ω) :
    (s.midC P).world = P.walls.pre s.world s.env.t s.env.dt := by
  unfold State.midC; rw [saveX_world]; rfl

/-- Position and velocity of non-fluid particles after the first stage. -/
theorem midC_wall (P : Params F D ω) (s : State F D ω) (i : Nat) (hi : i < s.n)
    (h : (s.ps i).ty ≠ .incompressibleNewton) :
    ((s.midC P).ps i).x = P.walls.pos (P.walls.pre s.world s.env.t s.env.dt) i s.env.t s.env.dt ∧
    ((s.midC P).ps i).u = vdiv (P.walls.pos (P.walls.pre s.world s.env.t s.env.dt) i s.env.t s.env.dt - (s.ps i).x)
      s.env.dt := by
  unfold State.midC
  rw [saveX_ps, densC_x, densC_u]
  set m := ((((s.densC P.cfg).ecsC P.cfg).duC (State.accelCompute P.cfg)).preC P.walls) with hm
  have hty : (m.ps i).ty = (s.ps i).ty := densC_ty P.cfg s i
  have hx : (m.ps i).x = (s.ps i).x := densC_x P.cfg s i
  have hn : m.n = s.n := rfl
  have hmove : m.moveCompute P.walls i =
      (P.walls.pos m.world i m.env.t m.env.dt, vdiv (P.walls.pos m.world i m.env.t m.env.dt - (m.ps i).x) m.env.dt) := by
    unfold State.moveCompute
    simp only
    rw [if_neg (by rw [hty]; exact h)]
  simp only [State.moveC, hn, hi, if_true, hmove, hx]
  exact ⟨rfl, rfl⟩

/-! ### The search -/

theorem clear_geom {g g' : Grid F D} (h : g.clear? = some g') : SameGeom g g' := by
  unfold Grid.clear? at h
  split at h
  · cases h
  · injection h with h; subst h; exact ⟨rfl, rfl, rfl, rfl⟩

theorem searchNeighbor_ok_frame {s s' : State F D ω} {sch : List Ev} (hv : ValidSched s.n sch)
    (h : s.searchNeighbor sch = .ok s') :
    ∃ g0 g nb, s.grid.clear? = some g0 ∧ SameGeom s.grid g ∧
      s' = { (State.marked { s with grid := g0 } (List.range s.n) g) with nbr := nb } ∧ s.ub = false ∧
      (∀ i, i < s.n → (s.ps i).ty ≠ .disabled → s.grid.block? (s.ps i).x ≠ none) := by
  unfold State.searchNeighbor at h
  split at h
  · cases h
  · rename_i g0 hg0
    have hgm := clear_geom hg0
    rcases storeAll_spec (List.range s.n) ({ s with grid := g0 } : State F D ω) List.nodup_range with
      ⟨g, h1, h2, h3⟩ | ⟨is', j, is'', g, h1, h2, h3, h4, ⟨g', h5, h6⟩ | ⟨h5, h6⟩⟩
    · rw [h3] at h
      simp only [Res.andThen, Res.bind] at h
      rw [rowLoop_eq _ sch (by exact hv)] at h
      simp only at h
      split at h
      · cases h
      · rename_i hub
        injection h with h
        simp only [Bool.or_eq_true, not_or, Bool.not_eq_true] at hub
        have hub1 : s.ub = false := hub.1
        refine ⟨g0, g, s'.nbr, hg0, hgm.trans (storeSeq_contents h1).1, ?_, hub1, ?_⟩
        · rw [← h]
          simp only [hub.2, Bool.or_false]
        · intro i hi hd
          have := h2 i (by simpa using hi) hd
          rw [hgm.block] at this
          exact this
    · rw [h6] at h; cases h
    · rw [h6] at h; cases h

theorem searchNeighbor_exn_frame {s s' : State F D ω} {sch : List Ev} {e : Exn}
    (h : s.searchNeighbor sch = .exn e s') :
    ∃ g0 g' j, s.grid.clear? = some g0 ∧ SameGeom s.grid g' ∧ j < s.n ∧ e = .gridFull ∧
      s' = State.marked { s with grid := g0 } (List.range j) g' := by
  unfold State.searchNeighbor at h
  split at h
  · cases h
  · rename_i g0 hg0
    have hgm := clear_geom hg0
    rcases storeAll_spec (List.range s.n) ({ s with grid := g0 } : State F D ω) List.nodup_range with
      ⟨g, h1, h2, h3⟩ | ⟨is', j, is'', g, h1, h2, h3, h4, ⟨g', h5, h6⟩ | ⟨h5, h6⟩⟩
    · rw [h3] at h
      simp only [Res.andThen, Res.bind] at h
      split at h <;> cases h
    · rw [h6] at h
      simp only [Res.andThen, Res.bind] at h
      injection h with h h'
      have hjr : j < s.n := by
        have : j ∈ List.range s.n := by rw [h1]; simp
        simpa using this
      have his' : is' = List.range j := by
        have hlen : is'.length = j := by
          have := congrArg (fun l => l[is'.length]?) h1
          simp only [List.getElem?_append_right (Nat.le_refl _), Nat.sub_self, List.getElem?_cons_zero] at this
          rw [List.getElem?_eq_some_iff] at this
          obtain ⟨_, h⟩ := this
          simpa using h
        have h6 : is' = (List.range s.n).take is'.length := by rw [h1]; simp
        rw [h6, hlen, List.take_range, Nat.min_eq_left (by omega)]
      subst his'
      exact ⟨g0, g', j, hg0, (hgm.trans (storeSeq_contents h3).1).trans (store_full h5).1, hjr, h.symm, h'.symm⟩
    · rw [h6] at h; cases h

theorem marked_ps (s : State F D ω) (is : List Nat) (g : Grid F D) (i : Nat) :
    ((s.marked is g).ps i).x = (s.ps i).x ∧ ((s.marked is g).ps i).u = (s.ps i).u ∧
    ((s.marked is g).ps i).p = (s.ps i).p ∧ ((s.marked is g).ps i).n = (s.ps i).n ∧
    ((s.marked is g).ps i).ty = if i ∈ is ∧ s.leaving i = true then PType.disabled else (s.ps i).ty := by
  simp only [State.marked]
  split
  · exact ⟨rfl, rfl, rfl, rfl, rfl⟩
  · exact ⟨rfl, rfl, rfl, rfl, rfl⟩

/-! ### The whole step -/

theorem afterSearch_ok {P : Params F D ω} {s s' : State F D ω} (h : s.afterSearch P = .ok s') :
    ∃ s2, (s.midC P).pressureC P = .ok s2 ∧ s' = (s2.gradC P.cfg).dsC P.cfg := by
  unfold State.afterSearch at h
  cases hp : (s.midC P).pressureC P with
  | ok s2 => rw [hp] at h; injection h with h; exact ⟨s2, rfl, h.symm⟩
  | exn e s2 => rw [hp] at h; cases h
  | ub => rw [hp] at h; cases h

theorem afterSearch_exn {P : Params F D ω} {s s' : State F D ω} {e : Exn} (h : s.afterSearch P = .exn e s') :
    (s.midC P).pressureC P = .exn e s' := by
  unfold State.afterSearch at h
  cases hp : (s.midC P).pressureC P with
  | ok s2 => rw [hp] at h; cases h
  | exn e s2 => rw [hp] at h; exact h
  | ub => rw [hp] at h; cases h

theorem afterSearch_ub {P : Params F D ω} {s : State F D ω} : s.afterSearch P ≠ .ub := by
  unfold State.afterSearch
  cases hp : (s.midC P).pressureC P with
  | ok s2 => simp [Res.andThen, Res.bind]
  | exn e s2 => simp [Res.andThen, Res.bind]
  | ub => exact absurd hp pressureC_ub

theorem forwardTime_ok {P : Params F D ω} {sch : Schedule} {dt : F} {s s' : State F D ω} (hv : sch.Valid s.n)
    (h : s.forwardTime P sch dt = .ok s') :
    ∃ s1, (s.start dt).searchNeighbor (sch 0) = .ok s1 ∧ s1.afterSearch P = .ok s' := by
  rw [forwardTime_eq P sch dt s hv] at h
  cases hs : (s.start dt).searchNeighbor (sch 0) with
  | ok s1 => rw [hs] at h; exact ⟨s1, rfl, h⟩
  | exn e s1 => rw [hs] at h; cases h
  | ub => rw [hs] at h; cases h

theorem forwardTime_exn {P : Params F D ω} {sch : Schedule} {dt : F} {s s' : State F D ω} {e : Exn}
    (hv : sch.Valid s.n) (h : s.forwardTime P sch dt = .exn e s') :
    (s.start dt).searchNeighbor (sch 0) = .exn e s' ∨
    ∃ s1, (s.start dt).searchNeighbor (sch 0) = .ok s1 ∧ s1.afterSearch P = .exn e s' := by
  rw [forwardTime_eq P sch dt s hv] at h
  cases hs : (s.start dt).searchNeighbor (sch 0) with
  | ok s1 => rw [hs] at h; exact Or.inr ⟨s1, rfl, h⟩
  | exn e s1 => rw [hs] at h; exact Or.inl h
  | ub => rw [hs] at h; cases h

theorem forwardTime_ub {P : Params F D ω} {sch : Schedule} {dt : F} {s : State F D ω}
    (hv : sch.Valid s.n) : s.forwardTime P sch dt = .ub ↔ (s.start dt).searchNeighbor (sch 0) = .ub := by
  rw [forwardTime_eq P sch dt s hv]
  cases hs : (s.start dt).searchNeighbor (sch 0) with
  | ok s1 => simp [Res.andThen, Res.bind, afterSearch_ub]
  | exn e s1 => simp [Res.andThen, Res.bind]
  | ub => simp [Res.andThen, Res.bind]

end OpenMps
