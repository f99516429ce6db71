import Verif.Lemmas.Sim
import Verif.Spec.History
import Verif.Spec.Toy

/-! # Properties of time steps for every arithmetic (C08, C09, C10, C12, C14, C15, C16, C18, C19, C20, C40) -/

set_option linter.unusedSectionVars false

namespace OpenMps

variable {F : Type} [Scalar F] {D : Nat} {ω : Type}

/-! ## Facts about one step -/

theorem Schedule.serial_valid (n : Nat) : (Schedule.serial n).Valid n := fun _ => validSched_serial n

theorem SameVisible.n {s t : State F D ω} (h : SameVisible s t) : t.n = s.n := by
  have := congrArg List.length h.particles
  simpa [State.particles] using this

theorem SameVisible.ps {s t : State F D ω} (h : SameVisible s t) {i : Nat} (hi : i < s.n) : t.ps i = s.ps i := by
  have h1 := h.particles
  unfold State.particles at h1
  rw [h.n] at h1
  exact List.map_inj_left.mp h1 i (by simpa using hi)

/-- What one call of `ForwardTime(dt)` does to the parts that are not particles' positions etc. -/
theorem step_frame {P : Params F D ω} {s s' : State F D ω} {sch : Schedule} {dt : F} (hv : sch.Valid s.n)
    (h : (s.forwardTime P sch dt).leaves s') :
    s'.n = s.n ∧ s'.env = { s.env with dt := dt, t := s.env.t + dt } ∧ SameGeom s.grid s'.grid ∧
    s'.ub = s.ub ∧
    ∀ i, (s'.ps i).ty = (s.ps i).ty ∨
      (i < s.n ∧ (s.ps i).ty ≠ .disabled ∧ (s'.ps i).ty = .disabled ∧
        ∃ b, s.grid.block? (s.ps i).x = some b ∧ s.grid.inRange b = false) := by
  have hmark : ∀ (g0 g : Grid F D) (is : List Nat) (i : Nat), SameGeom s.grid g0 → (∀ j ∈ is, j < s.n) →
      ((State.marked { s.start dt with grid := g0 } is g).ps i).ty = (s.ps i).ty ∨
      (i < s.n ∧ (s.ps i).ty ≠ .disabled ∧ ((State.marked { s.start dt with grid := g0 } is g).ps i).ty = .disabled ∧
        ∃ b, s.grid.block? (s.ps i).x = some b ∧ s.grid.inRange b = false) := by
    intro g0 g is i hg his
    rw [(marked_ps _ is g i).2.2.2.2]
    split
    · rename_i hl
      obtain ⟨hi, hl⟩ := hl
      unfold State.leaving at hl
      have e1 : (State.ps { s.start dt with grid := g0 } i) = s.ps i := rfl
      have e2 : (State.grid { s.start dt with grid := g0 }) = g0 := rfl
      rw [e1, e2, hg.block] at hl
      simp only [Bool.and_eq_true, decide_eq_true_eq] at hl
      refine Or.inr ⟨his i hi, hl.1, rfl, ?_⟩
      cases hb : s.grid.block? (s.ps i).x with
      | none => rw [hb] at hl; simp at hl
      | some b =>
        rw [hb] at hl
        exact ⟨b, rfl, by simpa [hg.inRange] using hl.2⟩
    · exact Or.inl rfl
  rcases h with h | ⟨e, h⟩
  · obtain ⟨s1, h1, h2⟩ := forwardTime_ok hv h
    obtain ⟨g0, g, nb, k1, k2, k3, k4, -⟩ := searchNeighbor_ok_frame (s := s.start dt) (hv 0) h1
    obtain ⟨s2, h3, rfl⟩ := afterSearch_ok h2
    obtain ⟨f1, f2, -, f4, -, -, -, -, f9, -, f11⟩ := pressureC_frame h3
    refine ⟨?_, ?_, ?_, ?_, fun i => ?_⟩
    · rw [dsC_n, gradC_n, f1, midC_n, k3]; rfl
    · rw [dsC_env]
      change s2.env = _
      rw [f2, midC_env, k3]; rfl
    · rw [dsC_grid]
      change SameGeom s.grid s2.grid
      rw [f4, midC_grid, k3]
      exact k2
    · rw [dsC_ub]
      change s2.ub = _
      rw [f9, midC_ub, k3]; rfl
    · rw [dsC_ty, gradC_ty, (f11 i).2.2.2, midC_ty, k3]
      exact hmark g0 g _ i (clear_geom k1) (fun j hj => List.mem_range.mp hj)
  · rcases forwardTime_exn hv h with h1 | ⟨s1, h1, h2⟩
    · obtain ⟨g0, g', j, k1, k2, k3, k4, k5⟩ := searchNeighbor_exn_frame h1
      rw [k5]
      have k3' : j < s.n := k3
      refine ⟨rfl, rfl, k2, rfl, fun i => ?_⟩
      exact hmark g0 g' _ i (clear_geom k1) (fun a ha => lt_trans (by simpa using ha) k3')
    · obtain ⟨g0, g, nb, k1, k2, k3, k4, -⟩ := searchNeighbor_ok_frame (s := s.start dt) (hv 0) h1
      obtain ⟨-, f1, f2, f3, -, f5, f6⟩ := pressureC_exn_frame (afterSearch_exn h2)
      refine ⟨?_, ?_, ?_, ?_, fun i => ?_⟩
      · rw [f2, midC_n, k3]; rfl
      · rw [f3, midC_env, k3]; rfl
      · rw [f5, midC_grid, k3]; exact k2
      · rw [f6, midC_ub, k3]; rfl
      · rw [f1, midC_ty, k3]
        exact hmark g0 g _ i (clear_geom k1) (fun j hj => List.mem_range.mp hj)

theorem auto_forward {P : Params F D ω} {s : State F D ω} {sch : Schedule} {dt : F} (h : s.determineDt = some dt) :
    s.forwardTimeAuto P sch = s.forwardTime P sch dt := by
  unfold State.forwardTimeAuto; rw [h]

/-- Induction over histories where `ForwardTime()` is reduced to `ForwardTime(dt)`. -/
theorem Hist.rec' {P : Params F D ω} {s0 : State F D ω} {Q : List F → State F D ω → Prop} (h0 : Q [] s0)
    (hadd : ∀ dts s src, Hist P s0 dts s → Q dts s → Q dts (s.addParticles src))
    (hfwd : ∀ dts s s' sch dt, Hist P s0 dts s → Q dts s → sch.Valid s.n → (s.forwardTime P sch dt).leaves s' →
      Q (dts ++ [dt]) s') {dts : List F} {s : State F D ω} (h : Hist P s0 dts s) : Q dts s := by
  induction h with
  | start => exact h0
  | add src h ih => exact hadd _ _ _ h ih
  | forward sch dt h hv hl ih => exact hfwd _ _ _ _ _ h ih hv hl
  | auto sch dt h hv hd hl ih => rw [auto_forward hd] at hl; exact hfwd _ _ _ _ _ h ih hv hl

theorem Hist.frame {P : Params F D ω} {s0 s : State F D ω} {dts : List F} (h : Hist P s0 dts s) :
    s0.n ≤ s.n ∧ SameGeom s0.grid s.grid ∧ s.ub = s0.ub := by
  refine Hist.rec' (Q := fun _ s => s0.n ≤ s.n ∧ SameGeom s0.grid s.grid ∧ s.ub = s0.ub)
    ⟨le_refl _, SameGeom.refl _, rfl⟩ ?_ ?_ h
  · rintro dts s src - ⟨h1, h2, h3⟩
    exact ⟨Nat.le_trans h1 (Nat.le_add_right _ _), h2, h3⟩
  · rintro dts s s' sch dt - ⟨h1, h2, h3⟩ hv hl
    obtain ⟨k1, -, k2, k3, -⟩ := step_frame hv hl
    exact ⟨by rw [k1]; exact h1, h2.trans k2, by rw [k3, h3]⟩

/-- Positions and velocities of non-fluid particles after a step that got past the search. -/
theorem step_nonfluid {P : Params F D ω} {s s1 : State F D ω} {sch : Schedule} {dt : F} (hv : sch.Valid s.n)
    (h1 : (s.start dt).searchNeighbor (sch 0) = .ok s1) (i : Nat) (hi : i < s.n)
    (hty : (s1.ps i).ty ≠ .incompressibleNewton) :
    ((s1.midC P).ps i).x
        = P.walls.pos (P.walls.pre s.world (s.env.t + dt) dt) i (s.env.t + dt) dt ∧
    ((s1.midC P).ps i).u
        = vdiv (P.walls.pos (P.walls.pre s.world (s.env.t + dt) dt) i (s.env.t + dt) dt - (s.ps i).x) dt := by
  obtain ⟨g0, g, nb, k1, k2, k3, k4, -⟩ := searchNeighbor_ok_frame (s := s.start dt) (hv 0) h1
  have hx : (s1.ps i).x = (s.ps i).x := by
    rw [k3]; exact (marked_ps _ _ g i).1
  have hn : i < s1.n := by rw [k3]; exact hi
  have hw : s1.world = s.world := by rw [k3]; rfl
  have he : s1.env = (s.start dt).env := by rw [k3]; rfl
  have := midC_wall P s1 i hn hty
  rw [hx, hw, he] at this
  exact this

theorem midC_fluid (P : Params F D ω) (s : State F D ω) (i : Nat) (hi : i < s.n)
    (h : (s.ps i).ty = .incompressibleNewton) :
    ∃ a, ((s.midC P).ps i).u = (s.ps i).u + vmul a s.env.dt ∧
      ((s.midC P).ps i).x = (s.ps i).x + vmul ((s.midC P).ps i).u s.env.dt := by
  unfold State.midC
  rw [saveX_ps, densC_x, densC_u]
  set t := ((((s.densC P.cfg).ecsC P.cfg).duC (State.accelCompute P.cfg)).preC P.walls) with ht
  have hi' : i < t.n := hi
  have hx : (t.ps i).x = (s.ps i).x := densC_x _ _ _
  have hu : (t.ps i).u = (s.ps i).u := densC_u _ _ _
  have hty : (t.ps i).ty = .incompressibleNewton := by
    rw [← h]; exact densC_ty _ _ _
  have he : t.env = s.env := rfl
  refine ⟨t.du i, ?_, ?_⟩
  · simp only [State.moveC, hi', if_true, State.moveCompute, hty, hu, he]
  · simp only [State.moveC, hi', if_true, State.moveCompute, hty, hx, hu, he]

/-! ## C08 -/

/-- **C08.**  On any computer built by the constructor and any history of calls, a call `ForwardTime(dt)` never runs into
undefined behaviour (index outside the grid, the particle array or a row of the neighbour table, or an endless
iteration), provided the block numbers of the enabled particles are representable and (3-D only) the grid
has as many blocks in `y` as in `x`. -/
theorem C08_no_undefined_behaviour {P : Params F D ω} {env : Env F D} {w : ω} {s0 s : State F D ω} {dts : List F}
    (hnew : State.new? env w = some s0) (hist : Hist P s0 dts s) (hok : s0.grid.ClearOK)
    (hrep : ∀ i, i < s.n → (s.ps i).ty ≠ .disabled → s.grid.block? (s.ps i).x ≠ none)
    (sch : Schedule) (hv : sch.Valid s.n) (dt : F) :
    s.forwardTime P sch dt ≠ .ub := by
  obtain ⟨h1, h2, h3⟩ := hist.frame
  have hub : s.ub = false := by
    rw [h3]
    unfold State.new? at hnew
    split at hnew
    · cases hnew
    · injection hnew with hnew; rw [← hnew]
  rw [Ne, forwardTime_ub hv]
  intro h
  rcases searchNeighbor_spec (s.start dt) (sch 0) (hv 0) (h2.clearOK.mpr hok) hub with
    ⟨g, k1, k2, k3⟩ | ⟨j, g, g', k1, k2, k3, k4, k5, k6⟩ | ⟨j, k1, k2, k3, k4⟩
  · rw [h] at k3; cases k3
  · rw [h] at k6; cases k6
  · exact hrep j k1 k2 k3

/-- **C08.**  After the neighbour search of a step the neighbour table of every enabled particle contains only numbers of
existing enabled particles other than itself, each at most once, and fits into its row. -/
theorem C08_neighbour_table_valid {s s1 : State F D ω} {sch : List Ev} (hv : ValidSched s.n sch)
    (hok : s.grid.ClearOK) (hub : s.ub = false) (h : s.searchNeighbor sch = .ok s1)
    (i : Nat) (hi : i < s.n) (hd : (s1.ps i).ty ≠ .disabled) :
    s1.nbr i 0 ≤ s1.rowCap ∧ (s1.neighbors i).Nodup ∧
    ∀ j ∈ s1.neighbors i, j < s1.n ∧ j ≠ i ∧ (s1.ps j).ty ≠ .disabled := by
  rcases searchNeighbor_spec s sch hv hok hub with
    ⟨g, k1, k2, k3⟩ | ⟨j, g, g', k1, k2, k3, k4, k5, k6⟩ | ⟨j, k1, k2, k3, k4⟩
  · rw [h] at k3
    injection k3 with k3
    obtain ⟨f1, f2, f3, f4⟩ := marked_facts s g k1 k2
    set m := State.marked ({ s with grid := s.grid.cleared }) (List.range s.n) g with hm
    have hmd : (m.ps i).ty ≠ .disabled := by rw [k3] at hd; exact hd
    have hmi : i < m.n := hi
    have hnb : s1.neighbors i = m.nbrList i := by rw [k3]; exact neighbors_withRows m i hmi hmd
    refine ⟨?_, ?_, ?_⟩
    · have hrow := rowCompute_eq m f2 f3 f4 i hmi hmd
      have hlen : s1.nbr i 0 = (m.nbrList i).length := by
        rw [← hnb]; simp [State.neighbors]
      rw [hlen]
      have hcap : s1.rowCap = m.rowCap := by rw [k3]; rfl
      rw [hcap]
      unfold State.rowCompute at hrow
      rw [if_neg hmd] at hrow
      split at hrow
      · split at hrow
        · cases hrow
        · simp only at hrow
          split at hrow
          · cases hrow
          · rename_i hle
            injection hrow with hrow
            rw [← hrow]; omega
      · cases hrow
    · rw [hnb]
      unfold State.nbrList
      split
      · exact List.nodup_nil
      · rename_i b hb
        rw [List.nodup_flatMap]
        refine ⟨fun o _ => List.nodup_range.filter _, (nodup_offsets D).imp ?_⟩
        intro o o' hoo j hj hj'
        simp only [List.mem_filter, Bool.and_eq_true, decide_eq_true_eq] at hj hj'
        have h1 := hj.2.1.1.2
        have h2 := hj'.2.1.1.2
        rw [h1] at h2
        injection h2 with h2
        exact hoo (add_left_cancel h2)
    · intro j hj
      rw [hnb] at hj
      obtain ⟨a1, a2, a3, -⟩ := nbrList_mem hj
      rw [k3]
      exact ⟨a1, a3, a2⟩
  · rw [h] at k6; cases k6
  · rw [h] at k4; cases k4

/-! ## C09 -/

/-- **C09.**  `AddParticles` appends the new particles, unchanged and in order, after the existing ones. -/
theorem C09_add_appends (s : State F D ω) (src : List (Particle F D)) :
    (s.addParticles src).particles = s.particles ++ src := by
  unfold State.particles State.addParticles
  simp only
  rw [List.range_add, List.map_append, List.map_map]
  congr 1
  · apply List.map_congr_left
    intro i hi
    simp [List.mem_range.mp hi]
  · apply List.ext_getElem
    · simp
    · intro k h1 h2
      simp [h2]

/-- **C09.**  A call of `ForwardTime`, also one that throws, keeps the number of particles. -/
theorem C09_step_keeps_count {P : Params F D ω} {s s' : State F D ω} {sch : Schedule} {dt : F} (hv : sch.Valid s.n)
    (h : (s.forwardTime P sch dt).leaves s') : s'.particles.length = s.particles.length := by
  simp [State.particles, (step_frame hv h).1]

/-- **C09.**  After a successful step, the particle at place `i` is the continuation of the particle that was there before:
a fluid particle started from its own old position and velocity and received an acceleration `a` and two
velocity corrections (pressure gradient and stabilisation), each multiplied by the time step for the position;
any other particle was displaced from its own old position (C14). -/
theorem C09_step_continues_each_particle {P : Params F D ω} {s s' : State F D ω} {sch : Schedule} {dt : F}
    (hv : sch.Valid s.n) (h : s.forwardTime P sch dt = .ok s') (i : Nat) (hi : i < s.n) :
    ((s'.ps i).ty = .incompressibleNewton → (s.ps i).ty = .incompressibleNewton ∧
      ∃ a d1 : Vec F D,
        let u1 := (s.ps i).u + vmul a dt
        let x1 := (s.ps i).x + vmul u1 dt
        if P.cfg.ds then ∃ d2 : Vec F D, (s'.ps i).u = u1 + d1 + d2 ∧ (s'.ps i).x = x1 + vmul d1 dt + vmul d2 dt
        else (s'.ps i).u = u1 + d1 ∧ (s'.ps i).x = x1 + vmul d1 dt) ∧
    ((s'.ps i).ty ≠ .incompressibleNewton → (s'.ps i).u = vdiv ((s'.ps i).x - (s.ps i).x) dt) := by
  obtain ⟨s1, h1, h2⟩ := forwardTime_ok hv h
  obtain ⟨g0, g, nb, k1, k2, k3, k4, -⟩ := searchNeighbor_ok_frame (s := s.start dt) (hv 0) h1
  obtain ⟨s2, h3, rfl⟩ := afterSearch_ok h2
  obtain ⟨f1, f2, -, f4, -, -, -, -, f9, -, f11⟩ := pressureC_frame h3
  have hx : (s1.ps i).x = (s.ps i).x := by
    rw [k3]; exact (marked_ps _ _ g i).1
  have hu : (s1.ps i).u = (s.ps i).u := by
    rw [k3]; exact (marked_ps _ _ g i).2.1
  have hn : i < s1.n := by rw [k3]; exact hi
  have hn2 : i < s2.n := by rw [f1, midC_n]; exact hn
  have he : s1.env.dt = dt := by rw [k3]; rfl
  have he2 : s2.env.dt = dt := by rw [f2, midC_env]; exact he
  rw [dsC_ty, gradC_ty, (f11 i).2.2.2, midC_ty]
  refine ⟨fun hty => ⟨?_, ?_⟩, fun hty => ?_⟩
  · have hfr := (step_frame hv (Or.inl h)).2.2.2.2 i
    rw [dsC_ty, gradC_ty, (f11 i).2.2.2, midC_ty, hty] at hfr
    rcases hfr with hfr | ⟨-, -, hfr, -⟩
    · exact hfr.symm
    · cases hfr
  · obtain ⟨a, e1, e2⟩ := midC_fluid P s1 i hn hty
    rw [hu, he] at e1
    rw [hx, he] at e2
    have hty2 : (s2.ps i).ty = .incompressibleNewton := by rw [(f11 i).2.2.2, midC_ty]; exact hty
    have g1 : ((s2.gradC P.cfg).ps i).u = (s2.ps i).u + (s2.duC (State.gradCompute P.cfg)).du i ∧
        ((s2.gradC P.cfg).ps i).x = (s2.ps i).x + vmul ((s2.duC (State.gradCompute P.cfg)).du i) dt := by
      have hc : i < (s2.duC (State.gradCompute P.cfg)).n ∧
        ((s2.duC (State.gradCompute P.cfg)).ps i).ty = PType.incompressibleNewton := ⟨hn2, hty2⟩
      unfold State.gradC State.pushC
      simp only
      rw [if_pos hc]
      refine ⟨rfl, ?_⟩
      change _ + vmul _ s2.env.dt = _
      rw [he2]; rfl
    refine ⟨a, (s2.duC (State.gradCompute P.cfg)).du i, ?_⟩
    simp only
    split
    · rename_i hds
      set s3 := s2.gradC P.cfg with hs3
      have hn3 : i < s3.n := hn2
      have hty3 : (s3.ps i).ty = .incompressibleNewton := by rw [hs3, gradC_ty]; exact hty2
      have he3 : s3.env.dt = dt := he2
      refine ⟨(s3.duC (State.dsCompute P.cfg)).du i, ?_⟩
      unfold State.dsC
      rw [if_pos hds]
      have hc : i < (s3.duC (State.dsCompute P.cfg)).n ∧
        ((s3.duC (State.dsCompute P.cfg)).ps i).ty = PType.incompressibleNewton := ⟨hn3, hty3⟩
      unfold State.pushC
      simp only
      rw [if_pos hc]
      simp only
      have e3 : (s3.duC (State.dsCompute P.cfg)).ps = s3.ps := rfl
      have e4 : (s3.duC (State.dsCompute P.cfg)).env.dt = dt := he3
      rw [e3, e4, g1.1, g1.2, (f11 i).1, (f11 i).2.1, e2, e1]
      exact ⟨rfl, rfl⟩
    · rename_i hds
      unfold State.dsC
      rw [if_neg hds, g1.1, g1.2, (f11 i).1, (f11 i).2.1, e2, e1]
      exact ⟨rfl, rfl⟩
  · have h4 := step_nonfluid (P := P) hv h1 i hi hty
    have hty2 : (s2.ps i).ty ≠ .incompressibleNewton := by rw [(f11 i).2.2.2, midC_ty]; exact hty
    rw [dsC_other _ _ _ (by rw [gradC_ty]; exact hty2), gradC_other _ _ _ hty2, (f11 i).1, (f11 i).2.1, h4.1]
    exact h4.2

/-! ## C10 -/

/-- **C10.**  Over any history (any schedule, also with throwing steps) the type of a particle either stays or becomes
`Disabled`; a disabled particle stays disabled. -/
theorem C10_type_only_changes_to_disabled {P : Params F D ω} {s0 s : State F D ω} {dts : List F}
    (h : Hist P s0 dts s) (i : Nat) (hi : i < s0.n) :
    ((s.ps i).ty = (s0.ps i).ty ∨ (s.ps i).ty = .disabled) ∧
    ((s0.ps i).ty = .disabled → (s.ps i).ty = .disabled) := by
  have key : (s.ps i).ty = (s0.ps i).ty ∨ (s.ps i).ty = .disabled := by
    have := Hist.rec' (Q := fun _ s => s0.n ≤ s.n ∧ ((s.ps i).ty = (s0.ps i).ty ∨ (s.ps i).ty = .disabled))
      ⟨le_refl _, Or.inl rfl⟩ ?_ ?_ h
    · exact this.2
    · rintro dts s src hh ⟨h1, h2⟩
      refine ⟨Nat.le_trans h1 (Nat.le_add_right _ _), ?_⟩
      have : i < s.n := by omega
      simpa [State.addParticles, this] using h2
    · rintro dts s s' sch dt hh ⟨h1, h2⟩ hv hl
      obtain ⟨k1, -, -, -, k5⟩ := step_frame hv hl
      refine ⟨by rw [k1]; exact h1, ?_⟩
      rcases k5 i with k | ⟨-, -, k, -⟩
      · rw [k]; exact h2
      · exact Or.inr k
  refine ⟨key, fun hd => ?_⟩
  rcases key with k | k
  · rw [k, hd]
  · exact k

/-! ## C12 -/

/-- **C12.**  From construction on, after any history of calls `T()` is the sum of the time steps of all `ForwardTime` calls
(accumulated from 0 in call order, in the arithmetic of the program), including those that threw. -/
theorem C12_time_is_sum_of_steps {P : Params F D ω} {args : EnvArgs F D} {cfg : Config} {env : Env F D} {w : ω}
    {s0 s : State F D ω} {dts : List F} (henv : Env.mk? cfg args = some env) (hnew : State.new? env w = some s0)
    (h : Hist P s0 dts s) : s.env.t = dts.foldl (· + ·) 0 := by
  have h0 : s0.env.t = 0 := by
    unfold State.new? at hnew
    split at hnew
    · cases hnew
    · injection hnew with hnew
      rw [← hnew]
      unfold Env.mk? at henv
      split at henv
      · cases henv
      · injection henv with henv; rw [← henv]
  refine Hist.rec' (Q := fun dts s => s.env.t = dts.foldl (· + ·) 0) h0 ?_ ?_ h
  · intro dts s src _ h; exact h
  · intro dts s s' sch dt _ h hv hl
    rw [(step_frame hv hl).2.1, List.foldl_append]
    simp [h]

/-! ## C14 -/

/-- **C14.**  After a successful step the callbacks' state is the result of exactly one call
`positionWallPre(t_new, dt)` and every particle that is not fluid is at `positionWall(i, t_new, dt)` (evaluated
after that call) with velocity (new position − old position)/dt. -/
theorem C14_nonfluid_follows_callback {P : Params F D ω} {s s' : State F D ω} {sch : Schedule} {dt : F}
    (hv : sch.Valid s.n) (h : s.forwardTime P sch dt = .ok s') :
    s'.world = P.walls.pre s.world (s.env.t + dt) dt ∧
    ∀ i, i < s.n → (s'.ps i).ty ≠ .incompressibleNewton →
      (s'.ps i).x = P.walls.pos s'.world i (s.env.t + dt) dt ∧
      (s'.ps i).u = vdiv ((s'.ps i).x - (s.ps i).x) dt := by
  obtain ⟨s1, h1, h2⟩ := forwardTime_ok hv h
  obtain ⟨g0, g, nb, k1, k2, k3, k4, -⟩ := searchNeighbor_ok_frame (s := s.start dt) (hv 0) h1
  obtain ⟨s2, h3, rfl⟩ := afterSearch_ok h2
  obtain ⟨f1, f2, f3, f4, -, -, -, -, f9, -, f11⟩ := pressureC_frame h3
  have hw : (State.dsC P.cfg (s2.gradC P.cfg)).world = P.walls.pre s.world (s.env.t + dt) dt := by
    rw [dsC_world]
    change s2.world = _
    rw [f3, midC_world, k3]; rfl
  refine ⟨hw, fun i hi hty => ?_⟩
  rw [dsC_ty, gradC_ty, (f11 i).2.2.2, midC_ty] at hty
  have h4 := step_nonfluid (P := P) hv h1 i hi hty
  have hty2 : (s2.ps i).ty ≠ .incompressibleNewton := by rw [(f11 i).2.2.2, midC_ty]; exact hty
  rw [hw, dsC_other _ _ _ (by rw [gradC_ty]; exact hty2), gradC_other _ _ _ hty2, (f11 i).1, (f11 i).2.1, h4.1]
  exact ⟨rfl, h4.2⟩

/-! ## C15 -/

/-- **C15.**  With a callback that returns the initial positions (as in the main program), a particle that was added as wall
or dummy is at its initial position after any history of calls, also after throwing ones. -/
theorem C15_static_walls_stay {P : Params F D ω} {s0 s : State F D ω} {dts : List F} (h : Hist P s0 dts s)
    (i : Nat) (hi : i < s0.n) (hty : (s0.ps i).ty ≠ .incompressibleNewton)
    (hcb : ∀ (w : ω) (t dt : F), P.walls.pos w i t dt = (s0.ps i).x) :
    (s.ps i).x = (s0.ps i).x := by
  have := Hist.rec' (Q := fun _ s => s0.n ≤ s.n ∧ (s.ps i).ty ≠ .incompressibleNewton ∧ (s.ps i).x = (s0.ps i).x)
    ⟨le_refl _, hty, rfl⟩ ?_ ?_ h
  · exact this.2.2
  · rintro dts s src hh ⟨h1, h2, h3⟩
    have : i < s.n := by omega
    refine ⟨Nat.le_trans h1 (Nat.le_add_right _ _), ?_, ?_⟩ <;> simpa [State.addParticles, this]
  · rintro dts s s' sch dt hh ⟨h1, h2, h3⟩ hv hl
    have hi' : i < s.n := by omega
    obtain ⟨k1, -, -, -, k5⟩ := step_frame hv hl
    have hty' : (s'.ps i).ty ≠ .incompressibleNewton := by
      rcases k5 i with k | ⟨-, -, k, -⟩
      · rw [k]; exact h2
      · rw [k]; simp
    refine ⟨by rw [k1]; exact h1, hty', ?_⟩
    rcases hl with hl | ⟨e, hl⟩
    · rw [((C14_nonfluid_follows_callback hv hl).2 i hi' hty').1, hcb]
    · rcases forwardTime_exn hv hl with h1 | ⟨s1, h1, h4⟩
      · obtain ⟨g0, g', j, q1, q2, q3, q4, q5⟩ := searchNeighbor_exn_frame h1
        rw [q5, (marked_ps _ _ g' i).1]
        exact h3
      · obtain ⟨-, f1, -⟩ := pressureC_exn_frame (afterSearch_exn h4)
        have hty1 : (s1.ps i).ty ≠ .incompressibleNewton := by
          rw [f1, midC_ty] at hty'; exact hty'
        rw [f1, (step_nonfluid (P := P) hv h1 i hi' hty1).1, hcb]

/-! ## C16 -/

/-- **C16.**  After a successful implicit step no wall or fluid particle has a pressure below zero (in any arithmetic in which
`0 < 0` is false), and dummy and disabled particles keep their pressure. -/
theorem C16_pressure_not_negative {P : Params F D ω} {s s' : State F D ω} {sch : Schedule} {dt : F}
    (h00 : Scalar.lt (0 : F) 0 = false) (hex : P.cfg.explicit = false)
    (hv : sch.Valid s.n) (h : s.forwardTime P sch dt = .ok s') (i : Nat) (hi : i < s.n) :
    ((s'.ps i).ty ≠ .dummy → (s'.ps i).ty ≠ .disabled → Scalar.lt (s'.ps i).p 0 = false) ∧
    ((s'.ps i).ty = .dummy ∨ (s'.ps i).ty = .disabled → (s'.ps i).p = (s.ps i).p) := by
  obtain ⟨s1, h1, h2⟩ := forwardTime_ok hv h
  obtain ⟨g0, g, nb, k1, k2, k3, k4, -⟩ := searchNeighbor_ok_frame (s := s.start dt) (hv 0) h1
  obtain ⟨s2, h3, rfl⟩ := afterSearch_ok h2
  obtain ⟨f1, -, -, -, -, -, -, -, -, -, f11⟩ := pressureC_frame h3
  rcases pressureC_ok h3 with ⟨he, -⟩ | ⟨-, s3, h5, h6⟩
  · rw [hex] at he; cases he
  have hs3 := (solvePpe_ok h5).1
  have hps3 : ∀ i, s3.ps i = (s1.midC P).ps i := by intro i; rw [hs3]; rfl
  have hn3 : i < s3.n := by
    rw [hs3]
    change i < (s1.midC P).n
    rw [midC_n, k3]; exact hi
  have hp : (s2.ps i).p = (State.presCompute P.cfg s3 i).getD (s3.ps i).p := by
    rw [h6]; simp [State.presC, hn3]
  have hty2 : (s2.ps i).ty = (s3.ps i).ty := by rw [(f11 i).2.2.2, hps3]
  rw [dsC_ty, gradC_ty, dsC_p, gradC_p, hp, hty2]
  unfold State.presCompute
  constructor
  · intro hd1 hd2
    have ha : (s3.ps i).ty.active = true := by simp [PType.active, hd1, hd2]
    rw [if_pos ha]
    simp only [Option.getD_some]
    split
    · exact h00
    · rename_i hc
      simp only [Bool.or_eq_true, not_or, Bool.not_eq_true] at hc
      exact hc.1
  · intro hd
    have ha : (s3.ps i).ty.active = false := by
      rcases hd with hd | hd <;> simp [PType.active, hd]
    rw [ha]
    simp only [Bool.false_eq_true, if_false, Option.getD_none]
    rw [hps3, midC_p, k3]
    exact (marked_ps _ _ g i).2.2.1

/-! ## C18 -/

/-- **C18.**  The outcome and the observable result of `ForwardTime(dt)` depend only on the observable state: two computers
with the same particles, environment and callback state, and grids of the same shape, give the same outcome whatever
their buffers (grid contents, neighbour table, accelerations, ECS terms, saved positions, linear system)
contain and however the loops are scheduled. -/
theorem C18_depends_only_on_visible_state {P : Params F D ω} {s t : State F D ω} {sch sch' : Schedule} {dt : F}
    (hvis : SameVisible s t) (hshape : SameShape s.grid t.grid) (hok : s.grid.ClearOK)
    (hs : s.ub = false) (ht : t.ub = false) (hv : sch.Valid s.n) (hv' : sch'.Valid t.n) :
    SameOutcome (s.forwardTime P sch dt) (t.forwardTime P sch' dt) := by
  have hsim : Sim (fun _ => True) s t := by
    refine ⟨hvis.n, hvis.env, hvis.world, ⟨hshape.1, hshape.2.1, hshape.2.2.1, hshape.2.2.2⟩, hs, ht, ?_, ?_, ?_⟩
    · intro i hi; rw [hvis.ps hi]
    · intro i hi _; exact hvis.ps hi
    · intros; trivial
  have hfin : ∀ a b : State F D ω, Sim (fun _ => True) a b → SameVisible a b := by
    intro a b hab
    refine ⟨?_, hab.env, hab.world⟩
    unfold State.particles
    rw [hab.n]
    apply List.map_congr_left
    intro i hi
    exact hab.ps i (by simpa using hi) trivial
  have := forwardTime_sim (P := P) hsim dt hv (by rw [← hvis.n]; exact hv') hok
  generalize s.forwardTime P sch dt = r at this
  generalize t.forwardTime P sch' dt = r' at this
  cases this with
  | ok h => exact .ok (hfin _ _ h)
  | exn h => exact .exn (hfin _ _ h)
  | ub => exact .ub

/-! ## C19 -/

/-- **C19.**  For every interleaving of the iterations of the parallel loops, a step ends with exactly the same outcome and
the same complete state (bit for bit) as the serial execution. -/
theorem C19_schedule_independent (P : Params F D ω) (s : State F D ω) (sch : Schedule) (dt : F)
    (hv : sch.Valid s.n) :
    s.forwardTime P sch dt = s.forwardTime P (Schedule.serial s.n) dt := by
  rw [forwardTime_eq P sch dt s hv, forwardTime_eq P _ dt s (Schedule.serial_valid s.n),
    searchNeighbor_sched (s.start dt) (sch 0) (Schedule.serial s.n 0) (hv 0) (validSched_serial s.n)]

/-! ## C20 -/

/-- **C20.**  For a given `dt`, the outcome of `ForwardTime(dt)` and all particles that were enabled before the step do not
depend on position, velocity, pressure and density of disabled particles. -/
theorem C20_disabled_particles_inert {P : Params F D ω} {s t : State F D ω} {sch sch' : Schedule} {dt : F}
    (hn : t.n = s.n) (henv : t.env = s.env) (hw : t.world = s.world) (hshape : SameShape s.grid t.grid)
    (hok : s.grid.ClearOK) (hs : s.ub = false) (ht : t.ub = false)
    (hty : ∀ i, i < s.n → (t.ps i).ty = (s.ps i).ty)
    (heq : ∀ i, i < s.n → (s.ps i).ty ≠ .disabled → t.ps i = s.ps i)
    (hv : sch.Valid s.n) (hv' : sch'.Valid t.n) :
    (∃ s' t', s.forwardTime P sch dt = .ok s' ∧ t.forwardTime P sch' dt = .ok t' ∧ t'.env = s'.env ∧
        t'.world = s'.world ∧ ∀ i, i < s.n → (s.ps i).ty ≠ .disabled → t'.ps i = s'.ps i) ∨
    (∃ e s' t', s.forwardTime P sch dt = .exn e s' ∧ t.forwardTime P sch' dt = .exn e t' ∧ t'.env = s'.env ∧
        t'.world = s'.world ∧ ∀ i, i < s.n → (s.ps i).ty ≠ .disabled → t'.ps i = s'.ps i) ∨
    (s.forwardTime P sch dt = .ub ∧ t.forwardTime P sch' dt = .ub) := by
  have hsim : Sim (fun i => (s.ps i).ty ≠ .disabled) s t :=
    ⟨hn, henv, hw, ⟨hshape.1, hshape.2.1, hshape.2.2.1, hshape.2.2.2⟩, hs, ht, hty,
      fun i hi hK => heq i hi hK, fun i _ hK => hK⟩
  have h := forwardTime_sim (P := P) hsim dt hv (by rw [← hn]; exact hv') hok
  have hfr : ∀ s', (s.forwardTime P sch dt).leaves s' → s'.n = s.n := fun s' hl => (step_frame hv hl).1
  generalize s.forwardTime P sch dt = r at h hfr
  generalize t.forwardTime P sch' dt = r' at h
  cases h with
  | @ok a b h =>
    refine Or.inl ⟨a, b, rfl, rfl, h.env, h.world, fun i hi hd => h.ps i ?_ hd⟩
    rw [hfr a (Or.inl rfl)]; exact hi
  | @exn e a b h =>
    refine Or.inr (Or.inl ⟨e, a, b, rfl, rfl, h.env, h.world, fun i hi hd => h.ps i ?_ hd⟩)
    rw [hfr a (Or.inr ⟨e, rfl⟩)]; exact hi
  | ub => exact Or.inr (Or.inr ⟨rfl, rfl⟩)

/-! ## C40 -/

/-- **C40.**  When `ForwardTime(dt)` throws, no particle is lost, types only changed to `Disabled` and the time has advanced;
if it threw because of an overfull block, positions, velocities, pressures and densities are unchanged. -/
theorem C40_failed_step_keeps_population {P : Params F D ω} {s s' : State F D ω} {sch : Schedule} {dt : F} {e : Exn}
    (hv : sch.Valid s.n) (h : s.forwardTime P sch dt = .exn e s') :
    s'.n = s.n ∧ s'.env.t = s.env.t + dt ∧
    (∀ i, (s'.ps i).ty = (s.ps i).ty ∨ (s'.ps i).ty = .disabled) ∧
    (e = .gridFull → ∀ i, (s'.ps i).x = (s.ps i).x ∧ (s'.ps i).u = (s.ps i).u ∧ (s'.ps i).p = (s.ps i).p ∧
      (s'.ps i).n = (s.ps i).n) := by
  obtain ⟨k1, k2, -, -, k5⟩ := step_frame hv (Or.inr ⟨e, h⟩)
  refine ⟨k1, by rw [k2], fun i => ?_, fun he i => ?_⟩
  · rcases k5 i with k | ⟨-, -, k, -⟩
    · exact Or.inl k
    · exact Or.inr k
  · rcases forwardTime_exn hv h with h1 | ⟨s1, h1, h4⟩
    · obtain ⟨g0, g', j, q1, q2, q3, q4, q5⟩ := searchNeighbor_exn_frame h1
      rw [q5]
      obtain ⟨a, b, c, d, -⟩ := marked_ps ({ s.start dt with grid := g0 } : State F D ω) (List.range j) g' i
      exact ⟨a, b, c, d⟩
    · obtain ⟨f0, -⟩ := pressureC_exn_frame (afterSearch_exn h4)
      rw [f0] at he; cases he

/-- **C40.**  A step taken after any history (in particular after throwing steps) has the same outcome as the same step of a
newly constructed computer to which the current particles are added (with the same time and callback state). -/
theorem C40_step_after_failure_like_fresh {P : Params F D ω} {env : Env F D} {w : ω} {s0 s fresh : State F D ω}
    {dts : List F} (hnew : State.new? env w = some s0) (hist : Hist P s0 dts s) (hok : s0.grid.ClearOK)
    (hfresh : State.new? s.env s.world = some fresh)
    (sch sch' : Schedule) (dt : F) (hv : sch.Valid s.n) (hv' : sch'.Valid s.n) :
    SameOutcome (s.forwardTime P sch dt) ((fresh.addParticles s.particles).forwardTime P sch' dt) := by
  obtain ⟨h1, h2, h3⟩ := hist.frame
  have hne : ∀ {e : Env F D} {w : ω} {n : State F D ω}, State.new? e w = some n →
      n.n = 0 ∧ n.ub = false ∧ n.env = e ∧ n.world = w ∧
      Grid.mk? e.neighborLength e.l0 e.minX e.maxX = some n.grid := by
    intro e w n hh
    unfold State.new? at hh
    split at hh
    · cases hh
    · rename_i g hg
      injection hh with hh
      subst hh
      exact ⟨rfl, rfl, rfl, rfl, hg⟩
  obtain ⟨a1, a2, a3, a4, a5⟩ := hne hnew
  obtain ⟨b1, b2, b3, b4, b5⟩ := hne hfresh
  have henv : s.env.neighborLength = env.neighborLength ∧ s.env.l0 = env.l0 ∧ s.env.minX = env.minX ∧
      s.env.maxX = env.maxX := by
    refine Hist.rec' (Q := fun _ s => s.env.neighborLength = env.neighborLength ∧ s.env.l0 = env.l0 ∧
      s.env.minX = env.minX ∧ s.env.maxX = env.maxX) (by rw [a3]; exact ⟨rfl, rfl, rfl, rfl⟩) ?_ ?_ hist
    · intro _ _ _ _ h; exact h
    · intro _ _ _ _ _ _ h hv hl
      rw [(step_frame hv hl).2.1]; exact h
  have hgrid : fresh.grid = s0.grid := by
    rw [henv.1, henv.2.1, henv.2.2.1, henv.2.2.2, a5] at b5
    injection b5 with b5; exact b5.symm
  have hparts : (fresh.addParticles s.particles).particles = s.particles := by
    rw [C09_add_appends]
    simp [State.particles, b1]
  have hvis : SameVisible s (fresh.addParticles s.particles) := ⟨hparts, b3, b4⟩
  refine C18_depends_only_on_visible_state hvis ?_ (h2.clearOK.mpr hok) (by rw [h3]; exact a2) b2 hv
    (by rw [hvis.n]; exact hv')
  have : SameGeom s.grid fresh.grid := by rw [hgrid]; exact h2.symm
  exact ⟨this.bl, this.origin, this.size, this.cap⟩

/-! ## Non-vacuity

Integer arithmetic, evaluated by the kernel.  `toyState` has two fluid particles, a wall particle and a fluid particle
outside the box. -/

section
attribute [local instance] instScalarInt

/-- A schedule that is not serial: all reads first, commits in reverse order. -/
def reversed (n : Nat) : List Ev := (List.range n).map .rd ++ (List.range n).reverse.map .wr

theorem reversed_valid : ValidSched 4 (reversed 4) := by
  refine ⟨by decide, ?_⟩
  decide

/-- A successful step (C09, C14, C16, C19): the outside particle is disabled, particle 2 keeps pressure 5, the wall is
at the position given by the callback, the callback state was advanced once; it runs under a non-serial schedule. -/
example : ∃ s', toyState.forwardTime (toyP 0) (fun _ => reversed 4) 1 = .ok s' ∧
    Schedule.Valid toyState.n (fun _ => reversed 4) ∧ Scalar.lt (0 : Int) 0 = false ∧
    (toyState.ps 3).ty = .incompressibleNewton ∧ (s'.ps 3).ty = .disabled ∧ (s'.ps 3).u = ![-18, 1] ∧
    (s'.ps 2).p = 5 ∧ (s'.ps 0).u = ![-4, 3] ∧ (s'.ps 1).x = ![2, 9] ∧ (s'.ps 1).ty = .wall ∧ s'.world = 1 ∧ s'.env.t = 1 := by
  obtain ⟨s', h1, h2⟩ := Res.check_ok (r := toyState.forwardTime (toyP 0) (fun _ => reversed 4) 1)
    (f := fun s' => decide ((s'.ps 3).ty = .disabled ∧ (s'.ps 3).u = ![-18, 1] ∧ (s'.ps 2).p = 5 ∧ (s'.ps 0).u = ![-4, 3] ∧
      (s'.ps 1).x = ![2, 9] ∧ (s'.ps 1).ty = .wall ∧ s'.world = 1 ∧ s'.env.t = 1)) (by decide +kernel)
  exact ⟨s', h1, fun _ => reversed_valid, by decide, by decide, of_decide_eq_true h2⟩

/-- A failing solver (C10, C12, C40) ... -/
example : ∃ s', toyState.forwardTime (toyP 1) (Schedule.serial 4) 1 = .exn .solver s' ∧ (s'.ps 3).ty = .disabled ∧
    s'.env.t = 1 := by
  obtain ⟨e, s', h1, h2⟩ := Res.check_exn (r := toyState.forwardTime (toyP 1) (Schedule.serial 4) 1)
    (f := fun e s' => decide (e = .solver ∧ (s'.ps 3).ty = .disabled ∧ s'.env.t = 1)) (by decide +kernel)
  obtain ⟨rfl, h3, h4⟩ := of_decide_eq_true h2
  exact ⟨s', h1, h3, h4⟩

/-- ... and an overfull block (C40). -/
example : ∃ s', toyFull.forwardTime (toyP 1) (Schedule.serial 26) 1 = .exn .gridFull s' := by
  obtain ⟨e, s', h1, h2⟩ := Res.check_exn (r := toyFull.forwardTime (toyP 1) (Schedule.serial 26) 1)
    (f := fun e s' => decide (e = .gridFull)) (by decide +kernel)
  have h3 : e = .gridFull := of_decide_eq_true h2
  subst h3
  exact ⟨s', h1⟩

/-- A history from construction on with two steps, one of which throws (hypotheses of C08, C10, C12, C15, C40). -/
example : ∃ s, State.new? toyEnv 0 = some toyNew ∧ toyNew.grid.ClearOK ∧ Hist (toyP 1) toyNew [1, 0] s ∧
    (∀ i, i < s.n → (s.ps i).ty ≠ .disabled → s.grid.block? (s.ps i).x ≠ none) := by
  obtain ⟨e, s1, h1, -⟩ := Res.check_exn (r := toyState.forwardTime (toyP 1) (Schedule.serial 4) 1)
    (f := fun e s' => decide (e = .solver)) (by decide +kernel)
  have hist1 : Hist (toyP 1) toyNew [1] s1 :=
    .forward (Schedule.serial 4) 1 (.add toyParticles .start) (Schedule.serial_valid 4) (Or.inr ⟨e, h1⟩)
  have hn : s1.n = 4 := (step_frame (Schedule.serial_valid 4) (Or.inr ⟨e, h1⟩)).1
  have hclear : s1.grid.ClearOK := fun h => absurd h (by decide)
  have hblk : ∀ (g : Grid Int 2) x, g.block? x ≠ none := by
    intro g x
    unfold Grid.block? allSome
    simp [Scalar.floorIdx]
  have hne := C08_no_undefined_behaviour (P := toyP 1) toyNew_eq hist1 (fun h => absurd h (by decide))
    (fun i _ _ => hblk _ _) (Schedule.serial 4) (by rw [hn]; exact Schedule.serial_valid 4) 0
  have : ∃ s2, (s1.forwardTime (toyP 1) (Schedule.serial 4) 0).leaves s2 := by
    cases h2 : s1.forwardTime (toyP 1) (Schedule.serial 4) 0 with
    | ok s2 => exact ⟨s2, Or.inl rfl⟩
    | exn e s2 => exact ⟨s2, Or.inr ⟨e, rfl⟩⟩
    | ub => exact absurd h2 hne
  obtain ⟨s2, h2⟩ := this
  exact ⟨s2, toyNew_eq, fun h => absurd h (by decide),
    .forward (Schedule.serial 4) 0 hist1 (by rw [hn]; exact Schedule.serial_valid 4) h2, fun i _ _ => hblk _ _⟩

/-- The callback of `toyP` returns the initial position of the wall particle 1 (C15). -/
example : (toyState.ps 1).ty ≠ .incompressibleNewton ∧
    ∀ (w : Nat) (t dt : Int), (toyP 0).walls.pos w 1 t dt = (toyState.ps 1).x := ⟨by decide, fun _ _ _ => rfl⟩

/-- Two computers with the same particles and different buffers (C18). -/
example : SameVisible toyState { toyState with du := fun _ => ![7, 7], nbr := fun _ _ => 3 } := ⟨rfl, rfl, rfl⟩

/-- Two computers that differ in a disabled particle (C20). -/
example : ∃ s t : State Int 2 Nat, t.n = s.n ∧ (∀ i, i < s.n → (t.ps i).ty = (s.ps i).ty) ∧
    (∀ i, i < s.n → (s.ps i).ty ≠ .disabled → t.ps i = s.ps i) ∧ t.ps 0 ≠ s.ps 0 ∧ (s.ps 1).ty = .wall := by
  refine ⟨{ toyState with ps := upd toyState.ps 0 (Particle.new .disabled) },
    { toyState with ps := upd toyState.ps 0 { (Particle.new .disabled : Particle Int 2) with p := 1 } }, rfl, ?_, ?_, ?_, ?_⟩
  · intro i _
    by_cases h : i = 0
    · subst h; rfl
    · simp [upd, h]
  · intro i _ hd
    by_cases h : i = 0
    · subst h; exact absurd rfl hd
    · simp [upd, h]
  · intro h
    have := congrArg Particle.p h
    revert this
    decide
  · decide

end

end OpenMps
