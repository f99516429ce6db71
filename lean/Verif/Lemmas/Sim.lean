import Verif.Lemmas.Frame
import Verif.Lemmas.GridEquiv

set_option linter.unusedSectionVars false

/-! A step started in two states that agree on the particles in `K` (which contains all enabled particles) ends
in states that agree on `K`, whatever the buffers contain. -/

namespace OpenMps

variable {F : Type} [Scalar F] {D : Nat} {ω : Type}

/-- Agreement of the visible parts, for the particles in `K`. -/
structure Sim (K : Nat → Prop) (s t : State F D ω) : Prop where
  n : t.n = s.n
  env : t.env = s.env
  world : t.world = s.world
  geom : SameGeom s.grid t.grid
  ubs : s.ub = false
  ubt : t.ub = false
  ty : ∀ i, i < s.n → (t.ps i).ty = (s.ps i).ty
  ps : ∀ i, i < s.n → K i → t.ps i = s.ps i
  en : ∀ i, i < s.n → (s.ps i).ty ≠ .disabled → K i

/-- Corresponding outcomes. -/
inductive ResSim (R Q : State F D ω → State F D ω → Prop) : Res (State F D ω) → Res (State F D ω) → Prop
  | ok {s t} : R s t → ResSim R Q (.ok s) (.ok t)
  | exn {e s t} : Q s t → ResSim R Q (.exn e s) (.exn e t)
  | ub : ResSim R Q .ub .ub

theorem ResSim.andThen {R R' Q : State F D ω → State F D ω → Prop} {r r' : Res (State F D ω)}
    {f g : State F D ω → Res (State F D ω)} (h : ResSim R Q r r')
    (hf : ∀ s t, R s t → ResSim R' Q (f s) (g t)) : ResSim R' Q (r.andThen f) (r'.andThen g) := by
  cases h with
  | ok h => exact hf _ _ h
  | exn h => exact .exn h
  | ub => exact .ub

variable {K : Nat → Prop}

/-! ### Search -/

theorem storeOne_sim {s t : State F D ω} (h : Sim K s t) (hg : GridEquiv s.grid t.grid) {i : Nat} (hi : i < s.n) :
    ResSim (fun s t => Sim K s t ∧ GridEquiv s.grid t.grid) (Sim K) (s.storeOne i) (t.storeOne i) := by
  unfold State.storeOne
  rw [h.ty i hi]
  by_cases hd : (s.ps i).ty = .disabled
  · rw [if_pos hd, if_pos hd]; exact .ok ⟨h, hg⟩
  · rw [if_neg hd, if_neg hd, h.ps i hi (h.en i hi hd)]
    have hst := store_equiv hg (s.ps i).x i
    have hstore : ∀ r, s.grid.store (s.ps i).x i = r → ∀ r', t.grid.store (s.ps i).x i = r' → StoreEquiv r r' := by
      intro r hr r' hr'; rw [← hr, ← hr']; exact hst
    cases hr : s.grid.store (s.ps i).x i with
    | ub =>
      cases hr' : t.grid.store (s.ps i).x i with
      | ub => exact .ub
      | _ => cases hstore _ hr _ hr'
    | outside g =>
      cases hr' : t.grid.store (s.ps i).x i with
      | outside g' =>
        have hgg : GridEquiv g g' := by cases hstore _ hr _ hr'; assumption
        refine .ok ⟨⟨h.n, h.env, h.world, hgg.geom, h.ubs, h.ubt, ?_, ?_, ?_⟩, hgg⟩
        · intro k hk
          by_cases hki : k = i
          · subst hki; simp [Particle.disable]
          · simp [upd, hki, h.ty k hk]
        · intro k hk hK
          by_cases hki : k = i
          · subst hki; simp
          · simp [upd, hki, h.ps k hk hK]
        · intro k hk hd'
          by_cases hki : k = i
          · subst hki; exact h.en k hk hd
          · simp only [upd, hki, if_false] at hd'
            exact h.en k hk hd'
      | _ => cases hstore _ hr _ hr'
    | full g =>
      cases hr' : t.grid.store (s.ps i).x i with
      | full g' =>
        obtain ⟨a, -⟩ := store_full hr
        obtain ⟨b, -⟩ := store_full hr'
        exact .exn ⟨h.n, h.env, h.world, a.symm.trans (hg.geom.trans b), h.ubs, h.ubt, h.ty, h.ps, h.en⟩
      | _ => cases hstore _ hr _ hr'
    | stored g =>
      cases hr' : t.grid.store (s.ps i).x i with
      | stored g' =>
        have hgg : GridEquiv g g' := by cases hstore _ hr _ hr'; assumption
        exact .ok ⟨⟨h.n, h.env, h.world, hgg.geom, h.ubs, h.ubt, h.ty, h.ps, h.en⟩, hgg⟩
      | _ => cases hstore _ hr _ hr'

theorem storeAll_sim (is : List Nat) : ∀ {s t : State F D ω}, Sim K s t → GridEquiv s.grid t.grid →
    (∀ i ∈ is, i < s.n) →
    ResSim (fun s t => Sim K s t ∧ GridEquiv s.grid t.grid) (Sim K) (State.storeAll is s) (State.storeAll is t) := by
  induction is with
  | nil => intro s t h hg _; exact .ok ⟨h, hg⟩
  | cons i is ih =>
    intro s t h hg hi
    unfold State.storeAll
    have h1 := storeOne_sim h hg (hi i (by simp))
    cases hs : s.storeOne i with
    | ok s1 =>
      have hn := storeOne_n s i s1 (Or.inl hs)
      rw [hs] at h1
      cases ht : t.storeOne i with
      | ok t1 =>
        rw [ht] at h1
        cases h1 with
        | ok h1 =>
          simp only [Res.andThen, Res.bind]
          exact ih h1.1 h1.2 (fun k hk => by rw [hn]; exact hi k (by simp [hk]))
      | exn e t1 => rw [ht] at h1; cases h1
      | ub => rw [ht] at h1; cases h1
    | exn e s1 =>
      rw [hs] at h1
      cases ht : t.storeOne i with
      | exn e' t1 =>
        rw [ht] at h1
        cases h1 with
        | exn h1 => exact .exn h1
      | ok t1 => rw [ht] at h1; cases h1
      | ub => rw [ht] at h1; cases h1
    | ub =>
      rw [hs] at h1
      cases ht : t.storeOne i with
      | ub => exact .ub
      | ok t1 => rw [ht] at h1; cases h1
      | exn e t1 => rw [ht] at h1; cases h1

/-- Agreement of the neighbour lists of enabled particles. -/
structure NbSim (s t : State F D ω) : Prop where
  eq : ∀ i, i < s.n → (s.ps i).ty ≠ .disabled → t.neighbors i = s.neighbors i
  lt : ∀ i, i < s.n → (s.ps i).ty ≠ .disabled → ∀ j ∈ s.neighbors i, j < s.n ∧ (s.ps j).ty ≠ .disabled

theorem nbrList_mem {m : State F D ω} {i j : Nat} (h : j ∈ m.nbrList i) :
    j < m.n ∧ (m.ps j).ty ≠ .disabled ∧ j ≠ i ∧
      Scalar.lt (dist (m.ps i).x (m.ps j).x) m.env.neighborLength = true := by
  unfold State.nbrList at h
  split at h
  · cases h
  · simp only [List.mem_flatMap, List.mem_filter, List.mem_range, Bool.and_eq_true, decide_eq_true_eq] at h
    obtain ⟨o, -, h1, ⟨⟨h2, -⟩, h3⟩, h4⟩ := h
    exact ⟨h1, h2, h3, h4⟩

theorem nbrList_sim {s t : State F D ω} (h : Sim K s t) {i : Nat} (hi : i < s.n) (hd : (s.ps i).ty ≠ .disabled) :
    t.nbrList i = s.nbrList i := by
  unfold State.nbrList
  rw [h.geom.block, h.ps i hi (h.en i hi hd), h.n, h.env]
  split
  · rfl
  · apply List.flatMap_congr
    intro o _
    apply List.filter_congr
    intro j hj
    have hj : j < s.n := by simpa using hj
    rw [h.ty j hj]
    by_cases hjd : (s.ps j).ty = .disabled
    · simp [hjd]
    · rw [h.ps j hj (h.en j hj hjd), h.geom.block]

theorem withRows_sim {s t : State F D ω} (h : Sim K s t) :
    Sim K s.withRows t.withRows ∧ NbSim s.withRows t.withRows := by
  refine ⟨⟨h.n, h.env, h.world, h.geom, h.ubs, h.ubt, h.ty, h.ps, h.en⟩, ⟨?_, ?_⟩⟩
  · intro i hi hd
    have hi' : i < s.n := hi
    rw [neighbors_withRows s i hi' hd, neighbors_withRows t i (by rw [h.n]; exact hi') (by rw [h.ty i hi']; exact hd)]
    exact nbrList_sim h hi' hd
  · intro i hi hd j hj
    rw [neighbors_withRows s i hi hd] at hj
    obtain ⟨h1, h2, -⟩ := nbrList_mem hj
    exact ⟨h1, h2⟩

/-- After a successful search the state is one with the specified rows. -/
theorem searchNeighbor_ok_rows {s s' : State F D ω} {sch : List Ev} (hv : ValidSched s.n sch)
    (hok : s.grid.ClearOK) (hub : s.ub = false) (h : s.searchNeighbor sch = .ok s') :
    ∃ m g, State.storeAll (List.range s.n) { s with grid := s.grid.cleared } = .ok m ∧
      m = State.marked ({ s with grid := s.grid.cleared }) (List.range s.n) g ∧ SameGeom s.grid g ∧ s' = m.withRows := by
  rcases searchNeighbor_spec s sch hv hok hub with ⟨g, h1, h2, h3⟩ | ⟨j, g, g', h1, h2, h3, h4, h5, h6⟩ | ⟨j, h1, h2, h3, h4⟩
  · rw [h] at h3
    injection h3 with h3
    refine ⟨_, g, ?_, rfl, (marked_facts s g h1 h2).1, h3⟩
    rcases storeAll_spec (List.range s.n) ({ s with grid := s.grid.cleared } : State F D ω) List.nodup_range with
      ⟨g1, k1, k2, k3⟩ | ⟨is', j, is'', g1, k1, k2, k3, k4, ⟨g', k5, k6⟩ | ⟨k5, k6⟩⟩
    · rw [k3]
      have : g1 = g := by
        have := h1.symm.trans k1
        injection this with this; exact this.symm
      rw [this]
    · exfalso
      unfold State.searchNeighbor at h
      rw [clear_eq hok] at h
      simp only at h
      rw [Grid.cleared] at k6
      rw [k6] at h
      cases h
    · exfalso
      unfold State.searchNeighbor at h
      rw [clear_eq hok] at h
      simp only at h
      rw [Grid.cleared] at k6
      rw [k6] at h
      cases h
  · rw [h] at h6; cases h6
  · rw [h] at h4; cases h4

theorem search_eq_storeAll {s : State F D ω} {sch : List Ev} (hv : ValidSched s.n sch)
    (hok : s.grid.ClearOK) (hub : s.ub = false) :
    s.searchNeighbor sch =
      (State.storeAll (List.range s.n) { s with grid := s.grid.cleared }).andThen (fun m => .ok m.withRows) := by
  cases h : s.searchNeighbor sch with
  | ok s' =>
    obtain ⟨m, g, h1, -, -, h2⟩ := searchNeighbor_ok_rows hv hok hub h
    rw [h1, h2]; rfl
  | exn e s' =>
    unfold State.searchNeighbor at h
    rw [clear_eq hok] at h
    simp only at h
    rw [Grid.cleared]
    cases hs : State.storeAll (List.range s.n)
      ({ s with grid := { s.grid with count := fun b => if s.grid.inRange b then 0 else s.grid.count b } } : State F D ω) with
    | ok m =>
      rw [hs] at h
      simp only [Res.andThen, Res.bind] at h
      split at h <;> cases h
    | exn e' m => rw [hs] at h; exact h.symm
    | ub => rw [hs] at h; cases h
  | ub =>
    rcases searchNeighbor_spec s sch hv hok hub with ⟨g, h1, h2, h3⟩ | ⟨j, g, g', h1, h2, h3, h4, h5, h6⟩ | ⟨j, h1, h2, h3, h4⟩
    · rw [h] at h3; cases h3
    · rw [h] at h6; cases h6
    · unfold State.searchNeighbor at h
      rw [clear_eq hok] at h
      simp only at h
      rw [Grid.cleared]
      cases hs : State.storeAll (List.range s.n)
        ({ s with grid := { s.grid with count := fun b => if s.grid.inRange b then 0 else s.grid.count b } } : State F D ω) with
      | ok m =>
        exfalso
        rcases storeAll_spec (List.range s.n) ({ s with grid := s.grid.cleared } : State F D ω) List.nodup_range with
          ⟨g1, k1, k2, k3⟩ | ⟨is', j', is'', g1, k1, k2, k3, k4, ⟨g', k5, k6⟩ | ⟨k5, k6⟩⟩
        · have := k2 j (by simpa using h1) h2
          rw [(cleared_geom s.grid).block] at this
          exact this h3
        · rw [Grid.cleared, hs] at k6; cases k6
        · rw [Grid.cleared, hs] at k6; cases k6
      | exn e' m => rw [hs] at h; cases h
      | ub => rfl

theorem search_sim {s t : State F D ω} (h : Sim K s t) {sch sch' : List Ev} (hv : ValidSched s.n sch)
    (hv' : ValidSched s.n sch') (hok : s.grid.ClearOK) :
    ResSim (fun s t => Sim K s t ∧ NbSim s t) (Sim K) (s.searchNeighbor sch) (t.searchNeighbor sch') := by
  rw [search_eq_storeAll hv hok h.ubs,
    search_eq_storeAll (s := t) (by rw [h.n]; exact hv') (h.geom.clearOK.mpr hok) h.ubt,
    show List.range t.n = List.range s.n from by rw [h.n]]
  have hgc : GridEquiv s.grid.cleared t.grid.cleared := by
    have hgeom := ((cleared_geom s.grid).symm.trans h.geom).trans (cleared_geom t.grid)
    refine ⟨hgeom, fun c hc => ?_⟩
    have hc' : s.grid.inRange c = true := hc
    rw [cleared_contents hc', cleared_contents (by rw [h.geom.inRange]; exact hc')]
  have hsim : Sim K ({ s with grid := s.grid.cleared } : State F D ω) ({ t with grid := t.grid.cleared }) :=
    ⟨h.n, h.env, h.world, hgc.geom, h.ubs, h.ubt, h.ty, h.ps, h.en⟩
  refine (storeAll_sim (List.range s.n) hsim hgc (fun i hi => by simpa using hi)).andThen ?_
  intro a b hab
  exact .ok (withRows_sim hab.1)

/-! ### Interaction sums -/

theorem accumulate_congr' {A : Type} [Add A] (cfg : Config) (s t : State F D ω) (i : Nat) (zero : A)
    (f f' : Int → Particle F D → A) (henv : t.env = s.env) (hnb : t.neighbors i = s.neighbors i)
    (hxi : (t.ps i).x = (s.ps i).x) (hui : (t.ps i).u = (s.ps i).u)
    (hx : ∀ j ∈ s.neighbors i, (t.ps j).x = (s.ps j).x)
    (hN : cfg.spp = true → t.nNoSpp i = s.nNoSpp i)
    (hf : ∀ j ∈ s.neighbors i, f' (j : Int) (t.ps j) = f (j : Int) (s.ps j))
    (hspp : cfg.spp = true → ∀ q : Particle F D, f' (-1) q = f (-1) q) :
    t.accumulate cfg i zero f' = s.accumulate cfg i zero f := by
  have hl : t.accLoop i zero f' = s.accLoop i zero f := by
    unfold State.accLoop
    simp only [henv, hnb, hxi]
    refine List.foldl_ext _ _ _ ?_
    intro acc j hj
    rw [hx j hj, hf j hj]
  unfold State.accumulate
  rw [hl]
  cases hc : cfg.spp with
  | false => rfl
  | true =>
    have hs : t.sppParticle i (s.accLoop i zero f).2 = s.sppParticle i (s.accLoop i zero f).2 := by
      unfold State.sppParticle
      simp only [henv, hxi, hui, hN hc]
    simp only [hs, hspp hc, if_true]

/-! ### Phases -/

variable {cfg : Config}

/-- Agreement of the density buffer (only used with SPP). -/
def NSim (cfg : Config) (s t : State F D ω) : Prop := cfg.spp = true → ∀ i, i < s.n → t.nNoSpp i = s.nNoSpp i

theorem densCompute_sim {s t : State F D ω} (h : Sim K s t) (nb : NbSim s t) {i : Nat} (hi : i < s.n) (hK : K i) :
    t.densCompute cfg i = s.densCompute cfg i := by
  have he0 : t.env.n0 = s.env.n0 := by rw [h.env]
  have he1 : t.env.re = s.env.re := by rw [h.env]
  unfold State.densCompute
  rw [h.ps i hi hK, he0, he1]
  simp only
  by_cases ha : (s.ps i).ty.active = true
  · rw [if_pos ha, if_pos ha]
    have hd : (s.ps i).ty ≠ .disabled := by
      intro hh; rw [hh] at ha; simp [PType.active] at ha
    have hacc : (if cfg.spp = true then ({ t with nNoSpp := upd t.nNoSpp i s.env.n0 } : State F D ω) else t).accumulate cfg i (0 : F)
          (fun j q' => if (cfg.spp && decide (j < 0)) = true then 0 else W (dist (s.ps i).x q'.x) s.env.re)
        = (if cfg.spp = true then ({ s with nNoSpp := upd s.nNoSpp i s.env.n0 } : State F D ω) else s).accumulate cfg i (0 : F)
          (fun j q' => if (cfg.spp && decide (j < 0)) = true then 0 else W (dist (s.ps i).x q'.x) s.env.re) := by
      cases hc : cfg.spp with
      | true =>
        simp only [if_true]
        apply accumulate_congr'
        · exact h.env
        · exact nb.eq i hi hd
        · exact congrArg _ (h.ps i hi hK)
        · exact congrArg _ (h.ps i hi hK)
        · intro j hj
          obtain ⟨hj1, hj2⟩ := nb.lt i hi hd j hj
          exact congrArg _ (h.ps j hj1 (h.en j hj1 hj2))
        · intro _; simp
        · intro j hj
          obtain ⟨hj1, hj2⟩ := nb.lt i hi hd j hj
          simp only [h.ps j hj1 (h.en j hj1 hj2)]
        · intro _ q; rfl
      | false =>
        simp only [Bool.false_eq_true, if_false]
        apply accumulate_congr'
        · exact h.env
        · exact nb.eq i hi hd
        · exact congrArg _ (h.ps i hi hK)
        · exact congrArg _ (h.ps i hi hK)
        · intro j hj
          obtain ⟨hj1, hj2⟩ := nb.lt i hi hd j hj
          exact congrArg _ (h.ps j hj1 (h.en j hj1 hj2))
        · intro hc'; rw [hc] at hc'; cases hc'
        · intro j hj
          obtain ⟨hj1, hj2⟩ := nb.lt i hi hd j hj
          simp only [h.ps j hj1 (h.en j hj1 hj2)]
        · intro _ q; rfl
    rw [hacc]
  · rw [if_neg ha, if_neg ha]

theorem densCompute_inactive (cfg : Config) (s : State F D ω) {i : Nat} (h : (s.ps i).ty.active = false) :
    s.densCompute cfg i = (s.env.n0, none) := by
  unfold State.densCompute; simp [h]

theorem nbSim_of {s t s' t' : State F D ω} (h : NbSim s t) (hn : s'.n = s.n) (hs : s'.nbr = s.nbr) (ht : t'.nbr = t.nbr)
    (hty : ∀ i, (s'.ps i).ty = (s.ps i).ty) : NbSim s' t' := by
  have e1 : ∀ i, s'.neighbors i = s.neighbors i := fun i => by unfold State.neighbors; rw [hs]
  have e2 : ∀ i, t'.neighbors i = t.neighbors i := fun i => by unfold State.neighbors; rw [ht]
  refine ⟨fun i hi hd => ?_, fun i hi hd j hj => ?_⟩
  · rw [e1, e2]; exact h.eq i (by rw [← hn]; exact hi) (by rw [← hty]; exact hd)
  · rw [e1] at hj
    have := h.lt i (by rw [← hn]; exact hi) (by rw [← hty]; exact hd) j hj
    rw [hn, hty]; exact this

theorem densC_sim {s t : State F D ω} (h : Sim K s t) (nb : NbSim s t) :
    Sim K (s.densC cfg) (t.densC cfg) ∧ NbSim (s.densC cfg) (t.densC cfg) ∧ NSim cfg (s.densC cfg) (t.densC cfg) := by
  refine ⟨⟨h.n, h.env, h.world, h.geom, h.ubs, h.ubt, ?_, ?_, ?_⟩,
    nbSim_of nb rfl rfl rfl (fun i => densC_ty _ _ _), ?_⟩
  · intro i hi; rw [densC_ty, densC_ty]; exact h.ty i hi
  · intro i hi hK
    have hi' : i < s.n := hi
    simp only [State.densC, h.n, hi', if_true]
    rw [densCompute_sim h nb hi' hK, h.ps i hi' hK]
  · intro i hi hd; rw [densC_ty] at hd; exact h.en i hi hd
  · intro hc i hi
    have hi' : i < s.n := hi
    simp only [State.densC, hc, if_true, h.n, hi']
    by_cases hd : (s.ps i).ty = .disabled
    · rw [densCompute_inactive cfg s (by rw [hd]; rfl), densCompute_inactive cfg t (by rw [h.ty i hi', hd]; rfl), h.env]
    · rw [densCompute_sim h nb hi' (h.en i hi' hd)]

/-- Agreement of the ECS buffer for active particles. -/
def ESim (cfg : Config) (s t : State F D ω) : Prop :=
  cfg.ecs = true → ∀ i, i < s.n → (s.ps i).ty.active = true → t.ecs i = s.ecs i

theorem active_ne {ty : PType} (h : ty.active = true) : ty ≠ .disabled ∧ ty ≠ .dummy := by
  cases ty <;> simp_all [PType.active]

theorem densitySpeed_sim {s t : State F D ω} (h : Sim K s t) (nb : NbSim s t) (hN : NSim cfg s t) {i : Nat}
    (hi : i < s.n) (hd : (s.ps i).ty ≠ .disabled) : t.densitySpeed cfg i = s.densitySpeed cfg i := by
  have hps := h.ps i hi (h.en i hi hd)
  unfold State.densitySpeed
  rw [hps, h.env]
  have hacc : t.accumulate cfg i (0 : F) (fun _ q =>
      let dx := q.x - (s.ps i).x
      let du := q.u - (s.ps i).u
      let r := norm2 dx
      dot dx du / (r * r * r)) = s.accumulate cfg i (0 : F) (fun _ q =>
      let dx := q.x - (s.ps i).x
      let du := q.u - (s.ps i).u
      let r := norm2 dx
      dot dx du / (r * r * r)) := by
    apply accumulate_congr' cfg s t i _ _ _ h.env (nb.eq i hi hd) (by rw [hps]) (by rw [hps])
    · intro j hj
      obtain ⟨hj1, hj2⟩ := nb.lt i hi hd j hj
      rw [h.ps j hj1 (h.en j hj1 hj2)]
    · intro hc; exact hN hc i hi
    · intro j hj
      obtain ⟨hj1, hj2⟩ := nb.lt i hi hd j hj
      rw [h.ps j hj1 (h.en j hj1 hj2)]
    · intro _ q; rfl
  rw [hacc]
  cases hc : cfg.spp with
  | false => rfl
  | true => rw [hN hc i hi]

theorem ecsC_sim {s t : State F D ω} (h : Sim K s t) (nb : NbSim s t) (hN : NSim cfg s t) :
    Sim K (s.ecsC cfg) (t.ecsC cfg) ∧ NbSim (s.ecsC cfg) (t.ecsC cfg) ∧ NSim cfg (s.ecsC cfg) (t.ecsC cfg) ∧
      ESim cfg (s.ecsC cfg) (t.ecsC cfg) := by
  refine ⟨⟨h.n, h.env, h.world, h.geom, h.ubs, h.ubt, h.ty, h.ps, h.en⟩, ⟨nb.eq, nb.lt⟩, hN, ?_⟩
  intro hc i hi ha
  have hi' : i < s.n := hi
  have ha' : (s.ps i).ty.active = true := ha
  have hd := (active_ne ha').1
  have hps := h.ps i hi' (h.en i hi' hd)
  simp only [State.ecsC, hc, if_true, h.n, hi', State.ecsCompute, hps, ha', densitySpeed_sim h nb hN hi' hd, h.env,
    Option.getD_some]

/-- Agreement of the velocity corrections of fluid particles. -/
def DuSim (s t : State F D ω) : Prop :=
  ∀ i, i < s.n → (s.ps i).ty = .incompressibleNewton → t.du i = s.du i

theorem duC_sim {s t : State F D ω} (h : Sim K s t) (nb : NbSim s t)
    (compute : State F D ω → Nat → Option (Vec F D))
    (hc : ∀ i, i < s.n → (s.ps i).ty = .incompressibleNewton →
      compute t i = compute s i ∧ (compute s i).isSome = true) :
    Sim K (s.duC compute) (t.duC compute) ∧ NbSim (s.duC compute) (t.duC compute) ∧
      DuSim (s.duC compute) (t.duC compute) := by
  refine ⟨⟨h.n, h.env, h.world, h.geom, h.ubs, h.ubt, h.ty, h.ps, h.en⟩, ⟨nb.eq, nb.lt⟩, ?_⟩
  intro i hi hty
  have hi' : i < s.n := hi
  obtain ⟨h1, h2⟩ := hc i hi' hty
  simp only [State.duC, h.n, hi', if_true, h1]
  obtain ⟨v, hv⟩ := Option.isSome_iff_exists.mp h2
  rw [hv]; rfl

theorem accelCompute_sim {s t : State F D ω} (h : Sim K s t) (nb : NbSim s t) (hN : NSim cfg s t) {i : Nat}
    (hi : i < s.n) (hty : (s.ps i).ty = .incompressibleNewton) :
    State.accelCompute cfg t i = State.accelCompute cfg s i ∧ (State.accelCompute cfg s i).isSome = true := by
  have hd : (s.ps i).ty ≠ .disabled := by rw [hty]; simp
  have hps := h.ps i hi (h.en i hi hd)
  unfold State.accelCompute
  rw [hps, if_pos hty, if_pos hty]
  refine ⟨?_, rfl⟩
  congr 2
  · apply accumulate_congr' cfg s t i _ _ _ h.env (nb.eq i hi hd) (by rw [hps]) (by rw [hps])
    · intro j hj
      obtain ⟨hj1, hj2⟩ := nb.lt i hi hd j hj
      rw [h.ps j hj1 (h.en j hj1 hj2)]
    · intro hc; exact hN hc i hi
    · intro j hj
      obtain ⟨hj1, hj2⟩ := nb.lt i hi hd j hj
      rw [h.ps j hj1 (h.en j hj1 hj2)]
      simp only [State.viscFunc, h.env, hps]
    · intro _ q; simp only [State.viscFunc, h.env, hps]
  · simp only [State.gravity, h.env, hps]

theorem moveC_sim {s t : State F D ω} (h : Sim K s t) (nb : NbSim s t) (hD : DuSim s t) (w : Walls F D ω) :
    Sim K (s.moveC w) (t.moveC w) ∧ NbSim (s.moveC w) (t.moveC w) := by
  refine ⟨⟨h.n, h.env, h.world, h.geom, h.ubs, h.ubt, ?_, ?_, ?_⟩, nbSim_of nb rfl rfl rfl (fun i => moveC_ty _ _ _)⟩
  · intro i hi; rw [moveC_ty, moveC_ty]; exact h.ty i hi
  · intro i hi hK
    have hi' : i < s.n := hi
    have hps := h.ps i hi' hK
    have hmv : t.moveCompute w i = s.moveCompute w i := by
      unfold State.moveCompute
      rw [hps, h.env, h.world]
      simp only
      by_cases hty : (s.ps i).ty = .incompressibleNewton
      · rw [if_pos hty, if_pos hty, hD i hi' hty]
      · rw [if_neg hty, if_neg hty]
    simp only [State.moveC, h.n, hi', if_true, hmv, hps]
  · intro i hi hd; rw [moveC_ty] at hd; exact h.en i hi hd

theorem pushC_sim {s t : State F D ω} (h : Sim K s t) (nb : NbSim s t) (hD : DuSim s t) :
    Sim K s.pushC t.pushC ∧ NbSim s.pushC t.pushC := by
  refine ⟨⟨h.n, h.env, h.world, h.geom, h.ubs, h.ubt, ?_, ?_, ?_⟩, nbSim_of nb rfl rfl rfl (fun i => pushC_ty _ _)⟩
  · intro i hi; rw [pushC_ty, pushC_ty]; exact h.ty i hi
  · intro i hi hK
    have hi' : i < s.n := hi
    have hps := h.ps i hi' hK
    simp only [State.pushC, h.n, hi', true_and, hps, h.env]
    by_cases hty : (s.ps i).ty = .incompressibleNewton
    · rw [if_pos hty, if_pos hty, hD i hi' hty]
    · rw [if_neg hty, if_neg hty]
  · intro i hi hd; rw [pushC_ty] at hd; exact h.en i hi hd

/-- Agreement of the saved positions of active particles. -/
def OSim (cfg : Config) (s t : State F D ω) : Prop :=
  cfg.ds = true → ∀ i, i < s.n → (s.ps i).ty.active = true → t.origX i = s.origX i

theorem saveX_sim {s t : State F D ω} (h : Sim K s t) (nb : NbSim s t) :
    Sim K (s.saveX cfg) (t.saveX cfg) ∧ NbSim (s.saveX cfg) (t.saveX cfg) ∧ OSim cfg (s.saveX cfg) (t.saveX cfg) := by
  cases hc : cfg.ds with
  | false =>
    have e1 : s.saveX cfg = s := by simp [State.saveX, hc]
    have e2 : t.saveX cfg = t := by simp [State.saveX, hc]
    rw [e1, e2]
    exact ⟨h, nb, fun hh => by rw [hc] at hh; cases hh⟩
  | true =>
    have e1 : s.saveX cfg = { s with origX := fun i => if i < s.n ∧ (s.ps i).ty.active then (s.ps i).x else s.origX i } := by
      simp [State.saveX, hc]
    have e2 : t.saveX cfg = { t with origX := fun i => if i < t.n ∧ (t.ps i).ty.active then (t.ps i).x else t.origX i } := by
      simp [State.saveX, hc]
    rw [e1, e2]
    refine ⟨⟨h.n, h.env, h.world, h.geom, h.ubs, h.ubt, h.ty, h.ps, h.en⟩, ⟨nb.eq, nb.lt⟩, ?_⟩
    intro _ i hi ha
    have hi' : i < s.n := hi
    have ha' : (s.ps i).ty.active = true := ha
    simp only [h.n, hi', h.ps i hi' (h.en i hi' (active_ne ha').1), ha', and_self, if_true]

/-! ### Linear system -/

theorem sprod_congr {n : Nat} {A A' : Sparse F} {v v' : Nat → F} (hA : ∀ i < n, ∀ j < n, A' i j = A i j)
    (hv : ∀ i < n, v' i = v i) : ∀ i < n, sprod n A' v' i = sprod n A v i := by
  intro i hi
  unfold sprod
  apply List.foldl_ext
  intro acc j hj
  have hj : j < n := by simpa using hj
  rw [hA i hi j hj, hv j hj]

theorem sdot_congr {n : Nat} {v v' w w' : Nat → F} (hv : ∀ i < n, v' i = v i) (hw : ∀ i < n, w' i = w i) :
    sdot n v' w' = sdot n v w := by
  unfold sdot
  apply List.foldl_ext
  intro acc j hj
  have hj : j < n := by simpa using hj
  rw [hv j hj, hw j hj]

/-- Agreement of solver states below `n`. -/
structure CgSim (n : Nat) (a b : CgState F) : Prop where
  x : ∀ i < n, b.x i = a.x i
  r : ∀ i < n, b.r i = a.r i
  p : ∀ i < n, b.p i = a.p i
  rr : b.rr = a.rr
  conv : b.conv = a.conv

theorem cgStep_sim {n : Nat} {A A' : Sparse F} (hA : ∀ i < n, ∀ j < n, A' i j = A i j) (res0 : F) {a b : CgState F}
    (h : CgSim n a b) : CgSim n (cgStep n A res0 a) (cgStep n A' res0 b) := by
  have hAp := sprod_congr hA h.p
  have hal : b.rr / sdot n b.p (sprod n A' b.p) = a.rr / sdot n a.p (sprod n A a.p) := by
    rw [h.rr, sdot_congr h.p hAp]
  have hr : ∀ i < n, b.r i - b.rr / sdot n b.p (sprod n A' b.p) * sprod n A' b.p i
      = a.r i - a.rr / sdot n a.p (sprod n A a.p) * sprod n A a.p i := by
    intro i hi; rw [hal, h.r i hi, hAp i hi]
  have hrr := sdot_congr hr hr
  unfold cgStep
  simp only
  rw [hrr]
  split
  · refine ⟨fun i hi => ?_, hr, h.p, h.rr, rfl⟩
    simp only
    rw [hal, h.x i hi, h.p i hi]
  · refine ⟨fun i hi => ?_, hr, fun i hi => ?_, rfl, rfl⟩
    · simp only
      rw [hal, h.x i hi, h.p i hi]
    · simp only
      rw [hr i hi, h.rr, h.p i hi]

theorem cgLoop_sim {n : Nat} {A A' : Sparse F} (hA : ∀ i < n, ∀ j < n, A' i j = A i j) (res0 : F) (k : Nat) :
    ∀ {a b : CgState F}, CgSim n a b → CgSim n (cgLoop n A res0 k a) (cgLoop n A' res0 k b) := by
  induction k with
  | zero => intro a b h; exact h
  | succ k ih =>
    intro a b h
    unfold cgLoop
    rw [h.conv]
    split
    · exact h
    · exact ih (cgStep_sim hA res0 h)

theorem cgSolve_sim {n : Nat} {A A' : Sparse F} {b b' x x' : Nat → F} (eps : F)
    (hA : ∀ i < n, ∀ j < n, A' i j = A i j) (hb : ∀ i < n, b' i = b i) (hx : ∀ i < n, x' i = x i) :
    (cgSolve n A' b' x' eps).2 = (cgSolve n A b x eps).2 ∧
    ∀ i < n, (cgSolve n A' b' x' eps).1 i = (cgSolve n A b x eps).1 i := by
  have hAp := sprod_congr hA hx
  have hr : ∀ i < n, b' i - sprod n A' x' i = b i - sprod n A x i := by
    intro i hi; rw [hb i hi, hAp i hi]
  have hrr := sdot_congr hr hr
  have h0 : (cgInit n A' b' x' eps).2 = (cgInit n A b x eps).2 := by
    simp only [cgInit]; rw [hrr]
  have h1 : CgSim n (cgInit n A b x eps).1 (cgInit n A' b' x' eps).1 := by
    refine ⟨hx, hr, hr, hrr, ?_⟩
    simp only [cgInit]; rw [hrr]
  have h2 := cgLoop_sim hA (cgInit n A b x eps).2 n h1
  unfold cgSolve
  simp only
  rw [h0]
  exact ⟨h2.conv, h2.x⟩

theorem rhsCompute_sim {s t : State F D ω} (h : Sim K s t) (nb : NbSim s t) (hN : NSim cfg s t) (hE : ESim cfg s t)
    {i : Nat} (hi : i < s.n) : t.rhsCompute cfg i = s.rhsCompute cfg i := by
  by_cases hd : (s.ps i).ty = .disabled
  · have h1 : s.fixedRow cfg i = true := by simp [State.fixedRow, hd]
    have h2 : t.fixedRow cfg i = true := by simp [State.fixedRow, h.ty i hi, hd]
    simp [State.rhsCompute, h1, h2]
  · have hps := h.ps i hi (h.en i hi hd)
    have hfr : t.fixedRow cfg i = s.fixedRow cfg i := by
      simp only [State.fixedRow, hps, State.isSurface, h.env]
    unfold State.rhsCompute
    rw [hfr]
    by_cases hf : s.fixedRow cfg i = true
    · simp [hf]
    · have ha : (s.ps i).ty.active = true := by
        have hf' := hf
        simp only [State.fixedRow, Bool.or_eq_true, decide_eq_true_eq, not_or] at hf'
        simp [PType.active, hd, hf'.1.1]
      rw [if_neg hf, if_neg hf, densitySpeed_sim h nb hN hi hd, h.env, hps]
      cases hc : cfg.ecs with
      | false => rfl
      | true => rw [hE hc i hi ha]

theorem matCompute_sim {s t : State F D ω} (h : Sim K s t) (nb : NbSim s t) (hN : NSim cfg s t)
    {i : Nat} (hi : i < s.n) : t.matCompute cfg i = s.matCompute cfg i := by
  by_cases hd : (s.ps i).ty = .disabled
  · have h1 : s.fixedRow cfg i = true := by simp [State.fixedRow, hd]
    have h2 : t.fixedRow cfg i = true := by simp [State.fixedRow, h.ty i hi, hd]
    simp [State.matCompute, h1, h2]
  · have hps := h.ps i hi (h.en i hi hd)
    have hfr : t.fixedRow cfg i = s.fixedRow cfg i := by
      simp only [State.fixedRow, hps, State.isSurface, h.env]
    have hrf : ∀ (j : Int) (q : Particle F D), t.rowFunc cfg i j q = s.rowFunc cfg i j q := by
      intro j q
      simp only [State.rowFunc, State.coef, State.isSurface, hps, h.env]
      rfl
    have hacc : t.accumulate cfg i ({ sum := 0, entries := [] } : RowAcc F) (t.rowFunc cfg i)
        = s.accumulate cfg i ({ sum := 0, entries := [] } : RowAcc F) (s.rowFunc cfg i) := by
      apply accumulate_congr' cfg s t i _ _ _ h.env (nb.eq i hi hd) (by rw [hps]) (by rw [hps])
      · intro j hj
        obtain ⟨hj1, hj2⟩ := nb.lt i hi hd j hj
        rw [h.ps j hj1 (h.en j hj1 hj2)]
      · intro hc; exact hN hc i hi
      · intro j hj
        obtain ⟨hj1, hj2⟩ := nb.lt i hi hd j hj
        rw [h.ps j hj1 (h.en j hj1 hj2), hrf]
      · intro _ q; exact hrf _ _
    unfold State.matCompute
    rw [hfr, hacc]

theorem ppeC_sim {s t : State F D ω} (h : Sim K s t) (nb : NbSim s t) (hN : NSim cfg s t) (hE : ESim cfg s t) :
    (t.ppeC cfg).ppe.size = (s.ppeC cfg).ppe.size ∧
    (∀ i < s.n, (t.ppeC cfg).ppe.b i = (s.ppeC cfg).ppe.b i) ∧
    (∀ i < s.n, (t.ppeC cfg).ppe.x i = (s.ppeC cfg).ppe.x i) ∧
    (∀ i < s.n, ∀ j < s.n, (t.ppeC cfg).ppe.A i j = (s.ppeC cfg).ppe.A i j) := by
  refine ⟨h.n, ?_, ?_, ?_⟩
  · intro i hi; simp only [State.ppeC, h.n, hi, if_true, rhsCompute_sim h nb hN hE hi]
  · intro i hi; simp only [State.ppeC, h.n, hi, if_true, rhsCompute_sim h nb hN hE hi]
  · intro i hi j _
    simp only [State.ppeC, assemble_eq, h.n, hi, if_true, matCompute_sim h nb hN hi]

theorem presC_sim {s t : State F D ω} (h : Sim K s t) (nb : NbSim s t) (c : State F D ω → Nat → Option F)
    (hc : ∀ i, i < s.n → K i → c t i = c s i) :
    Sim K (s.presC c) (t.presC c) ∧ NbSim (s.presC c) (t.presC c) := by
  refine ⟨⟨h.n, h.env, h.world, h.geom, h.ubs, h.ubt, ?_, ?_, ?_⟩, nbSim_of nb rfl rfl rfl (fun i => presC_ty _ _ _)⟩
  · intro i hi; rw [presC_ty, presC_ty]; exact h.ty i hi
  · intro i hi hK
    have hi' : i < s.n := hi
    simp only [State.presC, h.n, hi', if_true, hc i hi' hK, h.ps i hi' hK]
  · intro i hi hd; rw [presC_ty] at hd; exact h.en i hi hd

/-- Replacement of the solver's vector. -/
def State.withX (s : State F D ω) (x : Nat → F) : State F D ω := { s with ppe := { s.ppe with x := x } }

theorem solvePpe_withX (eps : F) (s : State F D ω) :
    s.solvePpe eps = if (cgSolve s.ppe.size s.ppe.A s.ppe.b s.ppe.x eps).2
      then .ok (s.withX (cgSolve s.ppe.size s.ppe.A s.ppe.b s.ppe.x eps).1)
      else .exn .solver (s.withX (cgSolve s.ppe.size s.ppe.A s.ppe.b s.ppe.x eps).1) := rfl

theorem presCompute_withX (cfg : Config) (s : State F D ω) (x : Nat → F) (e : Env F D) (q : Particle F D) (i : Nat)
    (he : s.env = e) (hq : s.ps i = q) :
    State.presCompute cfg (s.withX x) i =
      if q.ty.active then some (if Scalar.lt (x i) 0 || (!cfg.spp && Scalar.lt (q.n / e.n0) e.surfaceRatio) then 0 else x i)
      else none := by
  subst he hq; rfl

theorem pressureC_sim {P : Params F D ω} {s t : State F D ω} (h : Sim K s t) (nb : NbSim s t) (hN : NSim P.cfg s t)
    (hE : ESim P.cfg s t) (hO : OSim P.cfg s t) :
    ResSim (fun s t => Sim K s t ∧ NbSim s t ∧ NSim P.cfg s t ∧ OSim P.cfg s t) (Sim K)
      (s.pressureC P) (t.pressureC P) := by
  unfold State.pressureC
  cases hex : P.cfg.explicit with
  | true =>
    simp only [if_true]
    refine .ok ?_
    have hp := presC_sim h nb State.eosCompute (by
      intro i hi hK
      simp only [State.eosCompute, h.env, h.ps i hi hK])
    refine ⟨hp.1, hp.2, hN, ?_⟩
    intro hc i hi ha
    rw [presC_ty] at ha
    exact hO hc i hi ha
  | false =>
    simp only [Bool.false_eq_true, if_false]
    obtain ⟨p1, p2, p3, p4⟩ := ppeC_sim h nb hN hE
    have hsol := cgSolve_sim P.eps p4 p2 p3
    have hsz : (s.ppeC P.cfg).ppe.size = s.n := rfl
    have hsim1 : ∀ xs xt, Sim K ((s.ppeC P.cfg).withX xs) ((t.ppeC P.cfg).withX xt) := by
      intro xs xt
      exact ⟨h.n, h.env, h.world, h.geom, h.ubs, h.ubt, h.ty, h.ps, h.en⟩
    rw [solvePpe_withX, solvePpe_withX, p1, hsz, hsol.1]
    cases hconv : (cgSolve s.n (s.ppeC P.cfg).ppe.A (s.ppeC P.cfg).ppe.b (s.ppeC P.cfg).ppe.x P.eps).2 with
    | false =>
      simp only [Bool.false_eq_true, if_false, Res.andThen, Res.bind]
      exact .exn (hsim1 _ _)
    | true =>
      simp only [if_true, Res.andThen, Res.bind]
      refine .ok ?_
      have hp := presC_sim (hsim1 (cgSolve s.n (s.ppeC P.cfg).ppe.A (s.ppeC P.cfg).ppe.b (s.ppeC P.cfg).ppe.x P.eps).1
          (cgSolve s.n (t.ppeC P.cfg).ppe.A (t.ppeC P.cfg).ppe.b (t.ppeC P.cfg).ppe.x P.eps).1) (by exact ⟨nb.eq, nb.lt⟩)
          (State.presCompute P.cfg) (by
        intro i hi hK
        have hps : t.ps i = s.ps i := h.ps i hi hK
        have hi' : i < s.n := hi
        have e1 := presCompute_withX P.cfg (t.ppeC P.cfg)
          (cgSolve s.n (t.ppeC P.cfg).ppe.A (t.ppeC P.cfg).ppe.b (t.ppeC P.cfg).ppe.x P.eps).1 t.env (t.ps i) i rfl rfl
        have e2 := presCompute_withX P.cfg (s.ppeC P.cfg)
          (cgSolve s.n (s.ppeC P.cfg).ppe.A (s.ppeC P.cfg).ppe.b (s.ppeC P.cfg).ppe.x P.eps).1 s.env (s.ps i) i rfl rfl
        rw [e1, e2, hsol.2 i hi', hps, h.env])
      refine ⟨hp.1, hp.2, hN, ?_⟩
      intro hc i hi ha
      rw [presC_ty] at ha
      exact hO hc i hi ha

theorem gradCompute_sim {s t : State F D ω} (h : Sim K s t) (nb : NbSim s t) (hN : NSim cfg s t) {i : Nat}
    (hi : i < s.n) (hty : (s.ps i).ty = .incompressibleNewton) :
    State.gradCompute cfg t i = State.gradCompute cfg s i ∧ (State.gradCompute cfg s i).isSome = true := by
  have hd : (s.ps i).ty ≠ .disabled := by rw [hty]; simp
  have hps := h.ps i hi (h.en i hi hd)
  have key : ∀ {A : Type} [Add A] (zero : A) (f f' : Int → Particle F D → A), (∀ j q, f' j q = f j q) →
      t.accumulate cfg i zero f' = s.accumulate cfg i zero f := by
    intro A _ zero f f' hff
    apply accumulate_congr' cfg s t i _ _ _ h.env (nb.eq i hi hd) (by rw [hps]) (by rw [hps])
    · intro j hj
      obtain ⟨hj1, hj2⟩ := nb.lt i hi hd j hj
      rw [h.ps j hj1 (h.en j hj1 hj2)]
    · intro hc; exact hN hc i hi
    · intro j hj
      obtain ⟨hj1, hj2⟩ := nb.lt i hi hd j hj
      rw [h.ps j hj1 (h.en j hj1 hj2), hff]
    · intro _ q; exact hff _ _
  unfold State.gradCompute
  rw [hps, if_pos hty, if_pos hty, h.env]
  simp only
  have k1 : t.accumulate cfg i (0 : Mat F D) (t.gcMatFunc i) = s.accumulate cfg i (0 : Mat F D) (s.gcMatFunc i) :=
    key _ _ _ (by intro j q; simp only [State.gcMatFunc, hps, h.env])
  have k2 : ∀ C, t.accumulate cfg i (0 : Vec F D) (t.gcFunc cfg i C) = s.accumulate cfg i (0 : Vec F D) (s.gcFunc cfg i C) :=
    fun C => key _ _ _ (by intro j q; simp only [State.gcFunc, hps, h.env])
  have k3 : t.accumulate cfg i (0 : Vec F D) (t.gradFunc i) = s.accumulate cfg i (0 : Vec F D) (s.gradFunc i) :=
    key _ _ _ (by intro j q; simp only [State.gradFunc, hps, h.env])
  rw [k1, k2, k3]
  refine ⟨rfl, ?_⟩
  split <;> rfl

theorem dsCompute_sim {s t : State F D ω} (h : Sim K s t) (nb : NbSim s t) (hN : NSim cfg s t) (hO : OSim cfg s t)
    (hds : cfg.ds = true) {i : Nat} (hi : i < s.n) (hty : (s.ps i).ty = .incompressibleNewton) :
    State.dsCompute cfg t i = State.dsCompute cfg s i ∧ (State.dsCompute cfg s i).isSome = true := by
  have hd : (s.ps i).ty ≠ .disabled := by rw [hty]; simp
  have hps := h.ps i hi (h.en i hi hd)
  have hoi : t.origX i = s.origX i := hO hds i hi (by rw [hty]; rfl)
  unfold State.dsCompute
  rw [hps, if_pos hty, if_pos hty, h.env]
  simp only
  refine ⟨?_, rfl⟩
  congr 2
  apply accumulate_congr' cfg s t i _ _ _ h.env (nb.eq i hi hd) (by rw [hps]) (by rw [hps])
  · intro j hj
    obtain ⟨hj1, hj2⟩ := nb.lt i hi hd j hj
    rw [h.ps j hj1 (h.en j hj1 hj2)]
  · intro hc; exact hN hc i hi
  · intro j hj
    obtain ⟨hj1, hj2⟩ := nb.lt i hi hd j hj
    rw [h.ps j hj1 (h.en j hj1 hj2)]
    unfold State.dsFunc
    by_cases hdum : (s.ps j).ty ≠ .dummy
    · have hoj : t.origX j = s.origX j := hO hds j hj1 (by simp [PType.active, hdum, hj2])
      simp only [Int.toNat_natCast, hoj, hoi, hps]
    · rw [if_neg (fun hh => hdum hh.1), if_neg (fun hh => hdum hh.1)]
  · intro hc q
    unfold State.dsFunc
    rw [if_neg, if_neg]
    · rintro ⟨-, h1 | h1⟩
      · rw [hc] at h1; cases h1
      · omega
    · rintro ⟨-, h1 | h1⟩
      · rw [hc] at h1; cases h1
      · omega

theorem midC_sim {P : Params F D ω} {s t : State F D ω} (h : Sim K s t) (nb : NbSim s t) :
    Sim K (s.midC P) (t.midC P) ∧ NbSim (s.midC P) (t.midC P) ∧ NSim P.cfg (s.midC P) (t.midC P) ∧
      ESim P.cfg (s.midC P) (t.midC P) ∧ OSim P.cfg (s.midC P) (t.midC P) := by
  obtain ⟨a1, a2, a3⟩ := densC_sim (cfg := P.cfg) h nb
  obtain ⟨b1, b2, b3, b4⟩ := ecsC_sim a1 a2 a3
  obtain ⟨c1, c2, c3⟩ := duC_sim b1 b2 (State.accelCompute P.cfg) (fun i hi hty => accelCompute_sim b1 b2 b3 hi hty)
  set s3 := ((s.densC P.cfg).ecsC P.cfg).duC (State.accelCompute P.cfg) with hs3
  set t3 := ((t.densC P.cfg).ecsC P.cfg).duC (State.accelCompute P.cfg) with ht3
  have d1 : Sim K (s3.preC P.walls) (t3.preC P.walls) := by
    refine ⟨c1.n, c1.env, ?_, c1.geom, c1.ubs, c1.ubt, c1.ty, c1.ps, c1.en⟩
    simp only [State.preC, c1.world, c1.env]
  have d2 : NbSim (s3.preC P.walls) (t3.preC P.walls) := ⟨c2.eq, c2.lt⟩
  obtain ⟨e1, e2⟩ := moveC_sim d1 d2 (by exact c3) P.walls
  obtain ⟨f1, f2, f3⟩ := densC_sim (cfg := P.cfg) e1 e2
  obtain ⟨g1, g2, g3⟩ := saveX_sim (cfg := P.cfg) f1 f2
  refine ⟨g1, g2, ?_, ?_, g3⟩
  · intro hc i hi
    have := f3 hc i (by rw [show State.n _ = (s.midC P).n from (saveX_n _ _).symm]; exact hi)
    unfold State.midC
    rw [saveX_nNoSpp, saveX_nNoSpp]
    exact this
  · intro hc i hi ha
    have hi' : i < s.n := by rw [midC_n] at hi; exact hi
    rw [midC_ty] at ha
    have := b4 hc i hi' (by
      change ((s.densC P.cfg).ps i).ty.active = true
      rw [densC_ty]; exact ha)
    unfold State.midC
    rw [saveX_ecs, saveX_ecs]
    exact this

theorem afterSearch_sim {P : Params F D ω} {s t : State F D ω} (h : Sim K s t) (nb : NbSim s t) :
    ResSim (Sim K) (Sim K) (s.afterSearch P) (t.afterSearch P) := by
  obtain ⟨h1, h2, h3, h4, h5⟩ := midC_sim (P := P) h nb
  unfold State.afterSearch
  refine (pressureC_sim h1 h2 h3 h4 h5).andThen ?_
  rintro a b ⟨k1, k2, k3, k4⟩
  obtain ⟨c1, c2, c3⟩ := duC_sim k1 k2 (State.gradCompute P.cfg) (fun i hi hty => gradCompute_sim k1 k2 k3 hi hty)
  obtain ⟨d1, d2⟩ := pushC_sim c1 c2 c3
  refine .ok ?_
  cases hds : P.cfg.ds with
  | false =>
    have e1 : (a.gradC P.cfg).dsC P.cfg = a.gradC P.cfg := by simp [State.dsC, hds]
    have e2 : (b.gradC P.cfg).dsC P.cfg = b.gradC P.cfg := by simp [State.dsC, hds]
    rw [e1, e2]
    exact d1
  | true =>
    have e1 : (a.gradC P.cfg).dsC P.cfg = ((a.gradC P.cfg).duC (State.dsCompute P.cfg)).pushC := by simp [State.dsC, hds]
    have e2 : (b.gradC P.cfg).dsC P.cfg = ((b.gradC P.cfg).duC (State.dsCompute P.cfg)).pushC := by simp [State.dsC, hds]
    rw [e1, e2]
    have hN' : NSim P.cfg (a.gradC P.cfg) (b.gradC P.cfg) := k3
    have hO' : OSim P.cfg (a.gradC P.cfg) (b.gradC P.cfg) := by
      intro hc i hi ha
      rw [gradC_ty] at ha
      exact k4 hc i hi ha
    have d1' : Sim K (a.gradC P.cfg) (b.gradC P.cfg) := d1
    have d2' : NbSim (a.gradC P.cfg) (b.gradC P.cfg) := d2
    obtain ⟨f1, f2, f3⟩ := duC_sim d1' d2' (State.dsCompute P.cfg)
      (fun i hi hty => dsCompute_sim d1' d2' hN' hO' hds hi hty)
    exact (pushC_sim f1 f2 f3).1

/-- Two steps started in similar states have similar outcomes. -/
theorem forwardTime_sim {P : Params F D ω} {s t : State F D ω} (h : Sim K s t) {sch sch' : Schedule} (dt : F)
    (hv : sch.Valid s.n) (hv' : sch'.Valid s.n) (hok : s.grid.ClearOK) :
    ResSim (Sim K) (Sim K) (s.forwardTime P sch dt) (t.forwardTime P sch' dt) := by
  rw [forwardTime_eq P sch dt s hv, forwardTime_eq P sch' dt t (by rw [h.n]; exact hv')]
  have h0 : Sim K (s.start dt) (t.start dt) := by
    refine ⟨h.n, ?_, h.world, h.geom, h.ubs, h.ubt, h.ty, h.ps, h.en⟩
    simp only [State.start, h.env]
  refine (search_sim h0 (hv 0) (hv' 0) hok).andThen ?_
  rintro a b ⟨h1, h2⟩
  exact afterSearch_sim h1 h2

end OpenMps
