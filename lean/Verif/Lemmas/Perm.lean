import Verif.Lemmas.Sim
import Verif.Lemmas.Ppe
import Verif.Props.Step
import Verif.Spec.Perm
import Mathlib.Algebra.BigOperators.Group.Finset.Basic

set_option linter.unusedSectionVars false

/-! A step started in two states that agree up to a renumbering of the particles ends in states that agree up to the same
renumbering (exact arithmetic). -/

namespace OpenMps

variable {D : Nat} {ω : Type} {σ : Equiv.Perm Nat}

/-- Agreement up to renumbering. -/
structure PSim (σ : Equiv.Perm Nat) (s t : State ℝ D ω) : Prop where
  n : t.n = s.n
  env : t.env = s.env
  world : t.world = s.world
  geom : SameGeom s.grid t.grid
  ubs : s.ub = false
  ubt : t.ub = false
  lt : ∀ i, σ i < s.n ↔ i < s.n
  ps : ∀ i, i < s.n → t.ps (σ i) = s.ps i

/-- Agreement of the neighbour lists up to order and renumbering. -/
structure PNb (σ : Equiv.Perm Nat) (s t : State ℝ D ω) : Prop where
  perm : ∀ i, i < s.n → (s.ps i).ty ≠ .disabled → (t.neighbors (σ i)).Perm ((s.neighbors i).map σ)
  lt : ∀ i, i < s.n → (s.ps i).ty ≠ .disabled → ∀ j ∈ s.neighbors i, j < s.n ∧ (s.ps j).ty ≠ .disabled ∧ j ≠ i
  nodup : ∀ i, i < s.n → (s.ps i).ty ≠ .disabled → (s.neighbors i).Nodup

/-! ### Interaction sums -/

theorem nearList_perm (s t : State ℝ D ω) (i : Nat) (henv : t.env = s.env)
    (hnb : (t.neighbors (σ i)).Perm ((s.neighbors i).map σ)) (hxi : (t.ps (σ i)).x = (s.ps i).x)
    (hx : ∀ j ∈ s.neighbors i, (t.ps (σ j)).x = (s.ps j).x) : (t.nearList (σ i)).Perm ((s.nearList i).map σ) := by
  unfold State.nearList
  refine (hnb.filter _).trans (List.Perm.of_eq ?_)
  rw [List.filter_map]
  congr 1
  apply List.filter_congr
  intro j hj
  simp only [Function.comp, hx j hj, hxi, henv]
  congr 1
  by_cases h : j = i
  · simp [h]
  · have h' : σ j ≠ σ i := fun hh => h (σ.injective hh)
    simp [h]

theorem foldl_add_perm {A : Type} [Add A] (hrc : ∀ a b c : A, a + b + c = a + c + b) {l : List Nat} {l' : List Nat}
    (h : l'.Perm (l.map σ)) (g g' : Nat → A) (hg : ∀ j ∈ l, g' (σ j) = g j) (z : A) :
    l'.foldl (fun acc j => acc + g' j) z = l.foldl (fun acc j => acc + g j) z := by
  rw [List.Perm.foldl_eq' h (fun x _ y _ z => hrc _ _ _), List.foldl_map]
  refine List.foldl_ext _ _ _ ?_
  intro acc j hj
  rw [hg j hj]

theorem accumulate_perm {A : Type} [Add A] (hrc : ∀ a b c : A, a + b + c = a + c + b) (cfg : Config) (s t : State ℝ D ω) (i : Nat)
    (zero : A) (f f' : Int → Particle ℝ D → A) (henv : t.env = s.env)
    (hnb : (t.neighbors (σ i)).Perm ((s.neighbors i).map σ))
    (hxi : (t.ps (σ i)).x = (s.ps i).x) (hui : (t.ps (σ i)).u = (s.ps i).u)
    (hx : ∀ j ∈ s.neighbors i, (t.ps (σ j)).x = (s.ps j).x)
    (hN : cfg.spp = true → t.nNoSpp (σ i) = s.nNoSpp i)
    (hf : ∀ j ∈ s.neighbors i, f' ((σ j : Nat) : Int) (t.ps (σ j)) = f (j : Int) (s.ps j))
    (hspp : cfg.spp = true → ∀ q : Particle ℝ D, f' (-1) q = f (-1) q) :
    t.accumulate cfg (σ i) zero f' = s.accumulate cfg i zero f := by
  have hsub : ∀ j ∈ s.nearList i, j ∈ s.neighbors i := fun j hj => (List.mem_filter.mp hj).1
  have hl : t.accLoop (σ i) zero f' = s.accLoop i zero f := by
    rw [accLoop_list, accLoop_list]
    have hp := nearList_perm s t i henv hnb hxi hx
    refine Prod.ext ?_ ?_
    · exact foldl_add_perm hrc hp (fun j => f (j : Int) (s.ps j)) (fun j => f' (j : Int) (t.ps j)) (fun j hj => hf j (hsub j hj)) zero
    · refine foldl_add_perm (A := Vec ℝ D) (add_right_comm (G := Vec ℝ D)) hp _ _ (fun j hj => ?_) 0
      simp only [hx j (hsub j hj), hxi, henv]
  unfold State.accumulate
  rw [hl]
  cases hc : cfg.spp with
  | false => rfl
  | true =>
    have hs : t.sppParticle (σ i) (s.accLoop i zero f).2 = s.sppParticle i (s.accLoop i zero f).2 := by
      unfold State.sppParticle
      simp only [henv, hxi, hui, hN hc]
    simp only [hs, hspp hc, if_true]

/-- The same for a particle of two similar states. -/
theorem PSim.accumulate {s t : State ℝ D ω} (h : PSim σ s t) (nb : PNb σ s t) {A : Type} [Add A]
    (hrc : ∀ a b c : A, a + b + c = a + c + b) (cfg : Config) {i : Nat} (hi : i < s.n) (hd : (s.ps i).ty ≠ .disabled)
    (zero : A) (f f' : Int → Particle ℝ D → A) (hN : cfg.spp = true → t.nNoSpp (σ i) = s.nNoSpp i)
    (hf : ∀ j, j ∈ s.neighbors i → f' ((σ j : Nat) : Int) (s.ps j) = f (j : Int) (s.ps j))
    (hspp : cfg.spp = true → ∀ q : Particle ℝ D, f' (-1) q = f (-1) q) :
    t.accumulate cfg (σ i) zero f' = s.accumulate cfg i zero f := by
  have hps := h.ps i hi
  have hpj : ∀ j ∈ s.neighbors i, t.ps (σ j) = s.ps j := fun j hj => h.ps j (nb.lt i hi hd j hj).1
  refine accumulate_perm hrc cfg s t i zero f f' h.env (nb.perm i hi hd) (by rw [hps]) (by rw [hps]) (fun j hj => by rw [hpj j hj]) hN
    (fun j hj => ?_) hspp
  rw [hpj j hj]; exact hf j hj

/-! ### Phases -/

variable {cfg : Config}

/-- Agreement of the density buffer (only used with SPP). -/
def PN (σ : Equiv.Perm Nat) (cfg : Config) (s t : State ℝ D ω) : Prop := cfg.spp = true → ∀ i, i < s.n → t.nNoSpp (σ i) = s.nNoSpp i

theorem densCompute_psim {s t : State ℝ D ω} (h : PSim σ s t) (nb : PNb σ s t) {i : Nat} (hi : i < s.n) :
    t.densCompute cfg (σ i) = s.densCompute cfg i := by
  have he0 : t.env.n0 = s.env.n0 := by rw [h.env]
  have he1 : t.env.re = s.env.re := by rw [h.env]
  unfold State.densCompute
  rw [h.ps i hi, he0, he1]
  simp only
  by_cases ha : (s.ps i).ty.active = true
  · rw [if_pos ha, if_pos ha]
    have hd : (s.ps i).ty ≠ .disabled := (active_ne ha).1
    have hacc : (if cfg.spp = true then ({ t with nNoSpp := upd t.nNoSpp (σ i) s.env.n0 } : State ℝ D ω) else t).accumulate cfg (σ i) (0 : ℝ)
          (fun j q' => if (cfg.spp && decide (j < 0)) = true then 0 else W (dist (s.ps i).x q'.x) s.env.re)
        = (if cfg.spp = true then ({ s with nNoSpp := upd s.nNoSpp i s.env.n0 } : State ℝ D ω) else s).accumulate cfg i (0 : ℝ)
          (fun j q' => if (cfg.spp && decide (j < 0)) = true then 0 else W (dist (s.ps i).x q'.x) s.env.re) := by
      have hj0 : ∀ j : Nat, decide ((j : Int) < 0) = false := fun j => decide_eq_false (by omega)
      cases hc : cfg.spp with
      | true =>
        simp only [if_true]
        have h' : PSim σ ({ s with nNoSpp := upd s.nNoSpp i s.env.n0 } : State ℝ D ω) ({ t with nNoSpp := upd t.nNoSpp (σ i) s.env.n0 }) :=
          ⟨h.n, h.env, h.world, h.geom, h.ubs, h.ubt, h.lt, h.ps⟩
        have nb' : PNb σ ({ s with nNoSpp := upd s.nNoSpp i s.env.n0 } : State ℝ D ω) ({ t with nNoSpp := upd t.nNoSpp (σ i) s.env.n0 }) :=
          ⟨nb.perm, nb.lt, nb.nodup⟩
        refine h'.accumulate nb' add_right_comm cfg hi hd _ _ _ (fun _ => ?_) (fun j _ => ?_) (fun _ q => rfl)
        · simp only [upd_same]
        · simp only [hj0]
      | false =>
        simp only [Bool.false_eq_true, if_false]
        exact h.accumulate nb add_right_comm cfg hi hd _ _ _ (fun hc' => by rw [hc] at hc'; cases hc') (fun j _ => rfl) (fun _ q => rfl)
    rw [hacc]
  · rw [if_neg ha, if_neg ha]

theorem pnb_of {s t s' t' : State ℝ D ω} (h : PNb σ s t) (hn : s'.n = s.n) (hs : s'.nbr = s.nbr) (ht : t'.nbr = t.nbr)
    (hty : ∀ i, (s'.ps i).ty = (s.ps i).ty) : PNb σ s' t' := by
  have e1 : ∀ i, s'.neighbors i = s.neighbors i := fun i => by unfold State.neighbors; rw [hs]
  have e2 : ∀ i, t'.neighbors i = t.neighbors i := fun i => by unfold State.neighbors; rw [ht]
  refine ⟨fun i hi hd => ?_, fun i hi hd j hj => ?_, fun i hi hd => ?_⟩
  · rw [e1, e2]; exact h.perm i (by rw [← hn]; exact hi) (by rw [← hty]; exact hd)
  · rw [e1] at hj
    have := h.lt i (by rw [← hn]; exact hi) (by rw [← hty]; exact hd) j hj
    rw [hn, hty]; exact this
  · rw [e1]; exact h.nodup i (by rw [← hn]; exact hi) (by rw [← hty]; exact hd)

theorem densC_psim {s t : State ℝ D ω} (h : PSim σ s t) (nb : PNb σ s t) :
    PSim σ (s.densC cfg) (t.densC cfg) ∧ PNb σ (s.densC cfg) (t.densC cfg) ∧ PN σ cfg (s.densC cfg) (t.densC cfg) := by
  refine ⟨⟨h.n, h.env, h.world, h.geom, h.ubs, h.ubt, h.lt, ?_⟩, pnb_of nb rfl rfl rfl (fun i => densC_ty _ _ _), ?_⟩
  · intro i hi
    have hi' : i < s.n := hi
    simp only [State.densC, h.n, (h.lt i).mpr hi', hi', if_true]
    rw [densCompute_psim h nb hi', h.ps i hi']
  · intro hc i hi
    have hi' : i < s.n := hi
    simp only [State.densC, hc, if_true, h.n, (h.lt i).mpr hi', hi']
    rw [densCompute_psim h nb hi']

/-- Agreement of the ECS buffer for active particles. -/
def PE (σ : Equiv.Perm Nat) (cfg : Config) (s t : State ℝ D ω) : Prop :=
  cfg.ecs = true → ∀ i, i < s.n → (s.ps i).ty.active = true → t.ecs (σ i) = s.ecs i

theorem densitySpeed_psim {s t : State ℝ D ω} (h : PSim σ s t) (nb : PNb σ s t) (hN : PN σ cfg s t) {i : Nat}
    (hi : i < s.n) (hd : (s.ps i).ty ≠ .disabled) : t.densitySpeed cfg (σ i) = s.densitySpeed cfg i := by
  have hps := h.ps i hi
  unfold State.densitySpeed
  rw [hps, h.env]
  have hacc : t.accumulate cfg (σ i) (0 : ℝ) (fun _ q =>
      let dx := q.x - (s.ps i).x
      let du := q.u - (s.ps i).u
      let r := norm2 dx
      dot dx du / (r * r * r)) = s.accumulate cfg i (0 : ℝ) (fun _ q =>
      let dx := q.x - (s.ps i).x
      let du := q.u - (s.ps i).u
      let r := norm2 dx
      dot dx du / (r * r * r)) :=
    h.accumulate nb add_right_comm cfg hi hd _ _ _ (fun hc => hN hc i hi) (fun j _ => rfl) (fun _ q => rfl)
  rw [hacc]
  cases hc : cfg.spp with
  | false => rfl
  | true => rw [hN hc i hi]

theorem ecsC_psim {s t : State ℝ D ω} (h : PSim σ s t) (nb : PNb σ s t) (hN : PN σ cfg s t) :
    PSim σ (s.ecsC cfg) (t.ecsC cfg) ∧ PNb σ (s.ecsC cfg) (t.ecsC cfg) ∧ PN σ cfg (s.ecsC cfg) (t.ecsC cfg) ∧
      PE σ cfg (s.ecsC cfg) (t.ecsC cfg) := by
  refine ⟨⟨h.n, h.env, h.world, h.geom, h.ubs, h.ubt, h.lt, h.ps⟩, ⟨nb.perm, nb.lt, nb.nodup⟩, hN, ?_⟩
  intro hc i hi ha
  have hi' : i < s.n := hi
  have ha' : (s.ps i).ty.active = true := ha
  have hd := (active_ne ha').1
  simp only [State.ecsC, hc, if_true, h.n, (h.lt i).mpr hi', hi', State.ecsCompute, h.ps i hi', ha', densitySpeed_psim h nb hN hi' hd, h.env,
    Option.getD_some]

/-- Agreement of the velocity corrections of fluid particles. -/
def PDu (σ : Equiv.Perm Nat) (s t : State ℝ D ω) : Prop :=
  ∀ i, i < s.n → (s.ps i).ty = .incompressibleNewton → t.du (σ i) = s.du i

theorem duC_psim {s t : State ℝ D ω} (h : PSim σ s t) (nb : PNb σ s t)
    (compute : State ℝ D ω → Nat → Option (Vec ℝ D))
    (hc : ∀ i, i < s.n → (s.ps i).ty = .incompressibleNewton →
      compute t (σ i) = compute s i ∧ (compute s i).isSome = true) :
    PSim σ (s.duC compute) (t.duC compute) ∧ PNb σ (s.duC compute) (t.duC compute) ∧
      PDu σ (s.duC compute) (t.duC compute) := by
  refine ⟨⟨h.n, h.env, h.world, h.geom, h.ubs, h.ubt, h.lt, h.ps⟩, ⟨nb.perm, nb.lt, nb.nodup⟩, ?_⟩
  intro i hi hty
  have hi' : i < s.n := hi
  obtain ⟨h1, h2⟩ := hc i hi' hty
  simp only [State.duC, h.n, (h.lt i).mpr hi', hi', if_true, h1]
  obtain ⟨v, hv⟩ := Option.isSome_iff_exists.mp h2
  rw [hv]; rfl

theorem accelCompute_psim {s t : State ℝ D ω} (h : PSim σ s t) (nb : PNb σ s t) (hN : PN σ cfg s t) {i : Nat}
    (hi : i < s.n) (hty : (s.ps i).ty = .incompressibleNewton) :
    State.accelCompute cfg t (σ i) = State.accelCompute cfg s i ∧ (State.accelCompute cfg s i).isSome = true := by
  have hd : (s.ps i).ty ≠ .disabled := by rw [hty]; simp
  have hps := h.ps i hi
  unfold State.accelCompute
  rw [hps, if_pos hty, if_pos hty]
  refine ⟨?_, rfl⟩
  have hv : ∀ j k q, t.viscFunc cfg (σ i) j q = s.viscFunc cfg i k q := by
    intro j k q; simp only [State.viscFunc, h.env, hps]
  have e1 := h.accumulate (A := Vec ℝ D) nb (add_right_comm (G := Vec ℝ D)) cfg hi hd 0 (s.viscFunc cfg i) (t.viscFunc cfg (σ i))
    (fun hc => hN hc i hi) (fun j _ => hv _ _ _) (fun _ q => hv _ _ _)
  have e2 : t.gravity cfg (σ i) = s.gravity cfg i := by simp only [State.gravity, h.env, hps]
  rw [e1, e2]

theorem moveC_psim {s t : State ℝ D ω} (h : PSim σ s t) (nb : PNb σ s t) (hD : PDu σ s t) {w w' : Walls ℝ D ω}
    (hw : w.Renumbered s.n σ w') :
    PSim σ (s.moveC w) (t.moveC w') ∧ PNb σ (s.moveC w) (t.moveC w') := by
  refine ⟨⟨h.n, h.env, h.world, h.geom, h.ubs, h.ubt, h.lt, ?_⟩, pnb_of nb rfl rfl rfl (fun i => moveC_ty _ _ _)⟩
  intro i hi
  have hi' : i < s.n := hi
  have hps := h.ps i hi'
  have hmv : t.moveCompute w' (σ i) = s.moveCompute w i := by
    unfold State.moveCompute
    rw [hps, h.env, h.world]
    simp only
    by_cases hty : (s.ps i).ty = .incompressibleNewton
    · rw [if_pos hty, if_pos hty, hD i hi' hty]
    · rw [if_neg hty, if_neg hty, hw.pos _ _ _ _ hi']
  simp only [State.moveC, h.n, (h.lt i).mpr hi', hi', if_true, hmv, hps]

theorem pushC_psim {s t : State ℝ D ω} (h : PSim σ s t) (nb : PNb σ s t) (hD : PDu σ s t) :
    PSim σ s.pushC t.pushC ∧ PNb σ s.pushC t.pushC := by
  refine ⟨⟨h.n, h.env, h.world, h.geom, h.ubs, h.ubt, h.lt, ?_⟩, pnb_of nb rfl rfl rfl (fun i => pushC_ty _ _)⟩
  intro i hi
  have hi' : i < s.n := hi
  have hps := h.ps i hi'
  simp only [State.pushC, h.n, (h.lt i).mpr hi', hi', true_and, hps, h.env]
  by_cases hty : (s.ps i).ty = .incompressibleNewton
  · rw [if_pos hty, if_pos hty, hD i hi' hty]
  · rw [if_neg hty, if_neg hty]

/-- Agreement of the saved positions of active particles. -/
def PO (σ : Equiv.Perm Nat) (cfg : Config) (s t : State ℝ D ω) : Prop :=
  cfg.ds = true → ∀ i, i < s.n → (s.ps i).ty.active = true → t.origX (σ i) = s.origX i

theorem saveX_psim {s t : State ℝ D ω} (h : PSim σ s t) (nb : PNb σ s t) :
    PSim σ (s.saveX cfg) (t.saveX cfg) ∧ PNb σ (s.saveX cfg) (t.saveX cfg) ∧ PO σ cfg (s.saveX cfg) (t.saveX cfg) := by
  cases hc : cfg.ds with
  | false =>
    have e1 : s.saveX cfg = s := by simp [State.saveX, hc]
    have e2 : t.saveX cfg = t := by simp [State.saveX, hc]
    rw [e1, e2]
    exact ⟨h, nb, fun hh => by rw [hc] at hh; cases hh⟩
  | true =>
    have e1 : s.saveX cfg = { s with origX := fun i => if i < s.n ∧ (s.ps i).ty.active then (s.ps i).x else s.origX i } := by
      simp [State.saveX, hc]
    have e2 : t.saveX cfg = { t with origX := fun i => if i < t.n ∧ (t.ps i).ty.active then (t.ps i).x else t.origX i } := by
      simp [State.saveX, hc]
    rw [e1, e2]
    refine ⟨⟨h.n, h.env, h.world, h.geom, h.ubs, h.ubt, h.lt, h.ps⟩, ⟨nb.perm, nb.lt, nb.nodup⟩, ?_⟩
    intro _ i hi ha
    have hi' : i < s.n := hi
    have ha' : (s.ps i).ty.active = true := ha
    simp only [h.n, (h.lt i).mpr hi', hi', h.ps i hi', ha', and_self, if_true]

/-! ### Linear system -/

theorem sum_renumber {n : Nat} (hlt : Renumbers n σ) (f g : Nat → ℝ) (h : ∀ i < n, g (σ i) = f i) :
    ∑ i ∈ Finset.range n, g i = ∑ i ∈ Finset.range n, f i := by
  symm
  refine Finset.sum_bij (fun i _ => σ i) ?_ ?_ ?_ ?_
  · intro i hi; exact Finset.mem_range.mpr ((hlt i).mpr (Finset.mem_range.mp hi))
  · intro i _ j _ hij; exact σ.injective hij
  · intro j hj
    refine ⟨σ.symm j, ?_, σ.apply_symm_apply j⟩
    have := hlt (σ.symm j)
    rw [σ.apply_symm_apply] at this
    exact Finset.mem_range.mpr (this.mp (Finset.mem_range.mp hj))
  · intro i hi; exact (h i (Finset.mem_range.mp hi)).symm

theorem sprod_perm {n : Nat} (hlt : Renumbers n σ) {A A' : Sparse ℝ} {v v' : Nat → ℝ}
    (hA : ∀ i < n, ∀ j < n, A' (σ i) (σ j) = A i j) (hv : ∀ i < n, v' (σ i) = v i) :
    ∀ i < n, sprod n A' v' (σ i) = sprod n A v i := by
  intro i hi
  rw [sprod_real, sprod_real]
  unfold applyMat entry
  exact sum_renumber hlt _ _ (fun j hj => by rw [hA i hi j hj, hv j hj])

theorem sdot_perm {n : Nat} (hlt : Renumbers n σ) {v v' w w' : Nat → ℝ} (hv : ∀ i < n, v' (σ i) = v i)
    (hw : ∀ i < n, w' (σ i) = w i) : sdot n v' w' = sdot n v w := by
  rw [sdot_real, sdot_real]
  exact sum_renumber hlt _ _ (fun j hj => by rw [hv j hj, hw j hj])

/-- Agreement of solver states up to renumbering. -/
structure CgP (n : Nat) (σ : Equiv.Perm Nat) (a b : CgState ℝ) : Prop where
  x : ∀ i < n, b.x (σ i) = a.x i
  r : ∀ i < n, b.r (σ i) = a.r i
  p : ∀ i < n, b.p (σ i) = a.p i
  rr : b.rr = a.rr
  conv : b.conv = a.conv

theorem cgStep_psim {n : Nat} (hlt : Renumbers n σ) {A A' : Sparse ℝ} (hA : ∀ i < n, ∀ j < n, A' (σ i) (σ j) = A i j) (res0 : ℝ)
    {a b : CgState ℝ} (h : CgP n σ a b) : CgP n σ (cgStep n A res0 a) (cgStep n A' res0 b) := by
  have hAp := sprod_perm hlt hA h.p
  have hal : b.rr / sdot n b.p (sprod n A' b.p) = a.rr / sdot n a.p (sprod n A a.p) := by
    rw [h.rr, sdot_perm hlt h.p hAp]
  have hr : ∀ i < n, b.r (σ i) - b.rr / sdot n b.p (sprod n A' b.p) * sprod n A' b.p (σ i)
      = a.r i - a.rr / sdot n a.p (sprod n A a.p) * sprod n A a.p i := by
    intro i hi; rw [hal, h.r i hi, hAp i hi]
  have hrr := sdot_perm hlt (v := fun i => a.r i - a.rr / sdot n a.p (sprod n A a.p) * sprod n A a.p i)
    (v' := fun i => b.r i - b.rr / sdot n b.p (sprod n A' b.p) * sprod n A' b.p i) hr
    (w := fun i => a.r i - a.rr / sdot n a.p (sprod n A a.p) * sprod n A a.p i)
    (w' := fun i => b.r i - b.rr / sdot n b.p (sprod n A' b.p) * sprod n A' b.p i) hr
  unfold cgStep
  simp only
  rw [hrr]
  split
  · refine ⟨fun i hi => ?_, hr, h.p, h.rr, rfl⟩
    simp only
    rw [hal, h.x i hi, h.p i hi]
  · refine ⟨fun i hi => ?_, hr, fun i hi => ?_, rfl, rfl⟩
    · simp only
      rw [hal, h.x i hi, h.p i hi]
    · simp only
      rw [hr i hi, h.rr, h.p i hi]

theorem cgLoop_psim {n : Nat} (hlt : Renumbers n σ) {A A' : Sparse ℝ} (hA : ∀ i < n, ∀ j < n, A' (σ i) (σ j) = A i j) (res0 : ℝ) (k : Nat) :
    ∀ {a b : CgState ℝ}, CgP n σ a b → CgP n σ (cgLoop n A res0 k a) (cgLoop n A' res0 k b) := by
  induction k with
  | zero => intro a b h; exact h
  | succ k ih =>
    intro a b h
    unfold cgLoop
    rw [h.conv]
    split
    · exact h
    · exact ih (cgStep_psim hlt hA res0 h)

theorem cgSolve_psim {n : Nat} (hlt : Renumbers n σ) {A A' : Sparse ℝ} {b b' x x' : Nat → ℝ} (eps : ℝ)
    (hA : ∀ i < n, ∀ j < n, A' (σ i) (σ j) = A i j) (hb : ∀ i < n, b' (σ i) = b i) (hx : ∀ i < n, x' (σ i) = x i) :
    (cgSolve n A' b' x' eps).2 = (cgSolve n A b x eps).2 ∧
    ∀ i < n, (cgSolve n A' b' x' eps).1 (σ i) = (cgSolve n A b x eps).1 i := by
  have hAp := sprod_perm hlt hA hx
  have hr : ∀ i < n, b' (σ i) - sprod n A' x' (σ i) = b i - sprod n A x i := by
    intro i hi; rw [hb i hi, hAp i hi]
  have hrr := sdot_perm hlt (v := fun i => b i - sprod n A x i) (v' := fun i => b' i - sprod n A' x' i) hr
    (w := fun i => b i - sprod n A x i) (w' := fun i => b' i - sprod n A' x' i) hr
  have h0 : (cgInit n A' b' x' eps).2 = (cgInit n A b x eps).2 := by
    simp only [cgInit]; rw [hrr]
  have h1 : CgP n σ (cgInit n A b x eps).1 (cgInit n A' b' x' eps).1 := by
    refine ⟨hx, hr, hr, hrr, ?_⟩
    simp only [cgInit]; rw [hrr]
  have h2 := cgLoop_psim hlt hA (cgInit n A b x eps).2 n h1
  unfold cgSolve
  simp only
  rw [h0]
  exact ⟨h2.conv, h2.x⟩

theorem fixedRow_psim {s t : State ℝ D ω} (h : PSim σ s t) {i : Nat} (hi : i < s.n) : t.fixedRow cfg (σ i) = s.fixedRow cfg i := by
  simp only [State.fixedRow, h.ps i hi, State.isSurface, h.env]

theorem rhsCompute_psim {s t : State ℝ D ω} (h : PSim σ s t) (nb : PNb σ s t) (hN : PN σ cfg s t) (hE : PE σ cfg s t)
    {i : Nat} (hi : i < s.n) : t.rhsCompute cfg (σ i) = s.rhsCompute cfg i := by
  unfold State.rhsCompute
  rw [fixedRow_psim h hi]
  by_cases hf : s.fixedRow cfg i = true
  · simp [hf]
  · obtain ⟨h1, h2, -⟩ := not_fixed (Bool.not_eq_true _ ▸ hf)
    have ha : (s.ps i).ty.active = true := by simp [PType.active, h1, h2]
    rw [if_neg hf, if_neg hf, densitySpeed_psim h nb hN hi h2, h.env, h.ps i hi]
    cases hc : cfg.ecs with
    | false => rfl
    | true => rw [hE hc i hi ha]

theorem rowOf_perm {l l' : List (Nat × ℝ)} (h : l'.Perm (l.map (fun e => (σ e.1, e.2)))) (hnd : (l.map (·.1)).Nodup) (j : Nat) :
    rowOf l' (σ j) = rowOf l j := by
  have hnd' : (l'.map (·.1)).Nodup := by
    have h1 : (l'.map (·.1)).Perm ((l.map (·.1)).map σ) := by
      refine (h.map _).trans (List.Perm.of_eq ?_)
      rw [List.map_map, List.map_map]; rfl
    exact h1.nodup_iff.mpr (hnd.map σ.injective)
  by_cases hj : ∃ v, (j, v) ∈ l
  · obtain ⟨v, hv⟩ := hj
    rw [rowOf_some hnd hv, rowOf_some hnd' (h.mem_iff.mpr (List.mem_map.mpr ⟨(j, v), hv, rfl⟩))]
  · rw [rowOf_none (l := l) (fun e he hej => hj ⟨e.2, by rw [← hej]; exact he⟩), rowOf_none]
    intro e he hej
    obtain ⟨e0, h0, h1⟩ := List.mem_map.mp (h.mem_iff.mp he)
    rw [← h1] at hej
    exact hj ⟨e0.2, by rw [← σ.injective hej]; exact h0⟩

theorem matCompute_psim {s t : State ℝ D ω} (h : PSim σ s t) (nb : PNb σ s t) (hN : PN σ cfg s t)
    {i : Nat} (hi : i < s.n) (j : Nat) : rowOf (t.matCompute cfg (σ i)) (σ j) = rowOf (s.matCompute cfg i) j := by
  unfold State.matCompute
  rw [fixedRow_psim h hi]
  by_cases hf : s.fixedRow cfg i = true
  · rw [if_pos hf, if_pos hf]
    exact rowOf_perm (l := [(i, (1 : ℝ))]) (l' := [(σ i, (1 : ℝ))]) (List.Perm.of_eq rfl) (List.nodup_singleton _) j
  · rw [if_neg hf, if_neg hf]
    obtain ⟨-, hd, -⟩ := not_fixed (Bool.not_eq_true _ ▸ hf)
    have hps := h.ps i hi
    have hpj : ∀ j ∈ s.neighbors i, t.ps (σ j) = s.ps j := fun j hj => h.ps j (nb.lt i hi hd j hj).1
    have hnp := nearList_perm s t i h.env (nb.perm i hi hd) (by rw [hps]) (fun j hj => by rw [hpj j hj])
    have hsub : ∀ j ∈ s.nearList i, j ∈ s.neighbors i := fun j hj => (List.mem_filter.mp hj).1
    have hco : ∀ r, t.coef cfg r = s.coef cfg r := by intro r; simp only [State.coef, h.env]
    have hsum : (t.accumulate cfg (σ i) ({ sum := 0, entries := [] } : RowAcc ℝ) (t.rowFunc cfg (σ i))).sum
        = (s.accumulate cfg i ({ sum := 0, entries := [] } : RowAcc ℝ) (s.rowFunc cfg i)).sum := by
      rw [accumulate_hom RowAcc.sum (fun _ _ => rfl), accumulate_hom RowAcc.sum (fun _ _ => rfl)]
      have hv : ∀ j k q, (t.rowFunc cfg (σ i) j q).sum = (s.rowFunc cfg i k q).sum := by
        intro j k q
        simp only [State.rowFunc, hco, hps]
        split <;> rfl
      exact h.accumulate nb add_right_comm cfg hi hd _ _ _ (fun hc => hN hc i hi) (fun j _ => hv _ _ _) (fun _ q => hv _ _ _)
    simp only
    rw [hsum, accumulate_entries, accumulate_entries]
    refine rowOf_perm ?_ ?_ j
    · rw [List.map_append]
      refine List.Perm.append ?_ (List.Perm.of_eq rfl)
      refine ((hnp.filter _).map _).trans (List.Perm.of_eq ?_)
      rw [List.filter_map, List.map_map, List.map_map]
      have e : (s.nearList i).filter ((fun j => decide ((t.ps j).ty ≠ .dummy) && !t.isSurface cfg (t.ps j).n) ∘ σ)
          = (s.nearList i).filter (fun j => decide ((s.ps j).ty ≠ .dummy) && !s.isSurface cfg (s.ps j).n) := by
        apply List.filter_congr
        intro k hk
        simp only [Function.comp, hpj k (hsub k hk), State.isSurface, h.env]
      rw [e]
      apply List.map_congr_left
      intro k hk
      have hk' := hsub k (List.mem_filter.mp hk).1
      simp only [Function.comp, hco, hps, hpj k hk']
    · rw [List.map_append, List.map_map]
      have : (fun x : Nat × ℝ => x.1) ∘ (fun j => (j, s.coef cfg (dist (s.ps i).x (s.ps j).x))) = id := rfl
      rw [this, List.map_id, List.nodup_append]
      refine ⟨((nb.nodup i hi hd).filter _).filter _, by simp, ?_⟩
      intro a ha b hb
      simp only [List.map_cons, List.map_nil, List.mem_singleton] at hb
      rw [hb]
      exact (nb.lt i hi hd a (hsub a (List.mem_filter.mp ha).1)).2.2

theorem ppeC_psim {s t : State ℝ D ω} (h : PSim σ s t) (nb : PNb σ s t) (hN : PN σ cfg s t) (hE : PE σ cfg s t) :
    (t.ppeC cfg).ppe.size = (s.ppeC cfg).ppe.size ∧
    (∀ i < s.n, (t.ppeC cfg).ppe.b (σ i) = (s.ppeC cfg).ppe.b i) ∧
    (∀ i < s.n, (t.ppeC cfg).ppe.x (σ i) = (s.ppeC cfg).ppe.x i) ∧
    (∀ i < s.n, ∀ j < s.n, (t.ppeC cfg).ppe.A (σ i) (σ j) = (s.ppeC cfg).ppe.A i j) := by
  refine ⟨h.n, ?_, ?_, ?_⟩
  · intro i hi; simp only [State.ppeC, h.n, (h.lt i).mpr hi, hi, if_true, rhsCompute_psim h nb hN hE hi]
  · intro i hi; simp only [State.ppeC, h.n, (h.lt i).mpr hi, hi, if_true, rhsCompute_psim h nb hN hE hi]
  · intro i hi j _
    simp only [State.ppeC, assemble_row, h.n, (h.lt i).mpr hi, hi, if_true]
    exact matCompute_psim h nb hN hi j

theorem presC_psim {s t : State ℝ D ω} (h : PSim σ s t) (nb : PNb σ s t) (c : State ℝ D ω → Nat → Option ℝ)
    (hc : ∀ i, i < s.n → c t (σ i) = c s i) :
    PSim σ (s.presC c) (t.presC c) ∧ PNb σ (s.presC c) (t.presC c) := by
  refine ⟨⟨h.n, h.env, h.world, h.geom, h.ubs, h.ubt, h.lt, ?_⟩, pnb_of nb rfl rfl rfl (fun i => presC_ty _ _ _)⟩
  intro i hi
  have hi' : i < s.n := hi
  simp only [State.presC, h.n, (h.lt i).mpr hi', hi', if_true, hc i hi', h.ps i hi']

theorem pressureC_psim {P P' : Params ℝ D ω} (hcfg : P'.cfg = P.cfg) (heps : P'.eps = P.eps) {s t : State ℝ D ω} (h : PSim σ s t)
    (nb : PNb σ s t) (hN : PN σ P.cfg s t) (hE : PE σ P.cfg s t) (hO : PO σ P.cfg s t) :
    ResSim (fun s t => PSim σ s t ∧ PNb σ s t ∧ PN σ P.cfg s t ∧ PO σ P.cfg s t) (PSim σ)
      (s.pressureC P) (t.pressureC P') := by
  unfold State.pressureC
  rw [hcfg, heps]
  cases hex : P.cfg.explicit with
  | true =>
    simp only [if_true]
    refine .ok ?_
    have hp := presC_psim h nb State.eosCompute (by
      intro i hi
      simp only [State.eosCompute, h.env, h.ps i hi])
    refine ⟨hp.1, hp.2, hN, ?_⟩
    intro hc i hi ha
    rw [presC_ty] at ha
    exact hO hc i hi ha
  | false =>
    simp only [Bool.false_eq_true, if_false]
    obtain ⟨p1, p2, p3, p4⟩ := ppeC_psim h nb hN hE
    have hsol := cgSolve_psim h.lt P.eps p4 p2 p3
    have hsz : (s.ppeC P.cfg).ppe.size = s.n := rfl
    have hsim1 : ∀ xs xt, PSim σ ((s.ppeC P.cfg).withX xs) ((t.ppeC P.cfg).withX xt) := by
      intro xs xt
      exact ⟨h.n, h.env, h.world, h.geom, h.ubs, h.ubt, h.lt, h.ps⟩
    rw [solvePpe_withX, solvePpe_withX, p1, hsz, hsol.1]
    cases hconv : (cgSolve s.n (s.ppeC P.cfg).ppe.A (s.ppeC P.cfg).ppe.b (s.ppeC P.cfg).ppe.x P.eps).2 with
    | false =>
      simp only [Bool.false_eq_true, if_false, Res.andThen, Res.bind]
      exact .exn (hsim1 _ _)
    | true =>
      simp only [if_true, Res.andThen, Res.bind]
      refine .ok ?_
      have hp := presC_psim (hsim1 (cgSolve s.n (s.ppeC P.cfg).ppe.A (s.ppeC P.cfg).ppe.b (s.ppeC P.cfg).ppe.x P.eps).1
          (cgSolve s.n (t.ppeC P.cfg).ppe.A (t.ppeC P.cfg).ppe.b (t.ppeC P.cfg).ppe.x P.eps).1) (by exact ⟨nb.perm, nb.lt, nb.nodup⟩)
          (State.presCompute P.cfg) (by
        intro i hi
        have hi' : i < s.n := hi
        have hps : t.ps (σ i) = s.ps i := h.ps i hi'
        have e1 := presCompute_withX P.cfg (t.ppeC P.cfg)
          (cgSolve s.n (t.ppeC P.cfg).ppe.A (t.ppeC P.cfg).ppe.b (t.ppeC P.cfg).ppe.x P.eps).1 t.env (t.ps (σ i)) (σ i) rfl rfl
        have e2 := presCompute_withX P.cfg (s.ppeC P.cfg)
          (cgSolve s.n (s.ppeC P.cfg).ppe.A (s.ppeC P.cfg).ppe.b (s.ppeC P.cfg).ppe.x P.eps).1 s.env (s.ps i) i rfl rfl
        rw [e1, e2, hsol.2 i hi', hps, h.env])
      refine ⟨hp.1, hp.2, hN, ?_⟩
      intro hc i hi ha
      rw [presC_ty] at ha
      exact hO hc i hi ha

theorem gradCompute_psim {s t : State ℝ D ω} (h : PSim σ s t) (nb : PNb σ s t) (hN : PN σ cfg s t) {i : Nat}
    (hi : i < s.n) (hty : (s.ps i).ty = .incompressibleNewton) :
    State.gradCompute cfg t (σ i) = State.gradCompute cfg s i ∧ (State.gradCompute cfg s i).isSome = true := by
  have hd : (s.ps i).ty ≠ .disabled := by rw [hty]; simp
  have hps := h.ps i hi
  unfold State.gradCompute
  rw [hps, if_pos hty, if_pos hty, h.env]
  simp only
  have k1 : t.accumulate cfg (σ i) (0 : Mat ℝ D) (t.gcMatFunc (σ i)) = s.accumulate cfg i (0 : Mat ℝ D) (s.gcMatFunc i) := by
    have hv : ∀ j k q, t.gcMatFunc (σ i) j q = s.gcMatFunc i k q := by intro j k q; simp only [State.gcMatFunc, hps, h.env]
    exact h.accumulate (A := Mat ℝ D) nb (add_right_comm (G := Mat ℝ D)) cfg hi hd 0 _ _ (fun hc => hN hc i hi) (fun j _ => hv _ _ _) (fun _ q => hv _ _ _)
  have k2 : ∀ C, t.accumulate cfg (σ i) (0 : Vec ℝ D) (t.gcFunc cfg (σ i) C) = s.accumulate cfg i (0 : Vec ℝ D) (s.gcFunc cfg i C) := by
    intro C
    have hv : ∀ j k q, t.gcFunc cfg (σ i) C j q = s.gcFunc cfg i C k q := by intro j k q; simp only [State.gcFunc, hps, h.env]
    exact h.accumulate (A := Vec ℝ D) nb (add_right_comm (G := Vec ℝ D)) cfg hi hd 0 _ _ (fun hc => hN hc i hi) (fun j _ => hv _ _ _) (fun _ q => hv _ _ _)
  have k3 : t.accumulate cfg (σ i) (0 : Vec ℝ D) (t.gradFunc (σ i)) = s.accumulate cfg i (0 : Vec ℝ D) (s.gradFunc i) := by
    have hv : ∀ j k q, t.gradFunc (σ i) j q = s.gradFunc i k q := by intro j k q; simp only [State.gradFunc, hps, h.env]
    exact h.accumulate (A := Vec ℝ D) nb (add_right_comm (G := Vec ℝ D)) cfg hi hd 0 _ _ (fun hc => hN hc i hi) (fun j _ => hv _ _ _) (fun _ q => hv _ _ _)
  rw [k1, k2, k3]
  refine ⟨rfl, ?_⟩
  split <;> rfl

theorem dsCompute_psim {s t : State ℝ D ω} (h : PSim σ s t) (nb : PNb σ s t) (hN : PN σ cfg s t) (hO : PO σ cfg s t)
    (hds : cfg.ds = true) {i : Nat} (hi : i < s.n) (hty : (s.ps i).ty = .incompressibleNewton) :
    State.dsCompute cfg t (σ i) = State.dsCompute cfg s i ∧ (State.dsCompute cfg s i).isSome = true := by
  have hd : (s.ps i).ty ≠ .disabled := by rw [hty]; simp
  have hps := h.ps i hi
  have hoi : t.origX (σ i) = s.origX i := hO hds i hi (by rw [hty]; rfl)
  unfold State.dsCompute
  rw [hps, if_pos hty, if_pos hty, h.env]
  simp only
  refine ⟨?_, rfl⟩
  congr 2
  refine h.accumulate (A := Vec ℝ D) nb (add_right_comm (G := Vec ℝ D)) cfg hi hd 0 _ _ (fun hc => hN hc i hi) (fun j hj => ?_) (fun hc q => ?_)
  · obtain ⟨hj1, hj2, -⟩ := nb.lt i hi hd j hj
    unfold State.dsFunc
    have e1 : (0 : Int) ≤ ((σ j : Nat) : Int) := Int.natCast_nonneg _
    have e2 : (0 : Int) ≤ ((j : Nat) : Int) := Int.natCast_nonneg _
    by_cases hdum : (s.ps j).ty ≠ .dummy
    · have hoj : t.origX (σ j) = s.origX j := hO hds j hj1 (by simp [PType.active, hdum, hj2])
      rw [if_pos (show (s.ps j).ty ≠ .dummy ∧ (cfg.spp = false ∨ 0 ≤ ((σ j : Nat) : Int)) from ⟨hdum, Or.inr e1⟩),
        if_pos (show (s.ps j).ty ≠ .dummy ∧ (cfg.spp = false ∨ 0 ≤ ((j : Nat) : Int)) from ⟨hdum, Or.inr e2⟩)]
      simp only [Int.toNat_natCast, hoj, hoi, hps]
    · rw [if_neg (fun hh => hdum hh.1), if_neg (fun hh => hdum hh.1)]
  · unfold State.dsFunc
    rw [if_neg, if_neg]
    · rintro ⟨-, h1 | h1⟩
      · rw [hc] at h1; cases h1
      · omega
    · rintro ⟨-, h1 | h1⟩
      · rw [hc] at h1; cases h1
      · omega

theorem midC_psim {P P' : Params ℝ D ω} (hcfg : P'.cfg = P.cfg) {s t : State ℝ D ω} (hw : P.walls.Renumbered s.n σ P'.walls)
    (h : PSim σ s t) (nb : PNb σ s t) :
    PSim σ (s.midC P) (t.midC P') ∧ PNb σ (s.midC P) (t.midC P') ∧ PN σ P.cfg (s.midC P) (t.midC P') ∧
      PE σ P.cfg (s.midC P) (t.midC P') ∧ PO σ P.cfg (s.midC P) (t.midC P') := by
  obtain ⟨a1, a2, a3⟩ := densC_psim (cfg := P.cfg) h nb
  obtain ⟨b1, b2, b3, b4⟩ := ecsC_psim a1 a2 a3
  obtain ⟨c1, c2, c3⟩ := duC_psim b1 b2 (State.accelCompute P.cfg) (fun i hi hty => accelCompute_psim b1 b2 b3 hi hty)
  set s3 := ((s.densC P.cfg).ecsC P.cfg).duC (State.accelCompute P.cfg) with hs3
  set t3 := ((t.densC P.cfg).ecsC P.cfg).duC (State.accelCompute P.cfg) with ht3
  have d1 : PSim σ (s3.preC P.walls) (t3.preC P'.walls) := by
    refine ⟨c1.n, c1.env, ?_, c1.geom, c1.ubs, c1.ubt, c1.lt, c1.ps⟩
    simp only [State.preC, c1.world, c1.env, hw.pre]
  have d2 : PNb σ (s3.preC P.walls) (t3.preC P'.walls) := ⟨c2.perm, c2.lt, c2.nodup⟩
  obtain ⟨e1, e2⟩ := moveC_psim d1 d2 (by exact c3) (by exact hw)
  obtain ⟨f1, f2, f3⟩ := densC_psim (cfg := P.cfg) e1 e2
  obtain ⟨g1, g2, g3⟩ := saveX_psim (cfg := P.cfg) f1 f2
  unfold State.midC
  rw [hcfg]
  refine ⟨g1, g2, ?_, ?_, g3⟩
  · intro hc i hi
    rw [saveX_n] at hi
    rw [saveX_nNoSpp, saveX_nNoSpp]
    exact f3 hc i hi
  · intro hc i hi ha
    rw [saveX_n] at hi
    have hi' : i < s.n := hi
    have e := midC_ty P s i
    unfold State.midC at e
    rw [e] at ha
    have := b4 hc i hi' (by
      change ((s.densC P.cfg).ps i).ty.active = true
      rw [densC_ty]; exact ha)
    rw [saveX_ecs, saveX_ecs]
    exact this

theorem afterSearch_psim {P P' : Params ℝ D ω} (hcfg : P'.cfg = P.cfg) (heps : P'.eps = P.eps) {s t : State ℝ D ω}
    (hw : P.walls.Renumbered s.n σ P'.walls) (h : PSim σ s t) (nb : PNb σ s t) :
    ResSim (PSim σ) (PSim σ) (s.afterSearch P) (t.afterSearch P') := by
  obtain ⟨h1, h2, h3, h4, h5⟩ := midC_psim hcfg hw h nb
  unfold State.afterSearch
  refine (pressureC_psim hcfg heps h1 h2 h3 h4 h5).andThen ?_
  rintro a b ⟨k1, k2, k3, k4⟩
  obtain ⟨c1, c2, c3⟩ := duC_psim k1 k2 (State.gradCompute P.cfg) (fun i hi hty => gradCompute_psim k1 k2 k3 hi hty)
  obtain ⟨d1, d2⟩ := pushC_psim c1 c2 c3
  refine .ok ?_
  rw [hcfg]
  cases hds : P.cfg.ds with
  | false =>
    have e1 : (a.gradC P.cfg).dsC P.cfg = a.gradC P.cfg := by simp [State.dsC, hds]
    have e2 : (b.gradC P.cfg).dsC P.cfg = b.gradC P.cfg := by simp [State.dsC, hds]
    rw [e1, e2]
    exact d1
  | true =>
    have e1 : (a.gradC P.cfg).dsC P.cfg = ((a.gradC P.cfg).duC (State.dsCompute P.cfg)).pushC := by simp [State.dsC, hds]
    have e2 : (b.gradC P.cfg).dsC P.cfg = ((b.gradC P.cfg).duC (State.dsCompute P.cfg)).pushC := by simp [State.dsC, hds]
    rw [e1, e2]
    have hN' : PN σ P.cfg (a.gradC P.cfg) (b.gradC P.cfg) := k3
    have hO' : PO σ P.cfg (a.gradC P.cfg) (b.gradC P.cfg) := by
      intro hc i hi ha
      rw [gradC_ty] at ha
      exact k4 hc i hi ha
    have d1' : PSim σ (a.gradC P.cfg) (b.gradC P.cfg) := d1
    have d2' : PNb σ (a.gradC P.cfg) (b.gradC P.cfg) := d2
    obtain ⟨f1, f2, f3⟩ := duC_psim d1' d2' (State.dsCompute P.cfg)
      (fun i hi hty => dsCompute_psim d1' d2' hN' hO' hds hi hty)
    exact (pushC_psim f1 f2 f3).1

/-! ### Search -/

theorem range_map_perm {n : Nat} (hlt : Renumbers n σ) : (List.range n).Perm ((List.range n).map σ) := by
  refine (List.perm_ext_iff_of_nodup List.nodup_range (List.nodup_range.map σ.injective)).mpr ?_
  intro j
  rw [List.mem_range, List.mem_map]
  constructor
  · intro hj
    refine ⟨σ.symm j, ?_, σ.apply_symm_apply j⟩
    have := hlt (σ.symm j)
    rw [σ.apply_symm_apply] at this
    exact List.mem_range.mpr (this.mp hj)
  · rintro ⟨i, hi, rfl⟩
    exact (hlt i).mpr (List.mem_range.mp hi)

theorem PSim.leaving {s t : State ℝ D ω} (h : PSim σ s t) {i : Nat} (hi : i < s.n) :
    t.leaving (σ i) = s.leaving i ∧ t.staying (σ i) = s.staying i := by
  constructor <;>
  · simp only [State.leaving, State.staying, h.ps i hi, h.geom.block, h.geom.inRange]

/-- Particles of a block. -/
noncomputable def State.inBlk (s : State ℝ D ω) (c : Blk D) (j : Nat) : Bool := s.staying j && decide (s.grid.block? (s.ps j).x = some c)

theorem count_perm {s t : State ℝ D ω} (h : PSim σ s t) (c : Blk D) :
    (List.range t.n).countP (t.inBlk c) = (List.range s.n).countP (s.inBlk c) := by
  rw [h.n, (range_map_perm (n := s.n) h.lt).countP_eq, List.countP_map]
  apply List.countP_congr
  intro i hi
  have hi : i < s.n := by simpa using hi
  simp only [Function.comp, State.inBlk, (h.leaving hi).2, h.ps i hi, h.geom.block]

/-- Number of particles a block holds after storing some of them. -/
theorem count_store {s : State ℝ D ω} {is : List Nat} {g : Grid ℝ D} {c : Blk D} (hc : s.grid.inRange c = true)
    (hseq : s.grid.cleared.storeSeq (({ s with grid := s.grid.cleared } : State ℝ D ω).storeLog is) = some g) :
    g.count c = is.countP (s.inBlk c) ∧ g.count c ≤ s.grid.cap := by
  obtain ⟨h1, h2, h3, h4⟩ := storeSeq_contents hseq
  constructor
  · have e : g.count c = (g.contents c).length := by simp [Grid.contents]
    rw [e, h2, cleared_contents hc, List.nil_append]
    unfold logBlock State.storeLog
    rw [List.length_map, List.filter_map, List.length_map, List.filter_filter, List.countP_eq_length_filter]
    congr 1
    apply List.filter_congr
    intro j _
    simp only [Function.comp, State.inBlk, (cleared_geom s.grid).block]
    rw [(leaving_congr (s := s) (s' := { s with grid := s.grid.cleared }) (cleared_geom s.grid) rfl).2, Bool.and_comm]
  · have := h3 c (by rw [cleared_count hc]; exact Nat.zero_le _)
    rw [h1.cap] at this
    exact this

/-- A search that finds a block full means that more particles belong into it than fit. -/
theorem full_count {s : State ℝ D ω} {j : Nat} {g g' : Grid ℝ D} (hj : j < s.n) (hd : (s.ps j).ty ≠ .disabled)
    (hseq : s.grid.cleared.storeSeq (({ s with grid := s.grid.cleared } : State ℝ D ω).storeLog (List.range j)) = some g)
    (hfull : g.store (s.ps j).x j = .full g') :
    ∃ c, s.grid.inRange c = true ∧ s.grid.cap < (List.range s.n).countP (s.inBlk c) := by
  have hgeom : SameGeom s.grid g := (cleared_geom s.grid).trans (storeSeq_contents hseq).1
  obtain ⟨-, b, hb, hr, hcap⟩ := store_full hfull
  rw [hgeom.block] at hb
  rw [hgeom.inRange] at hr
  rw [hgeom.cap] at hcap
  refine ⟨b, hr, ?_⟩
  rw [(count_store hr hseq).1] at hcap
  have hjb : s.inBlk b j = true := by simp [State.inBlk, State.staying, hd, hb, hr]
  have h1 : (List.range (j + 1)).countP (s.inBlk b) = (List.range j).countP (s.inBlk b) + 1 := by
    rw [List.range_succ, List.countP_append, List.countP_singleton, hjb, if_pos rfl]
  have h2 : (List.range (j + 1)).countP (s.inBlk b) ≤ (List.range s.n).countP (s.inBlk b) :=
    (List.range_sublist.mpr hj).countP_le
  omega

theorem nbrList_perm {s t : State ℝ D ω} (h : PSim σ s t) {i : Nat} (hi : i < s.n)
    (hn1 : (s.nbrList i).Nodup) (hn2 : (t.nbrList (σ i)).Nodup) : (t.nbrList (σ i)).Perm ((s.nbrList i).map σ) := by
  refine (List.perm_ext_iff_of_nodup hn2 (hn1.map σ.injective)).mpr ?_
  have key : ∀ j, σ j ∈ t.nbrList (σ i) ↔ j ∈ s.nbrList i := by
    intro j
    unfold State.nbrList
    rw [h.ps i hi, h.geom.block, h.n, h.env]
    cases hb : s.grid.block? (s.ps i).x with
    | none => simp
    | some b =>
      simp only [List.mem_flatMap, List.mem_filter, List.mem_range]
      refine exists_congr (fun o => and_congr_right (fun _ => ?_))
      rw [h.lt j]
      refine and_congr_right (fun hj => ?_)
      rw [h.ps j hj, h.geom.block]
      have : (σ j ≠ σ i) = (j ≠ i) := by
        simp only [ne_eq, EmbeddingLike.apply_eq_iff_eq]
      simp only [this]
  intro j
  rw [List.mem_map]
  constructor
  · intro hj
    refine ⟨σ.symm j, ?_, σ.apply_symm_apply j⟩
    rw [← key, σ.apply_symm_apply]; exact hj
  · rintro ⟨k, hk, rfl⟩
    exact (key k).mpr hk

theorem nbrList_nodup {F : Type} [Scalar F] (s : State F D ω) (i : Nat) : (s.nbrList i).Nodup := by
  unfold State.nbrList
  split
  · exact List.nodup_nil
  · rename_i b hb
    rw [List.nodup_flatMap]
    refine ⟨fun o _ => List.nodup_range.filter _, (nodup_offsets D).imp ?_⟩
    intro o o' hoo j hj hj'
    simp only [List.mem_filter, Bool.and_eq_true, decide_eq_true_eq] at hj hj'
    have h1 := hj.2.1.1.2
    have h2 := hj'.2.1.1.2
    rw [h1] at h2
    injection h2 with h2
    exact hoo (add_left_cancel h2)

theorem search_psim {s t : State ℝ D ω} (h : PSim σ s t) {sch sch' : List Ev} (hv : ValidSched s.n sch)
    (hv' : ValidSched s.n sch') (hok : s.grid.ClearOK) :
    ResSim (fun s t => PSim σ s t ∧ PNb σ s t) (fun _ _ => True) (s.searchNeighbor sch) (t.searchNeighbor sch') ∧
      s.searchNeighbor sch ≠ .ub ∧ ∀ e a, s.searchNeighbor sch = .exn e a → e = .gridFull := by
  have hok' : t.grid.ClearOK := h.geom.clearOK.mpr hok
  have hvt : ValidSched t.n sch' := by rw [h.n]; exact hv'
  rcases searchNeighbor_spec s sch hv hok h.ubs with ⟨g, k1, k2, k3⟩ | ⟨j, g, g', k1, k2, k3, k4, k5, k6⟩ | ⟨j, k1, k2, k3, k4⟩
  · rcases searchNeighbor_spec t sch' hvt hok' h.ubt with ⟨f, l1, l2, l3⟩ | ⟨j, f, f', l1, l2, l3, l4, l5, l6⟩ | ⟨j, l1, l2, l3, l4⟩
    · rw [k3, l3]
      refine ⟨.ok ?_, by simp, by simp⟩
      obtain ⟨m1, -⟩ := marked_facts s g k1 k2
      obtain ⟨m2, -⟩ := marked_facts t f l1 l2
      set m := State.marked ({ s with grid := s.grid.cleared }) (List.range s.n) g with hm
      set m' := State.marked ({ t with grid := t.grid.cleared }) (List.range t.n) f with hm'
      have hsim : PSim σ m m' := by
        refine ⟨h.n, h.env, h.world, m1.symm.trans (h.geom.trans m2), h.ubs, h.ubt, h.lt, ?_⟩
        intro i hi
        have hi' : i < s.n := hi
        have e1 : ({ s with grid := s.grid.cleared } : State ℝ D ω).leaving i = s.leaving i :=
          (leaving_congr (s := s) (s' := { s with grid := s.grid.cleared }) (cleared_geom s.grid) rfl).1
        have e2 : ({ t with grid := t.grid.cleared } : State ℝ D ω).leaving (σ i) = t.leaving (σ i) :=
          (leaving_congr (s := t) (s' := { t with grid := t.grid.cleared }) (cleared_geom t.grid) rfl).1
        have q1 : m.ps i = if s.leaving i = true then (s.ps i).disable else s.ps i := by
          simp only [hm, State.marked, List.mem_range, hi', true_and, e1]
        have hti : σ i < t.n := by rw [h.n]; exact (h.lt i).mpr hi'
        have q2 : m'.ps (σ i) = if t.leaving (σ i) = true then (t.ps (σ i)).disable else t.ps (σ i) := by
          simp only [hm', State.marked, List.mem_range, hti, true_and, e2]
        rw [q1, q2, (h.leaving hi').1, h.ps i hi']
      refine ⟨⟨h.n, h.env, h.world, hsim.geom, h.ubs, h.ubt, h.lt, hsim.ps⟩, ⟨?_, ?_, ?_⟩⟩
      · intro i hi hd
        rw [neighbors_withRows m i hi hd, neighbors_withRows m' (σ i) (by rw [hsim.n]; exact (hsim.lt i).mpr hi)
          (by rw [hsim.ps i hi]; exact hd)]
        exact nbrList_perm hsim hi (nbrList_nodup _ _) (nbrList_nodup _ _)
      · intro i hi hd j hj
        rw [neighbors_withRows m i hi hd] at hj
        obtain ⟨h1, h2, h3, -⟩ := nbrList_mem hj
        exact ⟨h1, h2, h3⟩
      · intro i hi hd
        rw [neighbors_withRows m i hi hd]
        exact nbrList_nodup _ _
    · exfalso
      obtain ⟨c, hc, hlt⟩ := full_count l1 l2 l4 l5
      rw [count_perm h, h.geom.cap] at hlt
      rw [h.geom.inRange] at hc
      have := count_store hc k1
      omega
    · rw [block_real] at l3; cases l3
  · rw [k6]
    refine ⟨?_, by simp, by rintro e a ⟨rfl, -⟩; rfl⟩
    rcases searchNeighbor_spec t sch' hvt hok' h.ubt with ⟨f, l1, l2, l3⟩ | ⟨j', f, f', l1, l2, l3, l4, l5, l6⟩ | ⟨j', l1, l2, l3, l4⟩
    · exfalso
      obtain ⟨c, hc, hlt⟩ := full_count k1 k2 k4 k5
      rw [← count_perm h, ← h.geom.cap] at hlt
      rw [← h.geom.inRange] at hc
      have := count_store hc l1
      omega
    · rw [l6]; exact .exn trivial
    · rw [block_real] at l3; cases l3
  · rw [block_real] at k3; cases k3

/-- Outcome of a step in two states that agree up to renumbering: both return, both fail in the solver (and the states still agree), or both
find a block of the grid full. -/
theorem forwardTime_psim {P P' : Params ℝ D ω} (hcfg : P'.cfg = P.cfg) (heps : P'.eps = P.eps) {s t : State ℝ D ω}
    (hw : P.walls.Renumbered s.n σ P'.walls) (h : PSim σ s t) {sch sch' : Schedule} (dt : ℝ)
    (hv : sch.Valid s.n) (hv' : sch'.Valid s.n) (hok : s.grid.ClearOK) :
    (∃ a b, s.forwardTime P sch dt = .ok a ∧ t.forwardTime P' sch' dt = .ok b ∧ PSim σ a b) ∨
    (∃ a b, s.forwardTime P sch dt = .exn .solver a ∧ t.forwardTime P' sch' dt = .exn .solver b ∧ PSim σ a b) ∨
    (∃ a b, s.forwardTime P sch dt = .exn .gridFull a ∧ t.forwardTime P' sch' dt = .exn .gridFull b) := by
  rw [forwardTime_eq P sch dt s hv, forwardTime_eq P' sch' dt t (by rw [h.n]; exact hv')]
  have h0 : PSim σ (s.start dt) (t.start dt) := by
    refine ⟨h.n, ?_, h.world, h.geom, h.ubs, h.ubt, h.lt, h.ps⟩
    simp only [State.start, h.env]
  obtain ⟨h1, h2, h3⟩ := search_psim h0 (hv 0) (hv' 0) hok
  cases hs : (s.start dt).searchNeighbor (sch 0) with
  | ub => exact absurd hs h2
  | exn e a =>
    rw [hs] at h1
    obtain rfl := h3 e a hs
    cases ht : (t.start dt).searchNeighbor (sch' 0) with
    | ub => rw [ht] at h1; cases h1
    | ok b => rw [ht] at h1; cases h1
    | exn e' b =>
      rw [ht] at h1
      cases h1
      exact Or.inr (Or.inr ⟨a, b, rfl, rfl⟩)
  | ok a =>
    rw [hs] at h1
    cases ht : (t.start dt).searchNeighbor (sch' 0) with
    | ub => rw [ht] at h1; cases h1
    | exn e' b => rw [ht] at h1; cases h1
    | ok b =>
      rw [ht] at h1
      cases h1 with
      | ok h1 =>
        have hn : a.n = s.n := searchNeighbor_n (s.start dt) a _ (hv 0) hs
        have h4 := afterSearch_psim hcfg heps (s := a) (t := b) (by rw [hn]; exact hw) h1.1 h1.2
        simp only [Res.andThen, Res.bind]
        cases hr : a.afterSearch P with
        | ok a' =>
          rw [hr] at h4
          generalize b.afterSearch P' = rb at h4 ⊢
          cases h4 with
          | ok h4 => exact Or.inl ⟨_, _, rfl, rfl, h4⟩
        | exn e a' =>
          have he : e = .solver := by
            unfold State.afterSearch at hr
            cases hp : (a.midC P).pressureC P with
            | ok c => rw [hp] at hr; cases hr
            | ub => rw [hp] at hr; cases hr
            | exn e' c =>
              rw [hp] at hr
              simp only [Res.andThen, Res.bind] at hr
              injection hr with hr1 hr2
              rw [← hr1]
              unfold State.pressureC at hp
              split at hp
              · cases hp
              · rw [solvePpe_withX] at hp
                split at hp
                · cases hp
                · simp only [Res.andThen, Res.bind] at hp
                  injection hp with hp1 hp2
                  exact hp1.symm
          rw [hr] at h4
          generalize b.afterSearch P' = rb at h4 ⊢
          cases h4 with
          | exn h4 => rw [he]; exact Or.inr (Or.inl ⟨_, _, rfl, rfl, h4⟩)
        | ub =>
          exfalso
          unfold State.afterSearch at hr
          cases hp : (a.midC P).pressureC P with
          | ok c => rw [hp] at hr; cases hr
          | exn e' c => rw [hp] at hr; cases hr
          | ub =>
            unfold State.pressureC at hp
            split at hp
            · cases hp
            · rw [solvePpe_withX] at hp
              split at hp <;> cases hp

end OpenMps
