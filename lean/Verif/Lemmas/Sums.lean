import Verif.Lemmas.Real
import Verif.Lemmas.Frame

/-! # Interaction sums over the reals as finite sums over the near particles -/

set_option linter.unusedSectionVars false

namespace OpenMps

variable {D : Nat} {ω : Type}

/-- The neighbour table is sound: lists without repetition, of other enabled particles, symmetric. -/
structure NbrOK (s : State ℝ D ω) : Prop where
  nodup : ∀ i, i < s.n → (s.ps i).ty ≠ .disabled → (s.neighbors i).Nodup
  mem : ∀ i, i < s.n → (s.ps i).ty ≠ .disabled → ∀ j ∈ s.neighbors i, j < s.n ∧ j ≠ i ∧ (s.ps j).ty ≠ .disabled
  symm : ∀ i j, i < s.n → j < s.n → (s.ps i).ty ≠ .disabled → (s.ps j).ty ≠ .disabled →
    (j ∈ s.neighbors i ↔ i ∈ s.neighbors j)

theorem NbrOK.congr {s t : State ℝ D ω} (h : NbrOK s) (hn : t.n = s.n) (hnb : t.nbr = s.nbr)
    (hty : ∀ i, (t.ps i).ty = (s.ps i).ty) : NbrOK t := by
  have e : ∀ i, t.neighbors i = s.neighbors i := by intro i; unfold State.neighbors; rw [hnb]
  constructor
  · intro i hi hd; rw [e]; rw [hn] at hi; rw [hty] at hd; exact h.nodup i hi hd
  · intro i hi hd j hj
    rw [e] at hj; rw [hn] at hi ⊢; rw [hty] at hd ⊢; exact h.mem i hi hd j hj
  · intro i j hi hj hd hd'
    rw [e, e]; rw [hn] at hi hj; rw [hty] at hd hd'; exact h.symm i j hi hj hd hd'

/-- The listed neighbours of `i` that are now closer than `r_e`. -/
noncomputable def State.near (s : State ℝ D ω) (i : Nat) : Finset Nat :=
  (Finset.range s.n).filter (fun j => j ∈ s.neighbors i ∧ dist (s.ps j).x (s.ps i).x < s.env.re)

theorem mem_near {s : State ℝ D ω} {i j : Nat} :
    j ∈ s.near i ↔ j < s.n ∧ j ∈ s.neighbors i ∧ dist (s.ps j).x (s.ps i).x < s.env.re := by
  simp [State.near]

theorem NbrOK.near_ne {s : State ℝ D ω} (h : NbrOK s) {i j : Nat} (hi : i < s.n) (hd : (s.ps i).ty ≠ .disabled)
    (hj : j ∈ s.near i) : j < s.n ∧ j ≠ i ∧ (s.ps j).ty ≠ .disabled := h.mem i hi hd j (mem_near.mp hj).2.1

theorem NbrOK.near_symm {s : State ℝ D ω} (h : NbrOK s) {i j : Nat} (hi : i < s.n) (hj : j < s.n)
    (hd : (s.ps i).ty ≠ .disabled) (hd' : (s.ps j).ty ≠ .disabled) : j ∈ s.near i ↔ i ∈ s.near j := by
  rw [mem_near, mem_near, h.symm i j hi hj hd hd', dist_comm']
  exact ⟨fun k => ⟨hi, k.2⟩, fun k => ⟨hj, k.2⟩⟩

theorem foldl_pair_ite {α A B : Type} [AddCommMonoid A] [AddCommMonoid B] (p : α → Prop) [DecidablePred p]
    (f : α → A) (g : α → B) (l : List α) (z : A × B) :
    l.foldl (fun acc j => if p j then (acc.1 + f j, acc.2 + g j) else acc) z
      = (z.1 + ((l.filter p).map f).sum, z.2 + ((l.filter p).map g).sum) := by
  induction l generalizing z with
  | nil => simp
  | cons a l ih =>
    rw [List.foldl_cons, ih]
    by_cases h : p a
    · simp [h, add_assoc]
    · simp [h]

section
variable {s : State ℝ D ω}

theorem accLoop_real {A : Type} [AddCommMonoid A] (i : Nat) (func : Int → Particle ℝ D → A) (hre : 0 ≤ s.env.re)
    (hnd : (s.neighbors i).Nodup) (hmem : ∀ j ∈ s.neighbors i, j < s.n ∧ j ≠ i) :
    s.accLoop i (0 : A) func = (∑ j ∈ s.near i, func (j : Int) (s.ps j),
      ∑ j ∈ s.near i, smul (W (dist (s.ps j).x (s.ps i).x) s.env.re) ((s.ps j).x - (s.ps i).x)) := by
  classical
  have e : s.accLoop i (0 : A) func = (s.neighbors i).foldl (fun acc j =>
      if j ≠ i ∧ dist (s.ps j).x (s.ps i).x < s.env.re then
        (acc.1 + func (j : Int) (s.ps j),
          acc.2 + smul (W (dist (s.ps j).x (s.ps i).x) s.env.re) ((s.ps j).x - (s.ps i).x)) else acc) (0, 0) := by
    unfold State.accLoop
    simp only
    congr 1
    funext acc j
    by_cases h : j ≠ i
    · rw [if_pos h]
      by_cases h2 : dist (s.ps j).x (s.ps i).x < s.env.re
      · rw [if_pos (lt_real_iff.mpr ((lt_sq_iff hre).mpr h2)), if_pos ⟨h, h2⟩]; rfl
      · rw [if_neg (fun hc => h2 ((lt_sq_iff hre).mp (lt_real_iff.mp hc))), if_neg (fun hc => h2 hc.2)]
    · rw [if_neg h, if_neg (fun hc => h hc.1)]
  have key : ((s.neighbors i).filter (fun j => decide (j ≠ i ∧ dist (s.ps j).x (s.ps i).x < s.env.re))).toFinset = s.near i := by
    ext j
    rw [List.mem_toFinset, List.mem_filter, mem_near, decide_eq_true_eq]
    constructor
    · rintro ⟨h1, h2, h3⟩; exact ⟨(hmem j h1).1, h1, h3⟩
    · rintro ⟨h1, h2, h3⟩; exact ⟨h2, (hmem j h2).2, h3⟩
  have hnd' := hnd.filter (fun j => decide (j ≠ i ∧ dist (s.ps j).x (s.ps i).x < s.env.re))
  have := foldl_pair_ite (A := A) (B := Vec ℝ D) (fun j => j ≠ i ∧ dist (s.ps j).x (s.ps i).x < s.env.re)
    (fun j => func (j : Int) (s.ps j))
    (fun j => smul (W (dist (s.ps j).x (s.ps i).x) s.env.re) ((s.ps j).x - (s.ps i).x)) (s.neighbors i) (0, 0)
  rw [e]
  refine Eq.trans this ?_
  rw [← key, List.sum_toFinset _ hnd', List.sum_toFinset _ hnd']
  simp only [zero_add]

/-- The centre of gravity sum. -/
noncomputable def State.dxg (s : State ℝ D ω) (i : Nat) : Vec ℝ D :=
  ∑ j ∈ s.near i, smul (W (dist (s.ps j).x (s.ps i).x) s.env.re) ((s.ps j).x - (s.ps i).x)

/-- Contribution of the virtual particle. -/
noncomputable def State.sppTerm {A : Type} [AddCommMonoid A] (cfg : Config) (s : State ℝ D ω) (i : Nat)
    (func : Int → Particle ℝ D → A) : A :=
  if cfg.spp then
    match s.sppParticle i (s.dxg i) with
    | some q => func (-1) q
    | none => 0
  else 0

theorem accumulate_real {A : Type} [AddCommMonoid A] (cfg : Config) (i : Nat) (func : Int → Particle ℝ D → A)
    (hre : 0 ≤ s.env.re) (h : NbrOK s) (hi : i < s.n) (hd : (s.ps i).ty ≠ .disabled) :
    s.accumulate cfg i (0 : A) func = ∑ j ∈ s.near i, func (j : Int) (s.ps j) + s.sppTerm cfg i func := by
  unfold State.accumulate
  rw [accLoop_real i func hre (h.nodup i hi hd) (fun j hj => ⟨(h.mem i hi hd j hj).1, (h.mem i hi hd j hj).2.1⟩)]
  simp only
  unfold State.sppTerm
  split
  · rw [show (∑ j ∈ s.near i, smul (W (dist (s.ps j).x (s.ps i).x) s.env.re) ((s.ps j).x - (s.ps i).x)) = s.dxg i from rfl]
    cases s.sppParticle i (s.dxg i) with
    | some q => rfl
    | none => simp
  · simp

/-- The virtual particle, if there is one, is a fluid particle with the velocity of `i` and pressure 0. -/
theorem sppParticle_some {i : Nat} {v : Vec ℝ D} {q : Particle ℝ D} (h : s.sppParticle i v = some q) :
    s.nNoSpp i < s.env.n0 ∧ q.u = (s.ps i).u ∧ q.p = 0 ∧ q.ty = .incompressibleNewton := by
  unfold State.sppParticle at h
  simp only at h
  split at h
  · rename_i h1
    split at h
    · injection h with h
      rw [← h]
      exact ⟨lt_real_iff.mp h1, rfl, rfl, rfl⟩
    · cases h
  · cases h

/-- Antisymmetric interactions cancel in the sum over all particles. -/
theorem sum_antisymm {A : Type} [AddCommGroup A] (S : Finset Nat) (near : Nat → Finset Nat)
    (hsub : ∀ i ∈ S, near i ⊆ S) (hsym : ∀ i ∈ S, ∀ j ∈ S, j ∈ near i ↔ i ∈ near j) (f : Nat → Nat → A)
    (hf : ∀ i ∈ S, ∀ j ∈ near i, f j i = - f i j) (htwo : ∀ a : A, a + a = 0 → a = 0) :
    ∑ i ∈ S, ∑ j ∈ near i, f i j = 0 := by
  classical
  apply htwo
  have h1 : ∑ i ∈ S, ∑ j ∈ near i, f i j = ∑ i ∈ S, ∑ j ∈ S, if j ∈ near i then f i j else 0 := by
    apply Finset.sum_congr rfl
    intro i hi
    rw [← Finset.sum_filter]
    apply Finset.sum_congr _ (fun _ _ => rfl)
    ext j
    rw [Finset.mem_filter]
    exact ⟨fun h => ⟨hsub i hi h, h⟩, fun h => h.2⟩
  have h2 : ∑ i ∈ S, ∑ j ∈ near i, f i j = ∑ i ∈ S, ∑ j ∈ S, if i ∈ near j then f j i else 0 := by
    rw [h1, Finset.sum_comm]
  calc (∑ i ∈ S, ∑ j ∈ near i, f i j) + ∑ i ∈ S, ∑ j ∈ near i, f i j
      = (∑ i ∈ S, ∑ j ∈ S, if j ∈ near i then f i j else 0) + ∑ i ∈ S, ∑ j ∈ S, if i ∈ near j then f j i else 0 := by
        rw [← h1, ← h2]
    _ = ∑ i ∈ S, ∑ j ∈ S, ((if j ∈ near i then f i j else 0) + if i ∈ near j then f j i else 0) := by
        rw [← Finset.sum_add_distrib]
        exact Finset.sum_congr rfl (fun i _ => Finset.sum_add_distrib.symm)
    _ = 0 := by
        apply Finset.sum_eq_zero
        intro i hi
        apply Finset.sum_eq_zero
        intro j hj
        by_cases h : j ∈ near i
        · rw [if_pos h, if_pos ((hsym i hi j hj).mp h), hf i hi j h, add_neg_cancel]
        · rw [if_neg h, if_neg (fun hc => h ((hsym i hi j hj).mpr hc)), add_zero]

/-- Symmetric form of a double sum. -/
theorem sum_symm {A : Type} [AddCommMonoid A] (S : Finset Nat) (near : Nat → Finset Nat)
    (hsub : ∀ i ∈ S, near i ⊆ S) (hsym : ∀ i ∈ S, ∀ j ∈ S, j ∈ near i ↔ i ∈ near j) (f : Nat → Nat → A) :
    ∑ i ∈ S, ∑ j ∈ near i, f i j = ∑ i ∈ S, ∑ j ∈ near i, f j i := by
  classical
  have h1 : ∀ g : Nat → Nat → A, ∑ i ∈ S, ∑ j ∈ near i, g i j = ∑ i ∈ S, ∑ j ∈ S, if j ∈ near i then g i j else 0 := by
    intro g
    apply Finset.sum_congr rfl
    intro i hi
    rw [← Finset.sum_filter]
    apply Finset.sum_congr _ (fun _ _ => rfl)
    ext j
    rw [Finset.mem_filter]
    exact ⟨fun h => ⟨hsub i hi h, h⟩, fun h => h.2⟩
  rw [h1, h1 (fun i j => f j i), Finset.sum_comm]
  apply Finset.sum_congr rfl
  intro i hi
  apply Finset.sum_congr rfl
  intro j hj
  by_cases h : j ∈ near i
  · rw [if_pos h, if_pos ((hsym i hi j hj).mp h)]
  · rw [if_neg h, if_neg (fun hc => h ((hsym i hi j hj).mpr hc))]

theorem vec_two {a : Vec ℝ D} (h : a + a = 0) : a = 0 := by
  funext k
  have := congrFun h k
  change a k + a k = 0 at this
  change a k = 0
  linarith

end

end OpenMps
