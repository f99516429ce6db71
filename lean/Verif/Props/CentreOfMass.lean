import Verif.Props.Local
import Verif.Props.Momentum

set_option linter.unusedSectionVars false

/-! # Property C62: the centre of mass of a free body -/

namespace OpenMps

open Ref

variable {D : Nat} {ω : Type}

/-- Forces that are opposite in pairs cancel. -/
theorem pairs_cancel (B : Finset ℕ) (N : ℕ → Finset ℕ) (hN : ∀ i ∈ B, N i ⊆ B) (hs : ∀ i ∈ B, ∀ j ∈ B, j ∈ N i ↔ i ∈ N j) (f : ℕ → ℕ → Fin D → ℝ)
    (hf : ∀ i j, f j i = -f i j) : ∑ i ∈ B, ∑ j ∈ N i, f i j = 0 := by
  have h1 : ∑ i ∈ B, ∑ j ∈ N i, f i j = ∑ j ∈ B, ∑ i ∈ N j, f i j := by
    apply Finset.sum_comm'
    intro i j
    constructor
    · rintro ⟨hi, hj⟩
      exact ⟨(hs i hi j (hN i hi hj)).mp hj, hN i hi hj⟩
    · rintro ⟨hi, hj⟩
      exact ⟨hN j hj hi, (hs j hj i (hN j hj hi)).mp hi⟩
  have h2 : ∑ j ∈ B, ∑ i ∈ N j, f i j = -∑ j ∈ B, ∑ i ∈ N j, f j i := by
    rw [← Finset.sum_neg_distrib]
    refine Finset.sum_congr rfl (fun j _ => ?_)
    rw [← Finset.sum_neg_distrib]
    exact Finset.sum_congr rfl (fun i _ => hf j i)
  have h3 := h1.trans h2
  have h4 : (2 : ℝ) • ∑ i ∈ B, ∑ j ∈ N i, f i j = 0 := by
    rw [two_smul]
    nth_rewrite 2 [h3]
    exact add_neg_cancel _
  exact (smul_eq_zero.mp h4).resolve_left two_ne_zero

/-- The body: fluid, and nobody else within the search radius. -/
structure FreeBody (S : Setting D) (B : Finset ℕ) : Prop where
  mem : ∀ i ∈ B, i < S.n ∧ S.Fluid i
  apart : ∀ i ∈ B, ∀ j, j < S.n → S.ty j ≠ .disabled → j ∉ B → S.env.neighborLength ≤ len (S.start j - S.start i)

namespace FreeBody

variable {S : Setting D} {B : Finset ℕ} (h : FreeBody S B)
include h

theorem sub (x : ℕ → Fin D → ℝ) : ∀ i ∈ B, S.nearSolid x i ⊆ B := by
  intro i hi j hj
  obtain ⟨h1, h2, h3, h4, -⟩ := mem_near_ref.mp (mem_nearSolid.mp hj).1
  by_contra hc
  exact absurd h4 (not_lt.mpr (h.apart i hi j h1 h3 hc))

theorem symm (x : ℕ → Fin D → ℝ) : ∀ i ∈ B, ∀ j ∈ B, j ∈ S.nearSolid x i ↔ i ∈ S.nearSolid x j := by
  have key : ∀ i ∈ B, ∀ j ∈ B, j ∈ S.nearSolid x i → i ∈ S.nearSolid x j := by
    intro i hi j hj hn
    obtain ⟨h1, h2, h3, h4, h5⟩ := mem_near_ref.mp (mem_nearSolid.mp hn).1
    have hf := (h.mem i hi).2
    have e : S.ty i = .incompressibleNewton := hf
    refine mem_nearSolid.mpr ⟨mem_near_ref.mpr ⟨(h.mem i hi).1, h2.symm, by rw [e]; decide, ?_, ?_⟩, by rw [e]; decide⟩
    · rw [len_sub_comm]; exact h4
    · rw [len_sub_comm]; exact h5
  exact fun i hi j hj => ⟨key i hi j hj, key j hj i hi⟩

theorem cancel (x : ℕ → Fin D → ℝ) (f : ℕ → ℕ → Fin D → ℝ) (hf : ∀ i j, f j i = -f i j) : ∑ i ∈ B, ∑ j ∈ S.nearSolid x i, f i j = 0 :=
  pairs_cancel B _ (h.sub x) (h.symm x) f hf

theorem acceleration (hcg : S.cfg.centralGravity = false) (x u : ℕ → Fin D → ℝ) :
    ∑ i ∈ B, S.acceleration x u i = (B.card : ℝ) • S.env.g := by
  unfold Setting.acceleration Setting.gravity
  simp only [hcg]
  rw [Finset.sum_add_distrib, ← Finset.smul_sum, h.cancel x (fun i j => S.laplace (len (x j - x i)) • (u j - u i)) (fun i j => by
    rw [len_sub_comm, ← neg_sub (u j) (u i), smul_neg])]
  simp [← Nat.cast_smul_eq_nsmul ℝ]

theorem push {s : Scene D} (hgc : S.cfg.gc = false) (hv : ∀ i ∈ B, ¬ S.HasVirtual s.x i) : ∑ i ∈ B, S.push s i = 0 := by
  classical
  unfold Setting.push
  simp only [hgc, Bool.false_eq_true, if_false]
  rw [← Finset.smul_sum]
  have e : ∀ i ∈ B, S.force s i = ∑ j ∈ S.nearSolid s.x i,
      ((s.p j + s.p i) / len (s.x j - s.x i) ^ 2 * weight S.env.re (len (s.x j - s.x i))) • (s.x j - s.x i) := by
    intro i hi
    unfold Setting.force
    rw [if_neg (hv i hi), add_zero]
  rw [Finset.sum_congr rfl e, h.cancel s.x (fun i j => ((s.p j + s.p i) / len (s.x j - s.x i) ^ 2 * weight S.env.re (len (s.x j - s.x i))) • (s.x j - s.x i))
    (fun i j => by rw [len_sub_comm, add_comm, ← neg_sub (s.x j) (s.x i), smul_neg]), smul_zero]

theorem stabilise (old : ℕ → Fin D → ℝ) (s : Scene D) : ∑ i ∈ B, S.stabilise old s i = 0 := by
  classical
  unfold Setting.stabilise
  simp only
  rw [← Finset.smul_sum]
  refine (congrArg _ (h.cancel s.x _ (fun i j => ?_))).trans (smul_zero _)
  rw [len_sub_comm (s.x i) (s.x j)]
  split
  · have e1 : s.x i - s.x j = -(s.x j - s.x i) := (neg_sub _ _).symm
    have e2 : (1 / len (old i - old j)) • (old i - old j) = -((1 / len (old j - old i)) • (old j - old i)) := by
      rw [len_sub_comm (old i) (old j), ← neg_sub (old j) (old i), smul_neg]
    rw [e1, e2]
    set e := (1 / len (old j - old i)) • (old j - old i)
    set d := s.x j - s.x i
    have e3 : prod (-d) (-e) = prod d e := by unfold prod; simp
    have e4 : ∀ v : Fin D → ℝ, len (-v) = len v := by intro v; unfold len; simp
    rw [e3, smul_neg, smul_neg]
    congr 2
    rw [show -d - -(prod d e • e) = -(d - prod d e • e) by abel, e4]
  · simp

/-- The sum of the velocities after a step. -/
theorem step {eps : ℝ} {b a : Scene D} (hgc : S.cfg.gc = false) (hcg : S.cfg.centralGravity = false)
    (hv : ∀ i ∈ B, ¬ S.HasVirtual (S.predict b).x i) (ha : S.step eps b = some a) :
    ∑ i ∈ B, a.u i = ∑ i ∈ B, b.u i + ((B.card : ℝ) * S.env.dt) • S.env.g := by
  classical
  unfold Setting.step at ha
  rw [Option.map_eq_some_iff] at ha
  obtain ⟨p, -, rfl⟩ := ha
  set q : Scene D := { S.predict b with p := p } with hq
  have hkick : ∀ (c : Scene D) (dv : ℕ → Fin D → ℝ), ∑ i ∈ B, (S.kick dv c).u i = ∑ i ∈ B, c.u i + ∑ i ∈ B, dv i := by
    intro c dv
    rw [← Finset.sum_add_distrib]
    exact Finset.sum_congr rfl (fun i hi => if_pos (h.mem i hi).2)
  have h1 : ∑ i ∈ B, q.u i = ∑ i ∈ B, b.u i + ((B.card : ℝ) * S.env.dt) • S.env.g := by
    have e : ∀ i ∈ B, q.u i = b.u i + S.env.dt • S.acceleration b.x b.u i := fun i hi => if_pos (h.mem i hi).2
    rw [Finset.sum_congr rfl e, Finset.sum_add_distrib, ← Finset.smul_sum, h.acceleration hcg, smul_smul, mul_comm]
  have h2 : ∑ i ∈ B, (S.kick (S.push q) q).u i = ∑ i ∈ B, q.u i := by
    rw [hkick, h.push (s := q) hgc hv, add_zero]
  unfold Setting.finish
  simp only
  split
  · rw [hkick, h.stabilise, add_zero, h2, h1]
  · rw [h2, h1]

end FreeBody

/-- **C62.**  A body of fluid `B` that stays more than a search radius away from all other enabled particles (walls, other fluid) is not accelerated by internal
forces: over any number of steps its centre of mass moves like a single free-falling particle.  Without GC and CENTRAL_GRAVITY, in both modes, with or without DS
and HS, HL, ECS; with SPP if no particle of the body lacks neighbours (`N() > n0`). -/
theorem C62_centre_of_mass_falls_freely {P : Params ℝ D ω} {env : Env ℝ D} {w : ω} {s0 : State ℝ D ω} {ds : List ℝ} (hD : D = 2 ∨ D = 3)
    (hnew : State.new? env w = some s0) (hok : s0.grid.ClearOK)
    (hL : 0 < env.neighborLength) (hre : 0 ≤ env.re) (hgc : P.cfg.gc = false) (hcg : P.cfg.centralGravity = false)
    (st : ℕ → State ℝ D ω) (hist : Hist P s0 ds (st 0)) (sch : ℕ → Schedule) (hv : ∀ k, (sch k).Valid (st 0).n)
    (dt : ℕ → ℝ) (hdt : ∀ k, dt k ≠ 0) (N : ℕ) (hstep : ∀ k, k < N → (st k).forwardTime P (sch k) (dt k) = .ok (st (k + 1)))
    (B : Finset ℕ) (hB : ∀ i ∈ B, i < (st 0).n ∧ ((st N).ps i).ty = .incompressibleNewton)
    (hapart : ∀ k, k < N → ∀ i ∈ B, ∀ j, j < (st 0).n → j ∉ B → ((st (k + 1)).ps j).ty ≠ .disabled →
      env.neighborLength ≤ dist ((st k).ps i).x ((st k).ps j).x)
    (hspp : P.cfg.spp = false ∨ ∀ k, k < N → ∀ i ∈ B, env.n0 < ((st (k + 1)).ps i).n) :
    (∑ i ∈ B, ((st N).ps i).u = ∑ i ∈ B, ((st 0).ps i).u + ((B.card : ℝ) * ∑ k ∈ Finset.range N, dt k) • env.g) ∧
    (∑ i ∈ B, ((st N).ps i).x = ∑ i ∈ B, ((st 0).ps i).x + (∑ k ∈ Finset.range N, dt k) • ∑ i ∈ B, ((st 0).ps i).u +
      ((B.card : ℝ) * ∑ k ∈ Finset.range N, dt k * ∑ m ∈ Finset.range (k + 1), dt m) • env.g) := by
  classical
  have hh : ∀ k, k ≤ N → (∃ dts, Hist P s0 dts (st k)) ∧ (st k).n = (st 0).n := by
    intro k
    induction k with
    | zero => intro _; exact ⟨⟨_, hist⟩, rfl⟩
    | succ k ih =>
      intro hk
      obtain ⟨⟨d, h1⟩, h2⟩ := ih (by omega)
      have hv2 : (sch k).Valid (st k).n := by rw [h2]; exact hv k
      exact ⟨⟨_, .forward (sch k) (dt k) h1 hv2 (Or.inl (hstep k (by omega)))⟩, (step_frame hv2 (Or.inl (hstep k (by omega)))).1.trans h2⟩
  -- the body consists of fluid all the time
  have hback : ∀ k, k ≤ N → ∀ i ∈ B, ((st (N - k)).ps i).ty = .incompressibleNewton := by
    intro k
    induction k with
    | zero => intro _ i hi; exact (hB i hi).2
    | succ k ih =>
      intro hk i hi
      have hn := (hh (N - (k + 1)) (by omega)).2
      have hv2 : (sch (N - (k + 1))).Valid (st (N - (k + 1))).n := by rw [hn]; exact hv _
      have hs := hstep (N - (k + 1)) (by omega)
      have hi' := ih (by omega) i hi
      rw [show N - k = N - (k + 1) + 1 by omega] at hi'
      rcases (step_frame hv2 (Or.inl hs)).2.2.2.2 i with q | ⟨-, -, q, -⟩
      · rw [← q]; exact hi'
      · rw [q] at hi'; cases hi'
  have hty : ∀ k, k ≤ N → ∀ i ∈ B, ((st k).ps i).ty = .incompressibleNewton := by
    intro k hk i hi
    have := hback (N - k) (by omega) i hi
    rwa [show N - (N - k) = k by omega] at this
  have one : ∀ k, k < N → ∑ i ∈ B, ((st (k + 1)).ps i).u = ∑ i ∈ B, ((st k).ps i).u + ((B.card : ℝ) * dt k) • env.g := by
    intro k hk
    obtain ⟨⟨d, h1⟩, h2⟩ := hh k (by omega)
    have hvk : (sch k).Valid (st k).n := by rw [h2]; exact hv k
    have hs := hstep k hk
    obtain ⟨a, ha, ka⟩ := C42_step_is_the_reference_function hD hnew h1 hok hL hre (sch k) hvk (dt k) hs
    have hc := hist_consts hnew h1
    set S := setting P (st k) (dt k) with hS
    have hlt : ∀ i ∈ B, i < (st k).n := fun i hi => by rw [h2]; exact (hB i hi).1
    have hfree : FreeBody S B := by
      refine ⟨fun i hi => ⟨hlt i hi, ?_⟩, fun i hi j hj hd hn => ?_⟩
      · change S.ty i = _
        rw [← (ka i (hlt i hi)).1]
        exact hty (k + 1) (by omega) i hi
      · have := hapart k hk i hi j (by rw [← h2]; exact hj) hn (by rw [(ka j hj).1]; exact hd)
        have e : S.env.neighborLength = env.neighborLength := by change (st k).env.neighborLength = _; rw [hc]
        rw [e]
        change _ ≤ len (((st k).ps j).x - ((st k).ps i).x)
        rw [len_sub, dist_comm']
        exact this
    have hvirt : ∀ i ∈ B, ¬ S.HasVirtual (S.predict (scene (st k))).x i := by
      rintro i hi ⟨c1, c2, -⟩
      rcases hspp with c | c
      · exact absurd c1 (by change ¬ P.cfg.spp = true; rw [c]; decide)
      · have c3 := c k hk i hi
        have e0 : S.env.n0 = env.n0 := by change (st k).env.n0 = _; rw [hc]
        obtain ⟨p, hp, hfin⟩ : ∃ p, S.pressure P.eps (scene (st k)) (S.predict (scene (st k))) = some p ∧
            S.finish { S.predict (scene (st k)) with p := p } = a := by
          unfold Setting.step at ha
          rwa [Option.map_eq_some_iff] at ha
        have e1 : a.dens i = (S.predict (scene (st k))).dens i := by
          rw [← hfin]
          unfold Setting.finish
          simp only
          split <;> rfl
        have hact : S.Active i := by
          have := (hfree.mem i hi).2
          have e : S.ty i = .incompressibleNewton := this
          exact ⟨by rw [e]; decide, by rw [e]; decide⟩
        have e2 : (S.predict (scene (st k))).dens i = max (S.density (S.predict (scene (st k))).x i) S.env.n0 := by
          change S.reported (S.predict (scene (st k))).x _ i = _
          unfold Setting.reported
          rw [if_pos hact, if_pos c1]
        rw [(ka i (hlt i hi)).2.2.2.2, e1, e2, max_eq_right c2.le, e0] at c3
        exact absurd c3 (lt_irrefl _)
    have hr := hfree.step hgc hcg hvirt ha
    have e1 : ∀ i ∈ B, ((st (k + 1)).ps i).u = a.u i := fun i hi => (ka i (hlt i hi)).2.2.1
    rw [Finset.sum_congr rfl e1, hr]
    have eg : S.env.g = env.g := by change (st k).env.g = _; rw [hc]
    rw [eg]
    rfl
  have hx1 : ∀ k, k < N → ∑ i ∈ B, ((st (k + 1)).ps i).x = ∑ i ∈ B, ((st k).ps i).x + dt k • ∑ i ∈ B, ((st (k + 1)).ps i).u := by
    intro k hk
    have h2 := (hh k (by omega)).2
    have hvk : (sch k).Valid (st k).n := by rw [h2]; exact hv k
    rw [Finset.smul_sum, ← Finset.sum_add_distrib]
    exact Finset.sum_congr rfl (fun i hi => C41_position_advances_by_new_velocity hvk (hdt k) (hstep k hk) i (by rw [h2]; exact (hB i hi).1))
  have hU : ∀ k, k ≤ N → ∑ i ∈ B, ((st k).ps i).u = ∑ i ∈ B, ((st 0).ps i).u + ((B.card : ℝ) * ∑ m ∈ Finset.range k, dt m) • env.g := by
    intro k
    induction k with
    | zero => intro _; simp
    | succ k ih =>
      intro hk
      rw [one k (by omega), ih (by omega), Finset.sum_range_succ, mul_add, add_smul, add_assoc]
  refine ⟨hU N le_rfl, ?_⟩
  have hX : ∀ k, k ≤ N → ∑ i ∈ B, ((st k).ps i).x = ∑ i ∈ B, ((st 0).ps i).x + (∑ m ∈ Finset.range k, dt m) • ∑ i ∈ B, ((st 0).ps i).u +
      ((B.card : ℝ) * ∑ l ∈ Finset.range k, dt l * ∑ m ∈ Finset.range (l + 1), dt m) • env.g := by
    intro k
    induction k with
    | zero => intro _; simp
    | succ k ih =>
      intro hk
      rw [hx1 k (by omega), ih (by omega), hU (k + 1) hk, Finset.sum_range_succ (fun m => dt m) k,
        Finset.sum_range_succ (fun l => dt l * ∑ m ∈ Finset.range (l + 1), dt m) k, Finset.sum_range_succ (fun m => dt m) k]
      module
  exact hX N le_rfl

end OpenMps
