import Verif.Lemmas.Accuracy
import Verif.Props.ReferenceStep

set_option linter.unusedSectionVars false

/-! # Two scenes that agree around some particles (towards C61) -/

namespace OpenMps

open Ref

variable {D : Nat}

/-- Two settings agree on the particles `A K`; what is seen from `A k` lies in `A (k + 1)`. -/
structure Shared (S S' : Setting D) (A : ℕ → ℕ → Prop) (K : ℕ) : Prop where
  cfg : S'.cfg = S.cfg
  env : S'.env = S.env
  mono : ∀ {k i}, k < K → A k i → A (k + 1) i
  mem : ∀ {i}, A K i → i < S.n ∧ i < S'.n ∧ S'.ty i = S.ty i ∧ S'.start i = S.start i ∧ S'.callback i = S.callback i
  closed : ∀ {k i j}, k < K → A k i → j < S.n → j ≠ i → S.ty j ≠ .disabled → len (S.start j - S.start i) < S.env.neighborLength → A (k + 1) j
  closed' : ∀ {k i j}, k < K → A k i → j < S'.n → j ≠ i → S'.ty j ≠ .disabled → len (S'.start j - S'.start i) < S.env.neighborLength → A (k + 1) j

namespace Shared

variable {S S' : Setting D} {A : ℕ → ℕ → Prop} {K : ℕ} (h : Shared S S' A K)
include h

theorem up {k : ℕ} (hk : k ≤ K) {i : ℕ} (hi : A k i) : A K i := by
  have key : ∀ m, k ≤ m → m ≤ K → A m i := by
    intro m hm
    induction m, hm using Nat.le_induction with
    | base => intro _; exact hi
    | succ m _ ih => intro hmK; exact h.mono (by omega) (ih (by omega))
  exact key K hk (le_refl _)

variable {x x' u u' : ℕ → Fin D → ℝ} {k i : ℕ}

theorem near (hk : k < K) (hi : A k i) (hx : ∀ j, A (k + 1) j → x' j = x j) : S'.near x' i = S.near x i := by
  have hiK := h.mem (h.up hk.le hi)
  have hxi := hx i (h.mono hk hi)
  ext j
  rw [mem_near_ref, mem_near_ref, h.env]
  constructor
  · rintro ⟨h1, h2, h3, h4, h5⟩
    have hj := h.closed' hk hi h1 h2 h3 h4
    have hjK := h.mem (h.up hk hj)
    refine ⟨hjK.1, h2, by rw [← hjK.2.2.1]; exact h3, by rw [← hjK.2.2.2.1, ← hiK.2.2.2.1]; exact h4, by rw [← hx j hj, ← hxi]; exact h5⟩
  · rintro ⟨h1, h2, h3, h4, h5⟩
    have hj := h.closed hk hi h1 h2 h3 h4
    have hjK := h.mem (h.up hk hj)
    refine ⟨hjK.2.1, h2, by rw [hjK.2.2.1]; exact h3, by rw [hjK.2.2.2.1, hiK.2.2.2.1]; exact h4, by rw [hx j hj, hxi]; exact h5⟩

theorem near_in (hk : k < K) (hi : A k i) {j : ℕ} (hj : j ∈ S.near x i) : A (k + 1) j := by
  rw [mem_near_ref] at hj
  exact h.closed hk hi hj.1 hj.2.1 hj.2.2.1 hj.2.2.2.1

theorem nearSolid (hk : k < K) (hi : A k i) (hx : ∀ j, A (k + 1) j → x' j = x j) : S'.nearSolid x' i = S.nearSolid x i := by
  ext j
  rw [mem_nearSolid, mem_nearSolid, h.near hk hi hx]
  constructor
  · rintro ⟨h1, h2⟩
    exact ⟨h1, by rw [← (h.mem (h.up hk (h.near_in hk hi h1))).2.2.1]; exact h2⟩
  · rintro ⟨h1, h2⟩
    exact ⟨h1, by rw [(h.mem (h.up hk (h.near_in hk hi h1))).2.2.1]; exact h2⟩

theorem fluid (hk : k ≤ K) (hi : A k i) : S'.Fluid i ↔ S.Fluid i := by
  unfold Setting.Fluid; rw [(h.mem (h.up hk hi)).2.2.1]

theorem active (hk : k ≤ K) (hi : A k i) : S'.Active i ↔ S.Active i := by
  unfold Setting.Active; rw [(h.mem (h.up hk hi)).2.2.1]

theorem laplace (r : ℝ) : S'.laplace r = S.laplace r := by
  unfold Setting.laplace; rw [h.cfg, h.env]

theorem gravity (v : Fin D → ℝ) : S'.gravity v = S.gravity v := by
  unfold Setting.gravity; rw [h.cfg, h.env]

theorem acceleration (hk : k < K) (hi : A k i) (hx : ∀ j, A (k + 1) j → x' j = x j) (hu : ∀ j, A (k + 1) j → u' j = u j) :
    S'.acceleration x' u' i = S.acceleration x u i := by
  have hiK := h.mono hk hi
  unfold Setting.acceleration
  rw [h.nearSolid hk hi hx, h.env, h.gravity, hx i hiK]
  congr 2
  refine Finset.sum_congr rfl (fun j hj => ?_)
  have := h.near_in hk hi (mem_nearSolid.mp hj).1
  rw [h.laplace, hx j this, hu j this, hu i hiK]

theorem density (hk : k < K) (hi : A k i) (hx : ∀ j, A (k + 1) j → x' j = x j) : S'.density x' i = S.density x i := by
  unfold Setting.density
  rw [h.near hk hi hx, h.env]
  refine Finset.sum_congr rfl (fun j hj => ?_)
  rw [hx j (h.near_in hk hi hj), hx i (h.mono hk hi)]

theorem offset (hk : k < K) (hi : A k i) (hx : ∀ j, A (k + 1) j → x' j = x j) : S'.offset x' i = S.offset x i := by
  unfold Setting.offset
  rw [h.near hk hi hx, h.env]
  congr 1
  refine Finset.sum_congr rfl (fun j hj => ?_)
  rw [hx j (h.near_in hk hi hj), hx i (h.mono hk hi)]

theorem hasVirtual (hk : k < K) (hi : A k i) (hx : ∀ j, A (k + 1) j → x' j = x j) : S'.HasVirtual x' i ↔ S.HasVirtual x i := by
  unfold Setting.HasVirtual
  rw [h.density hk hi hx, h.offset hk hi hx, h.env, h.cfg]

theorem virtual (hk : k < K) (hi : A k i) (hx : ∀ j, A (k + 1) j → x' j = x j) : S'.virtual x' i = S.virtual x i := by
  unfold Setting.virtual
  rw [h.density hk hi hx, h.offset hk hi hx, h.env]

theorem reported {old old' : ℕ → ℝ} (hk : k < K) (hi : A k i) (hx : ∀ j, A (k + 1) j → x' j = x j) (ho : old' i = old i) :
    S'.reported x' old' i = S.reported x old i := by
  classical
  unfold Setting.reported
  rw [h.density hk hi hx, h.cfg, h.env, ho]
  simp only [h.active hk.le hi]

theorem rate {dens dens' : ℕ → ℝ} (hk : k < K) (hi : A k i) (hx : ∀ j, A (k + 1) j → x' j = x j) (hu : ∀ j, A (k + 1) j → u' j = u j)
    (hd : dens' i = dens i) : S'.rate x' u' dens' i = S.rate x u dens i := by
  classical
  have hiK := h.mono hk hi
  unfold Setting.rate
  rw [h.cfg, h.env, h.density hk hi hx, h.near hk hi hx, hd]
  congr 3
  refine Finset.sum_congr rfl (fun j hj => ?_)
  have := h.near_in hk hi hj
  rw [hx j this, hx i hiK, hu j this, hu i hiK]

/-- Agreement of two scenes on a set of particles. -/
structure On (A : ℕ → Prop) (b b' : Scene D) : Prop where
  x : ∀ i, A i → b'.x i = b.x i
  u : ∀ i, A i → b'.u i = b.u i
  p : ∀ i, A i → b'.p i = b.p i
  dens : ∀ i, A i → b'.dens i = b.dens i

omit h in
theorem On.mono' {A B : ℕ → Prop} {b b' : Scene D} (h : On B b b') (hs : ∀ i, A i → B i) : On A b b' :=
  ⟨fun i hi => h.x i (hs i hi), fun i hi => h.u i (hs i hi), fun i hi => h.p i (hs i hi), fun i hi => h.dens i (hs i hi)⟩

variable {b b' : Scene D}

theorem predict_motion (hk : k < K) (hi : A k i) (hb : On (A (k + 1)) b b') :
    (S'.predict b').x i = (S.predict b).x i ∧ (S'.predict b').u i = (S.predict b).u i := by
  classical
  have hiK := h.mono hk hi
  have hu : (S'.predict b').u i = (S.predict b).u i := by
    unfold Setting.predict
    simp only [h.fluid hk.le hi]
    rw [h.env, h.acceleration hk hi hb.x hb.u, hb.u i hiK, hb.x i hiK, (h.mem (h.up hk.le hi)).2.2.2.2]
  refine ⟨?_, hu⟩
  have e : ∀ (T : Setting D) (c : Scene D), (T.predict c).x i = if T.Fluid i then c.x i + T.env.dt • (T.predict c).u i else T.callback i := fun T c => rfl
  rw [e, e, hu, hb.x i hiK, h.env, (h.mem (h.up hk.le hi)).2.2.2.2]
  simp only [h.fluid hk.le hi]

theorem predict (hk : k + 1 < K) (hb : On (A (k + 2)) b b') : On (A k) (S.predict b) (S'.predict b') := by
  have hm : ∀ i, A (k + 1) i → (S'.predict b').x i = (S.predict b).x i ∧ (S'.predict b').u i = (S.predict b).u i :=
    fun i hi => h.predict_motion hk hi hb
  refine ⟨fun i hi => (hm i (h.mono (by omega) hi)).1, fun i hi => (hm i (h.mono (by omega) hi)).2,
    fun i hi => hb.p i (h.mono hk (h.mono (by omega) hi)), fun i hi => ?_⟩
  exact h.reported (by omega) hi (fun j hj => (hm j hj).1) (hb.dens i (h.mono hk (h.mono (by omega) hi)))

theorem eos {dens dens' : ℕ → ℝ} (hd : dens' i = dens i) : S'.eos dens' i = S.eos dens i := by
  unfold Setting.eos; rw [h.env, hd]

theorem surface {dens dens' : ℕ → ℝ} (hd : dens' i = dens i) : S'.Surface dens' i ↔ S.Surface dens i := by
  unfold Setting.Surface; rw [h.env, h.cfg, hd]

theorem push (hk : k < K) (hi : A k i) (hb : On (A (k + 1)) b b') : S'.push b' i = S.push b i := by
  classical
  have hiK := h.mono hk hi
  have hns := h.nearSolid hk hi hb.x
  have hn := h.near hk hi hb.x
  have hV := h.hasVirtual hk hi hb.x
  have hv := h.virtual hk hi hb.x
  have hmoment : S'.moment b' i = S.moment b i := by
    unfold Setting.moment
    simp only [hV]
    rw [hn, hv, h.env]
    congr 1
    refine Finset.sum_congr rfl (fun j hj => ?_)
    rw [hb.x j (h.near_in hk hi hj), hb.x i hiK]
  have hcorr : S'.correction b' i = S.correction b i := by
    unfold Setting.correction
    rw [hmoment, h.env]
  have hgc : S'.forceGc b' i = S.forceGc b i := by
    unfold Setting.forceGc
    simp only [hV]
    rw [hns, hv, h.env, h.cfg, hcorr, hb.p i hiK]
    congr 1
    refine Finset.sum_congr rfl (fun j hj => ?_)
    have := h.near_in hk hi (mem_nearSolid.mp hj).1
    rw [hb.x j this, hb.x i hiK, hb.p j this]
  have hf : S'.force b' i = S.force b i := by
    unfold Setting.force
    simp only [hV]
    rw [hns, hv, h.env, hb.p i hiK]
    congr 1
    refine Finset.sum_congr rfl (fun j hj => ?_)
    have := h.near_in hk hi (mem_nearSolid.mp hj).1
    rw [hb.x j this, hb.x i hiK, hb.p j this]
  unfold Setting.push
  rw [hgc, hf, h.cfg, h.env, hb.dens i hiK]

theorem kick {dv dv' : ℕ → Fin D → ℝ} (hk : k ≤ K) (hb : On (A k) b b') (hd : ∀ i, A k i → dv' i = dv i) : On (A k) (S.kick dv b) (S'.kick dv' b') := by
  classical
  refine ⟨fun i hi => ?_, fun i hi => ?_, fun i hi => hb.p i hi, fun i hi => hb.dens i hi⟩
  · unfold Setting.kick
    simp only [h.fluid hk hi]
    rw [hb.x i hi, hd i hi, h.env]
  · unfold Setting.kick
    simp only [h.fluid hk hi]
    rw [hb.u i hi, hd i hi]

theorem stabilise (hk : k < K) (hi : A k i) (ho : ∀ j, A (k + 1) j → x' j = x j) (hb : On (A (k + 1)) b b') : S'.stabilise x' b' i = S.stabilise x b i := by
  classical
  have hiK := h.mono hk hi
  unfold Setting.stabilise
  simp only
  rw [h.nearSolid hk hi hb.x, h.env]
  congr 1
  refine Finset.sum_congr rfl (fun j hj => ?_)
  have := h.near_in hk hi (mem_nearSolid.mp hj).1
  rw [hb.x j this, hb.x i hiK, ho j this, ho i hiK]

theorem finish (hk : k + 1 < K) (hb : On (A (k + 2)) b b') : On (A k) (S.finish b) (S'.finish b') := by
  have h1 : On (A (k + 1)) (S.kick (S.push b) b) (S'.kick (S'.push b') b') :=
    h.kick (by omega) (hb.mono' (fun i hi => h.mono hk hi)) (fun i hi => h.push hk hi hb)
  have up1 : ∀ i, A k i → A (k + 1) i := fun i hi => h.mono (by omega) hi
  unfold Setting.finish
  simp only
  rw [h.cfg]
  split
  · exact h.kick (by omega) (h1.mono' up1) (fun i hi => h.stabilise (by omega) hi (fun j hj => hb.x j (h.mono hk hj)) h1)
  · exact h1.mono' up1

/-- One step of the explicit mode: agreement four circles out gives agreement of the results. -/
theorem explicit_step (hK : K = 4) (he : S.cfg.explicit = true) (hb : On (A 4) b b') {eps : ℝ} {a a' : Scene D}
    (ha : S.step eps b = some a) (ha' : S'.step eps b' = some a') : On (A 0) a a' := by
  subst hK
  have e : ∀ (T : Setting D) (c a : Scene D), T.cfg.explicit = true → T.step eps c = some a →
      a = T.finish { T.predict c with p := T.eos (T.predict c).dens } := by
    intro T c a hT hs
    unfold Setting.step Setting.pressure at hs
    rw [if_pos hT] at hs
    cases hs; rfl
  rw [e S b a he ha, e S' b' a' (by rw [h.cfg]; exact he) ha']
  have h2 : On (A 2) (S.predict b) (S'.predict b') := h.predict (k := 2) (by omega) hb
  refine h.finish (k := 0) (by omega) ⟨h2.x, h2.u, fun i hi => ?_, h2.dens⟩
  exact h.eos (h2.dens i hi)

theorem symm : Shared S' S A K :=
  ⟨h.cfg.symm, h.env.symm, h.mono,
    fun hi => let c := h.mem hi; ⟨c.2.1, c.1, c.2.2.1.symm, c.2.2.2.1.symm, c.2.2.2.2.symm⟩,
    fun a1 a2 a3 a4 a5 a6 => h.closed' a1 a2 a3 a4 a5 (by rw [← h.env]; exact a6),
    fun a1 a2 a3 a4 a5 a6 => h.closed a1 a2 a3 a4 a5 (by rw [← h.env]; exact a6)⟩

omit h in
theorem On.symm {A : ℕ → Prop} {b b' : Scene D} (h : On A b b') : On A b' b :=
  ⟨fun i hi => (h.x i hi).symm, fun i hi => (h.u i hi).symm, fun i hi => (h.p i hi).symm, fun i hi => (h.dens i hi).symm⟩

end Shared

/-! ## Bodies apart: the same set at every level -/

namespace Shared

variable {S S' : Setting D} {Q : ℕ → Prop} (h : Shared S S' (fun _ => Q) 4) {b b' m m' : Scene D}
include h

theorem equation {i : ℕ} (hi : Q i) (hm : On Q m m') : S'.Equation m' i ↔ S.Equation m i := by
  have hiK := h.mem hi
  unfold Setting.Equation
  rw [h.active (k := 0) (by omega) hi, h.surface (hm.dens i hi)]
  simp only [hiK.1, hiK.2.1]

theorem joined {i j : ℕ} (hi : Q i) (hm : On Q m m') (hj : S.Joined m i j) : Q j ∧ S'.Joined m' i j := by
  obtain ⟨h1, h2, h3⟩ := hj
  have hQ : Q j := h.near_in (k := 0) (by omega) hi (mem_nearSolid.mp h3).1
  exact ⟨hQ, (h.equation hi hm).mpr h1, (h.equation hQ hm).mpr h2, by rw [h.nearSolid (k := 0) (by omega) hi hm.x]; exact h3⟩

theorem touches {i : ℕ} (hi : Q i) (hm : On Q m m') (ht : S.Touches m i) : S'.Touches m' i := by
  rcases ht with ht | ⟨k, h1, h2⟩
  · exact Or.inl ((h.hasVirtual (k := 0) (by omega) hi hm.x).mpr ht)
  · have hQ : Q k := h.near_in (k := 0) (by omega) hi (mem_nearSolid.mp h1).1
    exact Or.inr ⟨k, by rw [h.nearSolid (k := 0) (by omega) hi hm.x]; exact h1, (h.surface (hm.dens k hQ)).mpr h2⟩

theorem wet_of {i : ℕ} (hi : Q i) (hm : On Q m m') (hw : S.Wet m i) : S'.Wet m' i := by
  obtain ⟨k, h1, h2, h3, h4⟩ := hw
  have key : ∀ {k}, Relation.ReflTransGen (S.Joined m) i k → Q k ∧ Relation.ReflTransGen (S'.Joined m') i k := by
    intro k hk
    induction hk with
    | refl => exact ⟨hi, .refl⟩
    | tail _ hj ih =>
      obtain ⟨q, r⟩ := ih
      obtain ⟨q', r'⟩ := h.joined q hm hj
      exact ⟨q', r.tail r'⟩
  obtain ⟨q, r⟩ := key h1
  exact ⟨k, r, (h.equation hi hm).mpr h2, (h.equation q hm).mpr h3, h.touches q hm h4⟩

theorem wet {i : ℕ} (hi : Q i) (hm : On Q m m') : S'.Wet m' i ↔ S.Wet m i :=
  ⟨fun hw => h.symm.wet_of hi hm.symm hw, fun hw => h.wet_of hi hm hw⟩

theorem laplacian {i : ℕ} (hi : Q i) (hm : On Q m m') (y : ℕ → ℝ) : S'.laplacian m' y i = S.laplacian m y i := by
  classical
  unfold Setting.laplacian
  rw [h.nearSolid (k := 0) (by omega) hi hm.x, h.virtual (k := 0) (by omega) hi hm.x, h.laplace]
  simp only [h.hasVirtual (k := 0) (by omega) hi hm.x]
  congr 1
  refine Finset.sum_congr rfl (fun j hj => ?_)
  have hQ : Q j := h.near_in (k := 0) (by omega) hi (mem_nearSolid.mp hj).1
  rw [h.laplace, hm.x j hQ, hm.x i hi]
  simp only [h.surface (hm.dens j hQ)]

theorem compression {i : ℕ} (hi : Q i) (hb : On Q b b') (hm : On Q m m') : S'.compression b' m' i = S.compression b m i := by
  classical
  have hr := h.reported (k := 0) (i := i) (by omega) hi hb.x (hb.dens i hi)
  have h1 := h.rate (k := 0) (i := i) (by omega) hi hm.x hm.u (hm.dens i hi)
  have h2 := h.rate (k := 0) (i := i) (by omega) hi hb.x hb.u hr
  unfold Setting.compression Setting.compensation
  rw [h1, h2, hr, h.cfg, h.env]

/-- The exact pressures of a body apart from everything else do not depend on the rest. -/
theorem exact_pressures (hD : 0 < D ∧ D < 5) (he : S.env.Positive) (hdis : S.Distinct m)
    (hb : On Q b b') (hm : On Q m m') {p p' : ℕ → ℝ} (hp : S.Solves b m p) (hp' : S'.Solves b' m' p')
    {i : ℕ} (hi : Q i) (hw : S.Wet m i) : p' i = p i := by
  classical
  have key : ∀ i, S.Wet m i → S.laplacian m (fun j => if Q j then p' j else p j) i = S.laplacian m p i := by
    intro i hw
    by_cases hi : Q i
    · have e1 : S.laplacian m (fun j => if Q j then p' j else p j) i = S.laplacian m p' i :=
        laplacian_congr_near (if_pos hi) (fun j hj => if_pos (h.near_in (k := 0) (by omega) hi (mem_nearSolid.mp hj).1))
      have hE := hw.eqn
      have hE' := (h.equation hi hm).mpr hE
      rw [e1, ← h.laplacian hi hm, ← operator_def hE', hp' i hE'.1, ← operator_def hE, hp i hE.1, source_def hE, source_def hE',
        h.compression hi hb hm, h.env]
    · refine laplacian_congr_near (if_neg hi) (fun j hj => if_neg (fun hj' => hi ?_))
      obtain ⟨h1, h2, h3, h4, h5⟩ := mem_near_ref.mp (mem_nearSolid.mp hj).1
      exact h.closed (k := 0) (by omega) hj' hw.eqn.1 h2.symm hw.eqn.2.1.2 (by rw [len_sub_comm]; exact h4)
  have h1 := comparison hD he hdis (fun i hi => (key i hi).le) i hw
  have h2 := comparison hD he hdis (fun i hi => (key i hi).ge) i hw
  simp only [if_pos hi] at h1 h2
  exact le_antisymm h2 h1

end Shared

end OpenMps
