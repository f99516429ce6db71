import Verif.Lemmas.Sums
import Verif.Props.Solver

/-! # The entries of the pressure matrix -/

set_option linter.unusedSectionVars false

namespace OpenMps

section
variable {F : Type} [Scalar F] {D : Nat} {ω : Type}

/-- Assigning a list of (column, value) pairs to an empty row. -/
def rowOf (l : List (Nat × F)) : Nat → Option F := l.foldl (fun r e => upd r e.1 (some e.2)) (fun _ => none)

theorem foldl_upd_row (i : Nat) (l : List (Nat × F)) : ∀ A : Sparse F,
    l.foldl (fun A e => upd A i (upd (A i) e.1 (some e.2))) A = upd A i (l.foldl (fun r e => upd r e.1 (some e.2)) (A i)) := by
  induction l with
  | nil => intro A; funext k; unfold upd; split <;> simp_all
  | cons e l ih =>
    intro A
    rw [List.foldl_cons, ih, List.foldl_cons]
    funext k
    unfold upd
    by_cases h : k = i
    · simp [h]
    · simp [h]

theorem assemble_row (n : Nat) (rows : Nat → List (Nat × F)) (i : Nat) :
    assemble n rows i = if i < n then rowOf (rows i) else fun _ => none := by
  unfold assemble
  induction n with
  | zero => rfl
  | succ n ih =>
    rw [List.range_succ, List.foldl_append, List.foldl_cons, List.foldl_nil, foldl_upd_row]
    by_cases h : i = n
    · subst h
      rw [upd_same, if_pos (Nat.lt_succ_self _), ih, if_neg (lt_irrefl _)]
      rfl
    · rw [upd_ne _ _ h, ih]
      by_cases h2 : i < n
      · rw [if_pos h2, if_pos (by omega)]
      · rw [if_neg h2, if_neg (by omega)]

theorem rowFold_not_mem (l : List (Nat × F)) : ∀ (r : Nat → Option F) (j : Nat), (∀ e ∈ l, e.1 ≠ j) →
    l.foldl (fun r e => upd r e.1 (some e.2)) r j = r j := by
  induction l with
  | nil => intro r j _; rfl
  | cons e l ih =>
    intro r j h
    rw [List.foldl_cons, ih _ j (fun e' he' => h e' (List.mem_cons_of_mem _ he'))]
    unfold upd
    rw [if_neg (Ne.symm (h e List.mem_cons_self))]

theorem rowOf_none {l : List (Nat × F)} {j : Nat} (h : ∀ e ∈ l, e.1 ≠ j) : rowOf l j = none := rowFold_not_mem l _ j h

theorem rowFold_mem (l : List (Nat × F)) : ∀ (r : Nat → Option F) (j : Nat) (v : F), (l.map (·.1)).Nodup → (j, v) ∈ l →
    l.foldl (fun r e => upd r e.1 (some e.2)) r j = some v := by
  induction l with
  | nil => intro r j v _ h; cases h
  | cons e l ih =>
    intro r j v hnd hm
    rw [List.map_cons, List.nodup_cons] at hnd
    rw [List.foldl_cons]
    rcases List.mem_cons.mp hm with rfl | hm
    · rw [rowFold_not_mem]
      · unfold upd; rw [if_pos rfl]
      · intro e' he' hc
        exact hnd.1 (List.mem_map.mpr ⟨e', he', hc⟩)
    · exact ih _ j v hnd.2 hm

theorem rowOf_some {l : List (Nat × F)} {j : Nat} {v : F} (hnd : (l.map (·.1)).Nodup) (h : (j, v) ∈ l) : rowOf l j = some v :=
  rowFold_mem l _ j v hnd h

/-- The neighbours that pass the tests of the interaction loop. -/
def State.nearList (s : State F D ω) (i : Nat) : List Nat :=
  (s.neighbors i).filter (fun j => decide (j ≠ i) && Scalar.lt (dot ((s.ps j).x - (s.ps i).x) ((s.ps j).x - (s.ps i).x)) (s.env.re * s.env.re))

theorem foldl_filter_ite {α β : Type} (p : α → Bool) (f : β → α → β) (l : List α) (z : β) :
    l.foldl (fun acc j => if p j then f acc j else acc) z = (l.filter p).foldl f z := by
  induction l generalizing z with
  | nil => rfl
  | cons a l ih =>
    rw [List.foldl_cons, ih, List.filter_cons]
    cases h : p a <;> simp

theorem foldl_pair {α β γ : Type} (f : β → α → β) (g : γ → α → γ) (l : List α) (z : β × γ) :
    l.foldl (fun acc j => (f acc.1 j, g acc.2 j)) z = (l.foldl f z.1, l.foldl g z.2) := by
  induction l generalizing z with
  | nil => rfl
  | cons a l ih => rw [List.foldl_cons, ih]; rfl

theorem accLoop_list {A : Type} [Add A] (s : State F D ω) (i : Nat) (z : A) (func : Int → Particle F D → A) :
    s.accLoop i z func = ((s.nearList i).foldl (fun acc (j : Nat) => acc + func (j : Int) (s.ps j)) z,
      (s.nearList i).foldl (fun acc (j : Nat) => acc + smul (W (Scalar.sqrt (dot ((s.ps j).x - (s.ps i).x) ((s.ps j).x - (s.ps i).x))) s.env.re)
        ((s.ps j).x - (s.ps i).x)) 0) := by
  unfold State.accLoop State.nearList
  simp only
  rw [← foldl_pair (fun acc (j : Nat) => acc + func (j : Int) (s.ps j))
    (fun acc (j : Nat) => acc + smul (W (Scalar.sqrt (dot ((s.ps j).x - (s.ps i).x) ((s.ps j).x - (s.ps i).x))) s.env.re)
        ((s.ps j).x - (s.ps i).x)) _ (z, (0 : Vec F D)), ← foldl_filter_ite]
  congr 1
  funext acc j
  by_cases h : j ≠ i
  · rw [if_pos h]
    cases h2 : Scalar.lt (dot ((s.ps j).x - (s.ps i).x) ((s.ps j).x - (s.ps i).x)) (s.env.re * s.env.re) <;> simp [h]
  · rw [if_neg h]; simp [h]

/-- A projection that respects addition commutes with the interaction sum. -/
theorem accumulate_hom {A B : Type} [Add A] [Add B] (φ : A → B) (hφ : ∀ a b, φ (a + b) = φ a + φ b) (cfg : Config)
    (s : State F D ω) (i : Nat) (z : A) (func : Int → Particle F D → A) :
    φ (s.accumulate cfg i z func) = s.accumulate cfg i (φ z) (fun j q => φ (func j q)) := by
  have h1 : ∀ (l : List Nat) (z : A), φ (l.foldl (fun acc (j : Nat) => acc + func (j : Int) (s.ps j)) z)
      = l.foldl (fun acc (j : Nat) => acc + φ (func (j : Int) (s.ps j))) (φ z) := by
    intro l
    induction l with
    | nil => intro z; rfl
    | cons a l ih => intro z; rw [List.foldl_cons, ih, hφ]; rfl
  unfold State.accumulate
  simp only [accLoop_list]
  split
  · split
    · rw [hφ, h1]
    · rw [h1]
  · rw [h1]

/-- The off-diagonal entries of a row. -/
theorem accumulate_entries (cfg : Config) (s : State F D ω) (i : Nat) :
    (s.accumulate cfg i ({ sum := 0, entries := [] } : RowAcc F) (s.rowFunc cfg i)).entries
      = ((s.nearList i).filter (fun j => decide ((s.ps j).ty ≠ .dummy) && !s.isSurface cfg (s.ps j).n)).map
          (fun j => (j, s.coef cfg (dist (s.ps i).x (s.ps j).x))) := by
  have hrow : ∀ j : Nat, (s.rowFunc cfg i (j : Int) (s.ps j)).entries
      = if (decide ((s.ps j).ty ≠ .dummy) && !s.isSurface cfg (s.ps j).n) = true
        then [(j, s.coef cfg (dist (s.ps i).x (s.ps j).x))] else [] := by
    intro j
    unfold State.rowFunc
    have hj : decide ((0 : Int) ≤ (j : Int)) = true := decide_eq_true (Int.natCast_nonneg j)
    by_cases hd : (s.ps j).ty ≠ .dummy
    · rw [if_pos hd]
      simp only [hj, hd, Int.toNat_natCast, ne_eq, not_false_eq_true, decide_true, Bool.true_and]
      by_cases hs : cfg.spp = true
      · simp [hs, State.isSurface]
      · simp [hs]
    · rw [if_neg hd]; simp [hd]
  have hfold : ∀ (l : List Nat) (z : RowAcc F), (l.foldl (fun acc (j : Nat) => acc + s.rowFunc cfg i (j : Int) (s.ps j)) z).entries
      = z.entries ++ (l.filter (fun j => decide ((s.ps j).ty ≠ .dummy) && !s.isSurface cfg (s.ps j).n)).map
          (fun j => (j, s.coef cfg (dist (s.ps i).x (s.ps j).x))) := by
    intro l
    induction l with
    | nil => intro z; simp
    | cons a l ih =>
      intro z
      rw [List.foldl_cons, ih]
      change z.entries ++ (s.rowFunc cfg i (a : Int) (s.ps a)).entries ++ _ = _
      rw [hrow, List.filter_cons]
      split
      · simp
      · simp
  unfold State.accumulate
  simp only [accLoop_list]
  split
  · rename_i hs
    split
    · rename_i q hq
      have happ : ∀ a b : RowAcc F, (a + b).entries = a.entries ++ b.entries := fun _ _ => rfl
      rw [happ]
      rw [hfold]
      have : (s.rowFunc cfg i (-1) q).entries = [] := by
        unfold State.rowFunc
        rw [hs]
        split
        · simp
        · rfl
      rw [this]; simp
    · rw [hfold]; simp
  · rw [hfold]; simp

end

section
variable {D : Nat} {ω : Type} {s : State ℝ D ω}

theorem mem_nearList (h : NbrOK s) (hre : 0 ≤ s.env.re) {i : Nat} (hi : i < s.n) (hd : (s.ps i).ty ≠ .disabled) (j : Nat) :
    j ∈ s.nearList i ↔ j ∈ s.near i := by
  unfold State.nearList
  rw [List.mem_filter, mem_near, Bool.and_eq_true, decide_eq_true_eq, lt_real_iff, lt_sq_iff hre]
  constructor
  · rintro ⟨a, b, c⟩; exact ⟨(h.mem i hi hd j a).1, a, c⟩
  · rintro ⟨a, b, c⟩; exact ⟨b, (h.mem i hi hd j b).2.1, c⟩

theorem nodup_nearList (h : NbrOK s) {i : Nat} (hi : i < s.n) (hd : (s.ps i).ty ≠ .disabled) : (s.nearList i).Nodup :=
  (h.nodup i hi hd).filter _

/-- The weight of the virtual particle in the diagonal. -/
noncomputable def State.sppWeight (cfg : Config) (s : State ℝ D ω) (i : Nat) : ℝ :=
  s.sppTerm cfg i (fun _ q => s.coef cfg (dist (s.ps i).x q.x))

/-- The matrix of the linear system. -/
theorem setPpe_A (cfg : Config) (s : State ℝ D ω) {schB schA : List Ev} (hB : ValidSched s.n schB) (hA : ValidSched s.n schA) (i : Nat)
    (hi : i < s.n) : (s.setPpe cfg schB schA).ppe.A i = rowOf (s.matCompute cfg i) := by
  rw [setPpe_eq cfg s schB schA hB hA]
  change assemble s.n _ i = _
  rw [assemble_row, if_pos hi, if_pos hi]

theorem setPpe_A_out (cfg : Config) (s : State ℝ D ω) {schB schA : List Ev} (hB : ValidSched s.n schB) (hA : ValidSched s.n schA) (i : Nat)
    (hi : ¬ i < s.n) (j : Nat) : (s.setPpe cfg schB schA).ppe.A i j = none := by
  rw [setPpe_eq cfg s schB schA hB hA]
  change assemble s.n _ i j = _
  rw [assemble_row, if_neg hi]

theorem not_fixed {cfg : Config} {i : Nat} (h : s.fixedRow cfg i = false) :
    (s.ps i).ty ≠ .dummy ∧ (s.ps i).ty ≠ .disabled ∧ s.isSurface cfg (s.ps i).n = false := by
  unfold State.fixedRow at h
  simp only [Bool.or_eq_false_iff, decide_eq_false_iff_not] at h
  exact ⟨h.1.1, h.1.2, h.2⟩

variable (cfg : Config) {schB schA : List Ev}

theorem entry_fixed (hB : ValidSched s.n schB) (hA : ValidSched s.n schA) {i : Nat} (hi : i < s.n)
    (hf : s.fixedRow cfg i = true) (j : Nat) : entry (s.setPpe cfg schB schA).ppe.A i j = if i = j then 1 else 0 := by
  unfold entry
  rw [setPpe_A cfg s hB hA i hi]
  unfold State.matCompute
  rw [if_pos hf]
  by_cases h : i = j
  · subst h; rw [if_pos rfl, rowOf_some (by simp) (List.mem_singleton.mpr rfl)]; rfl
  · rw [if_neg h, rowOf_none (by intro e he; rw [List.mem_singleton] at he; subst he; exact h)]; rfl

theorem matCompute_free (h : NbrOK s) (hre : 0 ≤ s.env.re) {i : Nat} (hi : i < s.n) (hf : s.fixedRow cfg i = false) :
    ((s.matCompute cfg i).map (·.1)).Nodup ∧
    (∀ j v, (j, v) ∈ s.matCompute cfg i ↔
      (j ∈ s.near i ∧ s.fixedRow cfg j = false ∧ v = s.coef cfg (dist (s.ps i).x (s.ps j).x)) ∨
      (j = i ∧ v = -(∑ k ∈ (s.near i).filter (fun k => (s.ps k).ty ≠ .dummy), s.coef cfg (dist (s.ps i).x (s.ps k).x))
        - s.sppWeight cfg i)) := by
  obtain ⟨h1, h2, h3⟩ := not_fixed hf
  have hsum : (s.accumulate cfg i ({ sum := 0, entries := [] } : RowAcc ℝ) (s.rowFunc cfg i)).sum
      = -(∑ k ∈ (s.near i).filter (fun k => (s.ps k).ty ≠ .dummy), s.coef cfg (dist (s.ps i).x (s.ps k).x)) - s.sppWeight cfg i := by
    rw [accumulate_hom RowAcc.sum (fun _ _ => rfl)]
    have e := accumulate_real (s := s) cfg i (fun j q => (s.rowFunc cfg i j q).sum) hre h hi h2
    refine Eq.trans e ?_
    have e2 : ∀ (j : Int) (q : Particle ℝ D), (s.rowFunc cfg i j q).sum
        = if q.ty ≠ .dummy then -s.coef cfg (dist (s.ps i).x q.x) else 0 := by
      intro j q; unfold State.rowFunc; split <;> rfl
    simp only [e2]
    rw [← Finset.sum_filter, Finset.sum_neg_distrib, sub_eq_add_neg]
    congr 1
    unfold State.sppWeight State.sppTerm
    split
    · cases hq : s.sppParticle i (s.dxg i) with
      | none => simp
      | some q =>
        have := (sppParticle_some hq).2.2.2
        simp only [this]
        rw [if_pos (by decide)]
    · simp
  have hmat : s.matCompute cfg i = ((s.nearList i).filter (fun j => decide ((s.ps j).ty ≠ .dummy) && !s.isSurface cfg (s.ps j).n)).map
          (fun j => (j, s.coef cfg (dist (s.ps i).x (s.ps j).x))) ++
        [(i, -(∑ k ∈ (s.near i).filter (fun k => (s.ps k).ty ≠ .dummy), s.coef cfg (dist (s.ps i).x (s.ps k).x)) - s.sppWeight cfg i)] := by
    unfold State.matCompute
    rw [if_neg (by rw [hf]; decide)]
    simp only
    rw [accumulate_entries, hsum]
  have hnd := nodup_nearList h hi h2
  have hfx : ∀ j, j ∈ s.near i → ((decide ((s.ps j).ty ≠ .dummy) && !s.isSurface cfg (s.ps j).n) = true ↔ s.fixedRow cfg j = false) := by
    intro j hj
    have := (h.near_ne hi h2 hj).2.2
    unfold State.fixedRow
    simp [this]
  constructor
  · rw [hmat, List.map_append, List.map_map]
    have : (fun x : Nat × ℝ => x.1) ∘ (fun j => (j, s.coef cfg (dist (s.ps i).x (s.ps j).x))) = id := rfl
    rw [this, List.map_id, List.nodup_append]
    refine ⟨hnd.filter _, by simp, ?_⟩
    intro a ha b hb
    simp only [List.map_cons, List.map_nil, List.mem_singleton] at hb
    subst hb
    rw [List.mem_filter] at ha
    exact (h.near_ne hi h2 ((mem_nearList h hre hi h2 a).mp ha.1)).2.1
  · intro j v
    rw [hmat, List.mem_append, List.mem_map, List.mem_singleton]
    constructor
    · rintro (⟨k, hk, hkv⟩ | hh)
      · rw [List.mem_filter, mem_nearList h hre hi h2] at hk
        injection hkv with a b
        subst a
        left
        exact ⟨hk.1, (hfx k hk.1).mp hk.2, b.symm⟩
      · injection hh with a b
        exact Or.inr ⟨a, b⟩
    · rintro (⟨a, b, c⟩ | ⟨a, b⟩)
      · left
        exact ⟨j, List.mem_filter.mpr ⟨(mem_nearList h hre hi h2 j).mpr a, (hfx j a).mpr b⟩, by rw [c]⟩
      · right; rw [a, b]

/-- Off-diagonal entries of a row that is not fixed. -/
theorem entry_off (h : NbrOK s) (hre : 0 ≤ s.env.re) (hB : ValidSched s.n schB) (hA : ValidSched s.n schA) {i j : Nat} (hi : i < s.n)
    (hf : s.fixedRow cfg i = false) (hij : j ≠ i) :
    entry (s.setPpe cfg schB schA).ppe.A i j
      = if j ∈ s.near i ∧ s.fixedRow cfg j = false then s.coef cfg (dist (s.ps i).x (s.ps j).x) else 0 := by
  obtain ⟨hnd, hm⟩ := matCompute_free cfg h hre hi hf
  unfold entry
  rw [setPpe_A cfg s hB hA i hi]
  split
  · rename_i hc
    rw [rowOf_some hnd ((hm j _).mpr (Or.inl ⟨hc.1, hc.2, rfl⟩))]; rfl
  · rename_i hc
    rw [rowOf_none]
    · rfl
    · rintro ⟨a, b⟩ he hab
      rcases (hm a b).mp he with ⟨k1, k2, -⟩ | ⟨k, -⟩
      · simp only at hab; subst hab; exact hc ⟨k1, k2⟩
      · simp only at hab; exact hij (hab.symm.trans k)

/-- Diagonal entries of a row that is not fixed. -/
theorem entry_diag (h : NbrOK s) (hre : 0 ≤ s.env.re) (hB : ValidSched s.n schB) (hA : ValidSched s.n schA) {i : Nat} (hi : i < s.n)
    (hf : s.fixedRow cfg i = false) :
    entry (s.setPpe cfg schB schA).ppe.A i i
      = -(∑ k ∈ (s.near i).filter (fun k => (s.ps k).ty ≠ .dummy), s.coef cfg (dist (s.ps i).x (s.ps k).x)) - s.sppWeight cfg i := by
  obtain ⟨hnd, hm⟩ := matCompute_free cfg h hre hi hf
  unfold entry
  rw [setPpe_A cfg s hB hA i hi, rowOf_some hnd ((hm i _).mpr (Or.inr ⟨rfl, rfl⟩))]; rfl

end

end OpenMps
