import Verif.Lemmas.Search

set_option linter.unusedSectionVars false

namespace OpenMps

variable {F : Type} [Scalar F] {D : Nat}

/-- Same geometry and same contents inside the array. -/
structure GridEquiv (g h : Grid F D) : Prop where
  geom : SameGeom g h
  contents : ∀ c, g.inRange c = true → h.contents c = g.contents c

theorem GridEquiv.count {g h : Grid F D} (e : GridEquiv g h) (c : Blk D) (hc : g.inRange c = true) :
    h.count c = g.count c := by
  have := congrArg List.length (e.contents c hc)
  simpa [Grid.contents] using this

/-- Corresponding results of `Store`. -/
inductive StoreEquiv : StoreRes F D → StoreRes F D → Prop
  | ub : StoreEquiv .ub .ub
  | outside {g h} : GridEquiv g h → StoreEquiv (.outside g) (.outside h)
  | full {g h} : StoreEquiv (.full g) (.full h)
  | stored {g h} : GridEquiv g h → StoreEquiv (.stored g) (.stored h)

theorem store_cases (g : Grid F D) (x : Vec F D) (pid : Nat) :
    (g.block? x = none ∧ g.store x pid = .ub) ∨
    (∃ b, g.block? x = some b ∧ g.inRange b = false ∧ g.store x pid = .outside g) ∨
    (∃ b g', g.block? x = some b ∧ g.inRange b = true ∧ g.cap ≤ g.count b ∧ g.store x pid = .full g') ∨
    (∃ b g', g.block? x = some b ∧ g.inRange b = true ∧ g.count b < g.cap ∧ g.store x pid = .stored g') := by
  unfold Grid.store
  cases hb : g.block? x with
  | none => left; simp
  | some b =>
    right
    cases hr : g.inRange b with
    | false => left; exact ⟨b, rfl, hr, by simp [hr]⟩
    | true =>
      right
      by_cases hc : g.cap ≤ g.count b
      · left
        refine ⟨b, ?_, rfl, hr, hc, ?_⟩
        rotate_left
        · simp only [hr, if_true]
          rw [if_pos hc]
      · right
        refine ⟨b, ?_, rfl, hr, by omega, ?_⟩
        rotate_left
        · simp only [hr, if_true]
          rw [if_neg hc]

theorem store_equiv {g h : Grid F D} (e : GridEquiv g h) (x : Vec F D) (pid : Nat) :
    StoreEquiv (g.store x pid) (h.store x pid) := by
  have hbl := e.geom.block x
  rcases store_cases g x pid with ⟨h1, h2⟩ | ⟨b, h1, h2, h3⟩ | ⟨b, g', h1, h2, h3, h4⟩ | ⟨b, g', h1, h2, h3, h4⟩
  · rw [h2, (store_ub (g := h)).mpr (by rw [hbl]; exact h1)]; exact .ub
  · rcases store_cases h x pid with ⟨k1, k2⟩ | ⟨b', k1, k2, k3⟩ | ⟨b', g'', k1, k2, k3, k4⟩ | ⟨b', g'', k1, k2, k3, k4⟩
    · rw [hbl, h1] at k1; cases k1
    · rw [h3, k3]; exact .outside e
    all_goals
      rw [hbl, h1] at k1; injection k1 with k1; subst k1
      rw [e.geom.inRange, h2] at k2; cases k2
  · rcases store_cases h x pid with ⟨k1, k2⟩ | ⟨b', k1, k2, k3⟩ | ⟨b', g'', k1, k2, k3, k4⟩ | ⟨b', g'', k1, k2, k3, k4⟩
    · rw [hbl, h1] at k1; cases k1
    · rw [hbl, h1] at k1; injection k1 with k1; subst k1
      rw [e.geom.inRange, h2] at k2; cases k2
    · rw [h4, k4]; exact .full
    · rw [hbl, h1] at k1; injection k1 with k1; subst k1
      rw [e.count _ h2, e.geom.cap] at k3; omega
  · rcases store_cases h x pid with ⟨k1, k2⟩ | ⟨b', k1, k2, k3⟩ | ⟨b', g'', k1, k2, k3, k4⟩ | ⟨b', g'', k1, k2, k3, k4⟩
    · rw [hbl, h1] at k1; cases k1
    · rw [hbl, h1] at k1; injection k1 with k1; subst k1
      rw [e.geom.inRange, h2] at k2; cases k2
    · rw [hbl, h1] at k1; injection k1 with k1; subst k1
      rw [e.count _ h2, e.geom.cap] at k3; omega
    · rw [h4, k4]
      obtain ⟨gg, c, c1, c2, c3, c4, c5, -⟩ := store_stored h4
      obtain ⟨hg, d, d1, d2, d3, d4, d5, -⟩ := store_stored k4
      have hdc : d = c := by
        rw [hbl, c1] at d1; injection d1 with d1; exact d1.symm
      subst hdc
      refine .stored ⟨gg.symm.trans (e.geom.trans hg), ?_⟩
      intro a ha
      rw [gg.inRange] at ha
      by_cases had : a = d
      · subst had; rw [d4, c4, e.contents _ ha]
      · rw [d5 a had, c5 a had, e.contents _ ha]

/-- Every grid in a history of calls has the geometry of the first one. -/
theorem GridEquiv.symm {g h : Grid F D} (e : GridEquiv g h) : GridEquiv h g :=
  ⟨e.geom.symm, fun c hc => (e.contents c (by rw [← e.geom.inRange]; exact hc)).symm⟩

theorem storeSeq_equiv : ∀ (log : List (Vec F D × Nat)) (n g : Grid F D), GridEquiv n g →
    (∀ n1, n.storeSeq log = some n1 → ∃ g1, g.storeSeq log = some g1 ∧ GridEquiv n1 g1) ∧
    (n.storeSeq log = none → g.storeSeq log = none) := by
  intro log
  induction log with
  | nil =>
    intro n g e
    refine ⟨fun n1 hn => ?_, fun hn => by cases hn⟩
    simp only [Grid.storeSeq, Option.some.injEq] at hn
    subst hn
    exact ⟨g, rfl, e⟩
  | cons en log ih =>
    intro n g e
    have hs := store_equiv e en.1 en.2
    unfold Grid.storeSeq
    generalize n.store en.1 en.2 = r at hs
    generalize g.store en.1 en.2 = r' at hs
    cases hs with
    | ub => exact ⟨fun _ h => (nomatch h), fun _ => rfl⟩
    | outside _ => exact ⟨fun _ h => (nomatch h), fun _ => rfl⟩
    | full => exact ⟨fun _ h => (nomatch h), fun _ => rfl⟩
    | stored e' => exact ih _ _ e'

theorem Grid.Reach.geom {g0 g : Grid F D} (h : Grid.Reach g0 g) : SameGeom g0 g := by
  induction h with
  | start => exact SameGeom.refl _
  | outside _ hs ih => rw [(store_outside hs).1]; exact ih
  | full _ hs ih => exact ih.trans (store_full hs).1
  | stored _ hs ih => exact ih.trans (store_stored hs).1
  | clear _ hs ih =>
    refine ih.trans ?_
    unfold Grid.clear? at hs
    split at hs
    · cases hs
    · injection hs with hs; subst hs; exact ⟨rfl, rfl, rfl, rfl⟩

theorem mem_offsets {D : Nat} (o : Blk D) : o ∈ offsets D ↔ ∀ a, -1 ≤ o a ∧ o a ≤ 1 := by
  induction D with
  | zero => simp [offsets]; exact Subsingleton.elim _ _
  | succ D ih =>
    simp only [offsets, List.mem_flatMap, List.mem_map]
    constructor
    · rintro ⟨i, hi, v, hv, rfl⟩ a
      refine Fin.cases ?_ (fun a => ?_) a
      · simp at hi ⊢; omega
      · simpa using (ih v).mp hv a
    · intro h
      refine ⟨o 0, ?_, Fin.tail o, (ih _).mpr (fun a => h a.succ), Fin.cons_self_tail o⟩
      have := h 0
      simp; omega

theorem nodup_offsets (D : Nat) : (offsets D).Nodup := by
  induction D with
  | zero => simp [offsets]
  | succ D ih =>
    unfold offsets
    rw [List.nodup_flatMap]
    constructor
    · intro i _
      exact ih.map (Fin.cons_right_injective (α := fun _ => Int) i)
    · simp only [List.pairwise_cons]
      have key : ∀ i j : Int, i ≠ j → List.Disjoint ((offsets D).map (fun v => (Fin.cons i v : Blk (D+1))))
          ((offsets D).map (fun v => (Fin.cons j v : Blk (D+1)))) := by
        intro i j hij w hw hw'
        obtain ⟨v, -, rfl⟩ := List.mem_map.mp hw
        obtain ⟨v', -, h⟩ := List.mem_map.mp hw'
        have := congrFun h 0
        simp at this
        exact hij this.symm
      refine ⟨?_, ?_, ?_, List.Pairwise.nil⟩
      · intro a ha; simp at ha; rcases ha with rfl | rfl <;> exact key _ _ (by omega)
      · intro a ha; simp at ha; subst ha; exact key _ _ (by omega)
      · intro a ha; simp at ha

end OpenMps
