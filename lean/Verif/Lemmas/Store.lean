import Verif.Lemmas.Grid
import Verif.Lemmas.Phases

set_option linter.unusedSectionVars false

/-! `Store`, `Clear` and the storing loop of the neighbour search. -/

namespace OpenMps

variable {F : Type} [Scalar F] {D : Nat} {ω : Type}

/-- Same shape, origin, block length and capacity. -/
structure SameGeom (g g' : Grid F D) : Prop where
  bl : g'.blockLength = g.blockLength
  origin : g'.origin = g.origin
  size : g'.size = g.size
  cap : g'.cap = g.cap

theorem SameGeom.refl (g : Grid F D) : SameGeom g g := ⟨rfl, rfl, rfl, rfl⟩

theorem SameGeom.trans {g g' g'' : Grid F D} (h : SameGeom g g') (h' : SameGeom g' g'') : SameGeom g g'' :=
  ⟨h'.bl.trans h.bl, h'.origin.trans h.origin, h'.size.trans h.size, h'.cap.trans h.cap⟩

theorem SameGeom.symm {g g' : Grid F D} (h : SameGeom g g') : SameGeom g' g :=
  ⟨h.bl.symm, h.origin.symm, h.size.symm, h.cap.symm⟩

theorem SameGeom.block {g g' : Grid F D} (h : SameGeom g g') (x : Vec F D) : g'.block? x = g.block? x := by
  unfold Grid.block?; rw [h.bl, h.origin]

theorem SameGeom.inRange {g g' : Grid F D} (h : SameGeom g g') (b : Blk D) : g'.inRange b = g.inRange b := by
  unfold Grid.inRange; rw [h.size]

theorem SameGeom.clearOK {g g' : Grid F D} (h : SameGeom g g') : g'.ClearOK ↔ g.ClearOK := by
  unfold Grid.ClearOK; rw [h.size]

/-- What `Store` does when it returns true. -/
theorem store_stored {g g' : Grid F D} {x : Vec F D} {pid : Nat} (h : g.store x pid = .stored g') :
    SameGeom g g' ∧ ∃ b, g.block? x = some b ∧ g.inRange b = true ∧ g.count b < g.cap ∧
      g'.contents b = g.contents b ++ [pid] ∧ (∀ c, c ≠ b → g'.contents c = g.contents c) ∧
      g'.count b = g.count b + 1 ∧ (∀ c, c ≠ b → g'.count c = g.count c) := by
  unfold Grid.store at h
  split at h
  · cases h
  · rename_i b hb
    split at h
    · rename_i hr
      simp only at h
      split at h
      · cases h
      · rename_i hc
        injection h with h
        subst h
        refine ⟨⟨rfl, rfl, rfl, rfl⟩, b, hb, hr, by omega, ?_, ?_, by simp, ?_⟩
        · unfold Grid.contents
          simp only [if_true, List.range_succ, List.map_append, List.map_cons, List.map_nil, upd_same]
          congr 1
          apply List.map_congr_left
          intro l hl
          have : l < g.count b := by simpa using hl
          exact upd_ne _ _ (by omega)
        · intro c hcb
          simp [Grid.contents, hcb]
        · intro c hcb
          simp [hcb]
    · cases h

theorem store_outside {g g' : Grid F D} {x : Vec F D} {pid : Nat} (h : g.store x pid = .outside g') :
    g' = g ∧ ∃ b, g.block? x = some b ∧ g.inRange b = false := by
  unfold Grid.store at h
  split at h
  · cases h
  · rename_i b hb
    split at h
    · simp only at h
      split at h <;> cases h
    · rename_i hr
      injection h with h
      exact ⟨h.symm, b, hb, by simpa using hr⟩

theorem store_full {g g' : Grid F D} {x : Vec F D} {pid : Nat} (h : g.store x pid = .full g') :
    SameGeom g g' ∧ ∃ b, g.block? x = some b ∧ g.inRange b = true ∧ g.cap ≤ g.count b := by
  unfold Grid.store at h
  split at h
  · cases h
  · rename_i b hb
    split at h
    · rename_i hr
      simp only at h
      split at h
      · rename_i hc
        injection h with h
        subst h
        exact ⟨⟨rfl, rfl, rfl, rfl⟩, b, hb, hr, hc⟩
      · cases h
    · cases h

theorem store_ub {g : Grid F D} {x : Vec F D} {pid : Nat} : g.store x pid = .ub ↔ g.block? x = none := by
  unfold Grid.store
  split
  · simp_all
  · split
    · simp only; split <;> simp_all
    · simp_all

theorem storeSeq_contents {log : List (Vec F D × Nat)} : ∀ {g g' : Grid F D}, g.storeSeq log = some g' →
    SameGeom g g' ∧ (∀ c, g'.contents c = g.contents c ++ logBlock g log c) ∧
      (∀ c, g.count c ≤ g.cap → g'.count c ≤ g'.cap) ∧
      ∀ e ∈ log, ∃ b, g.block? e.1 = some b ∧ g.inRange b = true := by
  induction log with
  | nil =>
    intro g g' h
    simp only [Grid.storeSeq, Option.some.injEq] at h
    subst h
    exact ⟨SameGeom.refl _, by simp [logBlock], fun _ h => h, by simp⟩
  | cons e log ih =>
    intro g g' h
    unfold Grid.storeSeq at h
    split at h
    · rename_i g1 hs
      obtain ⟨hg, b, hb, hr, hcap, hc1, hc2, hn1, hn2⟩ := store_stored hs
      obtain ⟨h1, h2, h3, h4⟩ := ih h
      have hlog : ∀ c, logBlock g1 log c = logBlock g log c := by
        intro c; unfold logBlock; simp only [hg.block]
      refine ⟨hg.trans h1, ?_, ?_, ?_⟩
      · intro c
        rw [h2 c, hlog]
        by_cases hcb : c = b
        · subst hcb
          rw [hc1, List.append_assoc]
          congr 1
          simp [logBlock, hb]
        · rw [hc2 c hcb]
          congr 1
          have : ¬ b = c := fun h => hcb h.symm
          simp [logBlock, hb, this]
      · intro c hc
        apply h3
        rw [hg.cap]
        by_cases hcb : c = b
        · subst hcb; omega
        · rw [hn2 c hcb]; exact hc
      · intro e' he'
        rcases List.mem_cons.mp he' with rfl | he'
        · exact ⟨b, hb, hr⟩
        · obtain ⟨b', hb', hr'⟩ := h4 e' he'
          exact ⟨b', by rw [← hb', hg.block], by rw [← hr', hg.inRange]⟩
    · cases h

theorem storeSeq_append {log log' : List (Vec F D × Nat)} : ∀ {g : Grid F D},
    g.storeSeq (log ++ log') = (g.storeSeq log).bind (fun g' => g'.storeSeq log') := by
  induction log with
  | nil => intro g; rfl
  | cons e log ih =>
    intro g
    simp only [List.cons_append, Grid.storeSeq]
    split
    · exact ih
    · rfl

/-! ### Clear -/

theorem clearBound_eq {g : Grid F D} (h : g.ClearOK) (a : Fin D) : g.clearBound a = g.size a := by
  unfold Grid.clearBound
  split
  · rename_i h1
    exact h h1.1 _ _ rfl h1.2
  · rfl

theorem clear_eq {g : Grid F D} (h : g.ClearOK) :
    g.clear? = some { g with count := fun b => if g.inRange b then 0 else g.count b } := by
  unfold Grid.clear?
  simp only [clearBound_eq h, lt_irrefl, exists_false, false_and, if_false, Option.some.injEq]
  congr 1
  funext b
  unfold Grid.inRange
  by_cases hb : ∀ a, 0 ≤ b a ∧ b a < g.size a <;> simp [hb]

/-! ### The storing loop -/

/-- Particle `i` is enabled and its block lies outside the grid. -/
def State.leaving (s : State F D ω) (i : Nat) : Bool :=
  decide ((s.ps i).ty ≠ .disabled) &&
    (match s.grid.block? (s.ps i).x with | some b => !s.grid.inRange b | none => false)

/-- Particle `i` is enabled and its block lies inside the grid. -/
def State.staying (s : State F D ω) (i : Nat) : Bool :=
  decide ((s.ps i).ty ≠ .disabled) &&
    (match s.grid.block? (s.ps i).x with | some b => s.grid.inRange b | none => false)

/-- The (position, number) pairs stored by the loop. -/
def State.storeLog (s : State F D ω) (is : List Nat) : List (Vec F D × Nat) :=
  (is.filter s.staying).map (fun i => ((s.ps i).x, i))

theorem leaving_congr {s s' : State F D ω} {i : Nat} (hg : SameGeom s.grid s'.grid) (hp : s'.ps i = s.ps i) :
    s'.leaving i = s.leaving i ∧ s'.staying i = s.staying i := by
  constructor <;>
  · simp only [State.leaving, State.staying, hp, hg.block, hg.inRange]

/-- The state after the storing loop, apart from the grid. -/
def State.marked (s : State F D ω) (is : List Nat) (g : Grid F D) : State F D ω :=
  { s with grid := g, ps := fun i => if i ∈ is ∧ s.leaving i = true then (s.ps i).disable else s.ps i }

theorem storeAll_spec : ∀ (is : List Nat) (s : State F D ω), is.Nodup →
    (∃ g, s.grid.storeSeq (s.storeLog is) = some g ∧ (∀ i ∈ is, (s.ps i).ty ≠ .disabled → s.grid.block? (s.ps i).x ≠ none)
        ∧ State.storeAll is s = .ok (s.marked is g)) ∨
    (∃ is' j is'' g, is = is' ++ j :: is'' ∧ (s.ps j).ty ≠ .disabled ∧
        s.grid.storeSeq (s.storeLog is') = some g ∧
        (∀ i ∈ is', (s.ps i).ty ≠ .disabled → s.grid.block? (s.ps i).x ≠ none) ∧
        (((∃ g', g.store (s.ps j).x j = .full g' ∧
            State.storeAll is s = .exn .gridFull (s.marked is' g'))) ∨
         (s.grid.block? (s.ps j).x = none ∧ State.storeAll is s = .ub))) := by
  intro is
  induction is with
  | nil =>
    intro s _
    left
    refine ⟨s.grid, rfl, by simp, ?_⟩
    simp [State.storeAll, State.marked]
  | cons i is ih =>
    intro s hnd
    have hi : i ∉ is := (List.nodup_cons.mp hnd).1
    have hnd' := (List.nodup_cons.mp hnd).2
    -- one step
    have hstep : (∃ s1, s.storeOne i = .ok s1 ∧ s.grid.storeSeq (s.storeLog [i]) = some s1.grid ∧
          s1 = s.marked [i] s1.grid ∧ ((s.ps i).ty ≠ .disabled → s.grid.block? (s.ps i).x ≠ none)) ∨
        ((s.ps i).ty ≠ .disabled ∧ ((∃ g', s.grid.store (s.ps i).x i = .full g' ∧
          s.storeOne i = .exn .gridFull (s.marked [] g')) ∨
          (s.grid.block? (s.ps i).x = none ∧ s.storeOne i = .ub))) := by
      unfold State.storeOne
      by_cases hd : (s.ps i).ty = .disabled
      · left
        rw [if_pos hd]
        have h1 : s.staying i = false := by simp [State.staying, hd]
        have h2 : s.leaving i = false := by simp [State.leaving, hd]
        refine ⟨s, rfl, ?_, ?_, fun h => absurd hd h⟩
        · simp [State.storeLog, h1, Grid.storeSeq]
        · unfold State.marked
          have : (fun k => if k ∈ [i] ∧ s.leaving k = true then (s.ps k).disable else s.ps k) = s.ps := by
            funext k
            rw [if_neg]
            rintro ⟨hk, hl⟩
            simp only [List.mem_singleton] at hk
            subst hk
            simp [h2] at hl
          rw [this]
      · rw [if_neg hd]
        cases hst : s.grid.store (s.ps i).x i with
        | ub =>
          right
          exact ⟨hd, Or.inr ⟨store_ub.mp hst, rfl⟩⟩
        | full g' =>
          right
          refine ⟨hd, Or.inl ⟨g', rfl, ?_⟩⟩
          simp [State.marked]
        | stored g' =>
          left
          obtain ⟨hg, b, hb, hr, -⟩ := store_stored hst
          have h1 : s.staying i = true := by simp [State.staying, hd, hb, hr]
          have h2 : s.leaving i = false := by simp [State.leaving, hb, hr]
          refine ⟨_, rfl, ?_, ?_, fun _ => by rw [hb]; simp⟩
          · simp [State.storeLog, h1, Grid.storeSeq, hst]
          · unfold State.marked
            have : (fun k => if k ∈ [i] ∧ s.leaving k = true then (s.ps k).disable else s.ps k) = s.ps := by
              funext k
              rw [if_neg]
              rintro ⟨hk, hl⟩
              simp only [List.mem_singleton] at hk
              subst hk
              simp [h2] at hl
            rw [this]
        | outside g' =>
          left
          obtain ⟨hg, b, hb, hr⟩ := store_outside hst
          have h1 : s.staying i = false := by simp [State.staying, hb, hr]
          have h2 : s.leaving i = true := by simp [State.leaving, hd, hb, hr]
          refine ⟨_, rfl, ?_, ?_, fun _ => by rw [hb]; simp⟩
          · simp [State.storeLog, h1, Grid.storeSeq, hg]
          · unfold State.marked
            congr 1
            funext k
            by_cases hk : k = i
            · subst hk; simp [h2]
            · simp [upd, hk]
    rcases hstep with ⟨s1, hone, hseq, hs1, hdef⟩ | ⟨hd, hbad⟩
    · have hgeom : SameGeom s.grid s1.grid := (storeSeq_contents hseq).1
      have hps : ∀ k, k ≠ i → s1.ps k = s.ps k := by
        intro k hk
        rw [hs1]
        simp [State.marked, hk]
      have hpsi : ∀ k ∈ is, s1.ps k = s.ps k := fun k hk => hps k (fun h => hi (h ▸ hk))
      have hlog : ∀ l : List Nat, (∀ k ∈ l, k ∈ is) → s.storeLog (i :: l) = s.storeLog [i] ++ s1.storeLog l := by
        intro l hl
        have h1 : s1.storeLog l = s.storeLog l := by
          unfold State.storeLog
          have : l.filter s1.staying = l.filter s.staying := by
            apply List.filter_congr
            intro k hk
            exact (leaving_congr hgeom (hpsi k (hl k hk))).2
          rw [this]
          apply List.map_congr_left
          intro k hk
          rw [hpsi k (hl k (List.mem_filter.mp hk).1)]
        rw [h1]
        unfold State.storeLog
        rw [← List.map_append, ← List.filter_append]
        rfl
      have hseq' : ∀ l : List Nat, (∀ k ∈ l, k ∈ is) →
          s.grid.storeSeq (s.storeLog (i :: l)) = s1.grid.storeSeq (s1.storeLog l) := by
        intro l hl
        rw [hlog l hl, storeSeq_append, hseq]
        rfl
      have hmark : ∀ (l : List Nat) (g : Grid F D), (∀ k ∈ l, k ∈ is) → s1.marked l g = s.marked (i :: l) g := by
        intro l g hl
        have hne : i ∉ l := fun h => hi (hl i h)
        have hl1 : ∀ k ∈ l, s1.leaving k = s.leaving k := fun k hk => (leaving_congr hgeom (hpsi k (hl k hk))).1
        have hpsK : ∀ k, s1.ps k = if k = i ∧ s.leaving i = true then (s.ps k).disable else s.ps k := by
          intro k
          rw [hs1]
          simp only [State.marked, List.mem_singleton]
          by_cases hk : k = i
          · subst hk; rfl
          · simp [hk]
        have : s1.marked l g = { s with grid := g, ps := (s1.marked l g).ps } := by
          rw [hs1]; rfl
        rw [this]
        unfold State.marked
        congr 1
        funext k
        change (if k ∈ l ∧ s1.leaving k = true then (s1.ps k).disable else s1.ps k) = _
        by_cases hk : k = i
        · subst hk
          rw [if_neg (fun h => hne h.1), hpsK]
          simp
        · rw [hps k hk]
          by_cases hkl : k ∈ l
          · simp [hkl, hk, hl1 k hkl]
          · simp [hkl, hk]
      have hdef1 : ∀ l : List Nat, (∀ k ∈ l, k ∈ is) →
          (∀ k ∈ l, (s1.ps k).ty ≠ .disabled → s1.grid.block? (s1.ps k).x ≠ none) →
          ∀ k ∈ i :: l, (s.ps k).ty ≠ .disabled → s.grid.block? (s.ps k).x ≠ none := by
        intro l hl hh k hk
        rcases List.mem_cons.mp hk with rfl | hk
        · exact hdef
        · have := hh k hk
          rw [hpsi k (hl k hk), hgeom.block] at this
          exact this
      have hall : State.storeAll (i :: is) s = State.storeAll is s1 := by
        simp [State.storeAll, hone, Res.andThen, Res.bind]
      rw [hall]
      rcases ih s1 hnd' with ⟨g, h1, h2, h3⟩ | ⟨is', j, is'', g, h1, h2, h3, h4, h5⟩
      · left
        refine ⟨g, ?_, ?_, ?_⟩
        · rw [hseq' is (fun _ h => h)]; exact h1
        · exact hdef1 is (fun _ h => h) h2
        · rw [h3, hmark is g (fun _ h => h)]
      · right
        have hsub : ∀ k ∈ is', k ∈ is := fun k hk => by rw [h1]; simp [hk]
        have hj : j ∈ is := by rw [h1]; simp
        rw [hpsi j hj] at h2 h5
        refine ⟨i :: is', j, is'', g, by rw [h1]; rfl, h2, ?_, hdef1 is' hsub h4, ?_⟩
        · rw [hseq' is' hsub]; exact h3
        · rcases h5 with ⟨g', h5, h6⟩ | ⟨h5, h6⟩
          · left; exact ⟨g', h5, by rw [h6, hmark is' g' hsub]⟩
          · right; exact ⟨by rw [← h5, hgeom.block], h6⟩
    · right
      refine ⟨[], i, is, s.grid, rfl, hd, rfl, by simp, ?_⟩
      rcases hbad with ⟨g', h5, h6⟩ | ⟨h5, h6⟩
      · left
        refine ⟨g', h5, ?_⟩
        simp [State.storeAll, h6, Res.andThen, Res.bind]
      · right
        refine ⟨h5, ?_⟩
        simp [State.storeAll, h6, Res.andThen, Res.bind]

end OpenMps
