import Verif.Lemmas.Store
import Verif.Spec.Search

set_option linter.unusedSectionVars false

/-! Result of `SearchNeighbor`. -/

namespace OpenMps

variable {F : Type} [Scalar F] {D : Nat} {ω : Type}

/-- The grid after `Clear` (when it covers the array). -/
def Grid.cleared (g : Grid F D) : Grid F D :=
  { g with count := fun b => if g.inRange b then 0 else g.count b }

theorem cleared_geom (g : Grid F D) : SameGeom g g.cleared := ⟨rfl, rfl, rfl, rfl⟩

theorem cleared_count {g : Grid F D} {b : Blk D} (h : g.inRange b = true) : g.cleared.count b = 0 := by
  simp [Grid.cleared, h]

theorem cleared_contents {g : Grid F D} {b : Blk D} (h : g.inRange b = true) : g.cleared.contents b = [] := by
  simp [Grid.contents, cleared_count h]

/-- Write the specified neighbour lists into the table. -/
def State.withRows (m : State F D ω) : State F D ω :=
  { m with nbr := fun i => if i < m.n then
      (if (m.ps i).ty = .disabled then m.nbr i
       else fun c => if c = 0 then (m.nbrList i).length else (m.nbrList i).getD (c - 1) (m.nbr i c))
      else m.nbr i }

theorem neighbors_withRows (m : State F D ω) (i : Nat) (hi : i < m.n) (hd : (m.ps i).ty ≠ .disabled) :
    m.withRows.neighbors i = m.nbrList i := by
  unfold State.neighbors State.withRows
  simp only [hi, hd, if_true, if_false]
  apply List.ext_getElem
  · simp
  · intro k h1 h2
    simp only [List.getElem_map, List.getElem_range]
    rw [if_neg (by omega), Nat.add_sub_cancel_left]
    rw [List.getD_eq_getElem?_getD, List.getElem?_eq_getElem h2, Option.getD_some]

/-- All enabled particles are in the grid (the situation after a successful storing loop). -/
theorem rowCompute_eq (m : State F D ω) (hcap : ∀ c, m.grid.inRange c = true → m.grid.count c ≤ m.grid.cap)
    (hin : ∀ j, j < m.n → (m.ps j).ty ≠ .disabled → ∃ b, m.grid.block? (m.ps j).x = some b ∧ m.grid.inRange b = true)
    (hcont : ∀ c, m.grid.inRange c = true → m.grid.contents c
      = (List.range m.n).filter (fun j => decide ((m.ps j).ty ≠ .disabled)
          && decide (m.grid.block? (m.ps j).x = some c)))
    (i : Nat) (hi : i < m.n) (hd : (m.ps i).ty ≠ .disabled) :
    m.rowCompute i = .row (m.nbrList i) := by
  obtain ⟨b, hb, hr⟩ := hin i hi hd
  have hc' : ∀ c, (if m.grid.inRange c then m.grid.contents c else [])
      = (List.range m.n).filter (fun j => decide ((m.ps j).ty ≠ .disabled)
          && decide (m.grid.block? (m.ps j).x = some c)) := by
    intro c
    split
    · rename_i h; exact hcont c h
    · rename_i h
      symm
      rw [List.filter_eq_nil_iff]
      intro j hj
      have hj : j < m.n := by simpa using hj
      simp only [Bool.and_eq_true, decide_eq_true_eq, not_and]
      intro hjd hjc
      obtain ⟨b', hb', hr'⟩ := hin j hj hjd
      rw [hb'] at hjc
      injection hjc with hjc
      rw [hjc] at hr'
      exact h hr'
  have hv := visit_eq m.grid hcap _ b hb hr
  have hlist : (contFrom m.grid b 0).filter (fun j => decide (j ≠ i) && decide ((m.ps j).ty ≠ .disabled)
          && Scalar.lt (dist (m.ps i).x (m.ps j).x) m.env.neighborLength) = m.nbrList i := by
    rw [contFrom_offsets, List.filter_flatMap]
    unfold State.nbrList
    rw [hb]
    apply List.flatMap_congr
    intro o _
    rw [hc', List.filter_filter]
    apply List.filter_congr
    intro j _
    cases h1 : decide ((m.ps j).ty ≠ .disabled) <;> cases h2 : decide (m.grid.block? (m.ps j).x = some (b + o)) <;>
      cases h3 : decide (j ≠ i) <;> simp
  unfold State.rowCompute
  rw [if_neg hd, hv]
  simp only
  rw [hlist]
  rw [if_neg, if_neg]
  · rw [← hlist]
    have h1 := contFrom_length m.grid b hcap 0
    have h2 := List.length_filter_le (fun j => decide (j ≠ i) && decide ((m.ps j).ty ≠ .disabled)
          && Scalar.lt (dist (m.ps i).x (m.ps j).x) m.env.neighborLength) (contFrom m.grid b 0)
    have h3 : m.rowCap = 3 ^ D * m.grid.cap := by
      unfold State.rowCap lastNeighbor; ring
    rw [h3]
    simp only [Nat.sub_zero] at h1
    omega
  · rw [Bool.not_eq_true, List.any_eq_false]
    intro j hj
    rw [contFrom_offsets] at hj
    simp only [hc', List.mem_flatMap, List.mem_filter, List.mem_range] at hj
    obtain ⟨o, -, hj, -⟩ := hj
    simp; omega

/-- Facts about the state after a successful storing loop. -/
theorem marked_facts (s : State F D ω) (g : Grid F D)
    (hseq : s.grid.cleared.storeSeq (({ s with grid := s.grid.cleared } : State F D ω).storeLog (List.range s.n)) = some g)
    (hdef : ∀ i, i < s.n → (s.ps i).ty ≠ .disabled → s.grid.block? (s.ps i).x ≠ none) :
    let m := State.marked ({ s with grid := s.grid.cleared }) (List.range s.n) g
    SameGeom s.grid m.grid ∧ (∀ c, m.grid.inRange c = true → m.grid.count c ≤ m.grid.cap) ∧
    (∀ j, j < m.n → (m.ps j).ty ≠ .disabled → ∃ b, m.grid.block? (m.ps j).x = some b ∧ m.grid.inRange b = true) ∧
    (∀ c, m.grid.inRange c = true → m.grid.contents c
      = (List.range m.n).filter (fun j => decide ((m.ps j).ty ≠ .disabled)
          && decide (m.grid.block? (m.ps j).x = some c))) := by
  intro m
  obtain ⟨h1, h2, h3, h4⟩ := storeSeq_contents hseq
  have hgeom : SameGeom s.grid m.grid := (cleared_geom s.grid).trans h1
  have hx : ∀ j, (m.ps j).x = (s.ps j).x := by
    intro j
    simp only [m, State.marked]
    split <;> rfl
  have hlv : ∀ j, ({ s with grid := s.grid.cleared } : State F D ω).leaving j = s.leaving j :=
    fun j => (leaving_congr (s := s) (s' := { s with grid := s.grid.cleared }) (cleared_geom s.grid) rfl).1
  have hst : ∀ j, ({ s with grid := s.grid.cleared } : State F D ω).staying j = s.staying j :=
    fun j => (leaving_congr (s := s) (s' := { s with grid := s.grid.cleared }) (cleared_geom s.grid) rfl).2
  have hty : ∀ j, j < s.n → ((m.ps j).ty ≠ .disabled ↔ s.staying j = true) := by
    intro j hj
    have hd := hdef j hj
    simp only [m, State.marked, List.mem_range, hj, true_and, hlv]
    by_cases h0 : (s.ps j).ty = .disabled
    · simp [State.leaving, State.staying, h0]
    · obtain ⟨b, hb⟩ := Option.ne_none_iff_exists'.mp (hd h0)
      cases hr : s.grid.inRange b <;> simp [State.leaving, State.staying, hb, hr, Particle.disable, h0]
  refine ⟨hgeom, ?_, ?_, ?_⟩
  · intro c hc
    apply h3
    rw [hgeom.inRange] at hc
    rw [cleared_count hc]
    exact Nat.zero_le _
  · intro j hj hd
    have := (hty j hj).mp hd
    rw [hx, hgeom.block]
    unfold State.staying at this
    cases hb : s.grid.block? (s.ps j).x with
    | none => simp [hb] at this
    | some b =>
      simp [hb] at this
      exact ⟨b, rfl, by rw [hgeom.inRange]; exact this.2⟩
  · intro c hc
    have hc' := hc
    rw [hgeom.inRange] at hc
    change g.contents c = _
    rw [h2, cleared_contents hc, List.nil_append]
    unfold logBlock State.storeLog
    rw [List.filter_map, List.map_map, List.filter_filter]
    have : (Prod.snd ∘ fun i => ((s.ps i).x, i)) = (id : Nat → Nat) := rfl
    rw [this, List.map_id]
    apply List.filter_congr
    intro j hj
    have hj : j < s.n := by simpa using hj
    rw [hx, hgeom.block, hst, Function.comp]
    dsimp only
    rw [(cleared_geom s.grid).block]
    have := hty j hj
    by_cases hs : s.staying j = true
    · have hd := this.mpr hs
      simp [hs, hd]
    · have hd : (m.ps j).ty = .disabled := by
        by_contra hh; exact hs (this.mp hh)
      simp [hs, hd]

theorem rowsLoop_withRows (m : State F D ω) (sch : List Ev) (hv : ValidSched m.n sch)
    (hub : m.ub = false)
    (hrow : ∀ i, i < m.n → (m.ps i).ty ≠ .disabled → m.rowCompute i = .row (m.nbrList i)) :
    parLoop State.rowCompute State.rowCommit sch m = m.withRows := by
  rw [rowLoop_eq m sch hv]
  have hskip : ∀ i, (m.ps i).ty = .disabled → m.rowCompute i = .skip := by
    intro i h; simp [State.rowCompute, h]
  unfold State.withRows
  congr 1
  · funext i
    by_cases hi : i < m.n
    · simp only [hi, if_true]
      by_cases hd : (m.ps i).ty = .disabled
      · simp [hd, hskip i hd]
      · simp [hd, hrow i hi hd]
    · simp [hi]
  · rw [hub, Bool.false_or, List.any_eq_false]
    intro i hi
    have hi : i < m.n := by simpa using hi
    by_cases hd : (m.ps i).ty = .disabled
    · simp [hskip i hd]
    · simp [hrow i hi hd]

/-- The three outcomes of the neighbour search. -/
theorem searchNeighbor_spec (s : State F D ω) (sch : List Ev) (hv : ValidSched s.n sch)
    (hok : s.grid.ClearOK) (hub : s.ub = false) :
    (∃ g, s.grid.cleared.storeSeq (({ s with grid := s.grid.cleared } : State F D ω).storeLog (List.range s.n)) = some g ∧
      (∀ i, i < s.n → (s.ps i).ty ≠ .disabled → s.grid.block? (s.ps i).x ≠ none) ∧
      s.searchNeighbor sch = .ok (State.marked ({ s with grid := s.grid.cleared }) (List.range s.n) g).withRows) ∨
    (∃ j g g', j < s.n ∧ (s.ps j).ty ≠ .disabled ∧
      (∀ i, i < j → (s.ps i).ty ≠ .disabled → s.grid.block? (s.ps i).x ≠ none) ∧
      s.grid.cleared.storeSeq (({ s with grid := s.grid.cleared } : State F D ω).storeLog (List.range j)) = some g ∧
      g.store (s.ps j).x j = .full g' ∧
      s.searchNeighbor sch = .exn .gridFull (State.marked ({ s with grid := s.grid.cleared }) (List.range j) g')) ∨
    (∃ j, j < s.n ∧ (s.ps j).ty ≠ .disabled ∧ s.grid.block? (s.ps j).x = none ∧ s.searchNeighbor sch = .ub) := by
  have hcl : s.grid.clear? = some s.grid.cleared := clear_eq hok
  have hblk : ∀ x, s.grid.cleared.block? x = s.grid.block? x := (cleared_geom s.grid).block
  rcases storeAll_spec (List.range s.n) ({ s with grid := s.grid.cleared } : State F D ω) List.nodup_range with
    ⟨g, h1, h2, h3⟩ | ⟨is', j, is'', g, h1, h2, h3, h4, h5⟩
  · left
    have hdef : ∀ i, i < s.n → (s.ps i).ty ≠ .disabled → s.grid.block? (s.ps i).x ≠ none := by
      intro i hi hd
      rw [← hblk]
      exact h2 i (by simpa using hi) hd
    refine ⟨g, h1, hdef, ?_⟩
    unfold State.searchNeighbor
    rw [hcl]
    simp only
    rw [h3]
    simp only [Res.andThen, Res.bind]
    obtain ⟨hg, f1, f2, f3⟩ := marked_facts s g h1 hdef
    rw [rowsLoop_withRows (State.marked { s with grid := s.grid.cleared } (List.range s.n) g) sch hv hub
      (fun i hi hd => rowCompute_eq _ f1 f2 f3 i hi hd)]
    simp [State.withRows, State.marked, hub]
  · right
    have hjr : j < s.n := by
      have : j ∈ List.range s.n := by rw [h1]; simp
      simpa using this
    have his' : is' = List.range j := by
      have hlen : is'.length = j := by
        have := congrArg (fun l => l[is'.length]?) h1
        simp only [List.getElem?_append_right (Nat.le_refl _), Nat.sub_self, List.getElem?_cons_zero] at this
        rw [List.getElem?_eq_some_iff] at this
        obtain ⟨_, h⟩ := this
        simpa using h
      have h6 : is' = (List.range s.n).take is'.length := by rw [h1]; simp
      rw [h6, hlen, List.take_range, Nat.min_eq_left (by omega)]
    subst his'
    rcases h5 with ⟨g', h5, h6⟩ | ⟨h5, h6⟩
    · left
      refine ⟨j, g, g', hjr, h2, ?_, h3, h5, ?_⟩
      · intro i hi hd
        rw [← hblk]
        exact h4 i (by simpa using hi) hd
      · unfold State.searchNeighbor
        rw [hcl]
        simp only
        rw [h6]
        rfl
    · right
      refine ⟨j, hjr, h2, by rw [← hblk]; exact h5, ?_⟩
      unfold State.searchNeighbor
      rw [hcl]
      simp only
      rw [h6]
      rfl

end OpenMps
