import Verif.Lemmas.GridEquiv
import Verif.Model.Instances

/-! # Properties C01, C03, C04, C05 (grid, any arithmetic) -/

set_option linter.unusedSectionVars false

namespace OpenMps

variable {F : Type} [Scalar F] {D : Nat}

/-! ## C01 -/

/-- The literal table of `Grid.hpp:366-376` (2-D). -/
example : offsets 2 = [![-1, -1], ![-1, 0], ![-1, 1], ![0, -1], ![0, 0], ![0, 1], ![1, -1], ![1, 0], ![1, 1]] := by
  decide

/-- The literal table of `Grid.hpp:378-402` (3-D). -/
example : offsets 3 =
    [![-1, -1, -1], ![-1, -1, 0], ![-1, -1, 1], ![-1, 0, -1], ![-1, 0, 0], ![-1, 0, 1], ![-1, 1, -1], ![-1, 1, 0], ![-1, 1, 1],
     ![0, -1, -1], ![0, -1, 0], ![0, -1, 1], ![0, 0, -1], ![0, 0, 0], ![0, 0, 1], ![0, 1, -1], ![0, 1, 0], ![0, 1, 1],
     ![1, -1, -1], ![1, -1, 0], ![1, -1, 1], ![1, 0, -1], ![1, 0, 0], ![1, 0, 1], ![1, 1, -1], ![1, 1, 0], ![1, 1, 1]] := by
  decide

/-- **C01.**  Clear a grid, store any list of particles successfully, iterate from `cbegin(x)` to `cend()` for a
position `x` inside the grid: the loop ends, never accesses anything outside the arrays (`done`), and yields, for
each of the `3^D` offsets in lexicographic order, exactly the numbers stored in that block, in order. -/
theorem C01_iteration_enumerates_surrounding_blocks (g0 g g' : Grid F D) (hok : g0.ClearOK)
    (hclear : g0.clear? = some g) (log : List (Vec F D × Nat)) (hstore : g.storeSeq log = some g')
    (x : Vec F D) (b : Blk D) (hb : g0.block? x = some b) (hin : ∀ a, 0 ≤ b a ∧ b a < g0.size a) :
    g'.visit x = .done ((offsets D).flatMap (fun o =>
      (log.filter (fun e => decide (g0.block? e.1 = some (b + o)))).map (·.2))) := by
  have hg : g = g0.cleared := by
    rw [clear_eq hok] at hclear; injection hclear with h; exact h.symm
  obtain ⟨h1, h2, h3, h4⟩ := storeSeq_contents hstore
  have hgeom : SameGeom g0 g' := by rw [hg] at h1; exact (cleared_geom g0).trans h1
  have hg0 : SameGeom g0 g := by rw [hg]; exact cleared_geom g0
  have hrb : g'.inRange b = true := by
    rw [hgeom.inRange]; simpa [Grid.inRange] using hin
  have hcap : ∀ c, g'.inRange c = true → g'.count c ≤ g'.cap := by
    intro c hc
    apply h3
    rw [hgeom.inRange] at hc
    rw [hg, cleared_count hc]
    exact Nat.zero_le _
  rw [visit_eq g' hcap x b (by rw [hgeom.block]; exact hb) hrb, contFrom_offsets]
  congr 1
  apply List.flatMap_congr
  intro o _
  have hlb : (log.filter (fun e => decide (g0.block? e.1 = some (b + o)))).map (·.2) = logBlock g log (b + o) := by
    unfold logBlock; simp only [hg0.block]
  rw [hlb]
  split
  · rename_i hr
    rw [h2, hg, cleared_contents (by rw [← hgeom.inRange]; exact hr), List.nil_append]
  · rename_i hr
    symm
    unfold logBlock
    rw [List.map_eq_nil_iff, List.filter_eq_nil_iff]
    intro e he
    obtain ⟨b', hb', hr'⟩ := h4 e he
    simp only [decide_eq_true_eq]
    intro hh
    rw [hb'] at hh
    injection hh with hh
    rw [hh, hg0.inRange, ← hgeom.inRange] at hr'
    exact hr hr'

/-- **C01**, as sets: with distinct particle numbers each number of a surrounding block is visited exactly
once, and no other number is visited. -/
theorem C01_each_number_once (g0 g g' : Grid F D) (hok : g0.ClearOK)
    (hclear : g0.clear? = some g) (log : List (Vec F D × Nat)) (hstore : g.storeSeq log = some g')
    (hdist : (log.map (·.2)).Nodup)
    (x : Vec F D) (b : Blk D) (hb : g0.block? x = some b) (hin : ∀ a, 0 ≤ b a ∧ b a < g0.size a) :
    ∃ l, g'.visit x = .done l ∧ l.Nodup ∧
      ∀ j, j ∈ l ↔ ∃ y c, (y, j) ∈ log ∧ g0.block? y = some c ∧ ∀ a, |c a - b a| ≤ 1 := by
  refine ⟨_, C01_iteration_enumerates_surrounding_blocks g0 g g' hok hclear log hstore x b hb hin, ?_, ?_⟩
  · rw [List.nodup_flatMap]
    constructor
    · intro o _
      exact (hdist.sublist (List.Sublist.map _ List.filter_sublist))
    · refine (nodup_offsets D).imp ?_
      intro o o' hoo j hj hj'
      simp only [List.mem_map, List.mem_filter, decide_eq_true_eq] at hj hj'
      obtain ⟨e, ⟨he, heb⟩, rfl⟩ := hj
      obtain ⟨e', ⟨he', heb'⟩, hee⟩ := hj'
      have : e' = e := List.inj_on_of_nodup_map hdist he' he hee
      subst this
      rw [heb] at heb'
      injection heb' with h
      exact hoo (add_left_cancel h)
  · intro j
    simp only [List.mem_flatMap, List.mem_map, List.mem_filter, decide_eq_true_eq, mem_offsets]
    constructor
    · rintro ⟨o, ho, ⟨y, j'⟩, ⟨he, heb⟩, rfl⟩
      refine ⟨y, b + o, he, heb, fun a => ?_⟩
      have := ho a
      rw [Pi.add_apply, add_sub_cancel_left, abs_le]
      exact this
    · rintro ⟨y, c, he, hc, habs⟩
      refine ⟨c - b, fun a => ?_, (y, j), ⟨he, ?_⟩, rfl⟩
      · have := abs_le.mp (habs a)
        simpa using this
      · rw [hc]; congr 1; funext a; simp

/-- A 3 x 4 integer grid with block length 1, capacity 2, containing leftovers. -/
def toyGrid : Grid Int 2 :=
  { blockLength := 1, origin := ![0, 0], size := ![3, 4], cap := 2,
    count := fun b => if b = ![1, 1] then 5 else 0, slot := fun _ _ => 7 }

section
attribute [local instance] instScalarInt

/-- Hypotheses of C01 are met: three particles, a corner query. -/
example : ∃ g g', toyGrid.clear? = some g ∧ g.storeSeq [(![0, 0], 10), (![1, 1], 11), (![2, 2], 12)] = some g'
    ∧ toyGrid.block? ![0, 0] = some ![0, 0] ∧ g'.visit ![0, 0] = .done [10, 11] := by
  refine ⟨_, _, rfl, rfl, by decide, ?_⟩
  refine (C01_iteration_enumerates_surrounding_blocks toyGrid _ _ (fun h => absurd h (by decide)) rfl
    [(![0, 0], 10), (![1, 1], 11), (![2, 2], 12)] rfl
    ![0, 0] ![0, 0] (by decide) (by decide)).trans ?_
  decide
end

/-! ## C03 -/

/-- **C03.**  `Store` returns false exactly when some block index is outside `0 .. size-1`, and then leaves the grid
unchanged. -/
theorem C03_store_false_iff_outside (g : Grid F D) (x : Vec F D) (pid : Nat) (b : Blk D)
    (hb : g.block? x = some b) :
    ((∃ g', g.store x pid = .outside g') ↔ ∃ a, b a < 0 ∨ g.size a ≤ b a) ∧
    (∀ g', g.store x pid = .outside g' → g' = g) := by
  have hr : g.inRange b = false ↔ ∃ a, b a < 0 ∨ g.size a ≤ b a := by
    unfold Grid.inRange
    rw [decide_eq_false_iff_not]
    push Not
    constructor
    · rintro ⟨a, ha⟩
      exact ⟨a, by by_cases h : b a < 0 <;> [left; right] <;> [exact h; exact ha (by omega)]⟩
    · rintro ⟨a, ha⟩
      exact ⟨a, fun h0 => by omega⟩
  refine ⟨?_, fun g' h => (store_outside h).1⟩
  rw [← hr]
  constructor
  · rintro ⟨g', h⟩
    obtain ⟨-, b', hb', hr'⟩ := store_outside h
    rw [hb] at hb'
    injection hb' with hb'
    rw [hb']; exact hr'
  · intro h
    exact ⟨g, by simp [Grid.store, hb, h]⟩

/-- **C03.**  When `Store` returns true it appends the number to the contents of exactly one block, the one containing
the position; all other blocks keep count and contents. -/
theorem C03_store_true_adds_one (g g' : Grid F D) (x : Vec F D) (pid : Nat) (h : g.store x pid = .stored g') :
    ∃ b, g.block? x = some b ∧ (∀ a, 0 ≤ b a ∧ b a < g.size a) ∧
      g'.contents b = g.contents b ++ [pid] ∧ g'.count b = g.count b + 1 ∧
      (∀ c, c ≠ b → g'.contents c = g.contents c ∧ g'.count c = g.count c) ∧
      g'.size = g.size ∧ g'.cap = g.cap ∧ g'.origin = g.origin ∧ g'.blockLength = g.blockLength := by
  obtain ⟨hg, b, h1, h2, h3, h4, h5, h6, h7⟩ := store_stored h
  refine ⟨b, h1, by simpa [Grid.inRange] using h2, h4, h6, fun c hc => ⟨h5 c hc, h7 c hc⟩,
    hg.size, hg.cap, hg.origin, hg.bl⟩

section
attribute [local instance] instScalarInt
/-- Both outcomes occur. -/
example : (∃ g', toyGrid.store ![0, 4] 3 = .outside g') ∧ (∃ g', toyGrid.store ![0, 3] 3 = .stored g') := by
  exact ⟨⟨_, rfl⟩, ⟨_, rfl⟩⟩
end

/-! ## C04 -/

/-- **C04.**  After clearing and storing any list successfully, storing one more particle inside the grid throws exactly
when its block already received `cap` particles; otherwise it succeeds. -/
theorem C04_throws_iff_full (g0 g g' : Grid F D) (hok : g0.ClearOK)
    (hclear : g0.clear? = some g) (log : List (Vec F D × Nat)) (hstore : g.storeSeq log = some g')
    (x : Vec F D) (pid : Nat) (b : Blk D) (hb : g0.block? x = some b) (hin : ∀ a, 0 ≤ b a ∧ b a < g0.size a) :
    (((∃ g'', g'.store x pid = .full g'') ↔
        (log.filter (fun e => decide (g0.block? e.1 = some b))).length = g0.cap) ∧
      ((∃ g'', g'.store x pid = .stored g'') ↔
        (log.filter (fun e => decide (g0.block? e.1 = some b))).length < g0.cap)) := by
  have hg : g = g0.cleared := by
    rw [clear_eq hok] at hclear; injection hclear with h; exact h.symm
  obtain ⟨h1, h2, h3, h4⟩ := storeSeq_contents hstore
  have hgeom : SameGeom g0 g' := by rw [hg] at h1; exact (cleared_geom g0).trans h1
  have hg0 : SameGeom g0 g := by rw [hg]; exact cleared_geom g0
  have hrb0 : g0.inRange b = true := by simpa [Grid.inRange] using hin
  have hrb : g'.inRange b = true := by rw [hgeom.inRange]; exact hrb0
  have hlen : (log.filter (fun e => decide (g0.block? e.1 = some b))).length = g'.count b := by
    have := congrArg List.length (h2 b)
    rw [hg, cleared_contents hrb0, List.nil_append] at this
    simp only [Grid.contents, List.length_map, List.length_range] at this
    rw [this, logBlock, List.length_map, ← hg]
    simp only [hg0.block]
  have hle : g'.count b ≤ g'.cap := h3 b (by rw [hg, cleared_count hrb0]; exact Nat.zero_le _)
  rw [hlen, ← hgeom.cap]
  have hb' : g'.block? x = some b := by rw [hgeom.block]; exact hb
  rcases store_cases g' x pid with ⟨k1, k2⟩ | ⟨b', k1, k2, k3⟩ | ⟨b', g'', k1, k2, k3, k4⟩ | ⟨b', g'', k1, k2, k3, k4⟩
  · rw [hb'] at k1; cases k1
  · rw [hb'] at k1; injection k1 with k1; subst k1; rw [hrb] at k2; cases k2
  · rw [hb'] at k1; injection k1 with k1; subst k1
    rw [k4]
    refine ⟨⟨fun _ => by omega, fun _ => ⟨_, rfl⟩⟩, ⟨?_, fun h => by omega⟩⟩
    rintro ⟨_, h⟩; cases h
  · rw [hb'] at k1; injection k1 with k1; subst k1
    rw [k4]
    refine ⟨⟨?_, fun h => by omega⟩, ⟨fun _ => k3, fun _ => ⟨_, rfl⟩⟩⟩
    rintro ⟨_, h⟩; cases h

/-- **C04.**  In every state whatsoever, a slot that `Store` writes has an index below `MaxParticles()`, and no other
slot changes. -/
theorem C04_slot_write_in_bounds (g g' : Grid F D) (x : Vec F D) (pid : Nat) (h : g.store x pid = .stored g') :
    ∃ b l, g.block? x = some b ∧ l < g.cap ∧ g'.slot b l = pid ∧
      ∀ c k, ¬ (c = b ∧ k = l) → g'.slot c k = g.slot c k := by
  unfold Grid.store at h
  split at h
  · cases h
  · rename_i b hb
    split at h
    · simp only at h
      split at h
      · cases h
      · rename_i hc
        injection h with h
        subst h
        refine ⟨b, g.count b, hb, by omega, by simp, ?_⟩
        intro c k hck
        by_cases hcb : c = b
        · subst hcb
          simp only [if_true]
          exact upd_ne _ _ (fun hk => hck ⟨rfl, hk⟩)
        · simp [hcb]
    · cases h

/-- **C04.**  The capacity of a constructed grid is `(ceil(L/l0)+1)^D`. -/
theorem C04_capacity (L l0 : F) (minX maxX : Vec F D) (g : Grid F D) (h : Grid.mk? L l0 minX maxX = some g) :
    ∃ c, Scalar.ceilIdx (L / l0) = some c ∧ g.cap = ((c + 1) ^ D).toNat := by
  unfold Grid.mk? at h
  split at h
  · rename_i c _ hc
    injection h with h
    subst h
    exact ⟨_, hc, rfl⟩
  · cases h

section
attribute [local instance] instScalarInt
/-- The hypotheses are met and the third particle in a block of capacity two throws. -/
example : ∃ g g' g'', toyGrid.clear? = some g ∧ g.storeSeq [(![2, 3], 0), (![2, 3], 1)] = some g'
    ∧ g'.store ![2, 3] 2 = .full g'' := ⟨_, _, _, rfl, rfl, rfl⟩
end

/-! ## C05 -/

/-- **C05.**  Whatever was done before (including throwing calls), `Clear` succeeds and afterwards every block of the
array is empty.  (In 3-D this needs as many blocks in `y` as in `x`.) -/
theorem C05_clear_empties (g0 g : Grid F D) (_h : Grid.Reach g0 g) (hok : g0.ClearOK) :
    ∃ g', g.clear? = some g' ∧ ∀ b, (∀ a, 0 ≤ b a ∧ b a < g0.size a) → g'.count b = 0 := by
  have hg := _h.geom
  refine ⟨_, clear_eq (hg.clearOK.mpr hok), ?_⟩
  intro b hb
  have : g.inRange b = true := by rw [hg.inRange]; simpa [Grid.inRange] using hb
  simp [this]

/-- **C05.**  A cleared grid behaves like a newly constructed one: the same lists can be stored, and every later
iteration gives the same result. -/
theorem C05_clear_behaves_like_new (L l0 : F) (minX maxX : Vec F D) (new g : Grid F D)
    (hnew : Grid.mk? L l0 minX maxX = some new) (h : Grid.Reach new g) (hok : new.ClearOK)
    (g' : Grid F D) (hclear : g.clear? = some g') (log : List (Vec F D × Nat)) :
    (∀ n1, new.storeSeq log = some n1 → ∃ g1, g'.storeSeq log = some g1 ∧
      ∀ x b, new.block? x = some b → (∀ a, 0 ≤ b a ∧ b a < new.size a) → g1.visit x = n1.visit x) ∧
    (new.storeSeq log = none → g'.storeSeq log = none) := by
  have hempty : ∀ c, new.count c = 0 := by
    unfold Grid.mk? at hnew
    split at hnew
    · injection hnew with hnew; subst hnew; intro c; rfl
    · cases hnew
  have hg := h.geom
  have hg' : g' = g.cleared := by
    rw [clear_eq (hg.clearOK.mpr hok)] at hclear; injection hclear with h; exact h.symm
  have heq : GridEquiv new g' := by
    subst hg'
    refine ⟨hg.trans (cleared_geom g), ?_⟩
    intro c hc
    rw [cleared_contents (by rw [hg.inRange]; exact hc)]
    simp [Grid.contents, hempty]
  have key := fun log n g h => storeSeq_equiv (F := F) (D := D) log n g h
  refine ⟨fun n1 hn => ?_, (key log new g' heq).2⟩
  obtain ⟨g1, hg1, e1⟩ := (key log new g' heq).1 n1 hn
  refine ⟨g1, hg1, ?_⟩
  intro x b hb hin
  obtain ⟨a1, a2, a3, a4⟩ := storeSeq_contents hn
  obtain ⟨b1, b2, b3, b4⟩ := storeSeq_contents hg1
  have hr : new.inRange b = true := by simpa [Grid.inRange] using hin
  have hcapn : ∀ c, n1.inRange c = true → n1.count c ≤ n1.cap := by
    intro c _; apply a3; rw [hempty]; exact Nat.zero_le _
  have hcapg : ∀ c, g1.inRange c = true → g1.count c ≤ g1.cap := by
    intro c hc
    apply b3
    rw [hg']
    rw [b1.inRange, hg'] at hc
    rw [cleared_count (by rw [← (cleared_geom g).inRange]; exact hc)]
    exact Nat.zero_le _
  rw [visit_eq n1 hcapn x b (by rw [a1.block]; exact hb) (by rw [a1.inRange]; exact hr),
    visit_eq g1 hcapg x b (by rw [b1.block, heq.geom.block]; exact hb)
      (by rw [b1.inRange, heq.geom.inRange]; exact hr)]
  rw [contFrom_offsets, contFrom_offsets]
  congr 1
  apply List.flatMap_congr
  intro o _
  rw [e1.geom.inRange]
  split
  · rename_i hc; exact e1.contents _ hc
  · rfl

/-- In 2-D the side condition always holds. -/
theorem C05_two_dimensional (g : Grid F 2) : g.ClearOK := fun h => absurd h (by decide)

/-- **C05, the defect**: in 3-D with more blocks in `y` than in `x`, `Clear` leaves the counts of all blocks with a large
`y` index as they were. -/
theorem C05_clear3d_incomplete (g : Grid F 3) (hlt : g.size 0 < g.size 1) (b : Blk 3) (hb : g.size 0 ≤ b 1) :
    ∃ g', g.clear? = some g' ∧ g'.count b = g.count b := by
  have hbound : ∀ a : Fin 3, g.clearBound a ≤ g.size a := by
    intro a
    unfold Grid.clearBound
    split
    · rename_i h
      have : a = 1 := Fin.ext h.2
      subst this
      exact le_of_lt hlt
    · exact le_refl _
  have hb1 : g.clearBound 1 = g.size 0 := by simp [Grid.clearBound]
  have hc : ¬((∃ a, g.size a < g.clearBound a) ∧ ∀ a, 0 < g.clearBound a) := by
    rintro ⟨⟨a, ha⟩, -⟩
    exact absurd ha (not_lt.mpr (hbound a))
  refine ⟨_, by unfold Grid.clear?; rw [if_neg hc], ?_⟩
  · simp only
    rw [if_neg]
    intro h
    have := (h 1).2
    rw [hb1] at this
    omega

/-- **C05, the defect**: in 3-D with fewer blocks in `y` than in `x`, `Clear` writes outside the array. -/
theorem C05_clear3d_out_of_bounds (g : Grid F 3) (hlt : g.size 1 < g.size 0) (hpos : ∀ a, 0 < g.size a) :
    g.clear? = none := by
  have hb1 : g.clearBound 1 = g.size 0 := by simp [Grid.clearBound]
  unfold Grid.clear?
  rw [if_pos]
  refine ⟨⟨1, by rw [hb1]; exact hlt⟩, ?_⟩
  intro a
  unfold Grid.clearBound
  split
  · exact hpos _
  · exact hpos _

section
attribute [local instance] instScalarInt
/-- A reachable grid with an overfull block that `Clear` empties. -/
example : ∃ g, Grid.Reach { toyGrid with count := fun _ => 0 } g ∧ g.count ![1, 1] = 3 := by
  refine ⟨_, .full (.stored (.stored .start (x := ![1, 1]) (pid := 0) rfl) (x := ![1, 1]) (pid := 1) rfl)
    (x := ![1, 1]) (pid := 2) rfl, ?_⟩
  decide
/-- A box that is longer in `y` than in `x` gives such a 3-D grid. -/
example : ∃ g : Grid Int 3, Grid.mk? 2 1 ![0, 0, 0] ![2, 20, 2] = some g ∧ g.size 0 < g.size 1 :=
  ⟨_, rfl, by decide⟩
end

end OpenMps
