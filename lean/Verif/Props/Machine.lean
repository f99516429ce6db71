import Verif.Lemmas.Machine
import Verif.Props.Step
import Verif.Spec.Toy
import Mathlib.Tactic.FinCases

/-! # The neighbour search of the compiled program (C49)

The grid and the neighbour table in flat memory with 64-bit words (`Model/Machine.lean`) against the grid and the table with unbounded numbers and
one cell per index (`Model/Grid.lean`, `Model/Computer.lean`), for every arithmetic. -/

set_option linter.unusedSectionVars false

namespace OpenMps

variable {F : Type} [Scalar F] {D : Nat} {ω : Type}

/-- Same shape, arbitrary contents: the buffer as the previous steps (or nobody) left it. -/
structure MGrid.SameShape (m m' : MGrid F D) : Prop where
  blockLength : m'.blockLength = m.blockLength
  origin : m'.origin = m.origin
  extents : m'.data.extents = m.data.extents

/-- The box is not turned inside out: there is room for at least one block besides the margin, and for a particle in a block. -/
def MGrid.Proper (m : MGrid F D) : Prop := (∀ a : Fin D, 2 ≤ m.size a) ∧ 1 ≤ m.data.extents.getD D 0 - 1

theorem shape_of_mk (hD : D = 2 ∨ D = 3) {nl l0 : F} {lo hi : Vec F D} {g : Grid F D} {m : MGrid F D}
    (hg : Grid.mk? nl l0 lo hi = some g) (hm : MGrid.mk? nl l0 lo hi = some m) (hp : m.Proper) :
    Shape g m ∧ g.cap * lastNeighbor D < 2 ^ 62 ∧ 1 ≤ g.cap := by
  unfold Grid.mk? at hg
  unfold MGrid.mk? at hm
  split at hg
  case h_2 => cases hg
  rename_i sz c h1 h2
  rw [h1, h2] at hm
  simp only at hm
  split at hm
  case isFalse => cases hm
  split at hm
  case isFalse => cases hm
  rename_i hf hlen
  injection hg with hg
  injection hm with hm
  subst hg hm
  obtain ⟨hs, hc⟩ := hp
  have hget : (List.ofFn (fun a => sz a + 2) ++ [1 + (c + 1) ^ D]).getD D 0 = 1 + (c + 1) ^ D := by simp
  have hc' : 1 ≤ (c + 1) ^ D := by simp only [hget] at hc; omega
  have hcap : ((((c + 1) ^ D).toNat : Nat) : Int) = (c + 1) ^ D := Int.toNat_of_nonneg (by omega)
  have hs' : ∀ a, 2 ≤ sz a + 2 := by
    intro a
    have := hs a
    unfold MGrid.size at this
    simpa using this
  have hlen := hlen.2
  set k := ((c + 1) ^ D).toNat with hk
  rw [← hcap] at hlen hc' ⊢
  have key : (∀ a, sz a + 2 < 2 ^ 62) ∧ (k + 1) * maxNeighbor D < 2 ^ 63 ∧ k * lastNeighbor D < 2 ^ 62 := by
    rcases hD with rfl | rfl
    · have a0 := hs' 0
      have a1 := hs' 1
      simp only [List.ofFn_succ, List.ofFn_zero, List.prod_append, List.prod_cons, List.prod_nil, mul_one] at hlen
      change (sz 0 + 2) * (sz 1 + 2) * (1 + (k : Int)) * 8 < 2 ^ 63 at hlen
      have b0 : (2 : Int) * 2 ≤ (sz 0 + 2) * (sz 1 + 2) := mul_le_mul a0 a1 (by omega) (by omega)
      have b1 : (2 * 2) * (1 + (k : Int)) ≤ (sz 0 + 2) * (sz 1 + 2) * (1 + (k : Int)) := mul_le_mul_of_nonneg_right b0 (by omega)
      have b2 : (sz 0 + 2) * 2 ≤ (sz 0 + 2) * (sz 1 + 2) := mul_le_mul_of_nonneg_left a1 (by omega)
      have b3 : 2 * (sz 1 + 2) ≤ (sz 0 + 2) * (sz 1 + 2) := mul_le_mul_of_nonneg_right a0 (by omega)
      have b4 : (sz 0 + 2) * (sz 1 + 2) * 2 ≤ (sz 0 + 2) * (sz 1 + 2) * (1 + (k : Int)) := mul_le_mul_of_nonneg_left (by omega) (by omega)
      refine ⟨?_, ?_, ?_⟩
      · intro a; fin_cases a
        · change sz 0 + 2 < _; omega
        · change sz 1 + 2 < _; omega
      · change (k + 1) * 10 < _; omega
      · change k * 9 < _; omega
    · have a0 := hs' 0
      have a1 := hs' 1
      have a2 := hs' 2
      simp only [List.ofFn_succ, List.ofFn_zero, List.prod_append, List.prod_cons, List.prod_nil, mul_one] at hlen
      change (sz 0 + 2) * ((sz 1 + 2) * (sz 2 + 2)) * (1 + (k : Int)) * 8 < 2 ^ 63 at hlen
      have b0 : (2 : Int) * 2 ≤ (sz 1 + 2) * (sz 2 + 2) := mul_le_mul a1 a2 (by omega) (by omega)
      have b1 : (2 : Int) * (2 * 2) ≤ (sz 0 + 2) * ((sz 1 + 2) * (sz 2 + 2)) := mul_le_mul a0 b0 (by omega) (by omega)
      have b2 : (2 * (2 * 2)) * (1 + (k : Int)) ≤ (sz 0 + 2) * ((sz 1 + 2) * (sz 2 + 2)) * (1 + (k : Int)) := mul_le_mul_of_nonneg_right b1 (by omega)
      have b3 : (sz 1 + 2) * 2 ≤ (sz 1 + 2) * (sz 2 + 2) := mul_le_mul_of_nonneg_left a2 (by omega)
      have b4 : 2 * (sz 2 + 2) ≤ (sz 1 + 2) * (sz 2 + 2) := mul_le_mul_of_nonneg_right a1 (by omega)
      have b5 : 2 * ((sz 1 + 2) * (sz 2 + 2)) ≤ (sz 0 + 2) * ((sz 1 + 2) * (sz 2 + 2)) := mul_le_mul_of_nonneg_right a0 (by omega)
      have b6 : (sz 0 + 2) * (2 * 2) ≤ (sz 0 + 2) * ((sz 1 + 2) * (sz 2 + 2)) := mul_le_mul_of_nonneg_left b0 (by omega)
      have b7 : (sz 0 + 2) * ((sz 1 + 2) * (sz 2 + 2)) * 2 ≤ (sz 0 + 2) * ((sz 1 + 2) * (sz 2 + 2)) * (1 + (k : Int)) :=
        mul_le_mul_of_nonneg_left (by omega) (by omega)
      refine ⟨?_, ?_, ?_⟩
      · intro a; fin_cases a
        · change sz 0 + 2 < _; omega
        · change sz 1 + 2 < _; omega
        · change sz 2 + 2 < _; omega
      · change (k + 1) * 28 < _; omega
      · change k * 27 < _; omega
  refine ⟨⟨rfl, rfl, ?_, hlen, key.2.1, key.1⟩, key.2.2, by change 1 ≤ k; omega⟩
  change List.ofFn (fun a => sz a + 2) ++ [1 + (k : Int)] = List.ofFn (fun a => sz a + 2) ++ [(k : Int) + 1]
  rw [add_comm]

theorem Shape.same {g : Grid F D} {m m' : MGrid F D} (h : Shape g m) (hs : m.SameShape m') : Shape g m' :=
  ⟨hs.blockLength.trans h.bl, hs.origin.trans h.org, hs.extents.trans h.ext, by
    have := h.ok; unfold MArray.Ok MArray.len at *; rw [hs.extents]; exact this, h.room, h.big⟩

theorem Shape.geom {g g' : Grid F D} {m : MGrid F D} (h : Shape g m) (hs : SameGeom g g') : Shape g' m :=
  ⟨h.bl.trans hs.bl.symm, h.org.trans hs.origin.symm, by rw [h.ext, hs.size, hs.cap], h.ok, by rw [hs.cap]; exact h.room,
    fun a => by rw [hs.size]; exact h.big a⟩

theorem table_of {g : Grid F D} {m : MGrid F D} (h : Shape g m) (hc : g.cap * lastNeighbor D < 2 ^ 62) {n : Nat} {nb : MArray}
    (hn : nbrExtents? m n = some nb.extents) : FlatTable nb n (g.cap * lastNeighbor D) := by
  unfold nbrExtents? at hn
  have hr : (m.maxParticles * BitVec.ofNat 64 (lastNeighbor D)).toInt = ((g.cap * lastNeighbor D : Nat) : Int) := by
    have hl : (BitVec.ofNat 64 (lastNeighbor D)).toNat = lastNeighbor D := toNat_ofNat (by have := h.cap.2; omega)
    have : (m.maxParticles * BitVec.ofNat 64 (lastNeighbor D)).toNat = g.cap * lastNeighbor D := by
      rw [BitVec.toNat_mul, h.maxParticles, hl, Nat.mod_eq_of_lt (by omega)]
    rw [toInt_small (by omega), this]
  rw [hr] at hn
  simp only at hn
  split at hn
  case isFalse => cases hn
  rename_i hh
  injection hn with hn
  set r := g.cap * lastNeighbor D
  obtain ⟨h1, h2, h3, h4⟩ := hh
  have h5 : (n : Int) * 1 ≤ (n : Int) * (1 + (r : Int)) := mul_le_mul_of_nonneg_left (by omega) (by omega)
  refine ⟨by rw [← hn, add_comm], ?_, by omega, hc⟩
  unfold MArray.Ok MArray.len
  rw [← hn]
  simp only [List.prod_cons, List.prod_nil, mul_one]
  exact h4

/-- The search of the flat program, from the abstract one. -/
theorem mSearch_sim {s : State F D ω} {m : MGrid F D} {nb : MArray} (hsh : Shape s.grid m) (hcl : s.grid.ClearOK) (hub : s.ub = false)
    (htab : FlatTable nb s.n s.rowCap) {sch : List Ev} (hv : ValidSched s.n sch)
    (hfit : ∀ i, i < s.n → (s.ps i).ty ≠ .disabled → ∃ b, s.grid.block? (s.ps i).x = some b ∧ ∀ a, Fits (b a))
    {order : List Nat} (hord : ∀ i, i ∈ order ↔ i < s.n) :
    (∃ s1 m' nb' s', s.searchNeighbor sch = .ok s1 ∧ mSearch s m nb order = .done m' nb' s' ∧ m.SameShape m' ∧ nb'.extents = nb.extents ∧
      s'.ps = s1.ps ∧ (∀ b, s1.grid.inRange b = true → ∃ w, m'.particleCount b = some w ∧ w.toNat = s1.grid.count b) ∧
      ∀ i, i < s.n → (s1.ps i).ty ≠ .disabled → ∃ ws, mNeighbors nb' i = some ws ∧ ws.map (·.toNat) = s1.neighbors i) ∨
    (∃ s1, s.searchNeighbor sch = .exn .gridFull s1 ∧ mSearch s m nb order = .full) := by
  obtain ⟨m0, c1, c2⟩ := hsh.clear hcl
  have hn62 := htab.small.1
  have hsim := mStoreAll_sim (List.range s.n) ({ s with grid := s.grid.cleared } : State F D ω) m0 c2
    (fun i hi => by have := List.mem_range.mp hi; omega)
    (fun i hi hd b hb => by
      obtain ⟨b', h1, h2⟩ := hfit i (List.mem_range.mp hi) hd
      rw [show ({ s with grid := s.grid.cleared } : State F D ω).grid.block? _ = _ from (cleared_geom s.grid).block _] at hb
      have : some b' = some b := h1.symm.trans hb
      injection this with this
      subst this; exact h2) s rfl
  rcases storeAll_spec (List.range s.n) ({ s with grid := s.grid.cleared } : State F D ω) List.nodup_range with
    ⟨g, h1, h2, h3⟩ | ⟨is', j, is'', g, h1, h2, h3, h4, h5⟩
  · left
    have hdef : ∀ i, i < s.n → (s.ps i).ty ≠ .disabled → s.grid.block? (s.ps i).x ≠ none := by
      intro i hi hd
      obtain ⟨b, hb, -⟩ := hfit i hi hd
      rw [hb]; simp
    obtain ⟨hg, f1, f2, f3⟩ := marked_facts s g h1 hdef
    have hrow := fun i hi hd => rowCompute_eq (State.marked { s with grid := s.grid.cleared } (List.range s.n) g) f1 f2 f3 i hi hd
    set t := State.marked { s with grid := s.grid.cleared } (List.range s.n) g with ht
    have hok : s.searchNeighbor sch = .ok t.withRows := by
      unfold State.searchNeighbor
      rw [show s.grid.clear? = some s.grid.cleared from clear_eq hcl]
      simp only
      rw [h3]
      simp only [Res.andThen, Res.bind]
      rw [rowsLoop_withRows t sch hv hub hrow]
      simp [State.withRows, ht, State.marked, hub]
    obtain ⟨m1, t1, e1, e2, e3⟩ := hsim.1 t h3
    have htn : t.n = s.n := rfl
    have htg : t.rowCap = s.rowCap := by unfold State.rowCap; rw [hg.cap]
    obtain ⟨nb', r1, r2, r3⟩ := rows_sim t e2 t.nbrList f2 hrow order nb (fun i hi => (hord i).mp hi) (by rw [htg, htn]; exact htab)
    have hmRow : ∀ nb i, mRow t1 m1 nb i = mRow t m1 nb i := by
      intro nb i
      have hl : ∀ (fuel : Nat) (it : MIter D) (idx : Word) (nb : MArray) (i : Word), mRowLoop t1 m1 i fuel it idx nb = mRowLoop t m1 i fuel it idx nb := by
        intro fuel
        induction fuel with
        | zero => intros; rfl
        | succ fuel ih =>
          intro it idx nb i
          unfold mRowLoop
          simp only [ih]
          rw [e3]
          rfl
      unfold mRow
      simp only [hl]
      rw [e3]
    refine ⟨t.withRows, m1, nb', t1, hok, ?_, ?_, ?_, ?_, ?_, ?_⟩
    · unfold mSearch
      rw [c1]
      simp only
      rw [e1]
      simp only
      rw [show (fun nb i => mRow t1 m1 nb i) = (fun nb i => mRow t m1 nb i) from by funext nb i; exact hmRow nb i, r1]
    · have hc := (hsh.geom hg)
      exact ⟨e2.bl.trans hc.bl.symm, e2.org.trans hc.org.symm, e2.ext.trans hc.ext.symm⟩
    · rw [r2.ext, htn, htg, htab.ext]
    · rw [e3]; rfl
    · exact e2.count
    · intro i hi hd
      have hi' : i < t.n := hi
      have hd' : (t.ps i).ty ≠ .disabled := hd
      obtain ⟨b, hb, hr⟩ := f2 i hi' hd'
      obtain ⟨-, -, -, -, hl, hj, -⟩ := row_sim t e2 hi' r2 hb hr hd' (hrow i hi' hd')
      rw [neighbors_withRows t i hi' hd']
      exact FlatRowIs.read r2 hi' hl hj (r3 i hi' hd' (Or.inl ((hord i).mpr hi)))
  · right
    have hjn : j < s.n := by
      have : j ∈ List.range s.n := by rw [h1]; simp
      simpa using this
    rcases h5 with ⟨g', h5, h6⟩ | ⟨h5, h6⟩
    · refine ⟨State.marked { s with grid := s.grid.cleared } is' g', ?_, ?_⟩
      · unfold State.searchNeighbor
        rw [show s.grid.clear? = some s.grid.cleared from clear_eq hcl]
        simp only
        rw [h6]
        rfl
      · unfold mSearch
        rw [c1]
        simp only
        rw [hsim.2 ⟨_, _, h6⟩]
    · exfalso
      obtain ⟨b, hb, -⟩ := hfit j hjn h2
      rw [show ({ s with grid := s.grid.cleared } : State F D ω).grid.block? _ = _ from (cleared_geom s.grid).block _] at h5
      have : (none : Option (Blk D)) = some b := h5.symm.trans hb
      cases this

/-- C49: the neighbour search of the compiled program gives the lists of the mathematical search (see the file header for the differences between
the two).  The computer is any reachable one, in any arithmetic, in 2-D or 3-D; `m0` is the array that its constructor could allocate.  The
contents `m` and `nb` of the array and of the table before the search are arbitrary.  If the block numbers of the enabled particles are
representable, no index leaves its array, no arithmetic overflows, and: either both searches fill a block beyond its capacity, or both succeed
with the same particles disabled and the same list read back for each enabled particle, whatever the order of the parallel iterations. -/
theorem C49_search_in_flat_memory (hD : D = 2 ∨ D = 3) {P : Params F D ω} {env : Env F D} {w : ω} {s0 s : State F D ω} {dts : List F}
    (hnew : State.new? env w = some s0) (hist : Hist P s0 dts s) (hcl : s.grid.ClearOK) (dt : F)
    {m0 m : MGrid F D} (hm0 : MGrid.mk? env.neighborLength env.l0 env.minX env.maxX = some m0) (hp : m0.Proper) (hm : m0.SameShape m)
    {nb : MArray} (hnb : nbrExtents? m0 s.n = some nb.extents)
    {sch : List Ev} (hv : ValidSched s.n sch) {order : List Nat} (hord : order.Perm (List.range s.n))
    (hfit : ∀ i, i < s.n → (s.ps i).ty ≠ .disabled → ∃ b, s.grid.block? (s.ps i).x = some b ∧ ∀ a, Fits (b a)) :
    (∃ s1 m' nb' s', (s.start dt).searchNeighbor sch = .ok s1 ∧ mSearch (s.start dt) m nb order = .done m' nb' s' ∧
      m0.SameShape m' ∧ nb'.extents = nb.extents ∧ s'.ps = s1.ps ∧
      (∀ b, s1.grid.inRange b = true → ∃ w, m'.particleCount b = some w ∧ w.toNat = s1.grid.count b) ∧
      ∀ i, i < s.n → (s1.ps i).ty ≠ .disabled → ∃ ws, mNeighbors nb' i = some ws ∧ ws.map (·.toNat) = s1.neighbors i) ∨
    (∃ s1, (s.start dt).searchNeighbor sch = .exn .gridFull s1 ∧ mSearch (s.start dt) m nb order = .full) := by
  obtain ⟨-, hg, hub⟩ := hist.frame
  unfold State.new? at hnew
  split at hnew
  · cases hnew
  rename_i g hgm
  injection hnew with hnew
  subst hnew
  obtain ⟨h1, h2, h3⟩ := shape_of_mk hD hgm hm0 hp
  have hsh : Shape (s.start dt).grid m := (h1.same hm).geom hg
  have htab : FlatTable nb s.n (s.start dt).rowCap := by
    have := table_of h1 h2 hnb
    unfold State.rowCap
    rw [show (s.start dt).grid.cap = g.cap from hg.cap]
    exact this
  have key := mSearch_sim (s := s.start dt) hsh hcl hub htab hv hfit (order := order) (fun i => by rw [hord.mem_iff]; exact List.mem_range)
  rcases key with ⟨s1, m', nb', s', k1, k2, k3, k4, k5, k6, k7⟩ | k
  · exact Or.inl ⟨s1, m', nb', s', k1, k2,
      ⟨k3.blockLength.trans hm.blockLength, k3.origin.trans hm.origin, k3.extents.trans hm.extents⟩, k4, k5, k6, k7⟩
  · exact Or.inr k

theorem foldlM_none {l : List (List Int)} {is : List Int} (h : is ∈ l) : ∀ (A : MArray),
    (∀ B : MArray, B.extents = A.extents → B.set? (is ++ [0]) 0 = none) → l.foldlM (fun (A : MArray) is => A.set? (is ++ [0]) 0) A = none := by
  induction l with
  | nil => cases h
  | cons js l ih =>
    intro A hA
    rw [List.foldlM_cons]
    rcases List.mem_cons.mp h with rfl | h
    · rw [hA A rfl]; rfl
    · cases hs : A.set? (js ++ [0]) 0 with
      | none => rfl
      | some A' =>
        have he : A'.extents = A.extents := by
          unfold MArray.set? at hs
          rw [Option.map_eq_some_iff] at hs
          obtain ⟨o, -, rfl⟩ := hs
          rfl
        exact ih h A' (fun B hB => hA B (hB.trans he))

theorem offset_sum : ∀ (ss is : List Int) (acc o : Int), offset? acc ss is = some o → o = acc + (List.zipWith (fun s i => i * s) ss is).sum := by
  intro ss
  induction ss with
  | nil => intro is acc o h; cases is <;> simp_all [offset?]
  | cons a ss ih =>
    intro is acc o h
    cases is with
    | nil => simp [offset?] at h
    | cons i is =>
      unfold offset? chk at h
      split at h
      · rw [Option.bind_some] at h
        split at h
        · rw [Option.bind_some] at h
          rw [ih is _ o h, List.zipWith_cons_cons, List.sum_cons, add_assoc]
        · cases h
      · cases h

/-- C49: in 3-D, clearing the flat array of a box with more blocks along `x` than along `y` writes behind the end of the buffer (the second
loop of `Clear` runs to the number of blocks along `x`). -/
theorem C49_clear_leaves_the_buffer {m : MGrid F 3} {c : Int} (hext : m.data.extents = [m.size 0, m.size 1, m.size 2, c])
    (hpos : 0 < m.size 1 ∧ 0 < m.size 2) (hxy : m.size 1 < m.size 0) : m.clear? = none := by
  unfold MGrid.clear?
  simp only [Option.map_eq_none_iff]
  refine foldlM_none (is := [m.size 0 - 1, m.size 1, 0]) ?_ _ ?_
  · rw [mem_loopIdx]
    simp only [List.ofFn_succ, List.ofFn_zero]
    refine .cons ⟨by omega, ?_⟩ (.cons ⟨by omega, ?_⟩ (.cons ⟨le_refl _, ?_⟩ .nil))
    · change m.size 0 - 1 < m.size 0; omega
    · change m.size 1 < m.size 0; omega
    · change 0 < m.size 2; omega
  · intro B hB
    unfold MArray.set? MArray.addr? MArray.len
    rw [hB, hext, Option.map_eq_none_iff]
    cases ho : offset? 0 (strides [m.size 0, m.size 1, m.size 2, c]) ([m.size 0 - 1, m.size 1, 0] ++ [0]) with
    | none => rfl
    | some o =>
      rw [Option.bind_some, if_neg]
      have := offset_sum _ _ _ _ ho
      simp only [strides, List.cons_append, List.nil_append, List.zipWith_cons_cons, List.zipWith_nil_left, List.sum_cons, List.sum_nil, List.prod_cons,
        List.prod_nil] at this ⊢
      intro hlt
      have h2 := hlt.2
      rw [this] at h2
      ring_nf at h2
      omega

/-! ### A concrete search

Four particles (one of them outside the box), the array and the table full of garbage, iterations in the order 3, 1, 0, 2. -/

section
attribute [local instance] instScalarInt

/-- The array of the toy computer. -/
def toyFlat0 : MGrid Int 2 := { blockLength := 4, origin := ![0, 0], data := { extents := [4, 4, 26], mem := fun _ => 0 } }

/-- The same, full of garbage. -/
def toyFlat : MGrid Int 2 := { toyFlat0 with data := { toyFlat0.data with mem := fun k => BitVec.ofNat 64 (k * k + 12345) } }

/-- The neighbour table, full of garbage. -/
def toyTable : MArray := { extents := [4, 226], mem := fun k => BitVec.ofNat 64 (2 ^ 64 - 1 - k) }

theorem toyFlat_mk : MGrid.mk? toyEnv.neighborLength toyEnv.l0 toyEnv.minX toyEnv.maxX = some toyFlat0 := by
  unfold MGrid.mk? allSome
  simp only [Scalar.ceilIdx]
  rw [if_pos (by simp)]
  simp only
  rw [if_pos (by decide +kernel), if_pos (by decide +kernel)]
  rfl

theorem toyFlat_proper : toyFlat0.Proper := by
  constructor
  · decide +kernel
  · decide +kernel

theorem toyTable_ext : nbrExtents? toyFlat0 toyState.n = some toyTable.extents := by
  decide +kernel

example : ∃ s1 m' nb' s', (toyState.start 1).searchNeighbor (serial 4) = .ok s1 ∧
    mSearch (toyState.start 1) toyFlat toyTable [3, 1, 0, 2] = .done m' nb' s' ∧ s'.ps = s1.ps ∧
    ∀ i, i < 4 → (s1.ps i).ty ≠ .disabled → ∃ ws, mNeighbors nb' i = some ws ∧ ws.map (·.toNat) = s1.neighbors i := by
  have h := C49_search_in_flat_memory (Or.inl rfl) (P := toyP 1) toyNew_eq (Hist.add toyParticles Hist.start) (fun h => by cases h) 1 toyFlat_mk
    toyFlat_proper (m := toyFlat) ⟨rfl, rfl, rfl⟩ (nb := toyTable) toyTable_ext (sch := serial 4) (validSched_serial 4) (order := [3, 1, 0, 2])
    (by decide) (by
      intro i hi _
      refine ⟨fun a => ((toyState.ps i).x a - 0) / 4, ?_, ?_⟩
      · unfold Grid.block? allSome
        rw [if_pos (by intro a; rfl)]
        congr 1
        funext a
        fin_cases a <;> rfl
      · have : i < 4 := hi
        have hall : ∀ k : Fin 4, ∀ a : Fin 2, Fits (((toyState.ps k.val).x a - 0) / 4) := by decide +kernel
        exact hall ⟨i, this⟩)
  rcases h with ⟨s1, m', nb', s', h1, h2, -, -, h5, -, h7⟩ | ⟨s1, h1, -⟩
  · exact ⟨s1, m', nb', s', h1, h2, h5, h7⟩
  · exfalso
    have : ((toyState.start 1).searchNeighbor (serial 4)).check (fun _ => true) (fun _ _ => false) = true := by decide +kernel
    rw [show (toyState.start 1).searchNeighbor (serial 4) = .exn .gridFull s1 from h1] at this
    cases this

/-- The lists that the flat search leaves in the table, and the particle that it disables. -/
example : (match mSearch (toyState.start 1) toyFlat toyTable [3, 1, 0, 2] with
    | .done _ nb s => decide ((List.range 3).map (fun i => (mNeighbors nb i).map (·.map (·.toNat))) = [some [1, 2], some [0, 2], some [0, 1]]) &&
        decide ((s.ps 3).ty = .disabled)
    | _ => false) = true := by
  decide +kernel

/-- A box with 3 blocks along `x` and 2 along `y`, `z`. -/
example : ({ blockLength := 4, origin := 0, data := { extents := [3, 2, 2, 9], mem := fun _ => 7 } } : MGrid Int 3).clear? = none :=
  C49_clear_leaves_the_buffer rfl (by decide) (by decide)

end

end OpenMps
