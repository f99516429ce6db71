import Verif.Model.Machine
import Verif.Lemmas.Search
import Mathlib.Tactic.Linarith
import Mathlib.Tactic.Ring

/-! # Lemmas for C49: 64-bit arithmetic and flat memory -/

set_option linter.unusedSectionVars false

namespace OpenMps

/-! ### Row-major addresses -/

/-- Every index is within its own dimension. -/
def InB (es is : List Int) : Prop := List.Forall₂ (fun e i => 0 ≤ i ∧ i < e) es is

/-- The row-major address. -/
def flat : List Int → List Int → Int
  | _ :: es, i :: is => i * es.prod + flat es is
  | _, _ => 0

theorem prod_pos_of_inB {es is : List Int} (h : InB es is) : 0 < es.prod := by
  induction h with
  | nil => simp
  | cons h _ ih => rw [List.prod_cons]; exact mul_pos (by omega) ih

theorem flat_bounds {es is : List Int} (h : InB es is) : 0 ≤ flat es is ∧ flat es is < es.prod := by
  induction h with
  | nil => simp [flat]
  | @cons e i es is h hs ih =>
    have := prod_pos_of_inB hs
    rw [List.prod_cons]
    simp only [flat]
    constructor
    · have := mul_nonneg h.1 this.le; omega
    · have : (i + 1) * es.prod ≤ e * es.prod := mul_le_mul_of_nonneg_right (by omega) this.le
      rw [add_mul, one_mul] at this
      omega

theorem flat_inj {es is js : List Int} (h : InB es is) (h' : InB es js) (he : flat es is = flat es js) : is = js := by
  induction h generalizing js with
  | nil => cases h'; rfl
  | @cons e i es is hi hs ih =>
    cases h' with
    | @cons _ j _ js hj hs' =>
      simp only [flat] at he
      have b1 := flat_bounds hs
      have b2 := flat_bounds hs'
      have hij : i = j := by
        rcases lt_trichotomy i j with h | h | h
        · exfalso
          have : (i + 1) * es.prod ≤ j * es.prod := mul_le_mul_of_nonneg_right (by omega) (by omega)
          rw [add_mul, one_mul] at this; omega
        · exact h
        · exfalso
          have : (j + 1) * es.prod ≤ i * es.prod := mul_le_mul_of_nonneg_right (by omega) (by omega)
          rw [add_mul, one_mul] at this; omega
      subst hij
      rw [ih hs' (by omega)]

theorem chk_some {z : Int} (h : Fits z) : chk z = some z := by unfold chk; rw [if_pos h]

theorem offset_eq {es is : List Int} (h : InB es is) : ∀ acc, 0 ≤ acc → acc + flat es is < 2 ^ 63 →
    offset? acc (strides es) is = some (acc + flat es is) := by
  induction h with
  | nil => intro acc _ _; simp [offset?, strides, flat]
  | @cons e i es is hi hs ih =>
    intro acc h0 hlt
    have b := flat_bounds hs
    have hp := mul_nonneg hi.1 (prod_pos_of_inB hs).le
    simp only [flat] at hlt ⊢
    simp only [strides, offset?]
    rw [chk_some (by unfold Fits; omega), Option.bind_some, chk_some (by unfold Fits; omega), Option.bind_some, ih _ (by omega) (by omega)]
    congr 1; ring

variable {A A' : MArray} {is js : List Int} {w : Word}

/-- The buffer can be allocated. -/
def MArray.Ok (A : MArray) : Prop := A.len * 8 < 2 ^ 63

theorem addr_eq (hA : A.Ok) (h : InB A.extents is) : A.addr? is = some (flat A.extents is).toNat := by
  have b := flat_bounds h
  have hA : A.extents.prod * 8 < 2 ^ 63 := hA
  unfold MArray.addr?
  rw [offset_eq h 0 le_rfl (by omega), Option.bind_some, zero_add, if_pos ⟨b.1, b.2⟩]

theorem get_some (hA : A.Ok) (h : InB A.extents is) : ∃ w, A.get? is = some w := by
  unfold MArray.get?; rw [addr_eq hA h]; exact ⟨_, rfl⟩

theorem set_some (hA : A.Ok) (h : InB A.extents is) (w : Word) : ∃ A', A.set? is w = some A' ∧ A'.extents = A.extents ∧ A'.Ok ∧
    ∀ js, InB A.extents js → A'.get? js = if js = is then some w else A.get? js := by
  refine ⟨{ A with mem := upd A.mem (flat A.extents is).toNat w }, ?_, rfl, hA, ?_⟩
  · unfold MArray.set?; rw [addr_eq hA h]; rfl
  · intro js hj
    unfold MArray.get?
    have hA' : ({ A with mem := upd A.mem (flat A.extents is).toNat w } : MArray).Ok := hA
    rw [addr_eq hA' hj, addr_eq hA hj]
    simp only [Option.map_some]
    have b1 := flat_bounds h
    have b2 := flat_bounds hj
    by_cases he : js = is
    · rw [if_pos he, he]; simp [upd]
    · rw [if_neg he]
      have : (flat A.extents js).toNat ≠ (flat A.extents is).toNat := fun k => he (flat_inj hj h (by omega))
      simp [upd, this]

/-! ### Words -/

theorem toNat_add_one {w : Word} (h : w.toNat + 1 < 2 ^ 64) : (w + 1).toNat = w.toNat + 1 := by
  rw [BitVec.toNat_add]; simp; omega

theorem toInt_small {w : Word} (h : w.toNat < 2 ^ 63) : w.toInt = (w.toNat : Int) := by
  rw [BitVec.toInt_eq_toNat_cond, if_pos (by omega)]

theorem toNat_ofNat {k : Nat} (h : k < 2 ^ 64) : (BitVec.ofNat 64 k).toNat = k := by
  rw [BitVec.toNat_ofNat]; exact Nat.mod_eq_of_lt h

theorem toInt_ofNat {k : Nat} (h : k < 2 ^ 63) : (BitVec.ofNat 64 k).toInt = (k : Int) := by
  rw [toInt_small (by rw [toNat_ofNat (by omega)]; exact h), toNat_ofNat (by omega)]

variable {F : Type} [Scalar F] {D : Nat} {ω : Type}

/-! ### The grid in flat memory -/

/-- The flat memory `m` holds the grid `g`. -/
structure Rep (g : Grid F D) (m : MGrid F D) : Prop where
  bl : m.blockLength = g.blockLength
  org : m.origin = g.origin
  ext : m.data.extents = List.ofFn g.size ++ [(g.cap : Int) + 1]
  ok : m.data.Ok
  room : (g.cap + 1) * maxNeighbor D < 2 ^ 63
  big : ∀ a, g.size a < 2 ^ 62
  count : ∀ b, g.inRange b = true → ∃ w, m.data.get? (List.ofFn b ++ [0]) = some w ∧ w.toNat = g.count b
  slot : ∀ b, g.inRange b = true → ∀ l, l < g.count b → l < g.cap → ∃ w, m.data.get? (List.ofFn b ++ [(l : Int) + 1]) = some w ∧ w.toNat = g.slot b l

/-- Only the shape is known, the contents of the memory are arbitrary. -/
structure Shape (g : Grid F D) (m : MGrid F D) : Prop where
  bl : m.blockLength = g.blockLength
  org : m.origin = g.origin
  ext : m.data.extents = List.ofFn g.size ++ [(g.cap : Int) + 1]
  ok : m.data.Ok
  room : (g.cap + 1) * maxNeighbor D < 2 ^ 63
  big : ∀ a, g.size a < 2 ^ 62

variable {g : Grid F D} {m : MGrid F D}

theorem Rep.shape (h : Rep g m) : Shape g m := ⟨h.bl, h.org, h.ext, h.ok, h.room, h.big⟩

theorem Shape.cap (h : Shape g m) : g.cap + 1 < 2 ^ 63 ∧ lastNeighbor D + 1 < 2 ^ 63 := by
  have h1 := h.room
  have h2 : 0 < maxNeighbor D := by unfold maxNeighbor; omega
  constructor
  · exact lt_of_le_of_lt (Nat.le_mul_of_pos_right _ h2) h1
  · exact lt_of_le_of_lt (Nat.le_mul_of_pos_left (maxNeighbor D) (by omega : 0 < g.cap + 1)) h1

theorem inRange_iff {b : Blk D} : g.inRange b = true ↔ ∀ a, 0 ≤ b a ∧ b a < g.size a := by
  unfold Grid.inRange; rw [decide_eq_true_iff]

theorem forall2_ofFn {n : Nat} {α β : Type} {R : α → β → Prop} {f : Fin n → α} {k : Fin n → β} (h : ∀ a, R (f a) (k a)) :
    List.Forall₂ R (List.ofFn f) (List.ofFn k) := by
  induction n with
  | zero => simp
  | succ n ih => rw [List.ofFn_succ, List.ofFn_succ]; exact .cons (h 0) (ih (fun a => h a.succ))

theorem forall2_append {α β : Type} {R : α → β → Prop} {a c : List α} {b d : List β} (h : List.Forall₂ R a b) (h' : List.Forall₂ R c d) :
    List.Forall₂ R (a ++ c) (b ++ d) := by
  induction h with
  | nil => exact h'
  | cons h _ ih => exact .cons h ih

theorem Shape.inB (h : Shape g m) {b : Blk D} (hb : g.inRange b = true) {l : Int} (h0 : 0 ≤ l) (hl : l ≤ g.cap) :
    InB m.data.extents (List.ofFn b ++ [l]) := by
  rw [h.ext]
  exact forall2_append (forall2_ofFn (inRange_iff.mp hb)) (.cons ⟨h0, by omega⟩ .nil)

theorem Shape.size (h : Shape g m) (a : Fin D) : m.size a = g.size a := by
  unfold MGrid.size
  rw [h.ext, List.getD_eq_getElem?_getD, List.getElem?_append_left (by simp)]
  simp

theorem Shape.maxParticles (h : Shape g m) : m.maxParticles.toNat = g.cap := by
  have hc := h.cap.1
  unfold MGrid.maxParticles
  rw [h.ext, List.getD_eq_getElem?_getD, List.getElem?_append_right (by simp)]
  simp only [List.length_ofFn, Nat.sub_self, List.getElem?_cons_zero, Option.getD_some]
  have e : BitVec.ofInt 64 ((g.cap : Int) + 1) = BitVec.ofNat 64 (g.cap + 1) := by
    rw [← BitVec.ofInt_natCast]; push_cast; rfl
  rw [e, BitVec.toNat_sub, toNat_ofNat (by omega)]
  simp; omega

theorem ofFn_append_inj {b c : Blk D} {l k : Int} (h : List.ofFn b ++ [l] = List.ofFn c ++ [k]) : b = c ∧ l = k := by
  have := List.append_inj h (by simp)
  refine ⟨List.ofFn_injective this.1, ?_⟩
  simpa using this.2

theorem Shape.block (h : Shape g m) {x : Vec F D} {b : Blk D} (hb : g.block? x = some b) (hf : ∀ a, Fits (b a)) : m.block? x = some b := by
  unfold MGrid.block?
  unfold Grid.block? at hb
  rw [h.bl, h.org, hb]
  simp only
  rw [if_pos hf]

theorem Shape.fits (h : Shape g m) {b : Blk D} (hb : g.inRange b = true) (a : Fin D) : Fits (b a) ∧ Fits (b a - 1) ∧ Fits (b a + 1) := by
  have h1 := inRange_iff.mp hb a
  have h2 := h.big a
  unfold Fits
  omega

/-! ### Clear -/

theorem mem_loopIdx {ns is : List Int} : is ∈ loopIdx ns ↔ InB ns is := by
  induction ns generalizing is with
  | nil =>
    simp only [loopIdx, List.mem_singleton, InB]
    constructor
    · rintro rfl; exact .nil
    · intro h; cases h; rfl
  | cons n ns ih =>
    simp only [loopIdx, List.mem_flatMap, List.mem_range, List.mem_map]
    constructor
    · rintro ⟨i, hi, js, hj, rfl⟩
      exact .cons ⟨by omega, by omega⟩ (ih.mp hj)
    · intro h
      cases h with
      | @cons _ i _ js hi hs => exact ⟨i.toNat, by omega, js, ih.mpr hs, by congr 1; omega⟩

theorem clear_fold (l : List (List Int)) : ∀ (A : MArray), A.Ok → (∀ is ∈ l, InB A.extents (is ++ [0])) →
    ∃ A', l.foldlM (fun (A : MArray) is => A.set? (is ++ [0]) 0) A = some A' ∧ A'.extents = A.extents ∧ A'.Ok ∧
      ∀ js, InB A.extents js → A'.get? js = if (∃ is ∈ l, js = is ++ [0]) then some 0 else A.get? js := by
  induction l with
  | nil => intro A hA _; exact ⟨A, rfl, rfl, hA, fun js _ => by simp⟩
  | cons i l ih =>
    intro A hA hl
    obtain ⟨A1, e1, x1, o1, g1⟩ := set_some hA (hl i (by simp)) 0
    obtain ⟨A2, e2, x2, o2, g2⟩ := ih A1 o1 (fun is h => by rw [x1]; exact hl is (by simp [h]))
    refine ⟨A2, ?_, x2.trans x1, o2, ?_⟩
    · rw [List.foldlM_cons, e1]; exact e2
    · intro js hj
      rw [g2 js (by rw [x1]; exact hj), g1 js hj]
      by_cases h1 : ∃ is ∈ l, js = is ++ [0]
      · rw [if_pos h1, if_pos]
        obtain ⟨is, h2, h3⟩ := h1
        exact ⟨is, by simp [h2], h3⟩
      · rw [if_neg h1]
        by_cases h2 : js = i ++ [0]
        · rw [if_pos h2, if_pos ⟨i, by simp, h2⟩]
        · rw [if_neg h2, if_neg]
          rintro ⟨is, h3, h4⟩
          rcases List.mem_cons.mp h3 with rfl | h3
          · exact h2 h4
          · exact h1 ⟨is, h3, h4⟩

/-- `Clear`, whatever the memory contains. -/
theorem Shape.clear (h : Shape g m) (hok : g.ClearOK) : ∃ m', m.clear? = some m' ∧ Rep g.cleared m' := by
  have hb : (fun a : Fin D => if D = 3 ∧ a.val = 1 then m.size ⟨0, a.pos⟩ else m.size a) = g.size := by
    funext a
    rw [h.size a]
    split
    · rename_i k
      rw [h.size]; exact hok k.1 _ _ rfl k.2
    · rfl
  have hin : ∀ is ∈ loopIdx (List.ofFn g.size), InB m.data.extents (is ++ [0]) := by
    intro is hi
    rw [h.ext]
    exact forall2_append (mem_loopIdx.mp hi) (.cons ⟨le_rfl, by omega⟩ .nil)
  obtain ⟨A', e1, x1, o1, g1⟩ := clear_fold _ _ h.ok hin
  refine ⟨{ m with data := A' }, ?_, ⟨h.bl, h.org, x1.trans h.ext, o1, h.room, h.big, ?_, ?_⟩⟩
  · unfold MGrid.clear?
    simp only [hb]
    rw [e1]; rfl
  · intro b hb
    have hb : g.inRange b = true := hb
    refine ⟨0, ?_, ?_⟩
    · rw [g1 _ (h.inB hb le_rfl (by omega)), if_pos]
      exact ⟨_, mem_loopIdx.mpr (forall2_ofFn (inRange_iff.mp hb)), rfl⟩
    · rw [cleared_count hb]; rfl
  · intro b hb l hl
    have hb : g.inRange b = true := hb
    rw [cleared_count hb] at hl; omega

/-! ### Store -/

theorem Rep.store_stored (h : Rep g m) {g' : Grid F D} {x : Vec F D} {pid : Nat} (hp : pid < 2 ^ 64) (hs : g.store x pid = .stored g') :
    ∃ m', m.store x (BitVec.ofNat 64 pid) = .stored m' ∧ Rep g' m' := by
  unfold Grid.store at hs
  split at hs
  · cases hs
  · rename_i b hb
    split at hs
    · rename_i hr
      have hr : g.inRange b = true := hr
      simp only at hs
      split at hs
      · cases hs
      · rename_i hcap
        injection hs with hs
        have hcap : g.count b < g.cap := by omega
        have hcc := h.shape.cap.1
        obtain ⟨w, hw, hwn⟩ := h.count b hr
        have in0 := h.shape.inB hr (le_refl (0 : Int)) (by omega)
        have in1 := h.shape.inB hr (l := (g.count b : Int) + 1) (by omega) (by omega)
        obtain ⟨A1, e1, x1, o1, g1⟩ := set_some h.ok in0 (w + 1)
        obtain ⟨A2, e2, x2, o2, g2⟩ := set_some o1 (by rw [x1]; exact in1) (BitVec.ofNat 64 pid)
        refine ⟨{ m with data := A2 }, ?_, ?_⟩
        · unfold MGrid.store
          rw [h.shape.block hb (fun a => (h.shape.fits hr a).1)]
          simp only
          rw [if_pos (fun a => by rw [h.shape.size]; exact inRange_iff.mp hr a)]
          simp only [hw, e1]
          rw [if_neg (by rw [BitVec.le_def, h.shape.maxParticles, hwn]; omega)]
          rw [toInt_small (by rw [hwn]; omega), hwn, chk, if_pos (by unfold Fits; omega), Option.bind_some, e2]
        · rw [← hs]
          refine ⟨h.bl, h.org, x2.trans (x1.trans h.ext), o2, h.room, h.big, ?_, ?_⟩
          · intro c hc
            have hc : g.inRange c = true := hc
            have inc := h.shape.inB hc (le_refl (0 : Int)) (by omega)
            change ∃ w, A2.get? _ = some w ∧ _
            rw [g2 _ (by rw [x1]; exact inc), g1 _ inc, if_neg (fun k => by have := (ofFn_append_inj k).2; omega)]
            by_cases hcb : c = b
            · subst hcb
              rw [if_pos rfl]
              refine ⟨_, rfl, ?_⟩
              rw [toNat_add_one (by rw [hwn]; omega), hwn]
              simp
            · rw [if_neg (fun k => hcb (ofFn_append_inj k).1)]
              simp only [hcb, if_false]
              exact h.count c hc
          · intro c hc l hl hlc
            have hc : g.inRange c = true := hc
            have hlc : l < g.cap := hlc
            have inc := h.shape.inB hc (l := (l : Int) + 1) (by omega) (by omega)
            change ∃ w, A2.get? _ = some w ∧ _
            rw [g2 _ (by rw [x1]; exact inc), g1 _ inc]
            by_cases hcb : c = b
            · subst hcb
              simp only [if_true] at hl ⊢
              by_cases hlk : l = g.count c
              · subst hlk
                rw [if_pos rfl]
                refine ⟨_, rfl, ?_⟩
                rw [toNat_ofNat hp]; simp [upd]
              · rw [if_neg (fun k => by have := (ofFn_append_inj k).2; omega), if_neg (fun k => by have := (ofFn_append_inj k).2; omega)]
                obtain ⟨v, v1, v2⟩ := h.slot c hc l (by omega) hlc
                exact ⟨v, v1, by rw [v2]; simp [upd, hlk]⟩
            · rw [if_neg (fun k => hcb (ofFn_append_inj k).1), if_neg (fun k => hcb (ofFn_append_inj k).1)]
              simp only [hcb, if_false] at hl ⊢
              exact h.slot c hc l hl hlc
    · cases hs

theorem Rep.store_full (h : Rep g m) {g' : Grid F D} {x : Vec F D} {pid : Nat} (hs : g.store x pid = .full g') :
    ∃ m', m.store x (BitVec.ofNat 64 pid) = .full m' := by
  unfold Grid.store at hs
  split at hs
  · cases hs
  · rename_i b hb
    split at hs
    · rename_i hr
      have hr : g.inRange b = true := hr
      simp only at hs
      split at hs
      · rename_i hcap
        obtain ⟨w, hw, hwn⟩ := h.count b hr
        have in0 := h.shape.inB hr (le_refl (0 : Int)) (by omega)
        obtain ⟨A1, e1, x1, o1, g1⟩ := set_some h.ok in0 (w + 1)
        refine ⟨{ m with data := A1 }, ?_⟩
        unfold MGrid.store
        rw [h.shape.block hb (fun a => (h.shape.fits hr a).1)]
        simp only
        rw [if_pos (fun a => by rw [h.shape.size]; exact inRange_iff.mp hr a)]
        simp only [hw, e1]
        rw [if_pos (by rw [BitVec.le_def, h.shape.maxParticles, hwn]; omega)]
      · cases hs
    · cases hs

theorem Rep.store_outside (h : Rep g m) {g' : Grid F D} {x : Vec F D} {pid : Nat} (hs : g.store x pid = .outside g')
    (hf : ∀ b, g.block? x = some b → ∀ a, Fits (b a)) : g' = g ∧ m.store x (BitVec.ofNat 64 pid) = .outside m := by
  unfold Grid.store at hs
  split at hs
  · cases hs
  · rename_i b hb
    split at hs
    · simp only at hs
      split at hs <;> cases hs
    · rename_i hr
      injection hs with hs
      refine ⟨hs.symm, ?_⟩
      unfold MGrid.store
      rw [h.shape.block hb (hf b hb)]
      simp only
      rw [if_neg]
      intro k
      exact hr (inRange_iff.mpr (fun a => by rw [← h.shape.size]; exact k a))

/-! ### The iterator -/

theorem lastW_toNat (h : Shape g m) : (lastW D).toNat = lastNeighbor D := toNat_ofNat (by have := h.cap.2; omega)

theorem maxW_toNat (h : Shape g m) : (maxW D).toNat = maxNeighbor D := by
  have := h.cap.2
  unfold maxW maxNeighbor
  rw [toNat_add_one (by rw [toNat_ofNat (by omega)]; omega), toNat_ofNat (by omega)]

theorem nbr_of (h : Shape g m) {it : Iter D} {mit : MIter D} (hb : mit.base = it.base) {k : Word} (hk : k.toNat < lastNeighbor D) :
    mit.nbr? k = some (it.nbr k.toNat) := by
  unfold MIter.nbr?
  rw [if_pos (by rw [BitVec.lt_def, lastW_toNat h]; exact hk), hb]
  rfl

theorem scan_sim (h : Rep g m) {it : Iter D} {mit : MIter D} (hb : mit.base = it.base) : ∀ (fuel : Nat) (k : Word) (v : Bool),
    k.toNat < lastNeighbor D → lastNeighbor D < k.toNat + fuel →
    ∃ r, mit.scan m fuel k v = some r ∧ r.1.toNat = (it.scan g k.toNat v).1 ∧ r.2 = (it.scan g k.toNat v).2 := by
  have hlast := h.shape.cap.2
  intro fuel
  induction fuel with
  | zero => intro k v h1 h2; omega
  | succ fuel ih =>
    intro k v h1 h2
    have hk1 : (k + 1).toNat = k.toNat + 1 := toNat_add_one (by omega)
    rw [Iter.scan, MIter.scan]
    have hcond : (!v && decide (k + 1 < lastW D)) = (!v && decide (k.toNat + 1 < lastNeighbor D)) := by
      congr 1
      rw [decide_eq_decide, BitVec.lt_def, hk1, lastW_toNat h.shape]
    rw [hcond]
    by_cases hc : (!v && decide (k.toNat + 1 < lastNeighbor D)) = true
    · rw [if_pos hc, if_pos hc]
      have hlt : k.toNat + 1 < lastNeighbor D := by
        rw [Bool.and_eq_true, decide_eq_true_iff] at hc; exact hc.2
      rw [nbr_of h.shape hb (by rw [hk1]; exact hlt), hk1]
      simp only
      by_cases hr : g.inRange (it.nbr (k.toNat + 1)) = true
      · rw [if_pos (fun a => by rw [h.shape.size]; exact inRange_iff.mp hr a)]
        obtain ⟨w, w1, w2⟩ := h.count _ hr
        unfold MGrid.particleCount
        rw [w1]
        simp only
        obtain ⟨r, r1, r2, r3⟩ := ih (k + 1) (decide (0 < w)) (by rw [hk1]; omega) (by rw [hk1]; omega)
        have e : decide (0 < w) = (g.inRange (it.nbr (k.toNat + 1)) && decide (g.count (it.nbr (k.toNat + 1)) > 0)) := by
          rw [hr, Bool.true_and, decide_eq_decide, BitVec.lt_def, w2]; simp
        rw [hk1] at r2 r3
        rw [← e]
        exact ⟨r, r1, r2, r3⟩
      · rw [if_neg (fun k' => hr (inRange_iff.mpr (fun a => by rw [← h.shape.size]; exact k' a)))]
        obtain ⟨r, r1, r2, r3⟩ := ih (k + 1) false (by rw [hk1]; omega) (by rw [hk1]; omega)
        have e : (g.inRange (it.nbr (k.toNat + 1)) && decide (g.count (it.nbr (k.toNat + 1)) > 0)) = false := by
          rw [Bool.not_eq_true] at hr; rw [hr, Bool.false_and]
        rw [hk1] at r2 r3
        rw [e]
        exact ⟨r, r1, r2, r3⟩
    · rw [if_neg hc, if_neg hc]
      exact ⟨_, rfl, rfl, rfl⟩

/-- The two iterators are in corresponding states. -/
structure IterRep (it : Iter D) (mit : MIter D) : Prop where
  base : mit.base = it.base
  index : mit.index.toNat = it.index

theorem increment_sim (h : Rep g m) {it it' : Iter D} {mit : MIter D} (hi : IterRep it mit) (hsmall : it.index + maxNeighbor D < 2 ^ 64)
    (hs : it.increment g = some it') : ∃ mit', mit.increment m = some mit' ∧ IterRep it' mit' := by
  have hlast := h.shape.cap.2
  have hmod : (mit.index % maxW D).toNat = it.index % maxNeighbor D := by
    rw [BitVec.toNat_umod, hi.index, maxW_toNat h.shape]
  have hdiv : (mit.index / maxW D).toNat = it.index / maxNeighbor D := by
    rw [BitVec.toNat_udiv, hi.index, maxW_toNat h.shape]
  unfold Iter.increment at hs
  simp only at hs
  split at hs
  · cases hs
  rename_i hlt
  have hlt : it.index % maxNeighbor D < lastNeighbor D := by omega
  split at hs
  · cases hs
  rename_i count hcount
  have hr : g.inRange (it.nbr (it.index % maxNeighbor D)) = true := by
    unfold Grid.particleCount at hcount
    split at hcount
    · assumption
    · cases hcount
  obtain ⟨w, w1, w2⟩ := h.count _ hr
  have hcw : w.toNat = count := by
    unfold Grid.particleCount at hcount
    rw [if_pos hr] at hcount
    injection hcount with hcount
    rw [w2, hcount]
  unfold MIter.increment
  simp only
  rw [nbr_of h.shape hi.base (by rw [hmod]; exact hlt), hmod]
  simp only
  unfold MGrid.particleCount
  rw [w1]
  simp only
  have hlb : it.index / maxNeighbor D ≤ it.index := Nat.div_le_self _ _
  have hmx : 0 < maxNeighbor D := by unfold maxNeighbor; omega
  have hl1 : (mit.index / maxW D + 1).toNat = it.index / maxNeighbor D + 1 := by
    rw [toNat_add_one (by rw [hdiv]; omega), hdiv]
  have hpos : 0 < lastNeighbor D := by omega
  have hlm : (lastW D - 1).toNat = lastNeighbor D - 1 := by
    rw [BitVec.toNat_sub, lastW_toNat h.shape]; simp; omega
  by_cases hc : it.index / maxNeighbor D + 1 ≥ count
  · rw [if_pos hc] at hs
    rw [if_pos (by rw [BitVec.le_def, hl1, hcw]; exact hc)]
    by_cases he : it.index % maxNeighbor D = lastNeighbor D - 1
    · rw [if_pos he] at hs
      injection hs with hs
      rw [if_pos (by rw [← BitVec.toNat_inj, hmod, hlm]; exact he)]
      exact ⟨_, rfl, by rw [← hs]; exact ⟨hi.base, lastW_toNat h.shape⟩⟩
    · rw [if_neg he] at hs
      rw [if_neg (by rw [← BitVec.toNat_inj, hmod, hlm]; exact he)]
      obtain ⟨r, r1, r2, r3⟩ := scan_sim h hi.base (lastNeighbor D + 1) (mit.index % maxW D) false (by rw [hmod]; exact hlt) (by omega)
      rw [hmod] at r2 r3
      rw [r1]
      simp only
      rw [r3]
      by_cases hv : (!(it.scan g (it.index % maxNeighbor D) false).2) = true
      · rw [if_pos hv] at hs ⊢
        injection hs with hs
        exact ⟨_, rfl, by rw [← hs]; exact ⟨hi.base, lastW_toNat h.shape⟩⟩
      · rw [if_neg hv] at hs ⊢
        injection hs with hs
        exact ⟨_, rfl, by rw [← hs]; exact ⟨hi.base, r2⟩⟩
  · rw [if_neg hc] at hs
    rw [if_neg (by rw [BitVec.le_def, hl1, hcw]; exact hc)]
    injection hs with hs
    refine ⟨_, rfl, ?_⟩
    rw [← hs]
    refine ⟨hi.base, ?_⟩
    change (mit.index + maxW D).toNat = _
    rw [BitVec.toNat_add, hi.index, maxW_toNat h.shape, Nat.mod_eq_of_lt hsmall]

theorem deref_sim (h : Rep g m) {it : Iter D} {mit : MIter D} (hi : IterRep it mit) {j : Nat} (hs : it.deref g = some j)
    (hl : it.index / maxNeighbor D < g.count (it.nbr (it.index % maxNeighbor D))) :
    ∃ w, mit.deref m = some w ∧ w.toNat = j := by
  have hmod : (mit.index % maxW D).toNat = it.index % maxNeighbor D := by
    rw [BitVec.toNat_umod, hi.index, maxW_toNat h.shape]
  have hdiv : (mit.index / maxW D).toNat = it.index / maxNeighbor D := by
    rw [BitVec.toNat_udiv, hi.index, maxW_toNat h.shape]
  unfold Iter.deref at hs
  simp only at hs
  split at hs
  · rename_i hc
    injection hs with hs
    obtain ⟨w, w1, w2⟩ := h.slot _ hc.2.1 _ hl hc.2.2
    have hcc := h.shape.cap.1
    refine ⟨w, ?_, by rw [w2, hs]⟩
    unfold MIter.deref
    rw [nbr_of h.shape hi.base (by rw [hmod]; exact hc.1), hmod]
    simp only
    have := hc.2.2
    rw [toInt_small (by rw [hdiv]; omega), hdiv, chk, if_pos (by unfold Fits; omega), Option.bind_some, w1]
  · cases hs

theorem cbegin_sim (h : Rep g m) {x : Vec F D} {it : Iter D} {b : Blk D} (hb : g.block? x = some b) (hr : g.inRange b = true)
    (hs : g.cbegin x = some it) : ∃ mit, m.cbegin x = some mit ∧ IterRep it mit := by
  have hlast := h.shape.cap.2
  have hst : startIndex b < 3 ^ D := startIndex_lt b
  have hst : startIndex b < lastNeighbor D := hst
  unfold Grid.cbegin at hs
  rw [hb] at hs
  simp only at hs
  split at hs
  · cases hs
  rename_i count hcount
  have hi : IterRep (⟨b, startIndex b⟩ : Iter D) (⟨b, BitVec.ofNat 64 (startIndex b)⟩ : MIter D) := ⟨rfl, toNat_ofNat (by omega)⟩
  have hmod : (BitVec.ofNat 64 (startIndex b) % maxW D).toNat = startIndex b % maxNeighbor D := by
    rw [BitVec.toNat_umod, toNat_ofNat (by omega), maxW_toNat h.shape]
  have hmn : startIndex b % maxNeighbor D < lastNeighbor D := by
    unfold maxNeighbor; rw [Nat.mod_eq_of_lt (by omega)]; exact hst
  have hr' : g.inRange ((⟨b, startIndex b⟩ : Iter D).nbr (startIndex b % maxNeighbor D)) = true := by
    unfold Grid.particleCount at hcount
    split at hcount
    · assumption
    · cases hcount
  obtain ⟨w, w1, w2⟩ := h.count _ hr'
  have hcw : w.toNat = count := by
    unfold Grid.particleCount at hcount
    rw [if_pos hr'] at hcount
    injection hcount with hcount
    rw [w2, hcount]
  unfold MGrid.cbegin
  rw [h.shape.block hb (fun a => (h.shape.fits hr a).1)]
  simp only
  rw [if_pos (fun a => (h.shape.fits hr a).2), nbr_of h.shape hi.base (by rw [hmod]; exact hmn), hmod]
  simp only
  unfold MGrid.particleCount
  rw [w1]
  simp only
  by_cases hc : count = 0
  · rw [if_pos hc] at hs
    rw [if_pos (by rw [← BitVec.toNat_inj, hcw, hc]; rfl)]
    exact increment_sim h hi (by change startIndex b + (lastNeighbor D + 1) < _; omega) hs
  · rw [if_neg hc] at hs
    injection hs with hs
    rw [if_neg (by rw [← BitVec.toNat_inj, hcw]; exact hc)]
    exact ⟨_, rfl, by rw [← hs]; exact hi⟩

/-! ### The model's iterator always points to a particle -/

/-- At the end, or at a stored number. -/
def Good (g : Grid F D) (it : Iter D) : Prop :=
  it.index = lastNeighbor D ∨ it.index / maxNeighbor D < g.count (it.nbr (it.index % maxNeighbor D))

theorem scan_good (g : Grid F D) (it : Iter D) : ∀ (k : Nat) (j : Nat) (v : Bool), j + k = lastNeighbor D → 0 < k → (v = true → 0 < g.count (it.nbr j)) →
    (it.scan g j v).1 < lastNeighbor D ∧ ((it.scan g j v).2 = true → 0 < g.count (it.nbr (it.scan g j v).1)) := by
  intro k
  induction k with
  | zero => intro j v _ h; omega
  | succ k ih =>
    intro j v hj _ hv
    rw [Iter.scan]
    split
    · rename_i hc
      rw [Bool.and_eq_true, decide_eq_true_iff] at hc
      exact ih _ _ (by omega) (by omega) (fun h => by rw [Bool.and_eq_true, decide_eq_true_iff] at h; exact h.2)
    · exact ⟨by omega, hv⟩

theorem small_index {k : Nat} (h : k < lastNeighbor D) : k % maxNeighbor D = k ∧ k / maxNeighbor D = 0 := by
  unfold maxNeighbor
  exact ⟨Nat.mod_eq_of_lt (by omega), Nat.div_eq_of_lt (by omega)⟩

theorem increment_good {it it' : Iter D} (hs : it.increment g = some it') : Good g it' := by
  unfold Iter.increment at hs
  simp only at hs
  split at hs
  · cases hs
  rename_i hlt
  split at hs
  · cases hs
  rename_i count hcount
  have hcc : g.count (it.nbr (it.index % maxNeighbor D)) = count := by
    unfold Grid.particleCount at hcount
    split at hcount
    · injection hcount
    · cases hcount
  split at hs
  · split at hs
    · injection hs with hs; rw [← hs]; exact Or.inl rfl
    · split at hs
      · injection hs with hs; rw [← hs]; exact Or.inl rfl
      · rename_i hv
        injection hs with hs
        rw [← hs]
        right
        obtain ⟨h1, h2⟩ := scan_good g it (lastNeighbor D - it.index % maxNeighbor D) (it.index % maxNeighbor D) false (by omega) (by omega) (by simp)
        have h3 := small_index h1
        change (it.scan g (it.index % maxNeighbor D) false).1 / maxNeighbor D <
          g.count (it.nbr ((it.scan g (it.index % maxNeighbor D) false).1 % maxNeighbor D))
        rw [h3.1, h3.2]
        exact h2 (by simpa using hv)
  · rename_i hc
    injection hs with hs
    rw [← hs]
    right
    have hmx : 0 < maxNeighbor D := by unfold maxNeighbor; omega
    change (it.index + maxNeighbor D) / maxNeighbor D < g.count (it.nbr ((it.index + maxNeighbor D) % maxNeighbor D))
    rw [Nat.add_mod_right, Nat.add_div_right _ hmx, hcc]
    omega

theorem cbegin_good {x : Vec F D} {it : Iter D} (hs : g.cbegin x = some it) : Good g it := by
  unfold Grid.cbegin at hs
  split at hs
  · cases hs
  rename_i b hb
  simp only at hs
  split at hs
  · cases hs
  rename_i count hcount
  split at hs
  · exact increment_good hs
  · rename_i hc
    injection hs with hs
    have hcc : g.count ((⟨b, startIndex b⟩ : Iter D).nbr (startIndex b % maxNeighbor D)) = count := by
      unfold Grid.particleCount at hcount
      split at hcount
      · injection hcount
      · cases hcount
    rw [← hs]
    right
    change startIndex b / maxNeighbor D < g.count ((⟨b, startIndex b⟩ : Iter D).nbr (startIndex b % maxNeighbor D))
    rw [hcc, (small_index (startIndex_lt b)).2]
    omega

/-! ### One row of the neighbour table -/

/-- The number `j` is written to the row of `i`. -/
def keep (s : State F D ω) (i j : Nat) : Bool :=
  decide (j ≠ i) && decide ((s.ps j).ty ≠ .disabled) && Scalar.lt (dist (s.ps i).x (s.ps j).x) s.env.neighborLength

/-- The flat neighbour table for `n` particles with rows of `c` entries. -/
structure FlatTable (nb : MArray) (n c : Nat) : Prop where
  ext : nb.extents = [(n : Int), (c : Int) + 1]
  ok : nb.Ok
  small : n < 2 ^ 62 ∧ c < 2 ^ 62

theorem FlatTable.inB {nb : MArray} {n c i k : Nat} (h : FlatTable nb n c) (hi : i < n) (hk : k ≤ c) : InB nb.extents [(i : Int), (k : Int)] := by
  rw [h.ext]; exact .cons ⟨by omega, by omega⟩ (.cons ⟨by omega, by omega⟩ .nil)

theorem FlatTable.set {nb : MArray} {n c i k : Nat} (h : FlatTable nb n c) (hi : i < n) (hk : k ≤ c) (w : Word) :
    ∃ nb', nb.set? [(i : Int), (k : Int)] w = some nb' ∧ FlatTable nb' n c ∧
      ∀ a b : Nat, a < n → b ≤ c → nb'.get? [(a : Int), (b : Int)] = if a = i ∧ b = k then some w else nb.get? [(a : Int), (b : Int)] := by
  obtain ⟨nb', e1, x1, o1, g1⟩ := set_some h.ok (h.inB hi hk) w
  refine ⟨nb', e1, ⟨x1.trans h.ext, o1, h.small⟩, ?_⟩
  intro a b ha hb
  rw [g1 _ (h.inB ha hb)]
  apply if_congr _ rfl rfl
  constructor
  · intro k'
    simp only [List.cons.injEq, Nat.cast_inj, and_true] at k'
    exact k'
  · rintro ⟨rfl, rfl⟩; rfl

theorem rowLoop_sim (h : Rep g m) (s : State F D ω) {i n c : Nat} (hi : i < n) (hn : s.n = n) : ∀ (fuel : Nat) (it : Iter D) (mit : MIter D) (idx : Word) (nb : MArray)
    (l : List Nat), IterRep it mit → Good g it → FlatTable nb n c → it.collect g fuel = .done l → (∀ j ∈ l, j < n) →
    idx.toNat + (l.filter (keep s i)).length ≤ c →
    ∃ r, mRowLoop s m (BitVec.ofNat 64 i) fuel mit idx nb = some r ∧ r.1.toNat = idx.toNat + (l.filter (keep s i)).length ∧ FlatTable r.2 n c ∧
      ∀ a b : Nat, a < n → b ≤ c → r.2.get? [(a : Int), (b : Int)] =
        if a = i ∧ idx.toNat < b ∧ b ≤ idx.toNat + (l.filter (keep s i)).length
        then some (BitVec.ofNat 64 ((l.filter (keep s i)).getD (b - 1 - idx.toNat) 0)) else nb.get? [(a : Int), (b : Int)] := by
  intro fuel
  induction fuel with
  | zero => intro it mit idx nb l _ _ _ hl; cases hl
  | succ fuel ih =>
    intro it mit idx nb l hit hg ht hl hln hlen
    have hcc := h.shape.cap
    have hend : mit.index = lastW D ↔ it.index = lastNeighbor D := by
      rw [← BitVec.toNat_inj, hit.index, lastW_toNat h.shape]
    unfold Iter.collect at hl
    unfold mRowLoop
    by_cases he : it.index = lastNeighbor D
    · rw [if_pos he] at hl
      injection hl with hl
      subst hl
      rw [if_pos (hend.mpr he)]
      refine ⟨_, rfl, by simp, ht, ?_⟩
      intro a b _ _
      rw [if_neg]
      simp only [List.filter_nil, List.length_nil]
      omega
    · rw [if_neg he] at hl
      rw [if_neg (fun k => he (hend.mp k))]
      have hg' : it.index / maxNeighbor D < g.count (it.nbr (it.index % maxNeighbor D)) := hg.resolve_left he
      split at hl
      · cases hl
      rename_i j hj
      split at hl
      · cases hl
      rename_i it' hinc
      split at hl
      all_goals try cases hl
      rename_i l' hl'
      obtain ⟨w, w1, w2⟩ := deref_sim h hit hj hg'
      have hcapl : it.index / maxNeighbor D < g.cap := by
        unfold Iter.deref at hj
        simp only at hj
        split at hj
        · rename_i k; exact k.2.2
        · cases hj
      have hsmall : it.index + maxNeighbor D < 2 ^ 64 := by
        have h1 := Nat.div_add_mod it.index (maxNeighbor D)
        have hmx : 0 < maxNeighbor D := by unfold maxNeighbor; omega
        have h2 := Nat.mod_lt it.index hmx
        have h3 : (it.index / maxNeighbor D + 1) * maxNeighbor D ≤ g.cap * maxNeighbor D := Nat.mul_le_mul_right _ hcapl
        have h4 := h.room
        rw [Nat.add_mul, Nat.one_mul] at h3 h4
        rw [Nat.mul_comm] at h1
        omega
      obtain ⟨mit', i1, i2⟩ := increment_sim h hit hsmall hinc
      have hjn : j < n := hln j (by simp)
      have hin : (BitVec.ofNat 64 i).toNat = i := toNat_ofNat (by have := ht.small.1; omega)
      have hii : (BitVec.ofNat 64 i).toInt = (i : Int) := toInt_ofNat (by have := ht.small.1; omega)
      rw [w1]
      simp only
      rw [if_neg (by rw [w2, hn]; omega), w2, hin]
      have hkeep : (w ≠ BitVec.ofNat 64 i ∧ (s.ps j).ty ≠ .disabled ∧ Scalar.lt (dist (s.ps i).x (s.ps j).x) s.env.neighborLength = true) ↔
          keep s i j = true := by
        unfold keep
        rw [Bool.and_eq_true, Bool.and_eq_true, decide_eq_true_iff, decide_eq_true_iff, ne_eq, ← BitVec.toNat_inj, w2, hin, and_assoc]
      have hgood := increment_good hinc
      by_cases hk : keep s i j = true
      · rw [if_pos (hkeep.mpr hk)]
        rw [List.filter_cons_of_pos hk, List.length_cons] at hlen ⊢
        have hidx : idx.toNat < 2 ^ 62 := by have := ht.small.2; omega
        obtain ⟨nb', e1, e2, e3⟩ := ht.set hi (k := 1 + idx.toNat) (by omega) w
        have hch : (chk (1 + idx.toInt)).bind (fun c => nb.set? [(BitVec.ofNat 64 i).toInt, c] w) = some nb' := by
          rw [toInt_small (by omega), chk_some (by unfold Fits; omega), Option.bind_some, hii, ← e1]
          push_cast; rfl
        rw [hch]
        simp only
        rw [i1]
        simp only
        have hidx1 : (idx + 1).toNat = idx.toNat + 1 := toNat_add_one (by omega)
        obtain ⟨r, r1, r2, r3, r4⟩ := ih it' mit' (idx + 1) nb' l' i2 hgood e2 hl' (fun k hk => hln k (by simp [hk])) (by rw [hidx1]; omega)
        refine ⟨r, r1, by rw [r2, hidx1]; omega, r3, ?_⟩
        intro a b ha hb
        rw [r4 a b ha hb, hidx1, e3 a b ha hb]
        by_cases ha' : a = i
        · subst ha'
          by_cases hb2 : idx.toNat + 1 < b ∧ b ≤ idx.toNat + 1 + (l'.filter (keep s a)).length
          · rw [if_pos ⟨rfl, hb2⟩, if_pos ⟨rfl, by omega, by omega⟩]
            have : b - 1 - idx.toNat = (b - 1 - (idx.toNat + 1)) + 1 := by omega
            rw [this, List.getD_cons_succ]
          · rw [if_neg (fun k => hb2 k.2)]
            by_cases hb1 : b = 1 + idx.toNat
            · rw [if_pos ⟨rfl, hb1⟩, if_pos ⟨rfl, by omega, by omega⟩]
              have : b - 1 - idx.toNat = 0 := by omega
              rw [this]
              simp only [List.getD_cons_zero]
              rw [← w2, BitVec.ofNat_toNat]; simp
            · rw [if_neg (fun k => hb1 k.2), if_neg (fun k => by omega)]
        · rw [if_neg (fun k => ha' k.1), if_neg (fun k => ha' k.1), if_neg (fun k => ha' k.1)]
      · rw [if_neg (fun k => hk (hkeep.mp k)), i1]
        rw [List.filter_cons_of_neg hk] at hlen ⊢
        exact ih it' mit' idx nb l' i2 hgood ht hl' (fun k hk => hln k (by simp [hk])) hlen

/-- Row `i` of the flat table contains the list `l`. -/
def FlatRowIs (nb : MArray) (i : Nat) (l : List Nat) : Prop :=
  nb.get? [(i : Int), 0] = some (BitVec.ofNat 64 l.length) ∧
    ∀ k : Nat, k < l.length → nb.get? [(i : Int), (k : Int) + 1] = some (BitVec.ofNat 64 (l.getD k 0))

theorem row_sim (s : State F D ω) (h : Rep s.grid m) {i : Nat} (hi : i < s.n) {nb : MArray} (ht : FlatTable nb s.n s.rowCap) {l : List Nat}
    {b : Blk D} (hb : s.grid.block? (s.ps i).x = some b) (hr : s.grid.inRange b = true)
    (hd : (s.ps i).ty ≠ .disabled) (hs : s.rowCompute i = .row l) :
    ∃ nb', mRow s m nb i = some nb' ∧ FlatTable nb' s.n s.rowCap ∧ FlatRowIs nb' i l ∧ l.length ≤ s.rowCap ∧ (∀ j ∈ l, j < s.n) ∧
      ∀ a c : Nat, a < s.n → c ≤ s.rowCap → a ≠ i → nb'.get? [(a : Int), (c : Int)] = nb.get? [(a : Int), (c : Int)] := by
  unfold State.rowCompute at hs
  rw [if_neg hd] at hs
  split at hs
  · rename_i l0 hv
    split at hs
    · cases hs
    rename_i hany
    simp only at hs
    split at hs
    · cases hs
    rename_i hlen
    injection hs with hs
    have hln : ∀ j ∈ l0, j < s.n := by
      intro j hj
      rw [List.any_eq_true] at hany
      by_contra hc
      exact hany ⟨j, hj, by simp; omega⟩
    have hfil : l0.filter (keep s i) = l := hs
    have hlen' : (l0.filter (keep s i)).length ≤ s.rowCap := by rw [hfil, ← hs]; omega
    unfold Grid.visit at hv
    split at hv
    · cases hv
    rename_i it hit
    obtain ⟨mit, e1, e2⟩ := cbegin_sim h hb hr hit
    obtain ⟨r, r1, r2, r3, r4⟩ := rowLoop_sim h s hi rfl _ it mit 0 nb l0 e2 (cbegin_good hit) ht hv hln (by simpa using hlen')
    have hii : (BitVec.ofNat 64 i).toInt = (i : Int) := toInt_ofNat (by have := ht.small.1; omega)
    obtain ⟨nb', f1, f2, f3⟩ := r3.set hi (k := 0) (by omega) r.1
    have hr1 : r.1 = BitVec.ofNat 64 l.length := by
      rw [← BitVec.toNat_inj, r2, hfil, toNat_ofNat]
      · simp
      · have := ht.small.2; rw [hfil] at hlen'; omega
    refine ⟨nb', ?_, f2, ⟨?_, ?_⟩, by rw [← hfil]; exact hlen', ?_, ?_⟩
    · unfold mRow
      rw [if_neg hd, e1]
      simp only
      rw [h.shape.maxParticles]
      have : lastNeighbor D * s.grid.cap + 1 = s.grid.fuel := rfl
      rw [this, r1]
      simp only
      rw [hii]; exact f1
    · have := f3 i 0 hi (by omega)
      rw [if_pos ⟨rfl, rfl⟩] at this
      rw [← hr1]; exact this
    · intro k hk
      rw [hfil] at hlen' r4
      have h1 := f3 i (k + 1) hi (by omega)
      rw [if_neg (by omega), r4 i (k + 1) hi (by omega), if_pos (by simp; omega)] at h1
      have h2 : k + 1 - 1 - (0 : Word).toNat = k := by simp
      rw [h2] at h1
      push_cast at h1
      exact h1
    · intro j hj
      rw [← hfil] at hj
      exact hln j (List.mem_filter.mp hj).1
    · intro a c ha hc hne
      rw [f3 a c ha hc, if_neg (fun k => hne k.1), r4 a c ha hc, if_neg (fun k => hne k.1)]
  · cases hs

theorem rows_sim (s : State F D ω) (h : Rep s.grid m) (rows : Nat → List Nat)
    (hin : ∀ i, i < s.n → (s.ps i).ty ≠ .disabled → ∃ b, s.grid.block? (s.ps i).x = some b ∧ s.grid.inRange b = true)
    (hrow : ∀ i, i < s.n → (s.ps i).ty ≠ .disabled → s.rowCompute i = .row (rows i)) :
    ∀ (order : List Nat) (nb : MArray), (∀ i ∈ order, i < s.n) → FlatTable nb s.n s.rowCap →
    ∃ nb', order.foldlM (fun nb i => mRow s m nb i) nb = some nb' ∧ FlatTable nb' s.n s.rowCap ∧
      (∀ i, i < s.n → (s.ps i).ty ≠ .disabled → (i ∈ order ∨ FlatRowIs nb i (rows i)) → FlatRowIs nb' i (rows i)) := by
  intro order
  induction order with
  | nil =>
    intro nb _ ht
    exact ⟨nb, rfl, ht, fun i _ _ h => h.resolve_left (by simp)⟩
  | cons i order ih =>
    intro nb hord ht
    have hi : i < s.n := hord i (by simp)
    have step : ∃ nb1, mRow s m nb i = some nb1 ∧ FlatTable nb1 s.n s.rowCap ∧
        (∀ a, a < s.n → (s.ps a).ty ≠ .disabled → (a = i ∨ FlatRowIs nb a (rows a)) → FlatRowIs nb1 a (rows a)) := by
      by_cases hd : (s.ps i).ty = .disabled
      · refine ⟨nb, by unfold mRow; rw [if_pos hd], ht, ?_⟩
        intro a _ had h
        rcases h with rfl | h
        · exact absurd hd had
        · exact h
      · obtain ⟨b, hb, hr⟩ := hin i hi hd
        obtain ⟨nb1, e1, e2, e3, -, -, e4⟩ := row_sim s h hi ht hb hr hd (hrow i hi hd)
        refine ⟨nb1, e1, e2, ?_⟩
        intro a ha had h'
        by_cases hai : a = i
        · subst hai; exact e3
        · have h' := h'.resolve_left hai
          obtain ⟨b', hb', hr'⟩ := hin a ha had
          obtain ⟨-, -, -, -, hl, -⟩ := row_sim s h ha ht hb' hr' had (hrow a ha had)
          have z := e4 a 0 ha (by omega) hai
          refine ⟨?_, ?_⟩
          · rw [← h'.1]; exact z
          · intro k hk
            have := e4 a (k + 1) ha (by omega) hai
            push_cast at this
            rw [this]; exact h'.2 k hk
    obtain ⟨nb1, e1, e2, e3⟩ := step
    obtain ⟨nb', f1, f2, f3⟩ := ih nb1 (fun j hj => hord j (by simp [hj])) e2
    refine ⟨nb', ?_, f2, ?_⟩
    · rw [List.foldlM_cons, e1]; exact f1
    · intro a ha had h'
      apply f3 a ha had
      rcases h' with h' | h'
      · rcases List.mem_cons.mp h' with h' | h'
        · exact Or.inr (e3 a ha had (Or.inl h'))
        · exact Or.inl h'
      · exact Or.inr (e3 a ha had (Or.inr h'))

theorem mapM_some {α β : Type} {f : α → Option β} {k : α → β} : ∀ (l : List α), (∀ a ∈ l, f a = some (k a)) → l.mapM f = some (l.map k) := by
  intro l
  induction l with
  | nil => intro _; rfl
  | cons a l ih =>
    intro h
    rw [List.mapM_cons, h a (by simp), ih (fun b hb => h b (by simp [hb]))]
    rfl

theorem FlatRowIs.read {nb : MArray} {n c i : Nat} (ht : FlatTable nb n c) (hi : i < n) {l : List Nat} (hl : l.length ≤ c) (hj : ∀ j ∈ l, j < n)
    (h : FlatRowIs nb i l) : ∃ ws, mNeighbors nb i = some ws ∧ ws.map (·.toNat) = l := by
  have hn := ht.small
  have hii : (BitVec.ofNat 64 i).toInt = (i : Int) := toInt_ofNat (by omega)
  refine ⟨(List.range l.length).map (fun k => BitVec.ofNat 64 (l.getD k 0)), ?_, ?_⟩
  · unfold mNeighbors
    rw [hii, h.1]
    simp only
    rw [toNat_ofNat (by omega)]
    apply mapM_some
    intro k hk
    have hk := List.mem_range.mp hk
    rw [toInt_ofNat (by omega), chk_some (by unfold Fits; omega), Option.bind_some, add_comm, h.2 k hk]
  · apply List.ext_getElem
    · simp
    · intro k h1 h2
      simp only [List.getElem_map, List.getElem_range]
      rw [List.getD_eq_getElem?_getD, List.getElem?_eq_getElem h2, Option.getD_some, toNat_ofNat]
      have := hj _ (List.getElem_mem h2)
      omega

/-! ### The storing loop -/

theorem mStoreAll_sim : ∀ (is : List Nat) (s : State F D ω) (m : MGrid F D), Rep s.grid m → (∀ i ∈ is, i < 2 ^ 64) →
    (∀ i ∈ is, (s.ps i).ty ≠ .disabled → ∀ b, s.grid.block? (s.ps i).x = some b → ∀ a, Fits (b a)) →
    ∀ (t : State F D ω), t.ps = s.ps → (∀ s1, State.storeAll is s = .ok s1 → ∃ m1 t1, mStoreAll is m t = some (some (m1, t1)) ∧ Rep s1.grid m1 ∧ t1 = { t with ps := s1.ps }) ∧
      ((∃ e s1, State.storeAll is s = .exn e s1) → mStoreAll is m t = some none) := by
  intro is
  induction is with
  | nil =>
    intro s m h _ _ t ht
    refine ⟨?_, ?_⟩
    · intro s1 hs
      simp only [State.storeAll, Res.ok.injEq] at hs
      subst hs
      exact ⟨m, t, rfl, h, by rw [← ht]⟩
    · rintro ⟨e, s1, hs⟩; simp [State.storeAll] at hs
  | cons i is ih =>
    intro s m h h64 hf t ht
    have hf' : ∀ j ∈ is, (s.ps j).ty ≠ .disabled → ∀ b, s.grid.block? (s.ps j).x = some b → ∀ a, Fits (b a) :=
      fun j hj => hf j (by simp [hj])
    have h64' : ∀ j ∈ is, j < 2 ^ 64 := fun j hj => h64 j (by simp [hj])
    simp only [State.storeAll, State.storeOne, mStoreAll]
    rw [ht]
    by_cases hd : (s.ps i).ty = .disabled
    · rw [if_pos hd, if_pos hd]
      simp only [Res.andThen, Res.bind]
      exact ih s m h h64' hf' t ht
    · rw [if_neg hd, if_neg hd]
      cases hst : s.grid.store (s.ps i).x i with
      | ub => simp [Res.andThen, Res.bind]
      | full g' =>
        obtain ⟨m', hm⟩ := h.store_full hst
        rw [hm]
        simp [Res.andThen, Res.bind]
      | stored g' =>
        obtain ⟨m', hm, hr⟩ := h.store_stored (h64 i (by simp)) hst
        rw [hm]
        simp only [Res.andThen, Res.bind]
        have hg := (OpenMps.store_stored hst).1
        exact ih { s with grid := g' } m' hr h64' (fun j hj hjd b hb => hf' j hj hjd b (by rw [← hg.block]; exact hb)) t ht
      | outside g' =>
        obtain ⟨rfl, hm⟩ := h.store_outside hst (hf i (by simp) hd)
        rw [hm]
        simp only [Res.andThen, Res.bind]
        have key := ih { s with ps := upd s.ps i (s.ps i).disable } m h h64' (by
          intro j hj hjd b hb
          by_cases hji : j = i
          · subst hji
            simp only [upd, if_true] at hjd hb
            exact absurd rfl hjd
          · simp only [upd, hji, if_false] at hjd hb
            exact hf' j hj hjd b hb) { t with ps := upd s.ps i (s.ps i).disable } rfl
        exact key

end OpenMps
