import Verif.Spec.Grid
import Mathlib.Tactic.Ring
import Mathlib.Tactic.Linarith
import Mathlib.Algebra.BigOperators.Fin
import Mathlib.Algebra.Order.BigOperators.Group.Finset
import Mathlib.Data.List.FinRange

set_option linter.unusedSectionVars false

namespace OpenMps

/-! ### Base-3 digits -/

theorem mod_pow_eq_sum (m D : Nat) : m % 3 ^ D = ∑ k ∈ Finset.range D, 3 ^ k * (m / 3 ^ k % 3) := by
  induction D with
  | zero => simp [Nat.mod_one]
  | succ D ih => rw [Finset.sum_range_succ, ← ih, Nat.mod_pow_succ]

variable {F : Type} [Scalar F] {D : Nat}

theorem startIndex_eq (b : Blk D) :
    startIndex b = ∑ a : Fin D, 3 ^ (D - 1 - a.val) * (if b a = 0 then 1 else 0) := by
  unfold startIndex
  rw [← List.sum_ofFn, List.ofFn_eq_map]

theorem sum_digits (m : Nat) (hm : m < 3 ^ D) :
    ∑ a : Fin D, 3 ^ (D - 1 - a.val) * (m / 3 ^ (D - 1 - a.val) % 3) = m := by
  have h := mod_pow_eq_sum m D
  rw [Nat.mod_eq_of_lt hm] at h
  rw [Finset.sum_range, ← Equiv.sum_comp Fin.revPerm] at h
  refine Eq.trans ?_ h.symm
  apply Finset.sum_congr rfl
  intro a _
  have : (Fin.revPerm a).val = D - 1 - a.val := by simp [Fin.rev]; omega
  rw [this]

/-- Number with given base-3 digits (most significant first). -/
def enc (d : Fin D → Nat) : Nat := ∑ a : Fin D, 3 ^ (D - 1 - a.val) * d a

theorem enc_spec : ∀ {D : Nat} (d : Fin D → Nat), (∀ a, d a < 3) →
    enc d < 3 ^ D ∧ ∀ a : Fin D, enc d / 3 ^ (D - 1 - a.val) % 3 = d a := by
  intro D
  induction D with
  | zero => intro d _; simp [enc]
  | succ D ih =>
    intro d hd
    have he : enc d = 3 ^ D * d 0 + enc (fun a : Fin D => d a.succ) := by
      unfold enc
      rw [Fin.sum_univ_succ]
      congr 1
      apply Finset.sum_congr rfl
      intro a _
      have : D + 1 - 1 - (a.succ : Fin (D+1)).val = D - 1 - a.val := by simp; omega
      rw [this]
    obtain ⟨h1, h2⟩ := ih (fun a : Fin D => d a.succ) (fun a => hd _)
    set e := enc (fun a : Fin D => d a.succ) with hee
    have hp : 0 < 3 ^ D := by positivity
    constructor
    · rw [he, pow_succ]
      have := hd 0
      nlinarith
    · intro a
      refine Fin.cases ?_ ?_ a
      · have : D + 1 - 1 - (0 : Fin (D+1)).val = D := by simp
        rw [this, he, Nat.mul_add_div hp, Nat.div_eq_of_lt h1, Nat.add_zero, Nat.mod_eq_of_lt (hd 0)]
      · intro a
        have : D + 1 - 1 - (a.succ : Fin (D+1)).val = D - 1 - a.val := by simp; omega
        rw [this, he, ← h2 a]
        set k := D - 1 - a.val with hk
        have hkD : D = k + (1 + a.val) := by omega
        have hp2 : 0 < 3 ^ k := by positivity
        have : 3 ^ D * d 0 + e = 3 ^ k * (3 * (3 ^ a.val * d 0)) + e := by
          have h3 : 3 ^ D = 3 ^ k * (3 ^ 1 * 3 ^ a.val) := by
            rw [← pow_add, ← pow_add]; exact congrArg _ hkD
          rw [h3]; ring
        rw [this, Nat.mul_add_div hp2]
        omega

theorem startIndex_enc (b : Blk D) : startIndex b = enc (fun a => if b a = 0 then 1 else 0) :=
  startIndex_eq b

theorem startIndex_lt (b : Blk D) : startIndex b < 3 ^ D := by
  rw [startIndex_enc]
  exact (enc_spec _ (by intro a; split <;> omega)).1

theorem nbr_start (g : Grid F D) (b : Blk D) (hb : g.inRange b = true) (i : Nat) :
    g.inRange ({ base := b, index := i : Iter D }.nbr (startIndex b)) = true := by
  unfold Grid.inRange at *
  rw [decide_eq_true_eq] at *
  intro a
  unfold Iter.nbr
  rw [startIndex_enc, (enc_spec _ (by intro a; split <;> omega)).2 a]
  have := hb a
  dsimp only
  split <;> simp <;> omega

theorem nbr_lt_start (g : Grid F D) (b : Blk D) (i m : Nat) (hm : m < startIndex b) :
    g.inRange ({ base := b, index := i : Iter D }.nbr m) = false := by
  by_contra h
  rw [Bool.not_eq_false] at h
  unfold Grid.inRange at h
  rw [decide_eq_true_eq] at h
  have hlt : m < 3 ^ D := lt_trans hm (startIndex_lt b)
  have h1 : startIndex b ≤ m := by
    rw [startIndex_eq, ← sum_digits m hlt]
    apply Finset.sum_le_sum
    intro a _
    apply Nat.mul_le_mul_left
    have := (h a).1
    unfold Iter.nbr at this
    dsimp only at this
    split
    · rename_i h0
      rw [h0] at this
      omega
    · exact Nat.zero_le _
  omega

/-- Contents of the `m`-th surrounding block (nothing outside the grid). -/
def cont (g : Grid F D) (b : Blk D) (m : Nat) : List Nat :=
  if g.inRange ((⟨b, 0⟩ : Iter D).nbr m) then g.contents ((⟨b, 0⟩ : Iter D).nbr m) else []

def contFrom (g : Grid F D) (b : Blk D) (m : Nat) : List Nat :=
  (List.range' m (3 ^ D - m)).flatMap (cont g b)

theorem contFrom_step (g : Grid F D) (b : Blk D) (m : Nat) (h : m < 3 ^ D) :
    contFrom g b m = cont g b m ++ contFrom g b (m + 1) := by
  unfold contFrom
  have : 3 ^ D - m = (3 ^ D - (m + 1)) + 1 := by omega
  rw [this, List.range'_succ, List.flatMap_cons]

theorem contFrom_end (g : Grid F D) (b : Blk D) : contFrom g b (3 ^ D) = [] := by
  simp [contFrom]

theorem cont_nil_of (g : Grid F D) (b : Blk D) (m : Nat) (i : Nat)
    (h : (g.inRange ((⟨b, i⟩ : Iter D).nbr m) && decide (g.count ((⟨b, i⟩ : Iter D).nbr m) > 0)) = false) :
    cont g b m = [] := by
  have hn : (⟨b, i⟩ : Iter D).nbr m = (⟨b, 0⟩ : Iter D).nbr m := rfl
  rw [hn] at h
  unfold cont
  split
  · rename_i h1
    rw [h1] at h
    simp at h
    simp [Grid.contents, h]
  · rfl

theorem scan_true (g : Grid F D) (it : Iter D) (m : Nat) : it.scan g m true = (m, true) := by
  unfold Iter.scan; simp

theorem scan_spec (g : Grid F D) (b : Blk D) (i : Nat) (k : Nat) : ∀ m, m + k = 3 ^ D → m < 3 ^ D →
    (((⟨b, i⟩ : Iter D).scan g m false).2 = false ∧ contFrom g b (m + 1) = []) ∨
    (((⟨b, i⟩ : Iter D).scan g m false).2 = true ∧ m < ((⟨b, i⟩ : Iter D).scan g m false).1 ∧
      ((⟨b, i⟩ : Iter D).scan g m false).1 < 3 ^ D ∧
      g.inRange ((⟨b, 0⟩ : Iter D).nbr ((⟨b, i⟩ : Iter D).scan g m false).1) = true ∧
      0 < g.count ((⟨b, 0⟩ : Iter D).nbr ((⟨b, i⟩ : Iter D).scan g m false).1) ∧
      contFrom g b (m + 1) = contFrom g b ((⟨b, i⟩ : Iter D).scan g m false).1) := by
  induction k with
  | zero => intro m h1 h2; omega
  | succ k ih =>
    intro m h1 h2
    by_cases hlast : m + 1 < 3 ^ D
    · have hs : (⟨b, i⟩ : Iter D).scan g m false
          = (⟨b, i⟩ : Iter D).scan g (m + 1) (g.inRange ((⟨b, i⟩ : Iter D).nbr (m + 1))
              && decide (g.count ((⟨b, i⟩ : Iter D).nbr (m + 1)) > 0)) := by
        conv_lhs => unfold Iter.scan
        simp [lastNeighbor, hlast]
      cases hv : (g.inRange ((⟨b, i⟩ : Iter D).nbr (m + 1))
              && decide (g.count ((⟨b, i⟩ : Iter D).nbr (m + 1)) > 0)) with
      | true =>
        right
        rw [hs, hv, scan_true]
        simp only [Bool.and_eq_true, decide_eq_true_eq] at hv
        exact ⟨rfl, by simp, hlast, hv.1, hv.2, rfl⟩
      | false =>
        rw [hs, hv]
        have hc : contFrom g b (m + 1) = contFrom g b (m + 1 + 1) := by
          rw [contFrom_step g b (m + 1) hlast, cont_nil_of g b (m + 1) i hv, List.nil_append]
        rw [hc]
        rcases ih (m + 1) (by omega) hlast with h | h
        · left; exact h
        · right
          exact ⟨h.1, by omega, h.2.2.1, h.2.2.2.1, h.2.2.2.2.1, h.2.2.2.2.2⟩
    · left
      have hm : m + 1 = 3 ^ D := by omega
      constructor
      · unfold Iter.scan
        simp [lastNeighbor, hlast]
      · rw [hm, contFrom_end]

/-- Moving on from block `m` when it is exhausted. -/
theorem increment_next (g : Grid F D) (b : Blk D) (m l : Nat) (hm : m < 3 ^ D)
    (hr : g.inRange ((⟨b, 0⟩ : Iter D).nbr m) = true) (hl : g.count ((⟨b, 0⟩ : Iter D).nbr m) ≤ l + 1) :
    (Iter.increment g (⟨b, l * (3 ^ D + 1) + m⟩ : Iter D) = some ⟨b, 3 ^ D⟩ ∧ contFrom g b (m + 1) = []) ∨
    ∃ m', m' < 3 ^ D ∧ Iter.increment g (⟨b, l * (3 ^ D + 1) + m⟩ : Iter D) = some ⟨b, m'⟩ ∧
      g.inRange ((⟨b, 0⟩ : Iter D).nbr m') = true ∧ 0 < g.count ((⟨b, 0⟩ : Iter D).nbr m') ∧
      contFrom g b (m + 1) = contFrom g b m' := by
  have h1 : (l * (3 ^ D + 1) + m) % (3 ^ D + 1) = m := by
    rw [Nat.mul_add_mod_self_right]; exact Nat.mod_eq_of_lt (by omega)
  have h2 : (l * (3 ^ D + 1) + m) / (3 ^ D + 1) = l := by
    rw [Nat.mul_comm, Nat.mul_add_div (by omega), Nat.div_eq_of_lt (by omega), Nat.add_zero]
  have hn : ∀ i, (⟨b, i⟩ : Iter D).nbr m = (⟨b, 0⟩ : Iter D).nbr m := fun _ => rfl
  unfold Iter.increment
  simp only [maxNeighbor, lastNeighbor, h1, h2, Grid.particleCount, hn, hr, if_true]
  rw [if_neg (by omega), if_pos (by omega)]
  by_cases hlast : m = 3 ^ D - 1
  · left
    rw [if_pos hlast]
    refine ⟨rfl, ?_⟩
    have : m + 1 = 3 ^ D := by omega
    rw [this, contFrom_end]
  · rw [if_neg hlast]
    rcases scan_spec g b (l * (3 ^ D + 1) + m) (3 ^ D - m) m (by omega) hm with h | h
    · left
      simp [h.1, h.2]
    · right
      refine ⟨_, h.2.2.1, ?_, h.2.2.2.1, h.2.2.2.2.1, h.2.2.2.2.2⟩
      simp [h.1]

theorem increment_same (g : Grid F D) (b : Blk D) (m l : Nat) (hm : m < 3 ^ D)
    (hr : g.inRange ((⟨b, 0⟩ : Iter D).nbr m) = true) (hl : l + 1 < g.count ((⟨b, 0⟩ : Iter D).nbr m)) :
    Iter.increment g (⟨b, l * (3 ^ D + 1) + m⟩ : Iter D) = some ⟨b, (l + 1) * (3 ^ D + 1) + m⟩ := by
  have h1 : (l * (3 ^ D + 1) + m) % (3 ^ D + 1) = m := by
    rw [Nat.mul_add_mod_self_right]; exact Nat.mod_eq_of_lt (by omega)
  have h2 : (l * (3 ^ D + 1) + m) / (3 ^ D + 1) = l := by
    rw [Nat.mul_comm, Nat.mul_add_div (by omega), Nat.div_eq_of_lt (by omega), Nat.add_zero]
  have hn : ∀ i, (⟨b, i⟩ : Iter D).nbr m = (⟨b, 0⟩ : Iter D).nbr m := fun _ => rfl
  unfold Iter.increment
  simp only [maxNeighbor, lastNeighbor, h1, h2, Grid.particleCount, hn, hr, if_true]
  rw [if_neg (by omega), if_neg (by omega)]
  congr 2
  ring

theorem deref_eq (g : Grid F D) (b : Blk D) (m l : Nat) (hm : m < 3 ^ D)
    (hr : g.inRange ((⟨b, 0⟩ : Iter D).nbr m) = true) (hl : l < g.cap) :
    Iter.deref g (⟨b, l * (3 ^ D + 1) + m⟩ : Iter D) = some (g.slot ((⟨b, 0⟩ : Iter D).nbr m) l) := by
  have h1 : (l * (3 ^ D + 1) + m) % (3 ^ D + 1) = m := by
    rw [Nat.mul_add_mod_self_right]; exact Nat.mod_eq_of_lt (by omega)
  have h2 : (l * (3 ^ D + 1) + m) / (3 ^ D + 1) = l := by
    rw [Nat.mul_comm, Nat.mul_add_div (by omega), Nat.div_eq_of_lt (by omega), Nat.add_zero]
  have hn : ∀ i, (⟨b, i⟩ : Iter D).nbr m = (⟨b, 0⟩ : Iter D).nbr m := fun _ => rfl
  unfold Iter.deref
  simp only [maxNeighbor, lastNeighbor, h1, h2, hn, hr, hm, hl, and_self, if_true]

theorem collect_end (g : Grid F D) (b : Blk D) (fuel : Nat) :
    Iter.collect g (fuel + 1) (⟨b, 3 ^ D⟩ : Iter D) = .done [] := by
  simp [Iter.collect, lastNeighbor]

theorem drop_contents (g : Grid F D) (c : Blk D) (l : Nat) (h : l < g.count c) :
    (g.contents c).drop l = g.slot c l :: (g.contents c).drop (l + 1) := by
  unfold Grid.contents
  rw [List.drop_eq_getElem_cons (by simpa using h)]
  simp

theorem collect_spec (g : Grid F D) (b : Blk D) (hcap : ∀ c, g.inRange c = true → g.count c ≤ g.cap)
    (fuel : Nat) : ∀ (m l : Nat), m < 3 ^ D → g.inRange ((⟨b, 0⟩ : Iter D).nbr m) = true →
    l < g.count ((⟨b, 0⟩ : Iter D).nbr m) →
    ((g.contents ((⟨b, 0⟩ : Iter D).nbr m)).drop l ++ contFrom g b (m + 1)).length < fuel →
    Iter.collect g fuel (⟨b, l * (3 ^ D + 1) + m⟩ : Iter D)
      = .done ((g.contents ((⟨b, 0⟩ : Iter D).nbr m)).drop l ++ contFrom g b (m + 1)) := by
  induction fuel with
  | zero => intro m l _ _ _ h; simp at h
  | succ fuel ih =>
    intro m l hm hr hl hf
    have hne : l * (3 ^ D + 1) + m ≠ lastNeighbor D := by
      unfold lastNeighbor
      rcases Nat.eq_zero_or_pos l with h | h
      · subst h; omega
      · nlinarith
    rw [drop_contents g _ l hl] at hf ⊢
    unfold Iter.collect
    rw [if_neg hne, deref_eq g b m l hm hr (lt_of_lt_of_le hl (hcap _ hr))]
    simp only
    by_cases hnext : l + 1 < g.count ((⟨b, 0⟩ : Iter D).nbr m)
    · rw [increment_same g b m l hm hr hnext]
      simp only
      rw [ih m (l + 1) hm hr hnext (by simp at hf ⊢; omega)]
      simp
    · have hd : (g.contents ((⟨b, 0⟩ : Iter D).nbr m)).drop (l + 1) = [] := by
        apply List.drop_eq_nil_of_le
        simp [Grid.contents]; omega
      rw [hd] at hf ⊢
      rcases increment_next g b m l hm hr (by omega) with h | ⟨m', hm', hinc, hr', hc', hcf⟩
      · rw [h.1, h.2]
        simp only
        cases fuel with
        | zero => simp at hf
        | succ fuel => rw [collect_end]; simp
      · rw [hinc]
        simp only
        have hcf' : contFrom g b m' = (g.contents ((⟨b, 0⟩ : Iter D).nbr m')).drop 0 ++ contFrom g b (m' + 1) := by
          rw [contFrom_step g b m' hm', cont, if_pos hr', List.drop_zero]
        have := ih m' 0 hm' hr' hc' (by rw [← hcf', ← hcf]; simp at hf ⊢; omega)
        rw [Nat.zero_mul, Nat.zero_add] at this
        rw [this, hcf, hcf']
        simp

theorem cont_length (g : Grid F D) (b : Blk D) (hcap : ∀ c, g.inRange c = true → g.count c ≤ g.cap) (m : Nat) :
    (cont g b m).length ≤ g.cap := by
  unfold cont
  split
  · rename_i h; simpa [Grid.contents] using hcap _ h
  · simp

theorem flatMap_length_le {α β : Type} (l : List α) (f : α → List β) (c : Nat) (h : ∀ a, (f a).length ≤ c) :
    (l.flatMap f).length ≤ l.length * c := by
  induction l with
  | nil => simp
  | cons a l ih =>
    rw [List.flatMap_cons, List.length_append, List.length_cons, Nat.succ_mul]
    have := h a
    omega

theorem contFrom_length (g : Grid F D) (b : Blk D) (hcap : ∀ c, g.inRange c = true → g.count c ≤ g.cap) (m : Nat) :
    (contFrom g b m).length ≤ (3 ^ D - m) * g.cap := by
  have := flatMap_length_le (List.range' m (3 ^ D - m)) (cont g b) g.cap (cont_length g b hcap)
  simpa [contFrom] using this

theorem contFrom_skip (g : Grid F D) (b : Blk D) (k : Nat) (hk : k ≤ startIndex b) :
    contFrom g b 0 = contFrom g b k := by
  induction k with
  | zero => rfl
  | succ k ih =>
    have hlt := startIndex_lt b
    rw [ih (by omega), contFrom_step g b k (by omega)]
    have : cont g b k = [] := by
      unfold cont
      rw [if_neg]
      rw [nbr_lt_start g b 0 k (by omega)]
      simp
    rw [this, List.nil_append]

/-- The iteration visits the contents of all surrounding blocks. -/
theorem visit_eq (g : Grid F D) (hcap : ∀ c, g.inRange c = true → g.count c ≤ g.cap) (x : Vec F D) (b : Blk D)
    (hb : g.block? x = some b) (hr : g.inRange b = true) : g.visit x = .done (contFrom g b 0) := by
  have hlt := startIndex_lt b
  have hst := nbr_start g b hr 0
  have hmod : startIndex b % (3 ^ D + 1) = startIndex b := Nat.mod_eq_of_lt (by omega)
  rw [contFrom_skip g b _ (le_refl _)]
  have hlen := contFrom_length g b hcap (startIndex b)
  have hfuel : (contFrom g b (startIndex b)).length < g.fuel := by
    unfold Grid.fuel lastNeighbor
    have : (3 ^ D - startIndex b) * g.cap ≤ 3 ^ D * g.cap := Nat.mul_le_mul_right _ (by omega)
    omega
  unfold Grid.visit Grid.cbegin
  simp only [hb, maxNeighbor, lastNeighbor, hmod, Grid.particleCount]
  have hn : ∀ i, (⟨b, i⟩ : Iter D).nbr (startIndex b) = (⟨b, 0⟩ : Iter D).nbr (startIndex b) := fun _ => rfl
  simp only [hn, hst, if_true]
  have hstep := contFrom_step g b (startIndex b) hlt
  rw [cont, if_pos hst] at hstep
  by_cases hc : g.count ((⟨b, 0⟩ : Iter D).nbr (startIndex b)) = 0
  · rw [if_pos hc]
    have h0 : g.contents ((⟨b, 0⟩ : Iter D).nbr (startIndex b)) = [] := by simp [Grid.contents, hc]
    rw [h0, List.nil_append] at hstep
    have hinc := increment_next g b (startIndex b) 0 hlt hst (by omega)
    rw [Nat.zero_mul, Nat.zero_add] at hinc
    rcases hinc with h | ⟨m', hm', hinc, hr', hc', hcf⟩
    · rw [h.1, hstep, h.2]
      simp only
      unfold Grid.fuel
      rw [collect_end]
    · rw [hinc]
      simp only
      have hcf' : contFrom g b m' = (g.contents ((⟨b, 0⟩ : Iter D).nbr m')).drop 0 ++ contFrom g b (m' + 1) := by
        rw [contFrom_step g b m' hm', cont, if_pos hr', List.drop_zero]
      have := collect_spec g b hcap g.fuel m' 0 hm' hr' hc' (by rw [← hcf', ← hcf, ← hstep]; exact hfuel)
      rw [Nat.zero_mul, Nat.zero_add] at this
      rw [this, hstep, hcf, hcf']
  · rw [if_neg hc]
    simp only
    have := collect_spec g b hcap g.fuel (startIndex b) 0 hlt hst (by omega)
      (by rw [List.drop_zero, ← hstep]; exact hfuel)
    rw [Nat.zero_mul, Nat.zero_add, List.drop_zero] at this
    rw [this, hstep]

/-! ### The table of surrounding blocks -/

theorem range_three_mul (N : Nat) :
    List.range (3 * N) = [0, 1, 2].flatMap (fun i => (List.range N).map (fun k => i * N + k)) := by
  have : 3 * N = N + (N + N) := by ring
  rw [this, List.range_add, List.range_add]
  simp [List.flatMap_cons, Function.comp_def, two_mul, Nat.add_assoc]

theorem offsets_eq (D : Nat) :
    offsets D = (List.range (3 ^ D)).map (fun m => (⟨0, 0⟩ : Iter D).nbr m) := by
  induction D with
  | zero =>
    simp only [offsets, pow_zero]
    congr 1
    exact Subsingleton.elim _ _
  | succ D ih =>
    have key : ∀ (i : Nat) (hi : i < 3), (offsets D).map (fun v => (Fin.cons ((i : Int) - 1) v : Blk (D+1)))
        = ((List.range (3 ^ D)).map (fun k => i * 3 ^ D + k)).map (fun m => (⟨0, 0⟩ : Iter (D+1)).nbr m) := by
      intro i hi
      rw [ih, List.map_map, List.map_map]
      apply List.map_congr_left
      intro m hm
      have hm : m < 3 ^ D := by simpa using hm
      funext a
      have hp : 0 < 3 ^ D := by positivity
      refine Fin.cases ?_ ?_ a
      · simp only [Function.comp, Fin.cons_zero, Iter.nbr, Fin.val_zero, Nat.add_sub_cancel, Nat.sub_zero]
        rw [Nat.mul_comm, Nat.mul_add_div hp, Nat.div_eq_of_lt hm]
        have : (i + 0) % 3 = i := Nat.mod_eq_of_lt hi
        rw [this]
        simp
      · intro a
        simp only [Function.comp, Fin.cons_succ, Iter.nbr, Fin.val_succ]
        have h1 : D + 1 - 1 - (a.val + 1) = D - 1 - a.val := by omega
        rw [h1]
        set k := D - 1 - a.val with hk
        have hkD : D = k + (1 + a.val) := by omega
        have hp2 : 0 < 3 ^ k := by positivity
        have h2 : i * 3 ^ D + m = 3 ^ k * (3 * (3 ^ a.val * i)) + m := by
          conv_lhs => rw [hkD, pow_add, pow_add]
          ring
        have h3 : (i * 3 ^ D + m) / 3 ^ k % 3 = m / 3 ^ k % 3 := by
          rw [h2, Nat.mul_add_div hp2]; omega
        rw [h3]
        rfl
    rw [pow_succ, Nat.mul_comm, range_three_mul, List.map_flatMap]
    rw [offsets]
    simp only [List.flatMap_cons, List.flatMap_nil]
    have k0 := key 0 (by omega)
    have k1 := key 1 (by omega)
    have k2 := key 2 (by omega)
    simp only [Nat.cast_zero, Nat.cast_one, Nat.cast_ofNat] at k0 k1 k2
    rw [← k0, ← k1, ← k2]
    norm_num

theorem nbr_add (b : Blk D) (m : Nat) : (⟨b, 0⟩ : Iter D).nbr m = b + (⟨0, 0⟩ : Iter D).nbr m := by
  funext a
  simp only [Iter.nbr, Pi.add_apply, Pi.zero_apply]
  ring

theorem contFrom_offsets (g : Grid F D) (b : Blk D) :
    contFrom g b 0 = (offsets D).flatMap (fun o => if g.inRange (b + o) then g.contents (b + o) else []) := by
  rw [offsets_eq, List.flatMap_map, contFrom, Nat.sub_zero, ← List.range_eq_range']
  apply List.flatMap_congr
  intro m _
  rw [cont, nbr_add]

end OpenMps
