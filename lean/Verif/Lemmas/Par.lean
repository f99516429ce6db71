import Verif.Model.Par
import Mathlib.Data.List.Perm.Basic

namespace OpenMps

/-- Iterations whose commit phase occurs in a schedule. -/
def wrs (es : List Ev) : List Nat := es.filterMap (fun e => match e with | .wr i => some i | .rd _ => none)

@[simp] theorem wrs_nil : wrs [] = [] := rfl
@[simp] theorem wrs_rd (i : Nat) (es : List Ev) : wrs (.rd i :: es) = wrs es := rfl
@[simp] theorem wrs_wr (i : Nat) (es : List Ev) : wrs (.wr i :: es) = i :: wrs es := rfl

theorem mem_wrs {i : Nat} {es : List Ev} : i ∈ wrs es ↔ Ev.wr i ∈ es := by
  induction es with
  | nil => simp
  | cons e es ih => cases e <;> simp [ih]

section
variable {S R : Type} {compute : S → Nat → R} {commit : Nat → R → S → S}

theorem compute_foldl (hc : ∀ s i j r, i ≠ j → compute (commit j r s) i = compute s i)
    (c : Nat → R) (L : List Nat) (i : Nat) (hi : i ∉ L) (s : S) :
    compute (L.foldl (fun s j => commit j (c j) s) s) i = compute s i := by
  induction L generalizing s with
  | nil => rfl
  | cons j L ih =>
    simp only [List.mem_cons, not_or] at hi
    simp only [List.foldl_cons]
    rw [ih hi.2, hc _ _ _ _ hi.1]

theorem parRun_eq (hc : ∀ s i j r, i ≠ j → compute (commit j r s) i = compute s i) (s0 : S)
    (es : List Ev) (L : List Nat) (loc : Nat → Option R)
    (hnd : es.Nodup)
    (hloc : ∀ i ∈ wrs es, (loc i = some (compute s0 i) ∧ Ev.rd i ∉ es) ∨ [Ev.rd i, Ev.wr i].Sublist es)
    (hrd : ∀ i, Ev.rd i ∈ es → i ∉ L) :
    parRun compute commit es (L.foldl (fun s i => commit i (compute s0 i) s) s0) loc
      = (L ++ wrs es).foldl (fun s i => commit i (compute s0 i) s) s0 := by
  induction es generalizing L loc with
  | nil => simp [parRun]
  | cons e es ih =>
    have hnd' := (List.nodup_cons.mp hnd)
    cases e with
    | rd i =>
      simp only [parRun, wrs_rd]
      have hiL : i ∉ L := hrd i (by simp)
      rw [compute_foldl hc _ _ _ hiL]
      apply ih _ _ hnd'.2
      · intro j hj
        by_cases hji : j = i
        · subst hji
          left
          exact ⟨by simp [upd], hnd'.1⟩
        · rcases hloc j hj with h | h
          · left
            exact ⟨by simpa [upd, hji] using h.1, fun hm => h.2 (by simp [hm])⟩
          · right
            cases h with
            | cons _ h => exact h
            | cons_cons _ h => exact absurd rfl hji
      · intro j hj
        exact hrd j (by simp [hj])
    | wr i =>
      have h1 : loc i = some (compute s0 i) ∧ Ev.rd i ∉ es := by
        rcases hloc i (by simp) with h | h
        · exact ⟨h.1, fun hm => h.2 (by simp [hm])⟩
        · exfalso
          cases h with
          | cons _ h => exact hnd'.1 (h.subset (by simp))
      simp only [parRun, wrs_wr, h1.1]
      have hfold : commit i (compute s0 i) (L.foldl (fun s i => commit i (compute s0 i) s) s0)
          = (L ++ [i]).foldl (fun s i => commit i (compute s0 i) s) s0 := by
        simp [List.foldl_append]
      rw [hfold, ih (L ++ [i]) loc hnd'.2]
      · simp
      · intro j hj
        have hji : j ≠ i := by
          rintro rfl
          exact hnd'.1 (mem_wrs.mp hj)
        rcases hloc j (by simp [hj]) with h | h
        · left
          exact ⟨h.1, fun hm => h.2 (by simp [hm])⟩
        · right
          cases h with
          | cons _ h => exact h
      · intro j hj hm
        rcases List.mem_append.mp hm with h | h
        · exact hrd j (by simp [hj]) h
        · simp only [List.mem_singleton] at h
          subst h
          exact h1.2 hj

theorem wrs_serial (n : Nat) : wrs (serial n) = List.range n := by
  unfold serial
  induction n with
  | zero => rfl
  | succ n ih =>
    rw [List.range_succ, List.flatMap_append, wrs, List.filterMap_append]
    rw [wrs] at ih
    rw [ih]; rfl

theorem mem_serial_rd {n i : Nat} : Ev.rd i ∈ serial n ↔ i < n := by
  simp [serial]

theorem mem_serial_wr {n i : Nat} : Ev.wr i ∈ serial n ↔ i < n := by
  simp [serial]

theorem nodup_serial (n : Nat) : (serial n).Nodup := by
  induction n with
  | zero => simp [serial]
  | succ n ih =>
    have h : serial (n+1) = serial n ++ [Ev.rd n, Ev.wr n] := by
      simp [serial, List.range_succ]
    rw [h, List.nodup_append]
    refine ⟨ih, by simp, ?_⟩
    intro a ha b hb
    simp only [List.mem_cons, List.not_mem_nil, or_false] at hb
    rcases hb with rfl | rfl <;> rintro rfl
    · exact absurd (mem_serial_rd.mp ha) (by omega)
    · exact absurd (mem_serial_wr.mp ha) (by omega)

theorem validSched_serial (n : Nat) : ValidSched n (serial n) := by
  refine ⟨List.Perm.refl _, ?_⟩
  intro i hi
  unfold serial
  induction n with
  | zero => omega
  | succ n ih =>
    rw [List.range_succ, List.flatMap_append]
    by_cases h : i = n
    · subst h
      exact (List.Sublist.refl _).trans (by simp)
    · exact (ih (by omega)).trans (List.sublist_append_left _ _)

/-- Every valid schedule of a loop whose iterations do not read what others write, and whose commits
commute, has the effect of committing all results computed from the initial state. -/
theorem parLoop_eq {n : Nat} {es : List Ev} (hv : ValidSched n es)
    (hc : ∀ s i j r, i ≠ j → compute (commit j r s) i = compute s i)
    (hcomm : ∀ s i j r r', i ≠ j → commit i r (commit j r' s) = commit j r' (commit i r s)) (s : S) :
    parLoop compute commit es s = (List.range n).foldl (fun s' i => commit i (compute s i) s') s := by
  have hnd : es.Nodup := hv.1.nodup_iff.mpr (nodup_serial n)
  have hperm : (wrs es).Perm (List.range n) := by
    rw [← wrs_serial n]
    exact hv.1.filterMap _
  have := parRun_eq (commit := commit) hc s es [] (fun _ => none) hnd
    (fun i hi => Or.inr (hv.2 i (by
      have := hperm.mem_iff.mp hi
      simpa using this))) (by simp)
  simp only [List.foldl_nil, List.nil_append] at this
  rw [parLoop, this]
  apply hperm.foldl_eq'
  intro x _ y _ z
  by_cases hxy : x = y
  · subst hxy; rfl
  · exact (hcomm z y x _ _ (fun h => hxy h.symm))

end

theorem foldl_upd {α : Type} (g : Nat → α) (n : Nat) (f : Nat → α) :
    (List.range n).foldl (fun f i => upd f i (g i)) f = fun i => if i < n then g i else f i := by
  induction n with
  | zero => simp
  | succ n ih =>
    rw [List.range_succ, List.foldl_append, ih]
    funext i
    simp only [List.foldl_cons, List.foldl_nil, upd]
    grind

end OpenMps
