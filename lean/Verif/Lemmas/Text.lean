import Verif.Model.Text
import Mathlib.Tactic.Linarith
import Mathlib.Tactic.Positivity
import Mathlib.Tactic.NormNum
import Mathlib.Tactic.IntervalCases
import Mathlib.Tactic.Ring
import Mathlib.Tactic.FieldSimp

/-! # Lemmas on numbers in files -/

namespace OpenMps

set_option linter.unusedSectionVars false

/-! ## Digits -/

theorem digitChar_toNat {d : Nat} (h : d < 10) : (digitChar d).toNat = 48 + d := by
  interval_cases d <;> rfl

/-- The text does not begin with a digit. -/
def NoDigit (r : List Char) : Prop := ∀ c r', r = c :: r' → ¬ (48 ≤ c.toNat ∧ c.toNat ≤ 57)

theorem noDigit_nil : NoDigit [] := fun _ _ h => by cases h

theorem spanDigits_map {l : List Nat} (h : ∀ d ∈ l, d < 10) {r : List Char} (hr : NoDigit r) : spanDigits (l.map digitChar ++ r) = (l, r) := by
  induction l with
  | nil =>
    cases r with
    | nil => rfl
    | cons c r' =>
      show spanDigits (c :: r') = _
      unfold spanDigits
      rw [if_neg (hr c r' rfl)]
  | cons d l ih =>
    have hd := h d (by simp)
    have hc := digitChar_toNat hd
    have ih := ih (fun d' hd' => h d' (by simp [hd']))
    show spanDigits (digitChar d :: (l.map digitChar ++ r)) = _
    unfold spanDigits
    rw [if_pos (by rw [hc]; omega), ih, hc]
    simp

theorem natOf_foldl (l : List Nat) (a : Nat) : l.foldl (fun a d => 10 * a + d) a = a * 10 ^ l.length + natOf l := by
  unfold natOf
  induction l generalizing a with
  | nil => simp
  | cons d l ih =>
    rw [List.foldl_cons, List.foldl_cons, ih, ih (10 * 0 + d), List.length_cons, pow_succ]
    ring

theorem natOf_append (l r : List Nat) : natOf (l ++ r) = natOf l * 10 ^ r.length + natOf r := by
  show (l ++ r).foldl _ 0 = _
  rw [List.foldl_append, natOf_foldl r]
  rfl

theorem natOf_cons (d : Nat) (l : List Nat) : natOf (d :: l) = d * 10 ^ l.length + natOf l := by
  rw [show d :: l = [d] ++ l from rfl, natOf_append]
  simp [natOf]

theorem natOf_zeros (k : Nat) : natOf (List.replicate k 0) = 0 := by
  induction k with
  | zero => rfl
  | succ k ih => rw [List.replicate_succ, natOf_cons, ih]; simp

theorem natOf_lt {l : List Nat} (h : ∀ d ∈ l, d < 10) : natOf l < 10 ^ l.length := by
  induction l with
  | nil => simp [natOf]
  | cons d l ih =>
    rw [natOf_cons, List.length_cons, pow_succ]
    have := ih (fun d' hd' => h d' (by simp [hd']))
    have := h d (by simp)
    nlinarith

/-- The digits of a natural number. -/
theorem natCharsAux_spec : ∀ (fuel n : Nat), n < fuel → ∃ l : List Nat, natCharsAux fuel n = l.map digitChar ∧ (∀ d ∈ l, d < 10) ∧ natOf l = n ∧ l ≠ [] ∧
    10 ^ (l.length - 1) ≤ max n 1
  | 0, n, h => by omega
  | fuel + 1, n, h => by
    unfold natCharsAux
    split
    · rename_i hn
      exact ⟨[n], rfl, by simpa using hn, by simp [natOf], by simp, by simp⟩
    · rename_i hn
      obtain ⟨l, h1, h2, h3, h4, h5⟩ := natCharsAux_spec fuel (n / 10) (by omega)
      refine ⟨l ++ [n % 10], by rw [h1]; simp, ?_, ?_, by simp, ?_⟩
      · intro d hd
        rcases List.mem_append.1 hd with hd | hd
        · exact h2 d hd
        · simp only [List.mem_singleton] at hd; omega
      · rw [natOf_append, h3]
        simp [natOf]
        omega
      · have hl : 0 < l.length := List.length_pos_iff.2 h4
        rw [List.length_append, List.length_singleton, Nat.add_sub_cancel]
        have e : l.length = (l.length - 1) + 1 := by omega
        rw [e, pow_succ]
        have : max (n / 10) 1 = n / 10 := by omega
        rw [this] at h5
        omega

theorem natChars_spec (n : Nat) : ∃ l : List Nat, natChars n = l.map digitChar ∧ (∀ d ∈ l, d < 10) ∧ natOf l = n ∧ l ≠ [] ∧
    10 ^ (l.length - 1) ≤ max n 1 := natCharsAux_spec _ _ (Nat.lt_succ_self n)

theorem padZeros_spec (w n : Nat) : ∃ l : List Nat, padZeros w (natChars n) = l.map digitChar ∧ (∀ d ∈ l, d < 10) ∧ natOf l = n ∧ l ≠ [] ∧
    (n < 10 ^ w → 0 < w → l.length = w) := by
  obtain ⟨l, h1, h2, h3, h4, h5⟩ := natChars_spec n
  refine ⟨List.replicate (w - l.length) 0 ++ l, ?_, ?_, ?_, by simp [h4], ?_⟩
  · unfold padZeros
    rw [h1]
    simp [digitChar]
  · intro d hd
    rcases List.mem_append.1 hd with hd | hd
    · rw [List.eq_of_mem_replicate hd]; omega
    · exact h2 d hd
  · rw [natOf_append, natOf_zeros, h3]; simp
  · intro hn hw
    have : l.length - 1 < w := by
      have h6 : 10 ^ (l.length - 1) < 10 ^ w := by
        refine lt_of_le_of_lt h5 (max_lt hn ?_)
        exact Nat.one_lt_pow (by omega) (by norm_num)
      exact (Nat.pow_lt_pow_iff_right (by norm_num)).1 h6
    rw [List.length_append, List.length_replicate]
    omega

/-! ## Zeros at the end -/

theorem dropZeros_spec (l : List Nat) : ∃ k, l = dropZeros l ++ List.replicate k 0 := by
  induction l with
  | nil => exact ⟨0, rfl⟩
  | cons d l ih =>
    obtain ⟨k, ih⟩ := ih
    unfold dropZeros
    cases h : dropZeros l with
    | nil =>
      rw [h] at ih
      simp only
      split
      · rename_i hd
        exact ⟨k + 1, by rw [hd, ih]; simp [List.replicate_succ]⟩
      · exact ⟨k, by rw [ih]; simp⟩
    | cons a r =>
      rw [h] at ih
      simp only
      exact ⟨k, by rw [List.cons_append, ← ih]⟩

theorem digitList_lt (d : Nat) : ∀ a ∈ digitList d, a < 10 := by
  intro a ha
  simp only [digitList, List.mem_cons, List.not_mem_nil, or_false] at ha
  omega

theorem natOf_digitList {d : Nat} (h : d < 1000000) : natOf (digitList d) = d := by
  simp only [natOf, digitList, List.foldl]
  omega

section
variable {K : Type} [Field K] [LinearOrder K] [IsStrictOrderedRing K] [FloorRing K]

/-! ## Reading what was printed -/

theorem readFrac_fracChars {l : List Nat} (h : ∀ d ∈ l, d < 10) {r : List Char} (hr : NoDigit r) (hr' : r.head? ≠ some '.') :
    readFrac (fracChars l ++ r) = (l, r) := by
  cases l with
  | nil =>
    show readFrac r = _
    unfold readFrac
    split
    · exact absurd rfl hr'
    · rfl
  | cons a l =>
    show spanDigits ((a :: l).map digitChar ++ r) = _
    exact spanDigits_map h hr

theorem readExp_expChars (X : Int) : readExp ('e' :: expChars X) = X := by
  obtain ⟨l, h1, h2, h3, h4, -⟩ := padZeros_spec 2 X.natAbs
  rw [readExp, if_pos (Or.inl rfl)]
  have hs := spanDigits_map h2 noDigit_nil
  rw [List.append_nil] at hs
  have key : ∀ b : Bool, (if l = [] then (0 : Int) else if b = true then -((natOf l : Nat) : Int) else ((natOf l : Nat) : Int)) =
      if b = true then -((X.natAbs : Nat) : Int) else ((X.natAbs : Nat) : Int) := by
    intro b; rw [if_neg h4, h3]
  unfold expChars
  by_cases hX : X < 0
  · rw [if_pos hX, h1]
    show (if (spanDigits (l.map digitChar)).1 = [] then (0 : Int) else if true = true then -((natOf (spanDigits (l.map digitChar)).1 : Nat) : Int)
      else ((natOf (spanDigits (l.map digitChar)).1 : Nat) : Int)) = X
    rw [hs, key, if_pos rfl]
    omega
  · rw [if_neg hX, h1]
    show (if (spanDigits (l.map digitChar)).1 = [] then (0 : Int) else if false = true then -((natOf (spanDigits (l.map digitChar)).1 : Nat) : Int)
      else ((natOf (spanDigits (l.map digitChar)).1 : Nat) : Int)) = X
    rw [hs, key, if_neg (by simp)]
    omega

/-- Digits before and after the point, and an exponent. -/
theorem readUnsigned_spec {ip fp : List Nat} (h1 : ∀ d ∈ ip, d < 10) (h2 : ∀ d ∈ fp, d < 10) (h3 : ip ≠ []) {r : List Char}
    (hr : NoDigit r) (hr' : r.head? ≠ some '.') :
    readUnsigned (ip.map digitChar ++ fracChars fp ++ r) = some ((natOf (ip ++ fp) : K) * (10 : K) ^ (readExp r - fp.length)) := by
  have hnd : NoDigit (fracChars fp ++ r) := by
    cases fp with
    | nil => exact hr
    | cons a l =>
      intro c r' e
      cases e
      decide
  unfold readUnsigned
  rw [List.append_assoc, spanDigits_map h1 hnd]
  simp only
  rw [readFrac_fracChars h2 hr hr']
  simp only
  rw [if_neg (by simp [h3])]

theorem take_drop_value {ds : List Nat} {d : Nat} (hv : natOf ds = d) (hl : ds.length = 6) (k : Nat) (hk : k < 6) :
    (natOf (ds.take (k + 1) ++ dropZeros (ds.drop (k + 1))) : K) * (10 : K) ^ (0 - ((dropZeros (ds.drop (k + 1))).length : Int)) = (d : K) * (10 : K) ^ ((k : Int) - 5) := by
  obtain ⟨z, hz⟩ := dropZeros_spec (ds.drop (k + 1))
  have hlen := congrArg List.length hz
  rw [List.length_drop, List.length_append, List.length_replicate, hl] at hlen
  have hd : natOf (ds.take (k + 1) ++ dropZeros (ds.drop (k + 1))) * 10 ^ z = d := by
    have : ds.take (k + 1) ++ dropZeros (ds.drop (k + 1)) ++ List.replicate z 0 = ds := by
      rw [List.append_assoc, ← hz, List.take_append_drop]
    rw [← hv]
    conv_rhs => rw [← this]
    rw [natOf_append _ (List.replicate z 0), natOf_zeros, List.length_replicate, add_zero]
  rw [← hd]
  push_cast
  rw [mul_assoc, ← zpow_natCast (10 : K) z, ← zpow_add₀ (by norm_num)]
  congr 2
  omega

/-- What a printed text shows. -/
theorem readUnsigned_layout {d : Nat} (h2 : d < 1000000) (X : Int) :
    readUnsigned (layout d X) = some ((d : K) * (10 : K) ^ (X - 5)) := by
  have hv := natOf_digitList h2
  have hl : (digitList d).length = 6 := rfl
  have hdig := digitList_lt d
  have htake : ∀ k, ∀ a ∈ (digitList d).take k, a < 10 := fun k a ha => hdig a (List.mem_of_mem_take ha)
  have hdz : ∀ l : List Nat, (∀ a ∈ l, a < 10) → ∀ a ∈ dropZeros l, a < 10 := by
    intro l hl a ha
    obtain ⟨z, hz⟩ := dropZeros_spec l
    exact hl a (by rw [hz]; exact List.mem_append_left _ ha)
  have hdrop : ∀ k, ∀ a ∈ dropZeros ((digitList d).drop k), a < 10 := fun k => hdz _ (fun a ha => hdig a (List.mem_of_mem_drop ha))
  unfold layout
  simp only
  split
  · rw [readUnsigned_spec (htake 1) (hdrop 1) (by simp [digitList]) (r := 'e' :: expChars X) (by intro c r e; cases e; decide) (by simp), readExp_expChars]
    have := take_drop_value (K := K) hv hl 0 (by omega)
    simp only [Nat.zero_add, Nat.cast_zero, zero_sub] at this
    rw [sub_eq_add_neg, add_comm X, zpow_add₀ (by norm_num), ← mul_assoc, this, mul_assoc, ← zpow_add₀ (by norm_num)]
    congr 3
    ring
  · split
    · rename_i h3 h4
      obtain ⟨k, hk⟩ : ∃ k : Nat, X = k := ⟨X.toNat, by omega⟩
      subst hk
      have := readUnsigned_spec (K := K) (htake (k + 1)) (hdrop (k + 1)) (by simp [digitList]) (r := []) noDigit_nil (by simp)
      rw [List.append_nil] at this
      rw [Int.toNat_natCast, this]
      show some ((natOf _ : K) * (10 : K) ^ ((0 : Int) - _)) = _
      rw [take_drop_value hv hl k (by omega)]
    · rename_i h3 h4
      have hz0 : ∀ a ∈ List.replicate ((-X).toNat - 1) 0 ++ dropZeros (digitList d), a < 10 := by
        intro a ha
        rcases List.mem_append.1 ha with ha | ha
        · rw [List.eq_of_mem_replicate ha]; omega
        · exact hdz _ hdig a ha
      have := readUnsigned_spec (K := K) (ip := [0]) (fp := List.replicate ((-X).toNat - 1) 0 ++ dropZeros (digitList d)) (by simp) hz0 (by simp) (r := []) noDigit_nil (by simp)
      rw [List.append_nil] at this
      have e : ('0' :: fracChars (List.replicate ((-X).toNat - 1) 0 ++ dropZeros (digitList d))) =
        [0].map digitChar ++ fracChars (List.replicate ((-X).toNat - 1) 0 ++ dropZeros (digitList d)) := rfl
      rw [e, this]
      obtain ⟨z, hz⟩ := dropZeros_spec (digitList d)
      have hlen := congrArg List.length hz
      rw [List.length_append, List.length_replicate, hl] at hlen
      have hd : natOf (dropZeros (digitList d)) * 10 ^ z = d := by
        have h5 := congrArg natOf hz
        rw [hv, natOf_append, natOf_zeros, List.length_replicate, add_zero] at h5
        exact h5.symm
      have e2 : natOf ([0] ++ (List.replicate ((-X).toNat - 1) 0 ++ dropZeros (digitList d))) = natOf (dropZeros (digitList d)) := by
        rw [natOf_append, natOf_append, natOf_zeros, show natOf [0] = 0 from rfl]; simp only [Nat.zero_mul, Nat.zero_add]
      rw [e2]
      congr 1
      have hdK : (d : K) = (natOf (dropZeros (digitList d)) : K) * 10 ^ z := by
        conv_lhs => rw [← hd]
        push_cast; rfl
      conv_rhs => rw [hdK]
      rw [mul_assoc, ← zpow_natCast (10 : K) z, ← zpow_add₀ (by norm_num)]
      congr 2
      show (0 : Int) - _ = _
      rw [List.length_append, List.length_replicate]
      omega

/-- A printed text does not begin with a sign. -/
theorem readSign_layout (d : Nat) (X : Int) : readSign (layout d X) = (false, layout d X) := by
  have h : ∃ c r, layout d X = c :: r ∧ c ≠ '-' ∧ c ≠ '+' := by
    have hd : d / 100000 % 10 < 10 := by omega
    have hne : digitChar (d / 100000 % 10) ≠ '-' ∧ digitChar (d / 100000 % 10) ≠ '+' := by
      generalize d / 100000 % 10 = a at hd
      interval_cases a <;> decide
    unfold layout
    simp only
    split
    · exact ⟨digitChar (d / 100000 % 10), _, rfl, hne⟩
    · split
      · exact ⟨digitChar (d / 100000 % 10), _, rfl, hne⟩
      · exact ⟨'0', _, rfl, by decide, by decide⟩
  obtain ⟨c, r, e, h1, h2⟩ := h
  rw [e]
  unfold readSign
  split
  · rename_i h; cases h; exact absurd rfl h1
  · rename_i h; cases h; exact absurd rfl h2
  · rfl

/-! ## Six digits -/

theorem roundEven_spec (x : K) : |(roundEven x : K) - x| ≤ 1 / 2 := by
  have h1 := Int.floor_le x
  have h2 := Int.lt_floor_add_one x
  unfold roundEven
  simp only
  split
  · rw [abs_sub_comm, abs_of_nonneg (by linarith)]; linarith
  · rename_i h3
    split
    · rename_i h4
      split
      · rw [abs_sub_comm, abs_of_nonneg (by linarith), h4]
      · push_cast
        rw [abs_of_nonneg (by linarith)]; linarith
    · push_cast
      push Not at h3
      rw [abs_of_nonneg (by linarith)]; linarith

/-- Rounding gives the nearest integer. -/
theorem roundEven_unique {x : K} {d : Int} (h : |x - d| < 1 / 2) : roundEven x = d := by
  have h1 := roundEven_spec x
  rw [abs_le] at h1
  rw [abs_lt] at h
  have h2 : (roundEven x : K) < d + 1 := by linarith
  have h3 : (d : K) < roundEven x + 1 := by linarith
  have h4 : roundEven x < d + 1 := by exact_mod_cast h2
  have h5 : d < roundEven x + 1 := by exact_mod_cast h3
  omega

/-- The digits and the exponent of a positive number. -/
theorem sixDigits_spec {v : K} (hv : 0 < v) : 100000 ≤ (sixDigits v).1 ∧ (sixDigits v).1 < 1000000 ∧
    |((sixDigits v).1 : K) * (10 : K) ^ ((sixDigits v).2 - 5) - v| ≤ 1 / 2 * (10 : K) ^ (Int.log 10 v - 5) := by
  set X := Int.log 10 v with hX
  have hlo : (10 : K) ^ X ≤ v := by exact_mod_cast Int.zpow_log_le_self (b := 10) (by norm_num) hv
  have hhi : v < (10 : K) ^ (X + 1) := by exact_mod_cast Int.lt_zpow_succ_log_self (b := 10) (by norm_num) v
  have hp : (0 : K) < (10 : K) ^ (X - 5) := zpow_pos (by norm_num) _
  have e1 : (10 : K) ^ X = 100000 * (10 : K) ^ (X - 5) := by
    rw [show X = 5 + (X - 5) by ring, zpow_add₀ (by norm_num)]
    norm_num
  have e2 : (10 : K) ^ (X + 1) = 1000000 * (10 : K) ^ (X - 5) := by
    rw [show X + 1 = 6 + (X - 5) by ring, zpow_add₀ (by norm_num)]
    norm_num
  set m := v / (10 : K) ^ (X - 5) with hm
  have hvm : v = m * (10 : K) ^ (X - 5) := by rw [hm]; field_simp
  have hm1 : 100000 ≤ m := by
    rw [hm, le_div_iff₀ hp, ← e1]; exact hlo
  have hm2 : m < 1000000 := by
    rw [hm, div_lt_iff₀ hp, ← e2]; exact hhi
  have hr := roundEven_spec m
  have hr1 : (100000 : Int) ≤ roundEven m := by
    rw [abs_le] at hr
    have : (99999 : K) < roundEven m := by linarith
    have : (99999 : Int) < roundEven m := by exact_mod_cast this
    omega
  have hr2 : roundEven m ≤ (1000000 : Int) := by
    rw [abs_le] at hr
    have : (roundEven m : K) < 1000001 := by linarith
    have : roundEven m < (1000001 : Int) := by exact_mod_cast this
    omega
  have hcast : (((roundEven m).toNat : Nat) : K) = (roundEven m : K) := by
    have : (((roundEven m).toNat : Nat) : Int) = roundEven m := Int.toNat_of_nonneg (by omega)
    exact_mod_cast congrArg (fun z : Int => (z : K)) this
  have herr : |(roundEven m : K) * (10 : K) ^ (X - 5) - v| ≤ 1 / 2 * (10 : K) ^ (X - 5) := by
    have : (roundEven m : K) * (10 : K) ^ (X - 5) - v = ((roundEven m : K) - m) * (10 : K) ^ (X - 5) := by rw [hvm]; ring
    rw [this, abs_mul, abs_of_pos hp]
    exact mul_le_mul_of_nonneg_right hr hp.le
  have hunf : sixDigits v = if (roundEven m).toNat < 1000000 then ((roundEven m).toNat, X) else (100000, X + 1) := rfl
  rw [hunf]
  split
  · rename_i hlt
    refine ⟨by omega, hlt, ?_⟩
    simp only
    rw [hcast]
    exact herr
  · rename_i hge
    have hd : roundEven m = 1000000 := by omega
    refine ⟨le_refl _, by norm_num, ?_⟩
    simp only
    rw [hd] at herr
    have : ((100000 : Nat) : K) * (10 : K) ^ (X + 1 - 5) = ((1000000 : Int) : K) * (10 : K) ^ (X - 5) := by
      rw [show X + 1 - 5 = 1 + (X - 5) by ring, zpow_add₀ (by norm_num)]
      push_cast; norm_num; ring
    rw [this]
    exact herr

/-- A number very near a decimal with six digits has these digits. -/
theorem sixDigits_near {d : Nat} (h1 : 100000 ≤ d) (h2 : d < 1000000) (X : Int) {w : K}
    (hw : |w - (d : K) * (10 : K) ^ (X - 5)| ≤ 1 / 10000000 * ((d : K) * (10 : K) ^ (X - 5))) : sixDigits w = (d, X) := by
  have hp : (0 : K) < (10 : K) ^ (X - 5) := zpow_pos (by norm_num) _
  have hd1 : (100000 : K) ≤ d := by exact_mod_cast h1
  have hd2 : (d : K) ≤ 999999 := by exact_mod_cast (by omega : d ≤ 999999)
  rw [abs_le] at hw
  set q := (10 : K) ^ (X - 5) with hq
  have e0 : (10 : K) ^ X = 100000 * q := by
    rw [show X = 5 + (X - 5) by ring, zpow_add₀ (by norm_num)]
    norm_num [hq]
  have e1 : (10 : K) ^ (X + 1) = 1000000 * q := by
    rw [show X + 1 = 6 + (X - 5) by ring, zpow_add₀ (by norm_num)]
    norm_num [hq]
  have e2 : (10 : K) ^ (X - 1) = 10000 * q := by
    rw [show X - 1 = 4 + (X - 5) by ring, zpow_add₀ (by norm_num)]
    norm_num [hq]
  have e3 : (10 : K) ^ (X - 1 - 5) = q / 10 := by
    rw [show X - 1 - 5 = (X - 5) + (-1) by ring, zpow_add₀ (by norm_num), zpow_neg_one]
    rw [hq, div_eq_mul_inv]
  have hw0 : 0 < w := by nlinarith
  have hup : w < (10 : K) ^ (X + 1) := by rw [e1]; nlinarith
  have hlow : (10 : K) ^ (X - 1) ≤ w := by rw [e2]; nlinarith
  have hlogle : Int.log 10 w ≤ X := by
    have := (Int.lt_zpow_iff_log_lt (b := 10) (by norm_num) hw0 (x := X + 1)).1 (by exact_mod_cast hup)
    omega
  have hlogge : X - 1 ≤ Int.log 10 w := (Int.zpow_le_iff_le_log (b := 10) (by norm_num) hw0).1 (by exact_mod_cast hlow)
  have hunf : sixDigits w = if (roundEven (w / (10 : K) ^ (Int.log 10 w - 5))).toNat < 1000000
      then ((roundEven (w / (10 : K) ^ (Int.log 10 w - 5))).toNat, Int.log 10 w) else (100000, Int.log 10 w + 1) := rfl
  rw [hunf]
  rcases (by omega : Int.log 10 w = X ∨ Int.log 10 w = X - 1) with hl | hl
  · rw [hl, ← hq]
    have hr : roundEven (w / q) = (d : Int) := by
      apply roundEven_unique
      push_cast
      have : w / q - d = (w - d * q) / q := by field_simp
      rw [this, abs_div, abs_of_pos hp, div_lt_iff₀ hp, abs_lt]
      constructor <;> nlinarith
    rw [hr, Int.toNat_natCast, if_pos h2]
  · -- just below a power of ten
    have hlt : w < 100000 * q := by
      have : w < (10 : K) ^ X := by
        have := Int.lt_zpow_succ_log_self (b := 10) (by norm_num) w
        rw [hl, sub_add_cancel] at this
        exact_mod_cast this
      rw [← e0]; exact this
    have hd : d = 100000 := by
      by_contra hne
      have : (100001 : K) ≤ d := by exact_mod_cast (by omega : 100001 ≤ d)
      nlinarith
    subst hd
    rw [hl, e3]
    have hr : roundEven (w / (q / 10)) = (1000000 : Int) := by
      apply roundEven_unique
      push_cast
      have : w / (q / 10) - 1000000 = (w - 100000 * q) * 10 / q := by field_simp; ring
      rw [this, abs_div, abs_of_pos hp, div_lt_iff₀ hp, abs_lt]
      push_cast at hw
      constructor <;> nlinarith
    rw [hr]
    norm_num

/-! ## Printing and reading -/

/-- The number that the printed text of `v` shows. -/
def shown (v : K) : K :=
  if v = 0 then 0
  else if v < 0 then -(((sixDigits (-v)).1 : K) * (10 : K) ^ ((sixDigits (-v)).2 - 5))
  else ((sixDigits v).1 : K) * (10 : K) ^ ((sixDigits v).2 - 5)

theorem readDecimal_numChars (v : K) : readDecimal (numChars v) = some (shown v) := by
  unfold numChars shown
  split
  · unfold readDecimal readUnsigned
    simp [readSign, spanDigits, readFrac, natOf, readExp]
  · rename_i h0
    split
    · rename_i hneg
      obtain ⟨-, h2, -⟩ := sixDigits_spec (neg_pos.2 hneg)
      show (readUnsigned (layout _ _)).map (fun v => if true = true then -v else v) = _
      rw [readUnsigned_layout h2]
      simp
    · rename_i hneg
      obtain ⟨-, h2, -⟩ := sixDigits_spec (lt_of_le_of_ne (not_lt.1 hneg) (Ne.symm h0))
      unfold readDecimal
      rw [readSign_layout]
      simp only
      rw [readUnsigned_layout h2]
      simp

theorem shown_neg (v : K) : shown (-v) = -shown v := by
  unfold shown
  by_cases h0 : v = 0
  · simp [h0]
  · rw [if_neg h0, if_neg (neg_ne_zero.2 h0), neg_neg]
    rcases lt_or_gt_of_ne h0 with h | h
    · rw [if_pos h, if_neg (by simp [h.le]), neg_neg]
    · rw [if_neg (not_lt.2 h.le), if_pos (by simpa using h)]

theorem shown_pos {v : K} (h : 0 < v) : shown v = ((sixDigits v).1 : K) * (10 : K) ^ ((sixDigits v).2 - 5) := by
  unfold shown
  rw [if_neg h.ne', if_neg (not_lt.2 h.le)]

theorem shown_error (v : K) : |shown v - v| ≤ 1 / 200000 * |v| := by
  have pos : ∀ v : K, 0 < v → |shown v - v| ≤ 1 / 200000 * |v| := by
    intro v hv
    rw [shown_pos hv]
    refine le_trans (sixDigits_spec hv).2.2 ?_
    have hlo : (10 : K) ^ Int.log 10 v ≤ v := by exact_mod_cast Int.zpow_log_le_self (b := 10) (by norm_num) hv
    rw [show Int.log 10 v = 5 + (Int.log 10 v - 5) by ring, zpow_add₀ (by norm_num)] at hlo
    rw [abs_of_pos hv]
    norm_num at hlo ⊢
    linarith
  rcases lt_trichotomy v 0 with h | h | h
  · have := pos (-v) (neg_pos.2 h)
    rw [shown_neg, abs_neg] at this
    rwa [show -shown v - -v = -(shown v - v) by ring, abs_neg] at this
  · subst h; simp [shown]
  · exact pos v h

theorem numChars_near {v w : K} (h : |w - shown v| ≤ 1 / 10000000 * |shown v|) : numChars w = numChars v := by
  have pos : ∀ v w : K, 0 < v → |w - shown v| ≤ 1 / 10000000 * |shown v| → 0 < w ∧ sixDigits w = sixDigits v := by
    intro v w hv h
    obtain ⟨h1, h2, -⟩ := sixDigits_spec hv
    have hs : 0 < shown v := by
      rw [shown_pos hv]
      have : (0 : K) < (sixDigits v).1 := by exact_mod_cast (by omega : 0 < (sixDigits v).1)
      exact mul_pos this (zpow_pos (by norm_num) _)
    rw [abs_of_pos hs] at h
    refine ⟨?_, ?_⟩
    · rw [abs_le] at h; nlinarith
    · rw [shown_pos hv] at h
      exact sixDigits_near h1 h2 _ h
  rcases lt_trichotomy v 0 with hv | hv | hv
  · have := pos (-v) (-w) (neg_pos.2 hv) (by rw [shown_neg, abs_neg, show -w - -shown v = -(w - shown v) by ring, abs_neg]; exact h)
    have hw : w < 0 := neg_pos.1 this.1
    unfold numChars
    rw [if_neg hw.ne, if_pos hw, if_neg hv.ne, if_pos hv, this.2]
  · subst hv
    have h0 : shown (0 : K) = 0 := by simp [shown]
    rw [h0] at h
    simp only [sub_zero, abs_zero, mul_zero, abs_nonpos_iff] at h
    rw [h]
  · have := pos v w hv h
    unfold numChars
    rw [if_neg this.1.ne', if_neg (not_lt.2 this.1.le), if_neg hv.ne', if_neg (not_lt.2 hv.le), this.2]

end

end OpenMps
