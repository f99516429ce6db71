import Verif.Lemmas.Text
import Verif.Spec.Text
import Verif.Props.Restart

/-! # C53: numbers in files.  C54: names of files -/

namespace OpenMps

set_option linter.unusedSectionVars false

section
variable {K : Type} [Field K] [LinearOrder K] [IsStrictOrderedRing K] [FloorRing K]

theorem shown_sixDigitDecimal (v : K) : SixDigitDecimal (shown v) := by
  unfold shown SixDigitDecimal
  split
  · exact ⟨0, 0, by norm_num, by simp⟩
  · rename_i h0
    split
    · rename_i h
      obtain ⟨-, h2, -⟩ := sixDigits_spec (neg_pos.2 h)
      exact ⟨-((sixDigits (-v)).1 : ℤ), (sixDigits (-v)).2 - 5, by rw [abs_neg, Nat.abs_cast]; exact_mod_cast h2, by push_cast; ring⟩
    · rename_i h
      obtain ⟨-, h2, -⟩ := sixDigits_spec (lt_of_le_of_ne (not_lt.1 h) (Ne.symm h0))
      exact ⟨((sixDigits v).1 : ℤ), (sixDigits v).2 - 5, by rw [Nat.abs_cast]; exact_mod_cast h2, by push_cast; ring⟩

/-- Rounding gives a nearest integer. -/
theorem roundEven_nearest (x : K) (N : ℤ) : |(roundEven x : K) - x| ≤ |(N : K) - x| := by
  by_cases h : N = roundEven x
  · rw [h]
  · by_contra hc
    have h1 := roundEven_spec x
    exact h (roundEven_unique (by rw [abs_sub_comm]; exact lt_of_lt_of_le (not_le.1 hc) h1)).symm

theorem shown_nearest {v : K} (hv : 0 < v) (d e : ℤ) (hd : |d| < 1000000) : |shown v - v| ≤ |(d : K) * (10 : K) ^ e - v| := by
  set X := Int.log 10 v with hX
  have hlo : (10 : K) ^ X ≤ v := by exact_mod_cast Int.zpow_log_le_self (b := 10) (by norm_num) hv
  have hp : (0 : K) < (10 : K) ^ (X - 5) := zpow_pos (by norm_num) _
  have e1 : (10 : K) ^ X = 100000 * (10 : K) ^ (X - 5) := by
    rw [show X = 5 + (X - 5) by ring, zpow_add₀ (by norm_num)]
    norm_num
  set m := v / (10 : K) ^ (X - 5) with hm
  have hvm : v = m * (10 : K) ^ (X - 5) := by rw [hm]; field_simp
  have hscale : ∀ N : ℤ, |(N : K) * (10 : K) ^ (X - 5) - v| = |(N : K) - m| * (10 : K) ^ (X - 5) := by
    intro N
    have : (N : K) * (10 : K) ^ (X - 5) - v = ((N : K) - m) * (10 : K) ^ (X - 5) := by rw [sub_mul, ← hvm]
    rw [this, abs_mul, abs_of_pos hp]
  -- the printed number is the nearest multiple
  have hs : shown v = (roundEven m : K) * (10 : K) ^ (X - 5) := by
    rw [shown_pos hv]
    have hr := roundEven_spec m
    have hm1 : 100000 ≤ m := by rw [hm, le_div_iff₀ hp, ← e1]; exact hlo
    have hm2 : m < 1000000 := by
      have hhi : v < (10 : K) ^ (X + 1) := by exact_mod_cast Int.lt_zpow_succ_log_self (b := 10) (by norm_num) v
      rw [show X + 1 = 6 + (X - 5) by ring, zpow_add₀ (by norm_num)] at hhi
      rw [hm, div_lt_iff₀ hp]
      norm_num at hhi ⊢
      exact hhi
    have hr1 : (0 : ℤ) ≤ roundEven m := by
      rw [abs_le] at hr
      have : (-1 : K) < roundEven m := by linarith
      have : (-1 : ℤ) < roundEven m := by exact_mod_cast this
      omega
    have hr2 : roundEven m ≤ 1000000 := by
      rw [abs_le] at hr
      have : (roundEven m : K) < 1000001 := by linarith
      have : roundEven m < (1000001 : ℤ) := by exact_mod_cast this
      omega
    have hunf : sixDigits v = if (roundEven m).toNat < 1000000 then ((roundEven m).toNat, X) else (100000, X + 1) := rfl
    rw [hunf]
    split
    · simp only
      have : (((roundEven m).toNat : Nat) : Int) = roundEven m := Int.toNat_of_nonneg hr1
      have : (((roundEven m).toNat : Nat) : K) = (roundEven m : K) := by exact_mod_cast congrArg (fun z : Int => (z : K)) this
      rw [this]
    · simp only
      have : roundEven m = 1000000 := by omega
      rw [this, show X + 1 - 5 = 1 + (X - 5) by ring, zpow_add₀ (by norm_num)]
      push_cast; norm_num; ring
  rw [hs, hscale]
  by_cases he : X - 5 ≤ e
  · obtain ⟨k, hk⟩ : ∃ k : ℕ, e = (X - 5) + k := ⟨(e - (X - 5)).toNat, by omega⟩
    have : (d : K) * (10 : K) ^ e = ((d * 10 ^ k : ℤ) : K) * (10 : K) ^ (X - 5) := by
      rw [hk, zpow_add₀ (by norm_num), zpow_natCast]; push_cast; ring
    rw [this, hscale]
    exact mul_le_mul_of_nonneg_right (roundEven_nearest m _) hp.le
  · have h1 : (d : K) * (10 : K) ^ e ≤ (10 : K) ^ X := by
      have hd' : (d : K) ≤ 1000000 := by
        have : d ≤ 1000000 := le_trans (le_abs_self d) hd.le
        exact_mod_cast this
      have hpe : (0 : K) < (10 : K) ^ e := zpow_pos (by norm_num) _
      have h2 : (10 : K) ^ e ≤ (10 : K) ^ (X - 6) := zpow_le_zpow_right₀ (by norm_num) (by omega)
      have h3 : (10 : K) ^ X = 1000000 * (10 : K) ^ (X - 6) := by
        rw [show X = 6 + (X - 6) by ring, zpow_add₀ (by norm_num)]
        norm_num
      rw [h3]
      calc (d : K) * (10 : K) ^ e ≤ 1000000 * (10 : K) ^ e := mul_le_mul_of_nonneg_right hd' hpe.le
        _ ≤ _ := mul_le_mul_of_nonneg_left h2 (by norm_num)
    have h4 := mul_le_mul_of_nonneg_right (roundEven_nearest m 100000) hp.le
    rw [← hscale 100000] at h4
    refine le_trans h4 ?_
    push_cast
    rw [← e1, abs_sub_comm, abs_sub_comm _ v, abs_of_nonneg (by linarith), abs_of_nonneg (by linarith)]
    linarith

theorem ofDigits_natOf {R : Type} [CommRing R] (l : List Nat) : Nat.ofDigits (10 : R) l.reverse = (natOf l : R) := by
  have h : Nat.ofDigits 10 l.reverse = natOf l := by
    induction l with
    | nil => rfl
    | cons a l ih =>
      rw [List.reverse_cons, Nat.ofDigits_append, ih, natOf_cons, List.length_reverse, Nat.ofDigits_singleton]
      ring
  rw [← h, Nat.coe_ofDigits]
  rfl

theorem digitChar_eq {l : List Nat} (h : ∀ d ∈ l, d < 10) : l.map Nat.digitChar = l.map digitChar := by
  refine List.map_congr_left (fun d hd => ?_)
  have := h d hd
  interval_cases d <;> rfl

/-- **C53.**  `std::stod` reads every decimal text as the number that it shows. -/
theorem C53_decimal_texts_are_read {t : List Char} {x : K} (h : Shows t x) : readDecimal t = some x := by
  obtain ⟨neg, ip, fp, ex, rfl, h1, h2, h3, h4, rfl⟩ := h
  -- the exponent
  obtain ⟨r, hr, hr1, hr2, hr3⟩ : ∃ r : List Char, exponentText ex = r ∧ NoDigit r ∧ r.head? ≠ some '.' ∧
      readExp r = exponentOf ex := by
    match ex, h4 with
    | none, _ => exact ⟨[], rfl, noDigit_nil, by simp, rfl⟩
    | some (b, l), h4 =>
      obtain ⟨k1, k2⟩ := h4 b l rfl
      refine ⟨'e' :: (if b then '-' else '+') :: l.map Nat.digitChar, rfl, ?_, by simp, ?_⟩
      · intro c r e; cases e; decide
      · have hs := spanDigits_map k1 noDigit_nil
        rw [List.append_nil] at hs
        rw [readExp, if_pos (Or.inl rfl), digitChar_eq k1]
        have hn : (Nat.ofDigits (10 : ℤ) l.reverse) = (natOf l : ℤ) := ofDigits_natOf l
        cases b
        · show (if (spanDigits (l.map digitChar)).1 = [] then (0 : Int) else if false = true then -((natOf (spanDigits (l.map digitChar)).1 : Nat) : Int)
            else ((natOf (spanDigits (l.map digitChar)).1 : Nat) : Int)) = _
          rw [hs, if_neg k2, if_neg (by simp)]
          exact hn.symm
        · show (if (spanDigits (l.map digitChar)).1 = [] then (0 : Int) else if true = true then -((natOf (spanDigits (l.map digitChar)).1 : Nat) : Int)
            else ((natOf (spanDigits (l.map digitChar)).1 : Nat) : Int)) = _
          rw [hs, if_neg k2, if_pos rfl]
          exact congrArg Neg.neg hn.symm
  rw [← hr3]
  have hfr : (if fp = [] then [] else '.' :: fp.map Nat.digitChar) = fracChars fp := by
    cases fp with
    | nil => rfl
    | cons a l => rw [if_neg (by simp), digitChar_eq h3]; rfl
  have hrest := readUnsigned_spec (K := K) h1 h3 h2 hr1 hr2
  have hval : (Nat.ofDigits (10 : K) (ip ++ fp).reverse) = (natOf (ip ++ fp) : K) := ofDigits_natOf _
  rw [hval]
  unfold decimalText
  rw [hr, hfr, digitChar_eq h1]
  cases neg
  · have hsign : readSign (ip.map digitChar ++ fracChars fp ++ r) = (false, ip.map digitChar ++ fracChars fp ++ r) := by
      cases ip with
      | nil => exact absurd rfl h2
      | cons a l =>
        have ha := h1 a (by simp)
        have hne : digitChar a ≠ '-' ∧ digitChar a ≠ '+' := by interval_cases a <;> decide
        simp only [List.map_cons, List.cons_append]
        unfold readSign
        split
        · rename_i h; injection h with h _; exact absurd h hne.1
        · rename_i h; injection h with h _; exact absurd h hne.2
        · rfl
    rw [if_neg (by simp), List.nil_append]
    unfold readDecimal
    rw [hsign]
    simp only
    rw [hrest]
    simp
  · rw [if_pos rfl]
    show (readUnsigned (ip.map digitChar ++ fracChars fp ++ r)).map (fun v => if true = true then -v else v) = _
    rw [hrest]
    simp

theorem layout_shape (d : Nat) (X : Int) : ∃ (ip fp : List Nat) (ex : Option (Bool × List Nat)), layout d X = decimalText false ip fp ex ∧
    (∀ d ∈ ip, d < 10) ∧ ip ≠ [] ∧ (∀ d ∈ fp, d < 10) ∧ (∀ b l, ex = some (b, l) → (∀ d ∈ l, d < 10) ∧ l ≠ []) := by
  have hdig := digitList_lt d
  have hdz : ∀ l : List Nat, (∀ a ∈ l, a < 10) → ∀ a ∈ dropZeros l, a < 10 := by
    intro l hl a ha
    obtain ⟨z, hz⟩ := dropZeros_spec l
    exact hl a (by rw [hz]; exact List.mem_append_left _ ha)
  have htake : ∀ k, ∀ a ∈ (digitList d).take k, a < 10 := fun k a ha => hdig a (List.mem_of_mem_take ha)
  have hdrop : ∀ k, ∀ a ∈ dropZeros ((digitList d).drop k), a < 10 := fun k => hdz _ (fun a ha => hdig a (List.mem_of_mem_drop ha))
  have hfr : ∀ fp : List Nat, (∀ d ∈ fp, d < 10) → (if fp = [] then [] else '.' :: fp.map Nat.digitChar) = fracChars fp := by
    intro fp h3
    cases fp with
    | nil => rfl
    | cons a l => rw [if_neg (by simp), digitChar_eq h3]; rfl
  unfold layout
  simp only
  split
  · obtain ⟨l, k1, k2, -, k4, -⟩ := padZeros_spec 2 X.natAbs
    refine ⟨_, _, some (decide (X < 0), l), ?_, htake 1, by simp [digitList], hdrop 1, ?_⟩
    · unfold decimalText expChars exponentText
      rw [hfr _ (hdrop 1), digitChar_eq (htake 1), k1]
      simp only [digitChar_eq k2]
      by_cases hX : X < 0 <;> simp [hX]
    · intro b l' e; cases e; exact ⟨k2, k4⟩
  · split
    · refine ⟨_, _, none, ?_, htake (X.toNat + 1), by simp [digitList], hdrop (X.toNat + 1), by simp⟩
      unfold decimalText
      rw [hfr _ (hdrop _), digitChar_eq (htake _)]
      simp [exponentText]
    · have hz0 : ∀ a ∈ List.replicate ((-X).toNat - 1) 0 ++ dropZeros (digitList d), a < 10 := by
        intro a ha
        rcases List.mem_append.1 ha with ha | ha
        · rw [List.eq_of_mem_replicate ha]; omega
        · exact hdz _ hdig a ha
      refine ⟨[0], _, none, ?_, by simp, by simp, hz0, by simp⟩
      unfold decimalText
      rw [hfr _ hz0]
      simp [exponentText]

theorem numChars_shows (v : K) : Shows (numChars v) (shown v) := by
  obtain ⟨x, hx⟩ : ∃ x : K, Shows (numChars v) x := by
    unfold numChars
    split
    · exact ⟨_, false, [0], [], none, rfl, by simp, by simp, by simp, by simp, rfl⟩
    · split
      · obtain ⟨ip, fp, ex, e, h1, h2, h3, h4⟩ := layout_shape (sixDigits (-v)).1 (sixDigits (-v)).2
        exact ⟨_, true, ip, fp, ex, by rw [e]; rfl, h1, h2, h3, h4, rfl⟩
      · obtain ⟨ip, fp, ex, e, h1, h2, h3, h4⟩ := layout_shape (sixDigits v).1 (sixDigits v).2
        exact ⟨_, false, ip, fp, ex, by rw [e], h1, h2, h3, h4, rfl⟩
  have h1 := C53_decimal_texts_are_read hx
  rw [readDecimal_numChars] at h1
  rw [Option.some.inj h1]; exact hx

/-- **C53.**  The text of a number shows a decimal with six significant digits, and there is none that is nearer to the number. -/
theorem C53_text_shows_a_nearest_six_digit_decimal (v : K) :
    ∃ x : K, Shows (numChars v) x ∧ SixDigitDecimal x ∧ ∀ y, SixDigitDecimal y → |x - v| ≤ |y - v| := by
  refine ⟨shown v, numChars_shows v, shown_sixDigitDecimal v, ?_⟩
  rintro y ⟨d, e, hd, rfl⟩
  rcases lt_trichotomy v 0 with h | h | h
  · have := shown_nearest (neg_pos.2 h) (-d) e (by rw [abs_neg]; exact hd)
    rw [shown_neg, show -shown v - -v = -(shown v - v) by ring, abs_neg] at this
    push_cast at this
    rw [show -(d : K) * 10 ^ e - -v = -((d : K) * 10 ^ e - v) by ring, abs_neg] at this
    exact this
  · subst h
    have : shown (0 : K) = 0 := by simp [shown]
    rw [this, sub_zero, abs_zero]; exact abs_nonneg _
  · exact shown_nearest h d e hd

/-- **C53.**  Numbers with six significant digits are shown exactly. -/
theorem C53_six_digit_numbers_are_shown_exactly {v : K} (h : SixDigitDecimal v) : Shows (numChars v) v := by
  obtain ⟨x, h1, -, h2⟩ := C53_text_shows_a_nearest_six_digit_decimal v
  have := h2 v h
  rw [sub_self, abs_zero] at this
  rwa [sub_eq_zero.1 (abs_eq_zero.1 (le_antisymm this (abs_nonneg _)))] at h1

theorem stoi_intChars (k : Int) : stoi (intChars k) = some k := by
  obtain ⟨l, h1, h2, h3, h4, -⟩ := natChars_spec k.natAbs
  have hs := spanDigits_map h2 noDigit_nil
  rw [List.append_nil] at hs
  unfold stoi intChars
  split
  · rw [h1]
    show (if (spanDigits (l.map digitChar)).1 = [] then none else some (if true = true then -((natOf (spanDigits (l.map digitChar)).1 : Nat) : Int)
      else ((natOf (spanDigits (l.map digitChar)).1 : Nat) : Int))) = some k
    rw [hs, if_neg h4, if_pos rfl, h3]
    congr 1; omega
  · rw [h1]
    have hsign : readSign (l.map digitChar) = (false, l.map digitChar) := by
      cases l with
      | nil => exact absurd rfl h4
      | cons a l =>
        have ha := h2 a (by simp)
        have hne : digitChar a ≠ '-' ∧ digitChar a ≠ '+' := by interval_cases a <;> decide
        rw [List.map_cons]
        unfold readSign
        split
        · rename_i h; injection h with h _; exact absurd h hne.1
        · rename_i h; injection h with h _; exact absurd h hne.2
        · rfl
    simp only
    rw [hsign]
    simp only
    rw [hs, if_neg h4, if_neg (by simp), h3]
    congr 1; omega

/-! Texts contain no separators. -/

theorem digitChar_clean {d : Nat} (h : d < 10) : digitChar d ≠ ',' ∧ digitChar d ≠ ' ' ∧ digitChar d ≠ '\t' ∧ digitChar d ≠ '\n' := by
  interval_cases d <;> decide

/-- No separators. -/
def CleanText (l : List Char) : Prop := ∀ c ∈ l, c ≠ ',' ∧ c ≠ ' ' ∧ c ≠ '\t' ∧ c ≠ '\n'

theorem CleanText.append {l r : List Char} (hl : CleanText l) (hr : CleanText r) : CleanText (l ++ r) := by
  intro c hc
  rcases List.mem_append.1 hc with h | h
  · exact hl c h
  · exact hr c h

theorem CleanText.cons {a : Char} {l : List Char} (ha : a ≠ ',' ∧ a ≠ ' ' ∧ a ≠ '\t' ∧ a ≠ '\n') (hl : CleanText l) : CleanText (a :: l) := by
  intro c hc
  rcases List.mem_cons.1 hc with rfl | h
  · exact ha
  · exact hl c h

theorem cleanText_map {l : List Nat} (h : ∀ d ∈ l, d < 10) : CleanText (l.map digitChar) := by
  intro c hc
  obtain ⟨d, hd, rfl⟩ := List.mem_map.1 hc
  exact digitChar_clean (h d hd)

theorem cleanText_frac {l : List Nat} (h : ∀ d ∈ l, d < 10) : CleanText (fracChars l) := by
  cases l with
  | nil => intro c hc; cases hc
  | cons a l => exact .cons (by decide) (cleanText_map h)

theorem natChars_clean (n : Nat) : CleanText (natChars n) := by
  obtain ⟨l, h1, h2, -⟩ := natChars_spec n
  rw [h1]; exact cleanText_map h2

theorem layout_clean (d : Nat) (X : Int) : CleanText (layout d X) := by
  have hdig := digitList_lt d
  have hdz : ∀ l : List Nat, (∀ a ∈ l, a < 10) → ∀ a ∈ dropZeros l, a < 10 := by
    intro l hl a ha
    obtain ⟨z, hz⟩ := dropZeros_spec l
    exact hl a (by rw [hz]; exact List.mem_append_left _ ha)
  unfold layout
  simp only
  split
  · refine .append (.append (cleanText_map (fun a ha => hdig a (List.mem_of_mem_take ha))) (cleanText_frac (hdz _ (fun a ha => hdig a (List.mem_of_mem_drop ha))))) ?_
    refine .cons (by decide) ?_
    obtain ⟨l, h1, h2, -⟩ := padZeros_spec 2 X.natAbs
    unfold expChars
    rw [h1]
    exact .cons (by split <;> decide) (cleanText_map h2)
  · split
    · exact .append (cleanText_map (fun a ha => hdig a (List.mem_of_mem_take ha))) (cleanText_frac (hdz _ (fun a ha => hdig a (List.mem_of_mem_drop ha))))
    · refine .cons (by decide) (cleanText_frac ?_)
      intro a ha
      rcases List.mem_append.1 ha with ha | ha
      · rw [List.eq_of_mem_replicate ha]; omega
      · exact hdz _ hdig a ha

theorem libPrinter_clean : (libPrinter : Printer K).Clean := by
  refine ⟨fun k => ?_, fun k => ?_, fun v => ?_⟩
  · obtain ⟨l, h1, h2, h3, h4, -⟩ := natChars_spec k.natAbs
    show intChars k ≠ []
    unfold intChars
    split
    · simp
    · rw [h1]; simpa using h4
  · show CleanText (intChars k)
    unfold intChars
    split
    · exact .cons (by decide) (natChars_clean _)
    · exact natChars_clean _
  · show CleanText (numChars v)
    unfold numChars
    split
    · exact .cons (by decide) (fun c hc => by cases hc)
    · split
      · exact .cons (by decide) (layout_clean _ _)
      · exact layout_clean _ _

/-- Reading one printed number. -/
theorem stod_numChars {st : Strtod K} {ε : K} (hε : ε ≤ 1 / 10000000) (hrd : ∀ x, |st.rd x - x| ≤ ε * |x|) {v : K} (h : WellInRange st v) :
    ∃ w, stod st (numChars v) = some w ∧ RelClose (1 / 200000 + 2 * ε) v w ∧ numChars w = numChars v := by
  have herr := shown_error v
  refine ⟨st.rd (shown v), ?_, ?_, ?_⟩
  · unfold stod
    rw [readDecimal_numChars, Option.bind_some, if_pos (h _ herr)]
  · unfold RelClose
    have h1 := hrd (shown v)
    have h2 : |shown v| ≤ |shown v - v| + |v| := by
      have := abs_add_le (shown v - v) v
      rwa [sub_add_cancel] at this
    have h3 : |st.rd (shown v) - v| ≤ |st.rd (shown v) - shown v| + |shown v - v| := abs_sub_le _ _ _
    have hε0 : ε * |shown v| ≤ 2 * ε * |v| := by
      by_cases hε0 : 0 ≤ ε
      · nlinarith [abs_nonneg v]
      · have h5 : |shown v| = 0 := by
          have := le_trans (abs_nonneg _) h1
          by_contra hne
          have : 0 < |shown v| := lt_of_le_of_ne (abs_nonneg _) (Ne.symm hne)
          nlinarith
        have h6 : |v| = 0 := by
          have : shown v = 0 := abs_eq_zero.1 h5
          rw [this] at herr
          rw [zero_sub, abs_neg] at herr
          have := abs_nonneg v
          linarith
        rw [h5, h6]; simp
    nlinarith
  · refine numChars_near (le_trans (hrd _) ?_)
    exact mul_le_mul_of_nonneg_right hε (abs_nonneg _)

end

/-! ## Files -/

section
variable {F : Type} {D : Nat}

/-- Reading back any file whose numbers can be read. -/
theorem file_read_back (hD : D = 2 ∨ D = 3) {pr : Printer F} {cv : Conv F} (hpr : pr.Clean) (hint : ∀ k, cv.int (pr.int k) = some k)
    {ps ps' : List (Particle F D)} (hty : ∀ q ∈ ps, ∃ k, q.ty = PType.ofInt k)
    (h : List.Forall₂ (fun q q' => q'.ty = q.ty ∧ (∀ a, cv.num (pr.num (q.x a)) = some (q'.x a)) ∧ (∀ a, cv.num (pr.num (q.u a)) = some (q'.u a)) ∧
      cv.num (pr.num q.p) = some q'.p ∧ cv.num (pr.num q.n) = some q'.n) ps ps') :
    inputFromCsv cv (outputToCsv pr ps) = .ok ps' := by
  rw [reads_named_columns cv (output_isText hpr ps) (fun c hc => hc) (fun c hc => hc)]
  simp only
  induction h with
  | nil => exact .nil
  | @cons q q' ps ps' hq hps ih =>
    obtain ⟨e0, e1, e2, e3, e4⟩ := hq
    refine .cons ?_ (ih (fun q' hq' => hty q' (by simp [hq'])))
    exact rowIs_fields hD hint (hty q (by simp)) e0 e1 e2 e3 e4

/-- The text of a file depends only on the texts of its numbers. -/
theorem output_congr {pr : Printer F} {ps ps' : List (Particle F D)}
    (h : List.Forall₂ (fun q q' => q'.ty = q.ty ∧ (∀ a, pr.num (q'.x a) = pr.num (q.x a)) ∧ (∀ a, pr.num (q'.u a) = pr.num (q.u a)) ∧
      pr.num q'.p = pr.num q.p ∧ pr.num q'.n = pr.num q.n) ps ps') :
    outputToCsv pr ps' = outputToCsv pr ps := by
  have : ps'.map (particleFields pr) = ps.map (particleFields pr) := by
    induction h with
    | nil => rfl
    | @cons q q' ps ps' hq hps ih =>
      obtain ⟨e0, e1, e2, e3, e4⟩ := hq
      rw [List.map_cons, List.map_cons, ih]
      congr 1
      unfold particleFields
      simp only [e0, e1, e2, e3, e4]
  unfold outputToCsv
  have e : ∀ ps : List (Particle F D), ps.flatMap (fun q => commaSep (particleFields pr q) ++ ['\n']) = (ps.map (particleFields pr)).flatMap (fun l => commaSep l ++ ['\n']) := by
    intro ps; rw [List.flatMap_map]
  simp only [e, this]

end

section
variable {K : Type} [Field K] [LinearOrder K] [IsStrictOrderedRing K] [FloorRing K] {D : Nat}

/-- One particle. -/
theorem particle_read_back {st : Strtod K} {ε : K} (hε : ε ≤ 1 / 10000000) (hrd : ∀ x, |st.rd x - x| ≤ ε * |x|) {q : Particle K D} (h : ParticleInRange st q) :
    ∃ q' : Particle K D, ParticleClose (1 / 200000 + 2 * ε) q q' ∧
      (q'.ty = q.ty ∧ (∀ a, stod st (numChars (q.x a)) = some (q'.x a)) ∧ (∀ a, stod st (numChars (q.u a)) = some (q'.u a)) ∧
        stod st (numChars q.p) = some q'.p ∧ stod st (numChars q.n) = some q'.n) ∧
      (q'.ty = q.ty ∧ (∀ a, numChars (q'.x a) = numChars (q.x a)) ∧ (∀ a, numChars (q'.u a) = numChars (q.u a)) ∧
        numChars q'.p = numChars q.p ∧ numChars q'.n = numChars q.n) := by
  obtain ⟨hx, hu, hp, hn⟩ := h
  choose x x1 x2 x3 using fun a => stod_numChars hε hrd (hx a)
  choose u u1 u2 u3 using fun a => stod_numChars hε hrd (hu a)
  obtain ⟨p, p1, p2, p3⟩ := stod_numChars hε hrd hp
  obtain ⟨n, n1, n2, n3⟩ := stod_numChars hε hrd hn
  exact ⟨{ x := x, u := u, p := p, n := n, ty := q.ty }, ⟨rfl, x2, u2, p2, n2⟩, ⟨rfl, x1, u1, p1, n1⟩, rfl, x3, u3, p3, n3⟩

/-- **C53.**  Reading a file that the program wrote gives the same particles in the same order with the same types, every number within `5 * 10^-6` (plus twice the precision `ε` of doubles) of what
it was; and writing them again gives the same text.  `st` is the conversion of decimal numbers to doubles; the numbers must not be at the limits of the range of doubles. -/
theorem C53_files_keep_six_digits (hD : D = 2 ∨ D = 3) {st : Strtod K} {ε : K} (hε : ε ≤ 1 / 10000000) (hrd : ∀ x, |st.rd x - x| ≤ ε * |x|)
    (ps : List (Particle K D)) (hty : ∀ q ∈ ps, ∃ k, q.ty = typeOfNumber k) (hr : ∀ q ∈ ps, ParticleInRange st q) :
    ∃ ps', inputFromCsv (libConv st) (outputToCsv libPrinter ps) = .ok ps' ∧ List.Forall₂ (ParticleClose (1 / 200000 + 2 * ε)) ps ps' ∧
      outputToCsv libPrinter ps' = outputToCsv libPrinter ps := by
  have key : ∀ ps : List (Particle K D), (∀ q ∈ ps, ParticleInRange st q) → ∃ ps' : List (Particle K D), List.Forall₂ (ParticleClose (1 / 200000 + 2 * ε)) ps ps' ∧
      List.Forall₂ (fun q q' => q'.ty = q.ty ∧ (∀ a, stod st (numChars (q.x a)) = some (q'.x a)) ∧ (∀ a, stod st (numChars (q.u a)) = some (q'.u a)) ∧
        stod st (numChars q.p) = some q'.p ∧ stod st (numChars q.n) = some q'.n) ps ps' ∧
      List.Forall₂ (fun q q' => q'.ty = q.ty ∧ (∀ a, numChars (q'.x a) = numChars (q.x a)) ∧ (∀ a, numChars (q'.u a) = numChars (q.u a)) ∧
        numChars q'.p = numChars q.p ∧ numChars q'.n = numChars q.n) ps ps' := by
    intro ps
    induction ps with
    | nil => exact fun _ => ⟨[], .nil, .nil, .nil⟩
    | cons q ps ih =>
      intro hr
      obtain ⟨ps', i1, i2, i3⟩ := ih (fun q' hq' => hr q' (by simp [hq']))
      obtain ⟨q', j1, j2, j3⟩ := particle_read_back hε hrd (hr q (by simp))
      exact ⟨q' :: ps', .cons j1 i1, .cons j2 i2, .cons j3 i3⟩
  obtain ⟨ps', k1, k2, k3⟩ := key ps hr
  refine ⟨ps', ?_, k1, output_congr k3⟩
  refine file_read_back hD libPrinter_clean stoi_intChars (fun q hq => ?_) k2
  obtain ⟨k, hk⟩ := hty q hq
  exact ⟨k, by rw [hk, ofInt_eq]⟩

end

/-! ## Restarts -/

section
variable {F : Type} [Scalar F] {D : Nat}

/-- The types after any number of steps are types that a file can hold. -/
theorem run_types {cfg : Config} {cv : Conv F} {sch : Nat → Schedule} {cond : Condition F} {a : EnvArgs F D} {m : Nat} {csv : List Char}
    {P : Params F D Unit} {s0 s : State F D Unit} (h : mainStart cfg cv cond a m csv P s0) (hv : ∀ k, (sch k).Valid s0.n) {it : Nat}
    (hs : s0.afterSteps P sch it = .ok s) : ∀ q ∈ s.particles, ∃ k, q.ty = PType.ofInt k := by
  have hst := h
  obtain ⟨env, ps, n0, e1, e2, e3, rfl, rfl⟩ := h
  obtain ⟨hp, -, hn⟩ := mainStart_ps hst e2
  obtain ⟨⟨dts', hist'⟩, hsn⟩ := afterSteps_hist (s1 := n0.addParticles ps) ⟨[], .start⟩ hv it s hs
  intro q hq
  simp only [State.particles, List.mem_map, List.mem_range] at hq
  obtain ⟨i, hi, rfl⟩ := hq
  rcases (C10_type_only_changes_to_disabled hist' i (by omega)).1 with k | k
  · rw [k]
    refine input_types e2 _ ?_
    have : (n0.addParticles ps).ps i ∈ (n0.addParticles ps).particles := List.mem_map.2 ⟨i, List.mem_range.2 (by omega), rfl⟩
    rwa [hp] at this
  · exact ⟨3, k⟩

theorem outerLoop_prefix (P : Params F D Unit) (sch : Nat → Schedule) (pr : Printer F) (cond : Condition F) (offset fuel : Nat) :
    ∀ (m k : Nat) (nextT : F) (s : State F D Unit) (it : Nat) (outs : List (OutRec F)),
      ∃ l, (outerLoop P sch pr cond offset fuel m k nextT s it outs).outs = outs ++ l
  | 0, _, _, _, _, outs => ⟨[], by simp [outerLoop]⟩
  | m + 1, k, nextT, s, it, outs => by
    unfold outerLoop
    simp only
    split
    · obtain ⟨l, hl⟩ := outerLoop_prefix P sch pr cond offset fuel m (k + 1) (nextT + cond.outputInterval) _ _ (outs ++ [_])
      exact ⟨_, by rw [hl, List.append_assoc]⟩
    all_goals exact ⟨[], by simp⟩

end

/-- **C53.**  The program started again with one of its files begins by writing the same file again, character for character. -/
theorem C53_restart_begins_with_the_same_file {D : Nat} (hD : D = 2 ∨ D = 3) {st : Strtod ℝ} {ε : ℝ} (hε : ε ≤ 1 / 10000000) (hrd : ∀ x, |st.rd x - x| ≤ ε * |x|)
    {cfg : Config} {sch sch' : Nat → Schedule} {cond cond' : Condition ℝ} {a : EnvArgs ℝ D} {m : Nat} {csv : List Char} {P : Params ℝ D Unit}
    {s0 : State ℝ D Unit} (h : mainStart cfg (libConv st) cond a m csv P s0) (hv : ∀ k, (sch k).Valid s0.n) (hI : cond'.outputInterval = cond.outputInterval)
    (hI0 : 0 < cond.outputInterval) (hst : 0 ≤ cond.startTime) (hse : cond.startTime ≤ cond.endTime) (hst' : 0 ≤ cond'.startTime) {fuel : Nat}
    {rec : OutRec ℝ} (hrec : rec ∈ (mainProgram cfg (libConv st) libPrinter sch cond a m csv fuel).outs)
    (hr : ∀ s, s0.afterSteps P sch rec.iteration = .ok s → ∀ q ∈ s.particles, ParticleInRange st q) (fuel' : Nat) :
    ∃ rec', (mainProgram cfg (libConv st) libPrinter sch' cond' a m rec.text fuel').outs[0]? = some rec' ∧ rec'.text = rec.text ∧ rec'.count = rec.count ∧
      rec'.time = cond'.startTime := by
  have h1 := toSize_real (div_nonneg hst hI0.le)
  have h2 := toSize_real (div_nonneg (sub_nonneg.2 hse) hI0.le)
  have h1' := toSize_real (div_nonneg hst' (le_of_lt (hI ▸ hI0 : 0 < cond'.outputInterval)))
  obtain ⟨k, hk, rfl⟩ := List.getElem_of_mem hrec
  obtain ⟨-, -, s, hs, htext, hcnt⟩ := C33_written_files_are_in_place h h1 h2 fuel (List.getElem?_eq_getElem hk)
  generalize (mainProgram cfg (libConv st) libPrinter sch cond a m csv fuel).outs[k] = rec at *
  have hty := run_types h hv hs
  obtain ⟨ps', e1, e2, e3⟩ := C53_files_keep_six_digits hD hε hrd s.particles (fun q hq => by
    obtain ⟨k, hk⟩ := hty q hq
    exact ⟨k, by rw [hk, ofInt_eq]⟩) (hr s hs)
  obtain ⟨env, ps, n0, f1, f2, f3, rfl, rfl⟩ := h
  have hps : (n0.addParticles ps').particles = ps' := by
    rw [C09_add_appends]; simp [State.particles, new_n f3]
  have hcount : enabledCount ps' = enabledCount s.particles := by
    clear e1 e3 hty htext hr hcnt hps
    generalize s.particles = l at e2
    unfold enabledCount
    induction e2 with
    | nil => rfl
    | cons hq _ ih =>
      simp only [List.filter_cons, hq.ty]
      split
      · simp only [List.length_cons, ih]
      · exact ih
  unfold mainProgram
  rw [hI, f1, htext]
  simp only
  rw [e1]
  simp only
  rw [f3]
  simp only
  unfold runLoop
  rw [h1']
  simp only
  have fin : ∀ (l : List (OutRec ℝ)), (([mkOut libPrinter ⌈cond'.startTime / cond'.outputInterval⌉₊ cond'.startTime 0 (n0.addParticles ps')] ++ l : List (OutRec ℝ)))[0]? =
      some (mkOut libPrinter ⌈cond'.startTime / cond'.outputInterval⌉₊ cond'.startTime 0 (n0.addParticles ps')) := fun l => rfl
  refine ⟨mkOut libPrinter ⌈cond'.startTime / cond'.outputInterval⌉₊ cond'.startTime 0 (n0.addParticles ps'), ?_, ?_, ?_, rfl⟩
  · cases toSize ((cond'.endTime - cond'.startTime) / cond'.outputInterval) with
    | none => rfl
    | some e =>
      simp only
      obtain ⟨l, hl⟩ := outerLoop_prefix _ sch' libPrinter cond' _ fuel' e 1 (0 : ℝ) (n0.addParticles ps') 0 _
      rw [hl]
      exact fin l
  · show outputToCsv libPrinter (n0.addParticles ps').particles = _
    rw [hps, e3]
  · show enabledCount (n0.addParticles ps').particles = _
    rw [hps, hcount, hcnt, enabledCount_particles]

/-! ## Names of files -/

theorem digits_lex : ∀ {l r : List Nat}, (∀ d ∈ l, d < 10) → (∀ d ∈ r, d < 10) → l.length = r.length → natOf l < natOf r → ∀ t : List Char,
    l.map digitChar ++ t < r.map digitChar ++ t
  | [], [], _, _, _, h, _ => by simp at h
  | a :: l, b :: r, hl, hr, hlen, h, t => by
    simp only [List.length_cons, Nat.add_right_cancel_iff] at hlen
    rw [natOf_cons, natOf_cons, hlen] at h
    have h1 : natOf l < 10 ^ r.length := hlen ▸ natOf_lt (fun d hd => hl d (by simp [hd]))
    have h2 : natOf r < 10 ^ r.length := natOf_lt (fun d hd => hr d (by simp [hd]))
    rcases Nat.lt_trichotomy a b with hab | hab | hab
    · refine List.Lex.rel ?_
      have hb := hr b (by simp)
      interval_cases b <;> interval_cases a <;> decide
    · subst hab
      refine List.Lex.cons ?_
      exact digits_lex (fun d hd => hl d (by simp [hd])) (fun d hd => hr d (by simp [hd])) hlen (by omega) t
    · exfalso
      have : (b + 1) * 10 ^ r.length ≤ a * 10 ^ r.length := Nat.mul_le_mul_right _ hab
      rw [Nat.add_mul, Nat.one_mul] at this
      omega

theorem natOf_of_text {l r : List Nat} (hl : ∀ d ∈ l, d < 10) (hr : ∀ d ∈ r, d < 10) (h : l.map digitChar = r.map digitChar) : l = r := by
  have e1 := spanDigits_map hl noDigit_nil
  have e2 := spanDigits_map hr noDigit_nil
  rw [h] at e1
  rw [e1] at e2
  exact congrArg Prod.fst e2

/-- **C54.**  Different outputs have different file names. -/
theorem C54_file_names_differ {a b : Nat} (h : fileName a = fileName b) : a = b := by
  unfold fileName at h
  rw [List.append_assoc, List.append_assoc] at h
  have h := List.append_cancel_right (List.append_cancel_left h)
  obtain ⟨l, l1, l2, l3, -⟩ := padZeros_spec 5 a
  obtain ⟨r, r1, r2, r3, -⟩ := padZeros_spec 5 b
  rw [l1, r1] at h
  rw [← l3, ← r3, natOf_of_text l2 r2 h]

theorem prefix_lex (p : List Char) {l r : List Char} (h : l < r) : p ++ l < p ++ r := by
  induction p with
  | nil => exact h
  | cons a p ih => exact List.Lex.cons ih

/-- **C54.**  The names of the first 100000 files are in alphabetical order.  -/
theorem C54_file_names_are_in_order {a b : Nat} (hab : a < b) (hb : b < 100000) : fileName a < fileName b := by
  obtain ⟨l, l1, l2, l3, -, l5⟩ := padZeros_spec 5 a
  obtain ⟨r, r1, r2, r3, -, r5⟩ := padZeros_spec 5 b
  unfold fileName
  rw [l1, r1, List.append_assoc, List.append_assoc]
  exact prefix_lex _ (digits_lex l2 r2 (by rw [l5 (by omega) (by omega), r5 (by omega) (by omega)]) (by rw [l3, r3]; exact hab) _)

/-- Beyond that they are not. -/
example : fileName 100000 < fileName 99999 := by decide +kernel

example : fileName 0 = "result/particles_00000.csv".toList ∧ fileName 123 = "result/particles_00123.csv".toList ∧
    fileName 1234567 = "result/particles_1234567.csv".toList := by decide +kernel

/-- **C54.**  No run writes one of its files twice: whenever the program ends, each file holds what was written to it with its number. -/
theorem C54_no_file_is_overwritten {F : Type} [Scalar F] {D : Nat} {cfg : Config} {cv : Conv F} {pr : Printer F} {sch : Nat → Schedule} {cond : Condition F} {a : EnvArgs F D}
    {m : Nat} {csv : List Char} {fuel : Nat} {rec : OutRec F} (hrec : rec ∈ (mainProgram cfg cv pr sch cond a m csv fuel).outs) :
    contentOf (mainProgram cfg cv pr sch cond a m csv fuel).outs (fileName rec.number) = some rec.text := by
  obtain ⟨P, s0, offset, hs, h1⟩ := mainProgram_outs (List.ne_nil_of_mem hrec)
  have key : ∀ (k : Nat) (r : OutRec F), (mainProgram cfg cv pr sch cond a m csv fuel).outs[k]? = some r → r.number = offset + k := by
    intro k r hr
    cases h2 : toSize ((cond.endTime - cond.startTime) / cond.outputInterval) with
    | some e => exact (C33_written_files_are_in_place hs h1 h2 fuel hr).1
    | none =>
      rw [mainProgram_start hs] at hr
      unfold runLoop at hr
      rw [h1, h2] at hr
      cases k with
      | zero => cases hr; rfl
      | succ k => cases hr
  generalize (mainProgram cfg cv pr sch cond a m csv fuel).outs = outs at *
  unfold contentOf
  have hmem : rec ∈ outs.filter (fun r => fileName r.number == fileName rec.number) := List.mem_filter.2 ⟨hrec, by simp⟩
  have hne := List.ne_nil_of_mem hmem
  rw [List.getLast?_eq_some_getLast hne, Option.map_some]
  have hl := List.getLast_mem hne
  obtain ⟨hl1, hl2⟩ := List.mem_filter.1 hl
  generalize (outs.filter _).getLast hne = last at *
  obtain ⟨k, hk, e1⟩ := List.getElem_of_mem hrec
  obtain ⟨j, hj, e2⟩ := List.getElem_of_mem hl1
  have n1 := key k rec (by rw [List.getElem?_eq_getElem hk, e1])
  have n2 := key j last (by rw [List.getElem?_eq_getElem hj, e2])
  have n3 := C54_file_names_differ (beq_iff_eq.1 hl2)
  have : j = k := by omega
  subst this
  rw [← e1, ← e2]

end OpenMps
