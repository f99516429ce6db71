import Verif.Spec.XmlText
import Verif.Lemmas.Xml
import Verif.Lemmas.Text

namespace OpenMps

/-! ## Spans -/

/-- The text is at its end or goes on with a character without `p`. -/
def Stops (p : Char → Bool) (r : List Char) : Prop := ∀ c, r.head? = some c → p c = false

theorem span_stop {p : Char → Bool} {a r : List Char} (ha : ∀ c ∈ a, p c = true) (hr : Stops p r) :
    (a ++ r).takeWhile p = a ∧ (a ++ r).dropWhile p = r := by
  induction a with
  | nil =>
    cases r with
    | nil => exact ⟨rfl, rfl⟩
    | cons c r' => have := hr c rfl; simp [this]
  | cons c a ih =>
    have h1 := ha c (by simp)
    obtain ⟨h2, h3⟩ := ih (fun d hd => ha d (by simp [hd]))
    simp [h1, h2, h3]

theorem stops_cons {p : Char → Bool} {c : Char} {r : List Char} (h : p c = false) : Stops p (c :: r) := by
  intro d hd
  simp only [List.head?_cons, Option.some.injEq] at hd
  rw [← hd]; exact h

theorem span_ext {p : Char → Bool} {s u : List Char} (h : s.dropWhile p ≠ []) :
    (s ++ u).takeWhile p = s.takeWhile p ∧ (s ++ u).dropWhile p = s.dropWhile p ++ u := by
  induction s with
  | nil => exact absurd rfl h
  | cons c s ih =>
    by_cases hc : p c
    · simp only [List.dropWhile_cons, hc, if_true] at h
      obtain ⟨h1, h2⟩ := ih h
      simp [hc, h1, h2]
    · simp [hc]

theorem blank_isBlank {w : List Char} (h : Blank w) : ∀ c ∈ w, isBlank c = true := by
  intro c hc
  have := h c hc
  simp only [List.mem_cons, List.not_mem_nil, or_false] at this
  rcases this with rfl | rfl | rfl | rfl <;> decide

theorem not_blank {w : List Char} (h : ¬ Blank w) : ∃ c ∈ w, isBlank c = false := by
  unfold Blank at h
  push Not at h
  obtain ⟨c, hc, hn⟩ := h
  refine ⟨c, hc, ?_⟩
  simp only [List.mem_cons, List.not_mem_nil, or_false, not_or] at hn
  simp [isBlank, hn]

theorem skipBlank_stop {w r : List Char} (hw : Blank w) (hr : Stops isBlank r) : skipBlank (w ++ r) = r := (span_stop (blank_isBlank hw) hr).2

theorem skipBlank_id {r : List Char} (hr : Stops isBlank r) : skipBlank r = r := skipBlank_stop (w := []) (by simp [Blank]) hr

theorem skipBlank_ext {s u : List Char} (h : skipBlank s ≠ []) : skipBlank (s ++ u) = skipBlank s ++ u := (span_ext h).2

theorem length_dropWhile_le (p : Char → Bool) (s : List Char) : (s.dropWhile p).length ≤ s.length :=
  (List.dropWhile_suffix p).length_le

theorem nameText_chars : " \n\r\t/<>=?!&'\"".toList = [' ', '\n', '\r', '\t', '/', '<', '>', '=', '?', '!', '&', '\'', '"'] := by decide

theorem name_isNodeName {n : List Char} (h : NameText n) : ∀ c ∈ n, isNodeName c = true := by
  intro c hc
  have := h.2 c hc
  rw [nameText_chars] at this
  simp only [List.mem_cons, not_or] at this
  simp [isNodeName, isBlank, this]

theorem name_isAttrName {n : List Char} (h : NameText n) : ∀ c ∈ n, isAttrName c = true := by
  intro c hc
  have := h.2 c hc
  rw [nameText_chars] at this
  simp only [List.mem_cons, not_or] at this
  simp [isAttrName, isBlank, this]

/-! ## Searching for a terminator -/

theorem cutAt_spec {init s r : List Char} (hi : '>' ∉ init) (h : ¬ (init ++ ['>']) <:+: s) : cutAt (init ++ ['>']) (s ++ (init ++ ['>']) ++ r) = some (s, r) := by
  induction s with
  | nil =>
    have hp : (init ++ ['>']) <+: (init ++ ['>']) ++ r := List.prefix_append ..
    obtain ⟨c, t, e⟩ : ∃ c t, (init ++ ['>']) ++ r = c :: t := by cases init <;> simp
    rw [List.nil_append, e, cutAt, ← e, if_pos (List.isPrefixOf_iff_prefix.2 hp)]
    simp
  | cons c s ih =>
    have h1 : ¬ (init ++ ['>']) <:+: s := fun hh => h (hh.trans (List.suffix_cons c s).isInfix)
    have h2 : ¬ (init ++ ['>']).isPrefixOf (c :: (s ++ (init ++ ['>']) ++ r)) = true := by
      rw [List.isPrefixOf_iff_prefix]
      intro hp
      have hp' : (init ++ ['>']) <+: (c :: s) ++ ((init ++ ['>']) ++ r) := by simpa using hp
      rcases List.prefix_or_prefix_of_prefix hp' (List.prefix_append (c :: s) _) with h3 | h3
      · exact h h3.isInfix
      · obtain ⟨t, ht⟩ := h3
        have h4 : t <+: (init ++ ['>']) ++ r := by
          refine (List.prefix_append_right_inj (c :: s)).1 ?_
          rw [ht]; exact hp'
        have hlen : t.length + (s.length + 1) = init.length + 1 := by
          have := congrArg List.length ht
          simp only [List.length_append, List.length_cons, List.length_nil] at this
          omega
        have h5 : t <+: init := by
          refine List.prefix_of_prefix_length_le (l₃ := (init ++ ['>']) ++ r) h4 ?_ (by omega)
          rw [List.append_assoc]; exact List.prefix_append ..
        rcases List.eq_nil_or_concat t with rfl | ⟨t', a, rfl⟩
        · rw [List.append_nil] at ht
          exact h (by rw [ht])
        · have : a = '>' := by
            have hh := congrArg List.getLast? ht
            simpa [List.getLast?_append, List.getLast?_cons] using hh
          subst this
          exact hi (h5.subset (by simp))
    have e : (c :: s) ++ (init ++ ['>']) ++ r = c :: (s ++ (init ++ ['>']) ++ r) := by simp
    rw [e, cutAt, if_neg h2, ih h1]
    rfl

theorem cutAt_length {pat : List Char} : ∀ {s a b : List Char}, cutAt pat s = some (a, b) → b.length + pat.length ≤ s.length
  | [], a, b, h => by
    rw [cutAt] at h
    split at h
    · rename_i hp
      simp only [List.isEmpty_iff] at hp
      simp only [Option.some.injEq, Prod.mk.injEq] at h
      simp [← h.2, hp]
    · cases h
  | c :: s, a, b, h => by
    rw [cutAt] at h
    split at h
    · rename_i hp
      have := (List.isPrefixOf_iff_prefix.1 hp).length_le
      simp only [Option.some.injEq, Prod.mk.injEq] at h
      rw [← h.2, List.length_drop]
      omega
    · cases h1 : cutAt pat s with
      | none => rw [h1] at h; cases h
      | some p =>
        rw [h1] at h
        have := cutAt_length h1
        simp only [Option.map_some, Option.some.injEq, Prod.mk.injEq] at h
        rw [← h.2, List.length_cons]
        omega

theorem cutAt_ext {pat : List Char} (hp : pat ≠ []) (u : List Char) : ∀ {s a b : List Char}, cutAt pat s = some (a, b) → cutAt pat (s ++ u) = some (a, b ++ u)
  | [], a, b, h => by
    rw [cutAt] at h
    simp [hp] at h
  | c :: s, a, b, h => by
    rw [cutAt] at h
    rw [List.cons_append, cutAt]
    split at h
    · rename_i h1
      have h2 := List.isPrefixOf_iff_prefix.1 h1
      rw [if_pos (List.isPrefixOf_iff_prefix.2 (h2.trans (by rw [← List.cons_append]; exact List.prefix_append ..)))]
      simp only [Option.some.injEq, Prod.mk.injEq] at h
      rw [← h.1, ← h.2, ← List.cons_append, List.drop_append_of_le_length h2.length_le]
    · rename_i h1
      cases h3 : cutAt pat s with
      | none => rw [h3] at h; cases h
      | some p =>
        rw [h3] at h
        have h4 := cutAt_length h3
        have h5 : ¬ pat.isPrefixOf (c :: (s ++ u)) = true := by
          intro h6
          have h7 := List.isPrefixOf_iff_prefix.1 h6
          refine h1 (List.isPrefixOf_iff_prefix.2 (List.prefix_of_prefix_length_le h7 (l₂ := c :: s) ?_ ?_))
          · rw [← List.cons_append]; exact List.prefix_append ..
          · rw [List.length_cons]; omega
        rw [if_neg h5, cutAt_ext hp u h3]
        simp only [Option.map_some, Option.some.injEq, Prod.mk.injEq] at h ⊢
        rw [← h.1, ← h.2]
        exact ⟨rfl, rfl⟩

theorem skipDoctype_length : ∀ {s : List Char} {d : Nat} {t : List Char}, skipDoctype d s = some t → t.length < s.length
  | [], d, t, h => by simp [skipDoctype] at h
  | c :: r, d, t, h => by
    rw [skipDoctype] at h
    split at h
    · have := skipDoctype_length h; simp only [List.length_cons]; omega
    · split at h
      · have := skipDoctype_length h; simp only [List.length_cons]; omega
      · split at h
        · simp only [Option.some.injEq] at h; simp [← h]
        · have := skipDoctype_length h; simp only [List.length_cons]; omega

theorem skipDoctype_ext (u : List Char) : ∀ {s : List Char} {d : Nat} {t : List Char}, skipDoctype d s = some t → skipDoctype d (s ++ u) = some (t ++ u)
  | [], d, t, h => by simp [skipDoctype] at h
  | c :: r, d, t, h => by
    rw [skipDoctype] at h
    rw [List.cons_append, skipDoctype]
    split at h
    · rename_i h1; rw [if_pos h1]; exact skipDoctype_ext u h
    · rename_i h1
      rw [if_neg h1]
      split at h
      · rename_i h2; rw [if_pos h2]; exact skipDoctype_ext u h
      · rename_i h2
        rw [if_neg h2]
        split at h
        · rename_i h3; rw [if_pos h3]; simp only [Option.some.injEq] at h; rw [h]
        · rename_i h3; rw [if_neg h3]; exact skipDoctype_ext u h

theorem skipDoctype_spec {s r : List Char} (h : ∀ c ∈ s, c ∉ ['[', ']', '>']) : skipDoctype 0 (s ++ '>' :: r) = some r := by
  induction s with
  | nil => simp [skipDoctype]
  | cons c s ih =>
    have hc := h c (by simp)
    simp only [List.mem_cons, List.not_mem_nil, or_false, not_or] at hc
    rw [List.cons_append, skipDoctype]
    simp [hc, ih (fun d hd => h d (by simp [hd]))]

/-! ## References -/

theorem numericRef_length {base : Nat} {s r : List Char} {c : Char} (h : numericRef base s = some (c, r)) : r.length < s.length := by
  unfold numericRef at h
  simp only at h
  split at h
  · rename_i r' h1
    split at h
    · simp only [Option.some.injEq, Prod.mk.injEq] at h
      have := length_dropWhile_le (fun c => (hexValue c).isSome) s
      rw [h1, h.2, List.length_cons] at this
      omega
    · cases h
  · cases h

theorem decodeStep_length {s r : List Char} {c : Char} (h : decodeStep s = some (c, r)) : r.length < s.length := by
  unfold decodeStep at h
  split at h
  · cases h
  · rename_i t
    have key : ∀ n, (t.drop n).length < ('&' :: t).length := by intro n; simp only [List.length_drop, List.length_cons]; omega
    split_ifs at h
    all_goals first
      | (simp only [Option.some.injEq, Prod.mk.injEq] at h; rw [← h.2]; first | exact key _ | simp)
      | (have := numericRef_length h; simp only [List.length_drop, List.length_cons] at this ⊢; omega)
  · simp only [Option.some.injEq, Prod.mk.injEq] at h
    rw [← h.2]; simp

theorem decode_fuel : ∀ {n m : Nat} {s : List Char}, s.length ≤ n → s.length ≤ m → decode n s = decode m s
  | n, m, [], _, _ => by rw [decode, decode]
  | n + 1, m + 1, c :: s, h1, h2 => by
    rw [decode, decode]
    · cases h : decodeStep (c :: s) with
      | none => rfl
      | some p =>
        have := decodeStep_length h
        simp only [List.length_cons] at this h1 h2
        simp only
        rw [decode_fuel (n := n) (m := m) (by omega) (by omega)]
    all_goals simp
  | 0, _, c :: s, h1, _ => by simp at h1
  | _, 0, c :: s, _, h2 => by simp at h2

theorem foldl_digits (b : Nat) (ds : List Nat) : ds.foldl (fun a d => b * a + d) 0 = Nat.ofDigits b ds.reverse := by
  induction ds using List.reverseRecOn with
  | nil => rfl
  | append_singleton l d ih => rw [List.foldl_append, ih]; simp [Nat.ofDigits_cons]; ring

theorem hexValue_digitChar {d : Nat} (h : d < 16) : hexValue (Nat.digitChar d) = some d := by
  have : ∀ e : Fin 16, hexValue (Nat.digitChar e.val) = some e.val := by decide
  exact this ⟨d, h⟩

theorem numericRef_spec {base : Nat} {ds : List Nat} {c : Char} (hd : ∀ d ∈ ds, d < 16) (hc : Nat.ofDigits base ds.reverse = c.toNat) (r : List Char) :
    numericRef base (ds.map Nat.digitChar ++ ';' :: r) = some (c, r) := by
  have h1 : ∀ x ∈ ds.map Nat.digitChar, (hexValue x).isSome = true := by
    intro x hx
    obtain ⟨d, hm, rfl⟩ := List.mem_map.1 hx
    rw [hexValue_digitChar (hd d hm)]; rfl
  obtain ⟨h2, h3⟩ := span_stop (p := fun c => (hexValue c).isSome) (r := ';' :: r) h1 (stops_cons (by decide))
  have h4 : (ds.map Nat.digitChar).map (fun c => (hexValue c).getD 0) = ds := by
    rw [List.map_map]
    conv_rhs => rw [← List.map_id ds]
    refine List.map_congr_left (fun d hm => ?_)
    simp [hexValue_digitChar (hd d hm)]
  unfold numericRef
  simp only [h2, h3, h4]
  rw [foldl_digits, hc, if_pos, Char.ofNat_toNat]
  have := c.valid
  rcases this with h | h
  · exact lt_trans h (by decide)
  · exact h.2

theorem decodeStep_spec {c : Char} {t : List Char} (h : CharText c t) (r : List Char) : decodeStep (t ++ r) = some (c, r) := by
  cases h with
  | self _ h =>
    rw [List.singleton_append, decodeStep]
    intro e
    exact h e
  | amp => rfl
  | apos => rfl
  | quot => rfl
  | gt => rfl
  | lt => rfl
  | decimal _ ds hne hd hc =>
    obtain ⟨d, ds', rfl⟩ := List.exists_cons_of_ne_nil hne
    have e : "&#".toList ++ (d :: ds').map Nat.digitChar ++ [';'] ++ r = '&' :: '#' :: ((d :: ds').map Nat.digitChar ++ ';' :: r) := by simp
    rw [e, decodeStep]
    rw [if_neg (by simp), if_neg (by simp), if_neg (by simp), if_neg (by simp), if_neg (by simp), if_neg (by simp), if_pos (by simp)]
    exact numericRef_spec (fun x hm => lt_trans (hd x hm) (by decide)) hc r
  | hexadecimal _ ds hne hd hc =>
    have e : "&#x".toList ++ ds.map Nat.digitChar ++ [';'] ++ r = '&' :: '#' :: 'x' :: (ds.map Nat.digitChar ++ ';' :: r) := by simp
    rw [e, decodeStep]
    rw [if_neg (by simp), if_neg (by simp), if_neg (by simp), if_neg (by simp), if_neg (by simp), if_pos (by simp)]
    exact numericRef_spec hd hc r

theorem charText_ne {c : Char} {t : List Char} (h : CharText c t) : t ≠ [] := by
  cases h <;> simp

theorem decode_spec {q : Char} {s t : List Char} (h : EncText q s t) : ∀ {n : Nat}, t.length ≤ n → decode n t = some s := by
  induction h with
  | nil => intro n _; rw [decode]
  | cons hc _ _ ih =>
    rename_i c t' s' r
    intro n hn
    obtain ⟨x, t1, rfl⟩ := List.exists_cons_of_ne_nil (charText_ne hc)
    simp only [List.length_append, List.length_cons] at hn
    obtain ⟨k, rfl⟩ : ∃ k, n = k + 1 := ⟨n - 1, by omega⟩
    rw [List.cons_append, decode]
    · rw [← List.cons_append, decodeStep_spec hc]
      simp only
      rw [ih (by omega)]
      rfl
    all_goals simp

theorem enc_avoids {q : Char} {s t : List Char} (h : EncText q s t) : q ∉ t := by
  induction h with
  | nil => simp
  | cons _ h1 _ ih => simp [h1, ih]

theorem takeWhile_ne {q : Char} {t r : List Char} (h : q ∉ t) :
    (t ++ q :: r).takeWhile (fun c => c != q) = t ∧ (t ++ q :: r).dropWhile (fun c => c != q) = q :: r := by
  refine span_stop (fun c hc => ?_) (stops_cons (by simp))
  simp only [bne_iff_ne, ne_eq]
  rintro rfl
  exact h hc

/-! ## Attributes -/

theorem parseAttrs_none {s : List Char} (h : s.takeWhile isAttrName = []) (n : Nat) : parseAttrs n s = some ([], s) := by
  cases n <;> simp [parseAttrs, h]

theorem stops_name {p : Char → Bool} {n r : List Char} (h : NameText n) (hp : ∀ c ∈ n, p c = false) : Stops p (n ++ r) := by
  obtain ⟨c, n', rfl⟩ := List.exists_cons_of_ne_nil h.1
  exact stops_cons (hp c (by simp))

theorem name_not_blank {n : List Char} (h : NameText n) : ∀ c ∈ n, isBlank c = false := by
  intro c hc
  have := name_isNodeName h c hc
  simp only [isNodeName, Bool.not_eq_true', Bool.or_eq_false_iff] at this
  exact this.1.1.1

theorem blank_stops {p : Char → Bool} (hp : ∀ c, isBlank c = true → p c = false) {w r : List Char} (hw : Blank w) (hr : Stops p r) : Stops p (w ++ r) := by
  cases w with
  | nil => exact hr
  | cons c w => exact stops_cons (hp c (blank_isBlank hw c (by simp)))

theorem parseAttrs_spec {as : List (String × List Char)} {t : List Char} (h : AttrsText as t) {w tail : List Char} (hw : Blank w)
    (ht : ∃ c r, tail = c :: r ∧ (c = '>' ∨ c = '/')) :
    ∀ {n : Nat}, (t ++ (w ++ tail)).length ≤ n → parseAttrs n (skipBlank (t ++ (w ++ tail))) = some (as, tail) := by
  obtain ⟨c0, r0, rfl, hc0⟩ := ht
  have hs : Stops isBlank (c0 :: r0) := stops_cons (by rcases hc0 with rfl | rfl <;> decide)
  induction h with
  | nil =>
    intro n _
    rw [List.nil_append, skipBlank_stop hw hs]
    refine parseAttrs_none ?_ n
    rcases hc0 with rfl | rfl <;> simp [isAttrName]
  | cons hne hw0 hnm hw1 hw2 hq henc _ ih =>
    rename_i w0 n w1 w2 v t r q as _
    intro k hk
    have e : w0 ++ n ++ w1 ++ ['='] ++ w2 ++ [q] ++ t ++ [q] ++ r ++ (w ++ c0 :: r0) =
        w0 ++ (n ++ (w1 ++ '=' :: (w2 ++ q :: (t ++ q :: (r ++ (w ++ c0 :: r0)))))) := by simp
    rw [e] at hk ⊢
    simp only [List.length_append, List.length_cons] at hk
    obtain ⟨k, rfl⟩ : ∃ j, k = j + 1 := ⟨k - 1, by omega⟩
    rw [skipBlank_stop hw0 (stops_name hnm (name_not_blank hnm))]
    obtain ⟨h1, h2⟩ := span_stop (p := isAttrName) (r := w1 ++ '=' :: (w2 ++ q :: (t ++ q :: (r ++ (w ++ c0 :: r0))))) (name_isAttrName hnm)
      (blank_stops (fun c hc => by simp [isAttrName, hc]) hw1 (stops_cons (by decide)))
    obtain ⟨h3, h4⟩ := takeWhile_ne (r := r ++ (w ++ c0 :: r0)) (enc_avoids henc)
    have hq1 : isBlank q = false := by rcases hq with rfl | rfl <;> decide
    have hq2 : (q == '"' || q == '\'') = true := by rcases hq with rfl | rfl <;> decide
    rw [parseAttrs, h1, h2, if_neg (by simpa using hnm.1), skipBlank_stop hw1 (stops_cons (by decide))]
    simp only
    rw [skipBlank_stop hw2 (stops_cons hq1)]
    simp only [hq2, if_true, h3, h4]
    rw [decode_spec henc (by simp), ih (by simp only [List.length_append, List.length_cons]; omega)]

theorem skipBlank_length (s : List Char) : (skipBlank s).length ≤ s.length := length_dropWhile_le _ _

theorem parseAttrs_fuel : ∀ {n m : Nat} {s : List Char}, s.length ≤ n → s.length ≤ m → parseAttrs n s = parseAttrs m s
  | n, m, [], _, _ => by rw [parseAttrs_none rfl, parseAttrs_none rfl]
  | n + 1, m + 1, c :: s, h1, h2 => by
    rw [parseAttrs, parseAttrs]
    split
    · rfl
    · split
      · rename_i t ht
        split
        · rename_i q u hu
          split
          · split
            · rfl
            · rename_i x v hv
              have l1 := length_dropWhile_le isAttrName (c :: s)
              have l2 := skipBlank_length ((c :: s).dropWhile isAttrName)
              have l3 := skipBlank_length t
              have l4 := length_dropWhile_le (fun c => c != q) u
              have l5 := skipBlank_length v
              rw [ht] at l2
              rw [hu] at l3
              rw [hv] at l4
              simp only [List.length_cons] at l1 l2 l3 l4 h1 h2
              rw [parseAttrs_fuel (n := n) (m := m) (s := skipBlank v) (by omega) (by omega)]
          · rfl
        · rfl
      · rfl
  | 0, _, c :: s, h1, _ => by simp at h1
  | _, 0, c :: s, _, h2 => by simp at h2

theorem parseAttrs_length : ∀ {n : Nat} {s t : List Char} {as : List (String × List Char)}, parseAttrs n s = some (as, t) → t.length ≤ s.length
  | 0, s, t, as, h => by simp only [parseAttrs, Option.some.injEq, Prod.mk.injEq] at h; rw [← h.2]
  | n + 1, s, t, as, h => by
    rw [parseAttrs] at h
    split at h
    · simp only [Option.some.injEq, Prod.mk.injEq] at h; rw [← h.2]
    · split at h
      · rename_i t' ht
        split at h
        · rename_i q u hu
          split at h
          · split at h
            · cases h
            · rename_i x v hv
              split at h
              · rename_i val as' w' h1 h2
                have := parseAttrs_length h2
                have l1 := length_dropWhile_le isAttrName s
                have l2 := skipBlank_length (s.dropWhile isAttrName)
                have l3 := skipBlank_length t'
                have l4 := length_dropWhile_le (fun c => c != q) u
                have l5 := skipBlank_length v
                rw [ht] at l2
                rw [hu] at l3
                rw [hv] at l4
                simp only [List.length_cons] at l2 l3 l4
                simp only [Option.some.injEq, Prod.mk.injEq] at h
                rw [← h.2]
                omega
              · cases h
          · cases h
        · cases h
      · cases h

theorem parseAttrs_ext (u : List Char) : ∀ {n : Nat} {s t : List Char} {as : List (String × List Char)}, parseAttrs n s = some (as, t) → t ≠ [] →
    parseAttrs n (s ++ u) = some (as, t ++ u)
  | 0, s, t, as, h, _ => by
    simp only [parseAttrs, Option.some.injEq, Prod.mk.injEq] at h ⊢
    exact ⟨h.1, by rw [h.2]⟩
  | n + 1, s, t, as, h, ht => by
    rw [parseAttrs] at h
    split at h
    · rename_i h0
      simp only [Option.some.injEq, Prod.mk.injEq] at h
      rw [← h.1, ← h.2]
      rw [← h.2] at ht
      refine parseAttrs_none ?_ _
      obtain ⟨c, s', rfl⟩ := List.exists_cons_of_ne_nil ht
      simp only [List.isEmpty_iff, List.takeWhile_cons] at h0
      rw [List.cons_append, List.takeWhile_cons]
      split at h0
      · cases h0
      · rename_i hh; simp [hh]
    · rename_i h0
      split at h
      · rename_i t' ht'
        split at h
        · rename_i q v hv
          split at h
          · rename_i hq
            split at h
            · cases h
            · rename_i x y hy
              split at h
              · rename_i val as' w' h1 h2
                simp only [Option.some.injEq, Prod.mk.injEq] at h
                obtain ⟨h3, h4⟩ := h
                rw [← h4] at ht ⊢
                have hs : s.dropWhile isAttrName ≠ [] := by
                  intro e; rw [e] at ht'; simp [skipBlank] at ht'
                obtain ⟨e1, e2⟩ := span_ext (u := u) hs
                have e3 : skipBlank (s.dropWhile isAttrName ++ u) = '=' :: (t' ++ u) := by
                  rw [skipBlank_ext (by rw [ht']; simp), ht']; rfl
                have e4 : skipBlank (t' ++ u) = q :: (v ++ u) := by
                  rw [skipBlank_ext (by rw [hv]; simp), hv]; rfl
                obtain ⟨e5, e6⟩ := span_ext (u := u) (p := fun c => c != q) (s := v) (by rw [hy]; simp)
                rw [hy, List.cons_append] at e6
                have hyne : skipBlank y ≠ [] := by
                  intro e
                  rw [e, parseAttrs_none rfl] at h2
                  simp only [Option.some.injEq, Prod.mk.injEq] at h2
                  exact ht h2.2.symm
                rw [parseAttrs, e1, e2, if_neg h0, e3]
                simp only
                rw [e4]
                simp only [hq, if_true, e5, e6]
                rw [skipBlank_ext hyne, parseAttrs_ext u h2 ht]
                have hd : decode (v ++ u).length (v.takeWhile (fun c => c != q)) = some val := by
                  rw [← h1]
                  have := (List.takeWhile_prefix (fun c => c != q) (l := v)).length_le
                  exact decode_fuel (by simp only [List.length_append]; omega) this
                rw [hd]
                simp only
                rw [h3]
              · cases h
          · cases h
        · cases h
      · cases h

end OpenMps
