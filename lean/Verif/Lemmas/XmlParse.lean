import Verif.Lemmas.XmlText

namespace OpenMps

/-! ## The parser: fuel, lengths, longer texts -/

theorem parseBang_length {s t : List Char} {x : Option XNode} (h : parseBang s = some (x, t)) : t.length < s.length := by
  have key : ∀ (pat : List Char) (k : Nat) (f : List Char × List Char → Option XNode × List Char), (∀ p, (f p).2 = p.2) → pat ≠ [] →
      (cutAt pat (s.drop k)).map f = some (x, t) → t.length < s.length := by
    intro pat k f hf hp h
    cases hc : cutAt pat (s.drop k) with
    | none => rw [hc] at h; cases h
    | some p =>
      rw [hc] at h
      simp only [Option.map_some, Option.some.injEq] at h
      have h1 := cutAt_length hc
      have h2 := hf p
      rw [h] at h2
      simp only at h2
      have : 0 < pat.length := List.length_pos_iff.2 hp
      simp only [List.length_drop] at h1
      rw [h2]
      omega
  unfold parseBang at h
  split_ifs at h
  · exact key _ _ _ (fun _ => rfl) (by decide) h
  · exact key _ _ _ (fun _ => rfl) (by decide) h
  · cases hd : skipDoctype 0 (s.drop 8) with
    | none => rw [hd] at h; cases h
    | some v =>
      rw [hd] at h
      simp only [Option.map_some, Option.some.injEq, Prod.mk.injEq] at h
      have := skipDoctype_length hd
      simp only [List.length_drop] at this
      rw [← h.2]; omega
  · exact key _ 0 _ (fun _ => rfl) (by decide) h

theorem parseBang_ext {s t : List Char} {x : Option XNode} (u : List Char) (h : parseBang s = some (x, t)) : parseBang (s ++ u) = some (x, t ++ u) := by
  have ext : ∀ (pat : List Char), pat.isPrefixOf s = true → pat.isPrefixOf (s ++ u) = true := by
    intro pat h1
    rw [List.isPrefixOf_iff_prefix] at h1 ⊢
    exact h1.trans (List.prefix_append ..)
  have key : ∀ (pat : List Char) (f : List Char × List Char → Option XNode × List Char) (v : List Char), (∀ a b, f (a, b ++ u) = ((f (a, b)).1, (f (a, b)).2 ++ u)) →
      pat ≠ [] → (cutAt pat v).map f = some (x, t) → (cutAt pat (v ++ u)).map f = some (x, t ++ u) := by
    intro pat f v hf hp h
    cases hc : cutAt pat v with
    | none => rw [hc] at h; cases h
    | some p =>
      rw [hc] at h
      rw [cutAt_ext hp u hc]
      simp only [Option.map_some, Option.some.injEq] at h ⊢
      rw [hf, h]
  have neg : ∀ (pat : List Char), ¬ pat.isPrefixOf s = true → pat.isPrefixOf (s ++ u) = true → '>' ∉ pat → '>' ∉ s := by
    intro pat h1 h2 h3 h4
    rw [List.isPrefixOf_iff_prefix] at h1 h2
    rcases List.prefix_or_prefix_of_prefix h2 (List.prefix_append s u) with h5 | h5
    · exact h1 h5
    · exact h3 (h5.subset h4)
  have cut : ∀ {a : List Char}, cutAt ">".toList s = some (a, t) → '>' ∈ s := by
    intro a
    clear h ext key neg
    induction s generalizing a with
    | nil => intro h; simp [cutAt] at h
    | cons c s ih =>
      intro h
      rw [cutAt] at h
      split at h
      · rename_i h1
        rw [List.isPrefixOf_iff_prefix] at h1
        exact h1.subset (by decide)
      · cases h1 : cutAt ">".toList s with
        | none => rw [h1] at h; cases h
        | some p =>
          rw [h1] at h
          simp only [Option.map_some, Option.some.injEq, Prod.mk.injEq] at h
          refine List.mem_cons_of_mem _ (ih (a := p.1) ?_)
          rw [h1, ← h.2]
  unfold parseBang at h
  split_ifs at h with h1 h2 h3
  · unfold parseBang
    rw [if_pos (ext _ h1), List.drop_append_of_le_length (i := 2) (List.isPrefixOf_iff_prefix.1 h1).length_le]
    exact key _ _ _ (fun _ _ => rfl) (by decide) h
  · have h1' : ¬ "--".toList.isPrefixOf (s ++ u) = true := by
      obtain ⟨v, rfl⟩ := List.isPrefixOf_iff_prefix.1 h2
      exact fun hh => absurd hh (by simp)
    unfold parseBang
    rw [if_neg h1', if_pos (ext _ h2), List.drop_append_of_le_length (i := 7) (List.isPrefixOf_iff_prefix.1 h2).length_le]
    exact key _ _ _ (fun _ _ => rfl) (by decide) h
  · simp only [Bool.and_eq_true] at h3
    have h1' : ¬ "--".toList.isPrefixOf (s ++ u) = true := by
      obtain ⟨v, rfl⟩ := List.isPrefixOf_iff_prefix.1 h3.1
      exact fun hh => absurd hh (by simp)
    have h2' : ¬ "[CDATA[".toList.isPrefixOf (s ++ u) = true := by
      obtain ⟨v, rfl⟩ := List.isPrefixOf_iff_prefix.1 h3.1
      exact fun hh => absurd hh (by simp)
    have h7 : 7 ≤ s.length := (List.isPrefixOf_iff_prefix.1 h3.1).length_le
    have hne : s.drop 7 ≠ [] := by intro e; rw [e] at h3; simp at h3
    have h8 : 8 ≤ s.length := by
      have := List.length_pos_iff.2 hne
      rw [List.length_drop] at this
      omega
    unfold parseBang
    rw [if_neg h1', if_neg h2', if_pos, List.drop_append_of_le_length h8]
    · cases hd : skipDoctype 0 (s.drop 8) with
      | none => rw [hd] at h; cases h
      | some v =>
        rw [hd] at h
        rw [skipDoctype_ext u hd]
        simp only [Option.map_some, Option.some.injEq, Prod.mk.injEq] at h ⊢
        exact ⟨h.1, by rw [h.2]⟩
    · rw [Bool.and_eq_true]
      refine ⟨ext _ h3.1, ?_⟩
      rw [List.drop_append_of_le_length h7, List.head?_append_of_ne_nil _ hne]
      exact h3.2
  · have hgt : '>' ∈ s := by
      cases hc : cutAt ">".toList s with
      | none => rw [hc] at h; cases h
      | some p =>
        rw [hc] at h
        simp only [Option.map_some, Option.some.injEq, Prod.mk.injEq] at h
        exact cut (a := p.1) (by rw [hc, ← h.2])
    unfold parseBang
    rw [if_neg (fun hh => neg _ h1 hh (by decide) hgt), if_neg (fun hh => neg _ h2 hh (by decide) hgt), if_neg]
    · exact key _ _ _ (fun _ _ => rfl) (by decide) h
    · intro hh
      rw [Bool.and_eq_true] at hh h3
      by_cases h4 : "DOCTYPE".toList.isPrefixOf s = true
      · have h7 : 7 ≤ s.length := (List.isPrefixOf_iff_prefix.1 h4).length_le
        have hne : s.drop 7 ≠ [] := by
          obtain ⟨v, rfl⟩ := List.isPrefixOf_iff_prefix.1 h4
          intro e
          rw [List.drop_left'] at e
          · rw [e] at hgt
            exact absurd hgt (by decide)
          · rfl
        rw [List.drop_append_of_le_length h7, List.head?_append_of_ne_nil _ hne] at hh
        exact h3 ⟨h4, hh.2⟩
      · exact neg _ h4 hh.1 (by decide) hgt

/-- What `parse_node_contents` returns is shorter than what it gets. -/
def Shrinks (rec : List Char → Option (List XNode × List Char)) : Prop := ∀ s xs t, rec s = some (xs, t) → t.length < s.length

theorem parseElement_length {rec : List Char → Option (List XNode × List Char)} (hr : Shrinks rec) {s t : List Char} {x : Option XNode}
    (h : parseElement rec s = some (x, t)) : t.length < s.length := by
  unfold parseElement at h
  simp only at h
  split at h
  · cases h
  · have l1 := length_dropWhile_le isNodeName s
    have l2 := skipBlank_length (s.dropWhile isNodeName)
    split at h
    · rename_i as v hv
      have l3 := parseAttrs_length hv
      cases hc : rec v with
      | none => rw [hc] at h; cases h
      | some p =>
        rw [hc] at h
        have := hr _ _ _ hc
        simp only [Option.map_some, Option.some.injEq, Prod.mk.injEq] at h
        rw [← h.2]
        simp only [List.length_cons] at l3
        omega
    · rename_i as v hv
      have l3 := parseAttrs_length hv
      simp only [Option.some.injEq, Prod.mk.injEq] at h
      rw [← h.2]
      simp only [List.length_cons] at l3
      omega
    · cases h

theorem parseNode_length {rec : List Char → Option (List XNode × List Char)} (hr : Shrinks rec) {s t : List Char} {x : Option XNode}
    (h : parseNode rec s = some (x, t)) : t.length < s.length := by
  unfold parseNode at h
  split at h
  · rename_i r
    cases hc : cutAt "?>".toList r with
    | none => rw [hc] at h; cases h
    | some p =>
      rw [hc] at h
      have := cutAt_length hc
      simp only [Option.map_some, Option.some.injEq, Prod.mk.injEq] at h
      rw [← h.2, List.length_cons]
      omega
  · have := parseBang_length h
    rw [List.length_cons]
    omega
  · exact parseElement_length hr h

theorem parseClose_length {s t : List Char} (h : parseClose s = some t) : t.length < s.length := by
  unfold parseClose at h
  have l1 := length_dropWhile_le isNodeName s
  have l2 := skipBlank_length (s.dropWhile isNodeName)
  split at h
  · rename_i r hr
    simp only [Option.some.injEq] at h
    rw [hr, List.length_cons] at l2
    rw [← h]; omega
  · cases h

theorem parseClose_ext {s t : List Char} (u : List Char) (h : parseClose s = some t) : parseClose (s ++ u) = some (t ++ u) := by
  unfold parseClose at h ⊢
  split at h
  · rename_i r hr
    simp only [Option.some.injEq] at h
    have h1 : s.dropWhile isNodeName ≠ [] := by intro e; rw [e] at hr; simp [skipBlank] at hr
    rw [(span_ext h1).2, skipBlank_ext (by rw [hr]; simp), hr, h]
    rfl
  · cases h

theorem afterData_open (rec : List Char → Option (List XNode × List Char)) {r : List Char} (h : r.head? ≠ some '/') :
    afterData rec ('<' :: r) = match parseNode rec r with
      | none => none
      | some (x, t) => (rec t).map (fun p => (x.toList ++ p.1, p.2)) := by
  rw [afterData]
  · rfl
  · intro r' e
    rw [e] at h
    exact h rfl

theorem parseNode_elem (rec : List Char → Option (List XNode × List Char)) {s : List Char} (h1 : s.head? ≠ some '?') (h2 : s.head? ≠ some '!') :
    parseNode rec s = parseElement rec s := by
  rw [parseNode]
  · intro r e; rw [e] at h1; exact h1 rfl
  · intro r e; rw [e] at h2; exact h2 rfl

theorem afterData_length {rec : List Char → Option (List XNode × List Char)} (hr : Shrinks rec) {s t : List Char} {xs : List XNode}
    (h : afterData rec s = some (xs, t)) : t.length < s.length := by
  unfold afterData at h
  split at h
  · rename_i r
    cases hc : parseClose r with
    | none => rw [hc] at h; cases h
    | some p =>
      rw [hc] at h
      have := parseClose_length hc
      simp only [Option.map_some, Option.some.injEq, Prod.mk.injEq] at h
      rw [← h.2]
      simp only [List.length_cons]
      omega
  · rename_i r _
    split at h
    · cases h
    · rename_i x v hv
      have l1 := parseNode_length hr hv
      cases hc : rec v with
      | none => rw [hc] at h; cases h
      | some p =>
        rw [hc] at h
        have := hr _ _ _ hc
        simp only [Option.map_some, Option.some.injEq, Prod.mk.injEq] at h
        rw [← h.2, List.length_cons]
        omega
  · cases h

theorem parseContents_shrinks : ∀ n, Shrinks (parseContents n)
  | 0, _, _, _, h => by simp [parseContents] at h
  | n + 1, s, xs, t, h => by
    rw [parseContents] at h
    have l1 := skipBlank_length s
    have l2 := length_dropWhile_le (fun c => c != '<') s
    split at h
    · have := afterData_length (parseContents_shrinks n) h
      omega
    · split at h
      · rename_i v ys t' h1 h2
        have := afterData_length (parseContents_shrinks n) h2
        simp only [Option.some.injEq, Prod.mk.injEq] at h
        rw [← h.2]
        omega
      · cases h

theorem parseElement_congr {rec rec' : List Char → Option (List XNode × List Char)} {s : List Char} (h : ∀ t, t.length < s.length → rec t = rec' t) :
    parseElement rec s = parseElement rec' s := by
  unfold parseElement
  simp only
  split
  · rfl
  · have l1 := length_dropWhile_le isNodeName s
    have l2 := skipBlank_length (s.dropWhile isNodeName)
    split
    · rename_i as v hv
      have l3 := parseAttrs_length hv
      simp only [List.length_cons] at l3
      rw [h v (by omega)]
    · rfl
    · rfl

theorem parseNode_congr {rec rec' : List Char → Option (List XNode × List Char)} {s : List Char} (h : ∀ t, t.length < s.length → rec t = rec' t) :
    parseNode rec s = parseNode rec' s := by
  unfold parseNode
  split
  · rfl
  · rfl
  · exact parseElement_congr h

theorem afterData_congr {rec rec' : List Char → Option (List XNode × List Char)} (hr : Shrinks rec') {s : List Char} (h : ∀ t, t.length < s.length → rec t = rec' t) :
    afterData rec s = afterData rec' s := by
  unfold afterData
  split
  · rfl
  · rename_i r _
    rw [parseNode_congr (rec' := rec') (fun t ht => h t (by rw [List.length_cons]; omega))]
    split
    · rfl
    · rename_i x v hv
      have := parseNode_length hr hv
      rw [h v (by rw [List.length_cons]; omega)]
  · rfl

theorem parseContents_fuel : ∀ {n m : Nat} {s : List Char}, s.length ≤ n → s.length ≤ m → parseContents n s = parseContents m s
  | 0, 0, _, _, _ => rfl
  | 0, m + 1, s, h, _ => by
    have : s = [] := by simpa using h
    subst this
    simp [parseContents, skipBlank, afterData]
  | n + 1, 0, s, _, h => by
    have : s = [] := by simpa using h
    subst this
    simp [parseContents, skipBlank, afterData]
  | n + 1, m + 1, s, h1, h2 => by
    rw [parseContents, parseContents]
    have l1 := skipBlank_length s
    have l2 := length_dropWhile_le (fun c => c != '<') s
    have key : ∀ v : List Char, v.length ≤ s.length → afterData (parseContents n) v = afterData (parseContents m) v :=
      fun v hv => afterData_congr (parseContents_shrinks m) (fun t ht => parseContents_fuel (by omega) (by omega))
    rw [key _ l1, key _ l2]

theorem parseTop_fuel : ∀ {n m : Nat} {s : List Char}, s.length ≤ n → s.length ≤ m → parseTop n s = parseTop m s
  | 0, 0, _, _, _ => rfl
  | 0, m + 1, s, h, _ => by
    have : s = [] := by simpa using h
    subst this
    simp [parseTop, skipBlank]
  | n + 1, 0, s, _, h => by
    have : s = [] := by simpa using h
    subst this
    simp [parseTop, skipBlank]
  | n + 1, m + 1, s, h1, h2 => by
    rw [parseTop, parseTop]
    have l1 := skipBlank_length s
    split
    · rfl
    · rename_i r hr
      rw [hr, List.length_cons] at l1
      rw [parseNode_congr (rec' := parseContents m) (fun t ht => parseContents_fuel (by omega) (by omega))]
      split
      · rfl
      · rename_i x v hv
        have := parseNode_length (parseContents_shrinks m) hv
        rw [parseTop_fuel (n := n) (m := m) (by omega) (by omega)]
    · rfl

/-- More characters after the end change nothing. -/
def Extends (u : List Char) (rec : List Char → Option (List XNode × List Char)) : Prop := ∀ s xs t, rec s = some (xs, t) → rec (s ++ u) = some (xs, t ++ u)

theorem parseElement_ext {u : List Char} {rec : List Char → Option (List XNode × List Char)} (hr : Extends u rec) {s t : List Char} {x : Option XNode}
    (h : parseElement rec s = some (x, t)) : parseElement rec (s ++ u) = some (x, t ++ u) := by
  unfold parseElement at h
  simp only at h
  split at h
  · cases h
  · rename_i hne
    have main : ∀ as v, parseAttrs s.length (skipBlank (s.dropWhile isNodeName)) = some (as, v) → v ≠ [] →
        (s ++ u).takeWhile isNodeName = s.takeWhile isNodeName ∧
        parseAttrs (s ++ u).length (skipBlank ((s ++ u).dropWhile isNodeName)) = some (as, v ++ u) := by
      intro as v hv hvne
      have h1 : skipBlank (s.dropWhile isNodeName) ≠ [] := by
        intro e
        rw [e, parseAttrs_none rfl] at hv
        simp only [Option.some.injEq, Prod.mk.injEq] at hv
        exact hvne hv.2.symm
      have h2 : s.dropWhile isNodeName ≠ [] := by intro e; rw [e] at h1; exact h1 rfl
      obtain ⟨e1, e2⟩ := span_ext (u := u) h2
      refine ⟨e1, ?_⟩
      rw [e2, skipBlank_ext h1]
      have l1 := length_dropWhile_le isNodeName s
      have l2 := skipBlank_length (s.dropWhile isNodeName)
      have hv' : parseAttrs (s ++ u).length (skipBlank (s.dropWhile isNodeName)) = some (as, v) := by
        rw [← hv]
        exact parseAttrs_fuel (by rw [List.length_append]; omega) (by omega)
      exact parseAttrs_ext u hv' hvne
    split at h
    · rename_i as v hv
      obtain ⟨e1, e2⟩ := main _ _ hv (by simp)
      cases hc : rec v with
      | none => rw [hc] at h; cases h
      | some p =>
        rw [hc] at h
        simp only [Option.map_some, Option.some.injEq, Prod.mk.injEq] at h
        unfold parseElement
        simp only [e1]
        rw [if_neg hne, e2]
        simp only [List.cons_append]
        rw [hr _ _ _ hc]
        simp only [Option.map_some, Option.some.injEq, Prod.mk.injEq]
        exact ⟨h.1, by rw [h.2]⟩
    · rename_i as v hv
      obtain ⟨e1, e2⟩ := main _ _ hv (by simp)
      simp only [Option.some.injEq, Prod.mk.injEq] at h
      unfold parseElement
      simp only [e1]
      rw [if_neg hne, e2]
      simp only [List.cons_append, Option.some.injEq, Prod.mk.injEq]
      exact ⟨h.1, by rw [h.2]⟩
    · cases h

theorem parseNode_ext {u : List Char} {rec : List Char → Option (List XNode × List Char)} (hr : Extends u rec) {s t : List Char} {x : Option XNode}
    (h : parseNode rec s = some (x, t)) : parseNode rec (s ++ u) = some (x, t ++ u) := by
  unfold parseNode at h
  split at h
  · rename_i r
    cases hc : cutAt "?>".toList r with
    | none => rw [hc] at h; cases h
    | some p =>
      rw [hc] at h
      rw [List.cons_append, parseNode, cutAt_ext (by decide) u hc]
      simp only [Option.map_some, Option.some.injEq, Prod.mk.injEq] at h ⊢
      exact ⟨h.1, by rw [h.2]⟩
  · rw [List.cons_append, parseNode]
    exact parseBang_ext u h
  · rename_i h1 h2
    have hne : s ≠ [] := by rintro rfl; simp [parseElement] at h
    obtain ⟨c, s', rfl⟩ := List.exists_cons_of_ne_nil hne
    rw [parseNode_elem]
    · exact parseElement_ext hr h
    · intro e
      simp only [List.cons_append, List.head?_cons, Option.some.injEq] at e
      exact h1 s' (by rw [e])
    · intro e
      simp only [List.cons_append, List.head?_cons, Option.some.injEq] at e
      exact h2 s' (by rw [e])

theorem afterData_ext {u : List Char} {rec : List Char → Option (List XNode × List Char)} (hr : Extends u rec) {s t : List Char} {xs : List XNode}
    (h : afterData rec s = some (xs, t)) : afterData rec (s ++ u) = some (xs, t ++ u) := by
  unfold afterData at h
  split at h
  · rename_i r
    cases hc : parseClose r with
    | none => rw [hc] at h; cases h
    | some p =>
      rw [hc] at h
      rw [List.cons_append, List.cons_append, afterData, parseClose_ext u hc]
      simp only [Option.map_some, Option.some.injEq, Prod.mk.injEq] at h ⊢
      exact ⟨h.1, by rw [h.2]⟩
  · rename_i r hr'
    split at h
    · cases h
    · rename_i x v hv
      have hne : r ≠ [] := by rintro rfl; simp [parseNode, parseElement] at hv
      obtain ⟨c, r', rfl⟩ := List.exists_cons_of_ne_nil hne
      rw [List.cons_append, afterData_open]
      · rw [parseNode_ext hr hv]
        simp only
        cases hc : rec v with
        | none => rw [hc] at h; cases h
        | some p =>
          rw [hc] at h
          rw [hr _ _ _ hc]
          simp only [Option.map_some, Option.some.injEq, Prod.mk.injEq] at h ⊢
          exact ⟨h.1, by rw [h.2]⟩
      · intro e
        simp only [List.cons_append, List.head?_cons, Option.some.injEq] at e
        exact hr' r' (by rw [e])
  · cases h

theorem parseContents_extends (u : List Char) : ∀ n, Extends u (parseContents n)
  | 0, _, _, _, h => by simp [parseContents] at h
  | n + 1, s, xs, t, h => by
    rw [parseContents] at h ⊢
    split at h
    · rename_i h1
      have hne : skipBlank s ≠ [] := by intro e; rw [e] at h; simp [afterData] at h
      rw [if_pos, skipBlank_ext hne]
      · exact afterData_ext (parseContents_extends u n) h
      · rw [skipBlank_ext hne, List.head?_append_of_ne_nil _ hne]; exact h1
    · rename_i h1
      have hne : skipBlank s ≠ [] := by intro e; rw [e] at h1; simp at h1
      split at h
      · rename_i v ys t' h2 h3
        have hd : s.dropWhile (fun c => c != '<') ≠ [] := by intro e; rw [e] at h3; simp [afterData] at h3
        obtain ⟨e1, e2⟩ := span_ext (u := u) hd
        simp only [Option.some.injEq, Prod.mk.injEq] at h
        rw [if_neg, e1, e2, afterData_ext (parseContents_extends u n) h3]
        · have h4 : decode (s ++ u).length (s.takeWhile (fun c => c != '<')) = some v := by
            rw [← h2]
            have := (List.takeWhile_prefix (fun c => c != '<') (l := s)).length_le
            exact decode_fuel (by rw [List.length_append]; omega) this
          rw [h4]
          simp only [Option.some.injEq, Prod.mk.injEq]
          exact ⟨h.1, by rw [h.2]⟩
        · rw [skipBlank_ext hne, List.head?_append_of_ne_nil _ hne]; exact h1
      · cases h

/-- A text that is cut off is either not read, or the first nodes are read. -/
theorem parseTop_prefix (u : List Char) : ∀ {n : Nat} {s : List Char} {doc doc' : List XNode}, parseTop n s = some doc' → parseTop n (s ++ u) = some doc → doc' <+: doc
  | 0, s, doc, doc', h, _ => by
    rw [parseTop] at h
    split at h
    · simp only [Option.some.injEq] at h; rw [← h]; exact List.nil_prefix
    · cases h
  | n + 1, s, doc, doc', h, h' => by
    rw [parseTop] at h
    split at h
    · simp only [Option.some.injEq] at h; rw [← h]; exact List.nil_prefix
    · rename_i r hr
      split at h
      · cases h
      · rename_i x v hv
        have e : skipBlank (s ++ u) = '<' :: (r ++ u) := by rw [skipBlank_ext (by rw [hr]; simp), hr]; rfl
        rw [parseTop, e] at h'
        simp only at h'
        rw [parseNode_ext (parseContents_extends u n) hv] at h'
        simp only at h'
        cases h1 : parseTop n v with
        | none => rw [h1] at h; cases h
        | some xs =>
          cases h2 : parseTop n (v ++ u) with
          | none => rw [h2] at h'; cases h'
          | some ys =>
            rw [h1] at h
            rw [h2] at h'
            simp only [Option.map_some, Option.some.injEq] at h h'
            rw [← h, ← h']
            exact (List.prefix_append_right_inj _).2 (parseTop_prefix u h1 h2)
    · cases h

end OpenMps
