import Verif.Spec.Csv

/-! # Lemmas about splitting and joining -/

namespace OpenMps

theorem splitChar_ne_nil (sep : Char) (l : List Char) : splitChar sep l ≠ [] := by
  cases l with
  | nil => simp [splitChar]
  | cons c cs =>
    unfold splitChar
    split
    · simp
    · split <;> simp

theorem joinWith_cons (sep : Char) (t : List Char) {ts : List (List Char)} (h : ts ≠ []) :
    joinWith sep (t :: ts) = t ++ sep :: joinWith sep ts := by
  cases ts with
  | nil => exact absurd rfl h
  | cons a as => rfl

theorem splitChar_none {sep : Char} {l : List Char} (h : sep ∉ l) : splitChar sep l = [l] := by
  induction l with
  | nil => rfl
  | cons c cs ih =>
    simp only [List.mem_cons, not_or] at h
    unfold splitChar
    rw [if_neg (fun e => h.1 e.symm), ih h.2]

theorem splitChar_append {sep : Char} {t rest : List Char} (h : sep ∉ t) :
    splitChar sep (t ++ sep :: rest) = t :: splitChar sep rest := by
  induction t with
  | nil => simp [splitChar]
  | cons c cs ih =>
    simp only [List.mem_cons, not_or] at h
    rw [List.cons_append]
    conv_lhs => unfold splitChar
    rw [if_neg (fun e => h.1 e.symm), ih h.2]

theorem splitChar_join {sep : Char} {ts : List (List Char)} (hne : ts ≠ []) (h : ∀ t ∈ ts, sep ∉ t) :
    splitChar sep (joinWith sep ts) = ts := by
  induction ts with
  | nil => exact absurd rfl hne
  | cons t ts ih =>
    by_cases hts : ts = []
    · subst hts
      exact splitChar_none (h t (by simp))
    · rw [joinWith_cons _ _ hts, splitChar_append (h t (by simp)), ih hts (fun t' ht' => h t' (by simp [ht']))]

theorem join_splitChar (sep : Char) (l : List Char) : joinWith sep (splitChar sep l) = l := by
  induction l with
  | nil => rfl
  | cons c cs ih =>
    unfold splitChar
    split
    · rename_i h
      rw [joinWith_cons _ _ (splitChar_ne_nil _ _), ih, h]; rfl
    · split
      · rename_i t ts heq
        rw [heq] at ih
        by_cases hts : ts = []
        · subst hts
          simpa [joinWith] using ih
        · rw [joinWith_cons _ _ hts] at ih ⊢
          rw [List.cons_append, ih]
      · rename_i heq
        exact absurd heq (splitChar_ne_nil _ _)

theorem not_mem_splitChar (sep : Char) (l : List Char) : ∀ t ∈ splitChar sep l, sep ∉ t := by
  induction l with
  | nil => simp [splitChar]
  | cons c cs ih =>
    unfold splitChar
    split
    · intro t ht
      rcases List.mem_cons.1 ht with h | h
      · subst h; simp
      · exact ih t h
    · rename_i hc
      split
      · rename_i t ts heq
        intro t' ht'
        rcases List.mem_cons.1 ht' with h | h
        · subst h
          simp only [List.mem_cons, not_or]
          exact ⟨fun e => hc e.symm, ih t (by rw [heq]; simp)⟩
        · exact ih t' (by rw [heq]; simp [h])
      · rename_i heq
        exact absurd heq (splitChar_ne_nil _ _)

/-- The filter of `GetItems` in terms of `IsBlank`. -/
theorem stripBlanks_eq (l : List Char) : stripBlanks l = l.filter (fun c => decide (¬ IsBlank c)) := by
  unfold stripBlanks IsBlank
  congr 1
  funext c
  by_cases h1 : c = ' ' <;> by_cases h2 : c = '\t' <;> simp [h1, h2]

theorem getItems_line {cells : List (List Char)} {line : List Char} (h : LineOf cells line) : getItems line = cells := by
  obtain ⟨_, hc, hne, ⟨c, hcm, hcb⟩, hf⟩ := h
  unfold getItems
  simp only
  rw [stripBlanks_eq, if_pos]
  · rw [hf, splitChar_join hne hc]
  · exact List.length_pos_of_mem (a := c) (List.mem_filter.2 ⟨hcm, by simpa using hcb⟩)

theorem getItems_blank {line : List Char} (h : BlankLine line) : getItems line = [] := by
  unfold getItems
  simp only
  have : stripBlanks line = [] := by
    rw [stripBlanks_eq]
    exact List.filter_eq_nil_iff.2 (fun c hc => by simpa using h c hc)
  rw [this]; rfl

/-- Every line without line break is a line of cells or blank. -/
theorem line_cases {line : List Char} (h : '\n' ∉ line) : BlankLine line ∨ ∃ cells, LineOf cells line := by
  by_cases hb : BlankLine line
  · exact .inl hb
  · right
    unfold BlankLine at hb
    push Not at hb
    refine ⟨splitChar ',' (line.filter (fun c => decide (¬ IsBlank c))), h, not_mem_splitChar _ _, splitChar_ne_nil _ _, hb, ?_⟩
    rw [join_splitChar]

theorem rowLines_exists : ∀ {lines : List (List Char)}, (∀ l ∈ lines, '\n' ∉ l) → ∃ rows, RowLines rows lines
  | [], _ => ⟨[], .nil⟩
  | l :: ls, h => by
    obtain ⟨rows, hr⟩ := rowLines_exists (lines := ls) (fun l' hl' => h l' (by simp [hl']))
    rcases line_cases (h l (by simp)) with hb | ⟨cells, hc⟩
    · exact ⟨rows, .blank hb hr⟩
    · exact ⟨cells :: rows, .row hc hr⟩

/-- The lines after the header, as read by the model. -/
theorem readRows_rows {F : Type} {D : Nat} (cv : Conv F) (h : List Char → Nat) {rows : List (List (List Char))} {lines : List (List Char)}
    (hr : RowLines rows lines) :
    readRows (D := D) cv h lines = rows.mapM (readParticle cv h) := by
  induction hr with
  | nil => rfl
  | blank hb _ ih =>
    unfold readRows
    simp only
    rw [getItems_blank hb]
    simpa using ih
  | row hl _ ih =>
    unfold readRows
    simp only
    rw [getItems_line hl, if_pos (List.length_pos_iff.2 hl.2.2.1), ih, List.mapM_cons]

theorem skipEmpty_replicate (k : Nat) {line : List Char} (hl : line ≠ []) (lines : List (List Char)) :
    skipEmpty (List.replicate k [] ++ line :: lines) = .ok (line, lines) := by
  induction k with
  | zero =>
    show skipEmpty (line :: lines) = _
    unfold skipEmpty
    rw [if_neg]
    simpa using hl
  | succ k ih =>
    rw [List.replicate_succ, List.cons_append]
    unfold skipEmpty
    simpa using ih

theorem lineOf_ne_nil {cells : List (List Char)} {line : List Char} (h : LineOf cells line) : line ≠ [] := by
  obtain ⟨_, _, _, ⟨c, hc, _⟩, _⟩ := h
  intro e; subst e; cases hc

theorem rowLines_no_newline {rows : List (List (List Char))} {lines : List (List Char)} (h : RowLines rows lines) :
    ∀ l ∈ lines, '\n' ∉ l := by
  induction h with
  | nil => simp
  | blank hb _ ih =>
    intro l hl
    rcases List.mem_cons.1 hl with e | e
    · subst e
      intro hm
      rcases hb _ hm with h | h <;> exact absurd h (by decide)
    · exact ih l e
  | row hc _ ih =>
    intro l hl
    rcases List.mem_cons.1 hl with e | e
    · subst e; exact hc.1
    · exact ih l e

/-- Reading a text is reading its table. -/
theorem inputFromCsv_text {F : Type} {D : Nat} (cv : Conv F) {tbl : Table} {text : List Char} (h : IsText tbl text) :
    inputFromCsv (D := D) cv text =
      (match readHeader D tbl.header 0 (fun _ => 0) with
        | .error e => .error e
        | .ok hd => if ∃ c ∈ columns D, hd c = 0 then .error .missingHeader
          else tbl.rows.mapM (readParticle cv (fun c => hd c - 1))) := by
  obtain ⟨k, line, lines, rfl, hh, hr⟩ := h
  have hlne : line ≠ [] := by
    rcases hh with h | h
    · exact lineOf_ne_nil h
    · exact h.2.1
  have hlnl : '\n' ∉ line := by
    rcases hh with h | h
    · exact h.1
    · intro hm
      rcases h.2.2 _ hm with h | h <;> exact absurd h (by decide)
  have hitems : getItems line = tbl.header := by
    rcases hh with h | h
    · exact getItems_line h
    · rw [getItems_blank h.2.2, h.1]
  unfold inputFromCsv
  rw [splitChar_join (by simp), skipEmpty_replicate k hlne]
  · simp only [bind, Except.bind, headerMap, hitems]
    cases readHeader D tbl.header 0 (fun _ => 0) with
    | error e => rfl
    | ok hd =>
      simp only
      by_cases hc : ∃ c ∈ columns D, hd c = 0
      · rw [if_pos hc, if_pos hc]
      · rw [if_neg hc, if_neg hc]
        exact readRows_rows cv _ hr
  · intro t ht
    simp only [List.mem_append, List.mem_replicate, List.mem_cons] at ht
    rcases ht with ⟨_, rfl⟩ | rfl | ht
    · simp
    · exact hlnl
    · exact rowLines_no_newline hr t ht

/-- What the header loop computes. -/
theorem readHeader_known {D : Nat} : ∀ (ts : List (List Char)) (i : Nat) (h : List Char → Nat), (∀ t ∈ ts, t ∈ columns D) →
    ∃ h', readHeader D ts i h = .ok h' ∧ ∀ m, (m ∉ ts → h' m = h m) ∧
      (m ∈ ts → ∃ k : Nat, ts[k]? = some m ∧ (∀ k', k < k' → ts[k']? ≠ some m) ∧ h' m = i + k + 1)
  | [], i, h, _ => ⟨h, rfl, fun m => ⟨fun _ => rfl, fun hm => by cases hm⟩⟩
  | t :: ts, i, h, hk => by
    obtain ⟨h', e, spec⟩ := readHeader_known ts (i + 1) (fun m => if m = t then i + 1 else h m) (fun t' ht' => hk t' (by simp [ht']))
    refine ⟨h', by unfold readHeader; rw [if_pos (hk t (by simp)), e], fun m => ⟨fun hm => ?_, fun hm => ?_⟩⟩
    · simp only [List.mem_cons, not_or] at hm
      rw [(spec m).1 hm.2, if_neg hm.1]
    · by_cases hin : m ∈ ts
      · obtain ⟨k, h1, h2, h3⟩ := (spec m).2 hin
        refine ⟨k + 1, by simpa using h1, fun k' hk' => ?_, by omega⟩
        obtain ⟨k'', rfl⟩ : ∃ k'', k' = k'' + 1 := ⟨k' - 1, by omega⟩
        simpa using h2 k'' (by omega)
      · have hmt : m = t := by
          rcases List.mem_cons.1 hm with h | h
          · exact h
          · exact absurd h hin
        refine ⟨0, by simp [hmt], fun k' hk' => ?_, by rw [(spec m).1 hin, if_pos hmt]⟩
        obtain ⟨k'', rfl⟩ : ∃ k'', k' = k'' + 1 := ⟨k' - 1, by omega⟩
        intro hc
        exact hin (List.mem_of_getElem? (by simpa using hc))

theorem readHeader_unknown {D : Nat} : ∀ (ts : List (List Char)) (i : Nat) (h : List Char → Nat), (∃ t ∈ ts, t ∉ columns D) →
    readHeader D ts i h = .error .illegalHeader
  | [], _, _, ⟨_, ht, _⟩ => by cases ht
  | t :: ts, i, h, ⟨t', ht', hn⟩ => by
    unfold readHeader
    by_cases hc : t ∈ columns D
    · rw [if_pos hc]
      apply readHeader_unknown
      rcases List.mem_cons.1 ht' with rfl | h'
      · exact absurd hc hn
      · exact ⟨t', h', hn⟩
    · rw [if_neg hc]

end OpenMps
