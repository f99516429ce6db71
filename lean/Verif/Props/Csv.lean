import Verif.Lemmas.Csv
import Mathlib.Data.Fin.VecNotation

/-! # CSV input and output: C30, C31 -/

namespace OpenMps

/-- `RowIs` in terms of the names used by the model. -/
structure RowIsM {F : Type} {D : Nat} (cv : Conv F) (header row : List (List Char)) (q : Particle F D) : Prop where
  type : ∃ t k, CellIs header row colType t ∧ cv.int t = some k ∧ q.ty = PType.ofInt k
  x : ∀ a, ∃ t, CellIs header row (colX D a) t ∧ cv.num t = some (q.x a)
  u : ∀ a, ∃ t, CellIs header row (colU D a) t ∧ cv.num t = some (q.u a)
  p : ∃ t, CellIs header row ['p'] t ∧ cv.num t = some q.p
  n : ∃ t, CellIs header row ['n'] t ∧ cv.num t = some q.n

theorem vecOf_ok {F : Type} : ∀ {D : Nat} (f : Fin D → Except CsvErr F) (v : Vec F D), vecOf f = .ok v ↔ ∀ a, f a = .ok (v a)
  | 0, f, v => by
    unfold vecOf
    exact ⟨fun _ a => a.elim0, fun _ => by congr 1; funext a; exact a.elim0⟩
  | D + 1, f, v => by
    unfold vecOf
    simp only [bind, Except.bind, pure, Except.pure]
    constructor
    · intro h a
      cases h0 : f 0 with
      | error e => rw [h0] at h; cases h
      | ok w =>
        rw [h0] at h
        cases hs : vecOf (fun a => f a.succ) with
        | error e => simp only [hs] at h; cases h
        | ok ws =>
          simp only [hs, Except.ok.injEq] at h
          have := (vecOf_ok (fun a => f a.succ) ws).1 hs
          subst h
          refine Fin.cases ?_ (fun a' => ?_) a
          · rw [h0, Fin.cons_zero]
          · rw [this a', Fin.cons_succ]
    · intro h
      rw [h 0, (vecOf_ok (fun a => f a.succ) (fun a => v a.succ)).2 (fun a => h a.succ)]
      simp only [Except.ok.injEq]
      exact Fin.cons_self_tail v

theorem colX_mem {D : Nat} (a : Fin D) : colX D a ∈ columns D := by
  simp [columns]

theorem colU_mem {D : Nat} (a : Fin D) : colU D a ∈ columns D := by
  simp [columns]

theorem colType_mem {D : Nat} : colType ∈ columns D := by simp [columns]
theorem colp_mem {D : Nat} : ['p'] ∈ columns D := by simp [columns]
theorem coln_mem {D : Nat} : ['n'] ∈ columns D := by simp [columns]

/-- The map the header loop produced for a header with known names that contains all columns. -/
structure HeaderOK (D : Nat) (header : List (List Char)) (hd : List Char → Nat) : Prop where
  read : readHeader D header 0 (fun _ => 0) = .ok hd
  all : ¬ ∃ c ∈ columns D, hd c = 0
  pos : ∀ c ∈ columns D, ∃ k : Nat, header[k]? = some c ∧ (∀ k', k < k' → header[k']? ≠ some c) ∧ hd c - 1 = k

theorem headerOK {D : Nat} {header : List (List Char)} (h1 : ∀ c ∈ header, c ∈ columns D) (h2 : ∀ c ∈ columns D, c ∈ header) :
    ∃ hd, HeaderOK D header hd := by
  obtain ⟨hd, e, spec⟩ := readHeader_known header 0 (fun _ => 0) h1
  refine ⟨hd, e, ?_, ?_⟩
  · rintro ⟨c, hc, h0⟩
    obtain ⟨k, _, _, h⟩ := (spec c).2 (h2 c hc)
    omega
  · intro c hc
    obtain ⟨k, ha, hb, h⟩ := (spec c).2 (h2 c hc)
    exact ⟨k, ha, hb, by omega⟩

theorem cell_ok {D : Nat} {header : List (List Char)} {hd : List Char → Nat} (h : HeaderOK D header hd) {c : List Char} (hc : c ∈ columns D)
    (row : List (List Char)) (t : List Char) : cell row (fun c => hd c - 1) c = .ok t ↔ CellIs header row c t := by
  obtain ⟨k, h1, h2, h3⟩ := h.pos c hc
  unfold cell CellIs
  simp only [h3]
  constructor
  · intro e
    refine ⟨k, h1, h2, ?_⟩
    cases hr : row[k]? with
    | none => rw [hr] at e; cases e
    | some t' => rw [hr] at e; cases e; rfl
  · rintro ⟨k', h1', h2', h3'⟩
    have : k' = k := by
      rcases Nat.lt_trichotomy k k' with h | h | h
      · exact absurd h1' (h2 k' h)
      · exact h.symm
      · exact absurd h1 (h2' k h)
    subst this
    rw [h3']

theorem cell_conv_ok {D : Nat} {header : List (List Char)} {hd : List Char → Nat} (h : HeaderOK D header hd) {c : List Char} (hc : c ∈ columns D)
    (row : List (List Char)) {α : Type} (f : List Char → Option α) (v : α) :
    (cell row (fun c => hd c - 1) c >>= convert f) = .ok v ↔ ∃ t, CellIs header row c t ∧ f t = some v := by
  have hcell := cell_ok h hc row
  generalize cell row (fun c => hd c - 1) c = r at hcell
  cases r with
  | error e =>
    constructor
    · intro h; cases h
    · rintro ⟨t, ht, _⟩
      exact absurd ((hcell t).2 ht) (by simp)
  | ok t =>
    simp only [bind, Except.bind, convert]
    constructor
    · intro h
      refine ⟨t, (hcell t).1 rfl, ?_⟩
      cases hf : f t with
      | none => rw [hf] at h; cases h
      | some w => rw [hf] at h; cases h; rfl
    · rintro ⟨t', ht', hf⟩
      have := (hcell t').2 ht'
      cases this
      rw [hf]

theorem readParticle_ok {F : Type} {D : Nat} (cv : Conv F) {header : List (List Char)} {hd : List Char → Nat} (h : HeaderOK D header hd)
    (row : List (List Char)) (q : Particle F D) :
    readParticle cv (fun c => hd c - 1) row = .ok q ↔ RowIsM cv header row q := by
  have hT := fun k => cell_conv_ok h colType_mem row cv.int k
  have hX := fun v => vecOf_ok (fun a => cell row (fun c => hd c - 1) (colX D a) >>= convert cv.num) v
  have hU := fun v => vecOf_ok (fun a => cell row (fun c => hd c - 1) (colU D a) >>= convert cv.num) v
  have hP := fun v => cell_conv_ok h colp_mem row cv.num v
  have hN := fun v => cell_conv_ok h coln_mem row cv.num v
  have hX' := fun v => (hX v).trans (forall_congr' fun a => cell_conv_ok h (colX_mem a) row cv.num (v a))
  have hU' := fun v => (hU v).trans (forall_congr' fun a => cell_conv_ok h (colU_mem a) row cv.num (v a))
  unfold readParticle
  constructor
  · intro e
    cases h1 : (cell row (fun c => hd c - 1) colType >>= convert cv.int) with
    | error _ => rw [h1] at e; cases e
    | ok k =>
      cases h2 : vecOf (fun a => cell row (fun c => hd c - 1) (colX D a) >>= convert cv.num) with
      | error _ => rw [h1, h2] at e; cases e
      | ok x =>
        cases h3 : vecOf (fun a => cell row (fun c => hd c - 1) (colU D a) >>= convert cv.num) with
        | error _ => rw [h1, h2, h3] at e; cases e
        | ok u =>
          cases h4 : (cell row (fun c => hd c - 1) ['p'] >>= convert cv.num) with
          | error _ => rw [h1, h2, h3, h4] at e; cases e
          | ok p =>
            cases h5 : (cell row (fun c => hd c - 1) ['n'] >>= convert cv.num) with
            | error _ => rw [h1, h2, h3, h4, h5] at e; cases e
            | ok n =>
              rw [h1, h2, h3, h4, h5] at e
              cases e
              obtain ⟨t, ht, hk⟩ := (hT k).1 h1
              exact ⟨⟨t, k, ht, hk, rfl⟩, (hX' x).1 h2, (hU' u).1 h3, (hP p).1 h4, (hN n).1 h5⟩
  · rintro ⟨⟨t, k, ht, hk, hty⟩, hx, hu, hp, hn⟩
    rw [(hT k).2 ⟨t, ht, hk⟩, (hX' _).2 hx, (hU' _).2 hu, (hP _).2 hp, (hN _).2 hn]
    show Except.ok _ = Except.ok _
    congr 1
    cases q
    simp only at hty
    subst hty
    rfl

theorem mapM_ok {α β : Type} (f : α → Except CsvErr β) : ∀ (l : List α) (r : List β), l.mapM f = .ok r ↔ List.Forall₂ (fun a b => f a = .ok b) l r
  | [], r => by
    simp only [List.mapM_nil, pure, Except.pure, Except.ok.injEq, List.forall₂_nil_left_iff]
    exact eq_comm
  | a :: l, r => by
    rw [List.mapM_cons]
    cases ha : f a with
    | error e =>
      constructor
      · intro h; cases h
      · intro h
        cases h with
        | cons h1 _ => rw [ha] at h1; cases h1
    | ok b =>
      have ih := mapM_ok f l
      cases hl : l.mapM f with
      | error e =>
        constructor
        · intro h; cases h
        · intro h
          cases h with
          | cons _ h2 => rw [(ih _).2 h2] at hl; cases hl
      | ok bs =>
        constructor
        · intro h
          cases h
          exact .cons ha ((ih bs).1 hl)
        · intro h
          cases h with
          | cons h1 h2 =>
            rw [ha] at h1; cases h1
            rw [(ih _).2 h2] at hl; cases hl
            rfl

/-- A text whose header has only known names and all of them is read as one particle per row, in order, each field taken
from the column of its name.  `IsText` leaves the number of leading empty lines, blank lines between rows, blanks, tabs and the order of the columns free. -/
theorem reads_named_columns {F : Type} {D : Nat} (cv : Conv F) {tbl : Table} {text : List Char} (h : IsText tbl text)
    (h1 : ∀ c ∈ tbl.header, c ∈ columns D) (h2 : ∀ c ∈ columns D, c ∈ tbl.header) (ps : List (Particle F D)) :
    inputFromCsv cv text = .ok ps ↔ List.Forall₂ (RowIsM cv tbl.header) tbl.rows ps := by
  obtain ⟨hd, ho⟩ := headerOK h1 h2
  rw [inputFromCsv_text cv h, ho.read]
  simp only
  rw [if_neg ho.all, mapM_ok]
  have : (fun row (q : Particle F D) => readParticle cv (fun c => hd c - 1) row = .ok q) = RowIsM cv tbl.header := by
    funext row q
    exact propext (readParticle_ok cv ho row q)
  rw [this]

/-- An unknown column name raises an error whatever the rows are. -/
theorem unknown_column {F : Type} {D : Nat} (cv : Conv F) {tbl : Table} {text : List Char} (h : IsText tbl text)
    (h1 : ∃ c ∈ tbl.header, c ∉ columns D) : inputFromCsv (D := D) cv text = .error .illegalHeader := by
  rw [inputFromCsv_text cv h, readHeader_unknown _ _ _ h1]

/-- A missing column raises an error whatever the rows are. -/
theorem missing_column {F : Type} {D : Nat} (cv : Conv F) {tbl : Table} {text : List Char} (h : IsText tbl text)
    (h1 : ∀ c ∈ tbl.header, c ∈ columns D) (h2 : ∃ c ∈ columns D, c ∉ tbl.header) :
    inputFromCsv (D := D) cv text = .error .missingHeader := by
  obtain ⟨hd, e, spec⟩ := readHeader_known tbl.header 0 (fun _ => 0) h1
  rw [inputFromCsv_text cv h, e]
  obtain ⟨c, hc, hn⟩ := h2
  simp only
  rw [if_pos ⟨c, hc, (spec c).1 hn⟩]

theorem splitChar_all {sep : Char} : ∀ {l : List Char}, (∀ c ∈ l, c = sep) → ∀ t ∈ splitChar sep l, t = []
  | [], _, t, ht => by simpa [splitChar] using ht
  | c :: cs, h, t, ht => by
    unfold splitChar at ht
    rw [if_pos (h c (by simp))] at ht
    rcases List.mem_cons.1 ht with e | e
    · exact e
    · exact splitChar_all (fun c' hc' => h c' (by simp [hc'])) t e

theorem skipEmpty_all : ∀ {ls : List (List Char)}, (∀ l ∈ ls, l = []) → skipEmpty ls = .error .ub
  | [], _ => rfl
  | l :: ls, h => by
    unfold skipEmpty
    rw [if_pos (by rw [h l (by simp)]; rfl)]
    exact skipEmpty_all (fun l' hl' => h l' (by simp [hl']))

/-- **C30.** A text without non-empty line makes the program read past the end of the lines. -/
theorem C30_no_line_is_undefined {F : Type} {D : Nat} (cv : Conv F) {text : List Char} (h : ∀ c ∈ text, c = '\n') :
    inputFromCsv (D := D) cv text = .error .ub := by
  unfold inputFromCsv
  rw [skipEmpty_all (splitChar_all h)]
  rfl

theorem lines_cases : ∀ {ls : List (List Char)}, (∀ l ∈ ls, l = []) ∨ ∃ k line lines, line ≠ [] ∧ ls = List.replicate k [] ++ line :: lines
  | [] => .inl (by simp)
  | l :: ls => by
    by_cases hl : l = []
    · subst hl
      rcases lines_cases (ls := ls) with h | ⟨k, line, lines, hne, e⟩
      · left
        intro l' hl'
        rcases List.mem_cons.1 hl' with e | e
        · exact e
        · exact h l' e
      · exact .inr ⟨k + 1, line, lines, hne, by rw [e, List.replicate_succ]; rfl⟩
    · exact .inr ⟨0, l, ls, hl, rfl⟩

theorem join_all_nil {sep : Char} : ∀ {ls : List (List Char)}, (∀ l ∈ ls, l = []) → ∀ c ∈ joinWith sep ls, c = sep
  | [], _, c, hc => by cases hc
  | [l], h, c, hc => by
    rw [h l (by simp)] at hc; cases hc
  | l :: l' :: ls, h, c, hc => by
    rw [joinWith_cons _ _ (by simp), h l (by simp)] at hc
    rcases List.mem_cons.1 hc with e | e
    · exact e
    · exact join_all_nil (fun l'' hl'' => h l'' (by simp only [List.mem_cons] at hl'' ⊢; exact .inr hl'')) c e

/-- **C30.** The theorems above cover every text: it either consists of line breaks only or shows a table. -/
theorem C30_every_text (text : List Char) : (∀ c ∈ text, c = '\n') ∨ ∃ tbl, IsText tbl text := by
  rcases lines_cases (ls := splitChar '\n' text) with h | ⟨k, line, lines, hne, e⟩
  · left
    have := join_all_nil (sep := '\n') h
    rwa [join_splitChar] at this
  · right
    have hn := not_mem_splitChar '\n' text
    rw [e] at hn
    obtain ⟨rows, hr⟩ := rowLines_exists (lines := lines) (fun l hl => hn l (by simp [hl]))
    have ht : text = joinWith '\n' (List.replicate k [] ++ line :: lines) := by rw [← e, join_splitChar]
    rcases line_cases (hn line (by simp)) with hb | ⟨cells, hc⟩
    · exact ⟨⟨[], rows⟩, k, line, lines, ht, .inr ⟨rfl, hne, hb⟩, hr⟩
    · exact ⟨⟨cells, rows⟩, k, line, lines, ht, .inl hc, hr⟩

theorem readParticle_congr {F : Type} {D : Nat} (cv : Conv F) {h1 h2 : List Char → Nat} {r1 r2 : List (List Char)}
    (h : ∀ c ∈ columns D, cell r1 h1 c = cell r2 h2 c) : readParticle (F := F) (D := D) cv h1 r1 = readParticle cv h2 r2 := by
  unfold readParticle
  rw [h _ colType_mem, h _ colp_mem, h _ coln_mem]
  have hx : (fun a => cell r1 h1 (colX D a) >>= convert cv.num) = (fun a => cell r2 h2 (colX D a) >>= convert cv.num) := by
    funext a; rw [h _ (colX_mem a)]
  have hu : (fun a => cell r1 h1 (colU D a) >>= convert cv.num) = (fun a => cell r2 h2 (colU D a) >>= convert cv.num) := by
    funext a; rw [h _ (colU_mem a)]
  rw [hx, hu]

/-- The result (also a failing one) does not depend on the order of the columns, on blanks or tabs, or on empty lines: two texts
whose rows have the same texts under the same column names are read alike. -/
theorem order_and_layout_independent {F : Type} {D : Nat} (cv : Conv F) {tbl tbl' : Table} {text text' : List Char}
    (h : IsText tbl text) (h' : IsText tbl' text')
    (h1 : ∀ c ∈ tbl.header, c ∈ columns D) (h2 : ∀ c ∈ columns D, c ∈ tbl.header)
    (h1' : ∀ c ∈ tbl'.header, c ∈ columns D) (h2' : ∀ c ∈ columns D, c ∈ tbl'.header)
    (hrows : List.Forall₂ (fun row row' => ∀ c ∈ columns D, ∀ t, CellIs tbl.header row c t ↔ CellIs tbl'.header row' c t) tbl.rows tbl'.rows) :
    inputFromCsv (F := F) (D := D) cv text = inputFromCsv cv text' := by
  obtain ⟨hd, ho⟩ := headerOK h1 h2
  obtain ⟨hd', ho'⟩ := headerOK h1' h2'
  rw [inputFromCsv_text cv h, inputFromCsv_text cv h', ho.read, ho'.read]
  simp only
  rw [if_neg ho.all, if_neg ho'.all]
  generalize tbl.rows = rows at hrows ⊢
  generalize tbl'.rows = rows' at hrows ⊢
  induction hrows with
  | nil => rfl
  | cons hr _ ih =>
    rw [List.mapM_cons, List.mapM_cons, ih]
    rw [readParticle_congr cv (h1 := fun c => hd c - 1) (h2 := fun c => hd' c - 1)]
    intro c hc
    have e1 := cell_ok ho hc
    have e2 := cell_ok ho' hc
    rename_i row row' _ _ _
    cases hx : cell row (fun c => hd c - 1) c with
    | ok t => exact ((e2 row' t).2 ((hr c hc t).1 ((e1 row t).1 hx))).symm
    | error e =>
      cases hy : cell row' (fun c => hd' c - 1) c with
      | ok t =>
        rw [(e1 row t).2 ((hr c hc t).2 ((e2 row' t).1 hy))] at hx
        cases hx
      | error e' =>
        have : ∀ {row : List (List Char)} {hd : List Char → Nat} {e : CsvErr}, cell row hd c = .error e → e = .ub := by
          intro row hd e he
          unfold cell at he
          split at he
          · cases he
          · cases he; rfl
        rw [this hx, this hy]

/-! ## Writing and reading back -/

/-- Printed numbers are non-empty and contain no separator (comma, blank, tab, line break). -/
structure Printer.Clean {F : Type} (pr : Printer F) : Prop where
  int_ne : ∀ k, pr.int k ≠ []
  int : ∀ k, ∀ c ∈ pr.int k, c ≠ ',' ∧ c ≠ ' ' ∧ c ≠ '\t' ∧ c ≠ '\n'
  num : ∀ v, ∀ c ∈ pr.num v, c ≠ ',' ∧ c ≠ ' ' ∧ c ≠ '\t' ∧ c ≠ '\n'

theorem commaSep_cons (t : List Char) {ts : List (List Char)} (h : ts ≠ []) : commaSep (t :: ts) = t ++ [',', ' '] ++ commaSep ts := by
  cases ts with
  | nil => exact absurd rfl h
  | cons a as => rfl

/-- A line of the output file shows its cells. -/
theorem commaSep_line : ∀ {ts : List (List Char)}, (∀ t ∈ ts, ∀ c ∈ t, c ≠ ',' ∧ c ≠ ' ' ∧ c ≠ '\t' ∧ c ≠ '\n') →
    '\n' ∉ commaSep ts ∧ (commaSep ts).filter (fun c => decide (¬ IsBlank c)) = joinWith ',' ts
  | [], _ => by simp [commaSep, joinWith]
  | [t], h => by
    have ht := h t (by simp)
    refine ⟨fun hm => (ht _ hm).2.2.2 rfl, ?_⟩
    show t.filter _ = t
    exact List.filter_eq_self.2 (fun c hc => by
      simp only [decide_eq_true_eq, IsBlank, not_or]
      exact ⟨(ht c hc).2.1, (ht c hc).2.2.1⟩)
  | t :: t' :: ts, h => by
    have ht := h t (by simp)
    obtain ⟨i1, i2⟩ := commaSep_line (ts := t' :: ts) (fun t'' h'' => h t'' (by simp only [List.mem_cons] at h'' ⊢; exact .inr h''))
    rw [commaSep_cons _ (by simp), joinWith_cons _ _ (by simp)]
    constructor
    · simp only [List.mem_append, not_or]
      exact ⟨⟨fun hm => (ht _ hm).2.2.2 rfl, by decide⟩, i1⟩
    · rw [List.filter_append, List.filter_append, i2]
      have e1 : t.filter (fun c => decide (¬ IsBlank c)) = t := List.filter_eq_self.2 (fun c hc => by
        simp only [decide_eq_true_eq, IsBlank, not_or]
        exact ⟨(ht c hc).2.1, (ht c hc).2.2.1⟩)
      have e2 : [',', ' '].filter (fun c => decide (¬ IsBlank c)) = [','] := by decide
      rw [e1, e2]
      simp

theorem columns_clean (D : Nat) : ∀ t ∈ columns D, ∀ c ∈ t, c ≠ ',' ∧ c ≠ ' ' ∧ c ≠ '\t' ∧ c ≠ '\n' := by
  intro t ht
  simp only [columns, List.mem_cons, List.mem_append, List.mem_map, List.mem_finRange, true_and, List.not_mem_nil, or_false] at ht
  rcases ht with rfl | (⟨a, rfl⟩ | ⟨a, rfl⟩) | rfl | rfl
  · decide
  · unfold colX; split
    · decide
    · split <;> decide
  · unfold colU; split
    · decide
    · split <;> decide
  · decide
  · decide

theorem fields_clean {F : Type} {D : Nat} {pr : Printer F} (hp : pr.Clean) (q : Particle F D) :
    ∀ t ∈ particleFields pr q, ∀ c ∈ t, c ≠ ',' ∧ c ≠ ' ' ∧ c ≠ '\t' ∧ c ≠ '\n' := by
  intro t ht
  simp only [particleFields, List.mem_cons, List.mem_append, List.mem_map, List.mem_finRange, true_and, List.not_mem_nil, or_false] at ht
  rcases ht with rfl | (⟨a, rfl⟩ | ⟨a, rfl⟩) | rfl | rfl
  · exact hp.int _
  all_goals exact hp.num _

theorem lineOf_commaSep {ts : List (List Char)} (h : ∀ t ∈ ts, ∀ c ∈ t, c ≠ ',' ∧ c ≠ ' ' ∧ c ≠ '\t' ∧ c ≠ '\n')
    {t : List Char} {ts' : List (List Char)} (hts : ts = t :: ts') (hne : t ≠ []) : LineOf ts (commaSep ts) := by
  obtain ⟨h1, h2⟩ := commaSep_line h
  refine ⟨h1, fun t ht hm => (h t ht _ hm).1 rfl, by rw [hts]; simp, ?_, h2⟩
  cases t with
  | nil => exact absurd rfl hne
  | cons c t =>
    have hc := h (c :: t) (by rw [hts]; simp) c (by simp)
    refine ⟨c, ?_, by simp only [IsBlank, not_or]; exact ⟨hc.2.1, hc.2.2.1⟩⟩
    rw [hts]
    cases ts' with
    | nil => simp [commaSep]
    | cons a as => simp [commaSep]

/-- The output file shows the table of the particles. -/
theorem output_isText {F : Type} {D : Nat} {pr : Printer F} (hp : pr.Clean) (ps : List (Particle F D)) :
    IsText ⟨columns D, ps.map (particleFields pr)⟩ (outputToCsv pr ps) := by
  refine ⟨0, commaSep (columns D), ps.map (fun q => commaSep (particleFields pr q)) ++ [[]], ?_, .inl ?_, ?_⟩
  · unfold outputToCsv
    simp only [List.replicate_zero, List.nil_append]
    rw [joinWith_cons _ _ (by simp), List.append_assoc]
    congr 1
    show '\n' :: _ = _
    congr 1
    induction ps with
    | nil => rfl
    | cons q ps ih =>
      rw [List.flatMap_cons, List.map_cons, List.cons_append, joinWith_cons _ _ (by simp), ← ih]
      simp
  · exact lineOf_commaSep (columns_clean D) (t := colType) rfl (by decide)
  · show RowLines (ps.map _) _
    induction ps with
    | nil => exact .blank (by intro c hc; cases hc) .nil
    | cons q ps ih =>
      exact .row (lineOf_commaSep (fields_clean hp q) rfl (hp.int_ne _)) ih

theorem columns_eq_two : columns 2 = ["Type".toList, "x".toList, "z".toList, "u".toList, "w".toList, "p".toList, "n".toList] := by decide

theorem columns_eq_three : columns 3 =
    ["Type".toList, "x".toList, "y".toList, "z".toList, "u".toList, "v".toList, "w".toList, "p".toList, "n".toList] := by decide

theorem cellIs_columns {D : Nat} (hD : D = 2 ∨ D = 3) {row : List (List Char)} (k : Nat) {name t : List Char}
    (h1 : (columns D)[k]? = some name) (h2 : row[k]? = some t) : CellIs (columns D) row name t := by
  refine ⟨k, h1, fun k' hk' e => ?_, h2⟩
  have hnd : (columns D).Nodup := by
    rcases hD with rfl | rfl <;> decide
  have hl : k' < (columns D).length := by
    by_contra hc
    rw [List.getElem?_eq_none (by omega)] at e; cases e
  have hl' : k < (columns D).length := by omega
  rw [List.getElem?_eq_getElem hl] at e
  rw [List.getElem?_eq_getElem hl'] at h1
  have := (List.Nodup.getElem_inj_iff hnd (hi := hl') (hj := hl)).1 (by simpa using h1.trans e.symm)
  omega

theorem toInt_ofInt (k : Int) : PType.ofInt (PType.ofInt k).toInt = PType.ofInt k := by
  unfold PType.ofInt
  split
  · rfl
  · split
    · rfl
    · split
      · rfl
      · split
        · rfl
        · rename_i h0 h1 h2 h3
          simp [PType.toInt, h0, h1, h2, h3]

/-- A printed row describes the particle with every number replaced by what its text parses to. -/
theorem rowIs_fields {F : Type} {D : Nat} (hD : D = 2 ∨ D = 3) {pr : Printer F} {cv : Conv F} (hint : ∀ k, cv.int (pr.int k) = some k)
    {q q' : Particle F D} (hty : ∃ k, q.ty = PType.ofInt k) (ht : q'.ty = q.ty)
    (hx : ∀ a, cv.num (pr.num (q.x a)) = some (q'.x a)) (hu : ∀ a, cv.num (pr.num (q.u a)) = some (q'.u a))
    (hp : cv.num (pr.num q.p) = some q'.p) (hn : cv.num (pr.num q.n) = some q'.n) :
    RowIsM cv (columns D) (particleFields pr q) q' := by
  obtain ⟨k, hk⟩ := hty
  rcases hD with rfl | rfl
  · refine ⟨⟨_, _, cellIs_columns (.inl rfl) 0 rfl rfl, hint _, ?_⟩, fun a => ?_, fun a => ?_, ⟨_, cellIs_columns (.inl rfl) 5 rfl rfl, hp⟩,
      ⟨_, cellIs_columns (.inl rfl) 6 rfl rfl, hn⟩⟩
    · rw [ht, hk, toInt_ofInt]
    · match a with
      | 0 => exact ⟨_, cellIs_columns (.inl rfl) 1 rfl rfl, hx 0⟩
      | 1 => exact ⟨_, cellIs_columns (.inl rfl) 2 rfl rfl, hx 1⟩
    · match a with
      | 0 => exact ⟨_, cellIs_columns (.inl rfl) 3 rfl rfl, hu 0⟩
      | 1 => exact ⟨_, cellIs_columns (.inl rfl) 4 rfl rfl, hu 1⟩
  · refine ⟨⟨_, _, cellIs_columns (.inr rfl) 0 rfl rfl, hint _, ?_⟩, fun a => ?_, fun a => ?_, ⟨_, cellIs_columns (.inr rfl) 7 rfl rfl, hp⟩,
      ⟨_, cellIs_columns (.inr rfl) 8 rfl rfl, hn⟩⟩
    · rw [ht, hk, toInt_ofInt]
    · match a with
      | 0 => exact ⟨_, cellIs_columns (.inr rfl) 1 rfl rfl, hx 0⟩
      | 1 => exact ⟨_, cellIs_columns (.inr rfl) 2 rfl rfl, hx 1⟩
      | 2 => exact ⟨_, cellIs_columns (.inr rfl) 3 rfl rfl, hx 2⟩
    · match a with
      | 0 => exact ⟨_, cellIs_columns (.inr rfl) 4 rfl rfl, hu 0⟩
      | 1 => exact ⟨_, cellIs_columns (.inr rfl) 5 rfl rfl, hu 1⟩
      | 2 => exact ⟨_, cellIs_columns (.inr rfl) 6 rfl rfl, hu 2⟩

/-- Reading an output file gives the same particles in the same order: same types, every number `v` replaced by `rt v`, the value to
which its printed text parses (`rt v = v` if the conversions are exact). -/
theorem output_can_be_read_back {F : Type} {D : Nat} (hD : D = 2 ∨ D = 3) {pr : Printer F} {cv : Conv F} (hpr : pr.Clean)
    (hint : ∀ k, cv.int (pr.int k) = some k) (rt : F → F) (hnum : ∀ v, cv.num (pr.num v) = some (rt v))
    (ps : List (Particle F D)) (hty : ∀ q ∈ ps, ∃ k, q.ty = PType.ofInt k) :
    inputFromCsv cv (outputToCsv pr ps) =
      .ok (ps.map (fun q => { x := fun a => rt (q.x a), u := fun a => rt (q.u a), p := rt q.p, n := rt q.n, ty := q.ty })) := by
  rw [reads_named_columns cv (output_isText hpr ps) (fun c hc => hc) (fun c hc => hc)]
  simp only
  induction ps with
  | nil => exact .nil
  | cons q ps ih =>
    refine .cons ?_ (ih (fun q' hq' => hty q' (by simp [hq'])))
    exact rowIs_fields hD hint (hty q (by simp)) rfl (fun a => hnum _) (fun a => hnum _) (hnum _) (hnum _)

/-! ## The properties -/

theorem columns_names {D : Nat} (hD : D = 2 ∨ D = 3) : columns D = columnNames D := by
  rcases hD with rfl | rfl <;> decide

theorem colX_name {D : Nat} (hD : D = 2 ∨ D = 3) (a : Fin D) : ∃ name, (posNames D)[a.val]? = some name ∧ name.toList = colX D a := by
  rcases hD with rfl | rfl
  · match a with
    | 0 => exact ⟨"x", rfl, by decide⟩
    | 1 => exact ⟨"z", rfl, by decide⟩
  · match a with
    | 0 => exact ⟨"x", rfl, by decide⟩
    | 1 => exact ⟨"y", rfl, by decide⟩
    | 2 => exact ⟨"z", rfl, by decide⟩

theorem colU_name {D : Nat} (hD : D = 2 ∨ D = 3) (a : Fin D) : ∃ name, (velNames D)[a.val]? = some name ∧ name.toList = colU D a := by
  rcases hD with rfl | rfl
  · match a with
    | 0 => exact ⟨"u", rfl, by decide⟩
    | 1 => exact ⟨"w", rfl, by decide⟩
  · match a with
    | 0 => exact ⟨"u", rfl, by decide⟩
    | 1 => exact ⟨"v", rfl, by decide⟩
    | 2 => exact ⟨"w", rfl, by decide⟩

theorem ofInt_eq (k : Int) : PType.ofInt k = typeOfNumber k := by
  unfold PType.ofInt typeOfNumber
  split
  · rename_i h; subst h; rfl
  · split
    · rename_i h; subst h; rfl
    · split
      · rename_i h; subst h; rfl
      · split
        · rename_i h; subst h; rfl
        · split <;> first | (rename_i h; exact absurd rfl h) | contradiction | rfl

theorem rowIs_iff {F : Type} {D : Nat} (hD : D = 2 ∨ D = 3) (cv : Conv F) (header row : List (List Char)) (q : Particle F D) :
    RowIsM cv header row q ↔ RowIs cv header row q := by
  constructor
  · rintro ⟨h1, h2, h3, h4, h5⟩
    refine ⟨?_, fun a => ?_, fun a => ?_, h4, h5⟩
    · obtain ⟨t, k, e1, e2, e3⟩ := h1
      exact ⟨t, k, e1, e2, by rw [e3, ofInt_eq]⟩
    · obtain ⟨t, e1, e2⟩ := h2 a
      obtain ⟨name, n1, n2⟩ := colX_name hD a
      exact ⟨name, t, n1, by rw [n2]; exact e1, e2⟩
    · obtain ⟨t, e1, e2⟩ := h3 a
      obtain ⟨name, n1, n2⟩ := colU_name hD a
      exact ⟨name, t, n1, by rw [n2]; exact e1, e2⟩
  · rintro ⟨h1, h2, h3, h4, h5⟩
    refine ⟨?_, fun a => ?_, fun a => ?_, h4, h5⟩
    · obtain ⟨t, k, e1, e2, e3⟩ := h1
      exact ⟨t, k, e1, e2, by rw [e3, ofInt_eq]⟩
    · obtain ⟨name', t, e0, e1, e2⟩ := h2 a
      obtain ⟨name, n1, n2⟩ := colX_name hD a
      rw [n1] at e0; cases e0
      exact ⟨t, by rw [← n2]; exact e1, e2⟩
    · obtain ⟨name', t, e0, e1, e2⟩ := h3 a
      obtain ⟨name, n1, n2⟩ := colU_name hD a
      rw [n1] at e0; cases e0
      exact ⟨t, by rw [← n2]; exact e1, e2⟩

/-- **C30.** A text whose header has only known names and all of them is read as one particle per row, in order, each field taken
from the column of its name.  `IsText` leaves the number of leading empty lines, blank lines between rows, blanks, tabs and the order of the columns free. -/
theorem C30_reads_named_columns {F : Type} {D : Nat} (hD : D = 2 ∨ D = 3) (cv : Conv F) {tbl : Table} {text : List Char} (h : IsText tbl text)
    (h1 : ∀ c ∈ tbl.header, c ∈ columnNames D) (h2 : ∀ c ∈ columnNames D, c ∈ tbl.header) (ps : List (Particle F D)) :
    inputFromCsv cv text = .ok ps ↔ List.Forall₂ (RowIs cv tbl.header) tbl.rows ps := by
  rw [← columns_names hD] at h1 h2
  rw [reads_named_columns cv h h1 h2]
  have : (RowIsM cv tbl.header : List (List Char) → Particle F D → Prop) = RowIs cv tbl.header := by
    funext row q; exact propext (rowIs_iff hD cv _ row q)
  rw [this]

/-- **C30.** An unknown column name raises an error whatever the rows are. -/
theorem C30_unknown_column {F : Type} {D : Nat} (hD : D = 2 ∨ D = 3) (cv : Conv F) {tbl : Table} {text : List Char} (h : IsText tbl text)
    (h1 : ∃ c ∈ tbl.header, c ∉ columnNames D) : inputFromCsv (D := D) cv text = .error .illegalHeader :=
  unknown_column cv h (by rw [columns_names hD]; exact h1)

/-- **C30.** A missing column raises an error whatever the rows are. -/
theorem C30_missing_column {F : Type} {D : Nat} (hD : D = 2 ∨ D = 3) (cv : Conv F) {tbl : Table} {text : List Char} (h : IsText tbl text)
    (h1 : ∀ c ∈ tbl.header, c ∈ columnNames D) (h2 : ∃ c ∈ columnNames D, c ∉ tbl.header) :
    inputFromCsv (D := D) cv text = .error .missingHeader := by
  rw [← columns_names hD] at h1 h2
  exact missing_column cv h h1 h2

/-- **C30.** The result (also a failing one) does not depend on the order of the columns, on blanks or tabs, or on empty lines: two texts
whose rows have the same texts under the same column names are read alike. -/
theorem C30_order_and_layout_independent {F : Type} {D : Nat} (hD : D = 2 ∨ D = 3) (cv : Conv F) {tbl tbl' : Table} {text text' : List Char}
    (h : IsText tbl text) (h' : IsText tbl' text')
    (h1 : ∀ c ∈ tbl.header, c ∈ columnNames D) (h2 : ∀ c ∈ columnNames D, c ∈ tbl.header)
    (h1' : ∀ c ∈ tbl'.header, c ∈ columnNames D) (h2' : ∀ c ∈ columnNames D, c ∈ tbl'.header)
    (hrows : List.Forall₂ (fun row row' => ∀ c ∈ columnNames D, ∀ t, CellIs tbl.header row c t ↔ CellIs tbl'.header row' c t) tbl.rows tbl'.rows) :
    inputFromCsv (F := F) (D := D) cv text = inputFromCsv cv text' := by
  rw [← columns_names hD] at h1 h2 h1' h2' hrows
  exact order_and_layout_independent cv h h' h1 h2 h1' h2' hrows

/-- **C31.** Reading an output file gives the same particles in the same order: same types, every number `v` replaced by `rt v`, the value to
which its printed text parses (`rt v = v` if the conversions are exact). -/
theorem C31_output_can_be_read_back {F : Type} {D : Nat} (hD : D = 2 ∨ D = 3) {pr : Printer F} {cv : Conv F} (hpr : pr.Clean)
    (hint : ∀ k, cv.int (pr.int k) = some k) (rt : F → F) (hnum : ∀ v, cv.num (pr.num v) = some (rt v))
    (ps : List (Particle F D)) (hty : ∀ q ∈ ps, ∃ k, q.ty = typeOfNumber k) :
    inputFromCsv cv (outputToCsv pr ps) =
      .ok (ps.map (fun q => { x := fun a => rt (q.x a), u := fun a => rt (q.u a), p := rt q.p, n := rt q.n, ty := q.ty })) :=
  output_can_be_read_back hD hpr hint rt hnum ps (fun q hq => by
    obtain ⟨k, hk⟩ := hty q hq
    exact ⟨k, by rw [hk, ofInt_eq]⟩)

/-- **C31.** What a file says to any other reader of CSV files: it shows the table with the column names `Type, x, (y,) z, u, (v,) w, p, n` and one row per particle, in the
order of the particles, with the number of the type (0 fluid, 1 wall, 2 dummy, 3 disabled) and the numbers as printed. -/
theorem C31_output_shows_the_particles {F : Type} {D : Nat} (hD : D = 2 ∨ D = 3) {pr : Printer F} (hpr : pr.Clean) (ps : List (Particle F D)) :
    ∃ number : PType → Int, number .incompressibleNewton = 0 ∧ number .wall = 1 ∧ number .dummy = 2 ∧ number .disabled = 3 ∧
      (∀ k, number (.other k) = k) ∧
      IsText ⟨columnNames D, ps.map (csvRow pr number)⟩ (outputToCsv pr ps) := by
  refine ⟨PType.toInt, rfl, rfl, rfl, rfl, fun _ => rfl, ?_⟩
  have e : (csvRow pr PType.toInt : Particle F D → _) = particleFields pr := by
    funext q
    unfold csvRow particleFields
    simp [List.ofFn_eq_map]
  rw [e, ← columns_names hD]
  exact output_isText hpr ps

/-! ## Examples -/

/-- Conversions for the examples: integers written in unary (`1`, `11`, ...), with a sign. -/
def unaryPrint (k : Int) : List Char := (if k < 0 then '-' else '+') :: List.replicate k.natAbs '1'

def unaryParse : List Char → Option Int
  | '+' :: t => if t.all (· == '1') then some t.length else none
  | '-' :: t => if t.all (· == '1') then some (-(t.length : Int)) else none
  | _ => none

theorem unary_roundtrip (k : Int) : unaryParse (unaryPrint k) = some k := by
  unfold unaryPrint
  split
  · simp only [unaryParse]
    rw [if_pos (by simp)]
    simp only [List.length_replicate, Option.some.injEq]; omega
  · simp only [unaryParse]
    rw [if_pos (by simp)]
    simp only [List.length_replicate, Option.some.injEq]; omega

theorem unary_clean (k : Int) : unaryPrint k ≠ [] ∧ ∀ c ∈ unaryPrint k, c ≠ ',' ∧ c ≠ ' ' ∧ c ≠ '\t' ∧ c ≠ '\n' := by
  refine ⟨by simp [unaryPrint], fun c hc => ?_⟩
  unfold unaryPrint at hc
  rcases List.mem_cons.1 hc with h | h
  · subst h; split <;> decide
  · rw [List.eq_of_mem_replicate h]; decide

def unaryPrinter : Printer Int := ⟨unaryPrint, unaryPrint⟩
def unaryConv : Conv Int := ⟨unaryParse, unaryParse⟩

/-- C31 applies to concrete printers and particles (one of them of an unknown type 7). -/
example : inputFromCsv (D := 2) unaryConv (outputToCsv unaryPrinter
      [{ x := ![1, -2], u := ![3, 0], p := 5, n := 6, ty := .wall }, { x := ![4, 4], u := ![0, 1], p := 0, n := 2, ty := .other 7 }]) =
    .ok [{ x := ![1, -2], u := ![3, 0], p := 5, n := 6, ty := .wall }, { x := ![4, 4], u := ![0, 1], p := 0, n := 2, ty := .other 7 }] :=
  C31_output_can_be_read_back (.inl rfl) ⟨fun k => (unary_clean k).1, fun k => (unary_clean k).2, fun k => (unary_clean k).2⟩ unary_roundtrip id
    unary_roundtrip _ (by
      intro q hq
      simp only [List.mem_cons, List.not_mem_nil, or_false] at hq
      rcases hq with rfl | rfl
      · exact ⟨1, rfl⟩
      · exact ⟨7, rfl⟩)

/-- A text with permuted columns, blanks, tabs and empty lines that shows a table (C30). -/
example : IsText ⟨["z", "x", "Type", "u", "w", "n", "p"].map String.toList, [["+1", "-1", "+", "+", "+", "+11", "+111"].map String.toList]⟩
    "\n\nz ,x, \tType,u,w,n,p\n   \n +1, -1,+,+,\t+,+11,+111\n".toList := by
  refine ⟨2, "z ,x, \tType,u,w,n,p".toList, ["   ".toList, " +1, -1,+,+,\t+,+11,+111".toList, []], by decide, .inl ?_,
    .blank (by unfold BlankLine; decide) (.row ?_ (.blank (by unfold BlankLine; decide) .nil))⟩ <;>
  · unfold LineOf; decide

/-- The header hypotheses of C30 hold for it. -/
example : (∀ c ∈ ["z", "x", "Type", "u", "w", "n", "p"].map String.toList, c ∈ columnNames 2) ∧
    (∀ c ∈ columnNames 2, c ∈ ["z", "x", "Type", "u", "w", "n", "p"].map String.toList) := by decide

/-- A CRLF header line is rejected: the last name is `"n\r"`. -/
example : inputFromCsv (D := 2) unaryConv "Type,x,z,u,w,p,n\r\n".toList = .error .illegalHeader := by rfl

end OpenMps
