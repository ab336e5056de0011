import Verif.PropsCsv
import Verif.FileModel
/-
C98: CSV files of other programs (RFC 4180) are read as the tables they stand for.
-/
set_option linter.unusedSimpArgs false
set_option linter.unusedVariables false
namespace MVault.Csv

/-! ### Specification: RFC 4180, with any separator, and line ends CR LF, LF or CR -/

/-- The texts of a field: the field itself, if it has none of the special characters, or the field in quotation marks, its quotation marks doubled. -/
inductive FieldText (sep : Char) : List Char → List Char → Prop
  | plain (f) : (∀ c ∈ f, c ≠ sep ∧ c ≠ '"' ∧ c ≠ '\r' ∧ c ≠ '\n') → FieldText sep f f
  | quoted (f) : FieldText sep f ('"' :: (f.flatMap fun c => if c = '"' then ['"', '"'] else [c]) ++ ['"'])

/-- The texts of a line: its fields, at least one, with separators between them. -/
inductive LineText (sep : Char) : List (List Char) → List Char → Prop
  | one (f t) : FieldText sep f t → LineText sep [f] t
  | more (f t fs ts) : FieldText sep f t → LineText sep fs ts → LineText sep (f :: fs) (t ++ sep :: ts)

/-- The texts of a table. Each line has its own choice of quotation marks and of the line end; the last line end may be missing. -/
inductive TableText (sep : Char) : List (List (List Char)) → List Char → Prop
  | empty : TableText sep [] []
  | last (row t) : LineText sep row t → row ≠ [[]] → TableText sep [row] t
  | line (row t stop rows rest) : LineText sep row t → stop = ['\r', '\n'] ∨ ((stop = ['\n'] ∨ stop = ['\r']) ∧ rest.head? ≠ some '\n') →
      TableText sep rows rest → TableText sep (row :: rows) (t ++ stop ++ rest)

/-! ### Lemmas -/

theorem scan_fieldText {sep : Char} {f t : List Char} (h : FieldText sep f t) (rest : List Char) (row : List (List Char)) (hr : rest.head? ≠ some '"') :
    scan sep (t ++ rest) false [] row = scan sep rest false f row := by
  cases h with
  | plain h =>
    rw [scan_plain]
    · simp
    · intro c hc; exact ⟨(h c hc).2.2.1, (h c hc).2.2.2, (h c hc).2.1, (h c hc).1⟩
  | quoted =>
    simp only [List.cons_append, List.append_assoc]
    rw [scan]
    simp only [show (('"' : Char) == '\r') = false from rfl, show (('"' : Char) == '\n') = false from rfl,
      Bool.or_false, Bool.and_false, Bool.false_eq_true, if_false, beq_self_eq_true, if_true, Bool.not_false]
    rw [show (f.flatMap fun c => if c = '"' then ['"', '"'] else [c]) = dbl f from rfl, scan_dbl]
    simp only [List.nil_append]
    rw [scan]
    simp only [Bool.not_true, Bool.false_and, Bool.false_eq_true, if_false, beq_self_eq_true, if_true]
    cases rest with
    | nil => rfl
    | cons d r =>
      have : d ≠ '"' := by simpa using hr
      simp [this]

theorem trimLast_cons {f : List Char} {fs : List (List Char)} (h : fs ≠ []) : trimLast (f :: fs) = f :: trimLast fs := by
  cases fs with
  | nil => exact absurd rfl h
  | cons g gs =>
    simp only [trimLast, List.getLast?_cons_cons]
    split <;> simp

theorem LineText.ne {sep : Char} {row : List (List Char)} {t : List Char} (h : LineText sep row t) : row ≠ [] := by cases h <;> simp

/-- A line up to its end. -/
theorem scan_lineText {sep : Char} (hs : GoodSep sep) {row : List (List Char)} {t : List Char} (h : LineText sep row t) (rest : List Char) (hr : rest.head? ≠ some '"') :
    ∀ acc, ∃ init lst, row = init ++ [lst] ∧ scan sep (t ++ rest) false [] acc = scan sep rest false lst (acc ++ init) := by
  induction h with
  | one f t h => exact fun acc => ⟨[], f, rfl, by rw [scan_fieldText h _ _ hr]; simp⟩
  | more f t fs ts h _ ih =>
    intro acc
    obtain ⟨init, lst, e1, e2⟩ := ih (acc ++ [f])
    refine ⟨f :: init, lst, by rw [e1]; rfl, ?_⟩
    rw [List.append_assoc, scan_fieldText h _ _ (by simp [hs.1]), List.cons_append, scan]
    have h1 : (sep == '\r' || sep == '\n') = false := by simp [hs.2.1, hs.2.2]
    have h2 : (sep == '"') = false := by simp [hs.1]
    simp only [h1, h2, Bool.and_false, Bool.false_eq_true, if_false, beq_self_eq_true, Bool.not_false, Bool.and_true, if_true]
    rw [e2]; simp

theorem trim_snoc (init : List (List Char)) (lst : List Char) : trimLast (init ++ [lst]) = if lst.isEmpty then init else init ++ [lst] := by
  cases lst <;> simp [trimLast]

theorem rowsOf_table {sep : Char} (hs : GoodSep sep) {rows : List (List (List Char))} {text : List Char} (h : TableText sep rows text) :
    ∀ n, rows.length < n → rowsOf sep n text = some (rows.map trimLast) := by
  induction h with
  | empty =>
    intro n hn
    obtain ⟨m, rfl⟩ : ∃ m, n = m + 1 := ⟨n - 1, by simp at hn; omega⟩
    exact rowsOf_nil _ _
  | last row t h hne =>
    intro n hn
    obtain ⟨m, rfl⟩ : ∃ m, n = m + 2 := ⟨n - 2, by simp at hn; omega⟩
    obtain ⟨init, lst, e1, e2⟩ := scan_lineText hs h [] (by simp) []
    rw [List.append_nil] at e2
    have hrow : trimLast row ≠ [] := by
      rw [e1, trim_snoc]
      intro hc
      split at hc
      · rename_i he
        rw [hc, List.isEmpty_iff.1 he] at e1
        exact hne e1
      · simp at hc
    rw [rowsOf, e2, scan]
    rw [e1, trim_snoc] at hrow
    simp only [List.nil_append]
    have : (!(if lst.isEmpty = true then init else init ++ [lst]).isEmpty) = true := by simpa using hrow
    rw [this]
    simp only [rowsOf_nil, Option.map_some, List.map_cons, List.map_nil, e1, trim_snoc]
  | line row t stop rows rest h hst _ ih =>
    intro n hn
    obtain ⟨m, rfl⟩ : ∃ m, n = m + 1 := ⟨n - 1, by simp at hn; omega⟩
    have hq : (stop ++ rest).head? ≠ some '"' := by
      rcases hst with rfl | ⟨rfl | rfl, _⟩ <;> simp
    obtain ⟨init, lst, e1, e2⟩ := scan_lineText hs h (stop ++ rest) hq []
    rw [List.append_assoc, rowsOf, e2]
    have hsc : scan sep (stop ++ rest) false lst ([] ++ init) = (true, trimLast row, rest) := by
      rw [e1, trim_snoc]
      rcases hst with rfl | ⟨rfl | rfl, hh⟩
      · simp [scan]
      · have : (rest.head? == some '\n') = false := by simpa using hh
        simp [scan, this]
      · have : (rest.head? == some '\n') = false := by simpa using hh
        simp [scan, this]
    rw [hsc]
    simp only [ih m (by simp at hn; omega), Option.map_some, List.map_cons]

theorem TableText.len {sep : Char} {rows : List (List (List Char))} {text : List Char} (h : TableText sep rows text) : rows.length ≤ text.length := by
  induction h with
  | empty => simp
  | last row t h hne =>
    cases t with
    | cons => simp
    | nil =>
      exfalso
      generalize ht : ([] : List Char) = t' at h
      cases h with
      | one f _ h =>
        cases h with
        | plain _ => rw [← ht] at hne; exact hne rfl
        | quoted => simp at ht
      | more => simp at ht
  | line row t stop rows rest h hst _ ih =>
    have : 1 ≤ stop.length := by rcases hst with rfl | ⟨rfl | rfl, _⟩ <;> simp
    simp; omega

/-! ### Theorems -/

/-- **C98.** Every CSV text of a table is read as that table, except that an empty field at the end of a line is dropped, however the fields are quoted, whichever line
ends are used, with or without a line end after the last line, and whether the file is read as a whole or block by block. -/
theorem C98_reads_csv (block big : Nat) (hb : 1 < block) (hbig : block ≤ big) {sep : Char} (hs : GoodSep sep) {rows : List (List (List Char))} {text : List Char}
    (h : TableText sep rows text) :
    parseFile block big sep text = some (rows.map fun row => if row.getLast? = some [] then row.dropLast else row) := by
  have hl := h.len
  have := rowsOf_table hs h (text.length + 1) (by omega)
  unfold parseFile
  split
  · rw [readRows_chunk sep _ block hb _ (by omega), this]; rfl
  · rw [readRows_small, this]; rfl

/-- **C98.** If no line ends with an empty field, the table comes back exactly. -/
theorem C98_reads_csv_exactly (block big : Nat) (hb : 1 < block) (hbig : block ≤ big) {sep : Char} (hs : GoodSep sep) {rows : List (List (List Char))} {text : List Char}
    (h : TableText sep rows text) (hl : ∀ row ∈ rows, row.getLast? ≠ some []) : parseFile block big sep text = some rows := by
  rw [C98_reads_csv block big hb hbig hs h]
  congr 1
  conv => rhs; rw [← List.map_id rows]
  exact List.map_congr_left fun row hr => by rw [if_neg (hl row hr)]; rfl

/-- **C98.** What `SaveToFile` writes is such a text: no carriage returns or separators in unquoted fields, and at least one column. -/
theorem C98_written_is_csv {sep : Char} (hs : GoodSep sep) {rows : List (List (List Char))} (hr : ∀ row ∈ rows, row ≠ [] ∧ ∀ f ∈ row, Clean sep f) :
    TableText sep rows (writeRows [sep] rows) := by
  have hfield : ∀ f, Clean sep f → FieldText sep f (formatCsv f) := by
    intro f hf
    rw [formatCsv_eq]
    split
    · exact .quoted f
    · rename_i hno
      have hno : f.any special = false := by simpa using hno
      rw [dbl_plain f hno]
      refine .plain f fun c hc => ?_
      have hsp : special c = false := by have := List.any_eq_false.1 hno c hc; simpa using this
      simp [special] at hsp
      rcases clean_fieldOk hf with h | h
      · rw [hno] at h; cases h
      · exact ⟨(h c hc).2, hsp.1.1, (h c hc).1, hsp.2⟩
  have hline : ∀ row : List (List Char), row ≠ [] → (∀ f ∈ row, Clean sep f) → LineText sep row (writeRow [sep] row) := by
    intro row
    induction row with
    | nil => intro h; exact absurd rfl h
    | cons f fs ih =>
      intro _ hf
      cases fs with
      | nil => exact .one _ _ (hfield f (hf f (by simp)))
      | cons g gs =>
        rw [writeRow, List.append_assoc, List.singleton_append]
        exact .more _ _ _ _ (hfield f (hf f (by simp))) (ih (by simp) fun x hx => hf x (by simp at hx ⊢; right; exact hx))
  induction rows with
  | nil => exact .empty
  | cons r rs ih =>
    have : writeRows [sep] (r :: rs) = writeRow [sep] r ++ ['\r', '\n'] ++ writeRows [sep] rs := rfl
    rw [this]
    exact .line _ _ _ _ _ (hline r (hr r (by simp)).1 (hr r (by simp)).2) (.inl rfl) (ih fun x hx => hr x (by simp [hx]))

/-- **C98**, the failing side: after a line that ends with LF, or with CR, an empty line is lost, so a table of one column loses its empty fields and the lines after it
are counted wrongly; CR LF keeps it. -/
theorem C98_blank_line_refuted : (∃ row t rest, LineText ',' row t ∧ row = [[]] ∧ t ++ ['\n'] ++ rest = ['\n', 'b'] ∧ TableText ',' [[['b']]] rest) ∧
    parseFile 4096 10485760 ',' ['a', '\n', '\n', 'b'] = some [[['a']], [['b']]] ∧
    parseFile 4096 10485760 ',' ['a', '\r', '\n', '\r', '\n', 'b'] = some [[['a']], [], [['b']]] := by
  refine ⟨⟨[[]], [], ['b'], .one _ _ (.plain _ (by simp)), rfl, rfl, .last _ _ (.one _ _ (.plain _ (by decide))) (by decide)⟩, ?_, ?_⟩
  · unfold parseFile
    rw [if_neg (by decide), readRows_small]
    simp [rowsOf, scan]
  · unfold parseFile
    rw [if_neg (by decide), readRows_small]
    simp [rowsOf, scan]

/-- **C98**, the failing side: a last line that holds one empty field in quotation marks and has no line end is lost. -/
theorem C98_last_empty_refuted : LineText ',' [[]] ['"', '"'] ∧ parseFile 4096 10485760 ',' ['a', '\r', '\n', '"', '"'] = some [[['a']]] := by
  refine ⟨.one _ _ (.quoted []), ?_⟩
  unfold parseFile
  rw [if_neg (by decide), readRows_small]
  simp [rowsOf, scan]

/-- A table written with unnecessary quotation marks, three kinds of line ends, an empty field inside and no last line end. -/
theorem sampleTable : TableText ';' [[['a'], ['b', ';', '"']], [[], ['c']], [['\n']]] ['"', 'a', '"', ';', '"', 'b', ';', '"', '"', '"', '\n', ';', 'c', '\r', '"', '\n', '"'] := by
  refine .line [['a'], ['b', ';', '"']] ['"', 'a', '"', ';', '"', 'b', ';', '"', '"', '"'] ['\n'] _ _
    (.more ['a'] ['"', 'a', '"'] _ ['"', 'b', ';', '"', '"', '"'] (.quoted ['a']) (.one _ _ (.quoted ['b', ';', '"']))) (.inr ⟨.inl rfl, by decide⟩)
    (.line [[], ['c']] [';', 'c'] ['\r'] _ _ (.more [] [] _ ['c'] (.plain _ (by simp)) (.one _ _ (.plain _ (by decide)))) (.inr ⟨.inr rfl, by decide⟩)
      (.last [['\n']] ['"', '\n', '"'] (.one _ _ (.quoted ['\n'])) (by decide)))

/-- Non-vacuity of `C98_reads_csv` and `C98_reads_csv_exactly`. -/
example : parseFile 4096 10485760 ';' ['"', 'a', '"', ';', '"', 'b', ';', '"', '"', '"', '\n', ';', 'c', '\r', '"', '\n', '"'] =
    some [[['a'], ['b', ';', '"']], [[], ['c']], [['\n']]] :=
  C98_reads_csv_exactly 4096 10485760 (by decide) (by decide) (by decide) sampleTable (by decide)

/-- Non-vacuity of `C98_written_is_csv`. -/
example : TableText ';' [[['x'], ['y', '"']], [['z'], []]] (writeRows [';'] [[['x'], ['y', '"']], [['z'], []]]) :=
  C98_written_is_csv (by decide) (by
    intro row hr
    simp at hr
    rcases hr with rfl | rfl
    · refine ⟨by simp, fun f hf => ?_⟩
      simp at hf
      rcases hf with rfl | rfl
      · exact .inr (by decide)
      · exact .inl (.inl (by decide))
    · refine ⟨by simp, fun f hf => ?_⟩
      simp at hf
      rcases hf with rfl | rfl <;> exact .inr (by decide))

end MVault.Csv

namespace MVault.W
open MVault.Csv (TableText GoodSep parseFile C98_reads_csv)
variable {V Ty : Type} [LinearOrder V] [Typed V Ty] [DecidableEq Ty] [Texts V Ty]

/-- **C98.** `ReadFile` of a vault, with or without key line, given keys and row handler, does not see how a table is written: two CSV texts of one table give the same
records, answers and errors, or are both undefined. -/
theorem C98_vault_reads_table (block big : Nat) (hb : 1 < block) (hbig : block ≤ big) {sep : Char} (hs : GoodSep sep) {rows : List (List (List Char))} {text text' : List Char}
    (h : TableText sep rows text) (h' : TableText sep rows text') (handler : List Key → List (List Char) → List (List Char)) (w : World Key V Ty) (o : Nat) (isLoadKeys : Bool)
    (userKeys : List Key) :
    readFileWith handler block big w o (some text) sep isLoadKeys userKeys = readFileWith handler block big w o (some text') sep isLoadKeys userKeys := by
  simp only [readFileWith]
  rw [C98_reads_csv block big hb hbig hs h, C98_reads_csv block big hb hbig hs h']

/-- Non-vacuity of `C98_vault_reads_table`: one table, two texts. -/
example : TableText ',' [[['k']], [['5']]] ['k', '\r', '\n', '5', '\r', '\n'] ∧ TableText ',' [[['k']], [['5']]] ['"', 'k', '"', '\n', '5'] :=
  ⟨.line [['k']] ['k'] ['\r', '\n'] _ _ (.one _ _ (.plain _ (by decide))) (.inl rfl)
      (.line [['5']] ['5'] ['\r', '\n'] _ _ (.one _ _ (.plain _ (by decide))) (.inl rfl) .empty),
    .line [['k']] ['"', 'k', '"'] ['\n'] _ _ (.one _ _ (.quoted ['k'])) (.inr ⟨.inl rfl, by decide⟩) (.last [['5']] ['5'] (.one _ _ (.plain _ (by decide))) (by decide))⟩

end MVault.W
