import Verif.CrashModel
import Verif.PropsAnyCsv
import Verif.PropsWide
import Verif.CutLemmas
/-
C103: files that were cut off while they were written.
-/
set_option linter.unusedSimpArgs false
set_option linter.unusedVariables false
namespace MVault.Csv

/-! ### Specification. Models no code. -/

/-- `cut` is what is left of `row` when its line is cut off: the first fields, the last one of them cut too (an empty last field is dropped, `rowOf`), at least one field. -/
def CutRow (row cut : List (List Char)) : Prop :=
  ∃ fs f rest part, row = fs ++ f :: rest ∧ part <+: f ∧ cut = rowOf (fs ++ [part]) ∧ cut ≠ []

/-! ### Lemmas -/

theorem doubled_cons (c : Char) (q : List Char) : doubled (c :: q) = (if c = '"' then ['"', '"'] else [c]) ++ doubled q := rfl

/-- A cut in the middle of a quoted field. -/
theorem cut_doubled : ∀ (f q : List Char), q <+: doubled f ++ ['"'] → ∃ part, part <+: f ∧ (q = doubled part ∨ q = doubled part ++ ['"'])
  | f, [], _ => ⟨[], List.nil_prefix, .inl rfl⟩
  | [], c :: q, h => by
    refine ⟨[], List.nil_prefix, .inr ?_⟩
    obtain ⟨t, ht⟩ := h
    simp [doubled] at ht ⊢
    exact ⟨ht.1, ht.2.1⟩
  | d :: f, c :: q, h => by
    rw [doubled_cons] at h
    by_cases hd : d = '"'
    · subst hd
      simp only [if_true, List.cons_append, List.nil_append] at h
      rw [List.cons_prefix_cons] at h
      obtain ⟨rfl, h⟩ := h
      cases q with
      | nil => exact ⟨[], List.nil_prefix, .inr rfl⟩
      | cons c' q =>
        rw [List.cons_prefix_cons] at h
        obtain ⟨rfl, h⟩ := h
        obtain ⟨part, hp, hq⟩ := cut_doubled f q h
        refine ⟨'"' :: part, by rw [List.cons_prefix_cons]; exact ⟨rfl, hp⟩, ?_⟩
        rw [doubled_cons]
        rcases hq with rfl | rfl <;> simp
    · rw [if_neg hd] at h
      simp only [List.singleton_append, List.cons_append, List.nil_append] at h
      rw [List.cons_prefix_cons] at h
      obtain ⟨rfl, h⟩ := h
      obtain ⟨part, hp, hq⟩ := cut_doubled f q h
      refine ⟨c :: part, by rw [List.cons_prefix_cons]; exact ⟨rfl, hp⟩, ?_⟩
      rw [doubled_cons, if_neg hd]
      rcases hq with rfl | rfl <;> simp

theorem any_plain {sep : Char} : ∀ (t : List Char), (∀ c ∈ t, c ≠ sep ∧ c ≠ '"' ∧ c ≠ '\r' ∧ c ≠ '\n') → ∀ v s, AnyField sep v s → AnyField sep (v ++ t) (s ++ t)
  | [], _, v, s, h => by simpa using h
  | c :: t, ht, v, s, h => by
    obtain ⟨h1, h2, h3, h4⟩ := ht c (by simp)
    have := any_plain t (fun c hc => ht c (by simp [hc])) _ _ (.char v s c h h1 h2 h3 h4)
    simpa using this

theorem any_quoted (sep : Char) (q : List Char) : AnyField sep q ('"' :: (doubled q ++ ['"'])) := .part [] [] q .start (by simp)

theorem open_quoted (sep : Char) (q : List Char) : OpenLine sep [q] ('"' :: doubled q) := .one [] [] q .start (by simp)

theorem plain_chars {sep : Char} {f : List Char} (hf : Clean sep f) (hno : f.any special = false) : ∀ c ∈ f, c ≠ sep ∧ c ≠ '"' ∧ c ≠ '\r' ∧ c ≠ '\n' := by
  intro c hc
  have hsp : special c = false := by have := List.any_eq_false.1 hno c hc; simpa using this
  simp [special] at hsp
  rcases clean_fieldOk hf with h | h
  · rw [hno] at h; cases h
  · exact ⟨(h c hc).2, hsp.1.1, (h c hc).1, hsp.2⟩

theorem any_written {sep : Char} {f : List Char} (hf : Clean sep f) : AnyField sep f (formatCsv f) := by
  rw [formatCsv_eq]
  split
  · exact any_quoted sep f
  · rename_i hno
    have hno : f.any special = false := by simpa using hno
    rw [dbl_plain f hno]
    have := any_plain f (plain_chars hf hno) [] [] .start
    simpa using this

/-- A cut in a written field. -/
theorem cut_field {sep : Char} {f q : List Char} (hf : Clean sep f) (hq : q <+: formatCsv f) : ∃ part, part <+: f ∧ (AnyLine sep [part] q ∨ OpenLine sep [part] q) := by
  rw [formatCsv_eq] at hq
  split at hq
  · cases q with
    | nil => exact ⟨[], List.nil_prefix, .inl (.one _ _ .start)⟩
    | cons c q =>
      rw [List.cons_prefix_cons] at hq
      obtain ⟨rfl, hq⟩ := hq
      obtain ⟨part, hp, rfl | rfl⟩ := cut_doubled f q hq
      · exact ⟨part, hp, .inr (open_quoted sep part)⟩
      · exact ⟨part, hp, .inl (.one _ _ (any_quoted sep part))⟩
  · rename_i hno
    have hno : f.any special = false := by simpa using hno
    rw [dbl_plain f hno] at hq
    have := any_plain q (fun c hc => plain_chars hf hno c (hq.subset hc)) [] [] (.start (sep := sep))
    exact ⟨q, hq, .inl (.one _ _ (by simpa using this))⟩

theorem line_written {sep : Char} : ∀ {row : List (List Char)}, row ≠ [] → (∀ f ∈ row, Clean sep f) → AnyLine sep row (writeRow [sep] row)
  | [f], _, hf => .one _ _ (any_written (hf f (by simp)))
  | f :: g :: gs, _, hf => by
    rw [writeRow, List.append_assoc, List.singleton_append]
    exact .more _ _ _ _ (any_written (hf f (by simp))) (line_written (by simp) fun x hx => hf x (by simp at hx ⊢; right; exact hx))

/-- A cut in a written line. -/
theorem cut_line {sep : Char} : ∀ {row : List (List Char)} {q : List Char}, row ≠ [] → (∀ f ∈ row, Clean sep f) → q <+: writeRow [sep] row →
    ∃ fs f rest part, row = fs ++ f :: rest ∧ part <+: f ∧ (AnyLine sep (fs ++ [part]) q ∨ OpenLine sep (fs ++ [part]) q)
  | [f], q, _, hf, hq => by
    obtain ⟨part, h1, h2⟩ := cut_field (hf f (by simp)) hq
    exact ⟨[], f, [], part, rfl, h1, h2⟩
  | f :: g :: gs, q, _, hf, hq => by
    rw [writeRow, List.append_assoc, List.singleton_append] at hq
    have hF := hf f (by simp)
    rcases List.prefix_or_prefix_of_prefix hq (List.prefix_append (formatCsv f) _) with h | h
    · obtain ⟨part, h1, h2⟩ := cut_field hF h
      exact ⟨[], f, g :: gs, part, rfl, h1, h2⟩
    · obtain ⟨q', rfl⟩ := h
      rw [List.prefix_append_right_inj] at hq
      cases q' with
      | nil =>
        refine ⟨[], f, g :: gs, f, rfl, List.prefix_refl _, .inl ?_⟩
        rw [List.append_nil]
        exact .one _ _ (any_written hF)
      | cons c q' =>
        rw [List.cons_prefix_cons] at hq
        obtain ⟨rfl, hq⟩ := hq
        obtain ⟨fs, f', rest, part, h1, h2, h3⟩ := cut_line (by simp) (fun x hx => hf x (List.mem_cons_of_mem _ hx)) hq
        refine ⟨f :: fs, f', rest, part, by rw [h1]; rfl, h2, ?_⟩
        rcases h3 with h3 | h3
        · exact .inl (.more _ _ _ _ (any_written hF) h3)
        · exact .inr (.more _ _ _ _ (any_written hF) h3)

theorem writeRows_cons (s : List Char) (r : List (List Char)) (rs : List (List (List Char))) : writeRows s (r :: rs) = writeRow s r ++ ['\r', '\n'] ++ writeRows s rs := rfl

theorem anyText_nil (sep : Char) : AnyText sep [] [] := .last [[]] [] (.inl (.one _ _ .start))

theorem cut_text {sep : Char} : ∀ {rows : List (List (List Char))}, (∀ row ∈ rows, row ≠ [] ∧ ∀ f ∈ row, Clean sep f) → ∀ k : Nat,
    ∃ n, n ≤ rows.length ∧ ∃ cut, AnyText sep ((rows.take n).map rowOf ++ cut) ((writeRows [sep] rows).take k) ∧
      (cut = [] ∨ ∃ row c, rows[n]? = some row ∧ cut = [c] ∧ CutRow row c) ∧ (n ≠ 0 → (writeRows [sep] (rows.take n)).length ≤ k + 1) ∧
      (n < rows.length → k + 1 < (writeRows [sep] (rows.take (n + 1))).length)
  | [], _, k => ⟨0, by simp, [], by simpa [writeRows] using anyText_nil sep, .inl rfl, by simp, by simp⟩
  | r :: rs, hr, k => by
    obtain ⟨hne, hcl⟩ := hr r (by simp)
    have hL := line_written hne hcl
    rw [writeRows_cons]
    by_cases h1 : k ≤ (writeRow [sep] r).length
    · have e : (writeRow [sep] r ++ ['\r', '\n'] ++ writeRows [sep] rs).take k = (writeRow [sep] r).take k := by
        rw [List.append_assoc, List.take_append_of_le_length h1]
      rw [e]
      obtain ⟨fs, f, rest, part, g1, g2, g3⟩ := cut_line hne hcl (List.take_prefix k _)
      have := AnyText.last _ _ g3
      refine ⟨0, by simp, _, by simpa using this, ?_, by simp, fun _ => by simp [writeRows_cons]; omega⟩
      by_cases hz : rowOf (fs ++ [part]) = []
      · left; rw [if_pos hz]
      · right; exact ⟨r, rowOf (fs ++ [part]), rfl, by rw [if_neg hz], fs, f, rest, part, g1, g2, rfl, hz⟩
    · by_cases h2 : k = (writeRow [sep] r).length + 1
      · have e : (writeRow [sep] r ++ ['\r', '\n'] ++ writeRows [sep] rs).take k = writeRow [sep] r ++ ['\r'] ++ [] := by
          rw [h2, List.append_assoc, List.take_append, List.take_of_length_le (by omega)]
          simp
        rw [e]
        have := AnyText.line r _ '\r' ['\r'] [] [] hL (.inl rfl) (.inr ⟨rfl, by simp⟩) (anyText_nil sep)
        refine ⟨1, by simp, [], by simpa using this, .inl rfl, fun _ => by simp [writeRows_cons, writeRows]; omega, fun h => ?_⟩
        have : rs ≠ [] := by rintro rfl; simp at h
        obtain ⟨r2, rs2, rfl⟩ := List.exists_cons_of_ne_nil this
        simp [writeRows_cons]
        omega
      · obtain ⟨m, hm⟩ : ∃ m, k = (writeRow [sep] r ++ ['\r', '\n']).length + m := ⟨k - (writeRow [sep] r ++ ['\r', '\n']).length, by simp; omega⟩
        have e : (writeRow [sep] r ++ ['\r', '\n'] ++ writeRows [sep] rs).take k = writeRow [sep] r ++ ['\r', '\n'] ++ (writeRows [sep] rs).take m := by
          rw [hm, List.take_length_add_append]
        rw [e]
        obtain ⟨n, i1, cut, i2, i3, i4, i5⟩ := cut_text (rows := rs) (fun row hrow => hr row (List.mem_cons_of_mem _ hrow)) m
        have := AnyText.line r _ '\r' ['\r', '\n'] _ _ hL (.inl rfl) (.inl rfl) i2
        refine ⟨n + 1, by simpa using i1, cut, by simpa using this, by simpa using i3, fun _ => ?_, fun h => ?_⟩
        · have : (writeRows [sep] (rs.take n)).length ≤ m + 1 := by
            by_cases hn : n = 0
            · subst hn; simp [writeRows]
            · exact i4 hn
          simp [writeRows_cons] at hm ⊢
          omega
        · have := i5 (by simpa using h)
          simp [writeRows_cons] at hm ⊢
          omega

/-- **C103.** A file of rows that was cut off anywhere is read as rows that were written: the first `n` rows, where `n` counts the rows that were written up to the carriage
return at their ends, and perhaps one more row, a cut-off beginning of the next one. -/
theorem C103_cut_rows (block big : Nat) (hb : 1 < block) (hbig : block ≤ big) {sep : Char} (hs : GoodSep sep) {rows : List (List (List Char))}
    (hr : ∀ row ∈ rows, row ≠ [] ∧ ∀ f ∈ row, Clean sep f) (k : Nat) :
    ∃ n ≤ rows.length, ∃ cut, parseFile block big sep ((writeRows [sep] rows).take k) = some ((rows.take n).map rowOf ++ cut) ∧
      (cut = [] ∨ ∃ row c, rows[n]? = some row ∧ cut = [c] ∧ CutRow row c) ∧ (n ≠ 0 → (writeRows [sep] (rows.take n)).length ≤ k + 1) ∧
      (n < rows.length → k + 1 < (writeRows [sep] (rows.take (n + 1))).length) := by
  obtain ⟨n, h1, cut, h2, h3⟩ := cut_text hr k
  exact ⟨n, h1, cut, (C102_reads_any block big hb hbig hs _ _).2 h2, h3⟩

end MVault.Csv

namespace MVault.W
open MVault.Csv (GoodSep parseFile writeRows Clean fileDuring saveCall rowOf CutRow)
variable {V Ty : Type} [LinearOrder V] [Typed V Ty] [DecidableEq Ty] [Texts V Ty]

/-! ### Specification. Models no code. -/

/-- The lines of a file: the key line, if there is one, and the lines of the first `n` of the records `rs`, each with its end. -/
def linesOf (w : World Key V Ty) (sep : Char) (hdr : Bool) (ks : List Key) (rs : List Nat) (n : Nat) : List Char :=
  writeRows [sep] ((if hdr = true then [ks.map Key.name] else []) ++ (rs.take n).map (textRow w ks))

/-- `x` is a row made from the cut-off line of record `r`: a saved key has a value read from the beginning of the text of its value, or the default, and every other key has the
default. -/
def FromCut (w : World Key V Ty) (ks : List Key) (r : Nat) (w2 : World Key V Ty) (d : Nat) (x : Key → Option V) : Prop :=
  ∀ k, x k = getDefault w2 d k ∨ (k ∈ ks ∧ ∃ v y, ∃ part, value w r k = some v ∧ part <+: toText v ∧ fromText (typeOf v) part = .ok y ∧ x k = some y)

/-! ### Lemmas -/

theorem readLoop_append (handler : List Key → List (List Char) → List (List Char)) (loaded : Option (List Key)) (uk : List Key) (d : Nat) (rows2 : List (List (List Char))) :
    ∀ (rows1 : List (List (List Char))) (n : Nat) (w : World Key V Ty) (errs : List (Nat × Key)), readLoop handler loaded uk d (rows1 ++ rows2) n w errs =
      (readLoop handler loaded uk d rows1 n w errs).bind fun p => readLoop handler loaded uk d rows2 (n + rows1.length) p.1 p.2
  | [], n, w, errs => by simp [readLoop]
  | row :: rows1, n, w, errs => by
    have hn : n + (row :: rows1).length = n + 1 + rows1.length := by simp; omega
    simp only [List.cons_append, readLoop, Option.bind_eq_bind, hn]
    cases hvo : w.getObj d with
    | none => simp
    | some vo =>
      simp only [Option.bind_some]
      cases setRow (rowPairs loaded uk vo.keysOrder (handledRow handler loaded row)) vo.tmpl false with
      | ub => rfl
      | skip => exact readLoop_append ..
      | bad k => exact readLoop_append ..
      | ok data =>
        dsimp only
        cases insertRecord w d data with
        | none => rfl
        | some p =>
          obtain ⟨w1, out⟩ := p
          simp only [Option.bind_some]
          cases out with
          | error k => exact readLoop_append ..
          | ok r => exact readLoop_append ..

theorem pairRow_short : ∀ (ks rest : List Key) (l : List (List Char)), l.length ≤ ks.length → pairRow (ks ++ rest) l = (ks.zip l).map fun p => (some p.1, p.2)
  | [], _, [], _ => rfl
  | [], _, _ :: _, h => by simp at h
  | _ :: _, _, [], _ => by simp [pairRow]
  | k :: ks, rest, s :: l, h => by
    simp only [List.cons_append, pairRow, List.zip_cons_cons, List.map_cons, List.head?_cons, List.tail_cons, pairRow_short ks rest l (by simpa using h)]

theorem rowPairs_short {hdr : Bool} {given order ks : List Key} (hne : ks ≠ []) (h : Finds hdr given order ks) {l : List (List Char)} (hl : l.length ≤ ks.length) :
    rowPairs (if hdr = true then some ks else none) given order l = (ks.zip l).map fun p => (some p.1, p.2) := by
  cases hdr with
  | true => simp [rowPairs]
  | false =>
    rcases h with h | rfl | ⟨rfl, rest, rfl⟩
    · cases h
    · simp [rowPairs, hne]
    · simp [rowPairs, pairRow_short ks rest l hl]

/-- The fields of a cut row are beginnings of the fields of the row. -/
theorem cutRow_fields {row c : List (List Char)} (h : CutRow row c) : c.length ≤ row.length ∧ c ≠ [] ∧ ∀ (i : Nat) (s : List Char), c[i]? = some s → ∃ f : List Char, row[i]? = some f ∧ s <+: f := by
  obtain ⟨fs, f, rest, part, rfl, hp, rfl, hne⟩ := h
  have hall : ∀ (i : Nat) (s : List Char), (fs ++ [part])[i]? = some s → ∃ g : List Char, (fs ++ f :: rest)[i]? = some g ∧ s <+: g := by
    intro i s hs
    rcases Nat.lt_trichotomy i fs.length with hi | hi | hi
    · rw [List.getElem?_append_left hi] at hs ⊢
      exact ⟨s, hs, List.prefix_refl _⟩
    · subst hi
      simp at hs ⊢
      rw [← hs]; exact hp
    · rw [List.getElem?_eq_none (by simp; omega)] at hs
      cases hs
  refine ⟨?_, hne, ?_⟩
  · unfold rowOf; split <;> simp
  · intro i s hs
    unfold rowOf at hs
    split at hs
    · refine hall i s ?_
      rw [List.dropLast_concat] at hs
      rw [List.getElem?_append_left (by
        rcases Nat.lt_or_ge i fs.length with h | h
        · exact h
        · rw [List.getElem?_eq_none h] at hs; cases hs)]
      exact hs
    · exact hall i s hs


theorem writeRows_take_le (s : List Char) (rows : List (List (List Char))) (m : Nat) : (writeRows s (rows.take m)).length ≤ (writeRows s rows).length := by
  have : writeRows s rows = writeRows s (rows.take m) ++ writeRows s (rows.drop m) := by
    unfold writeRows
    rw [← List.flatMap_append, List.take_append_drop]
  rw [this, List.length_append]
  omega

theorem alive_member {home : Nat → Nat} {w : World Key V Ty} (hw : HReach Ordinary home w) {d m : Nat} (hd : isVault w d = true) (hm : m ∈ members w d) : alive w m := by
  obtain ⟨own, hi⟩ := reach_inv hw
  obtain ⟨vo, hvo, hs⟩ := isVault_iff.mp hd
  rw [members_eq hvo] at hm
  obtain ⟨_, x, hx, hxv⟩ := hi.v.mem d vo hvo hs m hm
  exact ⟨x, hx, hxv⟩

/-- The rows that `SaveToFile` writes. -/
theorem saved_rows {home : Nat → Nat} {w : World Key V Ty} (hw : HReach Ordinary home w) {o : Nat} (ho : isVault w o = true) (env : Env)
    {sep : Char} (hdr : Bool) {ks : List Key} (hne : ks ≠ []) (hks : ∀ k ∈ ks, k ∈ getKeys w o)
    (hnames : hdr = true → (∀ k ∈ ks, Plain sep k.name) ∧ ks.getLast? ≠ some (Key.of []))
    (hclean : ∀ r ∈ members w o, ∀ k ∈ ks, ∀ v, value w r k = some v → Clean sep (toText v))
    (hlast : ∀ r ∈ members w o, ∀ k v, ks.getLast? = some k → value w r k = some v → toText v ≠ []) :
    (∀ row ∈ (if hdr = true then [ks.map Key.name] else []) ++ (env.perm (members w o)).map (textRow w ks), row ≠ [] ∧ ∀ f ∈ row, Clean sep f) ∧
    ∀ row ∈ (if hdr = true then [ks.map Key.name] else []) ++ (env.perm (members w o)).map (textRow w ks), rowOf row = row := by
  have hperm := env.isPerm (members w o)
  obtain ⟨hkn, _, hkt, _, _⟩ := C12_key_list hw.any ho
  have hval : ∀ r ∈ members w o, ∀ k ∈ ks, ∃ v, value w r k = some v := by
    intro r hr k hk
    obtain ⟨t, ht⟩ := (hkt k).mp (hks k hk)
    obtain ⟨v, hv, _⟩ := (C11_keys_and_types_partial hw ho hr k).1 t ht
    exact ⟨v, hv⟩
  refine ⟨fun row hrow => ⟨?_, fun f hf => ?_⟩, fun row hrow => ?_⟩
  · rcases List.mem_append.mp hrow with h | h
    · cases hdr with
      | false => simp at h
      | true =>
        simp only [if_true, List.mem_singleton] at h; subst h
        simpa using hne
    · obtain ⟨r, hr, rfl⟩ := List.mem_map.mp h
      simpa [textRow] using hne
  · rcases List.mem_append.mp hrow with h | h
    · cases hdr with
      | false => simp at h
      | true =>
        simp only [if_true, List.mem_singleton] at h; subst h
        obtain ⟨k, hk, rfl⟩ := List.mem_map.mp hf
        obtain ⟨_, _, _, h4, h5⟩ := (hnames rfl).1 k hk
        exact .inr ⟨h4, h5⟩
    · obtain ⟨r, hr, rfl⟩ := List.mem_map.mp h
      obtain ⟨k, hk, rfl⟩ := List.mem_map.mp hf
      have hr' := hperm.mem_iff.mp hr
      obtain ⟨v, hv⟩ := hval r hr' k hk
      simp only [hv]; exact hclean r hr' k hk v hv
  · unfold rowOf
    rw [if_neg]
    rcases List.mem_append.mp hrow with h | h
    · cases hdr with
      | false => simp at h
      | true =>
        simp only [if_true, List.mem_singleton] at h; subst h
        intro e
        rw [List.getLast?_map, Option.map_eq_some_iff] at e
        obtain ⟨k, h1, h2⟩ := e
        exact (hnames rfl).2 (by rw [h1]; exact congrArg some h2)
    · obtain ⟨r, hr, rfl⟩ := List.mem_map.mp h
      intro e
      unfold textRow at e
      rw [List.getLast?_map, Option.map_eq_some_iff] at e
      obtain ⟨k, h1, h2⟩ := e
      have hr' := hperm.mem_iff.mp hr
      obtain ⟨v, hv⟩ := hval r hr' k (List.mem_of_getLast? h1)
      rw [hv] at h2
      exact hlast r hr' k v h1 hv h2

/-- Reading whole rows and a cut one. -/
theorem loop_cut {home home' : Nat → Nat} {w w2 : World Key V Ty} (hw : HReach Ordinary home w) (hw2 : HReach Ordinary home' w2)
    {o d : Nat} (ho : isVault w o = true) (hd : isVault w2 d = true) (hsafe : PrefixSafe V Ty) {hdr : Bool} {given ks : List Key} (hne : ks ≠ []) (hkn : ks.Nodup)
    (hin : ∀ k ∈ ks, k ∈ getKeys w o) (hfind : Finds hdr given (getKeys w2 d) ks) (htypes : ∀ k ∈ ks, getKeyType w2 d k = getKeyType w o k)
    {conv : V → V} (hread : ∀ r ∈ members w o, ∀ k ∈ ks, ∀ v, value w r k = some v → fromText (typeOf v) (toText v) = .ok (conv v)) (hclash : NoClash conv ks w o w2 d)
    {rs : List Nat} (hrs : rs.Perm (members w o)) (n : Nat) {cut : List (List (List Char))}
    (hcut : cut = [] ∨ ∃ r c, rs[n]? = some r ∧ cut = [c] ∧ CutRow (textRow w ks r) c) :
    ∃ w3 extra errs, readLoop (fun _ row => row) (if hdr = true then some ks else none) given d ((rs.take n).map (textRow w ks) ++ cut) 0 w2 [] = some (w3, errs) ∧
      HReach Ordinary home' w3 ∧ isVault w3 d = true ∧ rowsOf w3 d = rowsOf w2 d ++ (rs.take n).map (fun r => readRow conv ks w w2 d r) ++ extra ∧
      extra.length + errs.length ≤ 1 ∧ (cut = [] → extra = [] ∧ errs = []) ∧ ∀ x ∈ extra, ∃ r, rs[n]? = some r ∧ FromCut w ks r w2 d x := by
  have hnd : rs.Nodup := hrs.nodup_iff.mpr (members_nodup hw ho)
  obtain ⟨w3, e1, e2, e3, e4⟩ := readLoop_convs (home' := home') hw ho d hne hkn hin (fun _ h => h) hread hfind htypes hclash (rs.take n) [] w2 0 []
    (by simpa using hnd.sublist (List.take_sublist n rs)) (fun r hr => hrs.mem_iff.mp (List.mem_of_mem_take (by simpa using hr))) hw2 hd rfl (fun _ => rfl) rfl (fun _ => rfl) (by simp)
  simp only [List.nil_append] at e4
  have e1' : readLoop (fun _ row => row) (if hdr = true then some ks else none) given d ((rs.take n).map (textRow w ks)) 0 w2 [] = some (w3, []) := by simpa using e1
  obtain ⟨outs, b1, b2, b3, b4⟩ := readLoop_spec (R := HReach Ordinary home') (fun _ h => h.any) (fun _ _ _ _ a b c => createRow_hstep a b c) (ord := False) (by simp) _ _ given _ 0 w2 w3 [] [] hw2 hd e1'
  rcases hcut with rfl | ⟨r, c, hr, rfl, hc⟩
  · exact ⟨w3, [], [], by simpa using e1', e2, e3, by simpa using e4, by simp, by simp, by simp⟩
  · obtain ⟨hlen, hcne, hfld⟩ := cutRow_fields hc
    have hrm : r ∈ members w o := hrs.mem_iff.mp (List.mem_of_getElem? hr)
    obtain ⟨hkn2, _, hkt, hdf0, _⟩ := C12_key_list hw.any ho
    have hpairs : rowPairs (if hdr = true then some ks else none) given (getKeys w3 d) c = (ks.zip c).map fun p => (some p.1, p.2) :=
      rowPairs_short hne (by rw [b2.keys]; exact hfind) (by simpa [textRow] using hlen)
    -- what each field of the cut row is
    have hfield : ∀ k s, (k, s) ∈ ks.zip c → k ∈ ks ∧ ∃ v, value w r k = some v ∧ s <+: toText v ∧ ∀ v0, getDefault w3 d k = some v0 → typeOf v0 = typeOf v := by
      intro k s h
      obtain ⟨i, hi⟩ := List.mem_iff_getElem?.mp h
      rw [List.getElem?_zip_eq_some] at hi
      obtain ⟨g, g1, g2⟩ := hfld i s hi.2
      have hk : k ∈ ks := List.mem_of_getElem? hi.1
      obtain ⟨t, ht⟩ := (hkt k).mp (hin k hk)
      obtain ⟨v, hv, hvt⟩ := (C11_keys_and_types_partial hw ho hrm k).1 t ht
      refine ⟨hk, v, hv, ?_, ?_⟩
      · unfold textRow at g1
        rw [List.getElem?_map, hi.1] at g1
        simp only [Option.map_some, Option.some.injEq, hv] at g1
        rw [g1]; exact g2
      · intro v0 h0
        rw [b2.defaults] at h0
        have := htypes k hk
        rw [ht] at this
        obtain ⟨own, hi⟩ := reach_inv hw2
        obtain ⟨vo, hvo, hs⟩ := isVault_iff.mp hd
        have ok := hi.v.vok d vo hvo hs
        rw [getDefault_eq hvo] at h0
        rw [getKeyType_eq hvo] at this
        cases hcc : mget vo.cols k with
        | none => rw [ok.tmplN k hcc] at h0; cases h0
        | some cc =>
          obtain ⟨v', a, b⟩ := ok.tmplT k cc hcc
          rw [a] at h0; cases h0
          rw [hcc] at this
          simp at this
          rw [b, this, hvt]
    have hdefd : ∃ w4 errs, readLoop (fun _ row => row) (if hdr = true then some ks else none) given d [c] (0 + (rs.take n).length) w3 [] = some (w4, errs) := by
      refine readLoop_defined _ _ _ _ _ _ _ _ e2 e3 ?_
      intro row hrow p hp
      simp only [List.mem_singleton] at hrow
      subst hrow
      have hh : handledRow (fun _ row => row) (if hdr = true then some ks else none) row = row := by cases hdr <;> rfl
      rw [hh, hpairs] at hp
      obtain ⟨⟨k, s⟩, h1, rfl⟩ := List.mem_map.mp hp
      obtain ⟨hk, v, hv, ⟨post, hpre⟩, hty⟩ := hfield k s h1
      refine ⟨k, rfl, fun v0 h0 => ?_⟩
      rw [hty v0 h0]
      refine hsafe _ _ post ?_
      rw [hpre, hread r hrm k hk v hv]
      simp
    obtain ⟨w4, errs, h4⟩ := hdefd
    obtain ⟨outs', c1, c2, c3, c4⟩ := readLoop_spec (R := HReach Ordinary home') (fun _ h => h.any) (fun _ _ _ _ a b c => createRow_hstep a b c) (ord := False) (by simp) _ _ given _ _ w3 w4 [] errs e2 e3 h4
    have hh : handledRow (fun _ row => row) (if hdr = true then some ks else none) c = c := by cases hdr <;> rfl
    simp only [List.map_cons, List.map_nil, hh, hpairs, List.zipIdx_cons, List.zipIdx_nil] at c4
    cases c4 with
    | cons hdid hrest =>
      rename_i out _
      cases hrest
      have hrows4 : rowsOf w4 d = rowsOf w3 d ++ ([out].filterMap Outcome.record?).map fun m k => value w4 m k := by
        unfold rowsOf
        rw [c2.members, List.map_append]
        congr 1
        refine List.map_congr_left fun m hm => funext fun k => ?_
        exact (c2.kept m (alive_member e2 e3 hm)).2 k
      refine ⟨w4, ([out].filterMap Outcome.record?).map fun m k => value w4 m k, errs, ?_, c1, c2.vault, by rw [hrows4, e4], ?_, by simp, ?_⟩
      · rw [readLoop_append, e1', Option.bind_some]
        simpa using h4
      · rw [c3]
        cases out <;> simp [List.filterMap, Outcome.record?, Outcome.report?]
      · intro x hx
        cases out with
        | nothing => simp [List.filterMap, Outcome.record?] at hx
        | reported => simp [List.filterMap, Outcome.record?] at hx
        | loaded m =>
          simp only [List.filterMap, Outcome.record?, List.map_cons, List.map_nil, List.mem_singleton] at hx
          subst hx
          obtain ⟨_, _, _, _, hrow⟩ := hdid
          refine ⟨r, hr, fun k => ?_⟩
          have := hrow k
          unfold RowValue at this
          split at this
          · left; show value w4 m k = _; rw [this, b2.defaults]
          · rename_i s hs
            right
            obtain ⟨v, y, g1, g2, g3⟩ := this
            have hmem : (k, s) ∈ ks.zip c := by
              unfold fieldText at hs
              rw [Option.map_eq_some_iff] at hs
              obtain ⟨p, h1, h2⟩ := hs
              have h1 := List.mem_of_getLast? h1
              rw [List.mem_filter] at h1
              obtain ⟨q, h3, h4⟩ := List.mem_map.mp h1.1
              have h5 : p.1 = some k := by simpa using h1.2
              subst h4
              simp only [Option.some.injEq] at h5 h2
              subst h5; subst h2
              exact h3
            obtain ⟨hk, v', hv', hpre, hty⟩ := hfield k s hmem
            exact ⟨hk, v', y, s, hv', hpre, by rw [← hty v g1]; exact g2, g3⟩


/-- **C103.** A file that `SaveToFile` was writing and that was cut off anywhere (crash, full disk) is read without undefined behaviour. Under the conditions of `C88_chosen_keys`
the reading answers true; the vault then has its old rows, exactly one row for each of the first `n` saved records, and at most one thing more: a row made from the cut-off line of
the next record, or an error. `n` is the number of records whose lines reached the file up to the carriage return. -/
theorem C103_recovers {home home' : Nat → Nat} {w w2 : World Key V Ty} (hw : HReach Ordinary home w) (hw2 : HReach Ordinary home' w2)
    {o d : Nat} (ho : isVault w o = true) (hd : isVault w2 d = true) (hsafe : PrefixSafe V Ty) (env : Env) (block big : Nat) (hb : 1 < block) (hbig : block ≤ big)
    {sep : Char} (hsep : GoodSep sep) (hdr : Bool) (saved given : List Key) {ks : List Key} (hks : ks = savedKeys w o saved)
    (hne : ks ≠ []) (hkn : ks.Nodup) (hin : ∀ k ∈ ks, k ∈ getKeys w o)
    (hnames : hdr = true → (∀ k ∈ ks, Plain sep k.name) ∧ ks.getLast? ≠ some (Key.of []))
    (hfind : Finds hdr given (getKeys w2 d) ks) (htypes : ∀ k ∈ ks, getKeyType w2 d k = getKeyType w o k)
    (conv : V → V) (hread : ∀ r ∈ members w o, ∀ k ∈ ks, ∀ v, value w r k = some v → fromText (typeOf v) (toText v) = .ok (conv v))
    (hclash : NoClash conv ks w o w2 d)
    (hclean : ∀ r ∈ members w o, ∀ k ∈ ks, ∀ v, value w r k = some v → Clean sep (toText v))
    (hlast : ∀ r ∈ members w o, ∀ k v, ks.getLast? = some k → value w r k = some v → toText v ≠ [])
    (old : Option (List Char)) (i : Nat) :
    ∃ text, saveToFile env w o saved [sep] hdr = some text ∧
      ∃ n w3 extra errs, n ≤ (members w o).length ∧ readFile block big w2 d (fileDuring old text (i + 1)) sep hdr given = some (true, w3, errs) ∧
        HReach Ordinary home' w3 ∧ isVault w3 d = true ∧
        rowsOf w3 d = rowsOf w2 d ++ ((env.perm (members w o)).take n).map (fun r => readRow conv ks w w2 d r) ++ extra ∧ extra.length + errs.length ≤ 1 ∧
        (∀ x ∈ extra, ∃ r, (env.perm (members w o))[n]? = some r ∧ FromCut w ks r w2 d x) ∧
        (n ≠ 0 → (linesOf w sep hdr ks (env.perm (members w o)) n).length ≤ i + 1) ∧
        (n < (members w o).length → i + 1 < (linesOf w sep hdr ks (env.perm (members w o)) (n + 1)).length) ∧
        (text.length ≤ i + 1 → n = (members w o).length ∧ extra = [] ∧ errs = []) := by
  have hperm := env.isPerm (members w o)
  have hplen : (env.perm (members w o)).length = (members w o).length := hperm.length_eq
  obtain ⟨k0, hk0⟩ := List.exists_mem_of_ne_nil _ hne
  have hv : getKeys w o ≠ [] := List.ne_nil_of_mem (hin k0 hk0)
  have hsave := saveToFile_any hw ho env sep hdr (saved := saved) (by rw [← hks]; exact hne) hv (fun h => by rw [← hks]; exact (hnames h).1)
  rw [← hks] at hsave
  refine ⟨_, hsave, ?_⟩
  obtain ⟨hr1, hr2⟩ := saved_rows hw ho env hdr hne hin hnames hclean hlast
  generalize env.perm (members w o) = rs at hperm hplen hr1 hr2
  obtain ⟨n, h1, cut, h2, h3, h4, h5⟩ := Csv.C103_cut_rows block big hb hbig hsep hr1 i
  have hid : ∀ m, (((if hdr = true then [ks.map Key.name] else []) ++ rs.map (textRow w ks)).take m).map rowOf =
      ((if hdr = true then [ks.map Key.name] else []) ++ rs.map (textRow w ks)).take m := by
    intro m
    conv => rhs; rw [← List.map_id (List.take m _)]
    exact List.map_congr_left fun row hr => by simpa using hr2 row (List.mem_of_mem_take hr)
  rw [hid] at h2
  have hfull : (writeRows [sep] ((if hdr = true then [ks.map Key.name] else []) ++ rs.map (textRow w ks))).length ≤ i + 1 →
      n = ((if hdr = true then [ks.map Key.name] else []) ++ rs.map (textRow w ks)).length ∧ cut = [] := by
    intro hl
    have hn : n = ((if hdr = true then [ks.map Key.name] else []) ++ rs.map (textRow w ks)).length := by
      refine Decidable.byContradiction fun hne => ?_
      have := h5 (by omega)
      have h6 := writeRows_take_le [sep] ((if hdr = true then [ks.map Key.name] else []) ++ rs.map (textRow w ks)) (n + 1)
      omega
    refine ⟨hn, ?_⟩
    rcases h3 with h3 | ⟨row, c, h3, _⟩
    · exact h3
    · rw [hn, List.getElem?_eq_none (by omega)] at h3
      cases h3
  cases hdr with
  | false =>
    simp only [Bool.false_eq_true, if_false, List.nil_append] at h1 h2 h3 h4 h5 hfull ⊢
    obtain ⟨w3, extra, errs, g1, g2, g3, g4, g5, g6, g7⟩ := loop_cut hw hw2 ho hd hsafe hne hkn hin hfind htypes hread hclash hperm n (cut := cut) (by
      rcases h3 with h3 | ⟨row, c, h3, h6, h7⟩
      · exact .inl h3
      · rw [List.getElem?_map, Option.map_eq_some_iff] at h3
        obtain ⟨r, h8, rfl⟩ := h3
        exact .inr ⟨r, c, h8, h6, h7⟩)
    simp only [Bool.false_eq_true, if_false] at g1
    refine ⟨n, w3, extra, errs, by simpa [hplen] using h1, ?_, g2, g3, g4, g5, g7, ?_, ?_, ?_⟩
    · simp only [readFile, readFileWith, fileDuring, h2, Option.bind_eq_bind, Option.bind_some, Bool.false_eq_true, if_false]
      rw [← List.map_take, g1]; rfl
    · simpa [linesOf, List.map_take] using h4
    · simpa [linesOf, List.map_take, hplen] using h5
    · intro hl
      obtain ⟨f1, f2⟩ := hfull hl
      exact ⟨by simpa [hplen] using f1, g6 f2⟩
  | true =>
    have hkid : (ks.map Key.name).map Key.of = ks := by rw [List.map_map]; exact List.map_id _
    simp only [if_true, List.singleton_append] at h1 h2 h3 h4 h5 hfull ⊢
    cases n with
    | zero =>
      simp only [List.take_zero, List.nil_append, Nat.zero_add] at h2 h5
      have hlen : cut.length ≤ 1 := by rcases h3 with rfl | ⟨_, _, _, rfl, _⟩ <;> simp
      have htail : cut.tail = [] := by
        cases cut with
        | nil => rfl
        | cons a l => simp at hlen; simp [hlen]
      have h5 := h5 (by simp)
      refine ⟨0, w2, [], [], by simp, ?_, hw2, hd, by simp, by simp, by simp, by simp, ?_, ?_⟩
      · simp only [readFile, readFileWith, fileDuring, h2, Option.bind_eq_bind, Option.bind_some, if_true, htail, readLoop]
      · intro _
        have := writeRows_take_le [sep] (ks.map Key.name :: (rs.take 1).map (textRow w ks)) 1
        simp only [linesOf, if_true, List.singleton_append, Nat.zero_add] at this ⊢
        simp only [List.take_succ_cons, List.take_zero] at h5 this
        omega
      · intro hl
        exact absurd (hfull hl).1 (by simp)
    | succ n =>
      simp only [List.take_succ_cons, List.cons_append, List.getElem?_cons_succ] at h2 h3 h4 h5
      obtain ⟨w3, extra, errs, g1, g2, g3, g4, g5, g6, g7⟩ := loop_cut hw hw2 ho hd hsafe hne hkn hin hfind htypes hread hclash hperm n (cut := cut) (by
        rcases h3 with h3 | ⟨row, c, h3, h6, h7⟩
        · exact .inl h3
        · rw [List.getElem?_map, Option.map_eq_some_iff] at h3
          obtain ⟨r, h8, rfl⟩ := h3
          exact .inr ⟨r, c, h8, h6, h7⟩)
      simp only [if_true] at g1
      refine ⟨n, w3, extra, errs, by simpa [hplen] using h1, ?_, g2, g3, g4, g5, g7, ?_, ?_, ?_⟩
      · simp only [readFile, readFileWith, fileDuring, h2, Option.bind_eq_bind, Option.bind_some, if_true, List.head?_cons, Option.getD_some, List.tail_cons, hkid]
        rw [← List.map_take, g1]; rfl
      · intro _
        simpa [linesOf, List.map_take] using h4
      · intro hn
        have := h5 (by simpa [hplen] using hn)
        simpa [linesOf, List.map_take] using this
      · intro hl
        obtain ⟨f1, f2⟩ := hfull hl
        exact ⟨by simpa [hplen] using f1, g6 f2⟩


/-- **C103.** For all types of values: reading the beginning of a text is defined whenever reading the text is. -/
theorem C103_beginnings_are_safe : PrefixSafe WVal WTy ∧ PrefixSafe Val VTy := ⟨prefixSafe_wide, prefixSafe_val⟩

/-- **C103** for all types of values that return (C88). -/
theorem C103_all_types {home home' : Nat → Nat} {w w2 : World Key WVal WTy} (hw : HReach Ordinary home w) (hw2 : HReach Ordinary home' w2)
    {o d : Nat} (ho : isVault w o = true) (hd : isVault w2 d = true) (env : Env) (block big : Nat) (hb : 1 < block) (hbig : block ≤ big)
    {sep : Char} (hsep : sep ≠ '"' ∧ sep ≠ '\r' ∧ sep ≠ '\n') (hword : ¬ WordChar sep) (hdot : sep ≠ '.') (hdr : Bool)
    (saved given : List Key) {ks : List Key} (hks : ks = savedKeys w o saved)
    (hne : ks ≠ []) (hkn : ks.Nodup) (hin : ∀ k ∈ ks, k ∈ getKeys w o)
    (hnames : hdr = true → (∀ k ∈ ks, Plain sep k.name) ∧ ks.getLast? ≠ some (Key.of []))
    (hfind : Finds hdr given (getKeys w2 d) ks) (htypes : ∀ k ∈ ks, getKeyType w2 d k = getKeyType w o k)
    (hvals : ∀ r ∈ members w o, ∀ k ∈ ks, ∀ v, value w r k = some v → Returns sep v)
    (hlast : ∀ r ∈ members w o, ∀ k, ks.getLast? = some k → value w r k ≠ some (.str []))
    (hclash : NoClash back ks w o w2 d) (old : Option (List Char)) (i : Nat) :
    ∃ text, saveToFile env w o saved [sep] hdr = some text ∧
      ∃ n w3 extra errs, n ≤ (members w o).length ∧ readFile block big w2 d (fileDuring old text (i + 1)) sep hdr given = some (true, w3, errs) ∧
        HReach Ordinary home' w3 ∧ isVault w3 d = true ∧
        rowsOf w3 d = rowsOf w2 d ++ ((env.perm (members w o)).take n).map (fun r => readRow back ks w w2 d r) ++ extra ∧ extra.length + errs.length ≤ 1 ∧
        (∀ x ∈ extra, ∃ r, (env.perm (members w o))[n]? = some r ∧ FromCut w ks r w2 d x) ∧
        (n ≠ 0 → (linesOf w sep hdr ks (env.perm (members w o)) n).length ≤ i + 1) ∧
        (n < (members w o).length → i + 1 < (linesOf w sep hdr ks (env.perm (members w o)) (n + 1)).length) ∧
        (text.length ≤ i + 1 → n = (members w o).length ∧ extra = [] ∧ errs = []) :=
  C103_recovers hw hw2 ho hd prefixSafe_wide env block big hb hbig hsep hdr saved given hks hne hkn hin hnames hfind htypes back
    (fun r hr k hk v hv => (C88_values hword hdot (hvals r hr k hk v hv)).1) hclash
    (fun r hr k hk v hv => (C88_values hword hdot (hvals r hr k hk v hv)).2.2.1)
    (fun r hr k v hk hv => (C88_values hword hdot (hvals r hr k (List.mem_of_getLast? hk) v hv)).2.2.2 (fun e => hlast r hr k hk (by rw [hv, e]))) old i

/-- **C103.** The answer of `SaveToFile`: false exactly when the file could not be opened, and then the file is as it was; true with the whole text in the file if there was room
for it. -/
theorem C103_answer (canOpen : Bool) (accepted : Option Nat) (old : Option (List Char)) (text : List Char) :
    ((saveCall canOpen accepted old text).1 = canOpen) ∧ (canOpen = false → (saveCall canOpen accepted old text).2 = old) ∧
    (canOpen = true → (∀ n, accepted = some n → text.length ≤ n) → (saveCall canOpen accepted old text).2 = some text) := by
  cases canOpen with
  | false => simp [saveCall, fileDuring]
  | true =>
    refine ⟨rfl, by simp, fun _ h => ?_⟩
    cases accepted with
    | none => simp [saveCall, fileDuring]
    | some n => simp [saveCall, fileDuring, h n rfl]

/-- **C103**, what is lost: right after the opening the file is empty, whatever it held, and reading it then adds nothing to a vault. A save is not atomic: neither the old nor the
new content is there. -/
theorem C103_old_content_refuted (block big : Nat) (hb : 1 < block) (hbig : block ≤ big) {sep : Char} (hsep : GoodSep sep) (old text : List Char) (w : World Key V Ty) (d : Nat)
    (hdr : Bool) (given : List Key) : readFile block big w d (fileDuring (some old) text 1) sep hdr given = some (true, w, []) := by
  have h : parseFile block big sep [] = some [] := (Csv.C102_reads_any block big hb hbig hsep _ _).2 (Csv.anyText_nil sep)
  cases hdr <;> simp [readFile, readFileWith, fileDuring, h, readLoop]

/-- **C103**, what is not noticed: `SaveToFile` answers true although the disk had room for the first ten characters only, and `ReadFile` of that file answers true without an error,
with a record whose name is cut off. -/
theorem C103_silent_cut_refuted : ∃ w w2 w3 : World Key Val VTy, HReach Ordinary (fun _ => 0) w ∧ HReach Ordinary (fun _ => 0) w2 ∧ members w2 0 = [] ∧
    ∃ text file, saveToFile Env.id w 0 [kName] [','] true = some text ∧ saveCall true (some 10) none text = (true, file) ∧
      readFile 512 1000 w2 0 file ',' true [] = some (true, w3, []) ∧ members w 0 = [0, 1] ∧ value w 0 kName = some (.str "anna lena".toList) ∧
      members w3 0 = [0] ∧ value w3 0 kName = some (.str "anna".toList) :=
  ⟨_, _, _, fileRun_reach (l := strKeys ++ [.createRow 0 [(kName, .str "anna lena".toList)], .createRow 0 [(kName, .str "bob".toList)]]) rfl, fileRun_reach (l := strKeys) rfl, by decide,
    "name\r\nanna lena\r\nbob\r\n".toList, some "name\r\nanna".toList, by decide, by decide, rfl, by decide, by decide, by decide, by decide⟩

/-! ### Concrete cases -/

/-- A file of two rows cut off inside a quoted field: `a,"x""y"⏎"b` is read as the first row and `b`. -/
example : ∃ n ≤ 2, ∃ cut, parseFile 4096 10485760 ',' ("a,\"x\"\"y\"\r\n\"b".toList) = some (([[['a'], ['x', '"', 'y']], [['b', ','], ['c']]].take n).map rowOf ++ cut) ∧
    (cut = [] ∨ ∃ row c, [[['a'], ['x', '"', 'y']], [['b', ','], ['c']]][n]? = some row ∧ cut = [c] ∧ CutRow row c) := by
  obtain ⟨n, h1, cut, h2, h3, _⟩ := Csv.C103_cut_rows 4096 10485760 (by decide) (by decide) (sep := ',') (by decide)
    (rows := [[['a'], ['x', '"', 'y']], [['b', ','], ['c']]]) (by
      intro row hr
      simp only [List.mem_cons, List.not_mem_nil, or_false] at hr
      rcases hr with rfl | rfl
      · refine ⟨by simp, fun f hf => ?_⟩
        simp only [List.mem_cons, List.not_mem_nil, or_false] at hf
        rcases hf with rfl | rfl
        · exact .inr (by decide)
        · exact .inl (.inl (by decide))
      · refine ⟨by simp, fun f hf => ?_⟩
        simp only [List.mem_cons, List.not_mem_nil, or_false] at hf
        rcases hf with rfl | rfl
        · exact .inl (.inr (.inl (by decide)))
        · exact .inr (by decide)) 12
  exact ⟨n, h1, cut, h2, h3⟩

/-- The hypotheses of `C103_all_types`: the two vaults of C88, cut off anywhere. -/
example (i : Nat) : ∃ text, saveToFile Env.id wideW 0 [kPrice, kName] [','] true = some text ∧ ∃ w3 errs,
    readFile 512 1000 wideW2 0 (fileDuring none text (i + 1)) ',' true [] = some (true, w3, errs) ∧ errs.length ≤ 1 := by
  have hm : members wideW 0 = [0] := rfl
  have hval : ∀ k ∈ [kPrice, kName], ∀ v, value wideW 0 k = some v → v = .real true (5 / 2) fp_five_halves ∨ v = .str "a;b".toList := by
    intro k hk v hv
    simp only [List.mem_cons, List.not_mem_nil, or_false] at hk
    rcases hk with rfl | rfl
    · have : value wideW 0 kPrice = some (.real true (5 / 2) fp_five_halves) := rfl
      rw [this] at hv; cases hv; exact .inl rfl
    · have : value wideW 0 kName = some (.str "a;b".toList) := rfl
      rw [this] at hv; cases hv; exact .inr rfl
  obtain ⟨text, h1, n, w3, extra, errs, _, h2, _, _, _, h3, _⟩ := C103_all_types wideW_reach wideW2_reach (o := 0) (d := 0) (by decide) (by decide) Env.id 512 1000 (by decide) (by decide)
    (sep := ',') (by decide) (by unfold WordChar Str.IsDigit; decide) (by decide) true [kPrice, kName] [] (ks := [kPrice, kName]) rfl (by decide) (by decide)
    (by decide) (fun _ => ⟨by unfold Plain; decide, by decide⟩) (.inl rfl) (by decide)
    (by
      intro r hr k hk v hv
      rw [hm, List.mem_singleton] at hr; subst hr
      rcases hval k hk v hv with rfl | rfl
      · show |(5 / 2 : ℚ)| ≤ 2147483647
        norm_num [abs_of_pos]
      · exact .inr (.inr (.inr (by decide))))
    (by
      intro r hr k hk
      rw [hm, List.mem_singleton] at hr; subst hr
      intro e
      rcases hval k (List.mem_of_getLast? hk) _ e with h | h <;> cases h)
    (by
      have hu : getUniqueKeys wideW2 0 = [kName] := rfl
      have hm2 : members wideW2 0 = [0] := rfl
      intro k hk
      rw [hu, List.mem_singleton] at hk; subst hk
      rw [hm, hm2]
      have e1 : value wideW 0 kName = some (.str "a;b".toList) := rfl
      have e2 : value wideW2 0 kName = some (.str "old".toList) := rfl
      refine ⟨by decide, ?_, ?_⟩
      · intro r hr r' hr' hne
        rw [List.mem_singleton] at hr hr'; subst hr; subst hr'; exact absurd rfl hne
      · intro m hmm r hr
        rw [List.mem_singleton] at hmm hr; subst hmm; subst hr
        rw [e1, e2]
        intro e
        cases e) none i
  exact ⟨text, h1, w3, errs, h2, by omega⟩

/-- A cut between two records: two lines were written, one record is read and the other one is the cut row `b` of `bob`. -/
example : ∃ w3, readFile 512 1000 ((fileRun strKeys).getD World.empty) 0 (fileDuring none "anna\r\nbob\r\n".toList 8) ',' false [kName] = some (true, w3, []) ∧
    members w3 0 = [0, 1] ∧ value w3 0 kName = some (.str "anna".toList) ∧ value w3 1 kName = some (.str "b".toList) :=
  ⟨_, rfl, by decide, by decide, by decide⟩

end MVault.W
