import Verif.CutLemmas
import Verif.PropsStrings
import Verif.PropsWide
/-
C06 and C58, exactly: which texts of integers and which files are undefined.
-/
set_option linter.unusedSimpArgs false
set_option linter.unusedVariables false
set_option linter.unusedSectionVars false
namespace MVault.Str

/-- C05, C06: the ranges of the integer types are those of 16, 32 and 64 bits in two's complement. -/
theorem C05_ranges :
    (∀ i : Int, (IntTy.lo .i16 ≤ i ∧ i ≤ IntTy.hi .i16) ↔ -2 ^ 15 ≤ i ∧ i < 2 ^ 15) ∧ (∀ i : Int, (IntTy.lo .u16 ≤ i ∧ i ≤ IntTy.hi .u16) ↔ 0 ≤ i ∧ i < 2 ^ 16) ∧
    (∀ i : Int, (IntTy.lo .i32 ≤ i ∧ i ≤ IntTy.hi .i32) ↔ -2 ^ 31 ≤ i ∧ i < 2 ^ 31) ∧ (∀ i : Int, (IntTy.lo .u32 ≤ i ∧ i ≤ IntTy.hi .u32) ↔ 0 ≤ i ∧ i < 2 ^ 32) ∧
    (∀ i : Int, (IntTy.lo .i64 ≤ i ∧ i ≤ IntTy.hi .i64) ↔ -2 ^ 63 ≤ i ∧ i < 2 ^ 63) ∧ (∀ i : Int, (IntTy.lo .u64 ≤ i ∧ i ≤ IntTy.hi .u64) ↔ 0 ≤ i ∧ i < 2 ^ 64) := by
  refine ⟨?_, ?_, ?_, ?_, ?_, ?_⟩ <;> intro i <;> simp only [IntTy.lo, IntTy.hi] <;> omega

/-- C88: the ranges of the 8-bit types. -/
theorem C88_byte_ranges (i : Int) : ((W.byteLo true ≤ i ∧ i ≤ W.byteHi true) ↔ -2 ^ 7 ≤ i ∧ i < 2 ^ 7) ∧ ((W.byteLo false ≤ i ∧ i ≤ W.byteHi false) ↔ 0 ≤ i ∧ i < 2 ^ 8) := by
  simp only [W.byteLo, W.byteHi, if_true, Bool.false_eq_true, if_false]; omega

theorem digitLoop_append {t : IntTy} (r : List Char) : ∀ (q : List Char) (a : Int), digitLoop t (q ++ r) a = match digitLoop t q a with | .ok b => digitLoop t r b | o => o
  | [], a => rfl
  | c :: q, a => by
    simp only [List.cons_append, digitLoop]
    split
    · rfl
    · cases t.fit (a * 10) with
      | none => rfl
      | some r1 =>
        dsimp only
        cases t.fit (r1 + ((c.toNat : Int) - 48)) with
        | none => rfl
        | some r2 => exact digitLoop_append r q r2

theorem takeWhile_digits (l : List Char) : ∀ c ∈ l.takeWhile (fun c => decide (IsDigit c)), IsDigit c := by
  intro c hc
  have := List.all_takeWhile (l := l) (p := fun c => decide (IsDigit c))
  rw [List.all_eq_true] at this
  simpa using this c hc

theorem digitLoop_ub_prefix {t : IntTy} {l : List Char} (h : digitLoop t l 0 = .ub) : ∃ q, q <+: l ∧ q ≠ [] ∧ (∀ c ∈ q, IsDigit c) ∧ t.hi < decValue q 0 := by
  have hpos := hi_pos t
  refine ⟨l.takeWhile (fun c => decide (IsDigit c)), List.takeWhile_prefix _, ?_, takeWhile_digits l, ?_⟩
  all_goals
    have hbig : ¬ decValue (l.takeWhile (fun c => decide (IsDigit c))) 0 ≤ t.hi := by
      intro hle
      rw [decValue_eq] at hle
      have hq := digitLoop_fit t _ 0 (fun c hc => (isDigit_iff c).1 (takeWhile_digits l c hc)) (by omega) hle
      have hl : l = l.takeWhile (fun c => decide (IsDigit c)) ++ l.dropWhile (fun c => decide (IsDigit c)) := (List.takeWhile_append_dropWhile).symm
      rw [hl, digitLoop_append, hq] at h
      dsimp only at h
      cases hd : l.dropWhile (fun c => decide (IsDigit c)) with
      | nil => rw [hd] at h; simp [digitLoop] at h
      | cons c r =>
        have hc : ¬ IsDigit c := by
          have := List.head?_dropWhile_not (fun c => decide (IsDigit c)) l
          rw [hd] at this
          simpa using this
        have hn : notDigit c = true := by
          cases hx : notDigit c with
          | true => rfl
          | false => exact absurd ((isDigit_iff c).2 hx) hc
        rw [hd] at h
        simp [digitLoop, hn] at h
  · intro e
    rw [e] at hbig
    simp [decValue] at hbig
    omega
  · omega

/-- **C06, undefined.** Reading a text as an integer is undefined exactly for the types `int` and `int64_t`, and for the texts that begin with a numeral whose absolute value does
not fit (whatever follows it, even if the text is no numeral). -/
theorem C06_undefined_iff (t : IntTy) (s : List Char) :
    fromStringInt t s = .ub ↔ (t = .i32 ∨ t = .i64) ∧ ∃ p v, p <+: s ∧ Numeral p v ∧ (t.hi < v ∨ v < -t.hi) := by
  constructor
  · intro h
    have ht : t = .i32 ∨ t = .i64 := by
      refine Decidable.byContradiction fun hne => ?_
      have hw : t.wraps = true := by cases t <;> simp_all [IntTy.wraps]
      have : ¬ W.Wide (.int t) := by cases t <;> simp_all [W.Wide]
      have := W.readVal_defined this s
      simp only [W.readVal, h] at this
      exact this rfl
    refine ⟨ht, ?_⟩
    cases s with
    | nil => simp [fromStringInt] at h
    | cons c cs =>
      simp only [fromStringInt] at h
      have hloop : digitLoop t (if (c == '-' && !cs.isEmpty) = true then cs else c :: cs) 0 = .ub := by
        split at h
        · rename_i res hres
          split at h
          · have := W.negate_fits hres
            split at h
            · rename_i e; exact absurd e this
            · cases h
          · cases h
        · exact h
      obtain ⟨q, h1, h2, h3, h4⟩ := digitLoop_ub_prefix hloop
      by_cases hn : (c == '-' && !cs.isEmpty) = true
      · rw [if_pos hn] at h1
        have hc : c = '-' := by simp at hn; exact hn.1
        subst hc
        exact ⟨'-' :: q, _, by rw [List.cons_prefix_cons]; exact ⟨rfl, h1⟩, .neg q h2 h3, .inr (by omega)⟩
      · rw [if_neg hn] at h1
        exact ⟨q, _, h1, .pos q h2 h3, .inl h4⟩
  · rintro ⟨ht, p, v, ⟨r, rfl⟩, hn, hb⟩
    have := C06_overflow_is_undefined t ht p v hn hb
    refine Decidable.byContradiction fun hne => ?_
    exact W.fromStringInt_prefix hne this

theorem Numeral.unique {s : List Char} {v v' : Int} (h : Numeral s v) (h' : Numeral s v') : v = v' := by
  cases h with
  | pos _ hne hd =>
    cases h' with
    | pos => rfl
    | neg ds hne' hd' => exact absurd (hd '-' (by simp)) (by decide)
  | neg ds hne hd =>
    cases h' with
    | pos _ hne' hd' => exact absurd (hd' '-' (by simp)) (by decide)
    | neg => rfl

/-- **C06, accepted.** The types `int` and `int64_t` accept exactly the numerals of absolute value at most the largest value of the type, with their values. -/
theorem C06_signed_accepts_iff (t : IntTy) (ht : t = .i32 ∨ t = .i64) (s : List Char) (v : Int) : fromStringInt t s = .ok v ↔ Numeral s v ∧ -t.hi ≤ v ∧ v ≤ t.hi := by
  constructor
  · intro h
    have hnum : ∃ v', Numeral s v' := by
      refine Classical.byContradiction fun hne => ?_
      exact C06_rejects_non_numerals t s (fun v' hv => hne ⟨v', hv⟩) v h
    obtain ⟨v', hv'⟩ := hnum
    have hr : ¬ (t.hi < v' ∨ v' < -t.hi) := by
      intro hb
      rw [C06_overflow_is_undefined t ht s v' hv' hb] at h
      cases h
    have hok := C06_accepts_numerals_partial t s v' hv' (by rcases ht with rfl | rfl <;> simp [IntTy.lo, IntTy.hi] at * <;> omega) (by omega)
      (by rcases ht with rfl | rfl <;> simp [IntTy.lo, IntTy.hi] at * <;> omega)
    rw [hok] at h
    simp only [Out.ok.injEq] at h
    subst h
    exact ⟨hv', by omega, by omega⟩
  · rintro ⟨hn, h1, h2⟩
    exact C06_accepts_numerals_partial t s v hn (by rcases ht with rfl | rfl <;> simp [IntTy.lo, IntTy.hi] at * <;> omega) h2
      (by rcases ht with rfl | rfl <;> simp [IntTy.lo, IntTy.hi] at * <;> omega)

/-- **C06, rejected.** Every type refuses exactly the texts that are no numerals, except those on which it is undefined. -/
theorem C06_rejects_iff (t : IntTy) (s : List Char) : fromStringInt t s = .reject ↔ (∀ v, ¬ Numeral s v) ∧ fromStringInt t s ≠ .ub := by
  constructor
  · intro h
    refine ⟨fun v hn => ?_, by rw [h]; simp⟩
    by_cases ht : t = .i32 ∨ t = .i64
    · by_cases hb : t.hi < v ∨ v < -t.hi
      · rw [C06_overflow_is_undefined t ht s v hn hb] at h; cases h
      · rw [(C06_signed_accepts_iff t ht s v).2 ⟨hn, by omega, by omega⟩] at h; cases h
    · obtain ⟨r, hr, _⟩ := C06_wraps_out_of_range t (by simpa [not_or] using ht) s v hn
      rw [hr] at h; cases h
  · rintro ⟨h1, h2⟩
    cases h : fromStringInt t s with
    | ub => exact absurd h h2
    | reject => rfl
    | ok v => exact absurd h (C06_rejects_non_numerals t s h1 v)

/-- `99999999999x` is no numeral and yet undefined; `12x` is refused. -/
example : fromStringInt .i32 "99999999999x".toList = .ub ∧ fromStringInt .i32 "12x".toList = .reject :=
  ⟨(C06_undefined_iff _ _).2 ⟨.inl rfl, "99999999999".toList, _, by decide, .pos _ (by decide) (by decide), .inl (by decide)⟩,
    (C06_rejects_iff _ _).2 ⟨fun v hn => by cases hn with | pos _ _ hd => exact absurd (hd 'x' (by decide)) (by decide), by decide⟩⟩
example : fromStringInt .i64 "-0042".toList = .ok (-42) := (C06_signed_accepts_iff _ (.inr rfl) _ _).2 ⟨.neg "0042".toList (by decide) (by decide), by decide, by decide⟩

end MVault.Str

namespace MVault.W
open MVault.Csv (parseFile)
variable {V Ty : Type} [LinearOrder V] [Typed V Ty] [DecidableEq Ty] [Texts V Ty]

/-! ### Specification. Models no code. -/

/-- A field that cannot be read (specification): it has no key, or its text is undefined to read as the type of its key. -/
def FieldUndefined (w : World Key V Ty) (d : Nat) (p : Option Key × List Char) : Prop :=
  p.1 = none ∨ ∃ k, p.1 = some k ∧ ∃ v : V, getDefault w d k = some v ∧ fromText (typeOf v) p.2 = (.ub : Str.Out V)

/-- A row that cannot be read (specification): such a field comes before any refused one. -/
def RowUndefined (w : World Key V Ty) (d : Nat) (fields : List (Option Key × List Char)) : Prop :=
  ∃ pre p post, fields = pre ++ p :: post ∧ (∀ q ∈ pre, FieldOk w d q) ∧ FieldUndefined w d p

/-! ### Lemmas -/

theorem setRow_ub_iff {w : World Key V Ty} {d : Nat} {vo : Obj Key V Ty} (hvo : w.getObj d = some vo) :
    ∀ (l : List (Option Key × List Char)) (data : List (Key × V)) (b : Bool), (∀ k, (mget data k).map typeOf = (mget vo.tmpl k).map typeOf) →
      (setRow l data b = .ub ↔ RowUndefined w d l)
  | [], data, b, _ => by
    constructor
    · intro h; cases b <;> simp [setRow] at h
    · rintro ⟨pre, p, post, h, _⟩; simp at h
  | (none, s) :: l, data, b, _ => by
    constructor
    · intro _; exact ⟨[], _, l, rfl, by simp, .inl rfl⟩
    · intro _; rfl
  | (some k, s) :: l, data, b, hd => by
    have hk := hd k
    have cons_iff : RowUndefined w d ((some k, s) :: l) ↔ FieldUndefined w d (some k, s) ∨ (FieldOk w d (some k, s) ∧ RowUndefined w d l) := by
      constructor
      · rintro ⟨pre, p, post, h1, h2, h3⟩
        cases pre with
        | nil =>
          simp only [List.nil_append, List.cons.injEq] at h1
          obtain ⟨rfl, rfl⟩ := h1
          exact .inl h3
        | cons q pre =>
          simp only [List.cons_append, List.cons.injEq] at h1
          obtain ⟨rfl, rfl⟩ := h1
          exact .inr ⟨h2 _ (by simp), pre, p, post, rfl, fun q hq => h2 q (by simp [hq]), h3⟩
      · rintro (h | ⟨h1, pre, p, post, rfl, h2, h3⟩)
        · exact ⟨[], _, l, rfl, by simp, h⟩
        · exact ⟨(some k, s) :: pre, p, post, rfl, by
            intro q hq
            rcases List.mem_cons.mp hq with rfl | hq
            · exact h1
            · exact h2 q hq, h3⟩
    rw [cons_iff]
    simp only [setRow]
    cases hm : mget data k with
    | none =>
      rw [hm, Option.map_none, eq_comm, Option.map_eq_none_iff, ← getDefault_eq hvo] at hk
      constructor
      · intro h; cases h
      · rintro ((h | ⟨k', e, v, h1, _⟩) | ⟨⟨k', e, v, x, h1, _⟩, _⟩)
        · exact absurd h (by simp)
        all_goals
          simp only [Option.some.injEq] at e; subst e
          rw [hk] at h1; cases h1
    | some v0 =>
      rw [hm, Option.map_some, eq_comm, Option.map_eq_some_iff] at hk
      obtain ⟨v1, h1, h2⟩ := hk
      rw [← getDefault_eq hvo] at h1
      dsimp only
      have hu : FieldUndefined w d (some k, s) ↔ (fromText (typeOf v0) s : Str.Out V) = .ub := by
        constructor
        · rintro (h | ⟨k', e, v, g1, g2⟩)
          · cases h
          · simp only [Option.some.injEq] at e; subst e
            rw [h1] at g1; cases g1
            rw [← h2]; exact g2
        · intro h; exact .inr ⟨k, rfl, v1, h1, by rw [h2]; exact h⟩
      have hok : FieldOk w d (some k, s) ↔ ∃ x : V, fromText (typeOf v0) s = .ok x := by
        constructor
        · rintro ⟨k', e, v, x, g1, g2⟩
          simp only [Option.some.injEq] at e; subst e
          rw [h1] at g1; cases g1
          exact ⟨x, by rw [← h2]; exact g2⟩
        · rintro ⟨x, hx⟩; exact ⟨k, rfl, v1, x, h1, by rw [h2]; exact hx⟩
      rw [hu, hok]
      cases hf : (fromText (typeOf v0) s : Str.Out V) with
      | ub => simp
      | reject => simp
      | ok v =>
        dsimp only
        rw [setRow_ub_iff hvo l _ _ (by
          intro k'
          rw [mget_mput, ← hd k']
          split
          · rename_i e; subst e; simp [hm, Texts.from_ty _ _ _ hf]
          · rfl)]
        simp

theorem readLoop_none_iff {home : Nat → Nat} (handler : List Key → List (List Char) → List (List Char)) (loaded : Option (List Key)) (userKeys : List Key) (d : Nat) :
    ∀ (rows : List (List (List Char))) (n : Nat) (w : World Key V Ty) (errs : List (Nat × Key)), HReach Ordinary home w → isVault w d = true →
      (readLoop handler loaded userKeys d rows n w errs = none ↔ ∃ row ∈ rows, RowUndefined w d (rowPairs loaded userKeys (getKeys w d) (handledRow handler loaded row)))
  | [], n, w, errs, _, _ => by simp [readLoop]
  | row :: rows, n, w, errs, hr, hd => by
    obtain ⟨vo, hvo, hs⟩ := isVault_iff.mp hd
    have hkeys : getKeys w d = vo.keysOrder := getKeys_eq hvo
    simp only [readLoop, hvo, Option.bind_eq_bind, Option.bind_some]
    have hub := setRow_ub_iff (w := w) hvo (rowPairs loaded userKeys vo.keysOrder (handledRow handler loaded row)) vo.tmpl false (fun _ => rfl)
    rw [← hkeys] at hub
    have hsplit : (∃ row' ∈ row :: rows, RowUndefined w d (rowPairs loaded userKeys (getKeys w d) (handledRow handler loaded row'))) ↔
        RowUndefined w d (rowPairs loaded userKeys (getKeys w d) (handledRow handler loaded row)) ∨
        ∃ row' ∈ rows, RowUndefined w d (rowPairs loaded userKeys (getKeys w d) (handledRow handler loaded row')) := by simp
    rw [hsplit, ← hub, ← hkeys]
    cases hsr : setRow (rowPairs loaded userKeys (getKeys w d) (handledRow handler loaded row)) vo.tmpl false with
    | ub => simp
    | skip =>
      simp only [reduceCtorEq, false_or]
      exact readLoop_none_iff handler loaded userKeys d rows _ w _ hr hd
    | bad k =>
      simp only [reduceCtorEq, false_or]
      exact readLoop_none_iff handler loaded userKeys d rows _ w _ hr hd
    | ok data =>
      simp only [reduceCtorEq, false_or]
      obtain ⟨ps, hps⟩ := setRow_params vo _ _ _ _ hsr
      obtain ⟨w1, res, hc⟩ := createRow_total hr hd ps
      have hins : ∃ out, insertRecord w d data = some (w1, out) := by
        have hc' := hc
        simp only [createRow, hvo, hps, Option.bind_eq_bind, Option.bind_some, Option.bind_eq_some_iff, Prod.exists] at hc'
        obtain ⟨w2, out, h1, h2⟩ := hc'
        cases out <;> cases h2 <;> exact ⟨_, h1⟩
      obtain ⟨out, hins⟩ := hins
      obtain ⟨hr1, hd1⟩ := createRow_hstep hr hd hc
      obtain ⟨new1, ha, _⟩ := createRow_added hr.any hd hc
      rw [hins, Option.bind_some]
      have hsame : ∀ fields, RowUndefined w1 d fields ↔ RowUndefined w d fields := by
        intro fields
        unfold RowUndefined FieldOk FieldUndefined
        simp only [ha.defaults]
      have ih := fun n errs => readLoop_none_iff handler loaded userKeys d rows n w1 errs hr1 hd1
      simp only [ha.keys, hsame] at ih
      cases out with
      | error k => exact ih _ _
      | ok r => exact ih _ _

/-- **C58, exactly.** After an ordinary history, reading a file is undefined if and only if some data row has a field without a key (a surplus field in a file read without keys)
or a field whose text is undefined to read as the type of its key, with no refused field before it in the row. Whatever the other rows are does not matter. -/
theorem C58_undefined_iff {home : Nat → Nat} {w : World Key V Ty} (hw : HReach Ordinary home w) {d : Nat} (hd : isVault w d = true)
    (handler : List Key → List (List Char) → List (List Char)) (block big : Nat) (hb : 1 < block) (hbig : block ≤ big) (text : List Char) (sep : Char) (il : Bool) (uk : List Key) :
    readFileWith handler block big w d (some text) sep il uk = none ↔
      ∃ rows, parseFile block big sep text = some rows ∧ ∃ row ∈ dataRows il rows, RowUndefined w d (fieldsOf handler il rows uk (getKeys w d) row) := by
  obtain ⟨rows, h1, _⟩ := Csv.C04_parsing_terminates block big hb hbig sep text
  have hl : readFileWith handler block big w d (some text) sep il uk = none ↔ readLoop handler (keyLine il rows) uk d (dataRows il rows) 0 w [] = none := by
    cases il
    · simp only [readFileWith, Bool.false_eq_true, if_false, h1, Option.bind_eq_bind, Option.bind_some, keyLine, dataRows]
      cases readLoop handler none uk d rows 0 w [] <;> simp
    · simp only [readFileWith, if_true, h1, Option.bind_eq_bind, Option.bind_some, keyLine, dataRows]
      cases readLoop handler (some ((rows.head?.getD []).map Key.of)) uk d rows.tail 0 w [] <;> simp
  rw [hl, readLoop_none_iff handler _ uk d _ 0 w [] hw hd]
  simp only [fieldsOf_eq]
  constructor
  · rintro ⟨row, h2, h3⟩; exact ⟨rows, h1, row, h2, h3⟩
  · rintro ⟨rows', h1', row, h2, h3⟩
    rw [h1] at h1'
    cases h1'
    exact ⟨row, h2, h3⟩

/-- **C58.** Which texts are undefined, for all types of values: those of `int` and `int64_t` keys that begin with a numeral that does not fit, and those of floating point keys
whose integer or fractional digits do not fit an `int` (C51). -/
theorem C58_undefined_texts (t : WTy) (s : List Char) : (fromText t s : Str.Out WVal) = .ub ↔
    (∃ i, t = .int i ∧ (i = .i32 ∨ i = .i64) ∧ ∃ p v, p <+: s ∧ Str.Numeral p v ∧ (i.hi < v ∨ v < -i.hi)) ∨ (∃ b, t = .real b ∧ Str.TooLarge s) := by
  show readWide t s = .ub ↔ _
  cases t with
  | int i =>
    have : readWide (.int i) s = .ub ↔ Str.fromStringInt i s = .ub := by
      simp only [readWide]
      cases hf : Str.fromStringInt i s with
      | ub => simp
      | reject => simp
      | ok x => dsimp only; rw [dif_pos (fromStringInt_range hf)]; simp
    rw [this, Str.C06_undefined_iff]
    constructor
    · rintro ⟨h1, h2⟩; exact .inl ⟨i, rfl, h1, h2⟩
    · rintro (⟨j, e, h1, h2⟩ | ⟨b, e, _⟩)
      · cases e; exact ⟨h1, h2⟩
      · cases e
  | byte b =>
    constructor
    · intro h; simp [readWide, Str.fromStringOther] at h
    · rintro (⟨j, e, _⟩ | ⟨b, e, _⟩) <;> cases e
  | user b =>
    constructor
    · intro h; simp [readWide, Str.fromStringOther] at h
    · rintro (⟨j, e, _⟩ | ⟨b, e, _⟩) <;> cases e
  | bool =>
    constructor
    · intro h; exact absurd h (by simp only [readWide, Str.fromStringBool]; split <;> (try split) <;> simp_all; split at * <;> (try split at *) <;> simp_all)
    · rintro (⟨j, e, _⟩ | ⟨b, e, _⟩) <;> cases e
  | str =>
    constructor
    · intro h; simp [readWide, Str.fromStringStr] at h
    · rintro (⟨j, e, _⟩ | ⟨b, e, _⟩) <;> cases e
  | real b =>
    have : readWide (.real b) s = .ub ↔ Str.fromStringDecimal s = .ub := by
      simp only [readWide]
      cases hf : Str.fromStringDecimal s <;> simp
    rw [this]
    constructor
    · intro h
      refine .inr ⟨b, rfl, ?_⟩
      refine Classical.byContradiction fun hl => ?_
      by_cases hf : ∃ neg ds frac, Str.DecimalForm s neg ds frac
      · obtain ⟨neg, ds, frac, hf⟩ := hf
        have h1 : Str.decValue ds 0 ≤ 2147483647 := by
          refine Decidable.byContradiction fun hgt => ?_
          exact hl ⟨neg, ds, hf.digits, Or.inl ⟨by omega, _, hf.text⟩⟩
        have h2 : Str.decValue (frac.getD []) 0 ≤ 2147483647 := by
          refine Decidable.byContradiction fun hgt => ?_
          cases frac with
          | none => simp [Str.decValue] at hgt
          | some fs =>
            refine hl ⟨neg, ds, hf.digits, Or.inr ⟨fs, [], hf.fracDigits fs rfl, by simpa using hgt, ?_⟩⟩
            rw [List.append_nil]; exact hf.text
        rw [Str.C51_reads hf h1 h2] at h
        cases h
      · rw [Str.C51_rejects (fun neg ds frac hh => hf ⟨neg, ds, frac, hh⟩) hl] at h
        cases h
    · rintro (⟨j, e, _⟩ | ⟨b, e, h⟩)
      · cases e
      · exact Str.C51_overflows h

/-- The two ways, in one file read without keys: the second row has a surplus field (undefined); put a refused field before it and the file is defined. -/
example : readFileWith (fun _ row => row) 512 1000 boolW 0 (some "false,a\r\nfalse,a,b\r\n".toList) ',' false [] = none ∧
    readFileWith (fun _ row => row) 512 1000 boolW 0 (some "false,a\r\nno,a,b\r\n".toList) ',' false [] ≠ none := by
  constructor
  · rw [C58_undefined_iff boolW_reach (by decide) _ 512 1000 (by decide) (by decide)]
    refine ⟨[["false".toList, "a".toList], ["false".toList, "a".toList, "b".toList]], rfl, ["false".toList, "a".toList, "b".toList], by decide,
      [(some kFlag, "false".toList), (some kName, "a".toList)], (none, "b".toList), [], by decide, ?_, .inl rfl⟩
    intro q hq
    simp only [List.mem_cons, List.not_mem_nil, or_false] at hq
    rcases hq with rfl | rfl
    · exact ⟨kFlag, rfl, .bool false, .bool false, by decide, by decide⟩
    · exact ⟨kName, rfl, .str "x".toList, .str "a".toList, by decide, by decide⟩
  · intro h
    cases h

end MVault.W
