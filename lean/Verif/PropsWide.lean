import Verif.WideModel
/-
C88 for all types of values, and a concrete pair of vaults.
-/
set_option linter.unusedSectionVars false
set_option linter.unusedSimpArgs false
namespace MVault.W
open MVault.Csv (formatCsv parseFile writeRow writeRows Clean GoodSep)

/-- Values that come back from a file (specification): all integers of 16 to 64 bits but the smallest of the two types whose smallest value cannot be read, all
booleans, texts that get quoted or have neither carriage return nor separator, floating point values up to 2147483647. Not: 8-bit integers and user types. -/
def Returns (sep : Char) : WVal → Prop
  | .int t i _ => i = t.lo → t ≠ .i32 ∧ t ≠ .i64
  | .byte _ _ _ => False
  | .bool _ => True
  | .str s => '"' ∈ s ∨ ',' ∈ s ∨ '\n' ∈ s ∨ ('\r' ∉ s ∧ sep ∉ s)
  | .real _ x _ => |x| ≤ 2147483647
  | .user _ _ => False

/-- How close a value comes back (specification): a `double` with an error of at most 0.0000006 + |x| / 10^14, a `float` with an error of at most
0.0000006 (1 + |x|), whole numbers of either type and all other values exactly. -/
def Close : WVal → WVal → Prop
  | .real true x _, v => (∃ y h, v = .real true y h ∧ |y - x| ≤ 6 / 10 ^ 7 + |x| / 10 ^ 14) ∧ ((∃ m : Int, x = m) → ∃ h, v = .real true x h)
  | .real false x _, v => (∃ y h, v = .real false y h ∧ |y - x| ≤ 6 / 10 ^ 7 * (1 + |x|)) ∧ ((∃ m : Int, x = m) → ∃ h, v = .real false x h)
  | a, b => b = a

/-- What a value is read back as from its own text; the value itself if the text is refused. -/
def back (v : WVal) : WVal := match fromText (typeOf v) (toText v) with | .ok v' => v' | _ => v

theorem readWide_real {d : Bool} {s : List Char} {y : ℚ} (h : Fp.fromStringFloat (bits d) s = .ok y) : ∃ hy, readWide (.real d) s = .ok (.real d y hy) := by
  unfold Fp.fromStringFloat at h
  simp only [readWide]
  split at h
  · cases h
  · cases h
  · rename_i x hx
    cases h
    exact ⟨_, by rw [hx]⟩

theorem real_chars (x : ℚ) : Fp.toStringFloat x ≠ [] ∧ ∀ c ∈ Fp.toStringFloat x, WordChar c ∨ c = '.' := by
  obtain ⟨h1, ⟨n1, n2, n3⟩, _, _⟩ := Fp.toString_shape x
  rw [h1]
  unfold Fp.decimalText
  refine ⟨by simp, ?_⟩
  intro c hc
  simp only [List.mem_append, List.mem_cons] at hc
  rcases hc with (hc | hc) | hc | hc
  · split at hc
    · simp only [List.mem_singleton] at hc; subst hc; exact .inl (.inr (by decide))
    · cases hc
  · exact .inl (.inl (n2 c hc))
  · exact .inr hc
  · exact .inl (.inl (n3 c hc))

theorem float_bound (x : ℚ) (hx : |x| ≤ 2147483647) :
    ∃ y, Fp.fromStringFloat 53 (Fp.toStringFloat x) = .ok y ∧ |y - x| ≤ 6 / 10 ^ 7 + |x| / 10 ^ 14 := by
  obtain ⟨y, h1, h2⟩ := Fp.C89_roundtrip 53 (by decide) x (le_trans hx (by norm_num))
  refine ⟨y, h1, le_trans h2 ?_⟩
  have hc : (1 + (2 : ℚ)⁻¹ ^ 53) ^ 9 - 1 ≤ 1 / 10 ^ 14 := by norm_num
  have h0 : (0 : ℚ) ≤ |x| + 1 / 2 / 10 ^ 6 := by positivity
  have h3 := mul_le_mul_of_nonneg_right hc h0
  have := abs_nonneg x
  norm_num at h3 ⊢
  linarith

/-- **C88.** A value that returns is read back from its own text, as a value close to it; its text is clean for the file and not empty unless it is the empty text. -/
theorem C88_values {sep : Char} (hsep : ¬ WordChar sep) (hdot : sep ≠ '.') {v : WVal} (h : Returns sep v) :
    fromText (typeOf v) (toText v) = .ok (back v) ∧ Close v (back v) ∧ Clean sep (toText v) ∧ (v ≠ .str [] → toText v ≠ []) := by
  have key : ∀ v', fromText (typeOf v) (toText v) = .ok v' → back v = v' := by
    intro v' hv
    unfold back
    rw [hv]
  cases v with
  | int t i hi =>
    obtain ⟨hne, hc⟩ := intChars i
    have hr : fromText (typeOf (WVal.int t i hi)) (toText (WVal.int t i hi)) = .ok (WVal.int t i hi) := by
      show readWide (.int t) (Str.toStringInt i) = _
      simp only [readWide, Str.C05_int_roundtrip_partial t i hi.1 hi.2 h]
      rw [dif_pos hi]
    rw [key _ hr]
    exact ⟨hr, rfl, .inr ⟨fun e => wordChar_cr (hc _ e), fun e => hsep (hc _ e)⟩, fun _ => hne⟩
  | byte s i hi => exact absurd h id
  | bool b =>
    obtain ⟨hne, hc⟩ := boolChars b
    have hr : fromText (typeOf (WVal.bool b)) (toText (WVal.bool b)) = .ok (WVal.bool b) := by
      show readWide .bool (Str.toStringBool b) = _
      simp only [readWide, Str.C07_bool_string_roundtrip.1 b]
    rw [key _ hr]
    exact ⟨hr, rfl, .inr ⟨fun e => wordChar_cr (hc _ e), fun e => hsep (hc _ e)⟩, fun _ => hne⟩
  | str s =>
    have hr : fromText (typeOf (WVal.str s)) (toText (WVal.str s)) = .ok (WVal.str s) := rfl
    rw [key _ hr]
    refine ⟨hr, rfl, ?_, fun hn e => hn (by rw [show s = [] from e])⟩
    rcases h with h | h | h | h
    · exact .inl (.inl h)
    · exact .inl (.inr (.inl h))
    · exact .inl (.inr (.inr h))
    · exact .inr h
  | user n c => exact absurd h id
  | real d x hx =>
    obtain ⟨hne, hc⟩ := real_chars x
    have hclean : Clean sep (Fp.toStringFloat x) := by
      refine .inr ⟨fun e => ?_, fun e => ?_⟩
      · rcases hc _ e with h | h
        · exact wordChar_cr h
        · exact absurd h (by decide)
      · rcases hc _ e with h | h
        · exact hsep h
        · exact hdot h
    have hwhole : ∀ m : Int, x = m → ∃ hy, readWide (.real d) (Fp.toStringFloat x) = .ok (.real d x hy) := by
      rintro m rfl
      refine readWide_real (Fp.C89_whole_numbers (bits d) (bits_pos d) m hx ?_)
      have h' : |(m : ℚ)| ≤ 2147483647 := h
      exact_mod_cast h'
    have hclose : ∃ y hy, readWide (.real d) (Fp.toStringFloat x) = .ok (.real d y hy) ∧
        |y - x| ≤ (if d = true then 6 / 10 ^ 7 + |x| / 10 ^ 14 else 6 / 10 ^ 7 * (1 + |x|)) := by
      cases d with
      | true =>
        obtain ⟨y, h1, h2⟩ := float_bound x h
        obtain ⟨hy, h3⟩ := readWide_real (d := true) h1
        exact ⟨y, hy, h3, by simpa using h2⟩
      | false =>
        obtain ⟨y, h1, h2⟩ := Fp.C89_roundtrip_float x h
        obtain ⟨hy, h3⟩ := readWide_real (d := false) h1
        exact ⟨y, hy, h3, by simpa using h2⟩
    obtain ⟨y, hy, h3, h4⟩ := hclose
    have hb : back (.real d x hx) = .real d y hy := key _ h3
    have hexact : (∃ m : Int, x = m) → ∃ h, back (WVal.real d x hx) = .real d x h := by
      rintro ⟨m, hm⟩
      obtain ⟨hy', h5⟩ := hwhole m hm
      exact ⟨hy', key _ h5⟩
    rw [hb] at hexact ⊢
    refine ⟨h3, ?_, hclean, fun _ => hne⟩
    cases d with
    | true => exact ⟨⟨y, hy, rfl, by simpa using h4⟩, hexact⟩
    | false => exact ⟨⟨y, hy, rfl, by simpa using h4⟩, hexact⟩

/-- **C88** for all types: chosen keys whose values return are saved and read back, each value close to what it was. -/
theorem C88_all_types {home home' : Nat → Nat} {w w2 : World Key WVal WTy} (hw : HReach Ordinary home w) (hw2 : HReach Ordinary home' w2)
    {o d : Nat} (ho : isVault w o = true) (hd : isVault w2 d = true) (env : Env) (block big : Nat) (hb : 1 < block) (hbig : block ≤ big)
    {sep : Char} (hsep : sep ≠ '"' ∧ sep ≠ '\r' ∧ sep ≠ '\n') (hword : ¬ WordChar sep) (hdot : sep ≠ '.') (hdr : Bool)
    (saved given : List Key) {ks : List Key} (hks : ks = savedKeys w o saved)
    (hne : ks ≠ []) (hkn : ks.Nodup) (hin : ∀ k ∈ ks, k ∈ getKeys w o)
    (hnames : hdr = true → (∀ k ∈ ks, Plain sep k.name) ∧ ks.getLast? ≠ some (Key.of []))
    (hfind : Finds hdr given (getKeys w2 d) ks) (htypes : ∀ k ∈ ks, getKeyType w2 d k = getKeyType w o k)
    (hvals : ∀ r ∈ members w o, ∀ k ∈ ks, ∀ v, value w r k = some v → Returns sep v)
    (hlast : ∀ r ∈ members w o, ∀ k, ks.getLast? = some k → value w r k ≠ some (.str []))
    (hclash : NoClash back ks w o w2 d) :
    ∃ text w3 new, saveToFile env w o saved [sep] hdr = some text ∧ readFile block big w2 d (some text) sep hdr given = some (true, w3, []) ∧
      rowsOf w3 d = rowsOf w2 d ++ new ∧ new.Perm ((members w o).map fun r => readRow back ks w w2 d r) ∧
      (∀ r ∈ members w o, ∀ k ∈ ks, ∀ v, value w r k = some v → ∃ v', readRow back ks w w2 d r k = some v' ∧ Close v v') := by
  have hl : ∀ k, ks.getLast? = some k → k ∈ ks := fun k h => List.mem_of_getLast? h
  obtain ⟨text, w3, new, h1, h2, h3, h4, _, _⟩ := C88_chosen_keys hw hw2 ho hd env block big hb hbig hsep hdr saved given hks hne hkn hin hnames hfind htypes back
    (fun r hr k hk v hv => (C88_values hword hdot (hvals r hr k hk v hv)).1) hclash
    (fun r hr k hk v hv => (C88_values hword hdot (hvals r hr k hk v hv)).2.2.1)
    (fun r hr k v hk hv => (C88_values hword hdot (hvals r hr k (hl k hk) v hv)).2.2.2 (fun e => hlast r hr k hk (by rw [hv, e])))
  refine ⟨text, w3, new, h1, h2, h3, h4, ?_⟩
  intro r hr k hk v hv
  exact ⟨back v, by simp [readRow, hk, hv], (C88_values hword hdot (hvals r hr k hk v hv)).2.1⟩

/-- **C88.** 8-bit integers and user types are among the types that are never read, although 8-bit integers are written as numbers. -/
theorem C88_never_read : (∀ s text, (fromText (WTy.byte s) text : Str.Out WVal) = .reject) ∧ (∀ n text, (fromText (WTy.user n) text : Str.Out WVal) = .reject) ∧
    (∀ s i h, toText (WVal.byte s i h) = Str.toStringInt i) ∧ ∀ n c, toText (WVal.user n c) = [] :=
  ⟨fun _ _ => rfl, fun _ _ => rfl, fun _ _ _ => rfl, fun _ _ => rfl⟩

/-! ### A concrete pair of vaults -/

def kPrice : Key := Key.of "price".toList
def kRank : Key := Key.of "rank".toList
def kNote : Key := Key.of "note".toList

theorem fp_five_halves : Fp.IsFp (bits true) (5 / 2) := ⟨5, -1, by decide, by norm_num⟩

/-- Unique text key name, a `double` key price, an `int8_t` key rank; one record. -/
def wideOps : List (Op Key WVal WTy) :=
  [.newVault, .addUniqueKey 0 kName .str true (fun _ _ _ => .bool false), .addKey 0 kPrice (.real true (5 / 2) fp_five_halves),
   .addKey 0 kRank (.byte true (-3) (by decide)), .createRow 0 [(kName, .str "a;b".toList)]]
/-- A vault with the keys note, price and name, and a record. -/
def wideOps2 : List (Op Key WVal WTy) :=
  [.newVault, .addKey 0 kNote (.str "none".toList), .addKey 0 kPrice (.real true 0 (isFp_zero _)), .addUniqueKey 0 kName .str true (fun _ _ _ => .bool false),
   .addKey 0 kRank (.byte true 0 (by decide)), .createRow 0 [(kName, .str "old".toList)]]
def wideRun (l : List (Op Key WVal WTy)) : Option (World Key WVal WTy) := runB (fun _ => 0) World.empty (l.map (Env.id, ·))
def wideW : World Key WVal WTy := (wideRun wideOps).getD World.empty
def wideW2 : World Key WVal WTy := (wideRun wideOps2).getD World.empty
theorem wideW_reach : HReach Ordinary (fun _ => 0) wideW := by
  have : wideRun wideOps = some wideW := rfl
  exact runB_reach _ .init this
theorem wideW2_reach : HReach Ordinary (fun _ => 0) wideW2 := by
  have : wideRun wideOps2 = some wideW2 := rfl
  exact runB_reach _ .init this

/-- The hypotheses of `C88_all_types`, with a key line and two chosen keys in an order of their own. -/
example : ∃ text w3 new, saveToFile Env.id wideW 0 [kPrice, kName] [','] true = some text ∧ readFile 512 1000 wideW2 0 (some text) ',' true [] = some (true, w3, []) ∧
    rowsOf w3 0 = rowsOf wideW2 0 ++ new ∧ new.Perm ((members wideW 0).map fun r => readRow back [kPrice, kName] wideW wideW2 0 r) := by
  have hm : members wideW 0 = [0] := rfl
  have hval : ∀ k ∈ [kPrice, kName], ∀ v, value wideW 0 k = some v → v = .real true (5 / 2) fp_five_halves ∨ v = .str "a;b".toList := by
    intro k hk v hv
    simp only [List.mem_cons, List.not_mem_nil, or_false] at hk
    rcases hk with rfl | rfl
    · have : value wideW 0 kPrice = some (.real true (5 / 2) fp_five_halves) := rfl
      rw [this] at hv; cases hv; exact .inl rfl
    · have : value wideW 0 kName = some (.str "a;b".toList) := rfl
      rw [this] at hv; cases hv; exact .inr rfl
  obtain ⟨text, w3, new, h1, h2, h3, h4, _⟩ := C88_all_types wideW_reach wideW2_reach (o := 0) (d := 0) (by decide) (by decide) Env.id 512 1000 (by decide) (by decide)
    (sep := ',') (by decide) (by unfold WordChar Str.IsDigit; decide) (by decide) true [kPrice, kName] [] (ks := [kPrice, kName]) rfl (by decide) (by decide)
    (by decide) (fun _ => ⟨by unfold Plain; decide, by decide⟩) (.inl rfl) (by decide)
    (by
      intro r hr k hk v hv
      rw [hm, List.mem_singleton] at hr; subst hr
      rcases hval k hk v hv with rfl | rfl
      · show |(5 / 2 : ℚ)| ≤ 2147483647
        norm_num [abs_of_pos]
      · exact .inr (.inr (.inr (by decide))))
    (by
      intro r hr k hk
      rw [hm, List.mem_singleton] at hr; subst hr
      intro e
      rcases hval k (List.mem_of_getLast? hk) _ e with h | h <;> cases h)
    (by
      have hu : getUniqueKeys wideW2 0 = [kName] := rfl
      have hm2 : members wideW2 0 = [0] := rfl
      intro k hk
      rw [hu, List.mem_singleton] at hk; subst hk
      rw [hm, hm2]
      have e1 : value wideW 0 kName = some (.str "a;b".toList) := rfl
      have e2 : value wideW2 0 kName = some (.str "old".toList) := rfl
      refine ⟨by decide, ?_, ?_⟩
      · intro r hr r' hr' hne
        rw [List.mem_singleton] at hr hr'; subst hr; subst hr'; exact absurd rfl hne
      · intro m hmm r hr
        rw [List.mem_singleton] at hmm hr; subst hmm; subst hr
        rw [e1, e2]
        intro e
        cases e)
  exact ⟨text, w3, new, h1, h2, h3, h4⟩

/-- The hypotheses of `C88_unreadable`: with the 8-bit key among the saved ones the same vault is read as nothing but an error. -/
example : ∃ text, saveToFile Env.id wideW 0 [kRank, kName] [','] true = some text ∧
    readFile 512 1000 wideW2 0 (some text) ',' true [] = some (true, wideW2, [(2, kRank)]) := by
  have hm : members wideW 0 = [0] := rfl
  have hval : ∀ k ∈ [kRank, kName], ∀ v, value wideW 0 k = some v → toText v = "-3".toList ∨ toText v = "a;b".toList := by
    intro k hk v hv
    simp only [List.mem_cons, List.not_mem_nil, or_false] at hk
    rcases hk with rfl | rfl
    · have : value wideW 0 kRank = some (.byte true (-3) (by decide)) := rfl
      rw [this] at hv; cases hv
      refine .inl ?_
      show Str.toStringInt (-3) = _
      simp [Str.toStringInt, Str.decDigits]
    · have : value wideW 0 kName = some (.str "a;b".toList) := rfl
      rw [this] at hv; cases hv; exact .inr rfl
  obtain ⟨text, h1, h2⟩ := C88_unreadable wideW_reach wideW2_reach (o := 0) (d := 0) (by decide) (by decide) Env.id 512 1000 (by decide) (by decide)
    (sep := ',') (by unfold GoodSep; decide) true [kRank, kName] [] (pre := []) (k := kRank) (post := [kName]) rfl (by decide)
    (fun _ => ⟨by unfold Plain; decide, by decide⟩) (.inl rfl) (by decide) (by intro _ _ _ h; cases h)
    (by
      intro t ht s
      have : getKeyType wideW 0 kRank = some (.byte true) := rfl
      rw [this] at ht; cases ht; rfl)
    (by
      intro r hr k hk v hv
      rw [hm, List.mem_singleton] at hr; subst hr
      rcases hval k hk v hv with h | h <;> rw [h]
      · exact .inr (by decide)
      · exact .inr (by decide))
    (by
      intro r hr k v hk hv
      rw [hm, List.mem_singleton] at hr; subst hr
      rcases hval k (List.mem_of_getLast? hk) v hv with h | h <;> rw [h] <;> decide)
  exact ⟨text, h1, h2⟩

end MVault.W
