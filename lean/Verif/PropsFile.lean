import Verif.FileLemmas
/-
C40, C55, C56, C57: saving a vault to a file and reading files.
-/
set_option linter.unusedSectionVars false
set_option linter.unusedSimpArgs false
namespace MVault.W
open MVault.Csv (formatCsv parseFile writeRow writeRows Clean GoodSep)
variable {V Ty : Type} [LinearOrder V] [Typed V Ty] [DecidableEq Ty] [Texts V Ty]

/-! ### C40 -/

/-- The rows of a vault: for each record its values (specification). -/
def rowsOf (w : World Key V Ty) (o : Nat) : List (Key → Option V) := (members w o).map fun r k => value w r k

/-- One row read into a vault. -/
theorem readLoop_row {home : Nat → Nat} {w : World Key V Ty} (hw : HReach Ordinary home w) {o : Nat} (ho : isVault w o = true)
    (loaded : Option (List Key)) {ks : List Key} (hks : loaded = none → getKeys w o = ks) (hld : ∀ l, loaded = some l → l = ks)
    (hne : ks ≠ []) {vals : List V} (hlen : vals.length = ks.length)
    (hty : ∀ p ∈ ks.zip vals, getKeyType w o p.1 = some (typeOf p.2)) (hrt : ∀ v ∈ vals, fromText (typeOf v) (toText v) = .ok v)
    (hcl : ∀ k ∈ getUniqueKeys w o, ¬ clashes w o (ks.zip vals) k) :
    ∃ w1, createRow w o (ks.zip vals) = some (w1, .good ((ks.zip vals).getLast?.map (·.1))) ∧
      ∀ rows n errs, readLoop (fun _ row => row) loaded [] o (vals.map toText :: rows) n w errs =
        readLoop (fun _ row => row) loaded [] o rows (n + 1) w1 errs := by
  obtain ⟨w1, res, h⟩ := createRow_total hw ho (ks.zip vals)
  have hfb : firstBad w o (ks.zip vals) = none := by
    unfold firstBad
    rw [List.findSome?_eq_none_iff]
    intro q hq
    simp [badParam, hty q hq]
  obtain ⟨_, _, hc⟩ := C15_createRow_partial hw ho h
  have hres := (hc hfb).2 hcl
  subst hres
  refine ⟨w1, h, ?_⟩
  intro rows n errs
  obtain ⟨vo, hvo, hs⟩ := isVault_iff.mp ho
  simp only [createRow, hvo, Option.bind_eq_bind, Option.bind_some] at h
  cases hp : applyParams vo (ks.zip vals) vo.tmpl with
  | error e =>
    exfalso
    obtain ⟨own, hi⟩ := reach_inv hw
    have ok := hi.v.vok o vo hvo hs
    have hty' : ∀ k, (mget vo.tmpl k).map typeOf = getKeyType w o k := by
      intro k
      rw [getKeyType_eq hvo]
      cases hk : mget vo.cols k with
      | none => rw [ok.tmplN k hk]; rfl
      | some c => obtain ⟨v, hv, ht⟩ := ok.tmplT k c hk; rw [hv]; simp [ht]
    rcases applyParams_cases (vo := vo) hty' (ks.zip vals) with ⟨pre, p, post, f1, f2, f3⟩ | ⟨f1, f2, f3⟩
    · have hp' := hty p (by rw [f1]; simp)
      rcases f3 with ⟨g1, _⟩ | ⟨t, g1, g2, _⟩
      · rw [g1] at hp'; cases hp'
      · rw [g1] at hp'; cases hp'; exact g2 rfl
    · rw [f3] at hp; cases hp
  | ok data =>
    rw [hp] at h
    simp only [Option.bind_eq_some_iff, Prod.exists] at h
    obtain ⟨w2, out, h1, h⟩ := h
    have hzip : ks.zip (vals.map toText) = (ks.zip vals).map fun p => (p.1, toText p.2) := by
      rw [List.zip_map_right]; rfl
    have hpr : ∀ (ks : List Key) (l : List (List Char)), l.length = ks.length → pairRow ks l = (ks.zip l).map fun p => (some p.1, p.2) := by
      intro ks
      induction ks with
      | nil => intro l h; cases l with | nil => rfl | cons _ _ => simp at h
      | cons k ks ih =>
        intro l h
        cases l with
        | nil => simp at h
        | cons s l => simp only [pairRow, List.zip_cons_cons, List.map_cons, List.head?_cons, List.tail_cons, ih l (by simpa using h)]
    have hpairs : rowPairs loaded [] vo.keysOrder (vals.map toText) = (ks.zip vals).map fun p => (some p.1, toText p.2) := by
      cases hl : loaded with
      | none =>
        have : vo.keysOrder = ks := by rw [← getKeys_eq hvo]; exact hks hl
        simp only [rowPairs, if_true]
        rw [this, hpr _ _ (by simp [hlen]), hzip]
        simp [List.map_map, Function.comp_def]
      | some l =>
        rw [hld l hl] at *
        simp only [rowPairs]
        rw [hzip]
        simp [List.map_map, Function.comp_def]
    have hset := setRow_apply (vo := vo) (ks.zip vals) vo.tmpl false
      (fun p hp => hrt p.2 (List.of_mem_zip (a := p.1) (b := p.2) hp).2)
      (.inl (by
        intro e
        have := congrArg List.length e
        simp only [List.length_zip, hlen, Nat.min_self, List.length_nil] at this
        exact hne (List.length_eq_zero_iff.mp this))) hp
    simp only [readLoop, hvo, Option.bind_eq_bind, Option.bind_some]
    have hr : handledRow (fun _ row => row) loaded (vals.map toText) = vals.map toText := by cases loaded <;> rfl
    rw [hr, hpairs, hset]
    simp only [h1, Option.bind_some]
    cases out with
    | error k => cases h
    | ok r => cases h; rfl

theorem lastParam_map (g : Key → V) : ∀ (ks : List Key) (k : Key), ks.Nodup →
    lastParam (ks.map fun k => (k, g k)) k = if k ∈ ks then some (g k) else none
  | [], k, _ => by simp [lastParam]
  | k0 :: ks, k, h => by
    obtain ⟨h1, h2⟩ := List.nodup_cons.mp h
    rw [List.map_cons, lastParam_cons, lastParam_map g ks k h2]
    by_cases e : k0 = k
    · subst e; simp [h1]
    · by_cases m : k ∈ ks
      · simp [m]
      · simp [m, e, Ne.symm e]

theorem getDefault_none {home : Nat → Nat} {w : World Key V Ty} (hw : HReach Ordinary home w) {o : Nat} (ho : isVault w o = true) {k : Key}
    (h : getKeyType w o k = none) : getDefault w o k = none := by
  obtain ⟨own, hi⟩ := reach_inv hw
  obtain ⟨vo, hvo, hs⟩ := isVault_iff.mp ho
  have ok := hi.v.vok o vo hvo hs
  rw [getKeyType_eq hvo] at h
  rw [getDefault_eq hvo]
  cases hc : mget vo.cols k with
  | none => exact ok.tmplN k hc
  | some c => rw [hc] at h; cases h

/-- Reading the rows of records `rs` of vault `o` of world `w` into vault `d` of world `wd`. -/
theorem readLoop_rows {home home' : Nat → Nat} {w : World Key V Ty} (hw : HReach Ordinary home w) {o : Nat} (ho : isVault w o = true) (d : Nat)
    (loaded : Option (List Key)) (hld : ∀ l, loaded = some l → l = getKeys w o) (hne : getKeys w o ≠ [])
    (hrt : ∀ r ∈ members w o, ∀ k v, value w r k = some v → fromText (typeOf v) (toText v) = .ok v) :
    ∀ (rs done : List Nat) (wd : World Key V Ty) (n : Nat) (errs : List (Nat × Key)), (done ++ rs).Nodup → (∀ r ∈ done ++ rs, r ∈ members w o) →
      HReach Ordinary home' wd → isVault wd d = true → (loaded = none → getKeys wd d = getKeys w o) → (∀ k, getKeyType wd d k = getKeyType w o k) →
      (∀ k ∈ getUniqueKeys wd d, k ∈ getUniqueKeys w o) → (rowsOf wd d = done.map fun r k => value w r k) →
      ∃ w3, readLoop (fun _ row => row) loaded [] d (rs.map (textRow w (getKeys w o))) n wd errs = some (w3, errs) ∧
        HReach Ordinary home' w3 ∧ isVault w3 d = true ∧ rowsOf w3 d = (done ++ rs).map fun r k => value w r k
  | [], done, wd, n, errs, _, _, hr, hv, _, _, _, hrows => ⟨wd, by simp [readLoop], hr, hv, by simpa using hrows⟩
  | r :: rs, done, wd, n, errs, hnd, hmem, hr, hv, hks, hty, huq, hrows => by
    have hrm : r ∈ members w o := hmem r (by simp)
    obtain ⟨hkn, _, hkt, _, _⟩ := C12_key_list hw.any ho
    obtain ⟨k0, hk0⟩ := List.exists_mem_of_ne_nil _ hne
    obtain ⟨t0, ht0⟩ := (hkt k0).mp hk0
    obtain ⟨v0, hv0, _⟩ := (C11_keys_and_types_partial hw ho hrm k0).1 t0 ht0
    let g : Key → V := fun k => (value w r k).getD v0
    have hg : ∀ k ∈ getKeys w o, value w r k = some (g k) ∧ getKeyType w o k = some (typeOf (g k)) := by
      intro k hk
      obtain ⟨t, ht⟩ := (hkt k).mp hk
      obtain ⟨v, hv, hvt⟩ := (C11_keys_and_types_partial hw ho hrm k).1 t ht
      have : g k = v := by simp [g, hv]
      rw [this]; exact ⟨hv, by rw [ht, hvt]⟩
    have hzip : (getKeys w o).zip ((getKeys w o).map g) = (getKeys w o).map fun k => (k, g k) := List.map_prod_left_eq_zip.symm
    have htext : textRow w (getKeys w o) r = ((getKeys w o).map g).map toText := by
      unfold textRow
      rw [List.map_map]
      exact List.map_congr_left fun k hk => by simp [(hg k hk).1]
    have hnew : ∀ k, newValue wd d ((getKeys w o).map fun k => (k, g k)) k = value w r k := by
      intro k
      unfold newValue
      rw [lastParam_map g _ _ hkn]
      by_cases hk : k ∈ getKeys w o
      · rw [if_pos hk, (hg k hk).1]
      · rw [if_neg hk]
        have hnt : getKeyType w o k = none := by
          cases h : getKeyType w o k with
          | none => rfl
          | some t => exact absurd ((hkt k).mpr ⟨t, h⟩) hk
        dsimp only
        rw [getDefault_none hr hv (by rw [hty, hnt]), (C11_keys_and_types_partial hw ho hrm k).2 hnt]
    have hrowv : ∀ m ∈ members wd d, ∃ r' ∈ done, ∀ k, value wd m k = value w r' k := by
      intro m hm
      have : (fun k => value wd m k) ∈ rowsOf wd d := List.mem_map.mpr ⟨m, hm, rfl⟩
      rw [hrows] at this
      obtain ⟨r', h1, h2⟩ := List.mem_map.mp this
      exact ⟨r', h1, fun k => (congrFun h2 k).symm⟩
    obtain ⟨w1, hc, hstep⟩ := readLoop_row hr hv loaded (ks := getKeys w o) hks hld hne (vals := (getKeys w o).map g) (by simp)
      (by
        rw [hzip]
        intro p hp
        obtain ⟨k, hk, rfl⟩ := List.mem_map.mp hp
        dsimp only
        rw [hty]; exact (hg k hk).2)
      (by
        intro v hv
        obtain ⟨k, hk, rfl⟩ := List.mem_map.mp hv
        exact hrt r hrm k _ (hg k hk).1)
      (by
        rw [hzip]
        rintro k hk ⟨m, hm, he⟩
        obtain ⟨r', hr', hv'⟩ := hrowv m hm
        rw [hnew, hv' k] at he
        have := C14_unique_partial hw ho (hmem r' (by simp [hr'])) hrm (huq k hk) he
        subst this
        rw [List.nodup_append] at hnd
        exact hnd.2.2 r' hr' r' (by simp) rfl)
    rw [hzip] at hc
    obtain ⟨hr1, hv1⟩ := createRow_hstep hr hv hc
    obtain ⟨m, hm1, hm2, hm3, hm4, _, hm6, hm7, hm8, _⟩ := C13_createRow hr.any hv hc rfl
    have hst : step .id wd (.createRow d ((getKeys w o).map fun k => (k, g k))) = some w1 := by
      show onVault wd d _ = _
      rw [onVault, if_pos hv, hc]; rfl
    obtain ⟨_, hk1, hu1, ht1, _⟩ := C12_only_key_operations hr.any hst hv (by simp [keyOps])
    have halive : ∀ q ∈ members wd d, alive wd q := by
      intro q hq
      obtain ⟨own, hi⟩ := reach_inv hr
      obtain ⟨vo, hvo, hs⟩ := isVault_iff.mp hv
      rw [members_eq hvo] at hq
      obtain ⟨_, x, hx, hxv⟩ := hi.v.mem d vo hvo hs q hq
      exact ⟨x, hx, hxv⟩
    have hrows1 : rowsOf w1 d = (done ++ [r]).map fun r k => value w r k := by
      unfold rowsOf
      rw [hm3, List.map_append, List.map_append]
      congr 1
      · rw [← hrows]
        unfold rowsOf
        exact List.map_congr_left fun q hq => funext fun k => hm8 q (halive q hq) k
      · simp only [List.map_cons, List.map_nil, List.cons.injEq, and_true]
        funext k
        rw [hm6, hnew]
    obtain ⟨w3, e1, e2, e3, e4⟩ := readLoop_rows hw ho d loaded hld hne hrt rs (done ++ [r]) w1 (n + 1) errs (by simpa using hnd)
      (by simpa using hmem) hr1 hv1 (fun h => hk1.trans (hks h)) (fun k => (ht1 k).trans (hty k)) (fun k hk => huq k (by rw [← hu1]; exact hk)) hrows1
    refine ⟨w3, ?_, e2, e3, by simpa using e4⟩
    rw [List.map_cons, htext, hstep]
    exact e1

/-- Saving a vault and reading the file into an empty vault, possibly in another program run (world), with or without a key
line. The two vaults have the same keys with the same types, in the same order when there is no key line, and the target
asks no more for uniqueness than the source. Then the whole file is written, reading it reports no error, and the target
has exactly the rows of the source. Each value must be read back from its own text (for integers, booleans and texts see
`C40_values`), the texts must be clean for the CSV layer (no carriage return or separator unless the text gets quoted), the
text in the last column must not be empty and with a key line the names must be plain. Missing for the full claim: these
texts and the smallest integers, where it is false (`C40_refuted_empty`, `C40_refuted_minimum`, `C40_refuted_return`), and
histories that are not ordinary. -/
theorem C40_save_read_partial {home home' : Nat → Nat} {w w2 : World Key V Ty} (hw : HReach Ordinary home w) (hw2 : HReach Ordinary home' w2)
    {o d : Nat} (ho : isVault w o = true) (hd : isVault w2 d = true) (env : Env) (block big : Nat) (hb : 1 < block) (hbig : block ≤ big)
    {sep : Char} (hsep : GoodSep sep) (hdr : Bool)
    (hkeys : getKeys w o ≠ []) (hempty : members w2 d = [])
    (htypes : ∀ k, getKeyType w2 d k = getKeyType w o k) (horder : hdr = false → getKeys w2 d = getKeys w o)
    (huniq : ∀ k ∈ getUniqueKeys w2 d, k ∈ getUniqueKeys w o)
    (hnames : hdr = true → (∀ k ∈ getKeys w o, Plain sep k.name) ∧ (getKeys w o).getLast? ≠ some (Key.of []))
    (hread : ∀ r ∈ members w o, ∀ k v, value w r k = some v → fromText (typeOf v) (toText v) = .ok v)
    (hclean : ∀ r ∈ members w o, ∀ k v, value w r k = some v → Clean sep (toText v))
    (hlast : ∀ r ∈ members w o, ∀ k v, (getKeys w o).getLast? = some k → value w r k = some v → toText v ≠ []) :
    ∃ text w3, saveToFile env w o [] [sep] hdr = some text ∧ readFile block big w2 d (some text) sep hdr [] = some (true, w3, []) ∧
      (rowsOf w3 d).Perm (rowsOf w o) ∧ HReach Ordinary home' w3 := by
  have hperm := env.isPerm (members w o)
  obtain ⟨hkn, _, hkt, _, _⟩ := C12_key_list hw.any ho
  have hval : ∀ r ∈ members w o, ∀ k ∈ getKeys w o, ∃ v, value w r k = some v := by
    intro r hr k hk
    obtain ⟨t, ht⟩ := (hkt k).mp hk
    obtain ⟨v, hv, _⟩ := (C11_keys_and_types_partial hw ho hr k).1 t ht
    exact ⟨v, hv⟩
  have hparse : parseFile block big sep (writeRows [sep] ((if hdr = true then [(getKeys w o).map Key.name] else []) ++
      (env.perm (members w o)).map (textRow w (getKeys w o)))) =
      some ((if hdr = true then [(getKeys w o).map Key.name] else []) ++ (env.perm (members w o)).map (textRow w (getKeys w o))) := by
    refine Csv.C02_table_roundtrip_partial block big hb hbig sep hsep _ ?_ ?_
    · intro row hrow f hf
      rcases List.mem_append.mp hrow with h | h
      · cases hdr with
        | false => simp at h
        | true =>
          simp only [if_true, List.mem_singleton] at h; subst h
          obtain ⟨k, hk, rfl⟩ := List.mem_map.mp hf
          obtain ⟨_, _, _, h4, h5⟩ := (hnames rfl).1 k hk
          exact .inr ⟨h4, h5⟩
      · obtain ⟨r, hr, rfl⟩ := List.mem_map.mp h
        obtain ⟨k, hk, rfl⟩ := List.mem_map.mp hf
        have hr' := hperm.mem_iff.mp hr
        obtain ⟨v, hv⟩ := hval r hr' k hk
        simp only [hv]; exact hclean r hr' k v hv
    · intro row hrow
      rcases List.mem_append.mp hrow with h | h
      · cases hdr with
        | false => simp at h
        | true =>
          simp only [if_true, List.mem_singleton] at h; subst h
          intro e
          rw [List.getLast?_map, Option.map_eq_some_iff] at e
          obtain ⟨k, h1, h2⟩ := e
          exact (hnames rfl).2 (by rw [h1]; exact congrArg some h2)
      · obtain ⟨r, hr, rfl⟩ := List.mem_map.mp h
        intro e
        unfold textRow at e
        rw [List.getLast?_map, Option.map_eq_some_iff] at e
        obtain ⟨k, h1, h2⟩ := e
        have hr' := hperm.mem_iff.mp hr
        obtain ⟨v, hv⟩ := hval r hr' k (List.mem_of_getLast? h1)
        rw [hv] at h2
        exact hlast r hr' k v h1 hv h2
  obtain ⟨w3, e1, e2, e3, e4⟩ := readLoop_rows (home' := home') hw ho d (if hdr = true then some (getKeys w o) else none)
    (by intro l h; split at h <;> cases h; rfl) hkeys hread (env.perm (members w o)) [] w2 0 []
    (by simpa using hperm.nodup_iff.mpr (by
      obtain ⟨own, hi⟩ := reach_inv hw
      obtain ⟨vo, hvo, hs⟩ := isVault_iff.mp ho
      rw [members_eq hvo]; exact (hi.v.vok o vo hvo hs).recsN))
    (fun r hr => hperm.mem_iff.mp (by simpa using hr)) hw2 hd
    (by intro h; cases hdr with | false => exact horder rfl | true => simp at h) htypes huniq (by simp [rowsOf, hempty])
  refine ⟨_, w3, saveToFile_eq hw ho env sep hdr hkeys (fun h => (hnames h).1), ?_, ?_, e2⟩
  · simp only [readFile, readFileWith, hparse, Option.bind_eq_bind, Option.bind_some]
    cases hdr with
    | false =>
      simp only [Bool.false_eq_true, if_false, List.nil_append] at e1 ⊢
      rw [e1]; rfl
    | true =>
      have hid : ((getKeys w o).map Key.name).map Key.of = getKeys w o := by
        rw [List.map_map]; exact List.map_id _
      simp only [if_true, List.singleton_append, List.head?_cons, Option.getD_some, List.tail_cons, hid] at e1 ⊢
      rw [e1]; rfl
  · rw [e4]
    unfold rowsOf
    simpa using hperm.map (fun r k => value w r k)

/-- Characters of the texts of integers and booleans (specification). -/
def WordChar (c : Char) : Prop := Str.IsDigit c ∨ c ∈ "-truefals".toList

/-- Values that survive a file with the given separator (specification): all integers but the smallest of the two types whose
smallest value cannot be read, all booleans, and texts that get quoted or have neither carriage return nor separator. -/
def Savable (sep : Char) : Val → Prop
  | .int t i _ => i = t.lo → t ≠ .i32 ∧ t ≠ .i64
  | .bool _ => True
  | .str s => '"' ∈ s ∨ ',' ∈ s ∨ '\n' ∈ s ∨ ('\r' ∉ s ∧ sep ∉ s)

theorem intChars (i : Int) : Str.toStringInt i ≠ [] ∧ ∀ c ∈ Str.toStringInt i, WordChar c := by
  have h := Str.toStringInt_numeral i
  generalize Str.toStringInt i = s at h
  cases h with
  | pos ds hne hd => exact ⟨hne, fun c hc => .inl (hd c hc)⟩
  | neg ds hne hd =>
    refine ⟨by simp, fun c hc => ?_⟩
    rcases List.mem_cons.mp hc with rfl | hc
    · exact .inr (by decide)
    · exact .inl (hd c hc)

theorem boolChars (b : Bool) : Str.toStringBool b ≠ [] ∧ ∀ c ∈ Str.toStringBool b, WordChar c := by
  cases b
  · exact ⟨by decide, fun c hc => .inr (by revert c; decide)⟩
  · exact ⟨by decide, fun c hc => .inr (by revert c; decide)⟩

theorem wordChar_cr : ¬ WordChar '\r' := by
  rintro (h | h)
  · exact absurd h (by unfold Str.IsDigit; decide)
  · exact absurd h (by decide)

/-- A savable value is read back from its text, its text is clean, and it is not empty unless the value is the empty text. -/
theorem C40_values {sep : Char} (hsep : ¬ WordChar sep) {v : Val} (h : Savable sep v) :
    fromText (typeOf v) (toText v) = .ok v ∧ Clean sep (toText v) ∧ (v ≠ .str [] → toText v ≠ []) := by
  cases v with
  | int t i hi =>
    have h1 : toText (Val.int t i hi) = Str.toStringInt i := rfl
    have h2 : typeOf (Val.int t i hi) = VTy.int t := rfl
    rw [h1, h2]
    obtain ⟨hne, hc⟩ := intChars i
    refine ⟨?_, .inr ⟨fun e => wordChar_cr (hc _ e), fun e => hsep (hc _ e)⟩, fun _ => hne⟩
    show readVal (.int t) _ = _
    simp only [readVal, Str.C05_int_roundtrip_partial t i hi.1 hi.2 h]
    rw [dif_pos hi]
  | bool b =>
    obtain ⟨hne, hc⟩ := boolChars b
    refine ⟨?_, .inr ⟨fun e => wordChar_cr (hc _ e), fun e => hsep (hc _ e)⟩, fun _ => hne⟩
    show readVal .bool (Str.toStringBool b) = _
    simp only [readVal, Str.C07_bool_string_roundtrip.1 b]
  | str s =>
    refine ⟨rfl, ?_, fun hn e => hn (by rw [show s = [] from e])⟩
    rcases h with h | h | h | h
    · exact .inl (.inl h)
    · exact .inl (.inr (.inl h))
    · exact .inl (.inr (.inr h))
    · exact .inr h

/-- C40 for integer, boolean and text keys. Missing for the full claim: the values excluded by `Savable`, an empty text in
the last column, key names that need quotes (only with a key line), separators that occur in numerals or booleans, histories
that are not ordinary. -/
theorem C40_int_bool_string_partial {home home' : Nat → Nat} {w w2 : World Key Val VTy} (hw : HReach Ordinary home w) (hw2 : HReach Ordinary home' w2)
    {o d : Nat} (ho : isVault w o = true) (hd : isVault w2 d = true) (env : Env) (block big : Nat) (hb : 1 < block) (hbig : block ≤ big)
    {sep : Char} (hsep : sep ≠ '"' ∧ sep ≠ '\r' ∧ sep ≠ '\n') (hword : ¬ WordChar sep) (hdr : Bool)
    (hkeys : getKeys w o ≠ []) (hempty : members w2 d = [])
    (htypes : ∀ k, getKeyType w2 d k = getKeyType w o k) (horder : hdr = false → getKeys w2 d = getKeys w o)
    (huniq : ∀ k ∈ getUniqueKeys w2 d, k ∈ getUniqueKeys w o)
    (hnames : hdr = true → (∀ k ∈ getKeys w o, Plain sep k.name) ∧ (getKeys w o).getLast? ≠ some (Key.of []))
    (hvals : ∀ r ∈ members w o, ∀ k v, value w r k = some v → Savable sep v)
    (hlast : ∀ r ∈ members w o, ∀ k, (getKeys w o).getLast? = some k → value w r k ≠ some (.str [])) :
    ∃ text w3, saveToFile env w o [] [sep] hdr = some text ∧ readFile block big w2 d (some text) sep hdr [] = some (true, w3, []) ∧
      (rowsOf w3 d).Perm (rowsOf w o) ∧ HReach Ordinary home' w3 :=
  C40_save_read_partial hw hw2 ho hd env block big hb hbig hsep hdr hkeys hempty htypes horder huniq hnames
    (fun r hr k v hv => (C40_values hword (hvals r hr k v hv)).1) (fun r hr k v hv => (C40_values hword (hvals r hr k v hv)).2.1)
    (fun r hr k v hk hv => (C40_values hword (hvals r hr k v hv)).2.2 (fun e => hlast r hr k hk (by rw [hv, e])))

/-! #### A concrete pair of vaults -/

/-- A 32-bit value. -/
def int32 (i : Int) (h : Str.IntTy.i32.lo ≤ i ∧ i ≤ Str.IntTy.i32.hi) : Val := .int .i32 i h
/-- Keys of the example. -/
def kId : Key := Key.of "id".toList
def kName : Key := Key.of "name".toList
def kFlag : Key := Key.of "flag".toList

/-- Unique key id, keys name and flag. -/
def fileKeys : List (Op Key Val VTy) :=
  [.newVault, .addUniqueKey 0 kId (.int .i32) true (fun _ _ _ => .bool false), .addKey 0 kName (.str []), .addKey 0 kFlag (.bool true)]
/-- Two records: a name with quote, separator and line end, and an empty name. -/
def fileOps : List (Op Key Val VTy) := fileKeys ++
  [.createRow 0 [(kId, int32 (-12) (by decide)), (kName, .str "a\"b;c\n".toList)], .createRow 0 [(kId, int32 7 (by decide)), (kFlag, .bool false)]]
/-- Run operations in insertion order. -/
def fileRun (l : List (Op Key Val VTy)) : Option (World Key Val VTy) := runB (fun _ => 0) World.empty (l.map (Env.id, ·))
theorem fileRun_reach {l : List (Op Key Val VTy)} {w : World Key Val VTy} (h : fileRun l = some w) : HReach Ordinary (fun _ => 0) w := runB_reach _ .init h
/-- The vault to save. -/
def fileW : World Key Val VTy := (fileRun fileOps).getD World.empty
/-- The empty vault to read into. -/
def fileE : World Key Val VTy := (fileRun fileKeys).getD World.empty

instance (sep : Char) : (v : Val) → Decidable (Savable sep v)
  | .int t i _ => inferInstanceAs (Decidable (i = t.lo → t ≠ .i32 ∧ t ≠ .i64))
  | .bool _ => inferInstanceAs (Decidable True)
  | .str s => inferInstanceAs (Decidable ('"' ∈ s ∨ ',' ∈ s ∨ '\n' ∈ s ∨ ('\r' ∉ s ∧ sep ∉ s)))

theorem mget_in {W : Type} {data : List (Key × W)} {k : Key} {v : W} (h : mget data k = some v) : (k, v) ∈ data := by
  induction data with
  | nil => cases h
  | cons p l ih =>
    obtain ⟨k', v'⟩ := p
    simp only [mget] at h
    split at h
    · rename_i e; subst e; cases h; simp
    · exact List.mem_cons_of_mem _ (ih h)

theorem fileTypes (k : Key) : getKeyType fileE 0 k = getKeyType fileW 0 k := by
  by_cases h1 : kId = k
  · subst h1; decide
  by_cases h2 : kName = k
  · subst h2; decide
  by_cases h3 : kFlag = k
  · subst h3; decide
  have a : getKeyType fileE 0 k = none := by
    show Option.map _ (mget [(kId, _), (kName, _), (kFlag, _)] k) = none
    simp [mget, h1, h2, h3]
  have b : getKeyType fileW 0 k = none := by
    show Option.map _ (mget [(kId, _), (kName, _), (kFlag, _)] k) = none
    simp [mget, h1, h2, h3]
  rw [a, b]

/-- All hypotheses hold for a vault with a unique integer key, a text key (one text with a quote, the separator and a line
end, one empty) and a boolean key, saved with `;` and with the key line. -/
example : ∃ text w3, saveToFile Env.rev fileW 0 [] [';'] true = some text ∧ readFile 512 1000 fileE 0 (some text) ';' true [] = some (true, w3, []) ∧
    (rowsOf w3 0).Perm (rowsOf fileW 0) ∧ (members fileW 0).length = 2 := by
  have h := C40_int_bool_string_partial (w := fileW) (w2 := fileE) (o := 0) (d := 0) (sep := ';') (fileRun_reach (l := fileOps) rfl) (fileRun_reach (l := fileKeys) rfl)
    (by decide) (by decide) Env.rev 512 1000 (by decide) (by decide) (by decide) (by rintro (h | h); exact absurd h (by unfold Str.IsDigit; decide); exact absurd h (by decide))
    true (by decide) (by decide) fileTypes (by decide) (by decide) (fun _ => ⟨by unfold Plain; decide, by decide⟩)
    (by
      intro r hr k v hv
      have hm : members fileW 0 = [0, 1] := by decide
      rw [hm] at hr
      have key : ∀ r ∈ [0, 1], ∀ x, fileW.getRec r = some x → ∀ p ∈ x.data, Savable ';' p.2 := by
        intro r hr x hx
        simp only [List.mem_cons, List.not_mem_nil, or_false] at hr
        rcases hr with rfl | rfl <;> (cases hx; decide)
      unfold value at hv
      cases hx : fileW.getRec r with
      | none => rw [hx] at hv; cases hv
      | some x => rw [hx] at hv; exact key r hr x hx _ (mget_in hv))
    (by decide)
  obtain ⟨text, w3, a, b, c, _⟩ := h
  exact ⟨text, w3, a, b, c, by decide⟩

/-! #### Where the unrestricted claim fails -/

/-- A boolean key and a text key. -/
def strKeys : List (Op Key Val VTy) := [.newVault, .addKey 0 kFlag (.bool true), .addKey 0 kName (.str "x".toList)]

/-- An empty text in the last column: the row is read without error, but the value is the target's default, not the empty
text. -/
theorem C40_refuted_empty : ∃ w w2 w3 : World Key Val VTy, HReach Ordinary (fun _ => 0) w ∧ HReach Ordinary (fun _ => 0) w2 ∧ members w2 0 = [] ∧
    getKeys w2 0 = getKeys w 0 ∧ ∃ text, saveToFile Env.id w 0 [] [','] false = some text ∧ readFile 512 1000 w2 0 (some text) ',' false [] = some (true, w3, []) ∧
      value w 0 kName = some (.str []) ∧ members w3 0 = [0] ∧ value w3 0 kName = some (.str "x".toList) :=
  ⟨_, _, _, fileRun_reach (l := strKeys ++ [.createRow 0 [(kName, .str [])]]) rfl, fileRun_reach (l := strKeys) rfl, by decide, by decide,
    "true,\r\n".toList, by decide, rfl, by decide, by decide, by decide⟩

/-- A carriage return in a text: the row is read as two rows, the second of which is an error. -/
theorem C40_refuted_return : ∃ w w2 w3 : World Key Val VTy, HReach Ordinary (fun _ => 0) w ∧ HReach Ordinary (fun _ => 0) w2 ∧ members w2 0 = [] ∧
    getKeys w2 0 = getKeys w 0 ∧ ∃ text, saveToFile Env.id w 0 [] [','] false = some text ∧
      readFile 512 1000 w2 0 (some text) ',' false [] = some (true, w3, [(2, kFlag)]) ∧
      value w 0 kName = some (.str "a\rb".toList) ∧ members w3 0 = [0] ∧ value w3 0 kName = some (.str "a".toList) :=
  ⟨_, _, _, fileRun_reach (l := strKeys ++ [.createRow 0 [(kName, .str "a\rb".toList)]]) rfl, fileRun_reach (l := strKeys) rfl, by decide, by decide,
    "true,a\rb\r\n".toList, by decide, rfl, by decide, by decide, by decide⟩

/-- One 32-bit integer key. -/
def minKeys : List (Op Key Val VTy) := [.newVault, .addKey 0 kId (int32 0 (by decide))]

/-- The smallest 32-bit integer: reading the saved file is undefined behaviour (signed overflow). -/
theorem C40_refuted_minimum : ∃ w w2 : World Key Val VTy, HReach Ordinary (fun _ => 0) w ∧ HReach Ordinary (fun _ => 0) w2 ∧ members w2 0 = [] ∧
    getKeys w2 0 = getKeys w 0 ∧ ∃ text, saveToFile Env.id w 0 [] [','] false = some text ∧ readFile 512 1000 w2 0 (some text) ',' false [] = none := by
  have hr : HReach Ordinary (fun _ => 0) ((fileRun (minKeys ++ [.createRow 0 [(kId, int32 (-2147483648) (by decide))]])).getD World.empty) :=
    fileRun_reach (l := minKeys ++ [.createRow 0 [(kId, int32 (-2147483648) (by decide))]]) rfl
  refine ⟨_, (fileRun minKeys).getD World.empty, hr, fileRun_reach (l := minKeys) rfl, by decide, by decide, _,
    saveToFile_eq hr (by decide) Env.id ',' false (by decide) (by simp), ?_⟩
  have hrows : (if false = true then [(getKeys ((fileRun (minKeys ++ [.createRow 0 [(kId, int32 (-2147483648) (by decide))]])).getD World.empty) 0).map Key.name] else []) ++
      (Env.id.perm (members ((fileRun (minKeys ++ [.createRow 0 [(kId, int32 (-2147483648) (by decide))]])).getD World.empty) 0)).map
        (textRow ((fileRun (minKeys ++ [.createRow 0 [(kId, int32 (-2147483648) (by decide))]])).getD World.empty)
        (getKeys ((fileRun (minKeys ++ [.createRow 0 [(kId, int32 (-2147483648) (by decide))]])).getD World.empty) 0)) = [[Str.toStringInt (-2147483648)]] := rfl
  rw [hrows]
  obtain ⟨hne, hc⟩ := intChars (-2147483648)
  have hp := Csv.C02_table_roundtrip_partial 512 1000 (by decide) (by decide) ',' (by decide) [[Str.toStringInt (-2147483648)]]
    (by
      simp only [List.mem_singleton, forall_eq]
      exact .inr ⟨fun e => wordChar_cr (hc _ e), fun e => by rcases hc _ e with h | h; exact absurd h (by unfold Str.IsDigit; decide); exact absurd h (by decide)⟩)
    (by simpa using hne)
  have hub : readVal (.int .i32) (Str.toStringInt (-2147483648)) = .ub := by
    simp only [readVal]
    rw [show Str.fromStringInt .i32 (Str.toStringInt (-2147483648)) = .ub from Str.C05_refuted_min.1]
  have hset : setRow (V := Val) [(some kId, Str.toStringInt (-2147483648))] [(kId, int32 0 (by decide))] false = .ub := by
    simp only [setRow, mget, if_true]
    rw [show fromText (typeOf (int32 0 (by decide))) (Str.toStringInt (-2147483648)) = .ub from hub]
  simp only [readFile, readFileWith, hp, Option.bind_eq_bind, Option.bind_some]
  show Option.bind (readLoop _ none [] 0 [[Str.toStringInt (-2147483648)]] 0 _ []) _ = none
  have : readLoop (fun _ row => row) none [] 0 [[Str.toStringInt (-2147483648)]] 0 ((fileRun minKeys).getD World.empty) [] = none := by
    obtain ⟨vo, hvo, h1, h2⟩ : ∃ vo, ((fileRun minKeys).getD World.empty).getObj 0 = some vo ∧ vo.keysOrder = [kId] ∧
        vo.tmpl = [(kId, int32 0 (by decide))] := ⟨_, rfl, rfl, rfl⟩
    simp only [readLoop, hvo, h1, h2, Option.bind_eq_bind, Option.bind_some, handledRow, rowPairs, if_true, pairRow, List.head?_cons]
    rw [hset]
  rw [this]; rfl

end MVault.W
