import Verif.ExportModel
import Verif.PropsWide
import Verif.PropsGentle
import Verif.PropsWideJson
import Verif.PropsText
import Verif.PropsSort
/-
C90: what is exported from a set is exactly the set. Files, JSON, texts, printed tables and sorted lists of a set after any gentle history.
-/
set_option linter.unusedSectionVars false
set_option linter.unusedSimpArgs false
set_option linter.unusedVariables false
namespace MVault.W
open MVault.Csv (formatCsv parseFile writeRow writeRows GoodSep)
open MVault.Spec (GCall)
open MVault.JsonSpec (parseJson Json)

section
variable {K V Ty : Type} [LinearOrder K] [LinearOrder V] [Typed V Ty] [DecidableEq Ty]
variable {home : Nat → Nat} {l : List (GCall K V Ty × Answer K)} {T P : Nat → Prop} {w : World K V Ty}

/-- What the object of a set with a vault looks like after a gentle history. -/
theorem set_object (h : GentleHistory home l T P w) {s p : Nat} (hs : isSetObj w s = true) (hp : parentOf w s = some p) :
    ∃ so po, w.getObj s = some so ∧ so.parent = some p ∧ w.getObj p = some po ∧ so.keysOrder = po.keysOrder ∧ so.keysOrder.Nodup ∧
      (∀ r ∈ so.recs, ∃ x, w.getRec r = some x ∧ x.valid = true) ∧ (∀ k, k ∈ so.keysOrder ↔ ∃ c, mget so.cols k = some c) ∧
      (∀ k c, mget so.cols k = some c → ColOk (fun r => cellOf w r k) so.recs c) ∧ (∀ r ∈ so.recs, r ∈ members w p) ∧ so.recs.Nodup := by
  obtain ⟨own, hi, g, kn⟩ := h.inv
  obtain ⟨so, h1, h2⟩ := isSetObj_iff.mp hs
  have sg := g.set s so h1 h2
  have hp' : so.parent = some p := by rw [← hp]; simp [parentOf, h1]
  obtain ⟨po, h3, h4, h5⟩ := good_vault hi g h1 h2 hp'
  have al := sg.att p po hp' h3
  have ok := hi.v.vok p po h3 h4
  refine ⟨so, po, h1, hp', h3, al.keys, by rw [al.keys]; exact ok.keysN, sg.held, ?_, sg.cols, fun r hr => by rw [members_eq h3]; exact h5 r hr, sg.recsN⟩
  intro k
  have hcol := set_col (w := w.full) (told_inv hi) (full_deep hi g) h1 h2 hp' k
  rw [mhas_iff, full_table hi kn] at hcol
  rw [hcol]
  show _ ↔ k ∈ getKeys w p
  rw [getKeys_eq h3, al.keys]

end

section
variable {V Ty : Type} [LinearOrder V] [Typed V Ty] [DecidableEq Ty] [Texts V Ty]
variable {home : Nat → Nat} {l : List (GCall Key V Ty × Answer Key)} {T P : Nat → Prop} {w : World Key V Ty}

/-- What `SaveToFile` writes for an object whose records have exactly its keys. -/
theorem saveToFile_obj {o : Nat} {vo : Obj Key V Ty} (hvo : w.getObj o = some vo) (hn : vo.keysOrder.Nodup)
    (hrec : ∀ r ∈ vo.recs, ∃ x, w.getRec r = some x ∧ ∀ k, k ∈ vo.keysOrder ↔ ∃ v, mget x.data k = some v) (env : Env) (sep : Char) (hdr : Bool)
    {saved : List Key} (hv : vo.keysOrder ≠ []) (hplain : hdr = true → ∀ k ∈ savedKeys w o saved, Plain sep k.name) :
    saveToFile env w o saved [sep] hdr =
      some (writeRows [sep] ((if hdr = true then [(savedKeys w o saved).map Key.name] else []) ++ (env.perm (members w o)).map (textRow w (savedKeys w o saved)))) := by
  have hks : savedKeys w o saved = if saved = [] then vo.keysOrder else saved := by unfold savedKeys; rw [getKeys_eq hvo]
  have hne : savedKeys w o saved ≠ [] := by rw [hks]; split <;> assumption
  rw [members_eq hvo]
  generalize hE : savedKeys w o saved = ks at *
  have hrow : ∀ r ∈ vo.recs, ∃ x, w.getRec r = some x ∧
      saveRow [sep] x.data ks (if saved = [] then sizeOf x.data else saved.length) = writeRow [sep] (textRow w ks r) := by
    intro r hr
    obtain ⟨x, hx, hm⟩ := hrec r hr
    refine ⟨x, hx, ?_⟩
    have hlen : (if saved = [] then sizeOf x.data else saved.length) = ks.length := by
      rw [hks]
      split
      · exact sizeOf_eq hn hm
      · rfl
    rw [hlen, saveRow_eq _ _ _ hne]
    congr 1
    exact List.map_congr_left fun k _ => cellText_value hx k
  have hperm : ∀ r ∈ env.perm vo.recs, r ∈ vo.recs := fun r hr => (env.isPerm vo.recs).mem_iff.mp hr
  have hrows : ∀ t, loop (fun text r => (w.getRec r).map fun x => text ++ saveRow [sep] x.data ks (if saved = [] then sizeOf x.data else saved.length) ++ endLine)
      (env.perm vo.recs) t = some (t ++ writeRows [sep] ((env.perm vo.recs).map (textRow w ks))) := by
    intro t
    rw [loop_text (fun x => saveRow [sep] x.data ks (if saved = [] then sizeOf x.data else saved.length)) _ _ (fun r hr => by
      obtain ⟨x, hx, _⟩ := hrow r (hperm r hr); exact ⟨x, hx⟩)]
    congr 2
    unfold writeRows
    rw [List.flatMap_map]
    refine List.flatMap_congr ?_
    intro r hr
    obtain ⟨x, hx, e⟩ := hrow r (hperm r hr)
    rw [hx]; dsimp only; rw [e]
  simp only [saveToFile, hvo, Option.bind_eq_bind, Option.bind_some, ← hks]
  cases hdr with
  | false =>
    simp only [Bool.false_eq_true, if_false, Option.bind_some, List.nil_append]
    rw [hrows]; simp
  | true =>
    have : decide (vo.keysOrder.length ≠ 0) = true := by simp [hv]
    rw [if_pos rfl, this, header_eq sep _ hne (hplain rfl)]
    simp only [if_true, Option.bind_some]
    rw [hrows]
    simp [writeRows]

/-- The rows of records that have a value for each of the keys are parsed as written. -/
theorem parse_rows (rs : List Nat) (block big : Nat) (hb : 1 < block)
    (hbig : block ≤ big) {sep : Char} (hsep : GoodSep sep) (hdr : Bool) {ks : List Key} (hval : ∀ r ∈ rs, ∀ k ∈ ks, ∃ v, value w r k = some v)
    (hnames : hdr = true → (∀ k ∈ ks, Plain sep k.name) ∧ ks.getLast? ≠ some (Key.of []))
    (hclean : ∀ r ∈ rs, ∀ k ∈ ks, ∀ v, value w r k = some v → Csv.Clean sep (toText v))
    (hlast : ∀ r ∈ rs, ∀ k v, ks.getLast? = some k → value w r k = some v → toText v ≠ []) :
    parseFile block big sep (writeRows [sep] ((if hdr = true then [ks.map Key.name] else []) ++ rs.map (textRow w ks))) =
      some ((if hdr = true then [ks.map Key.name] else []) ++ rs.map (textRow w ks)) := by
  refine Csv.C02_table_roundtrip_partial block big hb hbig sep hsep _ ?_ ?_
  · intro row hrow f hf
    rcases List.mem_append.mp hrow with h | h
    · cases hdr with
      | false => simp at h
      | true =>
        simp only [if_true, List.mem_singleton] at h; subst h
        obtain ⟨k, hk, rfl⟩ := List.mem_map.mp hf
        obtain ⟨_, _, _, h4, h5⟩ := (hnames rfl).1 k hk
        exact .inr ⟨h4, h5⟩
    · obtain ⟨r, hr, rfl⟩ := List.mem_map.mp h
      obtain ⟨k, hk, rfl⟩ := List.mem_map.mp hf
      obtain ⟨v, hv⟩ := hval r hr k hk
      simp only [hv]; exact hclean r hr k hk v hv
  · intro row hrow
    rcases List.mem_append.mp hrow with h | h
    · cases hdr with
      | false => simp at h
      | true =>
        simp only [if_true, List.mem_singleton] at h; subst h
        intro e
        rw [List.getLast?_map, Option.map_eq_some_iff] at e
        obtain ⟨k, h1, h2⟩ := e
        exact (hnames rfl).2 (by rw [h1]; exact congrArg some h2)
    · obtain ⟨r, hr, rfl⟩ := List.mem_map.mp h
      intro e
      unfold textRow at e
      rw [List.getLast?_map, Option.map_eq_some_iff] at e
      obtain ⟨k, h1, h2⟩ := e
      obtain ⟨v, hv⟩ := hval r hr k (List.mem_of_getLast? h1)
      rw [hv] at h2
      exact hlast r hr k v h1 hv h2

/-! ### C90: files -/

/-- **C90.** A set without vault writes no file and says so. -/
theorem C90_detached {s : Nat} (hs : isSetObj w s = true) (hp : parentOf w s = none) (env : Env) (saved : List Key) (sep : List Char) (hdr : Bool) :
    setSaveToFile env w s saved sep hdr = some (false, none) := by
  obtain ⟨so, h1, h2⟩ := isSetObj_iff.mp hs
  have hp' : so.parent = none := by rw [← hp]; simp [parentOf, h1]
  simp [setSaveToFile, h1, hp']

/-- **C90.** A set of a vault with keys is saved with the chosen keys (all keys of the vault if none are chosen), and the file is read into any vault that has these
keys with the same types (found by the key line, by the keys given to ReadFile, or because its keys begin with them), where the rows of the set do not clash. The
answer of SaveToFile is true, the file is read without error, and the reading vault has its old rows followed by one row for each record of the set, and for no other
record of the set's vault. -/
theorem C90_file (h : GentleHistory home l T P w) {s p : Nat} (hs : isSetObj w s = true) (hp : parentOf w s = some p)
    {home' : Nat → Nat} {w2 : World Key V Ty} (hw2 : HReach Ordinary home' w2) {d : Nat} (hd : isVault w2 d = true)
    (env : Env) (block big : Nat) (hb : 1 < block) (hbig : block ≤ big) {sep : Char} (hsep : GoodSep sep) (hdr : Bool) (saved given : List Key) {ks : List Key}
    (hks : ks = if saved = [] then getKeys w p else saved) (hne : ks ≠ []) (hkn : ks.Nodup) (hin : ∀ k ∈ ks, k ∈ getKeys w p)
    (hnames : hdr = true → (∀ k ∈ ks, Plain sep k.name) ∧ ks.getLast? ≠ some (Key.of []))
    (hfind : Finds hdr given (getKeys w2 d) ks) (htypes : ∀ k ∈ ks, getKeyType w2 d k = getKeyType w p k)
    (conv : V → V) (hread : ∀ r ∈ members w s, ∀ k ∈ ks, ∀ v, value w r k = some v → fromText (typeOf v) (toText v) = .ok (conv v))
    (hclash : NoClashOn conv ks w (members w s) w2 d)
    (hclean : ∀ r ∈ members w s, ∀ k ∈ ks, ∀ v, value w r k = some v → Csv.Clean sep (toText v))
    (hlast : ∀ r ∈ members w s, ∀ k v, ks.getLast? = some k → value w r k = some v → toText v ≠ []) :
    ∃ text w3 new, setSaveToFile env w s saved [sep] hdr = some (true, some text) ∧ readFile block big w2 d (some text) sep hdr given = some (true, w3, []) ∧
      rowsOf w3 d = rowsOf w2 d ++ new ∧ new.Perm ((members w s).map fun r => readRow conv ks w w2 d r) ∧ HReach Ordinary home' w3 ∧ isVault w3 d = true := by
  obtain ⟨so, po, h1, h2, h3, h4, h5, h6, h7, h8, h9, h10⟩ := set_object h hs hp
  have hw := h.reach
  obtain ⟨hpv, hkeq, _, _, _⟩ := (C85_held h hs).2.2 p hp
  have hperm := env.isPerm (members w s)
  have hsk : savedKeys w s saved = ks := by unfold savedKeys; rw [hkeq, hks]
  obtain ⟨k0, hk0⟩ := List.exists_mem_of_ne_nil _ hne
  have hv : so.keysOrder ≠ [] := by
    have := hin k0 hk0
    rw [getKeys_eq h3, ← h4] at this
    exact List.ne_nil_of_mem this
  have hvals : ∀ r ∈ so.recs, ∀ k ∈ so.keysOrder, ∃ v, value w r k = some v := by
    intro r hr k hk
    obtain ⟨c, hc⟩ := (h7 k).mp hk
    obtain ⟨v, hv, _⟩ := (h8 k c hc).typed r hr
    exact ⟨v, hv⟩
  have hsub : ∀ k ∈ ks, k ∈ so.keysOrder := fun k hk => by
    have := hin k hk
    rw [getKeys_eq h3, ← h4] at this
    exact this
  have hrec : ∀ r ∈ so.recs, ∃ x, w.getRec r = some x ∧ ∀ k, k ∈ so.keysOrder ↔ ∃ v, mget x.data k = some v := by
    intro r hr
    obtain ⟨x, hx, _⟩ := h6 r hr
    refine ⟨x, hx, fun k => ?_⟩
    have hval : ∀ k, value w r k = mget x.data k := fun k => by simp [value, hx]
    constructor
    · intro hk; obtain ⟨v, hv⟩ := hvals r hr k hk; exact ⟨v, by rw [← hval]; exact hv⟩
    · rintro ⟨v, hv⟩
      rw [← hval] at hv
      rw [h4, ← getKeys_eq h3]
      obtain ⟨_, _, hkt, _, _⟩ := C12_key_list hw.any hpv
      rw [hkt]
      obtain ⟨_, c2⟩ := C11_keys_and_types_partial hw hpv (h9 r hr) k
      cases ht : getKeyType w p k with
      | some t => exact ⟨t, rfl⟩
      | none => rw [c2 ht] at hv; cases hv
  have hsave := saveToFile_obj h1 h5 hrec env sep hdr (saved := saved) hv (fun hh => by rw [hsk]; exact (hnames hh).1)
  rw [hsk] at hsave
  have hmem : ∀ r ∈ env.perm (members w s), r ∈ members w s := fun r hr => hperm.mem_iff.mp hr
  have hms := members_eq h1
  have hparse := parse_rows (w := w) (env.perm (members w s)) block big hb hbig hsep hdr (ks := ks) (fun r hr k hk => hvals r (by rw [← hms]; exact hmem r hr) k (hsub k hk)) hnames
    (fun r hr => hclean r (hmem r hr)) (fun r hr => hlast r (hmem r hr))
  obtain ⟨w3, e1, e2, e3, e4⟩ := readLoop_convs (home' := home') hw hpv d hne hkn hin (M := members w s) (fun r hr => h9 r (by rw [← hms]; exact hr)) hread hfind htypes hclash
    (env.perm (members w s)) [] w2 0 []
    (by simpa using hperm.nodup_iff.mpr (by rw [hms]; exact h10)) (fun r hr => hmem r (by simpa using hr)) hw2 hd rfl (fun _ => rfl) rfl (fun _ => rfl) (by simp)
  have hset : setSaveToFile env w s saved [sep] hdr = some (true, some (writeRows [sep] ((if hdr = true then [ks.map Key.name] else []) ++
      (env.perm (members w s)).map (textRow w ks)))) := by
    simp only [setSaveToFile, h1, h2, h3, Option.bind_eq_bind, Option.bind_some, hsave, Option.map_some]
  refine ⟨_, w3, (env.perm (members w s)).map fun r => readRow conv ks w w2 d r, hset, ?_, by simpa using e4, hperm.map _, e2, e3⟩
  · simp only [readFile, readFileWith, hparse, Option.bind_eq_bind, Option.bind_some]
    cases hdr with
    | false =>
      simp only [Bool.false_eq_true, if_false, List.nil_append] at e1 ⊢
      rw [e1]; rfl
    | true =>
      have hid : (ks.map Key.name).map Key.of = ks := by
        rw [List.map_map]; exact List.map_id _
      simp only [if_true, List.singleton_append, List.head?_cons, Option.getD_some, List.tail_cons, hid] at e1 ⊢
      rw [e1]; rfl

/-! ### C90: texts and tables -/

/-- **C90.** ToStrings of a set of a vault always returns, with one entry for each record of the set: every key of the vault, in key order, with the text of the
record's value. -/
theorem C90_strings (h : GentleHistory home l T P w) {s p : Nat} (hs : isSetObj w s = true) (hp : parentOf w s = some p) (env : Env) :
    ∃ order : List Nat, order.Perm (members w s) ∧ setToStrings env w s = some (order.map (entry w (getKeys w p))) ∧ ∀ r ∈ members w s, HasAll w (getKeys w p) r := by
  obtain ⟨so, po, h1, h2, h3, h4, h5, h6, h7, h8, h9, h10⟩ := set_object h hs hp
  have hall : ∀ r ∈ so.recs, HasAll w so.keysOrder r := by
    intro r hr k hk
    obtain ⟨c, hc⟩ := (h7 k).mp hk
    obtain ⟨v, h, _⟩ := (h8 k c hc).typed r hr
    exact ⟨v, h⟩
  rw [members_eq h1, getKeys_eq h3, ← h4]
  refine ⟨env.perm so.recs, env.isPerm _, ?_, hall⟩
  simp only [setToStrings, vaultToStrings, h1, h2, h3, Option.bind_eq_bind, Option.bind_some]
  refine mapM_map fun r hr => ?_
  have hr' := (env.isPerm _).mem_iff.mp hr
  obtain ⟨x, hx, _⟩ := h6 r hr'
  rw [hx, Option.bind_some]
  exact pairTexts_def hx (hall r hr')

/-- **C90.** Print of a set of a vault with keys, for keys of the vault (or none, which means all): the table of the set's records, sorted by the primary key (the first
printed key if none is given) and cut off after `amount` rows. -/
theorem C90_print (h : GentleHistory home l T P w) {s p : Nat} (hs : isSetObj w s = true) (hp : parentOf w s = some p) (hkeys : getKeys w p ≠ [])
    {keys : List Key} (hsub : ∀ k ∈ keys, k ∈ getKeys w p) (env : Env) (amount : Nat) (primary : Key) (rev : Bool) :
    ∃ ks key l, ks = (if keys = [] then getKeys w p else keys) ∧ (if primary = Key.of [] then ks.head? = some key else key = primary) ∧ SortedList w s key rev l ∧
      (∀ r ∈ l, r ∈ members w s) ∧
      setPrint env w s (fun _ => []) amount primary rev keys = some (tableOf w ks (members w s) (l.take amount) (decide (amount < (members w s).length))) := by
  obtain ⟨so, po, h1, h2, h3, h4, h5, h6, h7, h8, h9, h10⟩ := set_object h hs hp
  rw [getKeys_eq h3, ← h4] at hkeys hsub ⊢
  rw [members_eq h1]
  obtain ⟨ks, key, l', e1, e2, e3, e4, e5⟩ := print_obj h1 h6 (fun k hk => (h7 k).mp hk) (fun r hr k hk => by
    obtain ⟨c, hc⟩ := (h7 k).mp hk
    obtain ⟨v, h, _⟩ := (h8 k c hc).typed r hr
    exact ⟨v, h⟩) (fun k c v r hc hm => ((h8 k c hc).ordS v r hm).1) hkeys hsub env amount primary rev
  refine ⟨ks, key, l', e1, e2, e3, e4, ?_⟩
  simp only [setPrint, h1, h2, h3, Option.bind_eq_bind, Option.bind_some, e5]

/-- **C90.** The other exports of a set without vault: no entries, an empty JSON object, a message. -/
theorem C90_detached_texts {s : Nat} (hs : isSetObj w s = true) (hp : parentOf w s = none) (env : Env) :
    setToStrings env w s = some [] ∧ (∀ id n k r ks, setPrint env w s id n k r ks = some ["The parent Vault is not valid!".toList]) ∧
    (∀ [Quoting Ty] addr fmt tab u t a, setToJson env addr w s fmt tab u t a = some ['{', '}']) ∧
    ∀ {S : Type} k (f : S → Nat → S × Bool) st rev n, setSortBy w s k f st rev n = some ⟨0, st, []⟩ := by
  obtain ⟨so, h1, h2⟩ := isSetObj_iff.mp hs
  have hp' : so.parent = none := by rw [← hp]; simp [parentOf, h1]
  refine ⟨by simp [setToStrings, h1, hp'], fun _ _ _ _ _ => by simp [setPrint, h1, hp'], ?_, fun {S} _ _ _ _ _ => by simp [setSortBy, h1, hp']⟩
  intro _ _ _ _ _ _ _
  simp [setToJson, h1, hp']

end

/-! ### C90: sorted lists -/

section
variable {K V Ty : Type} [LinearOrder K] [LinearOrder V] [Typed V Ty] [DecidableEq Ty]
variable {home : Nat → Nat} {l : List (GCall K V Ty × Answer K)} {T P : Nat → Prop} {w : World K V Ty}

/-- **C90.** SortBy of a set calls the function with different valid records of the set in the order of their values, from the first of the sorted list `sl` on: it stops
only at the end of the list, after `amount` calls or when the function answers false. -/
theorem C90_sortBy (h : GentleHistory home l T P w) {s p : Nat} (hs : isSetObj w s = true) (hp : parentOf w s = some p) {S : Type} (k : K) (func : S → Nat → S × Bool) (st : S)
    (rev : Bool) (amount : Nat) :
    ∃ t sl, setSortBy w s k func st rev amount = some t ∧ SortedList w s k rev sl ∧ InOrder w k rev sl ∧ sl.Nodup ∧ (∀ r ∈ sl, r ∈ members w s ∧ alive w r) ∧
      t.calls.map (·.1) <+: sl ∧ t.calls.length ≤ amount ∧
      (∀ i, i + 1 < t.calls.length → ∀ e, t.calls[i]? = some e → e.2 = true) ∧
      (t.calls.map (·.1) = sl ∨ t.calls.length = amount ∨ ∃ r, t.calls.getLast? = some (r, false)) := by
  obtain ⟨so, po, h1, h2, h3, h4, h5, h6, h7, h8, h9, h10⟩ := set_object h hs hp
  have hrun : ∃ t, sortBy w s k func st rev amount = some t := by simp [sortBy, h1]
  obtain ⟨t, ht⟩ := hrun
  obtain ⟨sl, ⟨so', e0, rfl⟩, e1, e2, e3, e4⟩ := C38_sortBy ht
  rw [h1] at e0; cases e0
  obtain ⟨f1, f2⟩ := sorted_facts h8 k rev
  have hmem : ∀ r ∈ sortedIds so k rev none, r ∈ so.recs := by
    intro r hr
    obtain ⟨c, v, hc, hm⟩ := sortedIds_mem hr
    exact ((h8 k c hc).ordS v r hm).1
  refine ⟨t, _, by simp only [setSortBy, h1, h2, h3, Option.bind_eq_bind, Option.bind_some, ht], ⟨so, h1, rfl⟩, f1, f2, fun r hr => ?_, e1, e2, e3, e4⟩
  · rw [members_eq h1]; exact ⟨hmem r hr, h6 r (hmem r hr)⟩

end

/-! ### C90: all types of values -/

section
variable {home : Nat → Nat} {l : List (GCall Key WVal WTy × Answer Key)} {T P : Nat → Prop} {w : World Key WVal WTy}

/-- **C90** for all types of values: a set is saved and read back, each value close to what it was (exactly equal for integers, booleans and texts, see C88). -/
theorem C90_all_types (h : GentleHistory home l T P w) {s p : Nat} (hs : isSetObj w s = true) (hp : parentOf w s = some p)
    {home' : Nat → Nat} {w2 : World Key WVal WTy} (hw2 : HReach Ordinary home' w2) {d : Nat} (hd : isVault w2 d = true)
    (env : Env) (block big : Nat) (hb : 1 < block) (hbig : block ≤ big)
    {sep : Char} (hsep : sep ≠ '"' ∧ sep ≠ '\r' ∧ sep ≠ '\n') (hword : ¬ WordChar sep) (hdot : sep ≠ '.') (hdr : Bool) (saved given : List Key) {ks : List Key}
    (hks : ks = if saved = [] then getKeys w p else saved) (hne : ks ≠ []) (hkn : ks.Nodup) (hin : ∀ k ∈ ks, k ∈ getKeys w p)
    (hnames : hdr = true → (∀ k ∈ ks, Plain sep k.name) ∧ ks.getLast? ≠ some (Key.of []))
    (hfind : Finds hdr given (getKeys w2 d) ks) (htypes : ∀ k ∈ ks, getKeyType w2 d k = getKeyType w p k)
    (hvals : ∀ r ∈ members w s, ∀ k ∈ ks, ∀ v, value w r k = some v → Returns sep v)
    (hlast : ∀ r ∈ members w s, ∀ k, ks.getLast? = some k → value w r k ≠ some (.str []))
    (hclash : NoClashOn back ks w (members w s) w2 d) :
    ∃ text w3 new, setSaveToFile env w s saved [sep] hdr = some (true, some text) ∧ readFile block big w2 d (some text) sep hdr given = some (true, w3, []) ∧
      rowsOf w3 d = rowsOf w2 d ++ new ∧ new.Perm ((members w s).map fun r => readRow back ks w w2 d r) ∧
      (∀ r ∈ members w s, ∀ k ∈ ks, ∀ v, value w r k = some v → ∃ v', readRow back ks w w2 d r k = some v' ∧ Close v v') := by
  have hl : ∀ k, ks.getLast? = some k → k ∈ ks := fun k h => List.mem_of_getLast? h
  obtain ⟨text, w3, new, h1, h2, h3, h4, _, _⟩ := C90_file h hs hp hw2 hd env block big hb hbig hsep hdr saved given hks hne hkn hin hnames hfind htypes back
    (fun r hr k hk v hv => (C88_values hword hdot (hvals r hr k hk v hv)).1) hclash
    (fun r hr k hk v hv => (C88_values hword hdot (hvals r hr k hk v hv)).2.2.1)
    (fun r hr k v hk hv => (C88_values hword hdot (hvals r hr k (hl k hk) v hv)).2.2.2 (fun e => hlast r hr k hk (by rw [hv, e])))
  refine ⟨text, w3, new, h1, h2, h3, h4, ?_⟩
  intro r hr k hk v hv
  exact ⟨back v, by simp [readRow, hk, hv], (C88_values hword hdot (hvals r hr k hk v hv)).2.1⟩

/-- **C90.** ToJson of a set of a vault, when the key names and the texts in the set's records need no escapes: an array with one object for each record of the set, or an
object with one member for each, whose members are all keys of the vault with the record's values. -/
theorem C90_json (h : GentleHistory home l T P w) {s p : Nat} (hs : isSetObj w s = true) (hp : parentOf w s = some p)
    (hnames : ∀ k ∈ getKeys w p, Literal k.name) (hvals : ∀ r ∈ members w s, ∀ k t, value w r k = some (.str t) → Literal t)
    (env : Env) (addr : Nat → List Char) (haddr : ∀ r, Literal (addr r)) (fmt : Bool) (tabSize : Nat) (useTemplate : Bool) (template : List Char) (htemplate : Literal template) :
    ∃ order : List Nat, order.Perm (members w s) ∧
      (∃ text, setToJson env addr w s fmt tabSize useTemplate template true = some text ∧ parseJson text = some (.arr (order.map (recordJson w (getKeys w p))))) ∧
      (∃ text, setToJson env addr w s fmt tabSize useTemplate template false = some text ∧ parseJson text = some (.obj (order.zipIdx.map fun q =>
        (if useTemplate = true then template ++ Str.toStringInt q.2 else addr q.1, recordJson w (getKeys w p) q.1)))) := by
  obtain ⟨so, po, h1, h2, h3, h4, h5, h6, h7, h8, h9, h10⟩ := set_object h hs hp
  have hk : getKeys w p = getKeys w s := by rw [getKeys_eq h1, getKeys_eq h3, h4]
  have hwr : ∀ r ∈ members w s, alive w r ∧ WritableRecord w (getKeys w s) r := by
    intro r hr
    have hr' := hr
    rw [members_eq h1] at hr'
    refine ⟨h6 r hr', fun k hk' => ?_⟩
    have hk2 := hk'
    rw [getKeys_eq h1, h7] at hk2
    obtain ⟨c, hc⟩ := hk2
    obtain ⟨v, hv, _⟩ := (h8 k c hc).typed r hr'
    refine ⟨hnames k (by rw [hk]; exact hk'), v, hv, ?_⟩
    cases v with
    | str t => exact hvals r hr k t hv
    | int _ _ _ => trivial
    | bool _ => trivial
    | byte _ _ _ => trivial
    | real _ _ _ => trivial
    | user _ _ => trivial
  rw [hk]
  obtain ⟨t1, a1, a2⟩ := C59_array_partial h1 hwr env addr fmt tabSize useTemplate template
  obtain ⟨t2, b1, b2⟩ := C59_object_partial h1 hwr env addr haddr fmt tabSize useTemplate template htemplate
  refine ⟨env.perm (members w s), env.isPerm _, ⟨t1, ?_, a2⟩, ⟨t2, ?_, b2⟩⟩
  · simp only [setToJson, h1, h2, h3, Option.bind_eq_bind, Option.bind_some, a1]
  · simp only [setToJson, h1, h2, h3, Option.bind_eq_bind, Option.bind_some, b1]

end

/-! ### A concrete set

A vault with two records and the set 1 with the record "a;b", a set 2 without vault. -/

def exportOps : List (Op Key WVal WTy) :=
  [.newVault, .newSet, .newSet, .addUniqueKey 0 kName .str true (fun _ _ _ => .bool false), .addKey 0 kPrice (.real true (5 / 2) fp_five_halves),
   .createRow 0 [(kName, .str "old".toList)], .createRow 0 [(kName, .str "a;b".toList)], .ask 0 kName (.eq (.str "a;b".toList)) none (fun _ => true) 1]
def exportRun : Option (World Key WVal WTy × List Nat × List Nat) := runG (fun _ => 0) [] [] World.empty (exportOps.map (Env.id, ·))
def exportW : World Key WVal WTy := (exportRun.map (·.1)).getD World.empty
theorem exportW_gentle : ∃ l T P, GentleHistory (fun _ => 0) l T P exportW := by
  have h : ∃ T P, exportRun = some (exportW, T, P) := ⟨_, _, rfl⟩
  obtain ⟨T, P, h⟩ := h
  obtain ⟨l, h⟩ := runG_gentle (h0 := []) _ (by
    have : ((fun s => s ∈ ([] : List Nat)) : Nat → Prop) = fun _ => False := by funext s; simp
    rw [this]; exact .init) h
  exact ⟨l, _, _, h⟩

/-- The set has one of the two records. -/
example : members exportW 0 = [0, 1] ∧ members exportW 1 = [1] := by decide

/-- The hypotheses of `C90_all_types` and with it of `C90_file`. The record "old" of the vault would clash with a record of the reading vault, but it is not in the
set. -/
example : ∃ text w3 new, setSaveToFile Env.id exportW 1 [kPrice, kName] [','] true = some (true, some text) ∧
    readFile 512 1000 wideW2 0 (some text) ',' true [] = some (true, w3, []) ∧
    rowsOf w3 0 = rowsOf wideW2 0 ++ new ∧ new.Perm ((members exportW 1).map fun r => readRow back [kPrice, kName] exportW wideW2 0 r) := by
  obtain ⟨l, T, P, h⟩ := exportW_gentle
  have hm : members exportW 1 = [1] := rfl
  have hval : ∀ k ∈ [kPrice, kName], ∀ v, value exportW 1 k = some v → v = .real true (5 / 2) fp_five_halves ∨ v = .str "a;b".toList := by
    intro k hk v hv
    simp only [List.mem_cons, List.not_mem_nil, or_false] at hk
    rcases hk with rfl | rfl
    · have : value exportW 1 kPrice = some (.real true (5 / 2) fp_five_halves) := rfl
      rw [this] at hv; cases hv; exact .inl rfl
    · have : value exportW 1 kName = some (.str "a;b".toList) := rfl
      rw [this] at hv; cases hv; exact .inr rfl
  obtain ⟨text, w3, new, h1, h2, h3, h4, _⟩ := C90_all_types h (s := 1) (p := 0) rfl rfl wideW2_reach (d := 0) (by decide) Env.id 512 1000 (by decide) (by decide)
    (sep := ',') (by decide) (by unfold WordChar Str.IsDigit; decide) (by decide) true [kPrice, kName] [] (ks := [kPrice, kName]) rfl (by decide) (by decide)
    (by decide) (fun _ => ⟨by unfold Plain; decide, by decide⟩) (.inl rfl) (by decide)
    (by
      intro r hr k hk v hv
      rw [hm, List.mem_singleton] at hr; subst hr
      rcases hval k hk v hv with rfl | rfl
      · show |(5 / 2 : ℚ)| ≤ 2147483647
        norm_num [abs_of_pos]
      · exact .inr (.inr (.inr (by decide))))
    (by
      intro r hr k hk
      rw [hm, List.mem_singleton] at hr; subst hr
      intro e
      rcases hval k (List.mem_of_getLast? hk) _ e with h | h <;> cases h)
    (by
      have hu : getUniqueKeys wideW2 0 = [kName] := rfl
      have hm2 : members wideW2 0 = [0] := rfl
      intro k hk
      rw [hu, List.mem_singleton] at hk; subst hk
      rw [hm, hm2]
      have e1 : value exportW 1 kName = some (.str "a;b".toList) := rfl
      have e2 : value wideW2 0 kName = some (.str "old".toList) := rfl
      refine ⟨by decide, ?_, ?_⟩
      · intro r hr r' hr' hne
        rw [List.mem_singleton] at hr hr'; subst hr; subst hr'; exact absurd rfl hne
      · intro m hmm r hr
        rw [List.mem_singleton] at hmm hr; subst hmm; subst hr
        rw [e1, e2]
        intro e
        cases e)
  exact ⟨text, w3, new, h1, h2, h3, h4⟩

/-- The hypotheses of `C90_strings`, `C90_print` and `C90_sortBy`. -/
example : ∃ l T P, GentleHistory (fun _ => 0) l T P exportW ∧ isSetObj exportW 1 = true ∧ parentOf exportW 1 = some 0 ∧ getKeys exportW 0 = [kName, kPrice] := by
  obtain ⟨l, T, P, h⟩ := exportW_gentle
  exact ⟨l, T, P, h, rfl, rfl, rfl⟩

/-- The hypotheses of `C90_detached` and `C90_detached_texts`. -/
example : isSetObj exportW 2 = true ∧ parentOf exportW 2 = none := ⟨rfl, rfl⟩

/-- The hypotheses of `C90_json`. -/
example : ∃ text, setToJson Env.id (fun _ => []) exportW 1 false 0 true "r".toList true = some text ∧
    parseJson text = some (.arr [recordJson exportW [kName, kPrice] 1]) := by
  obtain ⟨l, T, P, h⟩ := exportW_gentle
  have hm : members exportW 1 = [1] := rfl
  have hk : getKeys exportW 0 = [kName, kPrice] := rfl
  obtain ⟨order, h1, ⟨text, h2, h3⟩, _⟩ := C90_json h (s := 1) (p := 0) rfl rfl (by rw [hk]; decide) (by
      intro r hr k t hv
      rw [hm, List.mem_singleton] at hr; subst hr
      by_cases e : k = kName
      · subst e
        have : value exportW 1 kName = some (.str "a;b".toList) := rfl
        rw [this] at hv; cases hv; decide
      · have : value exportW 1 k = none ∨ value exportW 1 k = some (.real true (5 / 2) fp_five_halves) := by
          by_cases e2 : k = kPrice
          · subst e2; exact .inr rfl
          · left
            obtain ⟨_, c2⟩ := C11_keys_and_types_partial h.reach (o := 0) (by decide) (r := 1) (by decide) k
            apply c2
            obtain ⟨_, _, hkt, _, _⟩ := C12_key_list h.reach.any (o := 0) (by decide)
            cases ht : getKeyType exportW 0 k with
            | none => rfl
            | some t =>
              have := (hkt k).mpr ⟨t, ht⟩
              rw [hk] at this
              simp [e, e2] at this
        rcases this with h | h <;> rw [h] at hv <;> cases hv)
    Env.id (fun _ => []) (fun _ => by decide) false 0 true "r".toList (by decide)
  rw [hm] at h1
  have := List.perm_singleton.mp h1
  subst this
  rw [hk] at h3
  exact ⟨text, h2, h3⟩

end MVault.W
