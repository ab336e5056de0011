import Verif.FileLemmas2
/-
C88: saving chosen keys of a vault and reading them into any vault that has these keys.
-/
set_option linter.unusedSectionVars false
set_option linter.unusedSimpArgs false
namespace MVault.W
open MVault.Csv (formatCsv parseFile writeRow writeRows Clean GoodSep)
variable {V Ty : Type} [LinearOrder V] [Typed V Ty] [DecidableEq Ty] [Texts V Ty]

/-- The columns that `SaveToFile` writes when it is given the keys `saved`: those, or all keys of the vault if none are given (specification). -/
def savedKeys (w : World Key V Ty) (o : Nat) (saved : List Key) : List Key := if saved = [] then getKeys w o else saved

theorem saveToFile_any {home : Nat → Nat} {w : World Key V Ty} (hw : HReach Ordinary home w) {o : Nat} (ho : isVault w o = true) (env : Env) (sep : Char) (hdr : Bool)
    {saved : List Key} (hne : savedKeys w o saved ≠ []) (hv : getKeys w o ≠ []) (hplain : hdr = true → ∀ k ∈ savedKeys w o saved, Plain sep k.name) :
    saveToFile env w o saved [sep] hdr =
      some (writeRows [sep] ((if hdr = true then [(savedKeys w o saved).map Key.name] else []) ++ (env.perm (members w o)).map (textRow w (savedKeys w o saved)))) := by
  unfold savedKeys at *
  by_cases h : saved = []
  · subst h
    simp only [if_true] at *
    exact saveToFile_eq hw ho env sep hdr hv hplain
  · rw [if_neg h] at *
    exact saveToFile_keys hw ho env sep hdr h hv hplain

/-- The file of saved rows is parsed as written. -/
theorem parse_saved {home : Nat → Nat} {w : World Key V Ty} (hw : HReach Ordinary home w) {o : Nat} (ho : isVault w o = true) (env : Env) (block big : Nat) (hb : 1 < block)
    (hbig : block ≤ big) {sep : Char} (hsep : GoodSep sep) (hdr : Bool) {ks : List Key} (hks : ∀ k ∈ ks, k ∈ getKeys w o)
    (hnames : hdr = true → (∀ k ∈ ks, Plain sep k.name) ∧ ks.getLast? ≠ some (Key.of []))
    (hclean : ∀ r ∈ members w o, ∀ k ∈ ks, ∀ v, value w r k = some v → Clean sep (toText v))
    (hlast : ∀ r ∈ members w o, ∀ k v, ks.getLast? = some k → value w r k = some v → toText v ≠ []) :
    parseFile block big sep (writeRows [sep] ((if hdr = true then [ks.map Key.name] else []) ++ (env.perm (members w o)).map (textRow w ks))) =
      some ((if hdr = true then [ks.map Key.name] else []) ++ (env.perm (members w o)).map (textRow w ks)) := by
  have hperm := env.isPerm (members w o)
  obtain ⟨hkn, _, hkt, _, _⟩ := C12_key_list hw.any ho
  have hval : ∀ r ∈ members w o, ∀ k ∈ ks, ∃ v, value w r k = some v := by
    intro r hr k hk
    obtain ⟨t, ht⟩ := (hkt k).mp (hks k hk)
    obtain ⟨v, hv, _⟩ := (C11_keys_and_types_partial hw ho hr k).1 t ht
    exact ⟨v, hv⟩
  refine Csv.C02_table_roundtrip_partial block big hb hbig sep hsep _ ?_ ?_
  · intro row hrow f hf
    rcases List.mem_append.mp hrow with h | h
    · cases hdr with
      | false => simp at h
      | true =>
        simp only [if_true, List.mem_singleton] at h; subst h
        obtain ⟨k, hk, rfl⟩ := List.mem_map.mp hf
        obtain ⟨_, _, _, h4, h5⟩ := (hnames rfl).1 k hk
        exact .inr ⟨h4, h5⟩
    · obtain ⟨r, hr, rfl⟩ := List.mem_map.mp h
      obtain ⟨k, hk, rfl⟩ := List.mem_map.mp hf
      have hr' := hperm.mem_iff.mp hr
      obtain ⟨v, hv⟩ := hval r hr' k hk
      simp only [hv]; exact hclean r hr' k hk v hv
  · intro row hrow
    rcases List.mem_append.mp hrow with h | h
    · cases hdr with
      | false => simp at h
      | true =>
        simp only [if_true, List.mem_singleton] at h; subst h
        intro e
        rw [List.getLast?_map, Option.map_eq_some_iff] at e
        obtain ⟨k, h1, h2⟩ := e
        exact (hnames rfl).2 (by rw [h1]; exact congrArg some h2)
    · obtain ⟨r, hr, rfl⟩ := List.mem_map.mp h
      intro e
      unfold textRow at e
      rw [List.getLast?_map, Option.map_eq_some_iff] at e
      obtain ⟨k, h1, h2⟩ := e
      have hr' := hperm.mem_iff.mp hr
      obtain ⟨v, hv⟩ := hval r hr' k (List.mem_of_getLast? h1)
      rw [hv] at h2
      exact hlast r hr' k v h1 hv h2

theorem members_nodup {home : Nat → Nat} {w : World Key V Ty} (hw : HReach Ordinary home w) {o : Nat} (ho : isVault w o = true) : (members w o).Nodup := by
  obtain ⟨own, hi⟩ := reach_inv hw
  obtain ⟨vo, hvo, hs⟩ := isVault_iff.mp ho
  rw [members_eq hvo]; exact (hi.v.vok o vo hvo hs).recsN

/-- **C88.** Saving chosen keys and reading them. Vault `o` is saved with the keys `saved` (all of its keys if none are given), with or without a key line, and the file
is read into vault `d`, which may have other keys and records already. The keys are found by the key line, by the keys given to the reading call, or because the
keys of vault `d` start with them; vault `d` has the saved keys with the same types; each value `v` is read from its own text as `conv v`; no unique key of `d`
clashes. Then the file is read without error and vault `d` has its old rows followed by one row for each record of `o`, which has the read values for the saved
keys and the defaults for the other keys of `d`. -/
theorem C88_chosen_keys {home home' : Nat → Nat} {w w2 : World Key V Ty} (hw : HReach Ordinary home w) (hw2 : HReach Ordinary home' w2)
    {o d : Nat} (ho : isVault w o = true) (hd : isVault w2 d = true) (env : Env) (block big : Nat) (hb : 1 < block) (hbig : block ≤ big)
    {sep : Char} (hsep : GoodSep sep) (hdr : Bool) (saved given : List Key) {ks : List Key} (hks : ks = savedKeys w o saved)
    (hne : ks ≠ []) (hkn : ks.Nodup) (hin : ∀ k ∈ ks, k ∈ getKeys w o)
    (hnames : hdr = true → (∀ k ∈ ks, Plain sep k.name) ∧ ks.getLast? ≠ some (Key.of []))
    (hfind : Finds hdr given (getKeys w2 d) ks) (htypes : ∀ k ∈ ks, getKeyType w2 d k = getKeyType w o k)
    (conv : V → V) (hread : ∀ r ∈ members w o, ∀ k ∈ ks, ∀ v, value w r k = some v → fromText (typeOf v) (toText v) = .ok (conv v))
    (hclash : NoClash conv ks w o w2 d)
    (hclean : ∀ r ∈ members w o, ∀ k ∈ ks, ∀ v, value w r k = some v → Clean sep (toText v))
    (hlast : ∀ r ∈ members w o, ∀ k v, ks.getLast? = some k → value w r k = some v → toText v ≠ []) :
    ∃ text w3 new, saveToFile env w o saved [sep] hdr = some text ∧ readFile block big w2 d (some text) sep hdr given = some (true, w3, []) ∧
      rowsOf w3 d = rowsOf w2 d ++ new ∧ new.Perm ((members w o).map fun r => readRow conv ks w w2 d r) ∧ HReach Ordinary home' w3 ∧ isVault w3 d = true := by
  have hperm := env.isPerm (members w o)
  obtain ⟨k0, hk0⟩ := List.exists_mem_of_ne_nil _ hne
  have hv : getKeys w o ≠ [] := List.ne_nil_of_mem (hin k0 hk0)
  have hparse := parse_saved hw ho env block big hb hbig hsep hdr hin hnames hclean hlast
  obtain ⟨w3, e1, e2, e3, e4⟩ := readLoop_convs (home' := home') hw ho d hne hkn hin (fun _ h => h) hread hfind htypes hclash (env.perm (members w o)) [] w2 0 []
    (by simpa using hperm.nodup_iff.mpr (members_nodup hw ho)) (fun r hr => hperm.mem_iff.mp (by simpa using hr)) hw2 hd rfl (fun _ => rfl) rfl (fun _ => rfl) (by simp)
  have hsave := saveToFile_any hw ho env sep hdr (saved := saved) (by rw [← hks]; exact hne) hv (fun h => by rw [← hks]; exact (hnames h).1)
  rw [← hks] at hsave
  refine ⟨_, w3, (env.perm (members w o)).map fun r => readRow conv ks w w2 d r, hsave, ?_, by simpa using e4, hperm.map _, e2, e3⟩
  · simp only [readFile, readFileWith, hparse, Option.bind_eq_bind, Option.bind_some]
    cases hdr with
    | false =>
      simp only [Bool.false_eq_true, if_false, List.nil_append] at e1 ⊢
      rw [e1]; rfl
    | true =>
      have hid : (ks.map Key.name).map Key.of = ks := by
        rw [List.map_map]; exact List.map_id _
      simp only [if_true, List.singleton_append, List.head?_cons, Option.getD_some, List.tail_cons, hid] at e1 ⊢
      rw [e1]; rfl

/-! ### Types that are never read -/

theorem setRow_reject {k : Key} {s : List Char} : ∀ (ps : List (Key × List Char)) (d : List (Key × V)) (b : Bool) (rest : List (Option Key × List Char)),
    (∀ p ∈ ps, ∃ (t : Ty) (v : V), (mget d p.1).map typeOf = some t ∧ fromText t p.2 = .ok v) → (∃ t, (mget d k).map typeOf = some t ∧ (fromText t s : Str.Out V) = .reject) →
    setRow (ps.map (fun p => (some p.1, p.2)) ++ (some k, s) :: rest) d b = .bad k
  | [], d, b, rest, _, ⟨t, h1, h2⟩ => by
    rw [Option.map_eq_some_iff] at h1
    obtain ⟨v0, h3, h4⟩ := h1
    simp only [List.map_nil, List.nil_append, setRow, h3, h4, h2]
  | p :: ps, d, b, rest, hp, ⟨t, h1, h2⟩ => by
    obtain ⟨t', v, g1, g2⟩ := hp p (by simp)
    have g1' := g1
    rw [Option.map_eq_some_iff] at g1
    obtain ⟨v0, g3, g4⟩ := g1
    simp only [List.map_cons, List.cons_append, setRow, g3, g4, g2]
    have hsame : ∀ k', (mget (mput d p.1 v) k').map typeOf = (mget d k').map typeOf := by
      intro k'
      by_cases hk : k' = p.1
      · subst hk
        simp [mget_mput, g1', Texts.from_ty _ _ _ g2]
      · simp [mget_mput, Ne.symm hk]
    refine setRow_reject ps _ _ rest (fun q hq => ?_) ⟨t, by rw [hsame]; exact h1, h2⟩
    obtain ⟨t2, v2, f1, f2⟩ := hp q (by simp [hq])
    exact ⟨t2, v2, by rw [hsame]; exact f1, f2⟩

/-- **C88.** Types without reading. If the type of a saved key cannot be read from any text (`int8_t`, `uint8_t` and user types without `FromString`) and the keys saved
before it are read, then reading the saved file succeeds, no record arrives, and there is one error for each record, which names this key and the line. -/
theorem C88_unreadable {home home' : Nat → Nat} {w w2 : World Key V Ty} (hw : HReach Ordinary home w) (_hw2 : HReach Ordinary home' w2)
    {o d : Nat} (ho : isVault w o = true) (hd : isVault w2 d = true) (env : Env) (block big : Nat) (hb : 1 < block) (hbig : block ≤ big)
    {sep : Char} (hsep : GoodSep sep) (hdr : Bool) (saved given : List Key) {pre post : List Key} {k : Key} (hks : pre ++ k :: post = savedKeys w o saved)
    (hin : ∀ k' ∈ pre ++ k :: post, k' ∈ getKeys w o)
    (hnames : hdr = true → (∀ k' ∈ pre ++ k :: post, Plain sep k'.name) ∧ (pre ++ k :: post).getLast? ≠ some (Key.of []))
    (hfind : Finds hdr given (getKeys w2 d) (pre ++ k :: post)) (htypes : ∀ k' ∈ pre ++ k :: post, getKeyType w2 d k' = getKeyType w o k')
    (hread : ∀ r ∈ members w o, ∀ k' ∈ pre, ∀ v, value w r k' = some v → ∃ v' : V, fromText (typeOf v) (toText v) = .ok v')
    (hnever : ∀ t, getKeyType w o k = some t → ∀ s, (fromText t s : Str.Out V) = .reject)
    (hclean : ∀ r ∈ members w o, ∀ k' ∈ pre ++ k :: post, ∀ v, value w r k' = some v → Clean sep (toText v))
    (hlast : ∀ r ∈ members w o, ∀ k' v, (pre ++ k :: post).getLast? = some k' → value w r k' = some v → toText v ≠ []) :
    ∃ text, saveToFile env w o saved [sep] hdr = some text ∧ readFile block big w2 d (some text) sep hdr given =
      some (true, w2, (List.range (members w o).length).map fun i => (i + (if hdr = true then 2 else 1), k)) := by
  have hperm := env.isPerm (members w o)
  have hne : pre ++ k :: post ≠ [] := by simp
  have hkin : k ∈ getKeys w o := hin k (by simp)
  have hv : getKeys w o ≠ [] := List.ne_nil_of_mem hkin
  have hparse := parse_saved hw ho env block big hb hbig hsep hdr hin hnames hclean hlast
  obtain ⟨_, _, hkt, _, _⟩ := C12_key_list hw.any ho
  obtain ⟨vo, hvo, hs⟩ := isVault_iff.mp hd
  have hty' : ∀ k', (mget vo.tmpl k').map typeOf = getKeyType w2 d k' := by
    obtain ⟨own, hi⟩ := reach_inv _hw2
    have ok := hi.v.vok d vo hvo hs
    intro k'
    rw [getKeyType_eq hvo]
    cases hk : mget vo.cols k' with
    | none => rw [ok.tmplN k' hk]; rfl
    | some c => obtain ⟨v, hv, ht⟩ := ok.tmplT k' c hk; rw [hv]; simp [ht]
  have hloop : ∀ (rs : List Nat) (n : Nat) (errs : List (Nat × Key)), (∀ r ∈ rs, r ∈ members w o) →
      readLoop (fun _ row => row) (if hdr = true then some (pre ++ k :: post) else none) given d (rs.map (textRow w (pre ++ k :: post))) n w2 errs =
        some (w2, errs ++ (List.range rs.length).map fun i => (n + i + (if hdr = true then 2 else 1), k)) := by
    intro rs
    induction rs with
    | nil => intro n errs _; simp [readLoop]
    | cons r rs ih =>
      intro n errs hmem
      have hrm := hmem r (by simp)
      have hrow : setRow (rowPairs (if hdr = true then some (pre ++ k :: post) else none) given vo.keysOrder
          (handledRow (fun _ row => row) (if hdr = true then some (pre ++ k :: post) else none) (textRow w (pre ++ k :: post) r))) vo.tmpl false = .bad k := by
        have hr : handledRow (fun _ row => row) (if hdr = true then some (pre ++ k :: post) else none) (textRow w (pre ++ k :: post) r) =
            textRow w (pre ++ k :: post) r := by cases hdr <;> rfl
        have hfind' := hfind
        rw [getKeys_eq hvo] at hfind'
        rw [hr, rowPairs_finds hne hfind' (by simp [textRow])]
        have hz : (pre ++ k :: post).zip (textRow w (pre ++ k :: post) r) =
            (pre ++ k :: post).map fun k' => (k', match value w r k' with | some v => toText v | none => []) := by
          unfold textRow
          have hzip : ∀ (f : Key → List Char) (l : List Key), l.zip (l.map f) = l.map fun k' => (k', f k') := by
            intro f l
            induction l with
            | nil => rfl
            | cons a l ih => simp only [List.map_cons, List.zip_cons_cons, ih]
          exact hzip _ _
        rw [hz, List.map_map, List.map_append, List.map_cons]
        have hpre : (pre.map ((fun p : Key × List Char => (some p.1, p.2)) ∘ fun k' => (k', match value w r k' with | some v => toText v | none => []))) =
            (pre.map fun k' => (k', match value w r k' with | some v => toText v | none => [])).map fun p => (some p.1, p.2) := by rw [List.map_map]
        rw [hpre]
        refine setRow_reject _ _ _ _ ?_ ?_
        · intro p hp
          obtain ⟨k', hk', rfl⟩ := List.mem_map.mp hp
          obtain ⟨t, ht⟩ := (hkt k').mp (hin k' (by simp [hk']))
          obtain ⟨v, hv, hvt⟩ := (C11_keys_and_types_partial hw ho hrm k').1 t ht
          obtain ⟨v', hv'⟩ := hread r hrm k' hk' v hv
          refine ⟨t, v', by rw [hty', htypes k' (by simp [hk']), ht], ?_⟩
          rw [← hvt]; simp only [hv]; exact hv'
        · obtain ⟨t, ht⟩ := (hkt k).mp hkin
          exact ⟨t, by rw [hty', htypes k (by simp), ht], hnever t ht _⟩
      rw [List.map_cons]
      simp only [readLoop, hvo, Option.bind_eq_bind, Option.bind_some, hrow]
      rw [ih _ _ (fun q hq => hmem q (by simp [hq])), List.length_cons, List.range_succ_eq_map, List.map_cons, List.map_map, List.append_assoc, List.singleton_append]
      congr 5
      · cases hdr <;> simp
      · congr 1
        funext i
        simp only [Function.comp_apply, Nat.succ_eq_add_one, Prod.mk.injEq, and_true]
        omega
  refine ⟨_, saveToFile_any hw ho env sep hdr (by rw [← hks]; exact hne) hv (fun h => by rw [← hks]; exact (hnames h).1), ?_⟩
  have e1 := hloop (env.perm (members w o)) 0 [] (fun r hr => hperm.mem_iff.mp hr)
  rw [hperm.length_eq] at e1
  rw [← hks]
  simp only [readFile, readFileWith, hparse, Option.bind_eq_bind, Option.bind_some]
  cases hdr with
  | false =>
    simp only [Bool.false_eq_true, if_false, List.nil_append, Nat.zero_add] at e1 ⊢
    rw [e1]; rfl
  | true =>
    have hid : ((pre ++ k :: post).map Key.name).map Key.of = pre ++ k :: post := by
      rw [List.map_map]; exact List.map_id _
    simp only [if_true, List.singleton_append, List.head?_cons, Option.getD_some, List.tail_cons, hid, List.nil_append, Nat.zero_add] at e1 ⊢
    rw [e1]; rfl

end MVault.W
