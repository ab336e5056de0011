import Verif.PropsFile2
/-
Saving chosen keys of a vault and reading them into a vault that may have other keys and records of its own. Lemmas for C88.
-/
set_option linter.unusedSectionVars false
set_option linter.unusedSimpArgs false
namespace MVault.W
open MVault.Csv (formatCsv parseFile writeRow writeRows Clean GoodSep)
variable {V Ty : Type} [LinearOrder V] [Typed V Ty] [DecidableEq Ty] [Texts V Ty]

/-- What `SaveToFile` writes when keys are chosen. -/
theorem saveToFile_keys {home : Nat → Nat} {w : World Key V Ty} (hw : HReach Ordinary home w) {o : Nat} (ho : isVault w o = true) (env : Env) (sep : Char) (hdr : Bool)
    {ks : List Key} (hk : ks ≠ []) (hv : getKeys w o ≠ []) (hplain : hdr = true → ∀ k ∈ ks, Plain sep k.name) :
    saveToFile env w o ks [sep] hdr =
      some (writeRows [sep] ((if hdr = true then [ks.map Key.name] else []) ++ (env.perm (members w o)).map (textRow w ks))) := by
  obtain ⟨own, hi⟩ := reach_inv hw
  obtain ⟨vo, hvo, hs⟩ := isVault_iff.mp ho
  rw [getKeys_eq hvo] at hv
  rw [members_eq hvo]
  have hrow : ∀ r ∈ vo.recs, ∃ x, w.getRec r = some x ∧ saveRow [sep] x.data ks ks.length = writeRow [sep] (textRow w ks r) := by
    intro r hr
    obtain ⟨_, x, hx, _⟩ := hi.v.mem o vo hvo hs r hr
    refine ⟨x, hx, ?_⟩
    rw [saveRow_eq _ _ _ hk]
    congr 1
    exact List.map_congr_left fun k _ => cellText_value hx k
  have hperm : ∀ r ∈ env.perm vo.recs, r ∈ vo.recs := fun r hr => (env.isPerm vo.recs).mem_iff.mp hr
  have hrows : ∀ t, loop (fun text r => (w.getRec r).map fun x => text ++ saveRow [sep] x.data ks ks.length ++ endLine) (env.perm vo.recs) t =
      some (t ++ writeRows [sep] ((env.perm vo.recs).map (textRow w ks))) := by
    intro t
    rw [loop_text (fun x => saveRow [sep] x.data ks ks.length) _ _ (fun r hr => by
      obtain ⟨x, hx, _⟩ := hrow r (hperm r hr); exact ⟨x, hx⟩)]
    congr 2
    unfold writeRows
    rw [List.flatMap_map]
    refine List.flatMap_congr ?_
    intro r hr
    obtain ⟨x, hx, e⟩ := hrow r (hperm r hr)
    rw [hx]; dsimp only; rw [e]
  simp only [saveToFile, hvo, Option.bind_eq_bind, Option.bind_some, hk, if_false]
  cases hdr with
  | false =>
    simp only [Bool.false_eq_true, if_false, Option.bind_some, List.nil_append]
    rw [hrows]; simp
  | true =>
    have : decide (vo.keysOrder.length ≠ 0) = true := by simp [hv]
    rw [if_pos rfl, this, header_eq sep _ hk (hplain rfl)]
    simp only [if_true, Option.bind_some]
    rw [hrows]
    simp [writeRows]

/-- How the fields of a file find their keys (specification): by the key line, by the keys given to `ReadFile`, or by the order of the keys of the vault, which
then has to start with the keys of the file. -/
def Finds (hdr : Bool) (given order ks : List Key) : Prop := hdr = true ∨ given = ks ∨ (given = [] ∧ ks <+: order)

theorem pairRow_prefix : ∀ (ks rest : List Key) (l : List (List Char)), l.length = ks.length → pairRow (ks ++ rest) l = (ks.zip l).map fun p => (some p.1, p.2)
  | [], _, [], _ => rfl
  | [], _, _ :: _, h => by simp at h
  | _ :: _, _, [], h => by simp at h
  | k :: ks, rest, s :: l, h => by
    simp only [List.cons_append, pairRow, List.zip_cons_cons, List.map_cons, List.head?_cons, List.tail_cons, pairRow_prefix ks rest l (by simpa using h)]

theorem rowPairs_finds {hdr : Bool} {given order ks : List Key} (hne : ks ≠ []) (h : Finds hdr given order ks) {l : List (List Char)} (hl : l.length = ks.length) :
    rowPairs (if hdr = true then some ks else none) given order l = (ks.zip l).map fun p => (some p.1, p.2) := by
  cases hdr with
  | true => simp [rowPairs]
  | false =>
    rcases h with h | rfl | ⟨rfl, rest, rfl⟩
    · cases h
    · simp [rowPairs, hne]
    · simp only [rowPairs, Bool.false_eq_true, if_false, if_true]; exact pairRow_prefix _ _ _ hl

/-- Setting the fields of a row from texts that convert to the given values. -/
theorem setRow_conv {vo : Obj Key V Ty} {data : List (Key × V)} : ∀ (qs : List (Key × V × List Char)) (d : List (Key × V)) (b : Bool),
    (∀ q ∈ qs, fromText (typeOf q.2.1) q.2.2 = .ok q.2.1) → (qs ≠ [] ∨ b = true) → applyParams vo (qs.map fun q => (q.1, q.2.1)) d = .ok data →
    setRow (qs.map fun q => (some q.1, q.2.2)) d b = .ok data
  | [], d, b, _, hb, h => by
    simp only [List.map_nil, applyParams, Except.ok.injEq] at h; subst h
    rcases hb with hb | hb
    · exact absurd rfl hb
    · simp [setRow, hb]
  | (k, v, s) :: qs, d, b, hf, _, h => by
    simp only [List.map_cons, applyParams] at h
    simp only [List.map_cons, setRow]
    cases hd : mget d k with
    | none => rw [hd] at h; cases h
    | some v0 =>
      rw [hd] at h
      dsimp only at h ⊢
      by_cases ht : typeOf v0 = typeOf v
      · have h1 := hf (k, v, s) (by simp)
        dsimp only at h1
        rw [ht, h1]
        simp only [ht, ne_eq, not_true_eq_false, if_false] at h
        exact setRow_conv qs _ true (fun q hq => hf q (by simp [hq])) (.inr rfl) h
      · simp [ht] at h

/-- One row of texts read into a vault: `qs` are its keys, the values the texts convert to, and the texts. -/
theorem readLoop_conv {home : Nat → Nat} {w : World Key V Ty} (hw : HReach Ordinary home w) {o : Nat} (ho : isVault w o = true)
    {hdr : Bool} {given : List Key} {qs : List (Key × V × List Char)} (hne : qs ≠ []) (hfind : Finds hdr given (getKeys w o) (qs.map (·.1)))
    (hty : ∀ q ∈ qs, getKeyType w o q.1 = some (typeOf q.2.1)) (hrt : ∀ q ∈ qs, fromText (typeOf q.2.1) q.2.2 = .ok q.2.1)
    (hcl : ∀ k ∈ getUniqueKeys w o, ¬ clashes w o (qs.map fun q => (q.1, q.2.1)) k) :
    ∃ w1, createRow w o (qs.map fun q => (q.1, q.2.1)) = some (w1, .good ((qs.map fun q => (q.1, q.2.1)).getLast?.map (·.1))) ∧
      ∀ rows n errs, readLoop (fun _ row => row) (if hdr = true then some (qs.map (·.1)) else none) given o (qs.map (·.2.2) :: rows) n w errs =
        readLoop (fun _ row => row) (if hdr = true then some (qs.map (·.1)) else none) given o rows (n + 1) w1 errs := by
  obtain ⟨w1, res, h⟩ := createRow_total hw ho (qs.map fun q => (q.1, q.2.1))
  have hfb : firstBad w o (qs.map fun q => (q.1, q.2.1)) = none := by
    unfold firstBad
    rw [List.findSome?_eq_none_iff]
    intro p hp
    obtain ⟨q, hq, rfl⟩ := List.mem_map.mp hp
    simp [badParam, hty q hq]
  obtain ⟨_, _, hc⟩ := C15_createRow_partial hw ho h
  have hres := (hc hfb).2 hcl
  subst hres
  refine ⟨w1, h, ?_⟩
  intro rows n errs
  obtain ⟨vo, hvo, hs⟩ := isVault_iff.mp ho
  simp only [createRow, hvo, Option.bind_eq_bind, Option.bind_some] at h
  cases hp : applyParams vo (qs.map fun q => (q.1, q.2.1)) vo.tmpl with
  | error e =>
    exfalso
    obtain ⟨own, hi⟩ := reach_inv hw
    have ok := hi.v.vok o vo hvo hs
    have hty' : ∀ k, (mget vo.tmpl k).map typeOf = getKeyType w o k := by
      intro k
      rw [getKeyType_eq hvo]
      cases hk : mget vo.cols k with
      | none => rw [ok.tmplN k hk]; rfl
      | some c => obtain ⟨v, hv, ht⟩ := ok.tmplT k c hk; rw [hv]; simp [ht]
    rcases applyParams_cases (vo := vo) hty' (qs.map fun q => (q.1, q.2.1)) with ⟨pre, p, post, f1, f2, f3⟩ | ⟨f1, f2, f3⟩
    · obtain ⟨q, hq, rfl⟩ := List.mem_map.mp (show p ∈ qs.map fun q => (q.1, q.2.1) by rw [f1]; simp)
      have hp' := hty q hq
      rcases f3 with ⟨g1, _⟩ | ⟨t, g1, g2, _⟩
      · rw [g1] at hp'; cases hp'
      · rw [g1] at hp'; cases hp'; exact g2 rfl
    · rw [f3] at hp; cases hp
  | ok data =>
    rw [hp] at h
    simp only [Option.bind_eq_some_iff, Prod.exists] at h
    obtain ⟨w2, out, h1, h⟩ := h
    have hpairs : rowPairs (if hdr = true then some (qs.map (·.1)) else none) given vo.keysOrder (qs.map (·.2.2)) = qs.map fun q => (some q.1, q.2.2) := by
      rw [getKeys_eq hvo] at hfind
      rw [rowPairs_finds (by simpa using hne) hfind (by simp), List.zip_map', List.map_map]
      rfl
    have hset := setRow_conv (vo := vo) qs vo.tmpl false hrt (.inl hne) hp
    simp only [readLoop, hvo, Option.bind_eq_bind, Option.bind_some]
    have hr : handledRow (fun _ row => row) (if hdr = true then some (qs.map (·.1)) else none) (qs.map (·.2.2)) = qs.map (·.2.2) := by cases hdr <;> rfl
    rw [hr, hpairs, hset]
    simp only [h1, Option.bind_some]
    cases out with
    | error k => cases h
    | ok r => cases h; rfl

/-- The row that record `r` of world `w` becomes in vault `d` of world `w2` (specification): for the saved keys the converted values, for the other keys of the
vault their defaults. -/
def readRow (conv : V → V) (ks : List Key) (w : World Key V Ty) (w2 : World Key V Ty) (d r : Nat) (k : Key) : Option V :=
  if k ∈ ks then (value w r k).map conv else getDefault w2 d k

/-- The new rows of records `M` do not clash with unique keys of the reading vault (specification): unique keys are among the saved ones, the converted values
differ from record to record and from those already there. -/
def NoClashOn (conv : V → V) (ks : List Key) (w : World Key V Ty) (M : List Nat) (w2 : World Key V Ty) (d : Nat) : Prop :=
  ∀ k ∈ getUniqueKeys w2 d, k ∈ ks ∧ (∀ r ∈ M, ∀ r' ∈ M, r ≠ r' → (value w r k).map conv ≠ (value w r' k).map conv) ∧
    ∀ m ∈ members w2 d, ∀ r ∈ M, value w2 m k ≠ (value w r k).map conv

/-- The new rows of all records of vault `o` do not clash with unique keys of the reading vault (specification). -/
def NoClash (conv : V → V) (ks : List Key) (w : World Key V Ty) (o : Nat) (w2 : World Key V Ty) (d : Nat) : Prop :=
  NoClashOn conv ks w (members w o) w2 d

/-- Reading the rows of records `rs` of vault `o` of world `w` into vault `d` of world `wd`. -/
theorem readLoop_convs {home home' : Nat → Nat} {w w2 : World Key V Ty} (hw : HReach Ordinary home w) {o : Nat} (ho : isVault w o = true) (d : Nat)
    {hdr : Bool} {given ks : List Key} (hne : ks ≠ []) (hkn : ks.Nodup) (hks : ∀ k ∈ ks, k ∈ getKeys w o) {conv : V → V}
    {M : List Nat} (hM : ∀ r ∈ M, r ∈ members w o) (hrt : ∀ r ∈ M, ∀ k ∈ ks, ∀ v, value w r k = some v → fromText (typeOf v) (toText v) = .ok (conv v))
    (hfind : Finds hdr given (getKeys w2 d) ks) (hty : ∀ k ∈ ks, getKeyType w2 d k = getKeyType w o k) (hcl : NoClashOn conv ks w M w2 d) :
    ∀ (rs done : List Nat) (wd : World Key V Ty) (n : Nat) (errs : List (Nat × Key)), (done ++ rs).Nodup → (∀ r ∈ done ++ rs, r ∈ M) →
      HReach Ordinary home' wd → isVault wd d = true → getKeys wd d = getKeys w2 d → (∀ k, getKeyType wd d k = getKeyType w2 d k) →
      getUniqueKeys wd d = getUniqueKeys w2 d → (∀ k, getDefault wd d k = getDefault w2 d k) →
      (rowsOf wd d = rowsOf w2 d ++ done.map fun r => readRow conv ks w w2 d r) →
      ∃ w3, readLoop (fun _ row => row) (if hdr = true then some ks else none) given d (rs.map (textRow w ks)) n wd errs = some (w3, errs) ∧
        HReach Ordinary home' w3 ∧ isVault w3 d = true ∧ rowsOf w3 d = rowsOf w2 d ++ (done ++ rs).map fun r => readRow conv ks w w2 d r
  | [], done, wd, n, errs, _, _, hr, hv, _, _, _, _, hrows => ⟨wd, by simp [readLoop], hr, hv, by simpa using hrows⟩
  | r :: rs, done, wd, n, errs, hnd, hmem, hr, hv, hk, ht, hu, hdf, hrows => by
    have hrM : r ∈ M := hmem r (by simp)
    have hrm : r ∈ members w o := hM r hrM
    obtain ⟨_, _, hkt, _, _⟩ := C12_key_list hw.any ho
    have hall : ∀ k ∈ ks, ∃ v, value w r k = some v ∧ getKeyType w o k = some (typeOf v) := by
      intro k hk
      obtain ⟨t, ht⟩ := (hkt k).mp (hks k hk)
      obtain ⟨v, hv, hvt⟩ := (C11_keys_and_types_partial hw ho hrm k).1 t ht
      exact ⟨v, hv, by rw [ht, hvt]⟩
    obtain ⟨k0, hk0⟩ := List.exists_mem_of_ne_nil _ hne
    obtain ⟨v0, hv0, _⟩ := hall k0 hk0
    let g : Key → V := fun k => (value w r k).getD v0
    have hg : ∀ k ∈ ks, value w r k = some (g k) ∧ getKeyType w o k = some (typeOf (g k)) := by
      intro k hk
      obtain ⟨v, h1, h2⟩ := hall k hk
      have : g k = v := by simp [g, h1]
      rw [this]; exact ⟨h1, h2⟩
    have hcv : ∀ k ∈ ks, fromText (typeOf (g k)) (toText (g k)) = .ok (conv (g k)) ∧ typeOf (conv (g k)) = typeOf (g k) := by
      intro k hk
      have := hrt r hrM k hk _ (hg k hk).1
      exact ⟨this, Texts.from_ty _ _ _ this⟩
    let qs : List (Key × V × List Char) := ks.map fun k => (k, conv (g k), toText (g k))
    have q1 : qs.map (·.1) = ks := by simp [qs, List.map_map, Function.comp_def]
    have q2 : qs.map (·.2.2) = textRow w ks r := by
      simp only [qs, List.map_map, Function.comp_def]
      unfold textRow
      exact List.map_congr_left fun k hk => by simp [(hg k hk).1]
    have q3 : (qs.map fun q => (q.1, q.2.1)) = ks.map fun k => (k, conv (g k)) := by simp [qs, List.map_map, Function.comp_def]
    have hnew : ∀ k, newValue wd d (ks.map fun k => (k, conv (g k))) k = readRow conv ks w w2 d r k := by
      intro k
      unfold newValue readRow
      rw [lastParam_map (fun k => conv (g k)) _ _ hkn]
      by_cases hk : k ∈ ks
      · simp [hk, (hg k hk).1]
      · simp [hk, hdf]
    have hrowv : ∀ m ∈ members wd d, (∃ m' ∈ members w2 d, ∀ k, value wd m k = value w2 m' k) ∨ ∃ r' ∈ done, ∀ k, value wd m k = readRow conv ks w w2 d r' k := by
      intro m hm
      have : (fun k => value wd m k) ∈ rowsOf wd d := List.mem_map.mpr ⟨m, hm, rfl⟩
      rw [hrows] at this
      rcases List.mem_append.mp this with h | h
      · obtain ⟨m', h1, h2⟩ := List.mem_map.mp h
        exact .inl ⟨m', h1, fun k => (congrFun h2 k).symm⟩
      · obtain ⟨r', h1, h2⟩ := List.mem_map.mp h
        exact .inr ⟨r', h1, fun k => (congrFun h2 k).symm⟩
    obtain ⟨w1, hc, hstep⟩ := readLoop_conv hr hv (hdr := hdr) (given := given) (qs := qs) (by simpa [qs] using hne) (by rw [q1, hk]; exact hfind)
      (by
        intro q hq
        obtain ⟨k, hk, rfl⟩ := List.mem_map.mp hq
        dsimp only
        rw [ht, hty k hk, (hg k hk).2, (hcv k hk).2])
      (by
        intro q hq
        obtain ⟨k, hk, rfl⟩ := List.mem_map.mp hq
        dsimp only
        rw [(hcv k hk).2]; exact (hcv k hk).1)
      (by
        rw [q3]
        rintro k hk ⟨m, hm, he⟩
        rw [hu] at hk
        obtain ⟨c1, c2, c3⟩ := hcl k hk
        rw [hnew] at he
        have hrr : ∀ r', readRow conv ks w w2 d r' k = (value w r' k).map conv := fun r' => by simp [readRow, c1]
        rw [hrr] at he
        rcases hrowv m hm with ⟨m', h1, h2⟩ | ⟨r', h1, h2⟩
        · exact c3 m' h1 r hrM (by rw [← h2, he])
        · rw [h2, hrr] at he
          refine c2 r' (hmem r' (by simp [h1])) r hrM ?_ he
          intro e
          rw [List.nodup_append] at hnd
          exact hnd.2.2 r' h1 r (by simp) e)
    rw [q3] at hc
    rw [q1, q2] at hstep
    obtain ⟨hr1, hv1⟩ := createRow_hstep hr hv hc
    obtain ⟨m, hm1, hm2, hm3, hm4, _, hm6, hm7, hm8, _⟩ := C13_createRow hr.any hv hc rfl
    have hst : step .id wd (.createRow d (ks.map fun k => (k, conv (g k)))) = some w1 := by
      show onVault wd d _ = _
      rw [onVault, if_pos hv, hc]; rfl
    obtain ⟨_, hk1, hu1, ht1, hd1⟩ := C12_only_key_operations hr.any hst hv (by simp [keyOps])
    have halive : ∀ q ∈ members wd d, alive wd q := by
      intro q hq
      obtain ⟨own, hi⟩ := reach_inv hr
      obtain ⟨vo, hvo, hs⟩ := isVault_iff.mp hv
      rw [members_eq hvo] at hq
      obtain ⟨_, x, hx, hxv⟩ := hi.v.mem d vo hvo hs q hq
      exact ⟨x, hx, hxv⟩
    have hrows1 : rowsOf w1 d = rowsOf w2 d ++ (done ++ [r]).map fun r => readRow conv ks w w2 d r := by
      have : rowsOf w1 d = rowsOf wd d ++ [readRow conv ks w w2 d r] := by
        unfold rowsOf
        rw [hm3, List.map_append]
        congr 1
        · exact List.map_congr_left fun q hq => funext fun k => hm8 q (halive q hq) k
        · simp only [List.map_cons, List.map_nil, List.cons.injEq, and_true]
          funext k
          rw [hm6, hnew]
      rw [this, hrows]; simp
    obtain ⟨w3, e1, e2, e3, e4⟩ := readLoop_convs hw ho d hne hkn hks hM hrt hfind hty hcl rs (done ++ [r]) w1 (n + 1) errs (by simpa using hnd)
      (by simpa using hmem) hr1 hv1 (hk1.trans hk) (fun k => (ht1 k).trans (ht k)) (hu1.trans hu) (fun k => (hd1 k).trans (hdf k)) hrows1
    refine ⟨w3, ?_, e2, e3, by simpa using e4⟩
    rw [List.map_cons, hstep]
    exact e1

end MVault.W
