import Verif.PropsTwin
import Verif.PropsFile3
/-
C115: a vault restored from a file behaves like the one that was saved. C40 and C114 together.
-/
set_option linter.unusedSectionVars false
set_option linter.unusedSimpArgs false
set_option linter.unusedVariables false
namespace MVault.W
open MVault.Csv (GoodSep Clean)
open MVault.Spec (Table Db Event Cmd)
variable {V Ty : Type} [LinearOrder V] [Typed V Ty] [DecidableEq Ty] [Texts V Ty]

/-- Specification, models no code: searches and sorting find every record of the vault under every key. -/
def FindsAll {K : Type} [LinearOrder K] (w : World K V Ty) (o : Nat) : Prop := ∀ r ∈ members w o, ∀ k ∈ getKeys w o, ∀ b, Listed b w o k r

/-- Lists of the same values, up to order, can be matched. -/
theorem match_perm {B : Type} {f f' : Nat → B} : ∀ (l l' : List Nat), l.Nodup → (l'.map f').Perm (l.map f) → ∃ m : Nat → Nat, l'.Perm (l.map m) ∧ ∀ r ∈ l, f' (m r) = f r
  | [], l', _, h => by
    rw [List.map_nil] at h
    have := List.map_eq_nil_iff.mp h.eq_nil
    exact ⟨id, by rw [this]; exact .refl _, fun _ h => by cases h⟩
  | r :: l, l', hn, h => by
    have hr : f r ∈ l'.map f' := h.mem_iff.mpr (by simp)
    obtain ⟨x, hx, e⟩ := List.mem_map.mp hr
    have h1 : l'.Perm (x :: l'.erase x) := List.perm_cons_erase hx
    have h2 : ((l'.erase x).map f').Perm (l.map f) := by
      have h3 := (h1.map f').symm.trans h
      rw [List.map_cons, List.map_cons, e] at h3
      exact h3.cons_inv
    obtain ⟨hr1, hr2⟩ := List.nodup_cons.mp hn
    obtain ⟨m, m1, m2⟩ := match_perm l (l'.erase x) hr2 h2
    have hne : ∀ q ∈ l, q ≠ r := fun q hq e => hr1 (e ▸ hq)
    refine ⟨fun q => if q = r then x else m q, h1.trans ?_, fun q hq => ?_⟩
    · rw [List.map_cons, if_pos rfl, List.map_congr_left (g := m) fun q hq => if_neg (hne q hq)]
      exact m1.cons x
    · rcases List.mem_cons.mp hq with e1 | hq
      · show f' (if q = r then x else m q) = _
        rw [if_pos e1, e1]; exact e
      · show f' (if q = r then x else m q) = _
        rw [if_neg (hne q hq)]; exact m2 q hq

/-- A record made without a reference is found; the others are as before. -/
theorem createRow_findsAll {home : Nat → Nat} {w w1 : World Key V Ty} (hw : HReach Ordinary home w) {d : Nat} (hd : isVault w d = true) {ps : List (Key × V)} {res : Res Key}
    (h : createRow w d ps = some (w1, res)) (hf : FindsAll w d) : FindsAll w1 d := by
  have ho : outcome Env.id w (.createRow d ps) = some (w1, .res res) := by
    show onVault w d _ = _
    rw [onVault, if_pos hd, h]; rfl
  obtain ⟨_, _, s, _⟩ := on_step hw ho trivial rfl
  have key : ∀ u : Table Key V Ty, asTable w1 d = u → (∀ r, u.row r → ∀ k ∈ u.keys, ∀ b, u.seen b k r) → FindsAll w1 d := by
    rintro u rfl hu; exact hu
  have hf' : ∀ r, (asTable w d).row r → ∀ k ∈ (asTable w d).keys, ∀ b, (asTable w d).seen b k r := hf
  refine key _ rfl ?_
  simp only [Table.Step] at s
  split at s
  · rw [s.2]; exact hf'
  · rcases s with ⟨_, _, _, _, _, e⟩ | ⟨_, x, _, _, e⟩
    · rw [e]; exact hf'
    · rw [e]
      intro r hr k hk b
      rcases hr with hr | hr
      · exact .inl (hf' r hr k hk b)
      · exact .inr ⟨hr, hk⟩

/-- Reading a file leaves every record of the vault findable, if every record was. -/
theorem C115_reading_finds {home : Nat → Nat} {w w' : World Key V Ty} (hw : HReach Ordinary home w) {d : Nat}
    (hd : isVault w d = true) {handler : List Key → List (List Char) → List (List Char)} {block big : Nat} {file : Option (List Char)} {sep : Char} {il : Bool}
    {uk : List Key} {b : Bool} {errs : List (Nat × Key)} (h : readFileWith handler block big w d file sep il uk = some (b, w', errs)) (hf : FindsAll w d) : FindsAll w' d := by
  cases file with
  | none =>
    simp only [readFileWith, Option.some.injEq, Prod.mk.injEq] at h
    obtain ⟨rfl, rfl, rfl⟩ := h
    exact hf
  | some text =>
    obtain ⟨rows, h1, rfl, h2⟩ := readFile_loop h
    obtain ⟨outs, a1, _⟩ := readLoop_spec (R := fun w => HReach Ordinary home w ∧ FindsAll w d) (fun _ h => h.1.any)
      (fun _ _ _ _ a b c => ⟨⟨(createRow_hstep a.1 b c).1, createRow_findsAll a.1 b c a.2⟩, (createRow_hstep a.1 b c).2⟩) (ord := False) (by simp) handler _ uk _ 0 w w' [] errs ⟨hw, hf⟩ hd h2
    exact a1.2

/-- A vault saved to a file and read into an empty vault with the same keys (in the same order, with the same types, defaults and uniqueness), possibly in another program,
has the same contents: by C114 it gives from then on the same answers to the same calls. The assumptions on the values are those of C40. -/
theorem C115_restored {home home' : Nat → Nat} {w w2 : World Key V Ty} (hw : HReach Ordinary home w) (hw2 : HReach Ordinary home' w2)
    {o d : Nat} (ho : isVault w o = true) (hd : isVault w2 d = true) (env : Env) (block big : Nat) (hb : 1 < block) (hbig : block ≤ big)
    {sep : Char} (hsep : GoodSep sep) (hdr : Bool)
    (hkeys : getKeys w o ≠ []) (hempty : members w2 d = []) (horder : getKeys w2 d = getKeys w o) (htypes : ∀ k, getKeyType w2 d k = getKeyType w o k)
    (hdefaults : ∀ k, getDefault w2 d k = getDefault w o k) (huniq : ∀ k, k ∈ getUniqueKeys w2 d ↔ k ∈ getUniqueKeys w o) (hfinds : FindsAll w o)
    (hnames : hdr = true → (∀ k ∈ getKeys w o, Plain sep k.name) ∧ (getKeys w o).getLast? ≠ some (Key.of []))
    (hread : ∀ r ∈ members w o, ∀ k v, value w r k = some v → fromText (typeOf v) (toText v) = .ok v)
    (hclean : ∀ r ∈ members w o, ∀ k v, value w r k = some v → Clean sep (toText v))
    (hlast : ∀ r ∈ members w o, ∀ k v, (getKeys w o).getLast? = some k → value w r k = some v → toText v ≠ []) :
    ∃ text w3, saveToFile env w o [] [sep] hdr = some text ∧ readFile block big w2 d (some text) sep hdr [] = some (true, w3, []) ∧
      HReach Ordinary home' w3 ∧ isVault w3 d = true ∧ ∃ m, Twins m w o w3 d := by
  obtain ⟨text, w3, h1, h2, h3, h4⟩ := C40_save_read_partial hw hw2 ho hd env block big hb hbig hsep hdr hkeys hempty htypes (fun _ => horder) (fun k hk => (huniq k).mp hk)
    hnames hread hclean hlast
  have hadd : ∃ new, Added d new w2 w3 := (C55_readFile_only_adds (G := fun _ _ => True) (fun _ _ _ => trivial) hw2.any hd h2).2.1
  obtain ⟨new, ha⟩ := hadd
  have hfa : FindsAll w3 d := C115_reading_finds hw2 hd h2 (fun r hr => by rw [hempty] at hr; cases hr)
  refine ⟨text, w3, h1, h2, h4, ha.vault, ?_⟩
  obtain ⟨m, m1, m2⟩ := match_perm (f := fun r k => value w r k) (f' := fun r k => value w3 r k) _ _ (members_nodup hw ho) h3
  have hks : getKeys w3 d = getKeys w o := ha.keys.trans horder
  have hmem : ∀ r', r' ∈ members w3 d ↔ ∃ r, r ∈ members w o ∧ r' = m r := fun r' => by
    rw [m1.mem_iff, List.mem_map]
    exact ⟨fun ⟨r, h, e⟩ => ⟨r, h, e.symm⟩, fun ⟨r, h, e⟩ => ⟨r, h, e.symm⟩⟩
  have hs := C80_wellformed hw ho
  have hs3 := C80_wellformed h4 ha.vault
  refine ⟨m, ⟨hks, fun k => by rw [ha.uniq]; exact huniq k, fun k => (ha.types k).trans (htypes k), fun k => (ha.defaults k).trans (hdefaults k), ?_, hmem,
    fun r hr k => congrFun (m2 r hr) k, fun r hr b k => ?_⟩⟩
  · exact fun r hr s hs e => List.inj_on_of_nodup_map (m1.nodup_iff.mp (members_nodup h4 ha.vault)) hr hs e
  · constructor
    · intro hh
      exact hfinds r hr k (hks ▸ (hs3.seen _ _ _ hh).2) b
    · intro hh
      exact hfa _ ((hmem _).mpr ⟨r, hr, rfl⟩) k (by rw [hks]; exact (hs.seen _ _ _ hh).2) b

/-- For integers, booleans and texts. -/
theorem C115_int_bool_string {home home' : Nat → Nat} {w w2 : World Key Val VTy} (hw : HReach Ordinary home w) (hw2 : HReach Ordinary home' w2)
    {o d : Nat} (ho : isVault w o = true) (hd : isVault w2 d = true) (env : Env) (block big : Nat) (hb : 1 < block) (hbig : block ≤ big)
    {sep : Char} (hsep : sep ≠ '"' ∧ sep ≠ '\r' ∧ sep ≠ '\n') (hword : ¬ WordChar sep) (hdr : Bool)
    (hkeys : getKeys w o ≠ []) (hempty : members w2 d = []) (horder : getKeys w2 d = getKeys w o) (htypes : ∀ k, getKeyType w2 d k = getKeyType w o k)
    (hdefaults : ∀ k, getDefault w2 d k = getDefault w o k) (huniq : ∀ k, k ∈ getUniqueKeys w2 d ↔ k ∈ getUniqueKeys w o) (hfinds : FindsAll w o)
    (hnames : hdr = true → (∀ k ∈ getKeys w o, Plain sep k.name) ∧ (getKeys w o).getLast? ≠ some (Key.of []))
    (hvals : ∀ r ∈ members w o, ∀ k v, value w r k = some v → Savable sep v)
    (hlast : ∀ r ∈ members w o, ∀ k, (getKeys w o).getLast? = some k → value w r k ≠ some (.str [])) :
    ∃ text w3, saveToFile env w o [] [sep] hdr = some text ∧ readFile block big w2 d (some text) sep hdr [] = some (true, w3, []) ∧
      HReach Ordinary home' w3 ∧ isVault w3 d = true ∧ ∃ m, Twins m w o w3 d :=
  C115_restored hw hw2 ho hd env block big hb hbig hsep hdr hkeys hempty horder htypes hdefaults huniq hfinds hnames
    (fun r hr k v hv => (C40_values hword (hvals r hr k v hv)).1) (fun r hr k v hv => (C40_values hword (hvals r hr k v hv)).2.1)
    (fun r hr k v hk hv => (C40_values hword (hvals r hr k v hv)).2.2 (fun e => hlast r hr k hk (by rw [hv, e])))

/-! ### A concrete case -/

instance (b : Bool) (w : World Key Val VTy) (o : Nat) (k : Key) (r : Nat) : Decidable (Listed b w o k r) := by
  refine decidable_of_iff (∃ e ∈ (if b = true then ordIndex w o k else hashIndex w o k), e.2 = r) ?_
  constructor
  · rintro ⟨⟨v, r'⟩, h, rfl⟩; exact ⟨v, h⟩
  · rintro ⟨v, h⟩; exact ⟨(v, r), h, rfl⟩

theorem fileDefaults (k : Key) : getDefault fileE 0 k = getDefault fileW 0 k := by
  by_cases h1 : kId = k
  · subst h1; decide
  by_cases h2 : kName = k
  · subst h2; decide
  by_cases h3 : kFlag = k
  · subst h3; decide
  have a : getDefault fileE 0 k = none := by
    show mget [(kId, _), (kName, _), (kFlag, _)] k = none
    simp [mget, h1, h2, h3]
  have b : getDefault fileW 0 k = none := by
    show mget [(kId, _), (kName, _), (kFlag, _)] k = none
    simp [mget, h1, h2, h3]
  rw [a, b]

/-- The two records of `fileW` (PropsFile.lean), saved with `;` and a key line and read into the empty vault `fileE`. -/
theorem file_twins : ∃ text w3, saveToFile Env.rev fileW 0 [] [';'] true = some text ∧ readFile 512 1000 fileE 0 (some text) ';' true [] = some (true, w3, []) ∧
    HReach Ordinary (fun _ => 0) w3 ∧ isVault w3 0 = true ∧ ∃ m, Twins m fileW 0 w3 0 :=
  C115_int_bool_string (w := fileW) (w2 := fileE) (o := 0) (d := 0) (sep := ';') (fileRun_reach (l := fileOps) rfl) (fileRun_reach (l := fileKeys) rfl)
    (by decide) (by decide) Env.rev 512 1000 (by decide) (by decide) (by decide) (by rintro (h | h); exact absurd h (by unfold Str.IsDigit; decide); exact absurd h (by decide))
    true (by decide) (by decide) (by decide) fileTypes fileDefaults (fun k => by rw [show getUniqueKeys fileE 0 = getUniqueKeys fileW 0 by decide]) (by unfold FindsAll; decide)
    (fun _ => ⟨by unfold Plain; decide, by decide⟩)
    (by
      intro r hr k v hv
      have hm : members fileW 0 = [0, 1] := by decide
      rw [hm] at hr
      have key : ∀ r ∈ [0, 1], ∀ x, fileW.getRec r = some x → ∀ p ∈ x.data, Savable ';' p.2 := by
        intro r hr x hx
        simp only [List.mem_cons, List.not_mem_nil, or_false] at hr
        rcases hr with rfl | rfl <;> (cases hx; decide)
      unfold value at hv
      cases hx : fileW.getRec r with
      | none => rw [hx] at hv; cases hv
      | some x => rw [hx] at hv; exact key r hr x hx _ (mget_in hv))
    (by decide)

/-- After restoring, a call on the restored vault answers as the same call on the saved one: here a record with an id that is taken. -/
example : ∃ text w3, saveToFile Env.rev fileW 0 [] [';'] true = some text ∧ readFile 512 1000 fileE 0 (some text) ';' true [] = some (true, w3, []) ∧
    ∀ e w4 a, outcome e w3 (.createRow 0 [(kId, int32 7 (by decide))]) = some (w4, a) → a = .res (.bad .UniqueKeyValueAlredyInSet (some kId)) := by
  obtain ⟨text, w3, h1, h2, h3, h4, m, h5⟩ := file_twins
  refine ⟨text, w3, h1, h2, fun e w4 a h => ?_⟩
  obtain ⟨w1, hw1⟩ : ∃ w1, outcome Env.id fileW (.createRow 0 [(kId, int32 7 (by decide))]) = some (w1, .res (.bad .UniqueKeyValueAlredyInSet (some kId))) := ⟨_, rfl⟩
  exact C114_same_answer (fileRun_reach (l := fileOps) rfl) h3 (by decide) h4 h5 (.createRow _) hw1 h

end MVault.W
