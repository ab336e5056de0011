import Verif.PropsRestore
import Verif.TextModel
/-
C119: the file a vault is saved to shows its contents and nothing else.
-/
set_option linter.unusedSectionVars false
set_option linter.unusedSimpArgs false
set_option linter.unusedVariables false
namespace MVault.W
open MVault.Csv (GoodSep Clean writeRow writeRows)
variable {V Ty : Type} [LinearOrder V] [Typed V Ty] [DecidableEq Ty] [Texts V Ty]

/-- Specification, models no code: two files with the same beginning (the key line) and the same lines in some order. -/
def SameLines (a b : List Char) : Prop := ∃ head rows rows', a = head ++ List.flatten rows ∧ b = head ++ List.flatten rows' ∧ rows'.Perm rows

/-- Specification, models no code: the lines of the records. -/
def savedLines (env : Env) (w : World Key V Ty) (o : Nat) (keys : List Key) (sep : Char) : List (List Char) :=
  (env.perm (members w o)).map fun r => writeRow [sep] (textRow w (savedKeys w o keys) r) ++ ['\r', '\n']

/-- Specification, models no code: the key line. -/
def savedHead (w : World Key V Ty) (o : Nat) (keys : List Key) (sep : Char) (hdr : Bool) : List Char :=
  if hdr = true then (match savedKeys w o keys with | [] => [] | k :: ks => k.name ++ ks.flatMap (fun k' => [sep] ++ k'.name) ++ ['\r', '\n']) else []

theorem save_lines {home : Nat → Nat} {w : World Key V Ty} (hw : HReach Ordinary home w) {o : Nat} (ho : isVault w o = true) (env : Env) (keys : List Key) (sep : Char) (hdr : Bool)
    (hk : getKeys w o ≠ []) : saveToFile env w o keys [sep] hdr = some (savedHead w o keys sep hdr ++ (savedLines env w o keys sep).flatten) := by
  have hne : savedKeys w o keys ≠ [] := by
    unfold savedKeys
    split
    · exact hk
    · assumption
  have h0 := saveToFile_any hw ho env sep false (saved := keys) hne hk (by simp)
  have e0 : saveToFile env w o keys [sep] false = some (savedLines env w o keys sep).flatten := by
    rw [h0]
    simp [writeRows, savedLines, List.flatMap_def, Function.comp_def]
  cases hdr with
  | false => simpa [savedHead] using e0
  | true =>
    obtain ⟨own, hi⟩ := reach_inv hw
    obtain ⟨vo, hvo, hs⟩ := isVault_iff.mp ho
    have hex : ∀ r ∈ env.perm vo.recs, ∃ x, w.getRec r = some x := fun r hr => by
      obtain ⟨_, x, hx, _⟩ := hi.v.mem o vo hvo hs r ((env.isPerm vo.recs).mem_iff.mp hr)
      exact ⟨x, hx⟩
    have hord : (if keys = [] then vo.keysOrder else keys) = savedKeys w o keys := by rw [savedKeys, getKeys_eq hvo]
    rw [getKeys_eq hvo] at hk
    have hd : decide (vo.keysOrder.length ≠ 0) = true := by simp [hk]
    obtain ⟨k, ks, hks⟩ : ∃ k ks, savedKeys w o keys = k :: ks := by
      cases h : savedKeys w o keys with
      | nil => exact absurd h hne
      | cons k ks => exact ⟨k, ks, rfl⟩
    simp only [saveToFile, hvo, Option.bind_eq_bind, Option.bind_some, hord, hd, hks, saveHeader, if_true, Bool.false_eq_true, if_false, savedHead] at e0 ⊢
    rw [loop_text (fun x => saveRow [sep] x.data (k :: ks) (if keys = [] then sizeOf x.data else keys.length)) _ _ hex] at e0 ⊢
    simp only [List.nil_append, Option.some.injEq] at e0
    rw [e0]
    rfl

/-- Two vaults with the same contents - in whatever program, after whatever history - are saved to the same lines, for all chosen keys, separators and orders of the hash tables. -/
theorem C119_same_lines {home home' : Nat → Nat} {w w' : World Key V Ty} (hw : HReach Ordinary home w) (hw' : HReach Ordinary home' w') {o o' : Nat} {m : Nat → Nat}
    (ho : isVault w o = true) (ho' : isVault w' o' = true) (ht : Twins m w o w' o') (hk : getKeys w o ≠ []) (env env' : Env) (keys : List Key) (sep : Char) (hdr : Bool) :
    ∃ a b, saveToFile env w o keys [sep] hdr = some a ∧ saveToFile env' w' o' keys [sep] hdr = some b ∧ SameLines a b := by
  have hk' : getKeys w' o' ≠ [] := by rw [ht.keys]; exact hk
  have hs : savedKeys w' o' keys = savedKeys w o keys := by unfold savedKeys; rw [ht.keys]
  refine ⟨_, _, save_lines hw ho env keys sep hdr hk, save_lines hw' ho' env' keys sep hdr hk', savedHead w o keys sep hdr, _, _, rfl,
    by rw [show savedHead w' o' keys sep hdr = savedHead w o keys sep hdr by unfold savedHead; rw [hs]], ?_⟩
  have hp : (members w' o').Perm ((members w o).map m) := by
    rw [List.perm_ext_iff_of_nodup (members_nodup hw' ho') (by
      rw [List.nodup_map_iff_inj_on (members_nodup hw ho)]; exact fun a ha b hb => ht.inj a ha b hb)]
    intro r'
    rw [ht.records, List.mem_map]
    exact ⟨fun ⟨r, a, b⟩ => ⟨r, a, b.symm⟩, fun ⟨r, a, b⟩ => ⟨r, a, b.symm⟩⟩
  unfold savedLines
  refine ((((env'.isPerm _).trans hp).map _).trans ?_).trans ((env.isPerm (members w o)).map _).symm
  rw [List.map_map, List.map_congr_left]
  intro r hr
  simp only [Function.comp_apply, hs]
  congr 2
  unfold textRow
  exact List.map_congr_left fun k _ => by rw [ht.values r hr k]

/-- And, if the hash table of the second vault is walked in the matching order, to the same file, character by character. -/
theorem C119_same_file {home home' : Nat → Nat} {w w' : World Key V Ty} (hw : HReach Ordinary home w) (hw' : HReach Ordinary home' w') {o o' : Nat} {m : Nat → Nat}
    (ho : isVault w o = true) (ho' : isVault w' o' = true) (ht : Twins m w o w' o') (hk : getKeys w o ≠ []) (env : Env) :
    ∃ env' : Env, ∀ keys sep hdr, saveToFile env' w' o' keys [sep] hdr = saveToFile env w o keys [sep] hdr := by
  have hk' : getKeys w' o' ≠ [] := by rw [ht.keys]; exact hk
  have hp : (members w' o').Perm ((members w o).map m) := by
    rw [List.perm_ext_iff_of_nodup (members_nodup hw' ho') (by
      rw [List.nodup_map_iff_inj_on (members_nodup hw ho)]; exact fun a ha b hb => ht.inj a ha b hb)]
    intro r'
    rw [ht.records, List.mem_map]
    exact ⟨fun ⟨r, a, b⟩ => ⟨r, a, b.symm⟩, fun ⟨r, a, b⟩ => ⟨r, a, b.symm⟩⟩
  refine ⟨⟨fun l => if l = members w' o' then (env.perm (members w o)).map m else l, fun l => ?_⟩, fun keys sep hdr => ?_⟩
  · split
    · rename_i h; rw [h]; exact ((env.isPerm _).map m).trans hp.symm
    · exact .refl _
  · have hs : savedKeys w' o' keys = savedKeys w o keys := by unfold savedKeys; rw [ht.keys]
    rw [save_lines hw ho env keys sep hdr hk, save_lines hw' ho' _ keys sep hdr hk']
    rw [show savedHead w' o' keys sep hdr = savedHead w o keys sep hdr by unfold savedHead; rw [hs]]
    unfold savedLines
    simp only [if_true, List.map_map]
    congr 3
    refine List.map_congr_left fun r hr => ?_
    simp only [Function.comp_apply, hs]
    congr 2
    unfold textRow
    exact List.map_congr_left fun k _ => by rw [ht.values r ((env.isPerm _).mem_iff.mp hr) k]

/-- Saving again what was read gives the lines that were read: under the conditions of C115 the restored vault is saved to the same lines as the first one,
whichever keys, separator and order of the hash table are used for the second file. -/
theorem C119_saved_again {home home' : Nat → Nat} {w w2 : World Key V Ty} (hw : HReach Ordinary home w) (hw2 : HReach Ordinary home' w2)
    {o d : Nat} (ho : isVault w o = true) (hd : isVault w2 d = true) (env : Env) (block big : Nat) (hb : 1 < block) (hbig : block ≤ big)
    {sep : Char} (hsep : GoodSep sep) (hdr : Bool)
    (hkeys : getKeys w o ≠ []) (hempty : members w2 d = []) (horder : getKeys w2 d = getKeys w o) (htypes : ∀ k, getKeyType w2 d k = getKeyType w o k)
    (hdefaults : ∀ k, getDefault w2 d k = getDefault w o k) (huniq : ∀ k, k ∈ getUniqueKeys w2 d ↔ k ∈ getUniqueKeys w o) (hfinds : FindsAll w o)
    (hnames : hdr = true → (∀ k ∈ getKeys w o, Plain sep k.name) ∧ (getKeys w o).getLast? ≠ some (Key.of []))
    (hread : ∀ r ∈ members w o, ∀ k v, value w r k = some v → fromText (typeOf v) (toText v) = .ok v)
    (hclean : ∀ r ∈ members w o, ∀ k v, value w r k = some v → Clean sep (toText v))
    (hlast : ∀ r ∈ members w o, ∀ k v, (getKeys w o).getLast? = some k → value w r k = some v → toText v ≠ []) :
    ∃ text w3, saveToFile env w o [] [sep] hdr = some text ∧ readFile block big w2 d (some text) sep hdr [] = some (true, w3, []) ∧
      (∀ env', ∃ text', saveToFile env' w3 d [] [sep] hdr = some text' ∧ SameLines text text') ∧
      ∃ env', ∀ keys sep' hdr', saveToFile env' w3 d keys [sep'] hdr' = saveToFile env w o keys [sep'] hdr' := by
  obtain ⟨text, w3, h1, h2, h3, h4, m, h5⟩ := C115_restored hw hw2 ho hd env block big hb hbig hsep hdr hkeys hempty horder htypes hdefaults huniq hfinds hnames hread hclean hlast
  refine ⟨text, w3, h1, h2, fun env' => ?_, C119_same_file hw h3 ho h4 h5 hkeys env⟩
  obtain ⟨a, b, e1, e2, e3⟩ := C119_same_lines hw h3 ho h4 h5 hkeys env env' [] sep hdr
  rw [h1] at e1
  cases e1
  exact ⟨b, e2, e3⟩

/-- The order of the second hash table that matches an order of the first. -/
theorem matching_order {home home' : Nat → Nat} {w w' : World Key V Ty} (hw : HReach Ordinary home w) (hw' : HReach Ordinary home' w') {o o' : Nat} {m : Nat → Nat}
    (ho : isVault w o = true) (ho' : isVault w' o' = true) (ht : Twins m w o w' o') (env : Env) :
    ∃ env' : Env, env'.perm (members w' o') = (env.perm (members w o)).map m := by
  have hp : (members w' o').Perm ((members w o).map m) := by
    rw [List.perm_ext_iff_of_nodup (members_nodup hw' ho') (by
      rw [List.nodup_map_iff_inj_on (members_nodup hw ho)]; exact fun a ha b hb => ht.inj a ha b hb)]
    intro r'
    rw [ht.records, List.mem_map]
    exact ⟨fun ⟨r, a, b⟩ => ⟨r, a, b.symm⟩, fun ⟨r, a, b⟩ => ⟨r, a, b.symm⟩⟩
  refine ⟨⟨fun l => if l = members w' o' then (env.perm (members w o)).map m else l, fun l => ?_⟩, if_pos rfl⟩
  split
  · rename_i h; rw [h]; exact ((env.isPerm _).map m).trans hp.symm
  · exact .refl _

variable [Quoting Ty]

theorem jsonFields_same (fmt : Bool) (start : List Char) {data data' : List (Key × V)} (h : ∀ k, mget data' k = mget data k) (total : Nat) :
    ∀ (ks : List Key) (c : Nat), jsonFields fmt start data' total ks c = jsonFields fmt start data total ks c
  | [], _ => rfl
  | k :: ks, c => by
    simp only [jsonFields, h k, jsonFields_same fmt start h total ks (c + 1)]

theorem jsonRecords_same (fmt : Bool) (tab : List Char) (arr : Bool) {name name' : Nat → Nat → List Char} {w w' : World Key V Ty} {m : Nat → Nat} (keys : List Key) (total : Nat) :
    ∀ (l : List Nat), (∀ r ∈ l, ∃ x x', w.getRec r = some x ∧ w'.getRec (m r) = some x' ∧ ∀ k, mget x'.data k = mget x.data k) →
      (arr = true ∨ ∀ c, ∀ r ∈ l, name' c (m r) = name c r) → ∀ c,
      jsonRecords fmt tab arr name' w' keys total (l.map m) c = jsonRecords fmt tab arr name w keys total l c
  | [], _, _, _ => rfl
  | r :: l, h, hn, c => by
    obtain ⟨x, x', h1, h2, h3⟩ := h r (by simp)
    have ih := jsonRecords_same fmt tab arr (name := name) (name' := name') keys total l (fun r hr => h r (by simp [hr]))
      (hn.imp id fun a c r hr => a c r (by simp [hr])) (c + 1)
    simp only [List.map_cons, jsonRecords, h1, h2, Option.bind_eq_bind, Option.bind_some, jsonFields_same fmt _ h3, ih]
    rcases hn with hn | hn
    · simp [hn]
    · rw [hn c r (by simp)]

/-- The JSON texts agree as well: for every order of the first hash table there is an order of the second with which all JSON texts of the two vaults are equal,
character by character, as arrays, as objects with numbered records, and as objects named by the records' addresses if these are the same. -/
theorem C119_same_json {home home' : Nat → Nat} {w w' : World Key V Ty} (hw : HReach Ordinary home w) (hw' : HReach Ordinary home' w') {o o' : Nat} {m : Nat → Nat}
    (ho : isVault w o = true) (ho' : isVault w' o' = true) (ht : Twins m w o w' o') (env : Env) {addr addr' : Nat → List Char} :
    ∃ env' : Env, ∀ fmt tabSize useTemplate template isArray,
      (useTemplate = true ∨ isArray = true ∨ ∀ r ∈ members w o, addr' (m r) = addr r) →
      vaultToJson env' addr' w' o' fmt tabSize useTemplate template isArray = vaultToJson env addr w o fmt tabSize useTemplate template isArray := by
  obtain ⟨env', he⟩ := matching_order hw hw' ho ho' ht env
  refine ⟨env', fun fmt tabSize ut template arr hn => ?_⟩
  obtain ⟨own, hi⟩ := reach_inv hw
  obtain ⟨own', hi'⟩ := reach_inv hw'
  obtain ⟨vo, hvo, hs⟩ := isVault_iff.mp ho
  obtain ⟨vo', hvo', hs'⟩ := isVault_iff.mp ho'
  have hk := ht.keys
  have hrec := ht.records
  have hval := ht.values
  rw [getKeys_eq hvo, getKeys_eq hvo'] at hk
  rw [members_eq hvo, members_eq hvo'] at hrec
  rw [members_eq hvo] at hval hn
  rw [members_eq hvo, members_eq hvo'] at he
  have hlen : vo'.recs.length = vo.recs.length := by
    rw [← (env'.isPerm vo'.recs).length_eq, he, List.length_map, (env.isPerm vo.recs).length_eq]
  have key : ∀ name name' : Nat → Nat → List Char, (arr = true ∨ ∀ c, ∀ r ∈ env.perm vo.recs, name' c (m r) = name c r) →
      jsonRecords fmt (List.replicate tabSize ' ') arr name' w' vo.keysOrder vo.recs.length ((env.perm vo.recs).map m) 0 =
        jsonRecords fmt (List.replicate tabSize ' ') arr name w vo.keysOrder vo.recs.length (env.perm vo.recs) 0 := by
    intro name name' hh
    refine jsonRecords_same fmt _ arr _ _ _ (fun r hr => ?_) hh 0
    have hr := (env.isPerm vo.recs).mem_iff.mp hr
    obtain ⟨_, x, hx, _⟩ := hi.v.mem o vo hvo hs r hr
    obtain ⟨_, x', hx', _⟩ := hi'.v.mem o' vo' hvo' hs' (m r) ((hrec _).mpr ⟨r, hr, rfl⟩)
    refine ⟨x, x', hx, hx', fun k => ?_⟩
    have := hval r hr k
    simpa [value, hx, hx'] using this
  simp only [vaultToJson, hvo, hvo', Option.bind_eq_bind, Option.bind_some, he, hk, hlen]
  rw [key (fun n r => if ut = true then template ++ Str.decDigits n else addr r) _ ?_]
  rcases hn with h | h | h
  · exact .inr fun c r _ => by simp [h]
  · exact .inl h
  · exact .inr fun c r hr => by rw [h r ((env.isPerm vo.recs).mem_iff.mp hr)]

/-! ### A concrete case -/

/-- The file of `file_twins`, saved backwards, read into the empty vault and saved again: some order gives the same characters. -/
example : ∃ text w3 env', saveToFile Env.rev fileW 0 [] [';'] true = some text ∧ readFile 512 1000 fileE 0 (some text) ';' true [] = some (true, w3, []) ∧
    saveToFile env' w3 0 [] [';'] true = some text ∧ members fileW 0 ≠ [] := by
  obtain ⟨text, w3, h1, h2, h3, h4, m, h5⟩ := file_twins
  obtain ⟨env', he⟩ := C119_same_file (fileRun_reach (l := fileOps) rfl) h3 (by decide) h4 h5 (by decide) Env.rev
  exact ⟨text, w3, env', h1, h2, (he [] ';' true).trans h1, by decide⟩

/-- The array text of the restored vault. -/
example : ∃ text w3 env' j, saveToFile Env.rev fileW 0 [] [';'] true = some text ∧ readFile 512 1000 fileE 0 (some text) ';' true [] = some (true, w3, []) ∧
    vaultToJson Env.rev (fun _ => []) fileW 0 true 2 true "r".toList true = some j ∧ vaultToJson env' (fun _ => []) w3 0 true 2 true "r".toList true = some j := by
  obtain ⟨text, w3, h1, h2, h3, h4, m, h5⟩ := file_twins
  obtain ⟨env', he⟩ := C119_same_json (fileRun_reach (l := fileOps) rfl) h3 (by decide) h4 h5 Env.rev (addr := fun _ => []) (addr' := fun _ => [])
  exact ⟨text, w3, env', _, h1, h2, rfl, (he true 2 true "r".toList true (.inl rfl)).trans rfl⟩

end MVault.W
