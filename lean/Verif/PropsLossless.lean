import Verif.PropsSaved
import Verif.PropsRebuild
import Verif.PropsJson
/-
C119, the other direction: the file a vault is saved to loses nothing.
-/
set_option linter.unusedSectionVars false
set_option linter.unusedSimpArgs false
set_option linter.unusedVariables false
namespace MVault.W
open MVault.Csv (GoodSep Clean)
open MVault.Spec (Table)
open MVault.JsonSpec

section
variable {K V Ty : Type} [LinearOrder K] [LinearOrder V] [Typed V Ty] [DecidableEq Ty]

theorem Twins.symm {m : Nat → Nat} {w w' : World K V Ty} {o o' : Nat} (h : Twins m w o w' o') : ∃ n, Twins n w' o' w o := by
  obtain ⟨n, h1, _⟩ := (twins_iff.mp h).symm
  exact ⟨n, twins_iff.mpr h1⟩

theorem Twins.trans {m n : Nat → Nat} {w w' w'' : World K V Ty} {o o' o'' : Nat} (h : Twins m w o w' o') (g : Twins n w' o' w'' o'') :
    Twins (fun r => n (m r)) w o w'' o'' where
  keys := g.keys.trans h.keys
  uniq k := (g.uniq k).trans (h.uniq k)
  types k := (g.types k).trans (h.types k)
  defaults k := (g.defaults k).trans (h.defaults k)
  inj r hr s hs e := h.inj r hr s hs (g.inj _ ((h.records _).mpr ⟨r, hr, rfl⟩) _ ((h.records _).mpr ⟨s, hs, rfl⟩) e)
  records r'' := by
    rw [g.records]
    constructor
    · rintro ⟨r', hr', rfl⟩
      obtain ⟨r, hr, rfl⟩ := (h.records _).mp hr'
      exact ⟨r, hr, rfl⟩
    · rintro ⟨r, hr, rfl⟩
      exact ⟨m r, (h.records _).mpr ⟨r, hr, rfl⟩, rfl⟩
  values r hr k := (g.values _ ((h.records _).mpr ⟨r, hr, rfl⟩) k).trans (h.values r hr k)
  listed r hr b k := (g.listed _ ((h.records _).mpr ⟨r, hr, rfl⟩) b k).trans (h.listed r hr b k)

/-- For every vault a short program makes an empty vault with the same keys. -/
theorem empty_twin {home : Nat → Nat} {w : World K V Ty} (hw : HReach Ordinary home w) {o : Nat} (ho : isVault w o = true) :
    ∃ ops : List (Op K V Ty), (∀ op ∈ ops, Fills op) ∧ ops.length = (getKeys w o).length ∧ ∀ home' env, ∃ e, FreshRun home' env ops e ∧
      members e 0 = [] ∧ getKeys e 0 = getKeys w o ∧ (∀ k, getKeyType e 0 k = getKeyType w o k) ∧ (∀ k, getDefault e 0 k = getDefault w o k) ∧
      ∀ k, k ∈ getUniqueKeys e 0 ↔ k ∈ getUniqueKeys w o := by
  have ht := C80_wellformed hw ho
  have hz : (asTable w o).UniqZero := by
    obtain ⟨l, _, hr⟩ := C79_history_exists hw
    exact hr.uniqZero o _ (dbOf_vault ho)
  obtain ⟨ops, h1, h2, h3⟩ := build_keys ht hz (asTable w o).keys [] ht.nodup (fun _ h => h) ⟨[], fun _ h => (by cases h), rfl, fun home env => by
    obtain ⟨w', f, e⟩ := filled_start (K := K) (V := V) (Ty := Ty) home env
    refine ⟨w', f, ?_⟩
    rw [e]
    exact ⟨rfl, fun _ h => (by cases h), fun _ h => (by cases h), fun _ h => (by cases h), fun _ h => h⟩⟩
  refine ⟨ops, h1, h2, fun home' env => ?_⟩
  obtain ⟨e, f, h⟩ := h3 home' env
  have p := Table.Head.part h ht (C80_wellformed (Careful.ordinary f.2.1) f.2.2) id
  exact ⟨e, f, List.eq_nil_iff_forall_not_mem.mpr fun r hr => h.row r hr, p.keys, p.ty, p.dflt, p.uniq⟩
end

variable {V Ty : Type} [LinearOrder V] [Typed V Ty] [DecidableEq Ty] [Texts V Ty]

/-- Specification, models no code: a vault whose contents can be stored in a file and read from it: its searches find every record, the names of the keys can stand in a
file if there is a key line, its values can be read from their texts, the texts can stand in a file, and no text under the last key is empty. -/
structure Storable (sep : Char) (hdr : Bool) (w : World Key V Ty) (o : Nat) : Prop where
  keys : getKeys w o ≠ []
  finds : FindsAll w o
  names : hdr = true → (∀ k ∈ getKeys w o, Plain sep k.name) ∧ (getKeys w o).getLast? ≠ some (Key.of [])
  read : ∀ r ∈ members w o, ∀ k v, value w r k = some v → fromText (typeOf v) (toText v) = .ok v
  clean : ∀ r ∈ members w o, ∀ k v, value w r k = some v → Clean sep (toText v)
  last : ∀ r ∈ members w o, ∀ k v, (getKeys w o).getLast? = some k → value w r k = some v → toText v ≠ []

/-- A file shows all contents: two vaults with the same keys - in one program or two, after whatever histories - that are saved to the same file, in whatever orders their
records come, have the same contents. -/
theorem C119_nothing_lost {home home' : Nat → Nat} {w w' : World Key V Ty} (hw : HReach Ordinary home w) (hw' : HReach Ordinary home' w') {o o' : Nat}
    (ho : isVault w o = true) (ho' : isVault w' o' = true) {sep : Char} (hsep : GoodSep sep) {hdr : Bool} (hs : Storable sep hdr w o) (hs' : Storable sep hdr w' o')
    (horder : getKeys w' o' = getKeys w o) (htypes : ∀ k, getKeyType w' o' k = getKeyType w o k) (hdefaults : ∀ k, getDefault w' o' k = getDefault w o k)
    (huniq : ∀ k, k ∈ getUniqueKeys w' o' ↔ k ∈ getUniqueKeys w o) {env env' : Env}
    (hfile : saveToFile env' w' o' [] [sep] hdr = saveToFile env w o [] [sep] hdr) : ∃ m, Twins m w o w' o' := by
  obtain ⟨ops, _, _, h⟩ := empty_twin hw ho
  obtain ⟨e, ⟨_, he, he0⟩, e1, e2, e3, e4, e5⟩ := h (fun _ => 0) env
  have he := Careful.ordinary he
  obtain ⟨t, w3, a1, a2, a3, a4, m, a5⟩ := C115_restored hw he ho he0 env 2 2 (by decide) (by decide) hsep hdr hs.keys e1 e2 e3 e4 e5 hs.finds hs.names hs.read hs.clean hs.last
  obtain ⟨t', w3', b1, b2, b3, b4, m', b5⟩ := C115_restored hw' he ho' he0 env' 2 2 (by decide) (by decide) hsep hdr hs'.keys e1 (e2.trans horder.symm)
    (fun k => (e3 k).trans (htypes k).symm) (fun k => (e4 k).trans (hdefaults k).symm) (fun k => (e5 k).trans (huniq k).symm) hs'.finds hs'.names hs'.read hs'.clean hs'.last
  rw [hfile, a1] at b1
  cases b1
  rw [a2] at b2
  cases b2
  obtain ⟨n, b6⟩ := b5.symm
  exact ⟨_, a5.trans b6⟩

/-- So with the same keys, saving to the same file is having the same contents. -/
theorem C119_file_iff_contents {home home' : Nat → Nat} {w w' : World Key V Ty} (hw : HReach Ordinary home w) (hw' : HReach Ordinary home' w') {o o' : Nat}
    (ho : isVault w o = true) (ho' : isVault w' o' = true) {sep : Char} (hsep : GoodSep sep) {hdr : Bool} (hs : Storable sep hdr w o) (hs' : Storable sep hdr w' o')
    (horder : getKeys w' o' = getKeys w o) (htypes : ∀ k, getKeyType w' o' k = getKeyType w o k) (hdefaults : ∀ k, getDefault w' o' k = getDefault w o k)
    (huniq : ∀ k, k ∈ getUniqueKeys w' o' ↔ k ∈ getUniqueKeys w o) (env : Env) :
    (∃ env', saveToFile env' w' o' [] [sep] hdr = saveToFile env w o [] [sep] hdr) ↔ ∃ m, Twins m w o w' o' := by
  constructor
  · rintro ⟨env', h⟩
    exact C119_nothing_lost hw hw' ho ho' hsep hs hs' horder htypes hdefaults huniq h
  · rintro ⟨m, h⟩
    obtain ⟨env', g⟩ := C119_same_file hw hw' ho ho' h hs.keys env
    exact ⟨env', g [] sep hdr⟩

/-- The conditions depend on the contents only. -/
theorem Storable.of_twins {sep : Char} {hdr : Bool} {m : Nat → Nat} {w w' : World Key V Ty} {o o' : Nat} (h : Storable sep hdr w o) (ht : Twins m w o w' o') :
    Storable sep hdr w' o' where
  keys := by rw [ht.keys]; exact h.keys
  finds r' hr' k hk b := by
    obtain ⟨r, hr, rfl⟩ := (ht.records _).mp hr'
    rw [ht.keys] at hk
    exact (ht.listed r hr b k).mpr (h.finds r hr k hk b)
  names := by rw [ht.keys]; exact h.names
  read r' hr' k v hv := by
    obtain ⟨r, hr, rfl⟩ := (ht.records _).mp hr'
    exact h.read r hr k v (by rw [← ht.values r hr k]; exact hv)
  clean r' hr' k v hv := by
    obtain ⟨r, hr, rfl⟩ := (ht.records _).mp hr'
    exact h.clean r hr k v (by rw [← ht.values r hr k]; exact hv)
  last r' hr' k v hk hv := by
    obtain ⟨r, hr, rfl⟩ := (ht.records _).mp hr'
    rw [ht.keys] at hk
    exact h.last r hr k v hk (by rw [← ht.values r hr k]; exact hv)

/-- With the value types of the library (all but floating point): conditions on the values themselves. -/
theorem Storable.of_values {sep : Char} (hword : ¬ WordChar sep) {hdr : Bool} {w : World Key Val VTy} {o : Nat} (hkeys : getKeys w o ≠ []) (hfinds : FindsAll w o)
    (hnames : hdr = true → (∀ k ∈ getKeys w o, Plain sep k.name) ∧ (getKeys w o).getLast? ≠ some (Key.of []))
    (hvals : ∀ r ∈ members w o, ∀ k v, value w r k = some v → Savable sep v)
    (hlast : ∀ r ∈ members w o, ∀ k, (getKeys w o).getLast? = some k → value w r k ≠ some (.str [])) : Storable sep hdr w o where
  keys := hkeys
  finds := hfinds
  names := hnames
  read r hr k v hv := (C40_values hword (hvals r hr k v hv)).1
  clean r hr k v hv := (C40_values hword (hvals r hr k v hv)).2.1
  last r hr k v hk hv := (C40_values hword (hvals r hr k v hv)).2.2 (fun e => hlast r hr k hk (by rw [hv, e]))

/-! ### JSON -/

theorem map_transfer {A B C D : Type} {f : A → C} {f' : B → C} {g : A → D} {g' : B → D} : ∀ (l : List A) (l' : List B), l'.map f' = l.map f →
    (∀ a ∈ l, ∀ b ∈ l', f' b = f a → g' b = g a) → l'.map g' = l.map g
  | [], [], _, _ => rfl
  | [], _ :: _, h, _ => by cases h
  | _ :: _, [], h, _ => by cases h
  | a :: l, b :: l', h, hg => by
    simp only [List.map_cons, List.cons.injEq] at h ⊢
    exact ⟨hg a (by simp) b (by simp) h.1, map_transfer l l' h.2 fun x hx y hy e => hg x (by simp [hx]) y (by simp [hy]) e⟩

/-- Two vaults with the same keys and the same rows of values have the same contents, if searches find all records in both. -/
theorem twins_of_rows {K V Ty : Type} [LinearOrder K] [LinearOrder V] [Typed V Ty] [DecidableEq Ty] {home home' : Nat → Nat} {w w' : World K V Ty} {o o' : Nat}
    (hw : HReach Ordinary home w) (hw' : HReach Ordinary home' w') (ho : isVault w o = true) (ho' : isVault w' o' = true) (hf : FindsAll w o) (hf' : FindsAll w' o')
    (horder : getKeys w' o' = getKeys w o) (htypes : ∀ k, getKeyType w' o' k = getKeyType w o k) (hdefaults : ∀ k, getDefault w' o' k = getDefault w o k)
    (huniq : ∀ k, k ∈ getUniqueKeys w' o' ↔ k ∈ getUniqueKeys w o) (h : ((members w' o').map fun r k => value w' r k).Perm ((members w o).map fun r k => value w r k)) :
    ∃ m, Twins m w o w' o' := by
  obtain ⟨m, m1, m2⟩ := match_perm (f := fun r k => value w r k) (f' := fun r k => value w' r k) _ _ (members_distinct hw ho) h
  have hmem : ∀ r', r' ∈ members w' o' ↔ ∃ r, r ∈ members w o ∧ r' = m r := fun r' => by
    rw [m1.mem_iff, List.mem_map]
    exact ⟨fun ⟨r, h, e⟩ => ⟨r, h, e.symm⟩, fun ⟨r, h, e⟩ => ⟨r, h, e.symm⟩⟩
  have hs := C80_wellformed hw ho
  have hs' := C80_wellformed hw' ho'
  refine ⟨m, ⟨horder, huniq, htypes, hdefaults, ?_, hmem, fun r hr k => congrFun (m2 r hr) k, fun r hr b k => ?_⟩⟩
  · exact fun r hr s hs e => List.inj_on_of_nodup_map (m1.nodup_iff.mp (members_distinct hw' ho')) hr hs e
  · constructor
    · intro hh
      exact hf r hr k (horder ▸ (hs'.seen _ _ _ hh).2) b
    · intro hh
      exact hf' _ ((hmem _).mpr ⟨r, hr, rfl⟩) k (by rw [horder]; exact (hs.seen _ _ _ hh).2) b

theorem json_value {v v' : Val} (ht : typeOf v' = typeOf v) (hj : Val.json v' = Val.json v) : v' = v := by
  cases v <;> cases v' <;> simp only [Val.json, Json.num.injEq, Json.bool.injEq, Json.str.injEq, reduceCtorEq] at hj
  · rename_i t i hi t' i' hi'
    obtain ⟨hj, -⟩ := hj
    subst hj
    have : t' = t := by cases ht; rfl
    subst this
    rfl
  · rw [hj]
  · rw [hj]

/-- JSON shows all contents as well: two vaults with the same keys, of integers, booleans and texts, whose JSON arrays are equal, in whatever orders their records come, have
the same contents. -/
theorem C119_json_nothing_lost {home home' : Nat → Nat} {w w' : World Key Val VTy} (hw : HReach Ordinary home w) (hw' : HReach Ordinary home' w') {o o' : Nat}
    (ho : isVault w o = true) (ho' : isVault w' o' = true) (hf : FindsAll w o) (hf' : FindsAll w' o') (hnames : ∀ k ∈ getKeys w o, Literal k.name)
    (hvals : ∀ r ∈ members w o, ∀ k s, value w r k = some (.str s) → Literal s) (hvals' : ∀ r ∈ members w' o', ∀ k s, value w' r k = some (.str s) → Literal s)
    (horder : getKeys w' o' = getKeys w o) (htypes : ∀ k, getKeyType w' o' k = getKeyType w o k) (hdefaults : ∀ k, getDefault w' o' k = getDefault w o k)
    (huniq : ∀ k, k ∈ getUniqueKeys w' o' ↔ k ∈ getUniqueKeys w o) {env env' : Env} {addr addr' : Nat → List Char} {fmt fmt' : Bool} {tab tab' : Nat} {ut ut' : Bool}
    {name name' : List Char} (hjson : vaultToJson env' addr' w' o' fmt' tab' ut' name' true = vaultToJson env addr w o fmt tab ut name true) : ∃ m, Twins m w o w' o' := by
  obtain ⟨vo, hvo, _⟩ := isVault_iff.mp ho
  obtain ⟨vo', hvo', _⟩ := isVault_iff.mp ho'
  obtain ⟨t, a1, a2⟩ := C59_array_partial hvo (vault_writable hw ho hnames hvals) env addr fmt tab ut name
  obtain ⟨t', b1, b2⟩ := C59_array_partial hvo' (vault_writable hw' ho' (by rw [horder]; exact hnames) hvals') env' addr' fmt' tab' ut' name'
  rw [hjson, a1] at b1
  cases b1
  rw [a2, horder] at b2
  simp only [Option.some.injEq, Json.arr.injEq] at b2
  have hs := C80_wellformed hw ho
  have hs' := C80_wellformed hw' ho'
  refine twins_of_rows hw hw' ho ho' hf hf' horder htypes hdefaults huniq ?_
  have := map_transfer (g := fun r k => value w r k) (g' := fun r k => value w' r k) _ _ b2.symm (by
    intro r hr r' hr' e
    have hr := (env.isPerm _).mem_iff.mp hr
    have hr' := (env'.isPerm _).mem_iff.mp hr'
    funext k
    have c1 := cell_in hr k
    have c2 := cell_in hr' k
    by_cases hk : k ∈ getKeys w o
    · obtain ⟨ty, hty⟩ := (hs.typed k).mp hk
      obtain ⟨v, d1, d2⟩ := hs.cell r k ty hr hty
      obtain ⟨v', f1, f2⟩ := hs'.cell r' k ty hr' ((htypes k).trans hty)
      rw [c1] at d1
      rw [c2] at f1
      simp only [recordJson, Json.obj.injEq] at e
      have e := List.map_inj_left.mp e k hk
      simp only [d1, f1, Prod.mk.injEq, true_and] at e
      show value w' r' k = value w r k
      rw [d1, f1, json_value (f2.trans d2.symm) e]
    · show value w' r' k = value w r k
      rw [← c1, ← c2, hs.cell' r k (.inr hk), hs'.cell' r' k (.inr (by show k ∉ getKeys w' o'; rw [horder]; exact hk))])
  exact ((((env'.isPerm _).map _).symm.trans (.of_eq this)).trans ((env.isPerm _).map _))

/-! ### A concrete case -/

/-- The vault of `file_twins` meets the conditions. -/
theorem file_storable : Storable ';' true fileW 0 :=
  .of_values (by rintro (h | h); exact absurd h (by unfold Str.IsDigit; decide); exact absurd h (by decide)) (by decide) (by unfold FindsAll; decide)
    (fun _ => ⟨by unfold Plain; decide, by decide⟩)
    (by
      intro r hr k v hv
      have hm : members fileW 0 = [0, 1] := by decide
      rw [hm] at hr
      have key : ∀ r ∈ [0, 1], ∀ x, fileW.getRec r = some x → ∀ p ∈ x.data, Savable ';' p.2 := by
        intro r hr x hx
        simp only [List.mem_cons, List.not_mem_nil, or_false] at hr
        rcases hr with rfl | rfl <;> (cases hx; decide)
      unfold value at hv
      cases hx : fileW.getRec r with
      | none => rw [hx] at hv; cases hv
      | some x => rw [hx] at hv; exact key r hr x hx _ (mget_in hv))
    (by decide)

/-- The vault and the one restored from its file meet all hypotheses of `C119_file_iff_contents`, and both sides hold. -/
example : ∃ w3 env', HReach Ordinary (fun _ => 0) w3 ∧ isVault w3 0 = true ∧ Storable ';' true w3 0 ∧ getKeys w3 0 = getKeys fileW 0 ∧ members fileW 0 = [0, 1] ∧
    saveToFile env' w3 0 [] [';'] true = saveToFile Env.rev fileW 0 [] [';'] true ∧ ∃ m, Twins m w3 0 fileW 0 := by
  obtain ⟨text, w3, h1, h2, h3, h4, m, h5⟩ := file_twins
  have hw := fileRun_reach (l := fileOps) rfl
  obtain ⟨env', he⟩ := (C119_file_iff_contents (sep := ';') (hdr := true) hw h3 (by decide) h4 (by decide) file_storable (file_storable.of_twins h5)
    h5.keys h5.types h5.defaults h5.uniq Env.rev).mpr ⟨m, h5⟩
  exact ⟨w3, env', h3, h4, file_storable.of_twins h5, h5.keys, by decide, he,
    C119_nothing_lost h3 hw h4 (by decide) (by decide) (file_storable.of_twins h5) file_storable
    h5.keys.symm (fun k => (h5.types k).symm) (fun k => (h5.defaults k).symm) (fun k => (h5.uniq k).symm) he.symm⟩

/-- The vault of `jsonW` and one made by a short program, in another program, meet the hypotheses of `C119_json_nothing_lost`. -/
example : ∃ w' env', HReach Ordinary (fun _ => 1) w' ∧ isVault w' 0 = true ∧ members jsonW 0 = [0, 1] ∧
    vaultToJson env' (fun _ => []) w' 0 true 2 false [] true = vaultToJson Env.rev (fun _ => []) jsonW 0 true 2 false [] true ∧ ∃ m, Twins m jsonW 0 w' 0 := by
  have hf : FindsAll jsonW 0 := by unfold FindsAll; decide
  obtain ⟨ops, a1, _, h⟩ := C116_fresh jsonW_reach (o := 0) (by decide) hf
  obtain ⟨w', f, m, ht⟩ := h (fun _ => 1) Env.id
  have hw' := Careful.ordinary f.2.1
  obtain ⟨env', he⟩ := C119_same_json jsonW_reach hw' (by decide) f.2.2 ht Env.rev (addr := fun _ => []) (addr' := fun _ => [])
  have he := he true 2 false [] true (.inr (.inl rfl))
  refine ⟨w', env', hw', f.2.2, by decide, he, C119_json_nothing_lost jsonW_reach hw' (by decide) f.2.2 hf ?_ (by decide) jsonW_vals ?_
    ht.keys ht.types ht.defaults ht.uniq he⟩
  · intro r' hr' k hk b
    obtain ⟨r, hr, rfl⟩ := (ht.records _).mp hr'
    rw [ht.keys] at hk
    exact (ht.listed r hr b k).mpr (hf r hr k hk b)
  · intro r' hr' k s hv
    obtain ⟨r, hr, rfl⟩ := (ht.records _).mp hr'
    exact jsonW_vals r hr k s (by rw [← ht.values r hr k]; exact hv)

end MVault.W
