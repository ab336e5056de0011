import Verif.TableSpec
import Verif.PropsSeen
import Verif.PropsMove
import Verif.PropsUnique
/-
The table a vault of the model is, and the step of each call on it.
-/
set_option linter.unusedSectionVars false
set_option linter.unusedSimpArgs false
set_option linter.unusedVariables false
namespace MVault.W
open MVault.Spec (Table Db Event Cmd)
variable {K V Ty : Type} [LinearOrder K] [LinearOrder V] [Typed V Ty] [DecidableEq Ty]
variable {own home : Nat → Nat}

/-- The default a key was added with: what `VaultKeyCopiers` keeps (Vault.hpp lines 519-522). -/
def keyDefault (w : World K V Ty) (o : Nat) (k : K) : Option V :=
  match w.getObj o with | some x => (mget x.cols k).map (·.dflt) | none => none

/-- The table that vault `o` is. -/
def asTable (w : World K V Ty) (o : Nat) : Table K V Ty where
  keys := getKeys w o
  uniq k := k ∈ getUniqueKeys w o
  ty := getKeyType w o
  dflt := getDefault w o
  first k := if k ∈ getUniqueKeys w o then none else keyDefault w o k
  row r := r ∈ members w o
  cell r k := if r ∈ members w o then value w r k else none
  seen b k r := Listed b w o k r

/-- All live vaults. -/
def dbOf (w : World K V Ty) : Db K V Ty := fun o => if isVault w o = true then some (asTable w o) else none

/-- The call, as the specification sees it. -/
def eventOf (w : World K V Ty) : Op K V Ty → Event K V Ty
  | .newVault => .new w.nextO
  | .destroyVault o => .gone o
  | .addKey o k d => .on o (.addKey k d)
  | .addUniqueKey o k t noFn f => .on o (.addUniqueKey k t noFn (f o))
  | .updateKey o k d => .on o (.updateKey k d)
  | .removeKey o k => .on o (.removeKey k)
  | .createRecord o _ ps => .on o (.create ps)
  | .createRow o ps => .on o (.create ps)
  | .refSetData f k v => match through w f with
    | some o => if isVault w o = true then .on o (.set (target w f) k v) else .other
    | none => .other
  | .refSetDataMany f ps => match through w f with
    | some o => if isVault w o = true then .on o (.setMany (target w f) ps) else .other
    | none => .other
  | .eraseRef o f => .on o (.eraseRow (target w f))
  | .eraseKV o k v => .on o (.eraseOne k v)
  | .eraseManyKV o k v n => .on o (.eraseMany k v n)
  | .getRecord o k v _ => .on o (.find k v)
  | .getRecords o k v _ => .on o (.find k v)
  | .dropData o => .on o .dropData
  | .dropVault o => .on o .dropVault
  | .vaultCopyNew a => .copyNew w.nextO a
  | .vaultAssign o a => .assign o a
  | .vaultMoveNew a => .moveNew w.nextO a
  | .vaultMoveAssign o a => .moveAssign o a
  | _ => .other

/-! ### Frames -/

theorem keyDefault_eq {w : World K V Ty} {o : Nat} {vo : Obj K V Ty} (h : w.getObj o = some vo) (k : K) :
    keyDefault w o k = (mget vo.cols k).map (·.dflt) := by simp [keyDefault, h]

theorem Kept.table {w w' : World K V Ty} {o : Nat} (h : Kept w w' o) : asTable w' o = asTable w o := by
  have s := h.same
  obtain ⟨vo, vo', h1, h2, h3, h4⟩ := h.obj
  apply Table.ext
  · exact s.keys
  · funext k; simp only [asTable, s.uniq]
  · funext k; exact s.types k
  · funext k; exact s.defaults k
  · funext k; simp only [asTable, s.uniq, keyDefault_eq h1, keyDefault_eq h3]; rw [h4]
  · funext r; simp only [asTable, s.members]
  · funext r k
    simp only [asTable, s.members]
    split
    · exact s.values r ‹_› k
    · rfl
  · funext b k r; exact propext (h.listed b k r)

theorem dbOf_vault {w : World K V Ty} {o : Nat} (h : isVault w o = true) : dbOf w o = some (asTable w o) := by simp [dbOf, h]

theorem dbOf_none {w : World K V Ty} {o : Nat} (h : isVault w o = false) : dbOf w o = none := by simp [dbOf, h]

theorem dbOf_row {w : World K V Ty} {r : Nat} : (dbOf w).fresh r ↔ ∀ o, isVault w o = true → r ∉ members w o := by
  constructor
  · intro h o ho hr; exact h o _ (dbOf_vault ho) hr
  · intro h o t ht hr
    unfold dbOf at ht
    split at ht
    · cases ht; exact h o ‹_› hr
    · cases ht

/-- Everything but the vaults `l` is as before. -/
theorem db_rest {env : Env} {w w' : World K V Ty} {op : Op K V Ty} (hi : Inv own home w) (hai : AI w) (hg : Ordinary home w op)
    (h : step env w op = some w') {o : Nat} (h1 : o ∉ touched w op) (h2 : o ∉ keyOps w op) : dbOf w' o = dbOf w o := by
  by_cases ho : isVault w o = true
  · have kp := step_kept hi hg h ho h1
    rw [dbOf_vault ho, dbOf_vault kp.vault, kp.table]
  · rw [dbOf_none (w := w) (o := o) (by simpa using ho)]
    apply dbOf_none
    cases ho' : isVault w' o with
    | false => rfl
    | true =>
      obtain ⟨vo, a, b⟩ := isVault_iff.mp ho'
      exact absurd (isVault_iff.mpr ((step_any hai h).before o vo a b h2)) ho

theorem db_one {env : Env} {w w' : World K V Ty} {op : Op K V Ty} (hi : Inv own home w) (hai : AI w) (hg : Ordinary home w op)
    (h : step env w op = some w') {o : Nat} (hn : ∀ o', o' ≠ o → o' ∉ touched w op ∧ o' ∉ keyOps w op) (ho : isVault w' o = true) :
    dbOf w' = (dbOf w).put o (some (asTable w' o)) := by
  funext o'
  unfold Db.put
  split
  · rename_i e; subst e; exact dbOf_vault ho
  · rename_i e; exact db_rest hi hai hg h (hn o' e).1 (hn o' e).2

/-- The event `on o c`. -/
theorem db_on {env : Env} {w w' : World K V Ty} {op : Op K V Ty} (hi : Inv own home w) (hai : AI w) (hg : Ordinary home w op)
    (h : step env w op = some w') {o : Nat} {c : Cmd K V Ty} {a : Answer K} (hn : ∀ o', o' ≠ o → o' ∉ touched w op ∧ o' ∉ keyOps w op)
    (ho : isVault w o = true) (ho' : isVault w' o = true) (hs : (asTable w o).Step (dbOf w).fresh c a (asTable w' o)) :
    (dbOf w).Step (.on o c) a (dbOf w') :=
  ⟨_, _, dbOf_vault ho, hs, db_one hi hai hg h hn ho'⟩

/-! ### What is found after a call -/

theorem listed_key {w : World K V Ty} {o : Nat} {vo : Obj K V Ty} (hi : Inv own home w) (ho : w.getObj o = some vo) (hs : vo.isSet = false)
    {b : Bool} {k : K} {r : Nat} (h : Listed b w o k r) : r ∈ members w o ∧ k ∈ getKeys w o := by
  refine ⟨by rw [members_eq ho]; exact listed_mem hi ho hs h, ?_⟩
  rw [getKeys_eq ho, (hi.v.vok o vo ho hs).keysM]
  cases hc : mget vo.cols k with
  | none => exact absurd h (listed_none ho hc)
  | some c => exact ⟨c, rfl⟩

theorem key_iff {w : World K V Ty} {o : Nat} {vo : Obj K V Ty} (hi : Inv own home w) (ho : w.getObj o = some vo) (hs : vo.isSet = false) (k : K) :
    k ∈ getKeys w o ↔ isKeyExist w o k = true := by
  have := noKey_col (k := k) hi ho hs
  rw [getKeys_eq ho, (hi.v.vok o vo ho hs).keysM]
  cases hk : isKeyExist w o k with
  | false => simp [this.mp hk]
  | true =>
    simp only [iff_true]
    exact Option.ne_none_iff_exists'.mp (isKey_col hi ho hs hk)

/-- What is found after a call, from what was found before. -/
theorem seen_after {env : Env} {w w' : World K V Ty} {op : Op K V Ty} {ans : Answer K} (hi : Inv own home w) (hai : AI w) (hg : Ordinary home w op)
    (h : outcome env w op = some (w', ans)) {o : Nat} (ho : isVault w o = true) (ho' : isVault w' o = true) (hm : ∀ a, op ≠ .vaultMoveNew a)
    (hm' : ∀ a b, op ≠ .vaultMoveAssign a b) (hne : ∀ f ps, op ≠ .refSetDataMany f ps) (b : Bool) (k : K) (r : Nat) :
    Listed b w' o k r ↔ r ∈ members w' o ∧ k ∈ getKeys w' o ∧ ((r ∉ members w o ∨ k ∉ getKeys w o) ∨ written w o k op ans = some r ∨
      (Listed b w o k r ∧ ¬ Struck b w w' o k (written w o k op ans) r)) := by
  have hstep : step env w op = some w' := by rw [← outcome_step, h]; rfl
  obtain ⟨own', hi'⟩ := step_inv hi hg hstep
  obtain ⟨vo, hvo, hs⟩ := isVault_iff.mp ho
  obtain ⟨vo', hvo', hs'⟩ := isVault_iff.mp ho'
  by_cases hr' : r ∈ members w' o
  swap
  · exact ⟨fun x => absurd (listed_key hi' hvo' hs' x).1 hr', fun x => absurd x.1 hr'⟩
  by_cases hk' : k ∈ getKeys w' o
  swap
  · exact ⟨fun x => absurd (listed_key hi' hvo' hs' x).2 hk', fun x => absurd x.2.1 hk'⟩
  have hk1 := (key_iff hi' hvo' hs' k).mp hk'
  by_cases hr : r ∈ members w o
  swap
  · exact ⟨fun _ => ⟨hr', hk', .inl (.inl hr)⟩, fun _ => step_listed_new hi hg hai hstep hm hm' hne ho' hr' hk1 (.inr (.inl hr)) b⟩
  by_cases hk : k ∈ getKeys w o
  swap
  · refine ⟨fun _ => ⟨hr', hk', .inl (.inr hk)⟩, fun _ => step_listed_new hi hg hai hstep hm hm' hne ho' hr' hk1 (.inr (.inr ?_)) b⟩
    cases e : isKeyExist w o k with
    | false => rfl
    | true => exact absurd ((key_iff hi hvo hs k).mpr e) hk
  rw [step_listed hi hg h ho hne hr hr' ((key_iff hi hvo hs k).mp hk) hk1 b]
  simp [hr, hr', hk, hk']

/-- A call that erases no record and writes none with `SetData`. -/
theorem seen_quiet {env : Env} {w w' : World K V Ty} {op : Op K V Ty} {ans : Answer K} (hi : Inv own home w) (hai : AI w) (hg : Ordinary home w op)
    (h : outcome env w op = some (w', ans)) {o : Nat} (ho : isVault w o = true) (ho' : isVault w' o = true) (hm : ∀ a, op ≠ .vaultMoveNew a)
    (hm' : ∀ a b, op ≠ .vaultMoveAssign a b) (hne : ∀ f ps, op ≠ .refSetDataMany f ps) (hw : ∀ k, written w o k op ans = none)
    (hsub : ∀ r ∈ members w o, r ∈ members w' o) (b : Bool) (k : K) (r : Nat) :
    Listed b w' o k r ↔ r ∈ members w' o ∧ k ∈ getKeys w' o ∧ (r ∉ members w o ∨ k ∉ getKeys w o ∨ Listed b w o k r) := by
  rw [seen_after hi hai hg h ho ho' hm hm' hne, hw k]
  have : ¬ Struck b w w' o k none r := not_struck hsub
  simp only [this, not_false_eq_true, and_true, reduceCtorEq, false_or, or_assoc]

end MVault.W
