import Verif.AskModel
import Verif.PropsText
import Verif.PropsKeys
import Verif.PropsMove
import Verif.PropsCareful
/-
C95: questions about keys and values agree with each other; `PrintRecord`.
-/
set_option linter.unusedSectionVars false
set_option linter.unusedSimpArgs false
namespace MVault.W
variable {K V Ty : Type} [LinearOrder K] [LinearOrder V] [Typed V Ty] [DecidableEq Ty]

/-! ### Keys -/

/-- A reference that works through a vault answers `IsKeyExist` as the vault does, whether or not its record still exists; `GetKeys` gives the keys of
the vault if the record exists, and no keys otherwise. A reference variable that was never set has no key. In any world. -/
theorem C95_reference_keys {w : World K V Ty} {f : Nat} :
    (∀ o, through w f = some o → isVault w o = true → (∀ k, refIsKeyExist w f k = some (isKeyExist w o k)) ∧
      (∀ b, refIsValid w f = some b → refGetKeys w f = some (if b = true then getKeys w o else []))) ∧
    (f < w.refs.length → through w f = none → target w f = none → (∀ k, refIsKeyExist w f k = some false) ∧ refGetKeys w f = some []) := by
  refine ⟨fun o ho hv => ?_, fun hf hn ht => ?_⟩
  rotate_left
  · obtain ⟨ref, hr⟩ := get_ref hf
    simp only [through, target, hr, Option.bind_some] at hn ht
    simp [refIsKeyExist, refGetKeys, hr, hn, ht]
  obtain ⟨vo, hvo, _⟩ := isVault_iff.mp hv
  simp only [through, Option.bind_eq_some_iff] at ho
  obtain ⟨ref, hf, ho⟩ := ho
  refine ⟨fun k => ?_, fun b hb => ?_⟩
  · simp only [refIsKeyExist, hf, Option.bind_eq_bind, Option.bind_some, ho, hvo, Option.map_some, isKeyExist_eq hvo]
  · simp only [refIsValid, hf, Option.bind_eq_bind, Option.bind_some] at hb
    simp only [refGetKeys, hf, Option.bind_eq_bind, Option.bind_some, ho, hvo]
    cases hp : ref.ptr with
    | none => rw [hp] at hb; cases hb; rfl
    | some r =>
      rw [hp] at hb
      dsimp only at hb ⊢
      cases hx : w.getRec r with
      | none => rw [hx] at hb; cases hb
      | some x =>
        rw [hx] at hb
        simp only [Option.map_some, Option.some.injEq] at hb
        subst hb
        simp only [Option.bind_some, Option.map_some, getKeys_eq hvo]
        split <;> rfl

/-- A set answers `IsKeyExist`, `GetKeys` and `GetUniqueKeys` as its vault does, and false or nothing without vault (and then no type, whatever its own tables hold). In any world. -/
theorem C95_set_keys {w : World K V Ty} {s : Nat} (hs : isSetObj w s = true) :
    (∀ p, parentOf w s = some p → isVault w p = true → (∀ k, setIsKeyExist w s k = some (isKeyExist w p k)) ∧ setGetKeys w s = some (getKeys w p) ∧
      setGetUniqueKeys w s = some (getUniqueKeys w p)) ∧
    (parentOf w s = none → (∀ k, setIsKeyExist w s k = some false) ∧ setGetKeys w s = some [] ∧ setGetUniqueKeys w s = some [] ∧ ∀ k, setGetKeyType w s k = some none) := by
  obtain ⟨so, hso, _⟩ := isSetObj_iff.mp hs
  rw [parentOf_eq hso]
  refine ⟨fun p hp hv => ?_, fun hp => ?_⟩
  · obtain ⟨vo, hvo, _⟩ := isVault_iff.mp hv
    simp only [setIsKeyExist, setGetKeys, setGetUniqueKeys, viaParent, hso, hp, hvo, Option.bind_eq_bind, Option.bind_some, Option.map_some,
      isKeyExist_eq hvo, getKeys_eq hvo, getUniqueKeys_eq hvo, implies_true, and_self]
  · simp only [setIsKeyExist, setGetKeys, setGetUniqueKeys, setGetKeyType, viaParent, hso, hp, Option.bind_eq_bind, Option.bind_some, implies_true, and_self]

/-- The type and the answer about the default value that a set gives for a key come from the set's own tables. In a careful history `GetKeyType` still
agrees with the vault, and `GetKeyValue` succeeds or fails with the same code as on the vault. -/
theorem C95_set_types {home : Nat → Nat} {w : World K V Ty} (hw : HReach Careful home w) {s p : Nat} (hs : isSetObj w s = true) (hp : parentOf w s = some p) (k : K) :
    setGetKeyType w s k = some (getKeyType w p k) ∧
    ∀ t, ∃ res a b, getKeyValue w s k t = some (res, a) ∧ getKeyValue w p k t = some (res, b) := by
  obtain ⟨own, hi, hd⟩ := reach_deep hw
  obtain ⟨so, hso, hss⟩ := isSetObj_iff.mp hs
  rw [parentOf_eq hso] at hp
  obtain ⟨po, hpo, hps, _⟩ := hi.l.up s so p hso hss hp
  have al := (hd.set s so hso hss).att p po hp hpo
  have hty := al.ty k
  refine ⟨?_, fun t => ?_⟩
  · simp only [setGetKeyType, hso, hp, hpo, Option.bind_eq_bind, Option.bind_some, getKeyType_eq hpo, hty]
  · simp only [getKeyValue, hso, hpo, Option.bind_eq_bind, Option.bind_some, hss, hps, hp, Bool.false_eq_true, false_and, if_false, reduceCtorEq, and_false, checkKey,
      al.uniq]
    cases h1 : mget so.cols k with
    | none =>
      rw [h1] at hty
      cases h2 : mget po.cols k with
      | none => exact ⟨_, _, _, rfl, rfl⟩
      | some c => rw [h2] at hty; cases hty
    | some c =>
      rw [h1] at hty
      cases h2 : mget po.cols k with
      | none => rw [h2] at hty; cases hty
      | some d =>
        rw [h2] at hty
        simp only [Option.map_some, Option.some.injEq] at hty
        simp only [hty]
        by_cases ht : d.ty = t
        · simp only [ht, if_true, ne_eq, not_true_eq_false, if_false]
          by_cases hu : k ∈ po.uniq
          · simp only [hu, if_true]; exact ⟨_, _, _, rfl, rfl⟩
          · simp only [hu, if_false]; exact ⟨_, _, _, rfl, rfl⟩
        · simp only [ht, ne_eq, not_false_eq_true, if_true, if_false]; exact ⟨_, _, _, rfl, rfl⟩

/-- The default values themselves can differ: `UpdateKey` of the vault (Vault.hpp lines 573-622) does not tell the sets, and the key copiers give new
sets the default with which the key was added. -/
theorem C95_set_default_refuted : ∃ w : DW, HReach Careful (fun _ => 0) w ∧ isSetObj w 1 = true ∧ parentOf w 1 = some 0 ∧
    getKeyValue w 0 1 false = some (.good (some 1), some 9) ∧ getKeyValue w 1 1 false = some (.good (some 1), some 5) :=
  ⟨_, carefulRun_reach (l := [.newVault, .newSet, .addKey 0 1 5, .updateKey 0 1 9, .ask 0 1 (.gt 0) none (fun _ => true) 1]) rfl, by decide, by decide, by decide, by decide⟩

example : isSetObj carefulW 3 = true ∧ parentOf carefulW 3 = some 0 ∧ isVault carefulW 0 = true ∧ setIsKeyExist carefulW 3 2 = some true ∧
    setGetKeys carefulW 3 = some [1, 2, 3] ∧ setGetUniqueKeys carefulW 3 = some [2] ∧ setGetKeyType carefulW 3 3 = some (some true) ∧
    through carefulW 1 = some 0 ∧ refIsKeyExist carefulW 1 3 = some true ∧ refGetKeys carefulW 1 = some [1, 2, 3] := by decide
/-- A reference to an erased record still says that the key exists. -/
example : through carefulW 2 = some 0 ∧ refIsValid carefulW 2 = some false ∧ refIsKeyExist carefulW 2 3 = some true ∧ refGetKeys carefulW 2 = some [] := by decide

/-! ### Values as texts -/

section Texts
variable [Texts V Ty]

/-- What `GetData` and `GetDataAsString` answer for key `k` of an object with the keys `keys`, for a reference to record `r` (specification). -/
def TextAgrees (w : World K V Ty) (keys : List K) (f r : Nat) (k : K) : Prop :=
  (k ∈ keys → ∃ v, value w r k = some v ∧ refGetData w f k (typeOf v) = some (.good (some k), some v) ∧
    refGetDataAsString w f k = some (.good (some k), some (toText v))) ∧
  (k ∉ keys → (∀ t, refGetData w f k t = some (.bad .WrongKey (some k), none)) ∧ refGetDataAsString w f k = some (.bad .WrongKey (some k), none))

/-- The reading functions on a reference to an existing record through an object that has its keys. -/
theorem text_agrees {w : World K V Ty} {f r o : Nat} {vo : Obj K V Ty} (hr : target w f = some r) (ho : through w f = some o) (hvo : w.getObj o = some vo)
    (hl : alive w r) (hk : ∀ k, k ∈ vo.keysOrder ↔ ∃ c, mget vo.cols k = some c) (hcol : ∀ k c, mget vo.cols k = some c → ∃ v, cellOf w r k = some v ∧ typeOf v = c.ty)
    (k : K) : TextAgrees w (getKeys w o) f r k := by
  simp only [target, Option.bind_eq_some_iff] at hr
  obtain ⟨ref, hf, hr⟩ := hr
  simp only [through, hf, Option.bind_some] at ho
  obtain ⟨x, hx, hval⟩ := hl
  rw [getKeys_eq hvo]
  constructor
  · intro hm
    obtain ⟨c, hc⟩ := (hk k).mp hm
    obtain ⟨v, hv, ht⟩ := hcol k c hc
    have hv' : mget x.data k = some v := by unfold cellOf at hv; rw [hx] at hv; exact hv
    refine ⟨v, by unfold value; rw [hx]; exact hv', ?_, ?_⟩
    · simp only [refGetData, hf, hr, ho, hvo, hx, hval, hc, hv', ht, Option.bind_eq_bind, Option.bind_some, Bool.true_eq_false, if_false, if_true, ne_eq, not_true_eq_false]
    · simp only [refGetDataAsString, hf, hr, ho, hvo, hx, hval, hc, hv', Option.bind_eq_bind, Option.bind_some, Bool.true_eq_false, if_false, Option.map_some]
  · intro hm
    have hc : mget vo.cols k = none := by
      cases h : mget vo.cols k with
      | none => rfl
      | some c => exact absurd ((hk k).mpr ⟨c, h⟩) hm
    constructor
    · intro t
      simp only [refGetData, hf, hr, ho, hvo, hx, hval, hc, Option.bind_eq_bind, Option.bind_some, Bool.true_eq_false, if_false]
    · simp only [refGetDataAsString, hf, hr, ho, hvo, hx, hval, hc, Option.bind_eq_bind, Option.bind_some, Bool.true_eq_false, if_false]

/-- After an ordinary history, for a reference to an existing record that works through a vault: `GetData` with the type of the value and `GetDataAsString`
both succeed exactly for the keys of the vault, and the text is the text of the value. -/
theorem C95_text {home : Nat → Nat} {w : World K V Ty} (hw : HReach Ordinary home w) {f r o : Nat} (hr : target w f = some r) (ho : through w f = some o)
    (hv : isVault w o = true) (hl : alive w r) (k : K) : TextAgrees w (getKeys w o) f r k := by
  obtain ⟨own, hi⟩ := reach_inv hw
  obtain ⟨vo, hvo, hs⟩ := isVault_iff.mp hv
  have ok := hi.v.vok o vo hvo hs
  refine text_agrees hr ho hvo hl ok.keysM (fun k c hc => ?_) k
  have hr' := hr; have ho' := ho
  simp only [target, Option.bind_eq_some_iff] at hr'
  obtain ⟨ref, hf, hrp⟩ := hr'
  simp only [through, hf, Option.bind_some] at ho'
  obtain ⟨x, hx, hval⟩ := hl
  have hown := hi.r.own ref (List.mem_of_getElem? hf) r o vo hrp ho' hvo
  rw [hs] at hown
  simp only [Bool.false_eq_true, if_false] at hown
  obtain ⟨vo', hvo', _, hmem⟩ := hi.v.val r x hx hval
  rw [hown, hvo] at hvo'; cases hvo'
  exact (ok.cols k c hc).typed r hmem

/-- A reference without existing record: both functions answer `DataRecordNotValid` and write nothing. In any world where they are defined. -/
theorem C95_text_invalid {w : World K V Ty} {f : Nat} (hv : refIsValid w f = some false) (k : K) :
    (∀ t a, refGetData w f k t = some a → a = (.bad .DataRecordNotValid (some k), none)) ∧
    (∀ a, refGetDataAsString w f k = some a → a = (.bad .DataRecordNotValid (some k), none)) := by
  simp only [refIsValid, Option.bind_eq_bind, Option.bind_eq_some_iff] at hv
  obtain ⟨ref, hf, hv⟩ := hv
  cases hp : ref.ptr with
  | none =>
    constructor
    · intro t a h; simp only [refGetData, hf, hp, Option.bind_eq_bind, Option.bind_some] at h; cases h; rfl
    · intro a h; simp only [refGetDataAsString, hf, hp, Option.bind_eq_bind, Option.bind_some] at h; cases h; rfl
  | some r =>
    rw [hp] at hv
    dsimp only at hv
    simp only [Option.map_eq_some_iff] at hv
    obtain ⟨x, hx, hv⟩ := hv
    constructor
    · intro t a h
      simp only [refGetData, hf, hp, Option.bind_eq_bind, Option.bind_some, Option.bind_eq_some_iff] at h
      obtain ⟨o, _, vo, _, y, hy, h⟩ := h
      rw [hx] at hy; cases hy
      rw [if_pos hv] at h; cases h; rfl
    · intro a h
      simp only [refGetDataAsString, hf, hp, Option.bind_eq_bind, Option.bind_some, Option.bind_eq_some_iff] at h
      obtain ⟨o, _, vo, _, y, hy, h⟩ := h
      rw [hx] at hy; cases hy
      rw [if_pos hv] at h; cases h; rfl

/-- The same for references that work through a set, in a careful history: a set with a vault answers with the keys of the vault, one without with no keys. -/
theorem C95_text_set {home : Nat → Nat} {w : World K V Ty} (hw : HReach Careful home w) {f r s : Nat} (hr : target w f = some r) (ho : through w f = some s)
    (hs : isSetObj w s = true) (hl : alive w r) (k : K) :
    TextAgrees w (match parentOf w s with | some p => getKeys w p | none => []) f r k := by
  obtain ⟨own, hi, hd⟩ := reach_deep hw
  obtain ⟨so, hso, hss⟩ := isSetObj_iff.mp hs
  have sd := hd.set s so hso hss
  have hh := (hi.s.sets s so hso hss).par
  rw [parentOf_eq hso]
  have hr' := hr; have ho' := ho
  simp only [target, Option.bind_eq_some_iff] at hr'
  obtain ⟨ref, hf, hrp⟩ := hr'
  simp only [through, hf, Option.bind_some] at ho'
  obtain ⟨x, hx, hval⟩ := hl
  have hown := hi.r.own ref (List.mem_of_getElem? hf) r s so hrp ho' hso
  rw [hss] at hown
  simp only [if_true] at hown
  obtain ⟨vo, hvo, hvs, hmem⟩ := hi.v.val r x hx hval
  have ok := hi.v.vok _ vo hvo hvs
  cases hp : so.parent with
  | none =>
    obtain ⟨e1, e2, _⟩ := sd.det hp
    have := text_agrees hr ho hso ⟨x, hx, hval⟩ (fun k => by rw [e1, e2]; simp [mget]) (fun k c hc => by rw [e1] at hc; cases hc) k
    rw [getKeys_eq hso, e2] at this
    exact this
  | some p =>
    obtain ⟨po, hpo, hps, _⟩ := hi.l.up s so p hso hss hp
    have al := sd.att p po hp hpo
    rw [hown, ← hh p hp, hpo, Option.some.injEq] at hvo; subst hvo
    have hty : ∀ k, (∃ c, mget so.cols k = some c) ↔ ∃ c, mget po.cols k = some c := by
      intro k
      have := al.ty k
      cases h1 : mget so.cols k <;> cases h2 : mget po.cols k <;> simp_all
    have := text_agrees hr ho hso ⟨x, hx, hval⟩ (fun k => by rw [al.keys, ok.keysM, hty]) (fun k c hc => by
      have e := al.ty k
      obtain ⟨d, hd⟩ := (hty k).mp ⟨c, hc⟩
      rw [hc, hd] at e
      simp only [Option.map_some, Option.some.injEq] at e
      rw [e]
      exact (ok.cols k d hd).typed r hmem) k
    rw [getKeys_eq hso, al.keys, ← getKeys_eq hpo] at this
    exact this

end Texts

/-! ### Left maps -/

theorem lreach_reach {G : World K V Ty → Op K V Ty → Prop} {w : World K V Ty} {L : Left K} (h : LReach G w L) : Reach G w := by
  induction h with
  | init => exact .init
  | @step env w w' L op a _ hg ho ih =>
    refine .step _ _ env op ih hg ?_
    rw [← outcome_step, ho]; rfl

theorem LReach.mono {G H : World K V Ty → Op K V Ty → Prop} (hg : ∀ w op, G w op → H w op) {w : World K V Ty} {L : Left K} (h : LReach G w L) : LReach H w L := by
  induction h with
  | init => exact .init
  | step _ g ho ih => exact .step ih (hg _ _ g) ho

/-- Every history has its left names. -/
theorem reach_lreach {G : World K V Ty → Op K V Ty → Prop} {w : World K V Ty} (h : Reach G w) : ∃ L, LReach G w L := by
  induction h with
  | init => exact ⟨_, .init⟩
  | @step env w w' op _ hg ho ih =>
    obtain ⟨L, hl⟩ := ih
    rw [← outcome_step] at ho
    obtain ⟨⟨w1, a⟩, h1, h2⟩ := Option.map_eq_some_iff.mp ho
    cases h2
    exact ⟨_, .step hl hg h1⟩

/-- What is left belongs to vaults that have been made, and is no key of them. -/
structure LOk (w : World K V Ty) (L : Left K) : Prop where
  bound : ∀ o k, k ∈ L o → o < w.nextO
  nokey : ∀ o, isVault w o = true → ∀ k ∈ L o, k ∉ getKeys w o

theorem LOk.fresh {w : World K V Ty} {L : Left K} (h : LOk w L) {o : Nat} (ho : w.nextO ≤ o) : L o = [] := by
  cases hl : L o with
  | nil => rfl
  | cons k l => exact absurd (h.bound o k (by rw [hl]; simp)) (Nat.not_lt.mpr ho)

theorem getKeys_dead {w : World K V Ty} {o : Nat} (h : w.getObj o = none) : getKeys w o = [] := by unfold getKeys; rw [h]

/-- An operation and what becomes of the left names: unchanged for the vaults whose keys it cannot change; for the others the new names come from the old
ones of a vault with the same keys, or are refused keys. -/
theorem LOk.step {env : Env} {w w' : World K V Ty} {L : Left K} {op : Op K V Ty} {a : Answer K} {G : World K V Ty → Op K V Ty → Prop} (hw : Reach G w) (hl : LOk w L)
    (h : outcome env w op = some (w', a)) : LOk w' (leftAfter w L op a) := by
  have hs : W.step env w op = some w' := by rw [← outcome_step, h]; rfl
  have hi := reach_ai hw
  have st := step_any hi hs
  -- the vaults an operation does not touch
  have rest : ∀ o, isVault w' o = true → o ∉ keyOps w op → ∀ k ∈ L o, k ∉ getKeys w' o := by
    intro o ho hn k hk
    obtain ⟨vo, hvo, hvs⟩ := isVault_iff.mp ho
    obtain ⟨y, hy, hys⟩ := st.before o vo hvo hvs hn
    have hv := isVault_iff.mpr ⟨y, hy, hys⟩
    rw [(C12_only_key_operations hw hs hv hn).2.1]
    exact hl.nokey o hv k hk
  have plain : (∀ o ∈ keyOps w op, isVault w' o = true → ∀ k ∈ L o, k ∉ getKeys w' o) → LOk w' L := fun hk =>
    ⟨fun o k hm => Nat.lt_of_lt_of_le (hl.bound o k hm) st.nO, fun o ho => if hm : o ∈ keyOps w op then hk o hm ho else rest o ho hm⟩
  have one : ∀ {o : Nat} {l : List K}, keyOps w op = [o] → o < w.nextO → (∀ k ∈ l, k ∉ getKeys w' o) → LOk w' (L.put o l) := by
    intro o l hko hb hk
    constructor
    · intro o' k hm
      unfold Left.put at hm
      split at hm
      · next e => rw [e]; exact Nat.lt_of_lt_of_le hb st.nO
      · exact Nat.lt_of_lt_of_le (hl.bound o' k hm) st.nO
    · intro o' ho' k hm
      unfold Left.put at hm
      split at hm
      · next e => rw [e]; exact hk k hm
      · next e => exact rest o' ho' (by rw [hko]; simp [e]) k hm
  cases op with
  | newVault =>
    refine plain fun o hm _ k hk => ?_
    simp only [keyOps, List.mem_singleton] at hm
    rw [hm, hl.fresh (Nat.le_refl _)] at hk; cases hk
  | vaultCopyNew b =>
    refine plain fun o hm _ k hk => ?_
    simp only [keyOps, List.mem_singleton] at hm
    rw [hm, hl.fresh (Nat.le_refl _)] at hk; cases hk
  | destroyVault o =>
    refine plain fun o' hm ho' k hk => ?_
    simp only [keyOps, List.mem_singleton] at hm
    subst hm
    obtain ⟨_, h1⟩ := onVault_some hs
    simp only [destroyVault, Option.bind_eq_bind, Option.bind_eq_some_iff] at h1
    obtain ⟨w1, _, h1⟩ := h1
    cases h1
    rw [getKeys_dead]
    · simp
    · unfold World.getObj; rw [mget_mdel]; simp
  | addKey o k d =>
    simp only [outcome] at h
    obtain ⟨ho, h1⟩ := onVault_some h
    obtain ⟨⟨w1, res⟩, h2, h3⟩ := Option.map_eq_some_iff.mp h1
    cases h3
    obtain ⟨c1, c2⟩ := C12_addKey hw (isVault_iff.mpr ho) h2
    obtain ⟨vo, hvo, _⟩ := ho
    simp only [leftAfter]
    by_cases hk : k ∈ getKeys w o
    · obtain ⟨rfl, rfl⟩ := c2 hk
      simp only [Res.bad, Bool.false_eq_true, if_false]
      exact hl
    · obtain ⟨rfl, e, _⟩ := c1 hk
      simp only [Res.good, if_true]
      refine one rfl (hi.objB o vo hvo) fun k' hk' => ?_
      obtain ⟨m1, m2⟩ := List.mem_filter.mp hk'
      rw [e]
      simp only [ne_eq, decide_not, Bool.not_eq_eq_eq_not, Bool.not_true, decide_eq_false_iff_not] at m2
      simp only [List.mem_append, List.mem_singleton, m2, or_false]
      exact hl.nokey o (isVault_iff.mpr ⟨vo, hvo, by assumption⟩) k' m1
  | addUniqueKey o k t noFn f =>
    simp only [outcome] at h
    obtain ⟨ho, h1⟩ := onVault_some h
    obtain ⟨⟨w1, res⟩, h2, h3⟩ := Option.map_eq_some_iff.mp h1
    cases h3
    have hv := isVault_iff.mpr ho
    obtain ⟨c1, c2⟩ := C12_addUniqueKey hw hv h2
    obtain ⟨vo, hvo, hvs⟩ := ho
    simp only [leftAfter]
    by_cases hok : res.ok = true
    · obtain ⟨rfl, e, _⟩ := c1 hok
      simp only [Res.good, reduceCtorEq, if_false, true_or, if_true]
      refine one rfl (hi.objB o vo hvo) fun k' hk' => ?_
      obtain ⟨m1, m2⟩ := List.mem_filter.mp hk'
      rw [e]
      simp only [ne_eq, decide_not, Bool.not_eq_eq_eq_not, Bool.not_true, decide_eq_false_iff_not] at m2
      simp only [List.mem_append, List.mem_singleton, m2, or_false]
      exact hl.nokey o hv k' m1
    · have hw1 := c2 (by simpa using hok)
      subst hw1
      split
      · next hc =>
        have hkn : k ∉ getKeys w1 o := by
          intro hm
          rw [getKeys_eq hvo] at hm
          have hm := (((hi.obj o vo hvo).vault hvs).2.2.mem k).mp hm
          obtain ⟨c, hcc⟩ := hm
          simp only [addUniqueKey, addUniqueLocal, hvo, Option.bind_eq_bind, Option.bind_some, mhas, hcc, Option.isSome_some, if_true, Res.bad] at h2
          cases h2
          cases hc
        refine one rfl (hi.objB o vo hvo) fun k' hk' => ?_
        split at hk'
        · exact hl.nokey o hv k' hk'
        · rcases List.mem_cons.mp hk' with rfl | hk'
          · exact hkn
          · exact hl.nokey o hv k' hk'
      · split
        · exact one rfl (hi.objB o vo hvo) fun k' hk' => hl.nokey o hv k' (List.mem_filter.mp hk').1
        · exact hl
  | updateKey o k d =>
    refine plain fun o' hm ho' k' hk' => ?_
    simp only [keyOps, List.mem_singleton] at hm
    subst hm
    simp only [outcome] at h
    obtain ⟨⟨vo, hvo, hvs⟩, h1⟩ := onVault_some h
    obtain ⟨⟨w1, res⟩, h2, h3⟩ := Option.map_eq_some_iff.mp h1
    cases h3
    have e : getKeys w1 o' = getKeys w o' := by
      simp only [updateKey, hvo, Option.bind_eq_bind, Option.bind_some] at h2
      split at h2
      · cases h2; rfl
      · split at h2
        · cases h2; rfl
        · cases h2; rw [getKeys_eq (getObj_putObj_self _ _ _), getKeys_eq hvo]
    rw [e]
    exact hl.nokey o' (isVault_iff.mpr ⟨vo, hvo, hvs⟩) k' hk'
  | removeKey o k =>
    refine plain fun o' hm ho' k' hk' => ?_
    simp only [keyOps, List.mem_singleton] at hm
    subst hm
    simp only [outcome] at h
    obtain ⟨ho, h1⟩ := onVault_some h
    obtain ⟨⟨w1, b⟩, h2, h3⟩ := Option.map_eq_some_iff.mp h1
    cases h3
    have hv := isVault_iff.mpr ho
    obtain ⟨c1, c2⟩ := C12_removeKey hw hv h2
    by_cases hk : k ∈ getKeys w o'
    · rw [(c1 hk).2.1]
      exact fun hm => hl.nokey o' hv k' hk' (List.mem_of_mem_erase hm)
    · rw [(c2 hk).2]; exact hl.nokey o' hv k' hk'
  | dropVault o =>
    obtain ⟨⟨vo, hvo, _⟩, _⟩ := onVault_some hs
    exact one rfl (hi.objB o vo hvo) (by simp)
  | vaultAssign o b =>
    obtain ⟨⟨vo, hvo, hvs⟩, h1⟩ := onVault_some hs
    obtain ⟨_, h1⟩ := onVault_some h1
    simp only [leftAfter]
    split
    · next e =>
      unfold vaultAssign at h1
      rw [if_pos e] at h1; cases h1; exact hl
    · exact one rfl (hi.objB o vo hvo) (by simp)
  | vaultMoveNew b =>
    obtain ⟨ho, h1⟩ := onVault_some hs
    have hv := isVault_iff.mpr ho
    have hd := C73_move_construct hw hv h1
    obtain ⟨vo, hvo, _⟩ := ho
    have hb := hi.objB b vo hvo
    have hlt : w.nextO < w'.nextO := by
      obtain ⟨y, hy, _⟩ := isVault_iff.mp hd.vault
      exact st.ai.objB _ y hy
    simp only [leftAfter]
    constructor
    · intro o k hm
      unfold Left.put at hm
      split at hm
      · cases hm
      · split at hm
        · next e => rw [e]; exact hlt
        · exact Nat.lt_of_lt_of_le (hl.bound o k hm) st.nO
    · intro o ho k hm
      unfold Left.put at hm
      split at hm
      · cases hm
      · next e1 =>
        split at hm
        · next e => rw [e, hd.keys]; exact hl.nokey b hv k hm
        · next e2 => exact rest o ho (by simp [keyOps, e1, e2]) k hm
  | vaultMoveAssign o b =>
    obtain ⟨ho, h1⟩ := onVault_some hs
    obtain ⟨hb, h1⟩ := onVault_some h1
    have hvb := isVault_iff.mpr hb
    obtain ⟨d1, d2⟩ := C73_move_assign hw hvb (isVault_iff.mpr ho) h1
    obtain ⟨vo, hvo, _⟩ := ho
    simp only [leftAfter]
    split
    · next e => rw [d1 e]; exact hl
    · next e =>
      obtain ⟨w1, _, hd, ek, _⟩ := d2 e
      constructor
      · intro o' k hm
        unfold Left.put at hm
        split at hm
        · cases hm
        · split at hm
          · next e => rw [e]; exact Nat.lt_of_lt_of_le (hi.objB o vo hvo) st.nO
          · exact Nat.lt_of_lt_of_le (hl.bound o' k hm) st.nO
      · intro o' ho' k hm
        unfold Left.put at hm
        split at hm
        · cases hm
        · next e1 =>
          split at hm
          · next e => rw [e, hd.keys, ek]; exact hl.nokey b hvb k hm
          · next e2 => exact rest o' ho' (by simp [keyOps, e1, e2]) k hm
  | _ => exact plain (by simp [keyOps])

/-- After any history: what is left in a vault is no key of it. -/
theorem lreach_ok {G : World K V Ty → Op K V Ty → Prop} {w : World K V Ty} {L : Left K} (h : LReach G w L) : LOk w L := by
  induction h with
  | init => exact ⟨by simp, by simp⟩
  | step hr _ ho ih => exact ih.step (lreach_reach hr) ho

/-- Histories in which no `AddUniqueKey` without function is refused because of records. -/
def NoLeft (w : World K V Ty) : Op K V Ty → Prop
  | .addUniqueKey o k _ noFn _ => noFn = true → k ∉ getKeys w o → members w o = []
  | _ => True

/-- Then nothing is ever left. -/
theorem C95_nothing_left {G : World K V Ty → Op K V Ty → Prop} {w : World K V Ty} {L : Left K} (h : LReach (fun w op => G w op ∧ NoLeft w op) w L) (o : Nat) : L o = [] := by
  suffices hL : L = fun _ => [] by rw [hL]
  induction h with
  | init => rfl
  | @step env w w' L op a hr hg ho ih =>
    subst ih
    have hp : ∀ o : Nat, Left.put (fun _ => ([] : List K)) o [] = fun _ => [] := by
      intro o; funext o'; unfold Left.put; split <;> rfl
    cases op with
    | addKey o k d =>
      cases a <;> simp only [leftAfter, List.filter_nil, hp, ite_self]
    | dropVault o => simp only [leftAfter, hp]
    | vaultAssign o b => simp only [leftAfter, hp, ite_self]
    | vaultMoveNew b => simp only [leftAfter, hp]
    | vaultMoveAssign o b => simp only [leftAfter, hp, ite_self]
    | addUniqueKey o k t noFn f =>
      simp only [outcome] at ho
      obtain ⟨⟨vo, hvo, hvs⟩, h1⟩ := onVault_some ho
      obtain ⟨⟨w1, res⟩, h2, h3⟩ := Option.map_eq_some_iff.mp h1
      cases h3
      have hc : res.code ≠ .TryToAddUniqueKeyInNonEmptyVaultWithoutLambda := by
        intro hc
        simp only [addUniqueKey, addUniqueLocal, hvo, Option.bind_eq_bind, Option.bind_some] at h2
        by_cases hk : mhas vo.cols k = true
        · rw [if_pos hk] at h2
          simp only [Option.bind_some, Res.bad, if_true] at h2
          cases h2; cases hc
        · rw [if_neg hk] at h2
          by_cases hn : noFn = true ∧ vo.recs ≠ []
          · have := hg.2 hn.1 (by
              rw [getKeys_eq hvo]
              intro hm
              obtain ⟨c, hcc⟩ := (((reach_ai (lreach_reach hr)).obj o vo hvo).vault hvs).2.2.mem k |>.mp hm
              exact hk (by simp [mhas, hcc]))
            rw [members_eq hvo] at this
            exact hn.2 this
          · rw [if_neg hn] at h2
            split at h2
            · simp only [Option.bind_some, Res.bad, if_true] at h2
              cases h2; cases hc
            · simp only [Option.bind_eq_some_iff] at h2
              obtain ⟨⟨w2, res2⟩, h4, h5⟩ := h2
              have h4' : res2 = .good (some k) := by
                split at h4
                · simp only [Option.bind_eq_some_iff] at h4; obtain ⟨_, _, h4⟩ := h4; cases h4; rfl
                · cases h4; rfl
              subst h4'
              simp only [Res.good, Bool.true_eq_false, if_false, Option.bind_eq_some_iff] at h5
              obtain ⟨w4, _, h5⟩ := h5
              cases h5; cases hc
      simp only [leftAfter, if_neg hc, List.filter_nil, hp, ite_self]
    | _ => rfl

/-- A refused `AddUniqueKey` without function leaves its name. -/
theorem C95_refused_leaves {env : Env} {w w' : World K V Ty} {o : Nat} {k : K} {t : Ty} {noFn : Bool} {f : Nat → Nat → Nat → V} {res : Res K} (L : Left K)
    (h : outcome env w (.addUniqueKey o k t noFn f) = some (w', .res res)) (hc : res.code = .TryToAddUniqueKeyInNonEmptyVaultWithoutLambda) :
    k ∈ leftAfter w L (.addUniqueKey o k t noFn f) (.res res) o := by
  simp only [leftAfter, if_pos hc, Left.put, if_true]
  split
  · assumption
  · simp

/-! ### PrintRecord -/

section Print
variable {V : Type} [LinearOrder V] [Typed V Ty] [Texts V Ty]

theorem mapM_none {α β : Type} {f : α → Option β} {a : α} (ha : f a = none) : ∀ {l : List α}, a ∈ l → l.mapM f = none
  | b :: l, h => by
    simp only [List.mapM_cons, Option.bind_eq_bind]
    rcases List.mem_cons.mp h with rfl | h
    · rw [ha]; rfl
    · rw [mapM_none ha h]
      cases f b <;> rfl

theorem mem_keys_mget {A B : Type} [DecidableEq A] {l : List (A × B)} {k : A} : k ∈ l.map (·.1) ↔ ∃ v, mget l k = some v := by
  induction l with
  | nil => simp [mget]
  | cons e l ih =>
    obtain ⟨a, b⟩ := e
    simp only [List.map_cons, List.mem_cons, mget]
    by_cases h : a = k
    · simp [h]
    · rw [if_neg h, ← ih]; simp [Ne.symm h]

/-- After an ordinary history, for a reference to an existing record that works through a vault: if no refused unique key is left, `PrintRecord` prints the head
line and then one line for each key of the vault, in some order, with the text of the value; if one is left, it ends the program. -/
theorem C95_print_record {home : Nat → Nat} {w : World Key V Ty} {L : Left Key} (hw : HReach Ordinary home w) (hleft : LReach (fun _ _ => True) w L) {f r o : Nat} (hr : target w f = some r)
    (ho : through w f = some o) (hv : isVault w o = true) (hl : alive w r) (addr : Nat → List Char) {order : List Key → List Key} (hord : ∀ l, (order l).Perm l) :
    (L o = [] → ∃ keys : List Key, keys.Perm (getKeys w o) ∧
      printRecord addr order w L f = some (("Vault record ".toList ++ addr r ++ ":".toList) :: keys.map fun k => "\t".toList ++ k.name ++ " = ".toList ++ textOf w r k)) ∧
    (L o ≠ [] → printRecord addr order w L f = none) := by
  obtain ⟨own, hi⟩ := reach_inv hw
  obtain ⟨vo, hvo, hs⟩ := isVault_iff.mp hv
  have ok := hi.v.vok o vo hvo hs
  simp only [target, Option.bind_eq_some_iff] at hr
  obtain ⟨ref, hf, hrp⟩ := hr
  simp only [through, hf, Option.bind_some] at ho
  obtain ⟨x, hx, hval⟩ := hl
  have hown := hi.r.own ref (List.mem_of_getElem? hf) r o vo hrp ho hvo
  rw [hs] at hown
  simp only [Bool.false_eq_true, if_false] at hown
  obtain ⟨vo', hvo', _, hmem⟩ := hi.v.val r x hx hval
  rw [hown, hvo] at hvo'; cases hvo'
  simp only [printRecord, hf, hrp, hx, hval, ho, hvo, if_true, Option.bind_eq_bind, Option.bind_some]
  refine ⟨fun hL => ?_, fun hL => ?_⟩
  · refine ⟨order (structureKeys L o vo), (hord _).trans ?_, ?_⟩
    · rw [getKeys_eq hvo, structureKeys, hs, hL]
      simp only [Bool.false_eq_true, if_false, List.append_nil]
      refine (List.perm_ext_iff_of_nodup (List.nodup_dedup _) ok.keysN).mpr fun k => ?_
      rw [List.mem_dedup, mem_keys_mget, ok.keysM]
    · rw [mapM_map (g := fun k => "\t".toList ++ k.name ++ " = ".toList ++ textOf w r k)]
      · rfl
      · intro k hk
        rw [(hord _).mem_iff, structureKeys, hs, hL] at hk
        simp only [Bool.false_eq_true, if_false, List.append_nil, List.mem_dedup, mem_keys_mget] at hk
        obtain ⟨c, hc⟩ := hk
        obtain ⟨v, hv1, _⟩ := (ok.cols k c hc).typed r hmem
        have hv' : mget x.data k = some v := by unfold cellOf at hv1; rw [hx] at hv1; exact hv1
        simp only [printLine, hv', Option.map_some, textOf_eq hx hv']
        rfl
  · obtain ⟨k, hk⟩ := List.exists_mem_of_ne_nil _ hL
    have hnk := (lreach_ok hleft).nokey o hv k hk
    rw [getKeys_eq hvo, ok.keysM] at hnk
    have hc : mget vo.cols k = none := by
      cases h : mget vo.cols k with
      | none => rfl
      | some c => exact absurd ⟨c, h⟩ hnk
    have hd : mget x.data k = none := by
      have := ok.nocol r hmem k hc
      unfold cellOf at this; rw [hx] at this; exact this
    rw [mapM_none (a := k)]
    · rfl
    · simp only [printLine, hd, Option.map_none]
    · rw [(hord _).mem_iff, structureKeys, hs]
      simp [hk]

/-- A reference without existing record prints one line. In any world. -/
theorem C95_print_record_invalid {w : World Key V Ty} {L : Left Key} {f : Nat} (hv : refIsValid w f = some false) (addr : Nat → List Char) (order : List Key → List Key) :
    printRecord addr order w L f = some ["VaultRecordRef not valid!".toList] := by
  simp only [refIsValid, Option.bind_eq_bind, Option.bind_eq_some_iff] at hv
  obtain ⟨ref, hf, hv⟩ := hv
  simp only [printRecord, hf, Option.bind_eq_bind, Option.bind_some]
  cases hp : ref.ptr with
  | none => rfl
  | some r =>
    rw [hp] at hv
    dsimp only at hv ⊢
    simp only [Option.map_eq_some_iff] at hv
    obtain ⟨x, hx, hv⟩ := hv
    simp only [hx, Option.bind_some, hv, Bool.false_eq_true, if_false]

end Print

/-! ### Examples and counterexamples -/

/-- Running operations with the left names. -/
def leftRun (w : World Key Val VTy) (L : Left Key) : List (Op Key Val VTy) → Option (World Key Val VTy × Left Key)
  | [] => some (w, L)
  | op :: l => if ordinaryB (fun _ => 0) w op = true then (outcome Env.id w op).bind fun x => leftRun x.1 (leftAfter w L op x.2) l else none

theorem leftRun_reach : ∀ (l : List (Op Key Val VTy)) {w w' : World Key Val VTy} {L L' : Left Key}, LReach (Ordinary (fun _ => 0)) w L → leftRun w L l = some (w', L') →
    LReach (Ordinary (fun _ => 0)) w' L'
  | [], w, w', L, L', hr, h => by cases h; exact hr
  | op :: l, w, w', L, L', hr, h => by
    unfold leftRun at h
    split at h
    · next hb =>
      obtain ⟨⟨w1, a⟩, h1, h2⟩ := Option.bind_eq_some_iff.mp h
      exact leftRun_reach l (.step hr (ordinaryB_sound hb) h1) h2
    · cases h

/-- A vault with a record; a reference to it. -/
def printOps : List (Op Key Val VTy) := jsonOps
/-- The refused call: a unique key without function for a vault with records. -/
def refusedOp : Op Key Val VTy := .addUniqueKey 0 (Key.of "id".toList) .str true (fun _ _ _ => .str [])

/-- Nothing is left after `printOps`: the record is printed. -/
example : ∃ (w : World Key Val VTy) (L : Left Key), HReach Ordinary (fun _ => 0) w ∧ LReach (fun _ _ => True) w L ∧ L 0 = [] ∧ target w 0 = some 0 ∧ through w 0 = some 0 ∧ isVault w 0 = true ∧
    printRecord (fun _ => "0x1".toList) id w L 0 = some ["Vault record 0x1:".toList, "\tflag = true".toList, "\tname = Ann, Bo".toList] :=
  ⟨_, _, (lreach_reach (leftRun_reach printOps .init rfl)).fixed, (leftRun_reach printOps .init rfl).mono fun _ _ _ => trivial, by decide, by decide, by decide, by decide, by decide⟩

/-- `AddUniqueKey` without function is refused for a vault with records, with a result that says so; nothing else tells the caller that anything has changed, but from
now on `PrintRecord` of every record of the vault ends the program. -/
theorem C95_print_record_refuted : ∃ (w : World Key Val VTy) (L : Left Key) (w' : World Key Val VTy) (L' : Left Key) (res : Res Key), LReach (Ordinary (fun _ => 0)) w L ∧ outcome Env.id w refusedOp = some (w', .res res) ∧ res.ok = false ∧ w' = w ∧
    L' = leftAfter w L refusedOp (.res res) ∧ refIsValid w' 0 = some true ∧ (printRecord (fun _ => []) id w L 0).isSome = true ∧ printRecord (fun _ => []) id w' L' 0 = none :=
  ⟨_, _, _, _, _, leftRun_reach printOps .init rfl, rfl, by decide, rfl, rfl, by decide, by decide, by decide⟩

/-- After a refused unique key for a vault with records and no keys, `Print` takes the first of no keys, which is undefined. Without the refused call it prints that there are no
keys. -/
theorem C95_print_refuted : ∃ (w : World Key Val VTy) (L : Left Key) (w' : World Key Val VTy) (L' : Left Key) (res : Res Key), LReach (Ordinary (fun _ => 0)) w L ∧ outcome Env.id w refusedOp = some (w', .res res) ∧ res.ok = false ∧ w' = w ∧
    L' = leftAfter w L refusedOp (.res res) ∧ vaultPrintLeft Env.id w L 0 (fun _ => []) 5 (Key.of []) false [] = some ["Vault does not contain keys!".toList] ∧
    vaultPrintLeft Env.id w' L' 0 (fun _ => []) 5 (Key.of []) false [] = none :=
  ⟨_, _, _, _, _, leftRun_reach [.newVault, .createRow 0 []] .init rfl, rfl, by decide, rfl, rfl, by decide, by decide⟩

/-- The hypotheses of `C95_text`, `C95_text_invalid` and `C95_print_record_invalid` are met. -/
example : target jsonW 0 = some 0 ∧ through jsonW 0 = some 0 ∧ refGetDataAsString jsonW 0 kFlag = some (.good (some kFlag), some "true".toList) ∧
    refGetDataAsString jsonW 0 (Key.of "x".toList) = some (.bad .WrongKey (some (Key.of "x".toList)), none) ∧ refIsValid staleW 1 = some false := by decide

/-- A set, and a reference that works through it. -/
def askOps : List (Op Key Val VTy) := jsonOps ++ [.newSet, .ask 0 kFlag (.eq (.bool true)) none (fun _ => true) 1, .getSorted 1 kFlag false none]
/-- The world after `askOps`. -/
def askW : World Key Val VTy := (runC (fun _ => 0) World.empty (askOps.map (Env.id, ·))).getD World.empty
theorem askW_reach : HReach Careful (fun _ => 0) askW := runC_reach (askOps.map (Env.id, ·)) .init rfl

/-- A reference variable that was never set: the second part of `C95_reference_keys`. -/
example : (0 : Nat) < (newRef (World.empty : World Key Val VTy)).refs.length ∧ through (newRef (World.empty : World Key Val VTy)) 0 = none ∧
    target (newRef (World.empty : World Key Val VTy)) 0 = none := by decide

/-- The hypotheses of `C95_text_set` are met. -/
example : target askW 1 = some 0 ∧ through askW 1 = some 1 ∧ isSetObj askW 1 = true ∧ parentOf askW 1 = some 0 ∧
    refGetDataAsString askW 1 kName = some (.good (some kName), some "Ann, Bo".toList) := by decide
example : TextAgrees askW [kFlag, kName] 1 0 kName := C95_text_set askW_reach (s := 1) (by decide) (by decide) (by decide) ⟨_, rfl, by decide⟩ kName

end MVault.W
