import Verif.PropsCopy
/-
C73: moving a vault hands over its keys and records.
-/
set_option linter.unusedSectionVars false
set_option linter.unusedSimpArgs false
namespace MVault.W
variable {K V Ty : Type} [LinearOrder K] [LinearOrder V] [Typed V Ty] [DecidableEq Ty]

/-! ### Specification -/

/-- Between `w` and `w'` the vault `a` handed everything to `b`: keys in order, unique keys, types, defaults, the records themselves
and the indexes over them (`indexOf`, with everything GetRecord, GetRecords and the requests search). `a` is left an empty vault without keys. No record changes or dies, every other vault and set keeps
everything, and every reference still refers to the record it referred to. -/
structure HandedOver (w w' : World K V Ty) (a b : Nat) : Prop where
  vault : isVault w' b = true
  keys : getKeys w' b = getKeys w a
  uniq : getUniqueKeys w' b = getUniqueKeys w a
  types : ∀ k, getKeyType w' b k = getKeyType w a k
  defaults : ∀ k, getDefault w' b k = getDefault w a k
  exist : ∀ k, isKeyExist w' b k = isKeyExist w a k
  members : members w' b = members w a
  index : ∀ k, indexOf w' b k = indexOf w a k
  values : ∀ r k, value w' r k = value w r k
  alive : ∀ r, alive w' r ↔ alive w r
  leftVault : isVault w' a = true
  leftKeys : getKeys w' a = [] ∧ getUniqueKeys w' a = [] ∧ ∀ k, isKeyExist w' a k = false ∧ getKeyType w' a k = none ∧ getDefault w' a k = none
  leftRecords : MVault.W.members w' a = [] ∧ ∀ k, indexOf w' a k = none
  others : ∀ o, o ≠ a → o ≠ b → w'.getObj o = w.getObj o
  refs : ∀ f, target w' f = target w f

theorem moveInto_handed {w w' : World K V Ty} {a b : Nat} {ao vo : Obj K V Ty} (hab : a ≠ b) (ha : w.getObj a = some ao) (has : ao.isSet = false)
    (hb : w.getObj b = some vo) (hbs : vo.isSet = false) (h : moveInto w b a = some w') : HandedOver w w' a b := by
  simp only [moveInto, ha, hb, Option.bind_eq_bind, Option.bind_some, Option.some.injEq] at h
  subst h
  have e1 : ((w.putObj b { vo with tmpl := ao.tmpl, cols := ao.cols, keysOrder := ao.keysOrder, uniq := ao.uniq, recs := ao.recs, sets := ao.sets }).putObj a
      { ao with tmpl := [], cols := [], keysOrder := [], uniq := [], recs := [], sets := [] }).getObj b =
      some { vo with tmpl := ao.tmpl, cols := ao.cols, keysOrder := ao.keysOrder, uniq := ao.uniq, recs := ao.recs, sets := ao.sets } := by
    rw [getObj_putObj, if_neg hab, getObj_putObj_self]
  have e2 := getObj_putObj_self (w.putObj b { vo with tmpl := ao.tmpl, cols := ao.cols, keysOrder := ao.keysOrder, uniq := ao.uniq, recs := ao.recs, sets := ao.sets }) a
      { ao with tmpl := [], cols := [], keysOrder := [], uniq := [], recs := [], sets := [] }
  constructor
  · exact isVault_iff.mpr ⟨_, e1, hbs⟩
  · rw [getKeys_eq e1, getKeys_eq ha]
  · rw [getUniqueKeys_eq e1, getUniqueKeys_eq ha]
  · intro k; rw [getKeyType_eq e1, getKeyType_eq ha]
  · intro k; rw [getDefault_eq e1, getDefault_eq ha]
  · intro k; simp only [isKeyExist, e1, ha]
  · rw [members_eq e1, members_eq ha]
  · intro k; simp only [indexOf, e1, ha, Option.bind_some]
  · intro r k; rfl
  · intro r; rfl
  · exact isVault_iff.mpr ⟨_, e2, has⟩
  · refine ⟨by rw [getKeys_eq e2], by rw [getUniqueKeys_eq e2], fun k => ⟨?_, ?_, ?_⟩⟩
    · simp only [isKeyExist, e2]; rfl
    · rw [getKeyType_eq e2]; rfl
    · rw [getDefault_eq e2]; rfl
  · refine ⟨by rw [members_eq e2], fun k => ?_⟩
    simp only [indexOf, e2, Option.bind_some]; rfl
  · intro o h1 h2
    rw [getObj_putObj, if_neg (Ne.symm h1), getObj_putObj, if_neg (Ne.symm h2)]
  · intro f; rfl

/-! ### C73 -/

/-- `Vault b(std::move(a))`, after any history: the new vault takes over everything `a` had. -/
theorem C73_move_construct {G : World K V Ty → Op K V Ty → Prop} {w w' : World K V Ty} (hw : Reach G w) {a : Nat} (ha : isVault w a = true)
    (h : vaultMoveNew w a = some w') : HandedOver w w' a w.nextO := by
  have hi := reach_ai hw
  obtain ⟨ao, hao, has⟩ := isVault_iff.mp ha
  have hne : a ≠ w.nextO := Nat.ne_of_lt (hi.objB a ao hao)
  have hao1 : (newVault w).getObj a = some ao := by
    unfold newVault World.getObj; simp only [mget_mput]; rw [if_neg (Ne.symm hne)]; exact hao
  have hd := moveInto_handed hne hao1 has (newVault_obj w) rfl h
  have hk : ∀ o, o ≠ w.nextO → (newVault w).getObj o = w.getObj o := by
    intro o ho; unfold newVault World.getObj; simp only [mget_mput]; rw [if_neg (Ne.symm ho)]
  constructor
  · exact hd.vault
  · rw [hd.keys, getKeys_eq hao1, getKeys_eq hao]
  · rw [hd.uniq, getUniqueKeys_eq hao1, getUniqueKeys_eq hao]
  · intro k; rw [hd.types, getKeyType_eq hao1, getKeyType_eq hao]
  · intro k; rw [hd.defaults, getDefault_eq hao1, getDefault_eq hao]
  · intro k; rw [hd.exist]; simp only [isKeyExist, hao1, hao]
  · rw [hd.members, members_eq hao1, members_eq hao]
  · intro k; rw [hd.index]; simp only [indexOf, hao1, hao]
  · intro r k; rw [hd.values]; rfl
  · intro r; rw [hd.alive]; rfl
  · exact hd.leftVault
  · exact hd.leftKeys
  · exact hd.leftRecords
  · intro o h1 h2; rw [hd.others o h1 h2, hk o h2]
  · intro f; rw [hd.refs]; rfl

/-- `b = std::move(a)`, after any history: `b` is dropped exactly as `DropVault` drops it, then takes over everything `a` had at that point;
moving a vault onto itself does nothing. -/
theorem C73_move_assign {G : World K V Ty → Op K V Ty → Prop} {env : Env} {w w' : World K V Ty} (hw : Reach G w) {a b : Nat}
    (ha : isVault w a = true) (hb : isVault w b = true) (h : vaultMoveAssign env w b a = some w') :
    (b = a → w' = w) ∧ (b ≠ a → ∃ w1, dropVault env w b = some w1 ∧ HandedOver w1 w' a b ∧
      getKeys w1 a = getKeys w a ∧ getUniqueKeys w1 a = getUniqueKeys w a ∧ ∀ k, getKeyType w1 a k = getKeyType w a k ∧ getDefault w1 a k = getDefault w a k) := by
  have hi := reach_ai hw
  unfold vaultMoveAssign at h
  refine ⟨fun e => ?_, fun e => ?_⟩
  · rw [if_pos e] at h; cases h; rfl
  · rw [if_neg e] at h
    simp only [Option.bind_eq_bind, Option.bind_eq_some_iff] at h
    obtain ⟨w1, h1, h2⟩ := h
    obtain ⟨ao, hao, has⟩ := isVault_iff.mp ha
    obtain ⟨vo, hvo, hvs⟩ := isVault_iff.mp hb
    have st := dropVault_st (t := [b]) hi (.inr (by simp)) h1
    obtain ⟨y, hy, hys, ks⟩ := st.live a ao hao
    have hys := hys.trans has
    have ks := ks has (by simpa using Ne.symm e)
    obtain ⟨e1, e2, e3, e4⟩ := ks.keys hy
    obtain ⟨z, hz, hzs, _⟩ := st.live b vo hvo
    have hzs := hzs.trans hvs
    exact ⟨w1, h1, moveInto_handed (Ne.symm e) hy hys hz hzs h2, by rw [e1, getKeys_eq hao], by rw [e2, getUniqueKeys_eq hao],
      fun k => ⟨by rw [e3, getKeyType_eq hao], by rw [e4, getDefault_eq hao]⟩⟩

/-- The same after ordinary use, against the state before the call: `b` takes over the records `a` had, with their values and indexes, they
stay valid, the records `b` had are no longer valid, and every reference still refers to what it referred to. -/
theorem C73_move_assign_ordinary {home : Nat → Nat} {env : Env} {w w' : World K V Ty} (hw : HReach Ordinary home w) {a b : Nat}
    (ha : isVault w a = true) (hb : isVault w b = true) (hab : b ≠ a) (h : vaultMoveAssign env w b a = some w') :
    members w' b = members w a ∧ (∀ k, indexOf w' b k = indexOf w a k) ∧ (∀ r ∈ members w a, alive w' r ∧ ∀ k, value w' r k = value w r k) ∧
      (∀ r ∈ members w b, ¬ alive w' r) ∧ members w' a = [] ∧ getKeys w' a = [] ∧ (∀ f, target w' f = target w f) ∧
      ∀ o, o ≠ a → o ≠ b → isVault w o = true → SameVault w w' o := by
  obtain ⟨own, hi⟩ := reach_inv hw
  obtain ⟨ao, hao, has⟩ := isVault_iff.mp ha
  obtain ⟨vo, hvo, hvs⟩ := isVault_iff.mp hb
  obtain ⟨w1, h1, hd, _⟩ := (C73_move_assign hw.any ha hb h).2 hab
  obtain ⟨i1, ho1, hO, hR, hD, _, hF, _, hnO, _⟩ := dropVault_spec hi hvo hvs h1
  obtain ⟨ao1, ha1, e1, e2⟩ := (hO a (Ne.symm hab)).to hao
  have e2 := e2 has
  have hdis : ∀ r ∈ ao.recs, r ∉ vo.recs := by
    intro r h1 h2
    exact hab ((hi.v.mem b vo hvo hvs r h2).1.symm.trans (hi.v.mem a ao hao has r h1).1)
  refine ⟨?_, ?_, ?_, ?_, hd.leftRecords.1, hd.leftKeys.1, ?_, ?_⟩
  · rw [hd.members, members_eq ha1, members_eq hao, e2]
  · intro k; rw [hd.index]; unfold indexOf; rw [ha1, hao, e2]; rfl
  · intro r hr
    rw [members_eq hao] at hr
    obtain ⟨_, x, hx, hxv⟩ := hi.v.mem a ao hao has r hr
    obtain ⟨y, hy, ev, _, edt⟩ := (hR r (hdis r hr)).to hx
    refine ⟨(hd.alive r).mpr ⟨y, hy, ev.trans hxv⟩, fun k => ?_⟩
    rw [hd.values]; simp only [value, hy, hx, Option.bind_some, edt hxv]
  · intro r hr hal
    rw [members_eq hvo] at hr
    obtain ⟨y, hy, hyv⟩ := (hd.alive r).mp hal
    rw [hD r hr y hy] at hyv; cases hyv
  · intro f; rw [hd.refs]; simp only [target, hF]
  · intro o h2 h3 ho
    have k1 : Kept w w1 o := Out.kept (own := own) (o := b) ⟨hO, fun r hr => hR r (fun hm => hr (hi.v.mem b vo hvo hvs r hm).1)⟩ hi.v ho h3
    have k2 : Kept w1 w' o := by
      unfold vaultMoveAssign at h
      rw [if_neg hab] at h
      simp only [h1, Option.bind_eq_bind, Option.bind_some] at h
      exact moveInto_kept i1.v h k1.vault h3 h2
    exact (k1.trans k2).same

/-- A vault with a record and a unique key, and a second vault with a record of its own. -/
def moveW : DW := (anyRun [.newVault, .addKey 0 1 0, .addUniqueKey 0 2 false false (fun i _ _ => i), .newRef, .createRecord 0 0 [(1, 5), (2, 7)],
  .newVault, .addKey 1 3 100, .newRef, .createRecord 1 1 [(3, 105)]]).getD World.empty
theorem moveW_reach : Reach (fun _ _ => True) moveW := anyRun_reach (l := [.newVault, .addKey 0 1 0, .addUniqueKey 0 2 false false (fun i _ _ => i), .newRef,
  .createRecord 0 0 [(1, 5), (2, 7)], .newVault, .addKey 1 3 100, .newRef, .createRecord 1 1 [(3, 105)]]) rfl

example : ∃ w', isVault moveW 0 = true ∧ vaultMoveNew moveW 0 = some w' ∧ moveW.nextO = 2 ∧ getKeys w' 2 = [1, 2] ∧ getUniqueKeys w' 2 = [2] ∧
    members moveW 0 = [0] ∧ members w' 2 = [0] ∧ value w' 0 2 = some 7 ∧ members w' 0 = [] ∧ getKeys w' 0 = [] := ⟨_, rfl, rfl, rfl, rfl, rfl, rfl, rfl, rfl, rfl, rfl⟩
example : ∃ w', vaultMoveAssign Env.id moveW 1 0 = some w' ∧ isVault moveW 1 = true ∧ getKeys moveW 1 = [3] ∧ getKeys w' 1 = [1, 2] ∧
    members moveW 1 = [1] ∧ members w' 1 = [0] ∧ getKeys w' 0 = [] := ⟨_, rfl, rfl, rfl, rfl, rfl, rfl, rfl⟩

/-- Moving a vault nobody else uses is an ordinary operation: all that is proved of ordinary use holds afterwards. The history below fills a vault,
forgets the reference, moves the vault to a new one (object 1), finds the record there, and moves it again to an older vault. -/
def movedOps : List DO := [.newVault, .addKey 0 1 0, .addUniqueKey 0 2 false false (fun i _ _ => i), .newRef, .createRecord 0 0 [(1, 5), (2, 7)],
  .refReset 0, .vaultMoveNew 0, .getRecord 1 2 7 0, .refSetData 0 1 6]
def movedW : DW := (runB (fun _ => 9) World.empty (movedOps.map (Env.id, ·))).getD World.empty
theorem movedW_reach : HReach Ordinary (fun _ => 9) movedW := runB_reach (movedOps.map (Env.id, ·)) .init rfl
example : members movedW 1 = [0] ∧ members movedW 0 = [] ∧ refIsValid movedW 0 = some true ∧ through movedW 0 = some 1 ∧ value movedW 0 1 = some 6 ∧
    value movedW 0 2 = some 7 ∧ getKeys movedW 0 = [] := by decide
example : ∃ w', isVault movedW 1 = true ∧ isVault movedW 0 = true ∧ vaultMoveAssign Env.id movedW 0 1 = some w' ∧ members w' 0 = [0] ∧ members movedW 1 = [0] :=
  ⟨_, rfl, rfl, rfl, rfl, rfl⟩
end MVault.W
