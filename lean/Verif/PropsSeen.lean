import Verif.WorldSeen
import Verif.PropsSort
import Verif.PropsErase
/-
C78: exactly which records a lookup finds, and how calls change that.
-/
set_option linter.unusedSectionVars false
set_option linter.unusedSimpArgs false
set_option linter.unusedVariables false
namespace MVault.W
variable {K V Ty : Type} [LinearOrder K] [LinearOrder V] [Typed V Ty] [DecidableEq Ty]
variable {own home : Nat → Nat}

theorem hit_iff {w : World K V Ty} {o : Nat} {k : K} {c : Cond V} {vo : Obj K V Ty} (hi : Inv own home w) (ho : w.getObj o = some vo) (hs : vo.isSet = false) (r : Nat) :
    Hit vo k c r ↔ Matches w o k c r ∧ Listed c.ordered w o k r := by
  have hcols := (hi.v.vok o vo ho hs).cols
  constructor
  · rintro ⟨col, v, hc, hm, hh⟩
    have hl : col.lists c.ordered r := by
      refine ⟨v, ?_⟩
      unfold Cond.index at hm
      exact hm
    have := (hcols k col hc).lists_val hl
    have hcell : cellOf w r k = some v := by
      unfold Cond.index at hm
      split at hm
      · exact ((hcols k col hc).ordS v r hm).2
      · exact ((hcols k col hc).hashS v r hm).2
    exact ⟨⟨by rw [members_eq ho]; exact this.1, (hi.v.mem o vo ho hs r this.1).2, v, hcell, hh⟩, (listed_iff ho hc).mpr hl⟩
  · rintro ⟨⟨hr, _, v, hv, hh⟩, hl⟩
    cases hc : mget vo.cols k with
    | none => exact absurd hl (listed_none ho hc)
    | some col =>
      rw [listed_iff ho hc, (hcols k col hc).lists_iff hv] at hl
      exact ⟨col, v, hc, hl, hh⟩

theorem scan_hit {env : Env} {w : World K V Ty} {o : Nat} {k : K} {c : Cond V} {vo : Obj K V Ty} {col : Col V Ty} {l : List Nat} (hi : Inv own home w)
    (ho : w.getObj o = some vo) (hs : vo.isSet = false) (hc : mget vo.cols k = some col) (hl : scan env col c = some l) (r : Nat) :
    r ∈ l ↔ Matches w o k c r ∧ Listed c.ordered w o k r := by
  rw [← hit_iff hi ho hs]
  obtain ⟨l0, h0, hp⟩ := scan_perm env col ((hi.v.vok o vo ho hs).cols k col hc).sorted c
  rw [hl] at h0; cases h0
  rw [hp.mem_iff, List.mem_map]
  constructor
  · rintro ⟨e, he, rfl⟩
    obtain ⟨he1, he2⟩ := List.mem_filter.mp he
    exact ⟨col, e.1, hc, he1, of_decide_eq_true he2⟩
  · rintro ⟨col', v, hc', hm, hh⟩
    rw [hc] at hc'; cases hc'
    exact ⟨(v, r), List.mem_filter.mpr ⟨hm, decide_eq_true hh⟩, rfl⟩

theorem equalRange_hit {env : Env} {w : World K V Ty} {o : Nat} {k : K} {v : V} {vo : Obj K V Ty} {col : Col V Ty} (hi : Inv own home w)
    (ho : w.getObj o = some vo) (hs : vo.isSet = false) (hc : mget vo.cols k = some col) (r : Nat) :
    r ∈ equalRange env col v ↔ Matches w o k (.eq v) r ∧ Listed false w o k r :=
  scan_hit hi ho hs hc (scan_eq env col v) r

/-! ### What lookups answer -/

/-- A request without limit gives exactly the listed records that satisfy condition and predicate: for equality the records
listed in the key's hash index, for the other conditions those listed in its ordered index. -/
theorem C78_request {home : Nat → Nat} {w w' : World K V Ty} (hw : HReach Ordinary home w) {env : Env} {o s : Nat} {k : K} {c : Cond V}
    {pred : Nat → Bool} {res : Res K} (ho : isVault w o = true) (hs : isSetObj w s = true) (hh : home s = o) (ht : c.typed c.ty)
    (hty : getKeyType w o k = some c.ty) (h : ask env w o k c none pred s = some (w', res)) :
    res = .good (some k) ∧ ∀ r, r ∈ members w' s ↔ Matches w o k c r ∧ pred r = true ∧ Listed c.ordered w o k r := by
  have hS := C17_request_partial hw ho hs hh ht h
  refine ⟨hS.2.2.1 hty, fun r => ?_⟩
  obtain ⟨own, hi⟩ := reach_inv hw
  obtain ⟨vo, hvo, hvs⟩ := isVault_iff.mp ho
  obtain ⟨so, hso, hss⟩ := isSetObj_iff.mp hs
  obtain ⟨_, _, ⟨_, hc⟩ | ⟨col, l, hc, _, _, hl, _, hm⟩⟩ := ask_vault hi hvo hvs hso hss hh.symm ht h
  · exact absurd hty (checkKey_answer hvo hc).1
  · rw [hm, List.mem_filter]
    show r ∈ l ∧ _ ↔ _
    rw [scan_hit hi hvo hvs hc hl]
    exact ⟨fun ⟨⟨a, b⟩, d⟩ => ⟨a, d, b⟩, fun ⟨a, b, d⟩ => ⟨⟨a, d⟩, b⟩⟩

/-- The records a request tree gives (specification): as `Req.sat`, with every leaf answered from the index of its kind. -/
def Req.seen (w : World K V Ty) (o : Nat) : Req K V → Nat → Prop
  | .leaf t k v pred, r => (∃ v', value w r k = some v' ∧ (leafCond t v).holds v') ∧ pred r = true ∧ Listed (leafCond t v).ordered w o k r
  | .and a b, r => a.seen w o r ∧ b.seen w o r
  | .or a b, r => a.seen w o r ∨ b.seen w o r

theorem found_seen {w : World K V Ty} {o : Nat} {vo : Obj K V Ty} (hi : Inv own home w) (hvo : w.getObj o = some vo) (hvs : vo.isSet = false) (q : Req K V) (r : Nat) :
    q.found vo r ↔ r ∈ vo.recs ∧ q.seen w o r := by
  induction q with
  | leaf t k v pred =>
    simp only [Req.found, Req.seen, hit_iff hi hvo hvs, Matches, members_eq hvo]
    constructor
    · rintro ⟨⟨⟨a, _, b⟩, d⟩, e⟩; exact ⟨a, b, e, d⟩
    · rintro ⟨a, b, e, d⟩; exact ⟨⟨⟨a, (hi.v.mem o vo hvo hvs r a).2, b⟩, d⟩, e⟩
  | and a b iha ihb =>
    simp only [Req.found, Req.seen, iha, ihb]
    exact ⟨fun ⟨⟨x, y⟩, ⟨_, z⟩⟩ => ⟨x, y, z⟩, fun ⟨x, y, z⟩ => ⟨⟨x, y⟩, ⟨x, z⟩⟩⟩
  | or a b iha ihb =>
    simp only [Req.found, Req.seen, iha, ihb, and_or_left]

/-- A successful `Request(tree)` gives exactly the records of the vault the tree holds for, every leaf looking only at listed
records. -/
theorem C78_requestTree {home : Nat → Nat} {w w' : World K V Ty} (hw : HReach Ordinary home w) {env : Env} {o s : Nat} {q : Req K V} {res : Res K}
    (ho : isVault w o = true) (hs : isSetObj w s = true) (hh : home s = o) (h : requestTree env w o q s = some (w', res)) (hok : res.ok = true) :
    ∀ r, r ∈ members w' s ↔ r ∈ members w o ∧ q.seen w o r := by
  obtain ⟨own, hi⟩ := reach_inv hw
  obtain ⟨vo, hvo, hvs⟩ := isVault_iff.mp ho
  obtain ⟨so, hso, hss⟩ := isSetObj_iff.mp hs
  have hv := hi.v.vok o vo hvo hvs
  obtain ⟨_, _, ⟨hm, he⟩ | ⟨l, hr, he, hm⟩⟩ := requestTree_vault hi hvo hvs hso hss hh.symm h
  · rw [evalReq_fail he] at hok; cases hok
  · rw [hm]
    obtain ⟨_, _, hf⟩ := (evalReq_ok (env := env) hv.cols q).2.1 l he
    intro r
    rw [hf, members_eq hvo]
    exact found_seen hi hvo hvs q r

/-- `GetRecord(key, value)` succeeds exactly when a record with the value is listed in the hash index, and gives such a record. -/
theorem C78_getRecord {home : Nat → Nat} {w w' : World K V Ty} (hw : HReach Ordinary home w) {env : Env} {o f : Nat} {k : K} {v : V} {res : Res K}
    (ho : isVault w o = true) (hf : f < w.refs.length) (hty : getKeyType w o k = some (typeOf v)) (h : getRecord env w o k v f = some (w', res)) :
    (res.ok = true ↔ ∃ r, Matches w o k (.eq v) r ∧ Listed false w o k r) ∧
    (res.ok = true → ∃ r, target w' f = some r ∧ Matches w o k (.eq v) r ∧ Listed false w o k r) := by
  obtain ⟨own, hi⟩ := reach_inv hw
  obtain ⟨vo, hvo, hvs⟩ := isVault_iff.mp ho
  rcases getRecord_spec hi hvo hvs h with ⟨rfl, hc⟩ | ⟨c, hc, hk, st, ⟨hr, he, _⟩ | ⟨r, l, he, hr, _, _, hrefs⟩⟩
  · exact absurd hty (checkKey_answer hvo hc).1
  · have : ¬ ∃ r, Matches w o k (.eq v) r ∧ Listed false w o k r := by
      rintro ⟨r, hM⟩
      rw [← equalRange_hit (env := env) hi hvo hvs hk, he] at hM; cases hM
    rw [hr]
    exact ⟨⟨(fun e => by cases e), fun e => absurd e this⟩, (fun e => by cases e)⟩
  · have hM := (equalRange_hit (env := env) hi hvo hvs hk r).mp (by rw [he]; simp)
    rw [hr]
    refine ⟨⟨fun _ => ⟨r, hM⟩, fun _ => rfl⟩, fun _ => ⟨r, ?_, hM⟩⟩
    simp [target, hrefs, hf]

/-- `GetRecords(key, value, n)` gives `n` of the listed records with the value (one when `n` is 0), or all of them when there are
fewer: no lookup finds a record with the value that is not listed. -/
theorem C78_getRecords {home : Nat → Nat} {w w' : World K V Ty} (hw : HReach Ordinary home w) {env : Env} {o n : Nat} {k : K} {v : V} {res : Res K}
    (ho : isVault w o = true) (hty : getKeyType w o k = some (typeOf v)) (h : getRecords env w o k v n = some (w', res)) :
    ∃ all out : List Nat, all.Nodup ∧ (∀ r, r ∈ all ↔ Matches w o k (.eq v) r ∧ Listed false w o k r) ∧ out <+: all ∧ out.length = min (max n 1) all.length ∧
      w'.refs = w.refs ++ out.map (fun r => ⟨some r, some o⟩) ∧ (res.ok = true ↔ all ≠ []) := by
  obtain ⟨own, hi⟩ := reach_inv hw
  obtain ⟨vo, hvo, hvs⟩ := isVault_iff.mp ho
  rcases getRecords_spec hi hvo hvs h with ⟨rfl, hc⟩ | ⟨c, hc, hk, h⟩
  · exact absurd hty (checkKey_answer hvo hc).1
  · refine ⟨equalRange env c v, (equalRange env c v).take (max n 1), (equalRange_vault (env := env) hi hvo hvs hk v).1, equalRange_hit hi hvo hvs hk, List.take_prefix _ _,
      List.length_take, ?_⟩
    rcases h with ⟨rfl, hr, he⟩ | ⟨hne, hr, _, hrefs⟩
    · rw [he, hr]; simp [Res.bad]
    · exact ⟨hrefs, by rw [hr]; simp [Res.good, hne]⟩

/-- `EraseRecords(key, value, n)` erases `n` of the listed records with the value, or all of them when there are fewer. -/
theorem C78_eraseRecords {home : Nat → Nat} {w w' : World K V Ty} (hw : HReach Ordinary home w) {env : Env} {o n : Nat} {k : K} {v : V} {res : Res K}
    (ho : isVault w o = true) (hty : getKeyType w o k = some (typeOf v)) (h : eraseManyKV env w o k v n = some (w', res)) :
    ∃ all out : List Nat, all.Nodup ∧ (∀ r, r ∈ all ↔ Matches w o k (.eq v) r ∧ Listed false w o k r) ∧ out <+: all ∧ out.length = min (max n 1) all.length ∧
      (∀ r, r ∈ members w' o ↔ r ∈ members w o ∧ r ∉ out) ∧ (res.ok = true ↔ all ≠ []) := by
  obtain ⟨own, hi⟩ := reach_inv hw
  obtain ⟨vo, hvo, hvs⟩ := isVault_iff.mp ho
  rcases eraseManyKV_vault hi hvo hvs h with ⟨rfl, hc⟩ | ⟨c, _, hk, h⟩
  · exact absurd hty (checkKey_answer hvo hc).1
  · refine ⟨equalRange env c v, (equalRange env c v).take (max n 1), (equalRange_vault (env := env) hi hvo hvs hk v).1, equalRange_hit hi hvo hvs hk, List.take_prefix _ _,
      List.length_take, ?_⟩
    rcases h with ⟨rfl, hr, he⟩ | ⟨hne, hr, _, er⟩
    · rw [he, hr]; simp [Res.bad]
    · obtain ⟨cols, hobj, _⟩ := er.obj
      refine ⟨fun r => ?_, by rw [hr]; simp [Res.good, hne]⟩
      rw [members_eq hobj, members_eq hvo, List.mem_filter]
      simp

/-- `GetSortedRecords(key)` gives exactly the records listed in the ordered index. -/
theorem C78_sorted {home : Nat → Nat} {w w' : World K V Ty} (hw : HReach Ordinary home w) {o : Nat} {k : K} {rev : Bool}
    (ho : isVault w o = true) (h : getSorted w o k rev none = some w') :
    ∃ l : List Nat, l.Nodup ∧ InOrder w k rev l ∧ (∀ r, r ∈ l ↔ Listed true w o k r) ∧ w'.refs = w.refs ++ l.map (fun r => ⟨some r, some o⟩) := by
  obtain ⟨l, ⟨vo, hvo, rfl⟩, h1, h2, _, h3⟩ := C38_getSorted_partial hw ho h
  refine ⟨_, h2, h1, fun r => ?_, h3⟩
  simp only [Listed, ordIndex, hvo, if_true, sortedIds]
  cases hc : mget vo.cols k with
  | none => simp
  | some c => cases rev <;> simp

/-! ### How calls change what is listed -/

/-- One call: a record that stays in the vault is listed afterwards exactly when `SetData` has just written it, or it was listed
and no listed record with the same value was written or (ordered index only) erased by the call. -/
theorem C78_step {home : Nat → Nat} {env : Env} {w w' : World K V Ty} {op : Op K V Ty} {ans : Answer K} (hw : HReach Ordinary home w) (hg : Ordinary home w op)
    (h : outcome env w op = some (w', ans)) {o : Nat} {k : K} (ho : isVault w o = true) (hne : ∀ f ps, op ≠ .refSetDataMany f ps) {r : Nat}
    (hr : r ∈ members w o) (hr' : r ∈ members w' o) (hk : isKeyExist w o k = true) (hk' : isKeyExist w' o k = true) (b : Bool) :
    Listed b w' o k r ↔ written w o k op ans = some r ∨ (Listed b w o k r ∧ ¬ Struck b w w' o k (written w o k op ans) r) := by
  obtain ⟨own, hi⟩ := reach_inv hw
  exact step_listed hi hg h ho hne hr hr' hk hk' b

/-- A record that is new in a vault is listed under every key, and a key that is new lists every record; copies of vaults
included. -/
theorem C78_new {home : Nat → Nat} {env : Env} {w w' : World K V Ty} {op : Op K V Ty} (hw : HReach Ordinary home w) (hg : Ordinary home w op)
    (h : step env w op = some w') {o : Nat} {k : K} (hm : ∀ a, op ≠ .vaultMoveNew a) (hm' : ∀ a b, op ≠ .vaultMoveAssign a b)
    (hne : ∀ f ps, op ≠ .refSetDataMany f ps) {r : Nat} (ho' : isVault w' o = true)
    (hr' : r ∈ members w' o) (hk' : isKeyExist w' o k = true)
    (hnew : isVault w o = false ∨ r ∉ members w o ∨ isKeyExist w o k = false) (b : Bool) : Listed b w' o k r := by
  obtain ⟨own, hi⟩ := reach_inv hw
  exact step_listed_new hi hg (reach_ai hw.any) h hm hm' hne ho' hr' hk' hnew b

/-- A moved vault keeps its listings in the new variable. -/
theorem C78_moved {home : Nat → Nat} {env : Env} {w w' : World K V Ty} {o a : Nat} (hw : HReach Ordinary home w) (b : Bool) (k : K) (r : Nat) :
    (step env w (.vaultMoveNew a) = some w' → o = w.nextO → (Listed b w' o k r ↔ Listed b w a k r)) ∧
    (o ≠ a → step env w (.vaultMoveAssign o a) = some w' → (Listed b w' o k r ↔ Listed b w a k r)) := by
  obtain ⟨own, hi⟩ := reach_inv hw
  constructor
  · rintro h rfl
    obtain ⟨⟨ao, ha, has⟩, h⟩ := onVault_some h
    have hlt := hi.v.ltO a ao ha
    rw [(moveInto_listed (by omega) h b k r).1]
    have : (newVault w).getObj a = some ao := by
      show mget (mput w.objs w.nextO Obj.newVault) a = some ao
      rw [mget_mput, if_neg (by omega)]; exact ha
    exact listed_same ha this rfl
  · intro hne h
    obtain ⟨⟨vo, hvo, hs⟩, h⟩ := onVault_some h
    obtain ⟨⟨ao, ha, has⟩, h⟩ := onVault_some h
    unfold vaultMoveAssign at h
    rw [if_neg hne] at h
    simp only [Option.bind_eq_bind, Option.bind_eq_some_iff] at h
    obtain ⟨w1, h1, h2⟩ := h
    rw [(moveInto_listed hne h2 b k r).1]
    obtain ⟨_, _, hO, _⟩ := dropVault_spec hi hvo hs h1
    obtain ⟨ao1, ha1, e1, e2⟩ := (hO a (Ne.symm hne)).to ha
    exact listed_same ha ha1 (by rw [e2 has])

theorem loop_run {env : Env} {f : Nat} : ∀ {ps : List (K × V)} {w w' : World K V Ty} {res0 res : Res K}, refSetDataLoop env f ps w res0 = some (w', res) →
    ∃ n ≤ ps.length, run w ((ps.take n).map fun p => (env, .refSetData f p.1 p.2)) = some w' ∧ (res.ok = true → n = ps.length ∨ ps = []) := by
  intro ps
  induction ps with
  | nil => intro w w' res0 res h; simp only [refSetDataLoop, Option.some.injEq, Prod.mk.injEq] at h; exact ⟨0, le_rfl, by rw [h.1]; rfl, fun _ => .inr rfl⟩
  | cons p l ih =>
    intro w w' res0 res h
    obtain ⟨k, v⟩ := p
    simp only [refSetDataLoop, Option.bind_eq_bind, Option.bind_eq_some_iff, Prod.exists] at h
    obtain ⟨w1, res1, h1, h⟩ := h
    split at h
    · rename_i hf
      cases h
      refine ⟨1, by simp, ?_, fun e => by rw [hf] at e; cases e⟩
      simp [run, step, h1]
    · obtain ⟨n, hn, hr, hl⟩ := ih h
      refine ⟨n + 1, by simpa using hn, ?_, fun e => ?_⟩
      · simp only [List.take_succ_cons, List.map_cons, run, step, h1, Option.map_some, Option.bind_some]; exact hr
      · rcases hl e with e | e
        · exact .inl (by simp [e])
        · subst e
          have : n = 0 := by simpa using hn
          exact .inl (by simp [this])

/-- `SetData` with a list of pairs has the effect of one `SetData` after the other: of all pairs when it succeeds, of a first
part of them when it fails. -/
theorem C78_set_many {env : Env} {w w' : World K V Ty} {f : Nat} {ps : List (K × V)} {res : Res K} (h : refSetDataMany env w f ps = some (w', res)) :
    ∃ n ≤ ps.length, run w ((ps.take n).map fun p => (env, .refSetData f p.1 p.2)) = some w' ∧ (res.ok = true → n = ps.length) := by
  simp only [refSetDataMany, Option.bind_eq_bind, Option.bind_eq_some_iff] at h
  obtain ⟨ref, hfr, o', ho', oo, hoo, h⟩ := h
  obtain ⟨n, hn, hr, hl⟩ := loop_run h
  refine ⟨n, hn, hr, fun e => ?_⟩
  rcases hl e with e | e
  · exact e
  · subst e; simpa using hn

/-! ### Concrete histories -/

/-- A vault with a set; three records with the value 5 under key 1, the first of which is then given the value 8. -/
def seenOps : List (Op Nat Nat Bool) :=
  [.newVault, .newSet, .addKey 0 1 5, .newRef, .newRef, .newRef, .createRecord 0 0 [], .createRecord 0 1 [], .createRecord 0 2 [], .refSetData 0 1 8]

/-- The world after `seenOps`. -/
def seenW : DW := ((demo seenOps).getD World.empty)

theorem seenW_reach : HReach Ordinary (fun _ => 0) seenW := demo_reach (l := seenOps) rfl

instance (b : Bool) (w : DW) (o k r : Nat) : Decidable (Listed b w o k r) := by
  refine decidable_of_iff (∃ e ∈ (if b = true then ordIndex w o k else hashIndex w o k), e.2 = r) ?_
  constructor
  · rintro ⟨⟨v, r'⟩, h, rfl⟩; exact ⟨v, h⟩
  · rintro ⟨v, h⟩; exact ⟨(v, r), h, rfl⟩

/-- The changed record is listed; the two others, which still have the value 5, are not, and a request for 5 gives nothing. -/
example : Listed false seenW 0 1 0 ∧ Listed true seenW 0 1 0 ∧ ¬ Listed false seenW 0 1 1 ∧ ¬ Listed true seenW 0 1 2 ∧
    value seenW 1 1 = some 5 ∧ ∃ w', ask Env.id seenW 0 1 (.eq 5) none (fun _ => true) 1 = some (w', .good (some 1)) ∧ members w' 1 = [] := by
  refine ⟨by decide, by decide, by decide, by decide, by decide, _, rfl, by decide⟩

/-- Writing record 1 again lists it again, and leaves record 2 unlisted; the hypotheses of `C78_step` hold. -/
example : ∃ w', outcome Env.id seenW (.refSetData 1 1 5) = some (w', .res (.good (some 1))) ∧ written seenW 0 1 (.refSetData 1 1 5) (.res (.good (some 1))) = some 1 ∧
    1 ∈ members seenW 0 ∧ 1 ∈ members w' 0 ∧ isKeyExist seenW 0 1 = true ∧ isKeyExist w' 0 1 = true ∧ Listed false w' 0 1 1 ∧ Listed true w' 0 1 1 ∧ ¬ Listed true w' 0 1 2 :=
  ⟨_, rfl, by decide, by decide, by decide, by decide, by decide, by decide, by decide, by decide⟩

/-- Erasing one of three records with the same value strikes the two others from the ordered index only. -/
example : ∃ w w' : DW, demo (seenOps.take 9) = some w ∧ HReach Ordinary (fun _ => 0) w ∧ outcome Env.id w (.eraseRef 0 0) = some (w', .flag true) ∧
    Listed true w 0 1 1 ∧ ¬ Listed true w' 0 1 1 ∧ Listed false w' 0 1 1 ∧ members w' 0 = [1, 2] ∧
    ∃ w2, eraseManyKV Env.id w' 0 1 5 7 = some (w2, .good (some 1)) ∧ members w2 0 = [] :=
  ⟨_, _, rfl, demo_reach (l := seenOps.take 9) rfl, rfl, by decide, by decide, by decide, by decide, _, rfl, by decide⟩

/-- A new record with the value 5 is listed although the older ones are not. -/
example : ∃ w', step Env.id seenW (.createRecord 0 2 []) = some w' ∧ 3 ∈ members w' 0 ∧ 3 ∉ members seenW 0 ∧ Listed true w' 0 1 3 ∧ ¬ Listed true w' 0 1 2 :=
  ⟨_, rfl, by decide, by decide, by decide, by decide⟩

/-- A copy of the vault lists all of its records. -/
example : ∃ w', step Env.id seenW (.vaultCopyNew 0) = some w' ∧ Ordinary (fun _ => 0) seenW (.vaultCopyNew 0) ∧ members w' 2 = [3, 4, 5] ∧
    Listed true w' 2 1 4 ∧ value w' 4 1 = some 5 :=
  ⟨_, rfl, (fun ao h => by cases h; rfl), by decide, by decide, by decide⟩

/-- A list of pairs stops at the first failure: the pair before it has been written. -/
example : ∃ w' : DW, refSetDataMany Env.id seenW 1 [(1, 7), (9, 7), (1, 6)] = some (w', .bad .WrongKey (some 9)) ∧ value w' 1 1 = some 7 := ⟨_, rfl, by decide⟩

/-- A request tree on the listed records only. -/
example : ∃ w' : DW, requestTree Env.id seenW 0 (.or (.leaf .Equal 1 5 fun _ => true) (.leaf .Greater 1 6 fun _ => true)) 1 = some (w', .good none) ∧ members w' 1 = [0] :=
  ⟨_, rfl, by decide⟩

example : ∃ w' : DW, getRecord Env.id seenW 0 1 5 0 = some (w', .bad .WrongValue (some 1)) ∧ getKeyType seenW 0 1 = some (typeOf 5) := ⟨_, rfl, by decide⟩
example : ∃ w' : DW, getRecords Env.id seenW 0 1 8 5 = some (w', .good (some 1)) ∧ target w' 3 = some 0 := ⟨_, rfl, by decide⟩
example : ∃ w' : DW, getSorted seenW 0 1 false none = some w' ∧ w'.refs.length = seenW.refs.length + 1 := ⟨_, rfl, by decide⟩
/-- A moved vault. -/
example : ∃ w w' : DW, demo (seenOps.filter fun op => match op with | .newSet => false | _ => true) = some w ∧ step Env.id w (.vaultMoveNew 0) = some w' ∧
    Listed true w' 1 1 0 ∧ ¬ Listed true w' 1 1 1 ∧ ¬ Listed true w' 0 1 0 := ⟨_, _, rfl, rfl, by decide, by decide, by decide⟩

end MVault.W
