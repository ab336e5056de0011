import Verif.WorldWindow5
/-
The careful calls on sets, in terms of windows.
-/
set_option linter.unusedSectionVars false
set_option linter.unusedSimpArgs false
set_option linter.unusedVariables false
namespace MVault.W
open MVault.Spec (Table Db Event Cmd SetVar State Call UpTo leaves arg)
variable {K V Ty : Type} [LinearOrder K] [LinearOrder V] [Typed V Ty] [DecidableEq Ty]
variable {own home : Nat → Nat}

theorem stateOf_objs {w w' : World K V Ty} (hdb : dbOf w' = dbOf w) (h : w'.objs = w.objs) : stateOf w' = stateOf w := State.ext hdb (sets_objs h)

theorem var_of {w : World K V Ty} {s : Nat} {so : Obj K V Ty} (h : w.getObj s = some so) (hs : so.isSet = true) : (stateOf w).sets s = some so.var := varsOf_some h hs

/-! ### Life of sets -/

theorem newSet_state {w : World K V Ty} (hi : Inv own home w) (hdb : dbOf (newSet w) = dbOf w) :
    (stateOf w).sets w.nextO = none ∧ stateOf (newSet w) = (stateOf w).put w.nextO (some SetVar.free) := by
  have hn : ∀ t, (newSet w).getObj t = if w.nextO = t then some Obj.newSet else w.getObj t := fun t => by rw [newSet, getObj_new]
  refine ⟨varsOf_none (fun so a => by rw [nextO_none hi] at a; cases a), ?_⟩
  apply State.ext
  · exact hdb
  · funext t
    show varsOf (newSet w) t = if t = w.nextO then _ else varsOf w t
    by_cases e : t = w.nextO
    · subst e
      rw [if_pos rfl, varsOf_some (so := Obj.newSet) (by rw [hn, if_pos rfl]) rfl]
      congr 1
      apply SetVar.ext
      · rfl
      · funext r; simp [Obj.var, SetVar.free, Obj.newSet]
      · funext b k r; simp [Obj.var, SetVar.free, Obj.lists, Obj.newSet, mget]
    · have ht : (newSet w).getObj t = w.getObj t := by rw [hn, if_neg (Ne.symm e)]
      rw [if_neg e]
      cases hx : w.getObj t with
      | none => rw [varsOf_none (fun so a => by rw [ht, hx] at a; cases a), varsOf_none (fun so a => by rw [hx] at a; cases a)]
      | some a =>
        cases ha : a.isSet with
        | true => rw [varsOf_some hx ha, varsOf_some (ht.trans hx) ha]
        | false => rw [varsOf_none (fun so b => by rw [ht, hx] at b; cases b; exact ha), varsOf_none (fun so b => by rw [hx] at b; cases b; exact ha)]

theorem put_del {w w1 : World K V Ty} {s : Nat} {x : Option (SetVar K)} (hdb : dbOf ({ w1 with objs := mdel w1.objs s } : World K V Ty) = dbOf w)
    (h : ∀ t, t ≠ s → varsOf w1 t = varsOf w t) : stateOf ({ w1 with objs := mdel w1.objs s } : World K V Ty) = (stateOf w).put s none := by
  apply State.ext
  · exact hdb
  · funext t
    show varsOf _ t = if t = s then none else varsOf w t
    by_cases e : t = s
    · subst e; rw [if_pos rfl]; exact varsOf_none fun so a => by rw [getObj_del, if_pos rfl] at a; cases a
    · rw [if_neg e, ← h t e]
      have ht : ({ w1 with objs := mdel w1.objs s } : World K V Ty).getObj t = w1.getObj t := by rw [getObj_del, if_neg (Ne.symm e)]
      cases hx : w1.getObj t with
      | none => rw [varsOf_none (fun so a => by rw [ht, hx] at a; cases a), varsOf_none (fun so a => by rw [hx] at a; cases a)]
      | some a =>
        cases ha : a.isSet with
        | true => rw [varsOf_some hx ha, varsOf_some (ht.trans hx) ha]
        | false => rw [varsOf_none (fun so b => by rw [ht, hx] at b; cases b; exact ha), varsOf_none (fun so b => by rw [hx] at b; cases b; exact ha)]

theorem Only.vars {w w' : World K V Ty} {s : Nat} (h : Only s w w') {t : Nat} (e : t ≠ s) : varsOf w' t = varsOf w t := by
  cases hx : w.getObj t with
  | none =>
    have h1 := h.objN t e hx
    rw [varsOf_none (by intro so a; rw [h1] at a; cases a), varsOf_none (by intro so a; rw [hx] at a; cases a)]
  | some a =>
    obtain ⟨l, h1, _⟩ := h.obj t e a hx
    cases ha : a.isSet with
    | true => rw [varsOf_some hx ha, varsOf_some h1 (by exact ha)]; rfl
    | false => rw [varsOf_none (by intro so b; rw [h1] at b; cases b; exact ha), varsOf_none (by intro so b; rw [hx] at b; cases b; exact ha)]

theorem destroySet_state {env : Env} {w w' : World K V Ty} {s : Nat} {so : Obj K V Ty} (hi : Inv own home w) (hd : Deep w)
    (hs : w.getObj s = some so) (his : so.isSet = true) (h : destroySet env w s = some w') (hdb : dbOf w' = dbOf w) :
    stateOf w' = (stateOf w).put s none := by
  obtain ⟨w1, so1, h1, on, d1, si1, lo, _⟩ := setReset_deep (env := env) hd ⟨hi.s, hi.l⟩ hs his
  let so2 : Obj K V Ty := { so1 with tmpl := [], cols := [], keysOrder := [], uniq := [], recs := [], sets := [] }
  have h2 : dropVault env w1 s = some (w1.putObj s so2) := by
    simp only [dropVault, lo.get, lo.sets, Option.bind_eq_bind, Option.bind_some, perm_nil, loop, dropCore, lo.recs]
    have e1 := lo.recs
    have e2 := lo.sets
    simp only [so2]
  simp only [destroySet, h1, h2, Option.bind_eq_bind, Option.bind_some, Option.some.injEq] at h
  subst h
  exact put_del (x := none) hdb fun t ht => (Only.putSet s w1 so2).vars ht |>.trans (on.vars ht)

theorem setReset_state {env : Env} {w w' : World K V Ty} {s : Nat} {so : Obj K V Ty} (hi : Inv own home w) (hd : Deep w) {own' : Nat → Nat} (hi' : Inv own' home w')
    (hs : w.getObj s = some so) (his : so.isSet = true) (h : setReset env w s = some w') (hdb : dbOf w' = dbOf w) :
    stateOf w' = (stateOf w).put s (some SetVar.free) := by
  obtain ⟨w1, so1, h1, on, d1, si1, lo, _⟩ := setReset_deep (env := env) hd ⟨hi.s, hi.l⟩ hs his
  rw [h] at h1; cases h1
  rw [on.put hdb lo.get lo.isSet, free_var hi' d1 lo.get lo.isSet lo.parent]

theorem setClear_state {env : Env} {w w' : World K V Ty} {s : Nat} {so : Obj K V Ty} (hi : Inv own home w) (hd : Deep w)
    (hs : w.getObj s = some so) (his : so.isSet = true) (h : setClear env w s = some w') (hdb : dbOf w' = dbOf w) :
    stateOf w' = (stateOf w).put s (some ⟨so.var.vault, fun _ => False, fun _ _ _ => False⟩) := by
  obtain ⟨w1, h1, on, d1, si1, ob, _⟩ := setClear_deep (env := env) hd ⟨hi.s, hi.l⟩ hs his
  rw [h] at h1; cases h1
  rw [on.put hdb ob (by exact his)]
  congr 2
  apply SetVar.ext
  · rfl
  · funext r; simp [Obj.var]
  · funext b k r
    simp only [eq_iff_iff, iff_false]
    exact empty_lists d1 ob (by exact his) rfl b k r

/-! ### `AddRecord` -/

theorem alive_iff {w : World K V Ty} (hi : Inv own home w) (r : Nat) : (stateOf w).alive r ↔ ∃ x, w.getRec r = some x ∧ x.valid = true := by
  constructor
  · rintro ⟨o, t, h1, h2⟩
    cases hv : isVault w o with
    | false => rw [show (stateOf w).vaults o = none from dbOf_none hv] at h1; cases h1
    | true =>
      rw [show (stateOf w).vaults o = some (asTable w o) from dbOf_vault hv] at h1
      cases h1
      obtain ⟨vo, a, b⟩ := isVault_iff.mp hv
      have h2 : r ∈ members w o := h2
      rw [members_eq a] at h2
      obtain ⟨_, x, hx, hxv⟩ := hi.v.mem o vo a b r h2
      exact ⟨x, hx, hxv⟩
  · rintro ⟨x, h1, h2⟩
    obtain ⟨vo, a, b, c⟩ := hi.v.val r x h1 h2
    exact ⟨own r, asTable w (own r), dbOf_vault (vault_of_obj a b), by show r ∈ members w _; rw [members_eq a]; exact c⟩

theorem setAddRecord_state {w w' : World K V Ty} {s f : Nat} {so : Obj K V Ty} {res : Res K} (hi : Inv own home w) (hd : Deep w) {own' : Nat → Nat}
    (hi' : Inv own' home w') (hs : w.getObj s = some so) (his : so.isSet = true) (hf : f < w.refs.length) (h : setAddRecord w s f = some (w', res))
    (hdb : dbOf w' = dbOf w) : (stateOf w).Step (.add s (through w f) (target w f)) (.res res) (stateOf w') := by
  obtain ⟨ref, href⟩ := get_ref hf
  have hth : through w f = ref.vlt := by simp [through, href]
  have hta : target w f = ref.ptr := by simp [target, href]
  rw [hth, hta]
  refine ⟨so.var, var_of hs his, ?_⟩
  obtain ⟨w1, r1, h1, hd', hc⟩ := setAddRecord_obj hi hd hs his href
  rw [h] at h1; cases h1
  have hvault : so.var.vault = so.parent := rfl
  rcases hc with ⟨rfl, hbad, hnf⟩ | ⟨rfl, p, r, so', hfit, on, hnx, hso', his', hpar', hrecs', hg⟩
  · simp only [setAddRecord, refIsValid, hs, href, Option.bind_eq_bind, Option.bind_some] at h
    cases hp : so.parent with
    | none =>
      rw [hp] at h; simp only [Option.some.injEq, Prod.mk.injEq] at h
      exact .inl ⟨hp, by rw [← h.2], rfl⟩
    | some p =>
      rw [hp] at h; simp only at h
      refine .inr ?_
      have hne : so.var.vault ≠ none := by rw [hvault, hp]; simp
      cases hr : ref.ptr with
      | none =>
        rw [hr] at h; simp only [Option.bind_some, if_true, Option.some.injEq, Prod.mk.injEq] at h
        exact .inl ⟨hne, fun r' e => (by cases e), by rw [← h.2], rfl⟩
      | some r =>
        rw [hr] at h; simp only [Option.bind_eq_some_iff, Option.map_eq_some_iff] at h
        obtain ⟨val, ⟨x, hx, rfl⟩, h⟩ := h
        cases hv : x.valid with
        | false =>
          rw [if_pos hv] at h; simp only [Option.some.injEq, Prod.mk.injEq] at h
          refine .inl ⟨hne, fun r' e => ?_, by rw [← h.2], rfl⟩
          cases e
          rw [alive_iff hi]
          rintro ⟨y, hy, hyv⟩
          rw [hx] at hy; cases hy; rw [hv] at hyv; cases hyv
        | true =>
          have hal : (stateOf w').alive r := (alive_iff hi r).mpr ⟨x, hx, hv⟩
          rw [if_neg (by simp [hv])] at h
          refine .inr ?_
          by_cases hvl : ref.vlt = some p
          · rw [if_neg (by simp [hvl])] at h
            by_cases hin : r ∈ so.recs
            · rw [if_pos hin] at h; simp only [Option.some.injEq, Prod.mk.injEq] at h
              exact .inr (.inl ⟨r, rfl, hal, by rw [hvl, hvault, hp], hne, hin, by rw [← h.2], rfl⟩)
            · exact absurd ⟨hp, hr, hvl, hin, x, hx, hv⟩ (hnf p r)
          · rw [if_pos hvl] at h; simp only [Option.some.injEq, Prod.mk.injEq] at h
            exact .inl ⟨hne, ⟨r, rfl, hal⟩, by rw [hvault, hp]; exact hvl, by rw [← h.2], rfl⟩
  · obtain ⟨f1, f2, f3, f4, x, f5, f6⟩ := hfit
    obtain ⟨po, hpo, hpv, _⟩ := hi'.l.up s so' p hso' his' hpar'
    have hv' := vault_of_obj hpo hpv
    obtain ⟨hv, htab⟩ := table_of_db hdb hv'
    refine .inr (.inr (.inr (.inr ⟨r, p, asTable w p, f2, f3, f1, dbOf_vault hv, ?_, f4, rfl, ?_⟩)))
    · rw [← htab]
      exact set_rows hi' hd' hso' his' hpar' r (by show r ∈ so'.recs; rw [hrecs']; simp)
    · rw [on.put hdb hso' his']
      congr 2
      apply SetVar.ext
      · exact hpar'
      · funext r'; simp [Obj.var, hrecs']
      · funext b k r'
        apply propext
        show so'.lists b k r' ↔ _
        rw [hg b k r', set_col hi hd hs his f1 k]
        simp only [List.mem_cons, List.not_mem_nil, or_false, Obj.var, and_comm]

/-! ### Copies -/

theorem setCopyNew_state {env : Env} {w w' : World K V Ty} {a : Nat} {ao : Obj K V Ty} (hi : Inv own home w) (hd : Deep w) {own' : Nat → Nat} (hi' : Inv own' home w')
    (ha : w.getObj a = some ao) (hai : ao.isSet = true) (hpar : ao.parent ≠ none) (h : setCopyNew env w a = some w') (hdb : dbOf w' = dbOf w) :
    (stateOf w).Step (.copyNew w.nextO a) .unit (stateOf w') := by
  obtain ⟨w1, h1, p, hp, an⟩ := setCopyNew_obj (env := env) hi hd ha hai hpar
  rw [h] at h1; cases h1
  have hdn : dbOf (newSet w) = dbOf w := by
    funext o
    have hn : ∀ t, (newSet w).getObj t = if w.nextO = t then some Obj.newSet else w.getObj t := fun t => by rw [newSet, getObj_new]
    cases hv : isVault w o with
    | true =>
      obtain ⟨vo, b, c⟩ := isVault_iff.mp hv
      have hne : w.nextO ≠ o := Ne.symm (getObj_old hi b)
      have b' : (newSet w).getObj o = some vo := by rw [hn, if_neg hne]; exact b
      rw [dbOf_vault hv, dbOf_vault (vault_of_obj b' c)]
      exact congrArg some (asTable_same b b' rfl rfl rfl rfl rfl fun _ _ _ => rfl)
    | false =>
      rw [dbOf_none hv]
      apply dbOf_none
      cases hv' : isVault (newSet w) o with
      | false => rfl
      | true =>
        obtain ⟨vo, b, c⟩ := isVault_iff.mp hv'
        rw [hn] at b
        split at b
        · cases b; cases c
        · rw [vault_of_obj b c] at hv; cases hv
  obtain ⟨n1, n2⟩ := newSet_state hi hdn
  obtain ⟨po, hpo, hpv, _⟩ := hi.l.up a ao p ha hai hp
  have hv := vault_of_obj hpo hpv
  have htab : asTable (newSet w) p = asTable w p := by
    have := congrFun hdn p
    rw [dbOf_vault hv] at this
    cases hv2 : isVault (newSet w) p with
    | false => rw [dbOf_none hv2] at this; cases this
    | true => rw [dbOf_vault hv2] at this; exact Option.some.inj this
  refine ⟨n1, rfl, ao.var, p, asTable w p, var_of ha hai, hp, dbOf_vault hv, ?_⟩
  have e := Answered.put (w := newSet w) an hi' (hdb.trans hdn.symm) (t := asTable w p) (row := ao.var.row) (fun k => by rw [htab]) (fun r => Iff.rfl)
  rw [e, n2]
  simp only [State.put, State.mk.injEq, true_and]
  funext t
  by_cases ht : t = w.nextO <;> simp [ht]

theorem setAssign_state {env : Env} {w w' : World K V Ty} {s a : Nat} {so ao : Obj K V Ty} (hi : Inv own home w) (hd : Deep w) {own' : Nat → Nat} (hi' : Inv own' home w')
    (hs : w.getObj s = some so) (his : so.isSet = true) (ha : w.getObj a = some ao) (hai : ao.isSet = true) (h : setAssign env w s a = some w')
    (hdb : dbOf w' = dbOf w) : (stateOf w).Step (.assign s a) .unit (stateOf w') := by
  obtain ⟨w1, h1, hd', hc⟩ := setAssign_obj (env := env) hi hd hs his ha hai
  rw [h] at h1; cases h1
  refine ⟨⟨_, var_of hs his⟩, rfl, ao.var, var_of ha hai, ?_⟩
  rcases hc with ⟨e, rfl⟩ | ⟨e, hp, on, _, so', g1, g2, g3⟩ | ⟨e, p, hp, an⟩
  · exact .inl ⟨e, rfl⟩
  · refine .inr (.inl ⟨e, hp, ?_⟩)
    rw [on.put hdb g1 g2, free_var hi' hd' g1 g2 g3]
  · obtain ⟨po, hpo, hpv, _⟩ := hi.l.up a ao p ha hai hp
    exact .inr (.inr ⟨e, p, asTable w p, hp, dbOf_vault (vault_of_obj hpo hpv), an.put hi' hdb (fun k => Iff.rfl) fun r => Iff.rfl⟩)

/-! ### Requests -/

theorem request_state {env : Env} {w w' : World K V Ty} {o : Nat} {t : ReqType} {k : K} {a b : V} {ia ib : Bool} {n : Option Nat} {pred : Nat → Bool} {s : Nat}
    {oo so : Obj K V Ty} {res : Res K} (hi : Inv own home w) (hd : Deep w) {own' : Nat → Nat} (hi' : Inv own' home w') (ho : w.getObj o = some oo)
    (hs : w.getObj s = some so) (his : so.isSet = true) (hh : ∀ p, vaultOf o oo = some p → p = home s)
    (h : request env w o t k a b ia ib n pred s = some (w', res)) (hdb : dbOf w' = dbOf w) :
    (stateOf w).Step (.ask o k (condOf t a b ia ib) n pred s) (.res res) (stateOf w') := by
  obtain ⟨w1, r1, h1, hd', hc⟩ := request_deep (env := env) (t := t) (k := k) (a := a) (b := b) (ia := ia) (ib := ib) (n := n) (pred := pred) hi hd ho hs his hh
  rw [h] at h1; cases h1
  refine ⟨⟨_, var_of hs his⟩, ?_⟩
  cases hp : vaultOf o oo with
  | none =>
    rw [source_none ho hp]
    simp only [request, ho, Option.bind_eq_bind, Option.bind_some] at h
    unfold vaultOf at hp
    rw [hp] at h
    simp only [Option.some.injEq, Prod.mk.injEq] at h
    exact ⟨by rw [← h.2], by rw [h.1]⟩
  | some p =>
    obtain ⟨tb, hsrc, src⟩ := source_of hi hd ho hp
    rw [hsrc]
    by_cases hos : o = s
    · simp only [hos, if_true]
      simp only [request, ho, Option.bind_eq_bind, Option.bind_some] at h
      unfold vaultOf at hp
      rw [hp] at h
      simp only [hos, if_true, Option.some.injEq, Prod.mk.injEq] at h
      exact ⟨by rw [← h.2], by rw [h.1]⟩
    · simp only [hos, if_false]
      obtain ⟨x, hx, hm⟩ := hc p hp hos
      rcases requestSet_src src t k a b ia ib n pred hx with ⟨code, g1, rfl⟩ | ⟨g1, l, g2, rfl⟩
      · rw [g1]
        obtain ⟨rfl, an⟩ := hm
        exact ⟨rfl, an.put hi' hdb src.keys (by simp)⟩
      · rw [g1]
        obtain ⟨rfl, an⟩ := hm
        exact ⟨l, g2, rfl, an.put hi' hdb src.keys fun r => by simp [List.mem_filter]⟩

theorem requestTree_state {env : Env} {w w' : World K V Ty} {o : Nat} {q : Req K V} {s : Nat}
    {oo so : Obj K V Ty} {res : Res K} (hi : Inv own home w) (hd : Deep w) {own' : Nat → Nat} (hi' : Inv own' home w') (ho : w.getObj o = some oo)
    (hs : w.getObj s = some so) (his : so.isSet = true) (hh : ∀ p, vaultOf o oo = some p → p = home s) (hq : q.wellTyped)
    (h : requestTree env w o q s = some (w', res)) (hdb : dbOf w' = dbOf w) :
    (stateOf w).Step (.tree o q s) (.res res) (stateOf w') := by
  obtain ⟨w1, r1, h1, hd', hc⟩ := requestTree_deep (env := env) hi hd ho hs his hh hq
  rw [h] at h1; cases h1
  refine ⟨⟨_, var_of hs his⟩, ?_⟩
  cases hp : vaultOf o oo with
  | none =>
    rw [source_none ho hp]
    simp only [requestTree, ho, Option.bind_eq_bind, Option.bind_some] at h
    unfold vaultOf at hp
    rw [hp] at h
    simp only [Option.some.injEq, Prod.mk.injEq] at h
    exact ⟨by rw [← h.2], by rw [h.1]⟩
  | some p =>
    obtain ⟨tb, hsrc, src⟩ := source_of hi hd ho hp
    rw [hsrc]
    by_cases hos : o = s
    · simp only [hos, if_true]
      simp only [requestTree, ho, Option.bind_eq_bind, Option.bind_some] at h
      unfold vaultOf at hp
      rw [hp] at h
      simp only [hos, if_true, Option.some.injEq, Prod.mk.injEq] at h
      exact ⟨by rw [← h.2], by rw [h.1]⟩
    · simp only [hos, if_false]
      obtain ⟨x, hx, hm⟩ := hc p hp hos
      have hsay := evalReq_says src q hq hx
      unfold Says at hsay
      cases hb : tb.firstBad (leaves q) with
      | some c =>
        obtain ⟨code, kk⟩ := c
        rw [hb] at hsay; subst hsay
        obtain ⟨rfl, an⟩ := hm
        exact ⟨rfl, an.put hi' hdb src.keys (by simp)⟩
      | none =>
        rw [hb] at hsay; obtain ⟨l, rfl, hl⟩ := hsay
        obtain ⟨rfl, an⟩ := hm
        exact ⟨rfl, an.put hi' hdb src.keys fun r => by rw [hl, src.meets]⟩

/-! ### Searches in sets -/

theorem Src.hits {w : World K V Ty} {oo : Obj K V Ty} {p : Nat} {t : Table K V Ty} (h : Src w oo p t) (env : Env) {k : K} {v : V} {c : Col V Ty}
    (hc : mget oo.cols k = some c) (r : Nat) : t.hits k v r ↔ r ∈ equalRange env c v := by
  rw [equalRange_mem]
  have := h.finds k (.eq v) r
  constructor
  · rintro ⟨h1, h2, h3⟩
    obtain ⟨col, v', e1, e2, e3⟩ := this.mp ⟨h1, ⟨v, h2, rfl⟩, h3⟩
    rw [hc] at e1; cases e1
    have e3 : v' = v := e3
    rw [← e3]; exact e2
  · intro hm
    obtain ⟨h1, ⟨v', h2, h3⟩, h4⟩ := this.mpr ⟨c, v, hc, hm, rfl⟩
    have h3 : v' = v := h3
    exact ⟨h1, by rw [← h3]; exact h2, h4⟩

theorem nil_or {A : Type} (l : List A) : l = [] ∨ ∃ a t, l = a :: t := by cases l <;> simp

theorem setGet_state {env : Env} {w w' : World K V Ty} {s : Nat} {so : Obj K V Ty} {k : K} {v : V} {res : Res K} (hi : Inv own home w) (hd : Deep w)
    (hs : w.getObj s = some so) (his : so.isSet = true) (hobj : w'.objs = w.objs) (hdb : dbOf w' = dbOf w)
    (hN : so.parent = none → res = .bad .ParentVaultNotValid (some k))
    (hS : ∀ p, so.parent = some p → match checkKey so k (typeOf v) with
      | .error e => res = e
      | .ok c => if equalRange env c v = [] then res = .bad .WrongValue (some k) else res = .good (some k)) :
    (stateOf w).Step (.find s k v) (.res res) (stateOf w') := by
  refine ⟨⟨_, var_of hs his⟩, stateOf_objs hdb hobj, ?_⟩
  have hvo : vaultOf s so = so.parent := by simp [vaultOf, his]
  cases hp : so.parent with
  | none => rw [source_none hs (by rw [hvo, hp]), hN hp]
  | some p =>
    obtain ⟨tb, hsrc, src⟩ := source_of hi hd hs (by rw [hvo, hp])
    rw [hsrc]
    have hS := hS p hp
    rcases src.bad k v rfl with ⟨c, h1, h2⟩ | ⟨c, h1, h2, h3, h4⟩
    · rw [h2] at hS; simp only [h1]; rw [hS]
    · rw [h4] at hS
      dsimp only at hS
      simp only [h1]
      rcases nil_or (equalRange env c v) with e | ⟨r, l, e⟩
      · rw [e] at hS; simp only [if_true] at hS
        refine .inr ⟨?_, by rw [hS]⟩
        rintro ⟨r, hr⟩
        rw [src.hits env h2, e] at hr; cases hr
      · rw [e, if_neg (by simp)] at hS
        exact .inl ⟨⟨r, by rw [src.hits env h2, e]; simp⟩, by rw [hS]⟩

theorem setGetRecord_state {env : Env} {w w' : World K V Ty} {s f : Nat} {so : Obj K V Ty} {k : K} {v : V} {res : Res K} (hi : Inv own home w) (hd : Deep w)
    (hs : w.getObj s = some so) (his : so.isSet = true) (hf : f < w.refs.length) (h : setGetRecord env w s k v f = some (w', res)) (hdb : dbOf w' = dbOf w) :
    (stateOf w).Step (.find s k v) (.res res) (stateOf w') := by
  obtain ⟨ref, href⟩ := get_ref hf
  obtain ⟨w1, r1, h1, rf⟩ := setGetRecord_deep (env := env) (k := k) (v := v) hi hd hs href
  rw [h] at h1; cases h1
  refine setGet_state (env := env) hi hd hs his rf.objs hdb (fun hp => ?_) (fun p hp => ?_)
  · simp only [setGetRecord, hs, Option.bind_eq_bind, Option.bind_some, hp, Option.some.injEq, Prod.mk.injEq] at h
    exact h.2.symm
  · simp only [setGetRecord, getRecord, hs, Option.bind_eq_bind, Option.bind_some, hp] at h
    obtain ⟨⟨w2, r2⟩, g1, g2⟩ := Option.bind_eq_some_iff.mp h
    obtain ⟨ref2, _, g3⟩ := Option.bind_eq_some_iff.mp g2
    have g3 : r2 = res := by cases g3; rfl
    subst g3
    cases hc : checkKey so k (typeOf v) with
    | error e => rw [hc] at g1; cases g1; rfl
    | ok c =>
      rw [hc] at g1
      rcases nil_or (equalRange env c v) with e | ⟨r, l, e⟩
      · simp only [e, Option.map_eq_some_iff] at g1
        obtain ⟨_, _, g1⟩ := g1; cases g1
        simp [e]
      · simp only [e, Option.map_eq_some_iff] at g1
        obtain ⟨_, _, g1⟩ := g1; cases g1
        simp [e]

theorem setGetRecords_state {env : Env} {w w' : World K V Ty} {s n : Nat} {so : Obj K V Ty} {k : K} {v : V} {res : Res K} (hi : Inv own home w) (hd : Deep w)
    (hs : w.getObj s = some so) (his : so.isSet = true) (h : setGetRecords env w s k v n = some (w', res)) (hdb : dbOf w' = dbOf w) :
    (stateOf w).Step (.find s k v) (.res res) (stateOf w') := by
  obtain ⟨w1, r1, h1, rf⟩ := setGetRecords_deep (env := env) (k := k) (v := v) (n := n) hi hd hs his
  rw [h] at h1; cases h1
  refine setGet_state (env := env) hi hd hs his rf.objs hdb (fun hp => ?_) (fun p hp => ?_)
  · simp only [setGetRecords, hs, Option.bind_eq_bind, Option.bind_some, hp, Option.some.injEq, Prod.mk.injEq] at h
    exact h.2.symm
  · simp only [setGetRecords, hs, Option.bind_eq_bind, Option.bind_some, hp] at h
    obtain ⟨_, _, g1⟩ := Option.bind_eq_some_iff.mp h
    cases hc : checkKey so k (typeOf v) with
    | error e => rw [hc] at g1; cases g1; rfl
    | ok c =>
      rw [hc] at g1
      rcases nil_or (equalRange env c v) with e | ⟨r, l, e⟩
      · simp only [e] at g1; cases g1; simp [e]
      · simp only [e, Option.map_eq_some_iff] at g1
        obtain ⟨_, _, g1⟩ := g1; cases g1
        simp [e]

end MVault.W
