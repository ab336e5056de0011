import Verif.WorldWindow3
/-
What the calls on sets do, in terms of windows: requests.
-/
set_option linter.unusedSectionVars false
set_option linter.unusedSimpArgs false
set_option linter.unusedVariables false
namespace MVault.W
open MVault.Spec (Table Db Event Cmd SetVar State Call UpTo leaves arg)
variable {K V Ty : Type} [LinearOrder K] [LinearOrder V] [Typed V Ty] [DecidableEq Ty]
variable {own home : Nat → Nat}

/-! ### Changes of one set -/

theorem Only.put {w w' : World K V Ty} {s : Nat} {so' : Obj K V Ty} (h : Only s w w') (hdb : dbOf w' = dbOf w) (hs : w'.getObj s = some so') (his : so'.isSet = true) :
    stateOf w' = (stateOf w).put s (some so'.var) := by
  apply State.ext
  · exact hdb
  · funext t
    show varsOf w' t = if t = s then some so'.var else varsOf w t
    by_cases e : t = s
    · subst e; rw [if_pos rfl]; exact varsOf_some hs his
    · rw [if_neg e]
      cases hx : w.getObj t with
      | none =>
        have h1 := h.objN t e hx
        rw [varsOf_none (by intro so a; rw [h1] at a; cases a), varsOf_none (by intro so a; rw [hx] at a; cases a)]
      | some a =>
        obtain ⟨l, h1, _⟩ := h.obj t e a hx
        cases ha : a.isSet with
        | true => rw [varsOf_some hx ha, varsOf_some h1 (by exact ha)]; rfl
        | false => rw [varsOf_none (by intro so b; rw [h1] at b; cases b; exact ha), varsOf_none (by intro so b; rw [hx] at b; cases b; exact ha)]

theorem table_of_db {w w' : World K V Ty} {p : Nat} (h : dbOf w' = dbOf w) (h1 : isVault w' p = true) : isVault w p = true ∧ asTable w' p = asTable w p := by
  have := congrFun h p
  rw [dbOf_vault h1] at this
  cases hv : isVault w p with
  | false => rw [dbOf_none hv] at this; cases this
  | true => rw [dbOf_vault hv] at this; exact ⟨rfl, Option.some.inj this⟩

/-- A set whose indices list all its records. -/
theorem fill_var {w : World K V Ty} (hi : Inv own home w) (hd : Deep w) {s p : Nat} {so : Obj K V Ty} {keys : List K} (hso : w.getObj s = some so) (hs : so.isSet = true)
    (hp : so.parent = some p) {row : Nat → Prop} (hr : ∀ r, r ∈ so.recs ↔ row r) (hl : ∀ b k r, r ∈ so.recs → mhas so.cols k = true → so.lists b k r)
    (hk : ∀ k, k ∈ (asTable w p).keys ↔ k ∈ keys) : so.var = ⟨some p, row, fun _ k r => k ∈ keys ∧ row r⟩ := by
  apply SetVar.ext
  · exact hp
  · funext r; exact propext (hr r)
  · funext b k r
    apply propext
    show so.lists b k r ↔ k ∈ keys ∧ row r
    rw [← hk, ← set_col hi hd hso hs hp k, ← hr]
    constructor
    · intro x
      obtain ⟨a, c, hc, _⟩ := lists_mem hd hso hs x
      exact ⟨by rw [mhas_iff]; exact ⟨c, hc⟩, a⟩
    · rintro ⟨a, b'⟩; exact hl b k r b' a

theorem Answered.put {own' : Nat → Nat} {w w' : World K V Ty} {s p : Nat} {l : List Nat} (h : Answered w w' s p l) (hi' : Inv own' home w') (hdb : dbOf w' = dbOf w)
    {t : Table K V Ty} (hk : ∀ k, k ∈ (asTable w p).keys ↔ k ∈ t.keys) {row : Nat → Prop} (hr : ∀ r, r ∈ l ↔ row r) :
    stateOf w' = (stateOf w).put s (some (SetVar.fill p t row)) := by
  obtain ⟨so', h1, h2, h3, h4⟩ := h.out
  rw [h.only.put hdb h1 h2]
  congr 2
  obtain ⟨po, hpo, hpv, _⟩ := hi'.l.up s so' p h1 h2 h3
  have htab := (table_of_db hdb (vault_of_obj hpo hpv)).2
  exact fill_var hi' h.deep h1 h2 h3 (fun r => (h4 r).trans (hr r)) (fun b k r a c => h.lists so' h1 b k r ((h4 r).mp a) c) (fun k => by rw [htab]; exact hk k)

/-! ### Sources -/

/-- The object, whose vault is `p`, is the table `t` to its user. -/
structure Src (w : World K V Ty) (oo : Obj K V Ty) (p : Nat) (t : Table K V Ty) : Prop where
  ty : ∀ k, t.ty k = (mget oo.cols k).map (·.ty)
  row : ∀ r, t.row r ↔ r ∈ oo.recs
  cell : ∀ r ∈ oo.recs, ∀ k, t.cell r k = cellOf w r k
  seen : ∀ b k r, t.seen b k r ↔ oo.lists b k r
  cols : ColsOk (cellOf w) oo
  keys : ∀ k, k ∈ (asTable w p).keys ↔ k ∈ t.keys

theorem source_of {w : World K V Ty} (hi : Inv own home w) (hd : Deep w) {o p : Nat} {oo : Obj K V Ty} (ho : w.getObj o = some oo) (hp : vaultOf o oo = some p) :
    ∃ t, (stateOf w).source o = some (p, t) ∧ Src w oo p t := by
  cases hs : oo.isSet with
  | false =>
    simp only [vaultOf, hs, Bool.false_eq_true, if_false, Option.some.injEq] at hp
    subst hp
    refine ⟨asTable w o, ?_, ?_⟩
    · show (match dbOf w o with | some t => _ | none => _) = _
      rw [dbOf_vault (vault_of_obj ho hs)]
    · refine ⟨fun k => getKeyType_eq ho k, fun r => ?_, fun r hr k => ?_, fun b k r => listed_obj ho b k r, colsOk_of hi hd ho, fun k => Iff.rfl⟩
      · show r ∈ members w o ↔ _; rw [members_eq ho]
      · rw [cell_in (by rw [members_eq ho]; exact hr)]; rfl
  | true =>
    have hpar : oo.parent = some p := by simpa [vaultOf, hs] using hp
    obtain ⟨po, hpo, hpv, _⟩ := hi.l.up o oo p ho hs hpar
    refine ⟨oo.var.on (asTable w p), ?_, ?_⟩
    · show (match dbOf w o with | some t => some (o, t) | none => match varsOf w o with | some s => s.vault.bind fun p => (dbOf w p).map fun t => (p, s.on t) | none => none) = _
      rw [dbOf_none (by simp [isVault, ho, hs]), varsOf_some ho hs]
      show oo.parent.bind (fun p => (dbOf w p).map fun t => (p, oo.var.on t)) = _
      rw [hpar, Option.bind_some, dbOf_vault (vault_of_obj hpo hpv)]; rfl
    · have al := (hd.set o oo ho hs).att p po hpar hpo
      refine ⟨fun k => ?_, fun r => Iff.rfl, fun r hr k => set_cell hi hd ho hs hpar hr k, fun b k r => Iff.rfl, colsOk_of hi hd ho, fun k => Iff.rfl⟩
      show getKeyType w p k = _
      rw [getKeyType_eq hpo, al.ty]

theorem source_none {w : World K V Ty} {o : Nat} {oo : Obj K V Ty} (ho : w.getObj o = some oo) (hp : vaultOf o oo = none) :
    (stateOf w).source o = none := by
  cases hs : oo.isSet with
  | false => simp [vaultOf, hs] at hp
  | true =>
    have hpar : oo.parent = none := by simpa [vaultOf, hs] using hp
    show (match dbOf w o with | some t => some (o, t) | none => match varsOf w o with | some s => s.vault.bind fun p => (dbOf w p).map fun t => (p, s.on t) | none => none) = _
    rw [dbOf_none (by simp [isVault, ho, hs]), varsOf_some ho hs]
    show oo.parent.bind (fun p => (dbOf w p).map fun t => (p, oo.var.on t)) = _
    rw [hpar]; rfl

theorem Src.bad {w : World K V Ty} {oo : Obj K V Ty} {p : Nat} {t : Table K V Ty} (h : Src w oo p t) (k : K) (v : V) {ty : Ty} (hv : typeOf v = ty) :
    (∃ c, t.bad k v = some c ∧ checkKey oo k ty = .error (.bad c (some k))) ∨
    (∃ c, t.bad k v = none ∧ mget oo.cols k = some c ∧ c.ty = ty ∧ checkKey oo k ty = .ok c) := by
  subst hv
  simp only [Table.bad, h.ty, checkKey]
  cases hc : mget oo.cols k with
  | none => exact .inl ⟨_, rfl, rfl⟩
  | some c =>
    by_cases ht : c.ty = typeOf v
    · exact .inr ⟨c, by simp [ht], rfl, ht, by simp [ht]⟩
    · exact .inl ⟨.WrongType, by simp [ht], by simp [ht]⟩

theorem Src.finds {w : World K V Ty} {oo : Obj K V Ty} {p : Nat} {t : Table K V Ty} (h : Src w oo p t) (k : K) (c : Cond V) (r : Nat) :
    t.finds k c r ↔ Hit oo k c r := by
  have hix : ∀ col : Col V Ty, c.index col = if c.ordered = true then col.ord else col.hash := fun _ => rfl
  constructor
  · rintro ⟨h1, ⟨v, h2, h3⟩, h4⟩
    rw [h.row] at h1
    rw [h.cell r h1] at h2
    obtain ⟨col, hc, hl⟩ := (h.seen _ _ _).mp h4
    obtain ⟨v', hv'⟩ := hl
    have := ((h.cols k col hc).lists_val ⟨v', hv'⟩).2
    obtain ⟨v2, e1, e2⟩ := this
    rw [h2] at e1; cases e1
    exact ⟨col, v, hc, by rw [hix]; exact e2, h3⟩
  · rintro ⟨col, v, hc, hm, hh⟩
    rw [hix] at hm
    have hl : col.lists c.ordered r := ⟨v, hm⟩
    obtain ⟨hr, v', e1, e2⟩ := (h.cols k col hc).lists_val hl
    have hv : cellOf w r k = some v := by
      split at hm
      · exact ((h.cols k col hc).ordS v r hm).2
      · exact ((h.cols k col hc).hashS v r hm).2
    exact ⟨(h.row r).mpr hr, ⟨v, by rw [h.cell r hr]; exact hv, hh⟩, (h.seen _ _ _).mpr ⟨col, hc, hl⟩⟩

theorem Src.meets {w : World K V Ty} {oo : Obj K V Ty} {p : Nat} {t : Table K V Ty} (h : Src w oo p t) (q : Req K V) (r : Nat) :
    t.meets q r ↔ q.found oo r := by
  induction q with
  | leaf ty k v pred => exact and_congr_left fun _ => h.finds k _ r
  | and a b iha ihb => exact and_congr iha ihb
  | or a b iha ihb => exact or_congr iha ihb

/-! ### Simple requests -/

/-- The condition of a call of `RequestRecords` (Vault.hpp lines 128-269) from its arguments; a second value of another type is read as
the default of the first one's type, as in the model. -/
def condOf (t : ReqType) (a b : V) (ia ib : Bool) : Cond V := match t with
  | .Equal => .eq a
  | .Greater => .gt a
  | .GreaterOrEqual => .ge a
  | .Less => .lt (castTo (typeOf a) b)
  | .LessOrEqual => .le a
  | .Interval => .between a (castTo (typeOf a) b) ia ib

theorem condOf_arg (t : ReqType) (a b : V) (ia ib : Bool) : typeOf (arg (condOf t a b ia ib)) = typeOf a := by
  cases t <;> simp only [condOf, arg] <;> exact castTo_ty _ _

theorem condOf_scan (env : Env) (col : Col V Ty) (t : ReqType) (a b : V) (ia ib : Bool) :
    scan env col (condOf t a b ia ib) = visited env col t a (castTo (typeOf a) b) ia ib := by
  cases t <;> rfl

theorem upTo_take {n : Option Nat} {p : Nat → Prop} {l : List Nat} (hN : l.Nodup) (hp : ∀ r, r ∈ l ↔ p r) : UpTo n p (takeOpt n l) := by
  refine ⟨hN.sublist (takeOpt_sublist n l), fun r hr => (hp r).mp ((takeOpt_sublist n l).subset hr), ?_⟩
  cases n with
  | none => exact fun r hr => (hp r).mpr hr
  | some n =>
    simp only [takeOpt]
    refine ⟨List.length_take_le n l, ?_⟩
    by_cases h : n ≤ l.length
    · exact .inl (List.length_take_of_le h)
    · exact .inr fun r hr => by rw [List.take_of_length_le (by omega)]; exact (hp r).mpr hr

theorem requestSet_src {env : Env} {w : World K V Ty} {oo : Obj K V Ty} {p : Nat} {t : Table K V Ty} (h : Src w oo p t) (q : ReqType) (k : K) (a b : V) (ia ib : Bool)
    (n : Option Nat) (pred : Nat → Bool) {x : Except (Res K) (List Nat)} (hx : requestSet env oo q k a b ia ib n pred [] = some x) :
    (∃ code, t.bad k (arg (condOf q a b ia ib)) = some code ∧ x = .error (.bad code (some k))) ∨
    (t.bad k (arg (condOf q a b ia ib)) = none ∧ ∃ l, UpTo n (t.finds k (condOf q a b ia ib)) l ∧ x = .ok (l.filter pred)) := by
  unfold requestSet at hx
  rcases h.bad k (arg (condOf q a b ia ib)) (condOf_arg q a b ia ib) with ⟨c, h1, h2⟩ | ⟨c, h1, h2, h3, h4⟩
  · rw [h2] at hx; cases hx; exact .inl ⟨c, h1, rfl⟩
  · rw [h4] at hx
    refine .inr ⟨h1, ?_⟩
    obtain ⟨l, e1, e2⟩ := scan_perm env c (h.cols k c h2).sorted (condOf q a b ia ib)
    obtain ⟨l', e3, hN, _⟩ := scan_vault (env := env) (h.cols k c h2) (condOf q a b ia ib)
    rw [e1] at e3; cases e3
    rw [condOf_scan] at e1
    dsimp only at hx
    rw [e1] at hx
    simp only [Option.map_some, Option.some.injEq] at hx
    have hmem : ∀ r, r ∈ l ↔ t.finds k (condOf q a b ia ib) r := by
      intro r
      rw [h.finds, e2.mem_iff, List.mem_map]
      constructor
      · rintro ⟨e, he, rfl⟩
        obtain ⟨a1, a2⟩ := List.mem_filter.mp he
        exact ⟨c, e.1, h2, a1, of_decide_eq_true a2⟩
      · rintro ⟨col, v, hc, hm, hh⟩
        rw [h2] at hc; cases hc
        exact ⟨(v, r), List.mem_filter.mpr ⟨hm, decide_eq_true hh⟩, rfl⟩
    refine ⟨takeOpt n l, upTo_take hN hmem, ?_⟩
    rw [← hx]
    have hN' : ((takeOpt n l).filter pred).Nodup := hN.sublist (List.filter_sublist.trans (takeOpt_sublist n l))
    exact congrArg _ (foldl_setIns_nodup hN')

/-! ### Request trees -/

theorem firstBad_append (t : Table K V Ty) (a b : List (K × V)) : t.firstBad (a ++ b) = (t.firstBad a).or (t.firstBad b) := by
  simp only [Table.firstBad, List.findSome?_append]

theorem firstBad_one (t : Table K V Ty) (k : K) (v : V) : t.firstBad [(k, v)] = (t.bad k v).map fun c => (c, k) := by
  simp only [Table.firstBad, List.findSome?_cons, List.findSome?_nil]
  cases t.bad k v <;> rfl

/-- What the tree answers. -/
def Says (oo : Obj K V Ty) (t : Table K V Ty) (q : Req K V) (x : Except (Res K) (List Nat)) : Prop :=
  match t.firstBad (leaves q) with
  | some (code, k) => x = .error (.bad code (some k))
  | none => ∃ l, x = .ok l ∧ ∀ r, r ∈ l ↔ q.found oo r

theorem requestSet_says {env : Env} {w : World K V Ty} {oo : Obj K V Ty} {p : Nat} {t : Table K V Ty} (h : Src w oo p t) (ty : ReqType) (k : K) (v : V) (pred : Nat → Bool)
    {x : Except (Res K) (List Nat)} (hx : requestSet env oo ty k v v false false none pred [] = some x) : Says oo t (.leaf ty k v pred) x := by
  obtain ⟨_, hok, _⟩ := requestSet_leaf (env := env) h.cols ty k v pred
  have hc : typeOf (arg (condOf ty v v false false)) = typeOf v := condOf_arg ..
  have hb : ∀ v', typeOf v' = typeOf v → t.bad k v' = t.bad k v := by
    intro v' e; simp only [Table.bad, e]
  unfold Says
  rw [leaves, firstBad_one, ← hb _ hc]
  rcases requestSet_src h ty k v v false false none pred hx with ⟨code, h1, h2⟩ | ⟨h1, l, h2, h3⟩
  · rw [h1]; exact h2
  · rw [h1]
    rw [h3] at hx
    exact ⟨_, h3, (hok _ hx).2.2⟩

theorem says_and {oo : Obj K V Ty} {t : Table K V Ty} {a b : Req K V} {x y : Except (Res K) (List Nat)} (hx : Says oo t a x) (hy : Says oo t b y)
    {z : Except (Res K) (List Nat)} (hz : andBind (some x) (some y) = some z) : Says oo t (.and a b) z := by
  unfold Says at hx hy ⊢
  rw [leaves, firstBad_append]
  cases h1 : t.firstBad (leaves a) with
  | some c =>
    rw [h1] at hx; subst hx
    simp only [andBind, Option.bind_some, Option.some.injEq] at hz
    simp only [Option.some_or]; exact hz.symm
  | none =>
    rw [h1] at hx; obtain ⟨la, rfl, ha⟩ := hx
    simp only [Option.none_or]
    cases h2 : t.firstBad (leaves b) with
    | some c =>
      rw [h2] at hy; subst hy
      simp only [andBind, Option.bind_some, Option.some.injEq] at hz
      exact hz.symm
    | none =>
      rw [h2] at hy; obtain ⟨lb, rfl, hb⟩ := hy
      simp only [andBind, Option.bind_some, Option.some.injEq] at hz
      refine ⟨_, hz.symm, fun r => ?_⟩
      rw [List.mem_filter]
      simp only [decide_eq_true_eq, ha, hb, Req.found]

theorem evalReq_says {env : Env} {w : World K V Ty} {oo : Obj K V Ty} {p : Nat} {t : Table K V Ty} (h : Src w oo p t) (q : Req K V) (hq : q.wellTyped) :
    ∀ {x : Except (Res K) (List Nat)}, evalReq env oo q = some x → Says oo t q x := by
  have hand : ∀ {a b : Req K V}, (∀ {x}, evalReq env oo a = some x → Says oo t a x) → (∀ {x}, evalReq env oo b = some x → Says oo t b x) →
      a.wellTyped → b.wellTyped → ∀ {z}, andBind (evalReq env oo a) (evalReq env oo b) = some z → Says oo t (.and a b) z := by
    intro a b ha hb qa qb z hz
    obtain ⟨x, hx⟩ := evalReq_some (env := env) h.cols a qa
    obtain ⟨y, hy⟩ := evalReq_some (env := env) h.cols b qb
    rw [hx, hy] at hz
    exact says_and (ha hx) (hb hy) hz
  induction q with
  | leaf ty k v pred => intro x hx; exact requestSet_says h ty k v pred hx
  | or a b iha ihb =>
    intro z hz
    obtain ⟨x, hx⟩ := evalReq_some (env := env) h.cols a hq.1
    obtain ⟨y, hy⟩ := evalReq_some (env := env) h.cols b hq.2
    have sa := iha hq.1 hx
    have sb := ihb hq.2 hy
    simp only [evalReq, hx, hy, Option.bind_eq_bind, Option.bind_some] at hz
    unfold Says at sa sb ⊢
    rw [leaves, firstBad_append]
    cases h1 : t.firstBad (leaves a) with
    | some c =>
      rw [h1] at sa; subst sa
      simp only [Option.some.injEq] at hz
      simp only [Option.some_or]; exact hz.symm
    | none =>
      rw [h1] at sa; obtain ⟨la, rfl, ha⟩ := sa
      simp only [Option.none_or]
      cases h2 : t.firstBad (leaves b) with
      | some c =>
        rw [h2] at sb; subst sb
        simp only [Option.some.injEq] at hz
        exact hz.symm
      | none =>
        rw [h2] at sb; obtain ⟨lb, rfl, hb⟩ := sb
        simp only [Option.some.injEq] at hz
        refine ⟨_, hz.symm, fun r => ?_⟩
        rw [mem_foldl_setIns]
        simp [ha, hb, Req.found]
  | and a b iha ihb =>
    intro z hz
    cases a with
    | leaf t1 k1 v1 p1 =>
      cases b with
      | leaf t2 k2 v2 p2 =>
        have hz0 := hz
        simp only [evalReq] at hz
        split at hz
        · rename_i hc
          obtain ⟨rfl, h1, h2⟩ := hc
          have ht : typeOf v1 = typeOf v2 := hq.2.2 rfl
          rw [if_neg (by simp [ht])] at hz
          have ok := evalReq_ok (env := env) h.cols (.and (.leaf t1 k1 v1 p1) (.leaf t2 k1 v2 p2))
          unfold Says
          have e1 : t.firstBad (leaves (.and (.leaf t1 k1 v1 p1) (.leaf t2 k1 v2 p2))) = (t.bad k1 v1).map fun c => (c, k1) := by
            rw [leaves, firstBad_append, leaves, leaves, firstBad_one, firstBad_one]
            have : t.bad k1 v2 = t.bad k1 v1 := by simp only [Table.bad, ht]
            rw [this]
            cases t.bad k1 v1 <;> rfl
          rw [e1]
          rcases requestSet_src h _ _ _ _ _ _ _ _ hz with ⟨code, g1, g2⟩ | ⟨g1, l, g2, g3⟩
          · have g1 : t.bad k1 v1 = some code := g1
            rw [g1]; exact g2
          · have g1 : t.bad k1 v1 = none := g1
            rw [g1]
            refine ⟨_, g3, ?_⟩
            rw [g3] at hz0
            exact (ok.2.1 _ hz0).2.2
        · exact hand (fun hx => iha hq.1 hx) (fun hx => ihb hq.2.1 hx) hq.1 hq.2.1 hz
      | and c d => exact hand (fun hx => iha hq.1 hx) (fun hx => ihb hq.2.1 hx) hq.1 hq.2.1 hz
      | or c d => exact hand (fun hx => iha hq.1 hx) (fun hx => ihb hq.2.1 hx) hq.1 hq.2.1 hz
    | and c d => exact hand (fun hx => iha hq.1 hx) (fun hx => ihb hq.2.1 hx) hq.1 hq.2.1 hz
    | or c d => exact hand (fun hx => iha hq.1 hx) (fun hx => ihb hq.2.1 hx) hq.1 hq.2.1 hz

end MVault.W
