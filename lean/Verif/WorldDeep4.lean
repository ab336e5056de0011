import Verif.WorldDeep3
/-
Requests in careful histories are defined and keep the set invariant.
-/
set_option linter.unusedSectionVars false
set_option linter.unusedSimpArgs false
namespace MVault.W
variable {K V Ty : Type} [LinearOrder K] [LinearOrder V] [Typed V Ty] [DecidableEq Ty]
variable {own home : Nat → Nat}

theorem visited_some (env : Env) (c : Col V Ty) (hs : c.ord.Pairwise (fun a b => a.1 ≤ b.1)) (t : ReqType) (a b : V) (ia ib : Bool) :
    ∃ l, visited env c t a b ia ib = some l := by
  cases t with
  | Equal => exact ⟨_, rfl⟩
  | Greater => obtain ⟨l, h, _⟩ := scan_perm env c hs (.gt a); exact ⟨l, h⟩
  | GreaterOrEqual => obtain ⟨l, h, _⟩ := scan_perm env c hs (.ge a); exact ⟨l, h⟩
  | Less => obtain ⟨l, h, _⟩ := scan_perm env c hs (.lt b); exact ⟨l, h⟩
  | LessOrEqual => obtain ⟨l, h, _⟩ := scan_perm env c hs (.le a); exact ⟨l, h⟩
  | Interval => obtain ⟨l, h, _⟩ := scan_perm env c hs (.between a b ia ib); exact ⟨l, h⟩

theorem requestSet_some {env : Env} {cell : Nat → K → Option V} {vo : Obj K V Ty} (hv : ColsOk cell vo) (t : ReqType) (k : K) (a b : V)
    (ia ib : Bool) (n : Option Nat) (pred : Nat → Bool) (acc : List Nat) : ∃ x, requestSet env vo t k a b ia ib n pred acc = some x := by
  unfold requestSet
  split
  · exact ⟨_, rfl⟩
  · rename_i c hc
    obtain ⟨hc, _⟩ := checkKey_ok hc
    obtain ⟨l, hl⟩ := visited_some env c (hv k c hc).sorted t a (castTo (typeOf a) b) ia ib
    rw [hl]; exact ⟨_, rfl⟩

theorem ColsOk.indexed {cell : Nat → K → Option V} {vo : Obj K V Ty} (hv : ColsOk cell vo) {r : Nat} (h : Indexed vo r) : r ∈ vo.recs := by
  obtain ⟨k, c, v, hc, h | h⟩ := h
  · exact ((hv k c hc).hashS v r h).1
  · exact ((hv k c hc).ordS v r h).1

/-- No `And` of two conditions on one key with values of different types (such a call does not do what it says: the code
reads the second value as the type of the first). -/
def Req.wellTyped : Req K V → Prop
  | .leaf _ _ _ _ => True
  | .or a b => a.wellTyped ∧ b.wellTyped
  | .and a b => a.wellTyped ∧ b.wellTyped ∧
      match a, b with
      | .leaf _ k1 v1 _, .leaf _ k2 v2 _ => k1 = k2 → typeOf v1 = typeOf v2
      | _, _ => True

theorem evalReq_some {env : Env} {cell : Nat → K → Option V} {vo : Obj K V Ty} (hv : ColsOk cell vo) (q : Req K V) (hq : q.wellTyped) :
    ∃ x, evalReq env vo q = some x := by
  induction q with
  | leaf t k v pred => exact requestSet_some hv ..
  | or a b iha ihb =>
    obtain ⟨x, hx⟩ := iha hq.1
    obtain ⟨y, hy⟩ := ihb hq.2
    simp only [evalReq, hx, hy, Option.bind_eq_bind, Option.bind_some]
    cases x with
    | error e => exact ⟨_, rfl⟩
    | ok l => cases y <;> exact ⟨_, rfl⟩
  | and a b iha ihb =>
    have gen : ∀ x y : Except (Res K) (List Nat), ∃ z, andBind (some x) (some y) = some z := by
      intro x y
      cases x with
      | error e => exact ⟨_, rfl⟩
      | ok l => cases y <;> exact ⟨_, rfl⟩
    obtain ⟨x, hx⟩ := iha hq.1
    obtain ⟨y, hy⟩ := ihb hq.2.1
    cases a with
    | leaf t1 k1 v1 p1 =>
      cases b with
      | leaf t2 k2 v2 p2 =>
        simp only [evalReq]
        split
        · rename_i hc
          have : typeOf v1 = typeOf v2 := hq.2.2 hc.1
          rw [if_neg (show ¬(typeOf v1 ≠ typeOf v2) from fun h => h this)]
          exact requestSet_some hv ..
        · have e := gen x y
          rw [← hx, ← hy] at e; exact e
      | _ => have e := gen x y; rw [← hx, ← hy] at e; exact e
    | _ => have e := gen x y; rw [← hx, ← hy] at e; exact e

theorem evalReq_setsD {env : Env} (oo : Obj K V Ty) (l : List Nat) (q : Req K V) : evalReq env { oo with sets := l } q = evalReq env oo q := by
  have hr : ∀ t k v v' ia ib n pred, requestSet env { oo with sets := l } t k v v' ia ib n pred [] = requestSet env oo t k v v' ia ib n pred [] :=
    fun _ _ _ _ _ _ _ _ => rfl
  induction q with
  | leaf => rfl
  | or a b iha ihb => simp only [evalReq, iha, ihb]
  | and a b iha ihb =>
    cases a with
    | leaf => cases b with
      | leaf => simp only [evalReq, hr]
      | _ => change andBind (evalReq env _ _) (evalReq env _ _) = andBind (evalReq env oo _) (evalReq env oo _); rw [iha, ihb]
    | _ => change andBind (evalReq env _ _) (evalReq env _ _) = andBind (evalReq env oo _) (evalReq env oo _); rw [iha, ihb]

theorem colsOk_of {w : World K V Ty} (hi : Inv own home w) (hd : Deep w) {o : Nat} {oo : Obj K V Ty} (ho : w.getObj o = some oo) :
    ColsOk (cellOf w) oo := fun _ _ hc => col_of hi hd ho hc

/-- What a request leaves in its target. -/
structure Answered (w w' : World K V Ty) (s p : Nat) (l : List Nat) : Prop where
  deep : Deep w'
  only : Only s w w'
  refs : w'.refs = w.refs
  out : ∃ so', w'.getObj s = some so' ∧ so'.isSet = true ∧ so'.parent = some p ∧ ∀ r, r ∈ so'.recs ↔ r ∈ l
  lists : ∀ so', w'.getObj s = some so' → ∀ b k r, r ∈ l → mhas so'.cols k = true → so'.lists b k r
  next : w'.nextO = w.nextO

theorem request_deep {env : Env} {w : World K V Ty} {o : Nat} {t : ReqType} {k : K} {a b : V} {ia ib : Bool} {n : Option Nat}
    {pred : Nat → Bool} {s : Nat} {oo so : Obj K V Ty} (hi : Inv own home w) (hd : Deep w) (ho : w.getObj o = some oo)
    (hs : w.getObj s = some so) (his : so.isSet = true) (hh : ∀ p, vaultOf o oo = some p → p = home s) :
    ∃ w' res, request env w o t k a b ia ib n pred s = some (w', res) ∧ Deep w' ∧
      (∀ p, vaultOf o oo = some p → o ≠ s →
        ∃ x, requestSet env oo t k a b ia ib n pred [] = some x ∧
          match x with
          | .error e => res = e ∧ Answered w w' s p []
          | .ok l => res = .good (some k) ∧ Answered w w' s p l) := by
  cases hp : vaultOf o oo with
  | none =>
    refine ⟨w, .bad .ParentVaultNotValid (some k), ?_, hd, fun p h => by cases h⟩
    simp only [request, ho, Option.bind_eq_bind, Option.bind_some]
    unfold vaultOf at hp
    rw [hp]
  | some p =>
    have hp' := hp
    unfold vaultOf at hp'
    by_cases hos : o = s
    · refine ⟨w, .bad .SameVaultRecordSet (some k), ?_, hd, fun p h1 h2 => absurd hos h2⟩
      simp only [request, ho, Option.bind_eq_bind, Option.bind_some, hp', if_pos hos]
    · obtain ⟨w1, so1, po1, h1, o1, d1, f1, r1, g1, g2, ⟨lo, g3⟩, e1, e2, e3⟩ := prepTarget_deep (env := env) hi hd ho hp hs his (hh p hp) hos
      obtain ⟨po, hpo, hpv, hsub⟩ := vault_of hi hd ho hp
      have hco := colsOk_of hi hd ho
      obtain ⟨x, hx⟩ := requestSet_some (env := env) hco t k a b ia ib n pred []
      have hx1 : requestSet env { oo with sets := lo } t k a b ia ib n pred [] = some x := hx
      have hlk := (prepTarget_spec hi.q.si hs his hpo hpv (hh p hp) hos h1).1.si.l
      have hv1 : VInv own w1 := (o1.sf hs his f1.get f1.isSet e1 e2 e3).vinv hi.v
      have hps : p ≠ s := by rintro rfl; rw [hs] at hpo; cases hpo; rw [his] at hpv; cases hpv
      have hrec1 : po1.recs = po.recs := by
        obtain ⟨l, hl, _⟩ := o1.obj p hps po hpo
        rw [g1] at hl; cases hl; rfl
      cases x with
      | error e =>
        refine ⟨w1, e, ?_, d1, ?_⟩
        · simp only [request, ho, Option.bind_eq_bind, Option.bind_some, hp', if_neg hos, h1, g3, hx1]
        · intro p' h _
          cases h
          exact ⟨_, hx, rfl, d1, o1, e1, ⟨so1, f1.get, f1.isSet, f1.par, by rw [r1]; simp⟩, by simp, e3⟩
      | ok l =>
        obtain ⟨w2, so2, h2, o2, d2, k1, k2, k3, k4, b1, b2, b3, b4⟩ := fillTarget_deep (env := env) (l := l) f1 r1 d1 hlk hv1 g1 g2 (by
          intro r hr
          rw [hrec1]
          rcases requestSet_mem hx hr with hr | hr
          · simp at hr
          · exact hsub r (hco.indexed hr))
        refine ⟨w2, .good (some k), ?_, d2, ?_⟩
        · simp only [request, ho, Option.bind_eq_bind, Option.bind_some, hp', if_neg hos, h1, g3, hx1, h2, Option.map_some]
        · intro p' h _
          cases h
          exact ⟨_, hx, rfl, d2, o1.trans o2, b1.trans e1, ⟨so2, k1, k2, k3, k4⟩, fun so' hs' b k r hr hk => by rw [k1] at hs'; cases hs'; exact (b4 b k r).mpr ⟨hr, hk⟩, b3.trans e3⟩

theorem requestTree_deep {env : Env} {w : World K V Ty} {o : Nat} {q : Req K V} {s : Nat} {oo so : Obj K V Ty} (hi : Inv own home w)
    (hd : Deep w) (ho : w.getObj o = some oo) (hs : w.getObj s = some so) (his : so.isSet = true)
    (hh : ∀ p, vaultOf o oo = some p → p = home s) (hq : q.wellTyped) :
    ∃ w' res, requestTree env w o q s = some (w', res) ∧ Deep w' ∧
      (∀ p, vaultOf o oo = some p → o ≠ s →
        ∃ x, evalReq env oo q = some x ∧
          match x with
          | .error e => res = e ∧ Answered w w' s p []
          | .ok l => res = .good none ∧ Answered w w' s p l) := by
  cases hp : vaultOf o oo with
  | none =>
    refine ⟨w, .bad .ParentVaultNotValid none, ?_, hd, fun p h => by cases h⟩
    simp only [requestTree, ho, Option.bind_eq_bind, Option.bind_some]
    unfold vaultOf at hp
    rw [hp]
  | some p =>
    have hp' := hp
    unfold vaultOf at hp'
    by_cases hos : o = s
    · refine ⟨w, .bad .SameVaultRecordSet none, ?_, hd, fun p h1 h2 => absurd hos h2⟩
      simp only [requestTree, ho, Option.bind_eq_bind, Option.bind_some, hp', if_pos hos]
    · obtain ⟨w1, so1, po1, h1, o1, d1, f1, r1, g1, g2, ⟨lo, g3⟩, e1, e2, e3⟩ := prepTarget_deep (env := env) hi hd ho hp hs his (hh p hp) hos
      obtain ⟨po, hpo, hpv, hsub⟩ := vault_of hi hd ho hp
      have hco := colsOk_of hi hd ho
      obtain ⟨x, hx⟩ := evalReq_some (env := env) hco q hq
      have hx1 : evalReq env { oo with sets := lo } q = some x := by rw [evalReq_setsD]; exact hx
      have hsi1 := (prepTarget_spec hi.q.si hs his hpo hpv (hh p hp) hos h1).1.si
      have hv1 : VInv own w1 := (o1.sf hs his f1.get f1.isSet e1 e2 e3).vinv hi.v
      have hps : p ≠ s := by rintro rfl; rw [hs] at hpo; cases hpo; rw [his] at hpv; cases hpv
      have hrec1 : po1.recs = po.recs := by
        obtain ⟨l, hl, _⟩ := o1.obj p hps po hpo
        rw [g1] at hl; cases hl; rfl
      cases x with
      | error e =>
        obtain ⟨w2, h2, o2, d2, si2, k1, ff, u2, rr2, b1, b2, b3⟩ := setClear_deep (env := env) d1 hsi1 f1.get f1.isSet
        refine ⟨w2, e, ?_, d2, ?_⟩
        · simp only [requestTree, ho, Option.bind_eq_bind, Option.bind_some, hp', if_neg hos, h1, g3, hx1, h2, Option.map_some]
        · intro p' h _
          cases h
          exact ⟨_, hx, rfl, d2, o1.trans o2, b1.trans e1, ⟨_, k1, f1.isSet, f1.par, by simp⟩, by simp, b3.trans e3⟩
      | ok l =>
        obtain ⟨w2, so2, h2, o2, d2, k1, k2, k3, k4, b1, b2, b3, b4⟩ := fillTarget_deep (env := env) (l := l) f1 r1 d1 hsi1.l hv1 g1 g2 (by
          intro r hr
          rw [hrec1]
          exact hsub r (hco.indexed (evalReq_mem hx hr)))
        refine ⟨w2, .good none, ?_, d2, ?_⟩
        · simp only [requestTree, ho, Option.bind_eq_bind, Option.bind_some, hp', if_neg hos, h1, g3, hx1, h2, Option.map_some]
        · intro p' h _
          cases h
          exact ⟨_, hx, rfl, d2, o1.trans o2, b1.trans e1, ⟨so2, k1, k2, k3, k4⟩, fun so' hs' b k r hr hk => by rw [k1] at hs'; cases hs'; exact (b4 b k r).mpr ⟨hr, hk⟩, b3.trans e3⟩

end MVault.W
