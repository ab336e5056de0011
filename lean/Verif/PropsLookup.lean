import Verif.PropsSets
/-
C17, C18, C20, C21, C22: look-ups and requests.
-/
set_option linter.unusedSectionVars false
set_option linter.unusedSimpArgs false
namespace MVault.W
variable {K V Ty : Type} [LinearOrder K] [LinearOrder V] [Typed V Ty] [DecidableEq Ty]

/-! ### Requests in any history -/

theorem fillTarget_rs {env : Env} {w w' : World K V Ty} {s : Nat} {l : List Nat} (hs : rs w s = some []) (h : fillTarget env w s l = some w') :
    members w' s = l.foldl setIns [] := by
  simp only [fillTarget, Option.bind_eq_bind, Option.bind_eq_some_iff] at h
  obtain ⟨so, hso, h⟩ := h
  rw [rs_of hso] at hs; simp only [Option.some.injEq] at hs
  have := loop_same (g := fun w => rs w s) (fun _ _ _ h => attach_rs h s) _ h
  rw [members_rs, this, rs_of (getObj_putObj_self _ _ _), hs]; rfl

theorem requestSet_congr {env : Env} {x y : Obj K V Ty} (e : y = { x with sets := y.sets }) (t : ReqType) (k : K) (a b : V) (ia ib : Bool) (n : Option Nat) (pred : Nat → Bool)
    (acc : List Nat) : requestSet env y t k a b ia ib n pred acc = requestSet env x t k a b ia ib n pred acc := by
  rw [e]; rfl

theorem evalReq_congr {env : Env} {x y : Obj K V Ty} (e : y = { x with sets := y.sets }) (q : Req K V) : evalReq env y q = evalReq env x q := by
  have hr := requestSet_congr (env := env) e
  induction q with
  | leaf => simp only [evalReq, hr]
  | or a b iha ihb => simp only [evalReq, iha, ihb]
  | and a b iha ihb =>
    cases a with
    | leaf => cases b with
      | leaf => simp only [evalReq, hr]
      | and c d => change andBind (evalReq env y _) (evalReq env y _) = andBind (evalReq env x _) (evalReq env x _); rw [iha, ihb]
      | or c d => change andBind (evalReq env y _) (evalReq env y _) = andBind (evalReq env x _) (evalReq env x _); rw [iha, ihb]
    | and c d => change andBind (evalReq env y _) (evalReq env y _) = andBind (evalReq env x _) (evalReq env x _); rw [iha, ihb]
    | or c d => change andBind (evalReq env y _) (evalReq env y _) = andBind (evalReq env x _) (evalReq env x _); rw [iha, ihb]

theorem checkKey_fail {vo : Obj K V Ty} {k : K} {t : Ty} {res : Res K} (h : checkKey vo k t = .error res) : res.ok = false := by
  unfold checkKey at h
  split at h
  · cases h; rfl
  · split at h <;> cases h
    rfl

/-- The answer of the key check, in terms of `GetKeyType`. -/
theorem checkKey_answer {w : World K V Ty} {o : Nat} {vo : Obj K V Ty} (ho : w.getObj o = some vo) {k : K} {t : Ty} {res : Res K} (h : checkKey vo k t = .error res) :
    getKeyType w o k ≠ some t ∧ res = .bad (if getKeyType w o k = none then .WrongKey else .WrongType) (some k) := by
  rw [getKeyType_eq ho]
  unfold checkKey at h
  split at h
  · rename_i e; cases h; simp [e]
  · rename_i c e
    split at h <;> cases h
    rename_i hne; simp [e]; exact hne

/-- A simple request on a vault or set, in any history. -/
theorem request_any {env : Env} {w w' : World K V Ty} {o : Nat} {t : ReqType} {k : K} {a b : V} {ia ib : Bool} {n : Option Nat}
    {pred : Nat → Bool} {s : Nat} {res : Res K} (ha : AI w) (hi : NI w) (hs : NotVault w s) (h : request env w o t k a b ia ib n pred s = some (w', res)) :
    (w' = w ∧ res.ok = false) ∨ ∃ oo, w.getObj o = some oo ∧
      ((checkKey oo k (typeOf a) = .error res ∧ members w' s = []) ∨
        ∃ l, requestSet env oo t k a b ia ib n pred [] = some (.ok l) ∧ res = .good (some k) ∧ members w' s = l.foldl setIns []) := by
  simp only [request, Option.bind_eq_bind, Option.bind_eq_some_iff] at h
  obtain ⟨oo, hoo, h⟩ := h
  split at h
  · cases h; exact .inl ⟨rfl, rfl⟩
  · rename_i p hp
    split at h
    · cases h; exact .inl ⟨rfl, rfl⟩
    · rename_i hne
      simp only [Option.bind_eq_some_iff] at h
      obtain ⟨w1, h1, oo', hoo', out, hout, h⟩ := h
      obtain ⟨f1, e1⟩ := prepTarget_fs (l := [s]) (by simp) ha hi (vaultOf_notSet ha hoo hp) hs h1
      rcases f1.getObj (q := o) (by simpa using hne) with ⟨h0, _⟩ | ⟨x, y, hx, hy, e⟩
      · rw [hoo] at h0; cases h0
      rw [hoo] at hx; cases hx
      rw [hoo'] at hy; cases hy
      rw [requestSet_congr e] at hout
      refine .inr ⟨oo, hoo, ?_⟩
      split at h
      · cases h
        refine .inl ⟨?_, by rw [members_rs, e1]; rfl⟩
        unfold requestSet at hout
        split at hout
        · rename_i e' he; cases hout; exact he
        · simp at hout
      · rename_i l
        simp only [Option.map_eq_some_iff, Prod.mk.injEq] at h
        obtain ⟨w2, h2, rfl, hr⟩ := h
        exact .inr ⟨l, hout, hr.symm, fillTarget_rs e1 h2⟩

/-- The index of a key: all entries, in ascending order. -/
def ordIndex (w : World K V Ty) (o : Nat) (k : K) : List (V × Nat) :=
  match w.getObj o with | some x => (match mget x.cols k with | some c => c.ord | none => []) | none => []

/-- The hash index of a key: all entries. -/
def hashIndex (w : World K V Ty) (o : Nat) (k : K) : List (V × Nat) :=
  match w.getObj o with | some x => (match mget x.cols k with | some c => c.hash | none => []) | none => []

theorem requestSet_fail {env : Env} {vo : Obj K V Ty} {t : ReqType} {k : K} {a b : V} {ia ib : Bool} {n : Option Nat} {pred : Nat → Bool} {acc : List Nat} {res : Res K}
    (h : requestSet env vo t k a b ia ib n pred acc = some (.error res)) : res.ok = false := by
  unfold requestSet at h
  split at h
  · rename_i e he; cases h; exact checkKey_fail he
  · simp at h

theorem andBind_fail {x y : Option (Except (Res K) (List Nat))} {res : Res K} (hx : x = some (.error res) → res.ok = false) (hy : y = some (.error res) → res.ok = false)
    (h : andBind x y = some (.error res)) : res.ok = false := by
  unfold andBind at h
  simp only [Option.bind_eq_some_iff] at h
  obtain ⟨ra, h1, h⟩ := h
  split at h
  · cases h; exact hx h1
  · simp only [Option.bind_eq_some_iff] at h
    obtain ⟨rb, h2, h⟩ := h
    split at h
    · cases h; exact hy h2
    · cases h

theorem evalReq_fail {env : Env} {vo : Obj K V Ty} {q : Req K V} : ∀ {res : Res K}, evalReq env vo q = some (.error res) → res.ok = false := by
  induction q with
  | leaf t k v p => intro res h; exact requestSet_fail h
  | or a b iha ihb =>
    intro res h
    simp only [evalReq, Option.bind_eq_bind, Option.bind_eq_some_iff] at h
    obtain ⟨ra, h1, h⟩ := h
    split at h
    · cases h; exact iha h1
    · simp only [Option.bind_eq_some_iff] at h
      obtain ⟨rb, h2, h⟩ := h
      split at h
      · cases h; exact ihb h2
      · cases h
  | and a b iha ihb =>
    intro res h
    cases a with
    | leaf t1 k1 v1 p1 => cases b with
      | leaf t2 k2 v2 p2 =>
        simp only [evalReq] at h
        split at h
        · split at h
          · cases h
          · exact requestSet_fail h
        · exact andBind_fail requestSet_fail requestSet_fail (x := requestSet env vo t1 k1 v1 v1 false false none p1 []) (y := requestSet env vo t2 k2 v2 v2 false false none p2 []) h
      | and c d => exact andBind_fail iha ihb h
      | or c d => exact andBind_fail iha ihb h
    | and c d => exact andBind_fail iha ihb h
    | or c d => exact andBind_fail iha ihb h

/-- A successful `ask` in any history. -/
theorem ask_any {env : Env} {w w' : World K V Ty} {o : Nat} {k : K} {c : Cond V} {n : Option Nat}
    {pred : Nat → Bool} {s : Nat} {res : Res K} (ha : AI w) (hi : NI w) (hs : NotVault w s) (ht : c.typed c.ty)
    (h : ask env w o k c n pred s = some (w', res)) (hok : res.ok = true) :
    ∃ oo col l, w.getObj o = some oo ∧ mget oo.cols k = some col ∧ col.ty = c.ty ∧ res = .good (some k) ∧ scan env col c = some l ∧
      l.Perm (((c.index col).filter (fun e => decide (c.holds e.1))).map (·.2)) ∧
      members w' s = ((takeOpt n l).filter pred).foldl setIns [] := by
  rw [ask_eq] at h
  rcases request_any ha hi hs h with ⟨_, hf⟩ | ⟨oo, hoo, ⟨hc, _⟩ | ⟨l, hl, hr, hm⟩⟩
  · rw [hf] at hok; cases hok
  · have := checkKey_fail hc; rw [this] at hok; cases hok
  · unfold requestSet at hl
    split at hl
    · cases hl
    · rename_i col hck
      obtain ⟨hc, hty⟩ := checkKey_ok hck
      rw [Cond.typed_snd ht] at hl
      obtain ⟨l0, hs0, hp0⟩ := scan_perm env col ((ha.obj o oo hoo).cols k col hc).sorted c
      have hs1 := hs0
      unfold scan at hs1
      rw [hs1] at hl
      simp only [Option.map_some, Option.some.injEq, Except.ok.injEq] at hl
      change ((takeOpt n l0).filter pred).foldl setIns [] = l at hl
      subst hl
      rw [foldl_setIns_nodup (nodup_foldl_setIns _ _ List.nodup_nil)] at hm
      exact ⟨oo, col, l0, hoo, hc, hty, hr, hs0, hp0, hm⟩

theorem fs_value {l : List Nat} {w w' : World K V Ty} (h : FS l w w') (r : Nat) (k : K) : value w' r k = value w r k := by
  rcases h.getRec r with ⟨h1, h2⟩ | ⟨x, y, h1, h2, e⟩
  · simp [value, h1, h2]
  · simp only [value, h1, h2, Option.bind_some]; rw [e]

theorem fs_alive {l : List Nat} {w w' : World K V Ty} (h : FS l w w') (r : Nat) : alive w' r ↔ alive w r := by
  rcases h.getRec r with ⟨h1, h2⟩ | ⟨x, y, h1, h2, e⟩
  · simp [alive, h1, h2]
  · simp only [alive, h1, h2, Option.some.injEq, exists_eq_left']; rw [e]

theorem fs_members {l : List Nat} {w w' : World K V Ty} (h : FS l w w') {o : Nat} (ho : o ∉ l) : members w' o = members w o := by
  rcases h.getObj ho with ⟨h1, h2⟩ | ⟨x, y, h1, h2, e⟩
  · simp [members, h1, h2]
  · rw [members_eq h1, members_eq h2, e]

/-! ### C17 -/

/-- `r` is a valid record of `o` and its value for `k` satisfies the condition (specification). -/
def Matches (w : World K V Ty) (o : Nat) (k : K) (c : Cond V) (r : Nat) : Prop :=
  r ∈ members w o ∧ alive w r ∧ ∃ v, value w r k = some v ∧ c.holds v

theorem fs_matches {l : List Nat} {w w' : World K V Ty} (h : FS l w w') {o : Nat} (ho : o ∉ l) (k : K) (c : Cond V) (r : Nat) :
    Matches w' o k c r ↔ Matches w o k c r := by
  unfold Matches; rw [fs_members h ho, fs_alive h, fs_value h]

theorem vault_ne_set {w : World K V Ty} {o s : Nat} (ho : isVault w o = true) (hs : isSetObj w s = true) : o ∉ [s] := by
  obtain ⟨vo, h1, h2⟩ := isVault_iff.mp ho
  obtain ⟨so, h3, h4⟩ := isSetObj_iff.mp hs
  intro h; simp at h; subst h; rw [h1] at h3; cases h3; rw [h2] at h4; cases h4

/-- Every record a request on a vault puts into the target set is a valid record of that vault, satisfies the condition and
the predicate, before and after the request; no record is there twice. Without the key, or with another type, the request
fails with `WrongKey` or `WrongType`. Missing: histories with operations that are not ordinary. -/
theorem C17_request_partial {home : Nat → Nat} {w w' : World K V Ty} (hw : HReach Ordinary home w) {env : Env} {o s : Nat} {k : K} {c : Cond V} {n : Option Nat}
    {pred : Nat → Bool} {res : Res K} (ho : isVault w o = true) (hs : isSetObj w s = true) (hh : home s = o) (ht : c.typed c.ty)
    (h : ask env w o k c n pred s = some (w', res)) :
    (∀ r ∈ members w' s, Matches w o k c r ∧ Matches w' o k c r ∧ pred r = true) ∧ (members w' s).Nodup ∧
    (getKeyType w o k = some c.ty → res = .good (some k)) ∧
    (getKeyType w o k ≠ some c.ty → res = .bad (if getKeyType w o k = none then .WrongKey else .WrongType) (some k) ∧ members w' s = []) := by
  obtain ⟨own, hi⟩ := reach_inv hw
  obtain ⟨vo, hvo, hvs⟩ := isVault_iff.mp ho
  obtain ⟨so, hso, hss⟩ := isSetObj_iff.mp hs
  have hfs : FS [s] w w' := by rw [ask_eq] at h; exact request_fs (reach_ai hw.any) (reach_ni hw.any) (.of (reach_ai hw.any) (isSetObj_iff.mp hs)) h
  obtain ⟨_, _, ⟨hm, hc⟩ | ⟨col, l, hc, hty, hr, hl, hn, hm⟩⟩ := ask_vault hi hvo hvs hso hss hh.symm ht h
  · rw [hm]
    exact ⟨by simp, List.nodup_nil, fun e => absurd e (checkKey_answer hvo hc).1, fun _ => ⟨(checkKey_answer hvo hc).2, rfl⟩⟩
  · have hk : getKeyType w o k = some c.ty := by rw [getKeyType_eq hvo, hc]; simp [hty]
    refine ⟨?_, ?_, fun _ => hr, fun e => absurd hk e⟩
    · intro r hr
      rw [hm] at hr
      obtain ⟨hr, hp⟩ := List.mem_filter.mp hr
      obtain ⟨l', hl', _, hs', _⟩ := scan_vault (env := env) ((hi.v.vok o vo hvo hvs).cols k col hc) c
      rw [hl] at hl'; cases hl'
      obtain ⟨h1, v, h2, h3⟩ := hs' r ((takeOpt_sublist n l).subset hr)
      have hM : Matches w o k c r := ⟨by rw [members_eq hvo]; exact h1, (hi.v.mem o vo hvo hvs r h1).2, v, h2, h3⟩
      exact ⟨hM, (fs_matches hfs (vault_ne_set ho hs) k c r).mpr hM, hp⟩
    · rw [hm]; exact hn.sublist (List.filter_sublist.trans (takeOpt_sublist n l))

example : ∃ w' : DW, ask Env.id demoW 0 1 (.between 4 6 false true) (some 1) (fun r => r = 0) 1 = some (w', .good (some 1)) ∧
    members w' 1 = [0] ∧ isVault demoW 0 = true ∧ isSetObj demoW 1 = true ∧ getKeyType demoW 0 1 = some false := ⟨_, rfl, by decide, by decide, by decide, by decide⟩

/-- `GetRecord`: on success the reference points at a valid record of the vault with the value; otherwise the reason is
reported. Missing: as above. -/
theorem C17_getRecord_partial {home : Nat → Nat} {w w' : World K V Ty} (hw : HReach Ordinary home w) {env : Env} {o f : Nat} {k : K} {v : V} {res : Res K}
    (ho : isVault w o = true) (hf : f < w.refs.length) (h : getRecord env w o k v f = some (w', res)) :
    (res.ok = true → res = .good (some k) ∧ ∃ r, target w' f = some r ∧ through w' f = some o ∧ Matches w o k (.eq v) r ∧ Matches w' o k (.eq v) r) ∧
    (getKeyType w o k ≠ some (typeOf v) → w' = w ∧ res = .bad (if getKeyType w o k = none then .WrongKey else .WrongType) (some k)) ∧
    (getKeyType w o k = some (typeOf v) → res.ok = false → res = .bad .WrongValue (some k) ∧ target w' f = none) := by
  obtain ⟨own, hi⟩ := reach_inv hw
  obtain ⟨vo, hvo, hvs⟩ := isVault_iff.mp ho
  have rf := getRecord_rf h
  rcases getRecord_spec hi hvo hvs h with ⟨rfl, hc⟩ | ⟨c, hc, hk, st, h⟩
  · obtain ⟨a1, a2⟩ := checkKey_answer hvo hc
    exact ⟨(fun e => by rw [checkKey_fail hc] at e; cases e), fun _ => ⟨rfl, a2⟩, fun e => absurd e a1⟩
  · have hk' : getKeyType w o k = some (typeOf v) := by rw [getKeyType_eq hvo, hk]; simp [(checkKey_ok hc).2]
    rcases h with ⟨hr, _, hrefs⟩ | ⟨r, l, he, hr, hm, hcell, hrefs⟩
    · subst hr
      exact ⟨(fun e => by cases e), fun e => absurd hk' e, fun _ _ => ⟨rfl, by simp [target, hrefs, hf]⟩⟩
    · subst hr
      refine ⟨fun _ => ⟨rfl, r, by simp [target, hrefs, hf], by simp [through, hrefs, hf], ?_⟩, fun e => absurd hk' e, (fun _ e => by cases e)⟩
      have hal := (hi.v.mem o vo hvo hvs r hm).2
      have hM : Matches w o k (.eq v) r := ⟨by rw [members_eq hvo]; exact hm, hal, v, hcell, rfl⟩
      refine ⟨hM, ?_⟩
      obtain ⟨h1, h2, h3⟩ := hM
      exact ⟨by rw [rf.members]; exact h1, (rf.alive r).mpr h2, by rw [rf.value h2]; exact h3⟩

example : ∃ w' : DW, getRecord Env.id demoW 0 1 6 2 = some (w', .good (some 1)) ∧ target w' 2 = some 1 ∧ 2 < demoW.refs.length := ⟨_, rfl, by decide, by decide⟩
example : ∃ w' : DW, getRecord Env.id demoW 0 1 9 0 = some (w', .bad .WrongValue (some 1)) ∧ target demoW 0 = some 0 ∧ target w' 0 = none := ⟨_, rfl, by decide, by decide⟩

/-- `GetRecords`: the references it returns are different and all point at valid records of the vault with the value; there
are `n` of them (one when `n` is 0) unless no more have been found. Missing: as above. -/
theorem C17_getRecords_partial {home : Nat → Nat} {w w' : World K V Ty} (hw : HReach Ordinary home w) {env : Env} {o n : Nat} {k : K} {v : V} {res : Res K}
    (ho : isVault w o = true) (h : getRecords env w o k v n = some (w', res)) :
    ∃ out : List Nat, w'.refs = w.refs ++ out.map (fun r => ⟨some r, some o⟩) ∧ out.Nodup ∧ out.length ≤ max n 1 ∧
      (∀ r ∈ out, Matches w o k (.eq v) r ∧ Matches w' o k (.eq v) r) ∧ (res.ok = true ↔ out ≠ []) ∧
      (res.ok = true → res = .good (some k)) ∧
      (getKeyType w o k ≠ some (typeOf v) → res = .bad (if getKeyType w o k = none then .WrongKey else .WrongType) (some k)) ∧
      (getKeyType w o k = some (typeOf v) → res.ok = false → res = .bad .WrongValue (some k)) := by
  obtain ⟨own, hi⟩ := reach_inv hw
  obtain ⟨vo, hvo, hvs⟩ := isVault_iff.mp ho
  have rf := getRecords_rf h
  rcases getRecords_spec hi hvo hvs h with ⟨rfl, hc⟩ | ⟨c, hc, hk, h⟩
  · obtain ⟨a1, a2⟩ := checkKey_answer hvo hc
    exact ⟨[], by simp, List.nodup_nil, by simp, by simp, by simp [checkKey_fail hc], (fun e => by rw [checkKey_fail hc] at e; cases e), fun _ => a2, fun e => absurd e a1⟩
  · have hk' : getKeyType w o k = some (typeOf v) := by rw [getKeyType_eq hvo, hk]; simp [(checkKey_ok hc).2]
    rcases h with ⟨rfl, hr, _⟩ | ⟨hne, hr, _, hrefs⟩
    · subst hr
      exact ⟨[], by simp, List.nodup_nil, by simp, by simp, by simp [Res.bad], (fun e => by cases e), fun e => absurd hk' e, fun _ _ => rfl⟩
    · subst hr
      obtain ⟨hn, hs⟩ := equalRange_vault (env := env) hi hvo hvs hk v
      refine ⟨_, hrefs, hn.sublist (List.take_sublist _ _), by simp; omega, ?_, ?_, fun _ => rfl, fun e => absurd hk' e, (fun _ e => by cases e)⟩
      · intro r hr
        obtain ⟨hm, hcell⟩ := hs r (List.mem_of_mem_take hr)
        have hal := (hi.v.mem o vo hvo hvs r hm).2
        have hM : Matches w o k (.eq v) r := ⟨by rw [members_eq hvo]; exact hm, hal, v, hcell, rfl⟩
        refine ⟨hM, ?_⟩
        obtain ⟨h1, h2, h3⟩ := hM
        exact ⟨by rw [rf.members]; exact h1, (rf.alive r).mpr h2, by rw [rf.value h2]; exact h3⟩
      · refine ⟨fun _ => ?_, fun _ => rfl⟩
        cases he : equalRange env c v with
        | nil => exact absurd he hne
        | cons a l => 
          obtain ⟨m, hm⟩ : ∃ m, max n 1 = m + 1 := ⟨max n 1 - 1, by omega⟩
          rw [hm]; simp

example : ∃ w' : DW, getRecords Env.id demoW 0 1 6 7 = some (w', .good (some 1)) ∧ w'.refs.length = demoW.refs.length + 1 ∧ target w' 3 = some 1 := ⟨_, rfl, by decide, by decide⟩

/-- `Request(tree)`: every record in the target set is a valid record of the vault that satisfies the tree. Missing: as above. -/
theorem C17_requestTree_partial {home : Nat → Nat} {w w' : World K V Ty} (hw : HReach Ordinary home w) {env : Env} {o s : Nat} {q : Req K V} {res : Res K}
    (ho : isVault w o = true) (hs : isSetObj w s = true) (hh : home s = o) (h : requestTree env w o q s = some (w', res)) :
    (∀ r ∈ members w' s, r ∈ members w o ∧ alive w r ∧ q.sat w r) ∧ (members w' s).Nodup ∧ (res.ok = false → members w' s = []) := by
  obtain ⟨own, hi⟩ := reach_inv hw
  obtain ⟨vo, hvo, hvs⟩ := isVault_iff.mp ho
  obtain ⟨so, hso, hss⟩ := isSetObj_iff.mp hs
  have hv := hi.v.vok o vo hvo hvs
  obtain ⟨_, _, ⟨hm, he⟩ | ⟨l, hr, he, hm⟩⟩ := requestTree_vault hi hvo hvs hso hss hh.symm h
  · rw [hm]; exact ⟨by simp, List.nodup_nil, fun _ => rfl⟩
  · rw [hm]
    obtain ⟨_, hN, hf⟩ := (evalReq_ok (env := env) hv.cols q).2.1 l he
    refine ⟨fun r hr => ?_, hN, (fun e => by rw [hr] at e; cases e)⟩
    obtain ⟨h1, h2⟩ := found_sat hv.cols ((hf r).mp hr)
    exact ⟨by rw [members_eq hvo]; exact h1, (hi.v.mem o vo hvo hvs r h1).2, h2⟩

example : ∃ w' : DW, requestTree Env.id demoW 0 (.and (.leaf .GreaterOrEqual 1 5 fun _ => true) (.or (.leaf .Equal 2 8 fun _ => true) (.leaf .Less 2 3 fun _ => true))) 1
    = some (w', .good none) ∧ members w' 1 = [1] := ⟨_, rfl, by decide⟩

/-! ### C18 -/

/-- A request without limit on a unique key gives exactly the records of the vault that satisfy the condition and the
predicate. Missing: histories with operations that are not ordinary, where it is false (`C18_refuted`). -/
theorem C18_unique_complete_partial {home : Nat → Nat} {w w' : World K V Ty} (hw : HReach Ordinary home w) {env : Env} {o s : Nat} {k : K} {c : Cond V}
    {pred : Nat → Bool} {res : Res K} (ho : isVault w o = true) (hs : isSetObj w s = true) (hh : home s = o) (ht : c.typed c.ty)
    (hk : k ∈ getUniqueKeys w o) (hty : getKeyType w o k = some c.ty) (h : ask env w o k c none pred s = some (w', res)) :
    res = .good (some k) ∧ ∀ r, r ∈ members w' s ↔ Matches w o k c r ∧ pred r = true := by
  have hS := C17_request_partial hw ho hs hh ht h
  refine ⟨hS.2.2.1 hty, fun r => ⟨fun hr => ⟨(hS.1 r hr).1, (hS.1 r hr).2.2⟩, ?_⟩⟩
  rintro ⟨⟨hr, _, v, hv, hc⟩, hp⟩
  obtain ⟨own, hi⟩ := reach_inv hw
  obtain ⟨vo, hvo, hvs⟩ := isVault_iff.mp ho
  obtain ⟨so, hso, hss⟩ := isSetObj_iff.mp hs
  obtain ⟨_, _, ⟨_, hc'⟩ | ⟨col, l, hcol, _, _, hl, _, hm⟩⟩ := ask_vault hi hvo hvs hso hss hh.symm ht h
  · exact absurd hty (checkKey_answer hvo hc').1
  · have ok := hi.v.vok o vo hvo hvs
    rw [getUniqueKeys_eq hvo] at hk
    obtain ⟨col', hc1, hmul⟩ := (ok.uniqM k).mp hk
    rw [hcol] at hc1; cases hc1
    obtain ⟨d1, d2, _⟩ := (ok.cols k col hcol).uniq hmul
    obtain ⟨l', hl', _, _, hcomp⟩ := scan_vault (env := env) (ok.cols k col hcol) c
    rw [hl] at hl'; cases hl'
    rw [members_eq hvo] at hr
    rw [hm]
    exact List.mem_filter.mpr ⟨hcomp (fun _ => d2) (fun _ => d1) r hr v hv hc, hp⟩

example : ∃ w' : DW, ask Env.id demoW 0 2 (.ge 7) none (fun _ => true) 1 = some (w', .good (some 2)) ∧ members w' 1 = [0, 1] ∧ 2 ∈ getUniqueKeys demoW 0 :=
  ⟨_, rfl, by decide, by decide⟩

/-- A copied vault does not enforce uniqueness (C37); two records get the same value, one of them is changed, and the other
is not found any more. -/
theorem C18_refuted : ∃ w w' : DW, Reach (fun _ _ => True) w ∧ isVault w 1 = true ∧ isSetObj w 2 = true ∧ 2 ∈ getUniqueKeys w 1 ∧
    ask Env.id w 1 2 (.eq 7) none (fun _ => true) 2 = some (w', .good (some 2)) ∧ Matches w 1 2 (.eq 7) 1 ∧ members w' 2 = [] := by
  refine ⟨_, _, anyRun_reach (l := [.newVault, .addUniqueKey 0 2 false true (fun _ _ _ => 0), .vaultCopyNew 0, .newSet, .newRef, .newRef,
    .createRecord 1 0 [(2, 7)], .createRecord 1 1 [(2, 7)], .refSetData 0 2 8]) rfl, by decide, by decide, by decide, rfl, ⟨by decide, ⟨_, rfl, rfl⟩, 7, rfl, rfl⟩, by decide⟩

/-! ### C20 -/

theorem foldl_setIns_length (l acc : List Nat) : (l.foldl setIns acc).length ≤ acc.length + l.length := by
  induction l generalizing acc with
  | nil => simp
  | cons a l ih =>
    simp only [List.foldl_cons, List.length_cons]
    refine (ih _).trans ?_
    unfold setIns; split <;> simp <;> omega

/-- After any history, a request with limit `n`, on a vault or a set, gives at most `n` records, and they pass the predicate. -/
theorem C20_at_most {G : World K V Ty → Op K V Ty → Prop} {w w' : World K V Ty} (hw : Reach G w) {env : Env} {o s : Nat} {k : K} {c : Cond V} {n : Nat}
    {pred : Nat → Bool} {res : Res K} (hs : isSetObj w s = true) (ht : c.typed c.ty)
    (h : ask env w o k c (some n) pred s = some (w', res)) (hok : res.ok = true) :
    (members w' s).length ≤ n ∧ ∀ r ∈ members w' s, pred r = true := by
  obtain ⟨oo, col, l, _, _, _, _, _, _, hm⟩ := ask_any (reach_ai hw) (reach_ni hw) (.of (reach_ai hw) (isSetObj_iff.mp hs)) ht h hok
  rw [hm]
  constructor
  · refine (foldl_setIns_length _ _).trans ?_
    simp only [List.length_nil, Nat.zero_add]
    refine (List.filter_sublist.length_le).trans ?_
    simp only [takeOpt, List.length_take]; omega
  · intro r hr
    rcases (mem_foldl_setIns _ _ _).mp hr with hr | hr
    · cases hr
    · exact (List.mem_filter.mp hr).2

example : ∃ w' : DW, ask Env.rev demoW 0 1 (.ge 5) (some 1) (fun _ => true) 1 = some (w', .good (some 1)) ∧ (members w' 1).length = 1 := ⟨_, rfl, by decide⟩

theorem take_length_min {A : Type} (l : List A) (n : Nat) : (l.take n).length = min n l.length := by simp

/-- A request with limit `n` and without predicate, on a vault: compared with the same request without limit it gives only
records that one gives, as many as there are up to `n`, and for conditions other than equality the ones with the smallest
values. Missing: histories with operations that are not ordinary. -/
theorem C20_limit_partial {home : Nat → Nat} {w w1 w2 : World K V Ty} (hw : HReach Ordinary home w) {env env' : Env} {o s : Nat} {k : K} {c : Cond V} {n : Nat}
    {res1 res2 : Res K} (ho : isVault w o = true) (hs : isSetObj w s = true) (hh : home s = o) (ht : c.typed c.ty)
    (h1 : ask env w o k c (some n) (fun _ => true) s = some (w1, res1)) (h2 : ask env' w o k c none (fun _ => true) s = some (w2, res2)) :
    res1 = res2 ∧ (∀ r ∈ members w1 s, r ∈ members w2 s) ∧ (members w1 s).length = min n (members w2 s).length ∧ (members w1 s).Nodup ∧ (members w2 s).Nodup ∧
    (c.ordered = true → ∀ r ∈ members w1 s, ∀ r' ∈ members w2 s, r' ∉ members w1 s →
      ∃ v v', value w r k = some v ∧ value w r' k = some v' ∧ v ≤ v') := by
  obtain ⟨own, hi⟩ := reach_inv hw
  obtain ⟨vo, hvo, hvs⟩ := isVault_iff.mp ho
  obtain ⟨so, hso, hss⟩ := isSetObj_iff.mp hs
  have ok := hi.v.vok o vo hvo hvs
  have n1 := (C17_request_partial hw ho hs hh ht h1).2.1
  have n2 := (C17_request_partial hw ho hs hh ht h2).2.1
  obtain ⟨_, _, ⟨m1, e1⟩ | ⟨col, l, hc, _, r1, s1, _, m1⟩⟩ := ask_vault hi hvo hvs hso hss hh.symm ht h1 <;>
    obtain ⟨_, _, ⟨m2, e2⟩ | ⟨col', l', hc', _, r2, s2, _, m2⟩⟩ := ask_vault hi hvo hvs hso hss hh.symm ht h2
  · rw [e1] at e2; cases e2
    rw [m1, m2]; simp
  · exfalso; unfold checkKey at e1; simp_all
  · exfalso; unfold checkKey at e2; simp_all
  · rw [hc] at hc'; cases hc'
    have hf : ∀ l : List Nat, l.filter (fun _ => true) = l := fun l => by simp
    rw [hf] at m1 m2
    simp only [takeOpt] at m1 m2
    have cok := ok.cols k col hc
    obtain ⟨l1, q1, p1⟩ := scan_perm env col cok.sorted c
    obtain ⟨l2, q2, p2⟩ := scan_perm env' col cok.sorted c
    rw [s1] at q1; cases q1
    rw [s2] at q2; cases q2
    have p := p1.trans p2.symm
    refine ⟨by rw [r1, r2], ?_, ?_, n1, n2, ?_⟩
    · intro r hr; rw [m1] at hr; rw [m2]; exact p.mem_iff.mp (List.mem_of_mem_take hr)
    · rw [m1, m2, take_length_min, p.length_eq]
    · intro ho' r hr r' hr' hn
      rw [scan_ordered env col cok.sorted c ho'] at s1
      cases s1
      rw [m1] at hr hn
      rw [m2] at hr'
      have hr' := p.mem_iff.mpr hr'
      rw [← List.map_take] at hr hn
      rw [← List.take_append_drop n (col.ord.filter _), List.map_append, List.mem_append] at hr'
      rcases hr' with hr' | hr'
      · exact absurd hr' hn
      obtain ⟨e, he, rfl⟩ := List.mem_map.mp hr
      obtain ⟨e', he', rfl⟩ := List.mem_map.mp hr'
      have hsub : ∀ x ∈ col.ord.filter (fun e => decide (c.holds e.1)), x ∈ col.ord := fun x hx => (List.mem_filter.mp hx).1
      refine ⟨e.1, e'.1, (cok.ordS _ _ (hsub _ (List.mem_of_mem_take he))).2, (cok.ordS _ _ (hsub _ (List.mem_of_mem_drop he'))).2, ?_⟩
      have hp := cok.sorted.sublist (List.filter_sublist (p := fun e => decide (c.holds e.1)))
      rw [← List.take_append_drop n (col.ord.filter _), List.pairwise_append] at hp
      exact hp.2.2 e he e' he'

example : ∃ w1 w2 : DW, ask Env.rev demoW 0 1 (.ge 5) (some 1) (fun _ => true) 1 = some (w1, .good (some 1)) ∧
    ask Env.id demoW 0 1 (.ge 5) none (fun _ => true) 1 = some (w2, .good (some 1)) ∧ members w1 1 = [0] ∧ members w2 1 = [0, 1] ∧
    value demoW 0 1 = some 5 ∧ value demoW 1 1 = some 6 := ⟨_, _, rfl, rfl, by decide, by decide, by decide, by decide⟩

/-! ### C21 -/

/-- After any history, `RequestInterval` on a vault or set gives exactly the records that the key's index lists with a value
strictly between the ends, or equal to an included end (and that pass the predicate); the index is in ascending order and is
what `GetSortedRecords` returns. Both ends must have the same type (C++ typing). -/
theorem C21_interval {G : World K V Ty → Op K V Ty → Prop} {w w' : World K V Ty} (hw : Reach G w) {env : Env} {o s : Nat} {k : K} {a b : V} {ia ib : Bool}
    {pred : Nat → Bool} {res : Res K} (hs : isSetObj w s = true) (ht : typeOf a = typeOf b)
    (h : request env w o .Interval k a b ia ib none pred s = some (w', res)) (hok : res.ok = true) :
    (∀ r, r ∈ members w' s ↔ pred r = true ∧ ∃ v, (v, r) ∈ ordIndex w o k ∧ ((a < v ∧ v < b) ∨ (v = a ∧ ia = true ∧ (a < b ∨ (a = b ∧ ib = true))) ∨
      (v = b ∧ ib = true ∧ (a < b ∨ (a = b ∧ ia = true))))) ∧
    (b < a ∨ (a = b ∧ (ia = false ∨ ib = false)) → members w' s = []) ∧
    (ordIndex w o k).Pairwise (fun x y => x.1 ≤ y.1) := by
  have h' : ask env w o k (.between a b ia ib) none pred s = some (w', res) := h
  obtain ⟨oo, col, l, hoo, hc, hty, hr, hl, hp, hm⟩ := ask_any (reach_ai hw) (reach_ni hw) (.of (reach_ai hw) (isSetObj_iff.mp hs))
    (c := .between a b ia ib) ⟨rfl, ht.symm⟩ h' hok
  have hidx : ordIndex w o k = col.ord := by simp [ordIndex, hoo, hc]
  have hmem : ∀ r, r ∈ members w' s ↔ pred r = true ∧ ∃ v, (v, r) ∈ ordIndex w o k ∧ (Cond.between a b ia ib).holds v := by
    intro r
    rw [hm, mem_foldl_setIns, List.mem_filter, hidx]
    simp only [takeOpt, hp.mem_iff, List.mem_map, List.mem_filter, Cond.index, Cond.ordered, if_true, decide_eq_true_eq, Prod.exists, exists_eq_right]
    constructor
    · rintro (h | ⟨⟨v, h1, h2⟩, h3⟩)
      · cases h
      · exact ⟨h3, v, h1, h2⟩
    · rintro ⟨h3, v, h1, h2⟩; exact .inr ⟨⟨v, h1, h2⟩, h3⟩
  have hiff : ∀ v, (Cond.between a b ia ib).holds v ↔ ((a < v ∧ v < b) ∨ (v = a ∧ ia = true ∧ (a < b ∨ (a = b ∧ ib = true))) ∨
      (v = b ∧ ib = true ∧ (a < b ∨ (a = b ∧ ia = true)))) := by
    intro v
    simp only [Cond.holds]
    constructor
    · rintro ⟨h1 | ⟨h1, rfl⟩, h2 | ⟨h2, rfl⟩⟩
      · exact .inl ⟨h1, h2⟩
      · exact .inr (.inr ⟨rfl, h2, .inl h1⟩)
      · exact .inr (.inl ⟨rfl, h1, .inl h2⟩)
      · exact .inr (.inl ⟨rfl, h1, .inr ⟨rfl, h2⟩⟩)
    · rintro (⟨h1, h2⟩ | ⟨rfl, h1, h2 | ⟨rfl, h2⟩⟩ | ⟨rfl, h1, h2 | ⟨rfl, h2⟩⟩)
      · exact ⟨.inl h1, .inl h2⟩
      · exact ⟨.inr ⟨h1, rfl⟩, .inl h2⟩
      · exact ⟨.inr ⟨h1, rfl⟩, .inr ⟨h2, rfl⟩⟩
      · exact ⟨.inl h2, .inr ⟨h1, rfl⟩⟩
      · exact ⟨.inr ⟨h2, rfl⟩, .inr ⟨h1, rfl⟩⟩
  refine ⟨fun r => by rw [hmem]; simp only [hiff], ?_, by rw [hidx]; exact (((reach_ai hw).obj o oo hoo).cols k col hc).sorted⟩
  intro he
  rw [List.eq_nil_iff_forall_not_mem]
  intro r hr
  obtain ⟨_, v, _, hv⟩ := (hmem r).mp hr
  rw [hiff] at hv
  rcases he with he | ⟨rfl, he⟩
  · have h1 := not_lt_of_gt he
    have h2 : a ≠ b := ne_of_gt he
    rcases hv with ⟨x, y⟩ | ⟨_, _, x | ⟨x, _⟩⟩ | ⟨_, _, x | ⟨x, _⟩⟩
    · exact h1 (lt_trans x y)
    · exact h1 x
    · exact h2 x
    · exact h1 x
    · exact h2 x
  · rcases hv with ⟨x, y⟩ | ⟨_, x, y | ⟨_, y⟩⟩ | ⟨_, x, y | ⟨_, y⟩⟩
    · exact lt_irrefl _ (lt_trans x y)
    · exact lt_irrefl _ y
    · rcases he with he | he
      · rw [he] at x; cases x
      · rw [he] at y; cases y
    · exact lt_irrefl _ y
    · rcases he with he | he
      · rw [he] at y; cases y
      · rw [he] at x; cases x

example : ∃ w' : DW, request Env.id demoW 0 .Interval 1 5 6 false true none (fun _ => true) 1 = some (w', .good (some 1)) ∧ members w' 1 = [1] ∧
    ordIndex demoW 0 1 = [(5, 0), (6, 1)] := ⟨_, rfl, by decide, by decide⟩
example : ∃ w' : DW, request Env.id demoW 0 .Interval 1 5 5 true false none (fun _ => true) 1 = some (w', .good (some 1)) ∧ members w' 1 = [] := ⟨_, rfl, by decide⟩

/-- In terms of the records: on a vault, the index lists records of the vault with their current values, so `RequestInterval`
selects by value. Missing: histories with operations that are not ordinary; that the index lists all records (C19). -/
theorem C21_values_partial {home : Nat → Nat} {w : World K V Ty} (hw : HReach Ordinary home w) {o : Nat} (ho : isVault w o = true) {k : K} {v : V} {r : Nat}
    (h : (v, r) ∈ ordIndex w o k) : r ∈ members w o ∧ value w r k = some v := by
  obtain ⟨own, hi⟩ := reach_inv hw
  obtain ⟨vo, hvo, hvs⟩ := isVault_iff.mp ho
  unfold ordIndex at h
  simp only [hvo] at h
  split at h
  · rename_i c hc
    rw [members_eq hvo]; exact ((hi.v.vok o vo hvo hvs).cols k c hc).ordS v r h
  · cases h

example : (6, 1) ∈ ordIndex demoW 0 1 ∧ 1 ∈ members demoW 0 ∧ value demoW 1 1 = some 6 := by decide

/-! ### C22 -/

/-- On the same vault in the same state: when both operands succeed, `And` gives exactly the records given by both, also when
it takes the interval fast path, and `Or` the records given by at least one; when an operand fails they fail. Each request may
meet its own iteration orders. Missing: histories with operations that are not ordinary; requests without defined result
(`C22_refuted`). -/
theorem C22_combinators_partial {home : Nat → Nat} {w wa wb w' : World K V Ty} (hw : HReach Ordinary home w) {e1 e2 e3 : Env} {o s : Nat} {a b : Req K V} {ra rb res : Res K}
    (ho : isVault w o = true) (hs : isSetObj w s = true) (hh : home s = o)
    (ha : requestTree e1 w o a s = some (wa, ra)) (hb : requestTree e2 w o b s = some (wb, rb)) :
    (requestTree e3 w o (.and a b) s = some (w', res) →
      res.ok = (ra.ok && rb.ok) ∧ (res.ok = true → ∀ r, r ∈ members w' s ↔ r ∈ members wa s ∧ r ∈ members wb s)) ∧
    (requestTree e3 w o (.or a b) s = some (w', res) →
      res.ok = (ra.ok && rb.ok) ∧ (res.ok = true → ∀ r, r ∈ members w' s ↔ r ∈ members wa s ∨ r ∈ members wb s)) := by
  obtain ⟨own, hi⟩ := reach_inv hw
  obtain ⟨vo, hvo, hvs⟩ := isVault_iff.mp ho
  obtain ⟨so, hso, hss⟩ := isSetObj_iff.mp hs
  have hv := hi.v.vok o vo hvo hvs
  have key : ∀ {env : Env} {q : Req K V} {w' : World K V Ty} {res : Res K}, requestTree env w o q s = some (w', res) →
      (res.ok = true ↔ q.keysOk vo) ∧ (res.ok = true → ∀ r, r ∈ members w' s ↔ q.found vo r) := by
    intro env q w' res h
    obtain ⟨_, _, ⟨hm, he⟩ | ⟨l, hr, he, hm⟩⟩ := requestTree_vault hi hvo hvs hso hss hh.symm h
    · have hf : res.ok = false := evalReq_fail he
      exact ⟨⟨(fun e => by rw [hf] at e; cases e), fun e => absurd e ((evalReq_ok (env := env) hv.cols q).1 res he)⟩, (fun e => by rw [hf] at e; cases e)⟩
    · obtain ⟨h1, _, h2⟩ := (evalReq_ok (env := env) hv.cols q).2.1 l he
      exact ⟨⟨fun _ => h1, fun _ => by rw [hr]; rfl⟩, fun _ r => by rw [hm]; exact h2 r⟩
  have ka := key ha
  have kb := key hb
  have hbool : ∀ {x y z : Bool} {p q : Prop}, (x = true ↔ p ∧ q) → (y = true ↔ p) → (z = true ↔ q) → x = (y && z) := by
    intro x y z p q h1 h2 h3
    rw [← h2, ← h3, ← Bool.and_eq_true] at h1
    exact Bool.eq_iff_iff.mpr h1
  constructor
  · intro h
    have kc := key h
    refine ⟨hbool kc.1 ka.1 kb.1, fun hok r => ?_⟩
    have hk := kc.1.mp hok
    rw [kc.2 hok, ka.2 (ka.1.mpr hk.1), kb.2 (kb.1.mpr hk.2)]; rfl
  · intro h
    have kc := key h
    refine ⟨hbool kc.1 ka.1 kb.1, fun hok r => ?_⟩
    have hk := kc.1.mp hok
    rw [kc.2 hok, ka.2 (ka.1.mpr hk.1), kb.2 (kb.1.mpr hk.2)]; rfl

/-- The fast path: greater than 4 and less than 6. -/
example : ∃ wa wb w' : DW, requestTree Env.id demoW 0 (.leaf .Greater 1 4 fun _ => true) 1 = some (wa, .good none) ∧
    requestTree Env.id demoW 0 (.leaf .Less 1 6 fun _ => true) 1 = some (wb, .good none) ∧
    requestTree Env.id demoW 0 (.and (.leaf .Greater 1 4 fun _ => true) (.leaf .Less 1 6 fun _ => true)) 1 = some (w', .good none) ∧
    members wa 1 = [0, 1] ∧ members wb 1 = [0] ∧ members w' 1 = [0] := ⟨_, _, _, rfl, rfl, rfl, by decide, by decide, by decide⟩

/-- The fast path reads the second value as the type of the first one: with values of different types `And` is undefined,
although each operand has a defined result. -/
theorem C22_refuted : ∃ w wa wb : DW, HReach Ordinary (fun _ => 0) w ∧ isVault w 0 = true ∧ isSetObj w 1 = true ∧
    requestTree Env.id w 0 (.leaf .Greater 1 4 fun _ => true) 1 = some (wa, .good none) ∧
    requestTree Env.id w 0 (.leaf .Less 1 100 fun _ => true) 1 = some (wb, .bad .WrongType (some 1)) ∧
    requestTree Env.id w 0 (.and (.leaf .Greater 1 4 fun _ => true) (.leaf .Less 1 100 fun _ => true)) 1 = none :=
  ⟨demoW, _, _, demoW_reach, by decide, by decide, rfl, rfl, rfl⟩

end MVault.W
