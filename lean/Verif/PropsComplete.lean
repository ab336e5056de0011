import Verif.WorldFull
/-
C19, C46: look-ups find every record, as long as values are kept apart.
-/
set_option linter.unusedSectionVars false
set_option linter.unusedSimpArgs false
namespace MVault.W
variable {K V Ty : Type} [LinearOrder K] [LinearOrder V] [Typed V Ty] [DecidableEq Ty]

/-! ### C19 -/

/-- The keys of a request tree. -/
def Req.keys : Req K V → List K
  | .leaf _ k _ _ => [k]
  | .and a b => a.keys ++ b.keys
  | .or a b => a.keys ++ b.keys

theorem sat_found {home own : Nat → Nat} {w : World K V Ty} {o : Nat} {vo : Obj K V Ty} (hi : Inv own home w) (ho : w.getObj o = some vo) (hs : vo.isSet = false)
    {q : Req K V} (hf : ∀ k ∈ q.keys, FullAt w o k) (hk : q.keysOk vo) {r : Nat} (hr : r ∈ vo.recs) (h : q.sat w r) : q.found vo r := by
  induction q with
  | leaf t k v pred =>
    obtain ⟨⟨v', hv, hh⟩, hp⟩ := h
    obtain ⟨col, hc, _⟩ := hk
    obtain ⟨h1, h2⟩ := hf k (by simp [Req.keys]) vo col ho hs hc r hr v' hv
    refine ⟨⟨col, v', hc, ?_, hh⟩, hp⟩
    unfold Cond.index; split <;> assumption
  | and a b iha ihb =>
    exact ⟨iha (fun k h => hf k (List.mem_append_left _ h)) hk.1 h.1, ihb (fun k h => hf k (List.mem_append_right _ h)) hk.2 h.2⟩
  | or a b iha ihb =>
    rcases h with h | h
    · exact .inl (iha (fun k h => hf k (List.mem_append_left _ h)) hk.1 h)
    · exact .inr (ihb (fun k h => hf k (List.mem_append_right _ h)) hk.2 h)

/-- A request without limit gives exactly the records of the vault that satisfy the condition and the predicate. Missing for
the full claim: histories in which a record is erased, or its value is changed, while another record of the vault has the same
value for the key (`Apart` excludes them; the claim is false there, `C19_refuted`), and operations that are not ordinary. -/
theorem C19_request_complete_partial {home : Nat → Nat} {w w' : World K V Ty} {o : Nat} {k : K} (hw : HReach (OrdinaryApart o [k]) home w) {env : Env} {s : Nat}
    {c : Cond V} {pred : Nat → Bool} {res : Res K} (ho : isVault w o = true) (hs : isSetObj w s = true) (hh : home s = o) (ht : c.typed c.ty)
    (hty : getKeyType w o k = some c.ty) (h : ask env w o k c none pred s = some (w', res)) :
    res = .good (some k) ∧ ∀ r, r ∈ members w' s ↔ Matches w o k c r ∧ pred r = true := by
  have hwo := OrdinaryApart.reach hw
  have hS := C17_request_partial hwo ho hs hh ht h
  refine ⟨hS.2.2.1 hty, fun r => ⟨fun hr => ⟨(hS.1 r hr).1, (hS.1 r hr).2.2⟩, ?_⟩⟩
  rintro ⟨⟨hr, _, v, hv, hc⟩, hp⟩
  obtain ⟨own, hi⟩ := reach_inv hwo
  obtain ⟨vo, hvo, hvs⟩ := isVault_iff.mp ho
  obtain ⟨so, hso, hss⟩ := isSetObj_iff.mp hs
  obtain ⟨_, _, ⟨_, hc'⟩ | ⟨col, l, hcol, _, _, hl, _, hm⟩⟩ := ask_vault hi hvo hvs hso hss hh.symm ht h
  · exact absurd hty (checkKey_answer hvo hc').1
  · rw [hm]
    rw [members_eq hvo] at hr
    obtain ⟨h1, h2⟩ := reach_full hw (k := k) (by simp) vo col hvo hvs hcol r hr v hv
    obtain ⟨l', hl', hp'⟩ := scan_perm env col ((hi.v.vok o vo hvo hvs).cols k col hcol).sorted c
    rw [hl] at hl'; cases hl'
    refine List.mem_filter.mpr ⟨?_, hp⟩
    show r ∈ l
    rw [hp'.mem_iff, List.mem_map]
    refine ⟨(v, r), List.mem_filter.mpr ⟨?_, decide_eq_true hc⟩, rfl⟩
    unfold Cond.index; split <;> assumption

/-- The same for request trees: exactly the records of the vault that satisfy the tree. -/
theorem C19_requestTree_complete_partial {home : Nat → Nat} {w w' : World K V Ty} {o : Nat} {q : Req K V} (hw : HReach (OrdinaryApart o q.keys) home w) {env : Env} {s : Nat}
    {res : Res K} (ho : isVault w o = true) (hs : isSetObj w s = true) (hh : home s = o)
    (h : requestTree env w o q s = some (w', res)) (hok : res.ok = true) :
    ∀ r, r ∈ members w' s ↔ r ∈ members w o ∧ alive w r ∧ q.sat w r := by
  have hwo := OrdinaryApart.reach hw
  intro r
  refine ⟨(C17_requestTree_partial hwo ho hs hh h).1 r, ?_⟩
  rintro ⟨hr, _, hsat⟩
  obtain ⟨own, hi⟩ := reach_inv hwo
  obtain ⟨vo, hvo, hvs⟩ := isVault_iff.mp ho
  obtain ⟨so, hso, hss⟩ := isSetObj_iff.mp hs
  have hv := hi.v.vok o vo hvo hvs
  obtain ⟨_, _, ⟨hm, he⟩ | ⟨l, hr', he, hm⟩⟩ := requestTree_vault hi hvo hvs hso hss hh.symm h
  · rw [evalReq_fail he] at hok; cases hok
  · obtain ⟨hk, _, hf⟩ := (evalReq_ok (env := env) hv.cols q).2.1 l he
    rw [hm, hf]
    rw [members_eq hvo] at hr
    exact sat_found hi hvo hvs (fun k hk => reach_full hw hk) hk hr hsat

/-- A history with records that share values: two are given the same value, and all of the records with it are erased together;
another one is changed while its value is its own. -/
def apartOps : List DO :=
  [.newVault, .addKey 0 1 5, .addKey 0 2 0, .newRef, .newRef, .newRef, .newRef, .createRecord 0 0 [(1, 6), (2, 8)], .createRecord 0 1 [(1, 6), (2, 9)], .createRecord 0 2 [(1, 7), (2, 3)],
   .createRecord 0 3 [(1, 4), (2, 1)], .refSetData 2 1 4, .eraseManyKV 0 1 6 9, .newSet]
/-- The world after `apartOps`. -/
def apartW : DW := (apartRun [1, 2] apartOps).getD World.empty
theorem apartW_reach : HReach (OrdinaryApart 0 [1, 2]) (fun _ => 0) apartW := apartRun_reach (l := apartOps) rfl
theorem apartW_reach1 : HReach (OrdinaryApart 0 [1]) (fun _ => 0) apartW :=
  apartW_reach.mono fun _ _ _ g => ⟨g.1, fun k hk => g.2 k (by simp at hk; simp [hk])⟩

example : ∃ w' : DW, ask Env.id apartW 0 1 (.le 4) none (fun r => r ≠ 9) 1 = some (w', .good (some 1)) ∧ members w' 1 = [3, 2] ∧
    isVault apartW 0 = true ∧ isSetObj apartW 1 = true ∧ getKeyType apartW 0 1 = some false := ⟨_, rfl, by decide, by decide, by decide, by decide⟩
example : ∃ w' : DW, requestTree Env.id apartW 0 (.and (.leaf .Equal 1 4 fun _ => true) (.leaf .Greater 2 2 fun _ => true)) 1 = some (w', .good none) ∧ members w' 1 = [2] :=
  ⟨_, rfl, by decide⟩

/-- Two records share a value; the value of one of them is changed; a request for the old value does not give the other. -/
theorem C19_refuted : ∃ w w' : DW, HReach Ordinary (fun _ => 0) w ∧ isVault w 0 = true ∧ isSetObj w 1 = true ∧ getKeyType w 0 1 = some false ∧
    ask Env.id w 0 1 (.eq 5) none (fun _ => true) 1 = some (w', .good (some 1)) ∧ Matches w 0 1 (.eq 5) 1 ∧ members w' 1 = [] := by
  refine ⟨_, _, demo_reach (l := [.newVault, .newSet, .addKey 0 1 5, .newRef, .newRef, .createRecord 0 0 [], .createRecord 0 1 [], .refSetData 0 1 8]) rfl,
    by decide, by decide, by decide, rfl, ⟨by decide, ⟨_, rfl, rfl⟩, 5, rfl, rfl⟩, by decide⟩

/-- The same after erasing one of the two records, for conditions other than equality. -/
theorem C19_refuted_erase : ∃ w w' : DW, HReach Ordinary (fun _ => 0) w ∧ isVault w 0 = true ∧ isSetObj w 1 = true ∧ getKeyType w 0 1 = some false ∧
    ask Env.id w 0 1 (.le 5) none (fun _ => true) 1 = some (w', .good (some 1)) ∧ Matches w 0 1 (.le 5) 1 ∧ members w' 1 = [] := by
  refine ⟨_, _, demo_reach (l := [.newVault, .newSet, .addKey 0 1 5, .newRef, .newRef, .createRecord 0 0 [], .createRecord 0 1 [], .eraseRef 0 0]) rfl,
    by decide, by decide, by decide, rfl, ⟨by decide, ⟨_, rfl, rfl⟩, 5, rfl, ?_⟩, by decide⟩
  show (5 : Nat) ≤ 5
  decide

/-! ### C46 -/

/-- `GetRecord` succeeds exactly when the vault has a valid record with the value; then the reference points at such a record,
otherwise the result is `WrongValue` and the reference points nowhere. Missing: as for C19 (`C46_refuted`). -/
theorem C46_getRecord_partial {home : Nat → Nat} {w w' : World K V Ty} {o : Nat} {k : K} (hw : HReach (OrdinaryApart o [k]) home w) {env : Env} {f : Nat} {v : V} {res : Res K}
    (ho : isVault w o = true) (hf : f < w.refs.length) (hty : getKeyType w o k = some (typeOf v)) (h : getRecord env w o k v f = some (w', res)) :
    (res.ok = true ↔ ∃ r, Matches w o k (.eq v) r) ∧
    (res.ok = true → ∃ r, target w' f = some r ∧ Matches w o k (.eq v) r) ∧
    (res.ok = false → res = .bad .WrongValue (some k) ∧ target w' f = none) := by
  have hwo := OrdinaryApart.reach hw
  have hS := C17_getRecord_partial hwo ho hf h
  refine ⟨⟨fun e => ?_, ?_⟩, fun e => ?_, hS.2.2 hty⟩
  · obtain ⟨_, r, _, _, h, _⟩ := hS.1 e; exact ⟨r, h⟩
  · rintro ⟨r, hr, _, v', hv, hc⟩
    cases (show v' = v from hc)
    obtain ⟨own, hi⟩ := reach_inv hwo
    obtain ⟨vo, hvo, hvs⟩ := isVault_iff.mp ho
    rcases getRecord_spec hi hvo hvs h with ⟨rfl, hc⟩ | ⟨c, _, hk, _, ⟨_, he, _⟩ | ⟨_, _, _, hres, _⟩⟩
    · exact absurd hty (checkKey_answer hvo hc).1
    · exfalso
      rw [members_eq hvo] at hr
      have h1 := (reach_full hw (k := k) (by simp) vo c hvo hvs hk r hr v hv).1
      have : r ∈ equalRange env c v := by
        unfold equalRange
        rw [(env.isPerm _).mem_iff, List.mem_map]
        exact ⟨(v, r), List.mem_filter.mpr ⟨h1, by simp⟩, rfl⟩
      rw [he] at this; cases this
    · rw [hres]; rfl
  · obtain ⟨_, r, h1, _, h2, _⟩ := hS.1 e; exact ⟨r, h1, h2⟩

example : ∃ w' : DW, getRecord Env.id apartW 0 1 4 0 = some (w', .good (some 1)) ∧ target w' 0 = some 3 ∧ 0 < apartW.refs.length ∧ getKeyType apartW 0 1 = some false :=
  ⟨_, rfl, by decide, by decide, by decide⟩
example : ∃ w' : DW, getRecord Env.id apartW 0 1 6 3 = some (w', .bad .WrongValue (some 1)) ∧ target apartW 3 = some 3 ∧ target w' 3 = none := ⟨_, rfl, by decide, by decide⟩

/-- A record with the value exists, and `GetRecord` says there is none. -/
theorem C46_refuted : ∃ w w' : DW, HReach Ordinary (fun _ => 0) w ∧ isVault w 0 = true ∧ getKeyType w 0 1 = some false ∧
    Matches w 0 1 (.eq 5) 1 ∧ getRecord Env.id w 0 1 5 2 = some (w', .bad .WrongValue (some 1)) := by
  refine ⟨_, _, demo_reach (l := [.newVault, .newRef, .addKey 0 1 5, .newRef, .newRef, .createRecord 0 0 [], .createRecord 0 1 [], .refSetData 0 1 8]) rfl,
    by decide, by decide, ⟨by decide, ⟨_, rfl, rfl⟩, 5, rfl, rfl⟩, rfl⟩

end MVault.W
