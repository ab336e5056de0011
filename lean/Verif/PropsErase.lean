import Verif.PropsComplete
/-
C23, C30: erasing records, `DropData`, `DropVault`.
-/
set_option linter.unusedSectionVars false
set_option linter.unusedSimpArgs false
namespace MVault.W
variable {K V Ty : Type} [LinearOrder K] [LinearOrder V] [Typed V Ty] [DecidableEq Ty]

/-! ### The key types of all objects, sets included -/

/-- Type and uniqueness of all keys of an object. -/
def sigs (w : World K V Ty) (o : Nat) : Option (K → Option (Ty × Bool × V)) := (w.getObj o).map fun x k => (mget x.cols k).map Col.sig

theorem sigs_put {w : World K V Ty} {o : Nat} {x y : Obj K V Ty} (hx : w.getObj o = some x) (h : ∀ k, (mget y.cols k).map Col.sig = (mget x.cols k).map Col.sig) (q : Nat) :
    sigs (w.putObj o y) q = sigs w q := by
  unfold sigs
  rw [getObj_putObj]
  split
  · rename_i e; subst e; rw [hx]; simp only [Option.map_some, Option.some.injEq]; funext k; exact h k
  · rfl

theorem eraseLocal_sigs {w w' : World K V Ty} {o r : Nat} (h : eraseLocal w o r = some w') (q : Nat) : sigs w' q = sigs w q := by
  simp only [eraseLocal, Option.bind_eq_bind, Option.bind_eq_some_iff, Option.some.injEq] at h
  obtain ⟨vo, hvo, x, _, rfl⟩ := h
  exact sigs_put hvo (fun k => sig_eraseCols _ _ _ k) q

theorem invalidate_sigs {w w' : World K V Ty} {r : Nat} (h : invalidate w r = some w') (q : Nat) : sigs w' q = sigs w q := by
  unfold sigs World.getObj; rw [invalidate_objs h]

theorem eraseOne_sigs {env : Env} {w w' : World K V Ty} {o r : Nat} (h : eraseOne env w o r = some w') (q : Nat) : sigs w' q = sigs w q := by
  simp only [eraseOne, Option.bind_eq_bind, Option.bind_eq_some_iff] at h
  obtain ⟨vo, hvo, w1, h1, h⟩ := h
  split at h
  · simp only [Option.bind_eq_some_iff] at h
    obtain ⟨w2, h2, h⟩ := h
    rw [invalidate_sigs h]
    simp only [removeFromDeps, Option.bind_eq_bind, Option.bind_eq_some_iff] at h2
    obtain ⟨x, _, h2⟩ := h2
    rw [loop_same (g := fun w => sigs w q) (fun w w' s h => ?_) _ h2, eraseLocal_sigs h1]
    simp only [Option.bind_eq_some_iff] at h
    obtain ⟨so, _, h⟩ := h
    split at h
    · cases h; rfl
    · split at h
      · cases h
      · exact eraseLocal_sigs h q
  · cases h; exact eraseLocal_sigs h1 q

theorem sigs_ty {w w' : World K V Ty} {o : Nat} (h : sigs w' o = sigs w o) (k : K) : getKeyType w' o k = getKeyType w o k := by
  unfold sigs at h; unfold getKeyType
  cases h1 : w.getObj o with
  | none => rw [h1] at h; simp at h; rw [h]
  | some x =>
    rw [h1] at h
    simp only [Option.map_some, Option.map_eq_some_iff] at h
    obtain ⟨y, hy, e⟩ := h
    rw [hy]
    have := congrFun e k
    simp only
    cases a : mget y.cols k <;> cases b : mget x.cols k <;> simp_all [Col.sig]

/-- `GetData` in terms of what the user sees. -/
theorem refGetData_obs {w w' : World K V Ty} {f : Nat} {k : K} {t : Ty} (ht : w'.refs = w.refs)
    (ho : ∀ r o, target w f = some r → through w f = some o → sigs w' o = sigs w o)
    (hr : ∀ r, target w f = some r → RecSame (w.getRec r) (w'.getRec r)) : refGetData w' f k t = refGetData w f k t := by
  unfold refGetData
  rw [ht]
  cases hf : w.refs[f]? with
  | none => rfl
  | some ref =>
    simp only [Option.bind_eq_bind, Option.bind_some]
    cases hp : ref.ptr with
    | none => rfl
    | some r =>
      simp only
      cases hv : ref.vlt with
      | none => rfl
      | some o =>
        have h1 := ho r o (by rw [target_eq hf, hp]) (by rw [through_eq hf, hv])
        have h2 := hr r (by rw [target_eq hf, hp])
        simp only [Option.bind_some]
        unfold sigs at h1
        cases a : w.getObj o with
        | none => rw [a] at h1; simp at h1; rw [h1]; rfl
        | some x =>
          rw [a] at h1
          simp only [Option.map_some, Option.map_eq_some_iff] at h1
          obtain ⟨y, hy, e⟩ := h1
          rw [hy]
          simp only [Option.bind_some]
          have e := congrFun e k
          cases c : w.getRec r with
          | none => rw [c] at h2; cases d : w'.getRec r with
            | none => rfl
            | some z => rw [d] at h2; exact h2.elim
          | some z => rw [c] at h2; cases d : w'.getRec r with
            | none => rw [d] at h2; exact h2.elim
            | some z' =>
              rw [d] at h2
              obtain ⟨v1, _, v2⟩ := h2
              simp only [Option.bind_some]
              rw [v1]
              cases hz : z.valid with
              | false => simp
              | true =>
                simp only [Bool.true_eq_false, if_false]
                rw [v2 hz]
                cases m : mget y.cols k <;> cases n : mget x.cols k <;> simp_all [Col.sig]

/-! ### C23 -/

/-- Exactly the records of `l` are erased from vault `o` (specification): they leave the vault and die; references keep pointing
where they did; those to the erased records answer `IsValid` false and `GetData` with `DataRecordNotValid`, all others answer as before; all
other records live on with their values, the keys stay, and so do all other vaults. -/
structure ErasesExactly (w w' : World K V Ty) (o : Nat) (l : List Nat) : Prop where
  vault : isVault w' o = true
  sub : ∀ r ∈ l, r ∈ members w o
  left : members w' o = (members w o).filter (fun r => decide (r ∉ l))
  dead : ∀ r ∈ l, ¬ alive w' r
  target : ∀ f, target w' f = target w f
  through : ∀ f, through w' f = through w f
  invalid : ∀ f r, W.target w f = some r → r ∈ l → refIsValid w' f = some false ∧
    ∀ k t, refGetData w' f k t = (refGetData w f k t).map fun _ => (.bad .DataRecordNotValid (some k), none)
  valid : ∀ f, (∀ r ∈ l, W.target w f ≠ some r) → refIsValid w' f = refIsValid w f ∧ ∀ k t, refGetData w' f k t = refGetData w f k t
  rest : ∀ r, r ∉ l → (alive w' r ↔ alive w r) ∧ (alive w r → ∀ k, value w' r k = value w r k)
  keys : getKeys w' o = getKeys w o ∧ getUniqueKeys w' o = getUniqueKeys w o ∧ (∀ k, getKeyType w' o k = getKeyType w o k) ∧ ∀ k, getDefault w' o k = getDefault w o k
  others : ∀ o', o' ≠ o → isVault w o' = true → SameVault w w' o'

theorem RecSame.alive {w w' : World K V Ty} {r : Nat} (h : RecSame (w.getRec r) (w'.getRec r)) :
    (W.alive w' r ↔ W.alive w r) ∧ (W.alive w r → ∀ k, value w' r k = value w r k) := by
  unfold W.alive value
  cases a : w.getRec r <;> cases b : w'.getRec r <;> rw [a, b] at h
  · simp
  · exact h.elim
  · exact h.elim
  · obtain ⟨h1, _, h3⟩ := h
    refine ⟨by simp [h1], ?_⟩
    rintro ⟨x, hx, hv⟩ k
    cases hx
    simp [h3 hv]

theorem refIsValid_same {w w' : World K V Ty} {f : Nat} (ht : w'.refs = w.refs) (hr : ∀ r, target w f = some r → RecSame (w.getRec r) (w'.getRec r)) :
    refIsValid w' f = refIsValid w f := by
  unfold refIsValid
  rw [ht]
  cases hf : w.refs[f]? with
  | none => rfl
  | some ref =>
    simp only [Option.bind_eq_bind, Option.bind_some]
    cases hp : ref.ptr with
    | none => rfl
    | some r =>
      have := hr r (by rw [target_eq hf, hp])
      simp only
      cases a : w.getRec r <;> cases b : w'.getRec r <;> rw [a, b] at this
      · exact this.elim
      · exact this.elim
      · simp [this.1]

theorem objSame_vault {w w' : World K V Ty} {o : Nat} (h : ObjSame (w.getObj o) (w'.getObj o)) (hr : ∀ r ∈ members w o, ∀ k, value w' r k = value w r k)
    (ho : isVault w o = true) : SameVault w w' o := by
  obtain ⟨vo, hvo, hs⟩ := isVault_iff.mp ho
  obtain ⟨y, hy, e1, e2⟩ := h.to hvo
  have e2 := e2 hs
  have hys : y.isSet = false := by rw [e1, hs]
  refine ⟨by rw [ho]; exact isVault_iff.mpr ⟨y, hy, hys⟩, by rw [members_eq hy, members_eq hvo, e2], hr, ?_, ?_, ?_, ?_, ?_⟩
  · rw [getKeys_eq hy, getKeys_eq hvo, e2]
  · rw [getUniqueKeys_eq hy, getUniqueKeys_eq hvo, e2]
  · intro k; unfold isKeyExist; rw [hy, hvo]; simp only; rw [e2]
  · intro k; rw [getKeyType_eq hy, getKeyType_eq hvo, e2]
  · intro k; rw [getDefault_eq hy, getDefault_eq hvo, e2]

/-- References to records that are no longer valid. -/
theorem invalid_answers {w w' : World K V Ty} {f r : Nat} (hrefs : w'.refs = w.refs) (hf : target w f = some r)
    {x y : Rec K V} (hx : w.getRec r = some x) (hy : w'.getRec r = some y) (hv : y.valid = false)
    (ho : ∀ o, (∃ x, w.getObj o = some x) ↔ ∃ x, w'.getObj o = some x) :
    refIsValid w' f = some false ∧ ∀ k t, refGetData w' f k t = (refGetData w f k t).map fun _ => (.bad .DataRecordNotValid (some k), none) := by
  obtain ⟨ref, hfr, hp⟩ := target_some hf
  refine ⟨?_, fun k t => ?_⟩
  · unfold refIsValid; rw [hrefs, hfr]; simp [hp, hy, hv]
  · unfold refGetData; rw [hrefs, hfr]
    simp only [Option.bind_eq_bind, Option.bind_some, hp]
    cases hvl : ref.vlt with
    | none => rfl
    | some o' =>
      simp only [Option.bind_some]
      cases a : w.getObj o' with
      | none =>
        cases b : w'.getObj o' with
        | none => rfl
        | some z => obtain ⟨z', hz⟩ := (ho o').mpr ⟨z, b⟩; rw [a] at hz; cases hz
      | some z =>
        obtain ⟨z', hz⟩ := (ho o').mp ⟨z, a⟩
        rw [hz]
        simp only [Option.bind_some, hx, hy, hv, if_true]
        split
        · rfl
        · split
          · rfl
          · split <;> rfl

theorem ObjSame.iff {a b : Option (Obj K V Ty)} (h : ObjSame a b) : (∃ x, a = some x) ↔ ∃ x, b = some x := by
  cases a <;> cases b <;> simp_all [ObjSame]

theorem Erased.exactly {own home : Nat → Nat} {w w' : World K V Ty} {o : Nat} {vo : Obj K V Ty} {l : List Nat} (hi : Inv own home w) (ho : w.getObj o = some vo) (hs : vo.isSet = false)
    (hl : ∀ r ∈ l, r ∈ vo.recs) (hsig : ∀ q, q ≠ o → isSetObj w q = true → sigs w' q = sigs w q) (h : Erased w w' o vo l) : ErasesExactly w w' o l := by
  obtain ⟨cols, hob, hcols⟩ := h.obj
  have hself : sigs w' o = sigs w o := by
    unfold sigs; rw [hob, ho]; simp only [Option.map_some, Option.some.injEq]; funext k; exact hcols k
  have hval : ∀ r, r ∉ l → (alive w' r ↔ alive w r) ∧ (alive w r → ∀ k, value w' r k = value w r k) := fun r hr => (h.recs r hr).alive
  refine ⟨isVault_iff.mpr ⟨_, hob, hs⟩, fun r hr => by rw [members_eq ho]; exact hl r hr, by rw [members_eq hob, members_eq ho], ?_, ?_, ?_, ?_, ?_, hval, ?_, ?_⟩
  · rintro r hr ⟨y, hy, hv⟩; rw [h.dead r hr y hy] at hv; cases hv
  · intro f; unfold W.target; rw [h.refs]
  · intro f; unfold W.through; rw [h.refs]
  · intro f r hf hr
    obtain ⟨ref, hfr, hp⟩ := target_some hf
    obtain ⟨_, x, hx, _⟩ := hi.v.mem o vo ho hs r (hl r hr)
    have hc : 0 < refCount w r := by
      unfold refCount
      exact List.countP_pos_iff.mpr ⟨ref, mem_of_get hfr, by simpa using hp⟩
    obtain ⟨y, hy⟩ := (h.kept r hr).mpr hc
    refine invalid_answers h.refs hf hx hy (h.dead r hr y hy) (fun o' => ?_)
    by_cases e : o' = o
    · subst e; rw [hob, ho]; simp
    · exact (h.objs o' e).iff
  · intro f hf
    have hrs : ∀ r, W.target w f = some r → RecSame (w.getRec r) (w'.getRec r) := fun r hr => h.recs r (fun hm => hf r hm hr)
    refine ⟨refIsValid_same h.refs hrs, fun k t => refGetData_obs h.refs (fun r o' _ _ => ?_) hrs⟩
    by_cases e : o' = o
    · rw [e]; exact hself
    · by_cases hq : isSetObj w o' = true
      · exact hsig o' e hq
      · have hsame := h.objs o' e
        unfold sigs
        cases a : w.getObj o' with
        | none => cases b : w'.getObj o' with
          | none => rfl
          | some z => rw [a, b] at hsame; exact hsame.elim
        | some z =>
          obtain ⟨y, hy, _, e2⟩ := hsame.to a
          have hzs : z.isSet = false := by
            cases hz : z.isSet with
            | false => rfl
            | true => exact absurd (isSetObj_iff.mpr ⟨z, a, hz⟩) hq
          rw [hy, e2 hzs]; rfl
  · refine ⟨by rw [getKeys_eq hob, getKeys_eq ho], by rw [getUniqueKeys_eq hob, getUniqueKeys_eq ho], fun k => ?_, fun k => ?_⟩
    · exact sigs_ty hself k
    · rw [getDefault_eq hob, getDefault_eq ho]
  · intro o' e hv
    refine objSame_vault (h.objs o' e) (fun r hr k => ?_) hv
    obtain ⟨vo', hvo', hs'⟩ := isVault_iff.mp hv
    rw [members_eq hvo'] at hr
    obtain ⟨h1, h2⟩ := hi.v.mem o' vo' hvo' hs' r hr
    exact (hval r (fun hm => e (h1.symm.trans (hi.v.mem o vo ho hs r (hl r hm)).1))).2 h2 k

/-- `EraseRecord(reference)`: when the reference points at a record of the vault, exactly this record is erased and the answer
is true; otherwise nothing changes and the answer is false. Missing: histories with operations that are not ordinary. -/
theorem C23_eraseRef_partial {home : Nat → Nat} {w w' : World K V Ty} (hw : HReach Ordinary home w) {env : Env} {o f : Nat} {b : Bool} (ho : isVault w o = true)
    (h : eraseRef env w o f = some (w', b)) :
    (b = true ↔ ∃ r, target w f = some r ∧ r ∈ members w o) ∧ (b = false → w' = w) ∧
    (b = true → ∃ r, target w f = some r ∧ ErasesExactly w w' o [r]) := by
  obtain ⟨own, hi⟩ := reach_inv hw
  obtain ⟨vo, hvo, hs⟩ := isVault_iff.mp ho
  have hsig : ∀ q, sigs w' q = sigs w q := by
    intro q
    simp only [eraseRef, Option.bind_eq_bind, Option.bind_eq_some_iff] at h
    obtain ⟨ref, _, h⟩ := h
    split at h
    · simp only [Option.map_eq_some_iff, Prod.mk.injEq] at h; obtain ⟨_, _, rfl, _⟩ := h; rfl
    · simp only [removeRecord, Option.bind_eq_bind, Option.bind_eq_some_iff] at h
      obtain ⟨_, _, h⟩ := h
      split at h
      · cases h; rfl
      · simp only [Option.map_eq_some_iff, Prod.mk.injEq] at h; obtain ⟨_, h, rfl, _⟩ := h; exact eraseOne_sigs h q
  obtain ⟨ref, hf, ⟨rfl, rfl, hn⟩ | ⟨r, hp, rfl, hr, _, er⟩⟩ := eraseRef_vault hi hvo hs h
  · refine ⟨⟨(fun e => by cases e), ?_⟩, fun _ => rfl, (fun e => by cases e)⟩
    rintro ⟨r, h1, h2⟩
    rw [target_eq hf] at h1
    exact absurd (members_eq hvo ▸ h2) (hn r h1)
  · have ht : target w f = some r := by rw [target_eq hf, hp]
    exact ⟨⟨fun _ => ⟨r, ht, by rw [members_eq hvo]; exact hr⟩, fun _ => rfl⟩, (fun e => by cases e),
      fun _ => ⟨r, ht, er.exactly hi hvo hs (by simpa using hr) (fun q _ _ => hsig q)⟩⟩

/-- `EraseRecord(key, value)`: on success exactly one record is erased, and it has the value; on failure nothing changes. -/
theorem C23_eraseKV_partial {home : Nat → Nat} {w w' : World K V Ty} (hw : HReach Ordinary home w) {env : Env} {o : Nat} {k : K} {v : V} {res : Res K} (ho : isVault w o = true)
    (h : eraseKV env w o k v = some (w', res)) :
    (res.ok = false → w' = w) ∧ (res.ok = true → ∃ r, value w r k = some v ∧ ErasesExactly w w' o [r]) := by
  obtain ⟨own, hi⟩ := reach_inv hw
  obtain ⟨vo, hvo, hs⟩ := isVault_iff.mp ho
  have hsig : ∀ q, sigs w' q = sigs w q := by
    intro q
    simp only [eraseKV, Option.bind_eq_bind, Option.bind_eq_some_iff] at h
    obtain ⟨_, _, h⟩ := h
    split at h
    · cases h; rfl
    · split at h
      · cases h; rfl
      · simp only [Option.map_eq_some_iff, Prod.mk.injEq] at h; obtain ⟨_, h, rfl, _⟩ := h; exact eraseOne_sigs h q
  rcases eraseKV_vault hi hvo hs h with ⟨rfl, hc⟩ | ⟨c, _, _, ⟨rfl, rfl, _⟩ | ⟨r, l, _, rfl, hr, hcell, _, er⟩⟩
  · exact ⟨fun _ => rfl, (fun e => by rw [checkKey_fail hc] at e; cases e)⟩
  · exact ⟨fun _ => rfl, (fun e => by cases e)⟩
  · exact ⟨(fun e => by cases e), fun _ => ⟨r, hcell, er.exactly hi hvo hs (by simpa using hr) (fun q _ _ => hsig q)⟩⟩

/-- `EraseRecords(key, value, n)`: on success at least one and at most `n` (one when `n` is 0) different records are erased, they
have the value, and exactly they are erased; on failure nothing changes. -/
theorem C23_eraseRecords_partial {home : Nat → Nat} {w w' : World K V Ty} (hw : HReach Ordinary home w) {env : Env} {o n : Nat} {k : K} {v : V} {res : Res K} (ho : isVault w o = true)
    (h : eraseManyKV env w o k v n = some (w', res)) :
    (res.ok = false → w' = w) ∧
    (res.ok = true → ∃ l : List Nat, l ≠ [] ∧ l.Nodup ∧ l.length ≤ max n 1 ∧ (∀ r ∈ l, value w r k = some v) ∧ ErasesExactly w w' o l) := by
  obtain ⟨own, hi⟩ := reach_inv hw
  obtain ⟨vo, hvo, hs⟩ := isVault_iff.mp ho
  have hsig : ∀ q, sigs w' q = sigs w q := by
    intro q
    simp only [eraseManyKV, Option.bind_eq_bind, Option.bind_eq_some_iff] at h
    obtain ⟨_, _, h⟩ := h
    split at h
    · cases h; rfl
    · split at h
      · cases h; rfl
      · simp only [Option.map_eq_some_iff, Prod.mk.injEq] at h
        obtain ⟨_, h, rfl, _⟩ := h
        exact loop_same (g := fun w => sigs w q) (fun w w' r h => eraseOne_sigs h q) _ h
  rcases eraseManyKV_vault hi hvo hs h with ⟨rfl, hc⟩ | ⟨c, _, hk, ⟨rfl, rfl, _⟩ | ⟨hne, rfl, _, er⟩⟩
  · exact ⟨fun _ => rfl, (fun e => by rw [checkKey_fail hc] at e; cases e)⟩
  · exact ⟨fun _ => rfl, (fun e => by cases e)⟩
  · obtain ⟨hN, hm⟩ := equalRange_vault (env := env) hi hvo hs hk v
    refine ⟨(fun e => by cases e), fun _ => ⟨_, ?_, hN.sublist (List.take_sublist _ _), List.length_take_le _ _, fun r hr => (hm r (List.mem_of_mem_take hr)).2,
      er.exactly hi hvo hs (fun r hr => (hm r (List.mem_of_mem_take hr)).1) (fun q _ _ => hsig q)⟩⟩
    intro e
    rw [List.take_eq_nil_iff] at e
    rcases e with e | e
    · omega
    · exact hne e

example : ∃ w' : DW, eraseRef Env.id demoW 0 0 = some (w', true) ∧ refIsValid w' 0 = some false ∧ refIsValid w' 1 = some true ∧ members w' 0 = [1] ∧
    isVault demoW 0 = true ∧ refGetData w' 1 2 false = some (.good (some 2), some 8) := ⟨_, rfl, by decide, by decide, by decide, by decide, by decide⟩
example : ∃ w' : DW, eraseKV Env.id demoW 0 2 8 = some (w', .good (some 2)) ∧ refIsValid w' 1 = some false ∧ members w' 0 = [0] := ⟨_, rfl, by decide, by decide⟩
example : ∃ w' : DW, eraseManyKV Env.id demoW 0 1 6 3 = some (w', .good (some 1)) ∧ members w' 0 = [0] := ⟨_, rfl, by decide⟩

/-! ### C30 -/

/-- `DropData`: exactly the records of the vault are erased (so all references to them become invalid), the keys stay, and every set
with this vault as parent stays attached and is empty. Missing: histories with operations that are not ordinary. -/
theorem C30_dropData_partial {home : Nat → Nat} {w w' : World K V Ty} (hw : HReach Ordinary home w) {env : Env} {o : Nat} (ho : isVault w o = true)
    (h : dropData env w o = some w') :
    ErasesExactly w w' o (members w o) ∧ members w' o = [] ∧
    ∀ s, isSetObj w s = true → parentOf w s = some o → isSetObj w' s = true ∧ parentOf w' s = some o ∧ members w' s = [] := by
  obtain ⟨own, hi⟩ := reach_inv hw
  obtain ⟨vo, hvo, hs⟩ := isVault_iff.mp ho
  obtain ⟨_, er, ho', hsets⟩ := dropData_spec hi hvo hs h
  refine ⟨?_, by rw [members_eq ho'], fun s hss hp => ?_⟩
  · rw [members_eq hvo]
    refine er.exactly hi hvo hs (fun _ h => h) (fun q _ hq => ?_)
    simp only [dropData, hvo, Option.bind_eq_bind, Option.bind_some, Option.bind_eq_some_iff, Option.some.injEq] at h
    obtain ⟨w1, h1, w2, h2, vo2, hvo2, rfl⟩ := h
    rw [sigs_put hvo2 (fun k => sig_clearCols _ k), loop_same (g := fun w => sigs w q) (fun w w' r h => invalidate_sigs h q) _ h2]
    refine loop_same (g := fun w => sigs w q) (fun w w' s h => ?_) _ h1
    simp only [setClear, Option.bind_eq_bind, Option.bind_eq_some_iff] at h
    obtain ⟨so, hso, h⟩ := h
    split at h
    · cases h; rfl
    · simp only [Option.bind_eq_some_iff, Option.some.injEq] at h
      obtain ⟨w3, h3, rfl⟩ := h
      have ho3 : ∀ q, w3.getObj q = w.getObj q := fun q =>
        loop_same (g := fun w => w.getObj q) (fun w w' r h => by
          simp only [eraseDep, Option.map_eq_some_iff] at h; obtain ⟨x, _, rfl⟩ := h; rfl) _ h3
      rw [sigs_put (x := so) (by rw [ho3]; exact hso) (fun k => sig_clearCols _ k)]
      unfold sigs; rw [ho3]
  · obtain ⟨so, hso, hst⟩ := isSetObj_iff.mp hss
    rw [parentOf_eq hso] at hp
    obtain ⟨po, h1, _, h3⟩ := hi.l.up s so o hso hst hp
    rw [hvo] at h1; cases h1
    obtain ⟨so', a, b, c⟩ := hsets s h3
    obtain ⟨_, hi'⟩ := step_inv (op := .dropData o) (env := env) hi trivial (by show onVault w o _ = some w'; unfold onVault; rw [if_pos ho]; exact h)
    obtain ⟨so2, a2, _, c2⟩ := hi'.l.down o _ s ho' hs h3
    rw [a] at a2; cases a2
    exact ⟨isSetObj_iff.mpr ⟨so', a, b⟩, by rw [parentOf_eq a, c2], by rw [members_eq a, c]⟩

/-- `DropVault`: the vault has no records and no keys afterwards, all references to its records become invalid, every set with this
vault as parent is empty and has no parent; other references, records and vaults stay as they were. Missing: as above. -/
theorem C30_dropVault_partial {home : Nat → Nat} {w w' : World K V Ty} (hw : HReach Ordinary home w) {env : Env} {o : Nat} (ho : isVault w o = true)
    (h : dropVault env w o = some w') :
    isVault w' o = true ∧ members w' o = [] ∧ getKeys w' o = [] ∧ getUniqueKeys w' o = [] ∧ (∀ k, getKeyType w' o k = none ∧ isKeyExist w' o k = false) ∧
    (∀ s, isSetObj w s = true → parentOf w s = some o → isSetObj w' s = true ∧ parentOf w' s = none ∧ members w' s = []) ∧
    (∀ f, target w' f = target w f ∧ through w' f = through w f) ∧
    (∀ f r, target w f = some r → r ∈ members w o → refIsValid w' f = some false) ∧
    (∀ f, (∀ r ∈ members w o, target w f ≠ some r) → refIsValid w' f = refIsValid w f) ∧
    (∀ r, r ∉ members w o → (alive w' r ↔ alive w r) ∧ (alive w r → ∀ k, value w' r k = value w r k)) ∧
    ∀ o', o' ≠ o → isVault w o' = true → SameVault w w' o' := by
  obtain ⟨own, hi⟩ := reach_inv hw
  obtain ⟨vo, hvo, hs⟩ := isVault_iff.mp ho
  obtain ⟨_, ho', hO, hR, hD, hK, hrefs, _, _, hsets⟩ := dropVault_spec hi hvo hs h
  rw [members_eq hvo]
  refine ⟨isVault_iff.mpr ⟨_, ho', hs⟩, by rw [members_eq ho']; rfl, by rw [getKeys_eq ho']; rfl, by rw [getUniqueKeys_eq ho']; rfl, ?_, ?_, ?_, ?_, ?_,
    fun r hr => (hR r hr).alive, ?_⟩
  · intro k; exact ⟨by rw [getKeyType_eq ho']; rfl, by unfold isKeyExist; rw [ho']; rfl⟩
  · intro s hss hp
    obtain ⟨so, hso, hst⟩ := isSetObj_iff.mp hss
    rw [parentOf_eq hso] at hp
    obtain ⟨po, h1, _, h3⟩ := hi.l.up s so o hso hst hp
    rw [hvo] at h1; cases h1
    obtain ⟨so', a, b, c, d⟩ := hsets s h3
    exact ⟨isSetObj_iff.mpr ⟨so', a, b⟩, by rw [parentOf_eq a, c], by rw [members_eq a, d]⟩
  · intro f; exact ⟨by unfold W.target; rw [hrefs], by unfold W.through; rw [hrefs]⟩
  · intro f r hf hr
    obtain ⟨ref, hfr, hp⟩ := target_some hf
    have hc : 0 < refCount w r := by
      unfold refCount
      exact List.countP_pos_iff.mpr ⟨ref, mem_of_get hfr, by simpa using hp⟩
    obtain ⟨y, hy⟩ := (hK r hr).mpr hc
    unfold refIsValid; rw [hrefs, hfr]; simp [hp, hy, hD r hr y hy]
  · intro f hf
    exact refIsValid_same hrefs fun r hr => hR r (fun hm => hf r hm hr)
  · intro o' e hv
    refine objSame_vault (hO o' e) (fun r hr k => ?_) hv
    obtain ⟨vo', hvo', hs'⟩ := isVault_iff.mp hv
    rw [members_eq hvo'] at hr
    obtain ⟨h1, h2⟩ := hi.v.mem o' vo' hvo' hs' r hr
    exact ((hR r (fun hm => e (h1.symm.trans (hi.v.mem o vo hvo hs r hm).1))).alive).2 h2 k

/-- `demoW` with the records in set 1. -/
def demoFilled : DW := (demo (demoOps ++ [.request 0 .Greater 1 0 0 false false none (fun _ => true) 1])).getD World.empty
theorem demoFilled_reach : HReach Ordinary (fun _ => 0) demoFilled :=
  demo_reach (l := demoOps ++ [.request 0 .Greater 1 0 0 false false none (fun _ => true) 1]) rfl

example : ∃ w' : DW, dropData Env.id demoFilled 0 = some w' ∧ members demoFilled 1 = [0, 1] ∧ parentOf demoFilled 1 = some 0 ∧ members w' 1 = [] ∧ getKeys w' 0 = [1, 2] ∧
    refIsValid w' 0 = some false := ⟨_, rfl, by decide, by decide, by decide, by decide, by decide⟩
example : ∃ w' : DW, dropVault Env.id demoFilled 0 = some w' ∧ parentOf w' 1 = none ∧ getKeys w' 0 = [] ∧ refIsValid w' 0 = some false :=
  ⟨_, rfl, by decide, by decide, by decide⟩

end MVault.W
