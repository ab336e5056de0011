import Verif.WorldSim3
/-
Histories with set algebra. Join, Union and Intersection put records into a set without telling them, RemoveRecord, Exclude and Intersect take
records out of a set without telling them. The rest of the set invariant survives all of them; what the records know is kept track of by two lists:
the sets some of whose records may not know them, and the records that may know sets that do not hold them any more.
-/
set_option linter.unusedSectionVars false
set_option linter.unusedSimpArgs false
set_option linter.unusedVariables false
namespace MVault.W
variable {K V Ty : Type} [LinearOrder K] [LinearOrder V] [Typed V Ty] [DecidableEq Ty]
variable {own home : Nat → Nat}

/-- Invariant of one set, without what the records know about it. -/
structure SetGood (w : World K V Ty) (so : Obj K V Ty) : Prop where
  held : ∀ r ∈ so.recs, ∃ x, w.getRec r = some x ∧ x.valid = true
  recsN : so.recs.Nodup
  cols : ∀ k c, mget so.cols k = some c → ColOk (fun r => cellOf w r k) so.recs c
  det : so.parent = none → so.cols = [] ∧ so.keysOrder = [] ∧ so.uniq = []
  att : ∀ p po, so.parent = some p → w.getObj p = some po → Alike so po

/-- Invariant of all sets, without what the records know about them. -/
structure Good (w : World K V Ty) : Prop where
  set : ∀ s so, w.getObj s = some so → so.isSet = true → SetGood w so
  setsN : ∀ o vo, w.getObj o = some vo → vo.sets.Nodup

/-- The set holds the record. -/
def HeldBy (w : World K V Ty) (s r : Nat) : Prop := ∃ so, w.getObj s = some so ∧ so.isSet = true ∧ r ∈ so.recs

/-- What the records know: outside of `P`, a valid record knows only sets that hold it; outside of `T`, all sets that hold it. -/
def Knows (T P : Nat → Prop) (w : World K V Ty) : Prop :=
  ∀ r x, w.getRec r = some x → x.deps.Nodup ∧ (x.valid = true → ¬ P r → (∀ s ∈ x.deps, HeldBy w s r) ∧ ∀ s, HeldBy w s r → ¬ T s → s ∈ x.deps)

theorem Good.empty : Good (World.empty : World K V Ty) := by
  constructor <;> simp [World.empty, World.getObj, mget]

theorem Knows.empty (T P : Nat → Prop) : Knows T P (World.empty : World K V Ty) := by
  intro r x h; simp [World.empty, World.getRec, mget] at h

/-- A set counts only while it holds records. -/
theorem Knows.less {T T' P : Nat → Prop} {w : World K V Ty} (h : Knows T P w) (ht : ∀ s r, T s → HeldBy w s r → T' s) : Knows T' P w :=
  fun r x hx => ⟨(h r x hx).1, fun hv hp => ⟨((h r x hx).2 hv hp).1, fun s hs hn => ((h r x hx).2 hv hp).2 s hs fun hT => hn (ht s r hT hs)⟩⟩

theorem Knows.more {T P P' : Nat → Prop} {w : World K V Ty} (h : Knows T P w) (ht : ∀ r, P r → P' r) : Knows T P' w :=
  fun r x hx => ⟨(h r x hx).1, fun hv hp => (h r x hx).2 hv fun h' => hp (ht r h')⟩

/-- The record is in no set of `T` and not in `P`. -/
def Intact (T P : Nat → Prop) (w : World K V Ty) (r : Nat) : Prop := ¬ P r ∧ ∀ s, T s → ¬ HeldBy w s r

/-- How the known sets relate to the sets that hold the record. -/
def DT (T P E : Nat → Prop) (r : Nat) (v : Bool) (a b : List Nat) : Prop :=
  a.Nodup ∧ (v = true → ¬ P r → (∀ s ∈ a, s ∈ b) ∧ ∀ s ∈ b, ¬ T s → s ∈ a) ∧ (E r → a = b)

theorem closedDT (T P E : Nat → Prop) : Closed (DT T P E) where
  nil r := ⟨by simp, fun _ _ => ⟨by simp, by simp⟩, fun _ => rfl⟩
  add r v s a b h := by
    refine ⟨nodup_setIns _ _ h.1, fun hv hp => ?_, fun he => by rw [h.2.2 he]⟩
    obtain ⟨h1, h2⟩ := h.2.1 hv hp
    refine ⟨fun t ht => ?_, fun t ht hn => ?_⟩
    · rw [mem_setIns] at ht ⊢; exact ht.imp (h1 t) id
    · rw [mem_setIns] at ht ⊢; exact ht.imp (fun h => h2 t h hn) id
  del r v s a b h := by
    refine ⟨h.1.filter _, fun hv hp => ?_, fun he => by rw [h.2.2 he]⟩
    obtain ⟨h1, h2⟩ := h.2.1 hv hp
    refine ⟨fun t ht => ?_, fun t ht hn => ?_⟩
    · rw [List.mem_filter] at ht ⊢; exact ⟨h1 t ht.1, ht.2⟩
    · rw [List.mem_filter] at ht ⊢; exact ⟨h2 t ht.1 hn, ht.2⟩
  inv r v a b h := ⟨h.1, (fun hv => by cases hv), h.2.2⟩

theorem DT.agree {T P E : Nat → Prop} {r : Nat} (h : E r) : Agree (DT T P E) r := fun v a b hd => hd.2.2 h

open Classical in
/-- The sets that hold the record. -/
noncomputable def holders (w : World K V Ty) (r : Nat) : List Nat := (List.range w.nextO).filter (fun s => decide (HeldBy w s r))

theorem mem_holders {w : World K V Ty} (hi : Inv own home w) {r s : Nat} : s ∈ holders w r ↔ HeldBy w s r := by
  simp only [holders, List.mem_filter, List.mem_range, decide_eq_true_eq, and_iff_right_iff_imp]
  rintro ⟨so, h1, _⟩; exact hi.v.ltO s so h1

theorem holders_nodup (w : World K V Ty) (r : Nat) : (holders w r).Nodup := List.nodup_range.filter _

open Classical in
/-- The world in which every record outside of `E` knows exactly the sets that hold it. -/
noncomputable def World.told (E : Nat → Prop) (w : World K V Ty) : World K V Ty :=
  { w with recs := mmap (fun r x => if E r then x else { x with deps := holders w r }) w.recs }

theorem told_rec (E : Nat → Prop) (w : World K V Ty) (r : Nat) : ∃ d : List Nat → List Nat, (w.told E).getRec r = (w.getRec r).map (fun x => { x with deps := d x.deps }) ∧
    ((E r ∧ ∀ l, d l = l) ∨ (¬ E r ∧ ∀ l, d l = holders w r)) := by
  classical
  simp only [World.told, World.getRec, mget_mmap]
  by_cases h : E r
  · exact ⟨id, by simp [h], .inl ⟨h, fun _ => rfl⟩⟩
  · exact ⟨fun _ => holders w r, by simp [h], .inr ⟨h, fun _ => rfl⟩⟩

/-- The records of `E` are intact. -/
theorem told_sim {T P E : Nat → Prop} {w : World K V Ty} (hi : Inv own home w) (hk : Knows T P w) : DepSim (DT T P E) w (w.told E) := by
  refine ⟨rfl, rfl, rfl, rfl, fun r => ?_⟩
  obtain ⟨d, h1, h2⟩ := told_rec E w r
  rw [h1]
  cases hx : w.getRec r with
  | none => exact .inl ⟨rfl, rfl⟩
  | some x =>
    refine .inr ⟨x, d x.deps, rfl, rfl, (hk r x hx).1, ?_, ?_⟩
    · intro hv hp
      obtain ⟨k1, k2⟩ := (hk r x hx).2 hv hp
      rcases h2 with ⟨_, h2⟩ | ⟨_, h2⟩
      · rw [h2]; exact ⟨fun _ h => h, fun _ h _ => h⟩
      · rw [h2]; exact ⟨fun s hs => (mem_holders hi).mpr (k1 s hs), fun s hs hn => k2 s ((mem_holders hi).mp hs) hn⟩
    · intro he
      rcases h2 with ⟨_, h2⟩ | ⟨h2, _⟩
      · rw [h2]
      · exact absurd he h2

theorem told_deep' {E : Nat → Prop} {w : World K V Ty} (hi : Inv own home w) (hg : Good w)
    (hE : ∀ r x, E r → w.getRec r = some x → x.deps.Nodup ∧ (x.valid = true → ∀ s, s ∈ x.deps ↔ HeldBy w s r)) : Deep (w.told E) := by
  have key : ∀ r x, w.getRec r = some x → x.valid = true → ∃ l, (w.told E).getRec r = some { x with deps := l } ∧ ∀ s, s ∈ l ↔ HeldBy w s r := by
    intro r x hx hv
    obtain ⟨d, h1, h2⟩ := told_rec E w r
    rw [h1, hx]
    refine ⟨d x.deps, rfl, fun s => ?_⟩
    rcases h2 with ⟨he, h2⟩ | ⟨_, h2⟩
    · rw [h2]; exact (hE r x he hx).2 hv s
    · rw [h2]; exact mem_holders hi
  have cell : ∀ r k, cellOf (w.told E) r k = cellOf w r k := by
    intro r k
    obtain ⟨d, h1, h2⟩ := told_rec E w r
    simp only [cellOf, h1]
    cases w.getRec r <;> rfl
  refine ⟨?_, ?_, ?_, hg.setsN⟩
  · intro s so hs his
    have g := hg.set s so hs his
    refine ⟨?_, g.recsN, ?_, g.det, g.att⟩
    · intro r hr
      obtain ⟨x, hx, hv⟩ := g.held r hr
      obtain ⟨l, h1, h2⟩ := key r x hx hv
      exact ⟨_, h1, hv, (h2 s).mpr ⟨so, hs, his, hr⟩⟩
    · intro k c hc
      exact (g.cols k c hc).congr (fun _ => Iff.rfl) (fun r _ => cell r k)
  · intro r y s hy hv hs
    obtain ⟨d, h1, h2⟩ := told_rec E w r
    rw [h1] at hy
    obtain ⟨x, hx, rfl⟩ := Option.map_eq_some_iff.mp hy
    obtain ⟨l, h3, h4⟩ := key r x hx hv
    rw [h1, hx] at h3
    simp only [Option.map_some, Option.some.injEq, Rec.mk.injEq] at h3
    rw [h3.2.2.2] at hs
    exact (h4 s).mp hs
  · intro r y hy
    obtain ⟨d, h1, h2⟩ := told_rec E w r
    rw [h1] at hy
    obtain ⟨x, hx, rfl⟩ := Option.map_eq_some_iff.mp hy
    rcases h2 with ⟨he, h2⟩ | ⟨_, h2⟩
    · simp only [h2]; exact (hE r x he hx).1
    · simp only [h2]; exact holders_nodup w r

theorem told_deep {T P E : Nat → Prop} {w : World K V Ty} (hi : Inv own home w) (hg : Good w) (hk : Knows T P w) (hE : ∀ r, E r → Intact T P w r) :
    Deep (w.told E) := by
  refine told_deep' hi hg fun r x he hx => ⟨(hk r x hx).1, fun hv s => ?_⟩
  obtain ⟨k1, k2⟩ := (hk r x hx).2 hv (hE r he).1
  exact ⟨k1 s, fun hs => k2 s hs fun hT => (hE r he).2 s hT hs⟩

/-- The world in which every record knows exactly the sets that hold it. -/
noncomputable def World.full (w : World K V Ty) : World K V Ty := w.told fun _ => False

theorem full_deep {w : World K V Ty} (hi : Inv own home w) (hg : Good w) : Deep w.full := told_deep' hi hg fun _ _ h => h.elim

theorem told_cell (E : Nat → Prop) (w : World K V Ty) (r : Nat) (k : K) : cellOf (w.told E) r k = cellOf w r k := by
  obtain ⟨d, h1, h2⟩ := told_rec E w r
  simp only [cellOf, h1]
  cases w.getRec r <;> rfl

theorem told_inv {E : Nat → Prop} {w : World K V Ty} (hi : Inv own home w) : Inv own home (w.told E) := by
  have sf : SF w (w.told E) := by
    refine ⟨fun r => ?_, fun o => .refl _, rfl, rfl, rfl⟩
    obtain ⟨d, h1, h2⟩ := told_rec E w r
    rw [h1]
    cases w.getRec r with
    | none => trivial
    | some x => exact ⟨rfl, rfl, fun _ => rfl⟩
  refine ⟨sf.vinv hi.v, sf.rinv hi.r, ⟨hi.s.sets, ?_, hi.s.ltO, ?_, hi.s.vb⟩, ⟨hi.l.up, hi.l.down⟩⟩
  · intro r y s hy hs
    obtain ⟨d, h1, h2⟩ := told_rec E w r
    rw [h1] at hy
    obtain ⟨x, hx, rfl⟩ := Option.map_eq_some_iff.mp hy
    rcases h2 with ⟨_, h2⟩ | ⟨_, h2⟩
    · simp only [h2] at hs; exact hi.s.deps r x s hx hs
    · simp only [h2] at hs
      obtain ⟨so, a, b, c⟩ := (mem_holders hi).mp hs
      exact ⟨fun _ => ((hi.s.sets s so a b).recs r c).1, hi.s.ltO s so a⟩
  · intro r y hy
    obtain ⟨x, hx, _⟩ := sf.recOf hy
    exact hi.s.ltR r x hx

/-- Back from the repaired world. -/
theorem DepSim.good {T P E : Nat → Prop} {w u : World K V Ty} (h : DepSim (DT T P E) w u) (hd : Deep u) : Good w ∧ Knows T P w := by
  have cell : ∀ r k, cellOf w r k = cellOf u r k := by
    intro r k
    simp only [cellOf]
    rcases h.recs r with ⟨h1, h2⟩ | ⟨x, l, h1, h2, h3⟩ <;> rw [h1, h2]; rfl
  have hb : ∀ s r, HeldBy w s r ↔ HeldBy u s r := by intro s r; simp only [HeldBy, h.obj]
  refine ⟨⟨?_, fun o vo ho => hd.setsN o vo (by rw [← h.obj]; exact ho)⟩, ?_⟩
  · intro s so hs his
    rw [h.obj] at hs
    have g := hd.set s so hs his
    refine ⟨?_, g.recsN, fun k c hc => (g.cols k c hc).congr (fun _ => Iff.rfl) (fun r _ => cell r k), g.det, fun p po h1 h2 => g.att p po h1 (by rw [← h.obj]; exact h2)⟩
    intro r hr
    obtain ⟨y, hy, hv, _⟩ := g.held r hr
    rcases h.recs r with ⟨h1, h2⟩ | ⟨x, l, h1, h2, h3⟩
    · rw [h2] at hy; cases hy
    · rw [h2] at hy; cases hy; exact ⟨x, h1, hv⟩
  · intro r x hx
    rcases h.recs r with ⟨h1, h2⟩ | ⟨x', l, h1, h2, h3⟩
    · rw [h1] at hx; cases hx
    · rw [h1] at hx; cases hx
      refine ⟨h3.1, fun hv hp => ?_⟩
      obtain ⟨a1, a2⟩ := h3.2.1 hv hp
      refine ⟨fun s hs => (hb s r).mpr (hd.told r _ s h2 hv (a1 s hs)), fun s hs hn => a2 s ?_ hn⟩
      obtain ⟨so, b1, b2, b3⟩ := (hb s r).mp hs
      obtain ⟨y, hy, _, hm⟩ := (hd.set s so b1 b2).held r b3
      rw [h2] at hy; cases hy; exact hm

/-- Ordinary calls, as before: the calls that read what a record knows only on intact records. -/
theorem allowed_good {T P : Nat → Prop} {env : Env} {w : World K V Ty} {op : Op K V Ty} (hi : Inv own home w) (hg : Good w) (hk : Knows T P w)
    (hc : Careful home w op) (hr : Reads (DT T P (Intact T P w)) w op) :
    ∃ w' ans u', outcome env w op = some (w', ans) ∧ outcome env (w.told (Intact T P w)) op = some (u', ans) ∧ DepSim (DT T P (Intact T P w)) w' u' ∧ Deep u' ∧
      Good w' ∧ Knows T P w' := by
  have sim := told_sim (E := Intact T P w) hi hk
  have du := told_deep hi hg hk (fun r h => h)
  obtain ⟨u', e, d⟩ := step_deep (env := env) (told_inv hi) du (hc.sim sim)
  rw [← outcome_step] at e
  obtain ⟨⟨u1, ans⟩, e1, rfl⟩ := Option.map_eq_some_iff.mp e
  obtain ⟨⟨w', ans'⟩, e2, s2, rfl⟩ := (outcome_sim (closedDT _ _ _) env sim hc.2 hr).right e1
  exact ⟨w', _, u1, e2, e1, s2, d, s2.good d⟩

end MVault.W
