import Verif.IndexLemmas
import Verif.WorldObs
/-
C75: the loops over the indexes of a key end, never use an invalid iterator, and do exactly what is said here; C76: they refine the
index functions of the world model.
-/
set_option linter.unusedSectionVars false
set_option linter.unusedSimpArgs false
set_option linter.unusedVariables false
namespace MVault.Ix
open MVault.Mp
variable {K V : Type} [LinearOrder V]

/-! ### Specification vocabulary -/

/-- The only outcome. -/
def Only {A : Type} (P : A → Prop) (a : A) : Prop := P a ∧ ∀ b, P b → b = a

/-- Entries after "erase every entry with the value `v` if the record's is among them". -/
def dropValue (l : List (V × Nat)) (v : V) (r : Nat) : List (V × Nat) := if (v, r) ∈ l then l.filter (fun e => decide (e.1 ≠ v)) else l

/-- The first `n` elements; all if there is no limit. -/
def atMost {A : Type} (n : Option Nat) (l : List A) : List A := match n with | none => l | some n => l.take n

/-- The condition of a request, for a value. -/
def Kind.holds (t : Kind) (a b : V) (ia ib : Bool) (v : V) : Bool :=
  match t with
  | .Equal => decide (v = a)
  | .Greater => decide (a < v)
  | .GreaterOrEqual => decide (a ≤ v)
  | .Less => decide (v < b)
  | .LessOrEqual => decide (v ≤ a)
  | .Interval => (if ia = true then decide (a ≤ v) else decide (a < v)) && (if ib = true then decide (v ≤ b) else decide (v < b))

/-! ### One outcome -/

theorem eraseIt_unique {x : PMap V Nat} {r : Nat} {a b : It} {y y' : PMap V Nat} (h : EraseIt x r a b y) (h' : EraseIt x r a b y') : y' = y := by
  induction h with
  | done a b h1 => cases h' <;> simp_all
  | hit a b e y h1 h2 h3 h4 => cases h' <;> simp_all
  | next a b e a' y h1 h2 h3 h4 _ ih =>
    cases h' with
    | done => simp_all
    | hit => simp_all
    | next _ _ _ a2 _ _ _ _ g4 g5 => rw [h4] at g4; cases g4; exact ih g5

theorem eraseKeyOf_unique {x : PMap V Nat} {r : Nat} {a b : It} {y y' : PMap V Nat} (h : EraseKeyOf x r a b y) (h' : EraseKeyOf x r a b y') : y' = y := by
  induction h with
  | done a b h1 => cases h' <;> simp_all
  | hit a b e h1 h2 h3 => cases h' <;> simp_all
  | next a b e a' y h1 h2 h3 h4 _ ih =>
    cases h' with
    | done => simp_all
    | hit => simp_all
    | next _ _ _ a2 _ _ _ _ g4 g5 => rw [h4] at g4; cases g4; exact ih g5

theorem scan_unique {x : PMap V Nat} {n : Option Nat} {a b : It} {i : Nat} {l l' : List (V × Nat)} (h : Scan x n a b i l) (h' : Scan x n a b i l') : l' = l := by
  induction h generalizing l' with
  | done a b i h1 => cases h' <;> simp_all
  | full a b i h1 h2 => cases h' <;> simp_all
  | next a b i e a' l h1 h2 h3 h4 _ ih =>
    cases h' with
    | done => simp_all
    | full => simp_all
    | next _ _ _ e2 a2 l2 _ _ g3 g4 g5 => rw [h4] at g4; rw [h3] at g3; cases g4; cases g3; rw [ih g5]

theorem collect_unique {x : PMap V Nat} {n : Nat} {a b : It} {i : Nat} {l l' : List Nat} (h : Collect x n a b i l) (h' : Collect x n a b i l') : l' = l := by
  induction h generalizing l' with
  | done a b i h1 => cases h' <;> simp_all
  | full a b i e h1 h2 h3 =>
    cases h' with
    | done => simp_all
    | full => simp_all
    | next _ _ _ _ _ _ _ _ g => omega
  | next a b i e a' l h1 h3 h2 h4 _ ih =>
    cases h' with
    | done => simp_all
    | full _ _ _ _ _ _ g => omega
    | next _ _ _ e2 a2 l2 _ g3 _ g4 g5 => rw [h4] at g4; rw [h3] at g3; cases g4; cases g3; rw [ih g5]

theorem sort_unique {x : PMap V Nat} {f : List Nat → Nat → Bool} {a b : It} {s l l' : List Nat} (h : SortLoop x f a b s l) (h' : SortLoop x f a b s l') : l' = l := by
  induction h generalizing l' with
  | done a b i h1 => cases h' <;> simp_all
  | stop a b s e h1 h2 h3 => cases h' <;> simp_all
  | next a b s e a' l h1 h2 h3 h4 _ ih =>
    cases h' with
    | done => simp_all
    | stop => simp_all
    | next _ _ _ e2 a2 l2 _ g3 _ g4 g5 => rw [h4] at g4; rw [h2] at g3; cases g4; cases g3; rw [ih g5]

theorem erase_unique {S : Hash V} {x y y' : Idx V} {v : V} {r : Nat} (h : x.Erase S v r y) (h' : x.Erase S v r y') : y' = y := by
  cases h with
  | run h o h1 h2 => cases h' with
    | run h' o' g1 g2 => rw [eraseIt_unique h1 g1, eraseKeyOf_unique h2 g2]

/-! ### Reachable maps -/

theorem reach_eraseIt {good : List (Node V Nat) → Prop} (S : Stl good) {x : PMap V Nat} {r : Nat} {a b : It} {y : PMap V Nat} (hx : PMap.Reach good x) (h : EraseIt x r a b y) : PMap.Reach good y := by
  induction h with
  | done => exact hx
  | hit a b e y _ _ _ h4 => exact .step S x _ (.eraseAt a) hx (by simp [PMap.step, h4])
  | next _ _ _ _ _ _ _ _ _ _ ih => exact ih

theorem reach_eraseKeyOf {good : List (Node V Nat) → Prop} (S : Stl good) {x : PMap V Nat} {r : Nat} {a b : It} {y : PMap V Nat} (hx : PMap.Reach good x) (h : EraseKeyOf x r a b y) : PMap.Reach good y := by
  induction h with
  | done => exact hx
  | hit a b e _ _ _ => exact .step S x _ (.eraseKey e.1) hx rfl
  | next _ _ _ _ _ _ _ _ _ _ ih => exact ih

theorem multi_eraseKeyOf {x : PMap V Nat} {r : Nat} {a b : It} {y : PMap V Nat} (h : EraseKeyOf x r a b y) : y.isMulti = x.isMulti := by
  induction h with
  | done => rfl
  | hit a b e _ _ _ => unfold PMap.eraseKey; split <;> rfl
  | next _ _ _ _ _ _ _ _ _ _ ih => exact ih

theorem multi_eraseIt {x : PMap V Nat} {r : Nat} {a b : It} {y : PMap V Nat} (h : EraseIt x r a b y) : y.isMulti = x.isMulti := by
  induction h with
  | done => rfl
  | hit a b e y _ _ _ h4 =>
    unfold PMap.eraseAt at h4
    split at h4
    · cases e1 : x.multi.eraseAt a.m with
      | none => rw [e1] at h4; cases h4
      | some q => rw [e1] at h4; cases h4; rfl
    · cases e1 : x.single.eraseAt a.s with
      | none => rw [e1] at h4; cases h4
      | some q => rw [e1] at h4; cases h4; rfl
  | next _ _ _ _ _ _ _ _ _ _ ih => exact ih

theorem multi_emplace {good : List (Node V Nat) → Prop} (S : Stl good) (x : PMap V Nat) (v : V) (r : Nat) : (x.emplace S v r).1.isMulti = x.isMulti := by
  unfold PMap.emplace
  split
  · rfl
  · split <;> rfl

theorem multi_clear (x : PMap V Nat) : x.clear.isMulti = x.isMulti := by unfold PMap.clear; split <;> rfl

theorem Ok.add (S : Hash V) {x : Idx V} (h : Ok x) (v : V) (r : Nat) : Ok (x.add S v r).1 ∧ (x.add S v r).1.hash.isMulti = x.hash.isMulti := by
  have e := multi_emplace S.stl x.hash v r
  have e' := multi_emplace (ordStl 0) x.ord v r
  have h1 : PMap.Reach Grouped (x.hash.emplace S.stl v r).1 := .step S.stl x.hash _ (.emplace v r) h.h rfl
  have h2 : PMap.Reach Sorted (x.ord.emplace (ordStl 0) v r).1 := .step (ordStl 0) x.ord _ (.emplace v r) h.o rfl
  unfold Idx.add
  by_cases hb : (x.hash.emplace S.stl v r).2.2 = false
  · simp only []
    rw [if_pos hb]; exact ⟨⟨h1, h.o, by rw [e]; exact h.m⟩, e⟩
  · simp only []
    rw [if_neg hb]; exact ⟨⟨h1, h2, by rw [e, e']; exact h.m⟩, e⟩

theorem Ok.erase {S : Hash V} {x x' : Idx V} {v : V} {r : Nat} (h : Ok x) (hs : x.Erase S v r x') : Ok x' ∧ x'.hash.isMulti = x.hash.isMulti := by
  cases hs with
  | run a b h1 h2 => exact ⟨⟨reach_eraseIt S.stl h.h h1, reach_eraseKeyOf (ordStl 0) h.o h2, by rw [multi_eraseKeyOf h2, multi_eraseIt h1]; exact h.m⟩, multi_eraseIt h1⟩

theorem Ok.set {S : Hash V} {x x' : Idx V} {old new : V} {r : Nat} (h : Ok x) (hs : x.Set S old new r (some x')) : Ok x' ∧ x'.hash.isMulti = x.hash.isMulti := by
  cases hs with
  | run a b h0 h1 h2 =>
    have e := multi_emplace S.stl a new r
    have e' := multi_emplace (ordStl 0) b new r
    exact ⟨⟨.step S.stl a _ (.emplace new r) (reach_eraseKeyOf S.stl h.h h1) rfl, .step (ordStl 0) b _ (.emplace new r) (reach_eraseKeyOf (ordStl 0) h.o h2) rfl,
      by rw [e, e', multi_eraseKeyOf h2, multi_eraseKeyOf h1]; exact h.m⟩, by rw [e, multi_eraseKeyOf h1]⟩

theorem Ok.clear {x : Idx V} (h : Ok x) : Ok x.clear ∧ x.clear.hash.isMulti = x.hash.isMulti :=
  ⟨⟨.step demoHash x.hash _ .clear h.h rfl, .step (ordStl 0) x.ord _ .clear h.o rfl, by simp only [Idx.clear, multi_clear]; exact h.m⟩, multi_clear _⟩

theorem ireach_ok' {multi : Bool} {x : Idx V} (h : IReach multi x) : Ok x ∧ x.hash.isMulti = multi := by
  induction h with
  | init => exact ⟨⟨.init _, .init _, rfl⟩, rfl⟩
  | step S x op x' _ hs ih =>
    obtain ⟨h1, h2⟩ := ih
    cases hs with
    | add v r => have := h1.add S v r; exact ⟨this.1, this.2.trans h2⟩
    | erase v r x' hs => have := h1.erase hs; exact ⟨this.1, this.2.trans h2⟩
    | set old new r x' hs => have := h1.set hs; exact ⟨this.1, this.2.trans h2⟩
    | refused => exact ⟨h1, h2⟩
    | clear => exact ⟨h1.clear.1, h1.clear.2.trans h2⟩

theorem ireach_ok {multi : Bool} {x : Idx V} (h : Maps multi x) : Ok x ∧ x.hash.isMulti = multi := ⟨⟨h.hash, h.ord, h.kindO.trans h.kindH.symm⟩, h.kindH⟩

/-- Maps after any operations on them. -/
theorem IReach.maps {multi : Bool} {x : Idx V} (h : IReach multi x) : Maps multi x := by
  obtain ⟨h1, h2⟩ := ireach_ok' h
  exact ⟨h1.h, h1.o, h2, h1.m.trans h2⟩

theorem Maps.init (multi : Bool) : Maps multi (.empty multi : Idx V) := ⟨.init _, .init _, rfl, rfl⟩

theorem Maps.step (S : Hash V) (x : Idx V) (op : IOp V) (x' : Idx V) {multi : Bool} (h : Maps multi x) (hs : IStep S x op x') : Maps multi x' := by
  obtain ⟨h1, h2⟩ := ireach_ok h
  have key : Ok x' ∧ x'.hash.isMulti = x.hash.isMulti := by
    cases hs with
    | add v r => exact h1.add S v r
    | erase v r x' hs => exact h1.erase hs
    | set old new r x' hs => exact h1.set hs
    | refused => exact ⟨h1, rfl⟩
    | clear => exact h1.clear
  exact ⟨key.1.h, key.1.o, key.2.trans h2, key.1.m.trans (key.2.trans h2)⟩

/-! ### Proofs for single operations -/

theorem mem_stretch {l pre mid post : List (Node V Nat)} (e : l = pre ++ (mid ++ post)) {v : V} (h1 : ∀ n ∈ mid, n.key = v) (h2 : ∀ n ∈ pre, n.key ≠ v) (h3 : ∀ n ∈ post, n.key ≠ v) (r : Nat) :
    (v, r) ∈ ent l ↔ ∃ n ∈ mid, n.val = r := by
  subst e
  simp only [ent, List.map_append, List.mem_append, List.mem_map, Prod.mk.injEq]
  constructor
  · rintro (⟨n, hn, e1, e2⟩ | ⟨n, hn, e1, e2⟩ | ⟨n, hn, e1, e2⟩)
    · exact absurd e1 (h2 n hn)
    · exact ⟨n, hn, e2⟩
    · exact absurd e1 (h3 n hn)
  · rintro ⟨n, hn, e⟩
    exact .inr (.inl ⟨n, hn, h1 n hn, e⟩)

theorem eraseKeyOf_content {x : PMap V Nat} {r : Nat} {v : V} {a b : It} {pre mid post : List (Node V Nat)} (h : Stretch x a b pre mid post) (h1 : ∀ n ∈ mid, n.key = v) (h2 : ∀ n ∈ pre, n.key ≠ v) (h3 : ∀ n ∈ post, n.key ≠ v) :
    ∃ y, EraseKeyOf x r a b y ∧ y.content = dropValue x.content v r := by
  refine ⟨_, eraseKeyOf_run r v mid h h1, ?_⟩
  have hm := mem_stretch h.nodes h1 h2 h3 r
  unfold dropValue
  rw [content_eq x, if_congr hm rfl rfl]
  by_cases hc : ∃ n ∈ mid, n.val = r
  · rw [if_pos hc, if_pos hc, ← content_eq, (C72_erase_key x v).1]
  · rw [if_neg hc, if_neg hc]; rfl

theorem eraseIt_content {x : PMap V Nat} {r : Nat} {v : V} {a b : It} {pre mid post : List (Node V Nat)} (h : Stretch x a b pre mid post) (h1 : ∀ n ∈ mid, n.key = v) (h2 : ∀ n ∈ pre, n.key ≠ v) (h3 : ∀ n ∈ post, n.key ≠ v) :
    ∃ y, EraseIt x r a b y ∧ y.content.Perm (x.content.erase (v, r)) := by
  obtain ⟨y, g1, g2, g3, g4, g5⟩ := eraseIt_run r mid h
  refine ⟨y, g1, ?_⟩
  have hm := mem_stretch h.nodes h1 h2 h3 r
  rcases g5 with ⟨e1, e2⟩ | ⟨m1, n, m2, e1, e2, e3, e4⟩
  · rw [e2, List.erase_of_not_mem]
    rw [content_eq x]; intro hc
    obtain ⟨n, hn, e⟩ := hm.1 hc
    exact e1 n hn e
  · have ex : x.content.Perm ((v, r) :: y.content) := by
      rw [content_eq, content_eq, h.nodes, e4, e1]
      have : (v, r) = (n.key, n.val) := by rw [e2, h1 n (by rw [e1]; simp)]
      rw [this]
      simp only [ent, List.map_append, List.map_cons, List.append_assoc, List.cons_append]
      rw [← List.append_assoc, ← List.append_assoc]
      exact List.perm_middle
    have := ex.erase (v, r)
    rw [List.erase_cons_head] at this
    exact this.symm

theorem ordPut_entries (l : List (Node V Nat)) (i : Nat) (v : V) (r : Nat) : ent (ordPut l ⟨i, v, r⟩) = W.ordInsert (ent l) v r := by
  induction l with
  | nil => rfl
  | cons m l ih =>
    simp only [ordPut, ent, List.map_cons, W.ordInsert]
    split
    · rfl
    · simp only [List.map_cons]; congr 1

/-- Emplace into the ordered map. -/
theorem ord_emplace (x : PMap V Nat) (v : V) (r : Nat) :
    (x.emplace (ordStl 0) v r).1.content = W.ordEmplace x.isMulti x.content v r := by
  unfold W.ordEmplace PMap.emplace
  cases e : x.isMulti with
  | true =>
    simp only [if_true, Bool.true_eq_false, false_and, if_false]
    simp only [PMap.content, PMap.act, e, if_true, Seq.put]
    exact ordPut_entries _ _ _ _
  | false =>
    have hv : W.hasVal x.content v = true ↔ ∃ n ∈ x.single.nodes, n.key = v := by
      simp [W.hasVal, PMap.content, PMap.act, e, List.any_eq_true]
    cases hf : x.single.nodes.find? (·.key = v) with
    | some n =>
      have := List.mem_of_find?_eq_some hf
      have h2 := List.find?_some hf
      simp only [decide_eq_true_eq] at h2
      simp only [Bool.false_eq_true, if_false, hf, true_and]
      rw [if_pos (hv.2 ⟨n, this, h2⟩)]
    | none =>
      have h0 := List.find?_eq_none.1 hf
      simp only [decide_eq_true_eq] at h0
      simp only [Bool.false_eq_true, if_false, hf, true_and]
      rw [if_neg (fun hc => by obtain ⟨n, h1, h2⟩ := hv.1 hc; exact h0 n h1 h2)]
      simp only [PMap.content, PMap.act, e, Bool.false_eq_true, if_false, Seq.put]
      exact ordPut_entries _ _ _ _

/-- Emplace into the hash map. -/
theorem hash_emplace (S : Hash V) {x : PMap V Nat} (h : PMap.Reach Grouped x) (v : V) (r : Nat) :
    ((x.emplace S.stl v r).2.2 = true ↔ x.isMulti = true ∨ W.hasVal x.content v = false) ∧
    (x.emplace S.stl v r).1.content.Perm (W.hashEmplace x.isMulti x.content v r) := by
  obtain ⟨h1, h2, h3⟩ := C72_emplace S.stl h v r
  have hv : W.hasVal x.content v = false ↔ ∀ e ∈ x.content, e.1 ≠ v := by
    simp [W.hasVal, List.any_eq_false]
  refine ⟨by rw [h1, hv], ?_⟩
  unfold W.hashEmplace
  by_cases hc : (x.emplace S.stl v r).2.2 = true
  · rw [if_neg]
    · exact (h2 hc).1.trans (List.perm_append_comm (l₁ := [(v, r)]))
    · rintro ⟨a, b⟩
      rcases h1.1 hc with d | d
      · rw [a] at d; cases d
      · rw [hv.2 d] at b; cases b
  · have hc' : (x.emplace S.stl v r).2.2 = false := by simpa using hc
    rw [if_pos]
    · rw [(h3 hc').1]
    · rw [h1] at hc
      constructor
      · by_contra d; exact hc (.inl (by simpa using d))
      · by_contra d; exact hc (.inr (hv.1 (by simpa using d)))

/-- Comparison of the start of an equal range of the hash map with the end. -/
theorem range_end {x : PMap V Nat} {a b : It} {pre mid post : List (Node V Nat)} (h : Stretch x a b pre mid post) :
    differ x a x.end_ = some (decide (mid ++ post ≠ [])) := by
  obtain ⟨b1, b2, b3, b4⟩ := act_gen (x := x)
  have hs : Stretch x a x.end_ pre (mid ++ post) [] := ⟨by rw [h.nodes]; simp, h.nodup, h.ma, b4, by rw [h.ea]; simp, by rw [b2]; rfl⟩
  rw [hs.cmp, ne_act (hs.ma.trans hs.mb.symm), hs.ea, hs.eb]
  cases mid ++ post <;> simp [headId]

/-- The equal range of the hash map; a missing value gives (end, end). -/
theorem range_hash' (S : Hash V) {x : PMap V Nat} (h : PMap.Reach Grouped x) (v : V) :
    ∃ pre mid post, Stretch x (x.equalRange S.stl v).1 (x.equalRange S.stl v).2 pre mid post ∧ (∀ n ∈ mid, n.key = v) ∧ (∀ n ∈ pre, n.key ≠ v) ∧ (∀ n ∈ post, n.key ≠ v) ∧
      differ x (x.equalRange S.stl v).1 x.end_ = some (decide (mid ≠ [])) := by
  obtain ⟨pre, mid, post, hs, h1, h2, h3⟩ := range_hash S.stl h v
  refine ⟨pre, mid, post, hs, h1, h2, h3, ?_⟩
  rw [range_end hs]
  cases mid with
  | cons n l => simp
  | nil =>
    have hm := S.miss x.act.nodes v (fun n hn => by
      rw [hs.nodes] at hn
      rcases List.mem_append.1 hn with q | q
      · exact h2 n q
      · exact h3 n (by simpa using q))
    have ha : (x.equalRange S.stl v).1.act.pos = none := by
      cases em : x.isMulti <;> simp_all [PMap.equalRange, It.act, PMap.act]
    rw [hs.ea] at ha
    cases post with
    | nil => simp
    | cons n l => simp [headId] at ha

theorem filter_stretch {x : PMap V Nat} {a b : It} {pre mid post : List (Node V Nat)} {v : V} (h : Stretch x a b pre mid post) (h1 : ∀ n ∈ mid, n.key = v) (h2 : ∀ n ∈ pre, n.key ≠ v) (h3 : ∀ n ∈ post, n.key ≠ v) :
    (x.content.filter fun e => decide (e.1 = v)) = ent mid := by
  simp only [PMap.content, List.filter_map]
  rw [h.nodes, filter_parts _ (by simpa using h2) (by simpa using h1) (by simpa using h3)]
  rfl

/-! ### C75 -/

/-- Adding a record to the maps of a key. -/
theorem C75_add {multi : Bool} {x : Idx V} (h : Maps multi x) (S : Hash V) (v : V) (r : Nat) :
    ((x.add S v r).2 = true ↔ multi = true ∨ ∀ e ∈ x.hash.content, e.1 ≠ v) ∧
    ((x.add S v r).2 = true → (x.add S v r).1.hash.content.Perm ((v, r) :: x.hash.content)) ∧
    ((x.add S v r).2 = true → (multi = true ∨ ∀ e ∈ x.ord.content, e.1 ≠ v) → (x.add S v r).1.ord.content.Perm ((v, r) :: x.ord.content)) ∧
    ((x.add S v r).2 = false → (x.add S v r).1 = x) := by
  obtain ⟨ho, hm⟩ := ireach_ok h
  obtain ⟨h1, h2, h3⟩ := C72_emplace S.stl ho.h v r
  obtain ⟨g1, g2, g3⟩ := C72_emplace (ordStl 0) ho.o v r
  rw [hm] at h1
  rw [ho.m, hm] at g1
  unfold Idx.add
  by_cases hc : (x.hash.emplace S.stl v r).2.2 = false
  · simp only []
    rw [if_pos hc]
    rw [hc] at h1
    refine ⟨h1, fun e => by simp at e, fun e => by simp at e, fun _ => ?_⟩
    rw [(h3 hc).1]
  · simp only []
    rw [if_neg hc]
    have hc' : (x.hash.emplace S.stl v r).2.2 = true := by simpa using hc
    rw [hc'] at h1
    exact ⟨h1, fun _ => (h2 hc').1, fun _ e => (g2 (g1.2 e)).1, fun e => by simp at e⟩

/-- Erasing a record from the maps of a key: the loops end without undefined behaviour, with one outcome. From the hash map goes the record's entry; from the ordered map
go all entries with the value, if the record's is among them. -/
theorem C75_erase {multi : Bool} {x : Idx V} (h : Maps multi x) (S : Hash V) (v : V) (r : Nat) :
    ∃ x', Only (x.Erase S v r) x' ∧ x'.hash.content.Perm (x.hash.content.erase (v, r)) ∧ x'.ord.content = dropValue x.ord.content v r := by
  obtain ⟨ho, hm⟩ := ireach_ok h
  obtain ⟨pre, mid, post, s, s1, s2, s3⟩ := range_hash S.stl ho.h v
  obtain ⟨pre', mid', post', t, t1, t2, t3⟩ := range_ord ho.o v
  obtain ⟨y, y1, y2⟩ := eraseIt_content (r := r) s s1 s2 s3
  obtain ⟨z, z1, z2⟩ := eraseKeyOf_content (r := r) t t1 t2 t3
  have hr : x.Erase S v r ⟨y, z⟩ := .run y z y1 z1
  exact ⟨⟨y, z⟩, ⟨hr, fun b hb => erase_unique hr hb⟩, y2, z2⟩

/-- Changing the value of a record in the maps of a key: a map of unique values refuses if it holds the old value; otherwise all entries with the old value go, if the record's
is among them, and the new one is added. -/
theorem C75_set {multi : Bool} {x : Idx V} (h : Maps multi x) (S : Hash V) (old new : V) (r : Nat) :
    ((multi = false ∧ ∃ e ∈ x.hash.content, e.1 = old) → Only (x.Set S old new r) none) ∧
    (¬ (multi = false ∧ ∃ e ∈ x.hash.content, e.1 = old) → ∃ x', Only (x.Set S old new r) (some x') ∧
      (multi = true → x'.hash.content.Perm ((new, r) :: dropValue x.hash.content old r) ∧ x'.ord.content.Perm ((new, r) :: dropValue x.ord.content old r)) ∧
      (multi = false → x'.hash.content.Perm (if ∃ e ∈ x.hash.content, e.1 = new then x.hash.content else (new, r) :: x.hash.content))) := by
  obtain ⟨ho, hm⟩ := ireach_ok h
  obtain ⟨pre, mid, post, s, s1, s2, s3, s4⟩ := range_hash' S ho.h old
  obtain ⟨pre', mid', post', t, t1, t2, t3⟩ := range_ord ho.o old
  obtain ⟨y, y1, y2⟩ := eraseKeyOf_content (r := r) s s1 s2 s3
  obtain ⟨z, z1, z2⟩ := eraseKeyOf_content (r := r) t t1 t2 t3
  have hf := filter_stretch s s1 s2 s3
  have hmid : mid ≠ [] ↔ ∃ e ∈ x.hash.content, e.1 = old := by
    constructor
    · intro hne
      obtain ⟨n, hn⟩ := List.exists_mem_of_ne_nil _ hne
      have : (n.key, n.val) ∈ ent mid := List.mem_map.2 ⟨n, hn, rfl⟩
      rw [← hf] at this
      have := List.mem_filter.1 this
      exact ⟨_, this.1, by simpa using this.2⟩
    · rintro ⟨e, he, e1⟩ hnil
      have : e ∈ x.hash.content.filter fun e => decide (e.1 = old) := List.mem_filter.2 ⟨he, by simpa using e1⟩
      rw [hf, hnil] at this
      simp [ent] at this
  constructor
  · rintro ⟨hmf, he⟩
    have hd : differ x.hash (x.hash.equalRange S.stl old).1 x.hash.end_ = some true := by rw [s4, decide_eq_true (hmid.2 he)]
    refine ⟨.refused (hm.trans hmf) hd, fun b hb => ?_⟩
    cases hb with
    | refused => rfl
    | run _ _ h0 =>
      rcases h0 with q | q
      · rw [hm, hmf] at q; cases q
      · rw [hd] at q; cases q
  · intro hn
    have h0 : x.hash.isMulti = true ∨ differ x.hash (x.hash.equalRange S.stl old).1 x.hash.end_ = some false := by
      cases e : multi with
      | true => exact .inl (hm.trans e)
      | false =>
        right
        rw [s4]
        have : ¬ mid ≠ [] := fun hc => hn ⟨e, hmid.1 hc⟩
        rw [decide_eq_false this]
    have hrun : x.Set S old new r _ := .run y z h0 y1 z1
    refine ⟨_, ⟨hrun, fun b hb => ?_⟩, ?_, ?_⟩
    · cases hb with
      | refused q1 q2 =>
        rcases h0 with q | q
        · rw [q1] at q; cases q
        · rw [q2] at q; cases q
      | run y' z' _ g1 g2 => rw [eraseKeyOf_unique y1 g1, eraseKeyOf_unique z1 g2]
    · intro e
      have hy := C72_emplace S.stl (reach_eraseKeyOf S.stl ho.h y1) new r
      have hz := C72_emplace (ordStl 0) (reach_eraseKeyOf (ordStl 0) ho.o z1) new r
      rw [multi_eraseKeyOf y1, hm, e] at hy
      rw [multi_eraseKeyOf z1, ho.m, hm, e] at hz
      rw [← y2, ← z2]
      exact ⟨(hy.2.1 (hy.1.2 (.inl rfl))).1, (hz.2.1 (hz.1.2 (.inl rfl))).1⟩
    · intro e
      have hy := hash_emplace S (reach_eraseKeyOf S.stl ho.h y1) new r
      have hnone : ∀ e ∈ x.hash.content, e.1 ≠ old := fun q hq hc => hn ⟨e, q, hq, hc⟩
      have hd : dropValue x.hash.content old r = x.hash.content := by
        unfold dropValue
        split
        · exact List.filter_eq_self.2 fun q hq => by simpa using hnone q hq
        · rfl
      rw [multi_eraseKeyOf y1, hm, e, y2, hd] at hy
      refine hy.2.trans ?_
      unfold W.hashEmplace
      have hv : W.hasVal x.hash.content new = true ↔ ∃ e ∈ x.hash.content, e.1 = new := by simp [W.hasVal, List.any_eq_true]
      simp only [true_and]
      rw [if_congr hv rfl rfl]
      split
      · exact .refl _
      · exact List.perm_append_comm (l₂ := [(new, r)])

theorem mem_takeWhile {C : Type} {p : C → Bool} : ∀ {l : List C} {c : C}, c ∈ l.takeWhile p → p c = true
  | [], _, h => by simp at h
  | d :: l, c, h => by
    rw [List.takeWhile_cons] at h
    by_cases hd : p d = true
    · rw [if_pos hd] at h
      rcases List.mem_cons.1 h with q | q
      · rw [q]; exact hd
      · exact mem_takeWhile q
    · rw [if_neg hd] at h; simp at h

theorem scan_run0 {x : PMap V Nat} (n : Option Nat) {mid : List (Node V Nat)} {a b : It} {pre post : List (Node V Nat)} (h : Stretch x a b pre mid post) :
    Scan x n a b 0 (atMost n (ent mid)) := by
  cases n with
  | none => exact scan_run none mid 0 h
  | some n => exact scan_run (some n) mid 0 h

theorem begin_end {x : PMap V Nat} (hd : (ids x.act.nodes).Nodup) : Stretch x x.begin_ x.end_ [] x.act.nodes [] := by
  obtain ⟨b1, b2, b3, b4⟩ := act_gen (x := x)
  exact ⟨by simp, hd, b3, b4, by rw [b1]; simp [Seq.first], by rw [b2]; rfl⟩

theorem filter_all {C : Type} (p : C → Bool) {pre mid post : List C} (h1 : ∀ n ∈ pre, p n = false) (h2 : ∀ n ∈ mid, p n = true) (h3 : ∀ n ∈ post, p n = false) :
    (pre ++ (mid ++ post)).filter p = mid := filter_parts p h1 h2 h3

/-- The stretch of the ordered map that belongs to a request. -/
theorem bounds_stretch {x : Idx V} (h : PMap.Reach Sorted x.ord) (t : Kind) (ht : t ≠ .Equal) (a b : V) (ia ib : Bool) :
    ∃ pre mid post, Stretch x.ord (x.bounds t a b ia ib).1 (x.bounds t a b ia ib).2 pre mid post ∧ (x.ord.content.filter fun e => t.holds a b ia ib e.1) = ent mid := by
  have hi := reach_mi (ordStl 0) h
  obtain ⟨b1, b2, b3, b4⟩ := act_gen (x := x.ord)
  have lo : ∀ k, (x.ord.lowerBound k).act = ⟨headId (x.ord.act.nodes.dropWhile fun n => decide (n.key < k)), x.ord.act.gen⟩ ∧ (x.ord.lowerBound k).isMulti = x.ord.isMulti := fun k => ⟨(bound_act k).1, (bound_act k).2.2.1⟩
  have up : ∀ k, (x.ord.upperBound k).act = ⟨headId (x.ord.act.nodes.dropWhile fun n => decide (n.key ≤ k)), x.ord.act.gen⟩ ∧ (x.ord.upperBound k).isMulti = x.ord.isMulti := fun k => ⟨(bound_act k).2.1, (bound_act k).2.2.2⟩
  have hfil : ∀ (p : V → Bool) (pre mid post : List (Node V Nat)), x.ord.act.nodes = pre ++ (mid ++ post) → (∀ n ∈ pre, p n.key = false) → (∀ n ∈ mid, p n.key = true) → (∀ n ∈ post, p n.key = false) →
      (x.ord.content.filter fun e => p e.1) = ent mid := by
    intro p pre mid post e h1 h2 h3
    simp only [PMap.content, List.filter_map]
    rw [e, filter_parts _ (by simpa using h1) (by simpa using h2) (by simpa using h3)]; rfl
  obtain ⟨pa, ma, qa, ea, a1, a2, a3, a4, a5⟩ := sorted_parts x.ord.act.nodes hi.ok a
  obtain ⟨pb, mb, qb, eb, c1, c2, c3, c4, c5⟩ := sorted_parts x.ord.act.nodes hi.ok b
  cases t with
  | Equal => exact absurd rfl ht
  | Greater =>
    refine ⟨pa ++ ma, qa, [], ⟨by rw [ea]; simp, hi.nodup, (up a).2, b4, by rw [show (x.bounds .Greater a b ia ib).1 = x.ord.upperBound a from rfl, (up a).1, a5]; simp, by exact b2⟩, ?_⟩
    refine hfil (fun v => decide (a < v)) (pa ++ ma) qa [] (by rw [ea]; simp) ?_ ?_ (by simp)
    · intro n hn
      rcases List.mem_append.1 hn with q | q
      · simpa using le_of_lt (a1 n q)
      · simp [a2 n q]
    · intro n hn; simpa using a3 n hn
  | GreaterOrEqual =>
    refine ⟨pa, ma ++ qa, [], ⟨by rw [ea]; simp, hi.nodup, (lo a).2, b4, by rw [show (x.bounds .GreaterOrEqual a b ia ib).1 = x.ord.lowerBound a from rfl, (lo a).1, a4]; simp, by exact b2⟩, ?_⟩
    refine hfil (fun v => decide (a ≤ v)) pa (ma ++ qa) [] (by rw [ea]; simp) ?_ ?_ (by simp)
    · intro n hn; simpa using a1 n hn
    · intro n hn
      rcases List.mem_append.1 hn with q | q
      · simp [a2 n q]
      · simpa using le_of_lt (a3 n q)
  | Less =>
    refine ⟨[], pb, mb ++ qb, ⟨by rw [eb]; simp, hi.nodup, b3, (lo b).2, by rw [show (x.bounds .Less a b ia ib).1 = x.ord.begin_ from rfl, b1, Seq.first, eb], by rw [show (x.bounds .Less a b ia ib).2 = x.ord.lowerBound b from rfl, (lo b).1, c4]⟩, ?_⟩
    refine hfil (fun v => decide (v < b)) [] pb (mb ++ qb) (by rw [eb]; simp) (by simp) ?_ ?_
    · intro n hn; simpa using c1 n hn
    · intro n hn
      rcases List.mem_append.1 hn with q | q
      · simp [c2 n q]
      · simpa using le_of_lt (c3 n q)
  | LessOrEqual =>
    refine ⟨[], pa ++ ma, qa, ⟨by rw [ea]; simp, hi.nodup, b3, (up a).2, by rw [show (x.bounds .LessOrEqual a b ia ib).1 = x.ord.begin_ from rfl, b1, Seq.first, ea]; simp, by rw [show (x.bounds .LessOrEqual a b ia ib).2 = x.ord.upperBound a from rfl, (up a).1, a5]⟩, ?_⟩
    refine hfil (fun v => decide (v ≤ a)) [] (pa ++ ma) qa (by rw [ea]; simp) (by simp) ?_ ?_
    · intro n hn
      rcases List.mem_append.1 hn with q | q
      · simpa using le_of_lt (a1 n q)
      · simp [a2 n q]
    · intro n hn; simpa using a3 n hn
  | Interval =>
    by_cases hc : b < a ∨ (a = b ∧ (ia = false ∨ ib = false))
    · have eb' : x.bounds .Interval a b ia ib = (x.ord.end_, x.ord.end_) := by simp only [Idx.bounds]; rw [if_pos hc]
      rw [eb']
      refine ⟨x.ord.act.nodes, [], [], ⟨by simp, hi.nodup, b4, b4, b2, b2⟩, ?_⟩
      rw [List.filter_eq_nil_iff.2]
      · rfl
      · intro e he hq
        simp only [Kind.holds, Bool.and_eq_true] at hq
        have l1 : a ≤ e.1 := by
          have := hq.1; split at this
          · simpa using this
          · exact le_of_lt (by simpa using this)
        have l2 : e.1 ≤ b := by
          have := hq.2; split at this
          · simpa using this
          · exact le_of_lt (by simpa using this)
        rcases hc with q | ⟨q, q'⟩
        · exact absurd (lt_of_lt_of_le q l1) (not_lt.2 l2)
        · subst q
          have he' : e.1 = a := le_antisymm l2 l1
          rcases q' with q' | q' <;> simp [q', he'] at hq
    · have hab : a ≤ b := not_lt.1 fun q => hc (.inl q)
      have hstrict : (ia = true ∧ ib = true) ∨ a < b := by
        rcases lt_or_eq_of_le hab with q | q
        · exact .inr q
        · left
          cases hia : ia with
          | false => exact absurd (.inr ⟨q, .inl hia⟩) hc
          | true => cases hib : ib with
            | false => exact absurd (.inr ⟨q, .inr hib⟩) hc
            | true => exact ⟨rfl, rfl⟩
      have eb' : x.bounds .Interval a b ia ib = (if ia = true then x.ord.lowerBound a else x.ord.upperBound a, if ib = true then x.ord.upperBound b else x.ord.lowerBound b) := by
        simp only [Idx.bounds]; rw [if_neg hc]
      rw [eb']
      -- the two cut positions
      let pl : V → Bool := fun v => if ia = true then decide (v < a) else decide (v ≤ a)
      let pu : V → Bool := fun v => if ib = true then decide (v ≤ b) else decide (v < b)
      have hl : (if ia = true then x.ord.lowerBound a else x.ord.upperBound a).act = ⟨headId (x.ord.act.nodes.dropWhile fun n => pl n.key), x.ord.act.gen⟩ ∧
          (if ia = true then x.ord.lowerBound a else x.ord.upperBound a).isMulti = x.ord.isMulti := by
        cases ia
        · exact up a
        · exact lo a
      have hu : (if ib = true then x.ord.upperBound b else x.ord.lowerBound b).act = ⟨headId (x.ord.act.nodes.dropWhile fun n => pu n.key), x.ord.act.gen⟩ ∧
          (if ib = true then x.ord.upperBound b else x.ord.lowerBound b).isMulti = x.ord.isMulti := by
        cases ib
        · exact lo b
        · exact up b
      -- downward closed tests on a sorted list cut it
      have cut : ∀ (p : V → Bool), (∀ u v, u ≤ v → p v = true → p u = true) → ∀ l : List (Node V Nat), Sorted l → ∀ n ∈ l.dropWhile (fun n => p n.key), p n.key = false := by
        intro p hp l
        induction l with
        | nil => simp
        | cons m l ih =>
          intro hsl n hn
          have h' := List.pairwise_cons.1 hsl
          rw [List.dropWhile_cons] at hn
          by_cases hm : p m.key = true
          · rw [if_pos hm] at hn; exact ih h'.2 n hn
          · rw [if_neg hm] at hn
            rcases List.mem_cons.1 hn with q | q
            · rw [q]; simpa using hm
            · by_contra hq
              exact hm (hp _ _ (h'.1 n q) (by simpa using hq))
      have pld : ∀ u v, u ≤ v → pl v = true → pl u = true := by
        intro u v huv hv
        simp only [pl] at hv ⊢
        cases ia
        · simp only [Bool.false_eq_true, if_false, decide_eq_true_eq] at hv ⊢; exact le_trans huv hv
        · simp only [if_true, decide_eq_true_eq] at hv ⊢; exact lt_of_le_of_lt huv hv
      have pud : ∀ u v, u ≤ v → pu v = true → pu u = true := by
        intro u v huv hv
        simp only [pu] at hv ⊢
        cases ib
        · simp only [Bool.false_eq_true, if_false, decide_eq_true_eq] at hv ⊢; exact lt_of_le_of_lt huv hv
        · simp only [if_true, decide_eq_true_eq] at hv ⊢; exact le_trans huv hv
      have plu : ∀ v, pl v = true → pu v = true := by
        intro v hv
        simp only [pl, pu] at hv ⊢
        cases ia <;> cases ib <;> simp only [Bool.false_eq_true, if_false, if_true, decide_eq_true_eq] at hv hstrict ⊢
        · rcases hstrict with q | q
          · simp at q
          · exact lt_of_le_of_lt hv q
        · exact le_trans hv hab
        · rcases hstrict with q | q
          · simp at q
          · exact lt_trans hv q
        · exact le_of_lt (lt_of_lt_of_le hv hab)
      -- nodes = takeWhile pl ++ (middle ++ dropWhile pu)
      have hcut : ∀ l : List (Node V Nat), Sorted l → ∃ mid, l.dropWhile (fun n => pl n.key) = mid ++ l.dropWhile (fun n => pu n.key) ∧ ∀ n ∈ mid, pu n.key = true := by
        intro l hl'
        have e1 := List.takeWhile_append_dropWhile (p := fun n : Node V Nat => pu n.key) (l := l.dropWhile fun n => pl n.key)
        refine ⟨(l.dropWhile fun n => pl n.key).takeWhile fun n => pu n.key, ?_, ?_⟩
        · have : (l.dropWhile fun n => pl n.key).dropWhile (fun n => pu n.key) = l.dropWhile fun n => pu n.key := by
            clear hl' e1
            induction l with
            | nil => rfl
            | cons m l ih =>
              rw [List.dropWhile_cons]
              by_cases hm : pl m.key = true
              · rw [if_pos hm, ih, List.dropWhile_cons, if_pos (plu _ hm)]
              · rw [if_neg hm]
          rw [← this]; exact e1.symm
        · intro n hn; exact mem_takeWhile (p := fun n : Node V Nat => pu n.key) hn
      obtain ⟨mid, e1, e2⟩ := hcut _ hi.ok
      refine ⟨x.ord.act.nodes.takeWhile (fun n => pl n.key), mid, x.ord.act.nodes.dropWhile (fun n => pu n.key), ⟨?_, hi.nodup, hl.2, hu.2, ?_, hu.1⟩, ?_⟩
      · rw [← e1]; exact List.takeWhile_append_dropWhile.symm
      · rw [← e1]; exact hl.1
      · have key : ∀ v, Kind.Interval.holds a b ia ib v = (!pl v && pu v) := by
          intro v
          simp only [Kind.holds, pl, pu]
          cases ia <;> simp [← decide_not, not_le, not_lt]
        have hk := hfil (fun v => Kind.Interval.holds a b ia ib v) _ _ _ (by rw [← e1]; exact List.takeWhile_append_dropWhile.symm) ?_ ?_ ?_
        · exact hk
        · intro n hn
          have : pl n.key = true := mem_takeWhile (p := fun n : Node V Nat => pl n.key) hn
          simp only [key]; simp [this]
        · intro n hn
          have h1 := cut pl pld _ hi.ok n (by rw [e1]; simp [hn])
          simp only [key]; simp [h1, e2 n hn]
        · intro n hn
          have h1 := cut pu pud _ hi.ok n hn
          simp only [key]; simp [h1]

/-- A request visits exactly the entries whose value satisfies its condition, in the order of the container, at most as many as asked for; it ends without undefined behaviour. -/
theorem C75_request {multi : Bool} {x : Idx V} (h : Maps multi x) (S : Hash V) (t : Kind) (a b : V) (ia ib : Bool) (n : Option Nat) :
    Only (x.Request S t a b ia ib n) (atMost n ((if t = .Equal then x.hash.content else x.ord.content).filter fun e => t.holds a b ia ib e.1)) := by
  obtain ⟨ho, hm⟩ := ireach_ok h
  by_cases ht : t = .Equal
  · subst ht
    obtain ⟨pre, mid, post, s, s1, s2, s3, s4⟩ := range_hash' S ho.h a
    have hf := filter_stretch s s1 s2 s3
    simp only [if_true, Kind.holds]
    rw [hf]
    have hsc := scan_run0 n s
    cases mid with
    | nil =>
      have he : atMost n (ent ([] : List (Node V Nat))) = [] := by cases n <;> simp [atMost, ent]
      rw [he] at hsc ⊢
      refine ⟨.eqNone rfl (by rw [s4]; simp), fun l hl => ?_⟩
      cases hl with
      | eqNone => rfl
      | eq l _ _ g => exact scan_unique hsc g
      | ord l g => exact absurd rfl g
    | cons m mid =>
      have hd : differ x.hash (x.hash.equalRange S.stl a).1 x.hash.end_ = some true := by rw [s4]; simp
      refine ⟨.eq _ rfl hd hsc, fun l hl => ?_⟩
      cases hl with
      | eqNone _ g => rw [hd] at g; cases g
      | eq l _ _ g => exact scan_unique hsc g
      | ord l g => exact absurd rfl g
  · rw [if_neg ht]
    obtain ⟨pre, mid, post, s, hf⟩ := bounds_stretch ho.o t ht a b ia ib
    rw [hf]
    have hsc := scan_run0 n s
    refine ⟨.ord _ ht hsc, fun l hl => ?_⟩
    cases hl with
    | eqNone g => exact absurd g ht
    | eq l g => exact absurd g ht
    | ord l _ g => exact scan_unique hsc g

/-- `GetRecord` and `EraseRecord` find an entry with the value, if there is one. -/
theorem C75_find {multi : Bool} {x : Idx V} (h : Maps multi x) (S : Hash V) (v : V) :
    ∃ res, Only (x.GetOne S v) res ∧ (res = none ↔ ∀ e ∈ x.hash.content, e.1 ≠ v) ∧ ∀ r, res = some r → (v, r) ∈ x.hash.content := by
  obtain ⟨ho, hm⟩ := ireach_ok h
  have hi := reach_mi S.stl ho.h
  obtain ⟨h1, h2⟩ := C72_find S.stl ho.h v
  obtain ⟨b1, b2, b3, b4⟩ := act_gen (x := x.hash)
  have hmu : (x.hash.find S.stl v).isMulti = x.hash.isMulti := by cases e : x.hash.isMulti <;> simp [PMap.find, e]
  have hac : (x.hash.find S.stl v).act = x.hash.act.find S.stl v := by cases e : x.hash.isMulti <;> simp [PMap.find, e, It.act, PMap.act]
  have hne : (x.hash.find S.stl v).ne x.hash.end_ = !((x.hash.find S.stl v).eq x.hash.end_) := by
    simp only [It.ne, It.eq]; split <;> simp
  have hue : usable x.hash x.hash.end_ = true := usable_of (pre := x.hash.act.nodes) (l := []) (by simp) b4 b2
  have huf : usable x.hash (x.hash.find S.stl v) = true := by
    unfold usable
    rw [hac]
    simp only [hmu, decide_true, Bool.true_and, Seq.find]
    cases hg : (x.hash.act.nodes.filter fun n => decide (n.key = v))[S.stl.pick % (x.hash.act.nodes.filter fun n => decide (n.key = v)).length]? with
    | none => simp
    | some n =>
      have hn : n ∈ x.hash.act.nodes := (List.mem_filter.1 (List.mem_of_getElem? hg)).1
      simp only [Option.map_some, List.any_eq_true, decide_eq_true_eq]
      exact ⟨n, hn, rfl⟩
  have hd : differ x.hash (x.hash.find S.stl v) x.hash.end_ = some (!((x.hash.find S.stl v).eq x.hash.end_)) := by
    unfold differ; rw [if_pos ⟨huf, hue⟩, hne]
  cases he : (x.hash.find S.stl v).eq x.hash.end_ with
  | true =>
    rw [he] at hd h1
    refine ⟨none, ⟨.none hd, fun b hb => ?_⟩, by simpa using h1, fun r hr => by cases hr⟩
    cases hb with
    | found _ g => rw [hd] at g; cases g
    | none => rfl
  | false =>
    rw [he] at hd h1
    obtain ⟨r, d1, d2⟩ := h2 he
    refine ⟨some r, ⟨.found _ hd d1, fun b hb => ?_⟩, ?_, fun r' hr => by cases hr; exact d2⟩
    · cases hb with
      | found e _ g => rw [d1] at g; cases g; rfl
      | none g => rw [hd] at g; cases g
    · simp only [reduceCtorEq, false_iff]
      exact fun hc => hc _ d2 rfl

/-- `GetRecords` collects the records of the entries with the value, in the order of the container: the first `n`, but at least one. -/
theorem C75_getRecords {multi : Bool} {x : Idx V} (h : Maps multi x) (S : Hash V) (v : V) (n : Nat) :
    Only (x.GetMany S v n) (if ∃ e ∈ x.hash.content, e.1 = v then some (((x.hash.content.filter fun e => decide (e.1 = v)).map (·.2)).take (max n 1)) else none) := by
  obtain ⟨ho, hm⟩ := ireach_ok h
  obtain ⟨pre, mid, post, s, s1, s2, s3, s4⟩ := range_hash' S ho.h v
  have hf := filter_stretch s s1 s2 s3
  have hmid : (∃ e ∈ x.hash.content, e.1 = v) ↔ mid ≠ [] := by
    have : (∃ e ∈ x.hash.content, e.1 = v) ↔ (x.hash.content.filter fun e => decide (e.1 = v)) ≠ [] := by
      rw [Ne, List.filter_eq_nil_iff]; simp
    rw [this, hf]; cases mid <;> simp [ent]
  rw [if_congr hmid rfl rfl, hf]
  have hc := collect_run n mid 0 s
  have e0 : (ent mid).map (·.2) = mid.map (·.val) := by simp [ent]
  rw [e0]
  by_cases hne : mid ≠ []
  · rw [if_pos hne]
    rw [decide_eq_true hne] at s4
    refine ⟨.found _ s4 hc, fun b hb => ?_⟩
    cases hb with
    | found l _ g => rw [collect_unique hc g]; rfl
    | none g => rw [s4] at g; cases g
  · rw [if_neg hne]
    rw [decide_eq_false hne] at s4
    refine ⟨.none s4, fun b hb => ?_⟩
    cases hb with
    | found l g => rw [s4] at g; cases g
    | none => rfl

/-- A sorter gives the callback the records in the order of their values, or in the opposite order, until the callback answers false. -/
theorem C75_sort {multi : Bool} {x : Idx V} (h : Maps multi x) (f : List Nat → Nat → Bool) :
    x.ord.content.Pairwise (fun e e' => e.1 ≤ e'.1) ∧
    Only (SortLoop x.ord f x.ord.begin_ x.ord.end_ []) (until_ f [] (x.ord.content.map (·.2))) ∧
    Only (SortLoop x.ord.rev f x.ord.rbegin x.ord.rend []) (until_ f [] (x.ord.content.reverse.map (·.2))) := by
  obtain ⟨ho, hm⟩ := ireach_ok h
  have hi := reach_mi (ordStl 0) ho.o
  refine ⟨(C72_sorted_unique ho.o).1, ?_, ?_⟩
  · have := sort_run f _ [] (begin_end hi.nodup)
    have e : x.ord.content.map (·.2) = x.ord.act.nodes.map (·.val) := by simp [content_eq, ent]
    rw [e]
    exact ⟨this, fun b hb => sort_unique this hb⟩
  · have er : x.ord.rev.act = x.ord.act.rev := by cases e : x.ord.isMulti <;> simp [PMap.rev, PMap.act, e]
    have hn : x.ord.rev.act.nodes = x.ord.act.nodes.reverse := by rw [er]; rfl
    have hs : Stretch x.ord.rev x.ord.rbegin x.ord.rend [] x.ord.act.nodes.reverse [] := by
      refine ⟨by rw [hn]; simp, by rw [hn, ids, List.map_reverse]; exact (List.reverse_perm _).nodup_iff.2 hi.nodup, rfl, rfl, ?_, ?_⟩
      · rw [er]; cases e : x.ord.isMulti <;> simp [PMap.rbegin, It.act, e, Seq.first, Seq.rev, PMap.act]
      · rw [er]; cases e : x.ord.isMulti <;> simp [PMap.rend, It.act, e, Seq.last, Seq.rev, PMap.act, headId]
    have := sort_run f _ [] hs
    have e : x.ord.content.reverse.map (·.2) = x.ord.act.nodes.reverse.map (·.val) := by simp [content_eq, ent]
    rw [e]
    exact ⟨this, fun b hb => sort_unique this hb⟩

/-! ### Several keys -/

theorem eraseAll_unique {S : Hash V} {val : K → V} {r : Nat} {m m1 m2 : List (K × Idx V)} (h : EraseAll S val r m m1) (h' : EraseAll S val r m m2) : m2 = m1 := by
  induction h generalizing m2 with
  | nil => cases h'; rfl
  | cons k x x' l l' h1 _ ih => cases h' with
    | cons _ _ y _ l2 g1 g2 => rw [erase_unique h1 g1, ih g2]

theorem eraseMany_unique [DecidableEq K] {S : Hash V} {val : Nat → K → V} {k : K} {n : Nat} {m : List (K × Idx V)} {a b : It} {i : Nat} {l : List Nat} {m1 : List (K × Idx V)}
    (h : EraseMany S val k n m a b i l m1) : ∀ {l' m2}, EraseMany S val k n m a b i l' m2 → l' = l ∧ m2 = m1 := by
  induction h with
  | done m x a b i h1 h2 => intro l' m2 h'; cases h' <;> simp_all
  | full m m' x a b i e a' h1 h2 h3 h4 h5 h6 =>
    intro l' m2 h'
    cases h' with
    | done _ _ _ _ _ g1 g2 => rw [h1] at g1; cases g1; rw [h2] at g2; cases g2
    | full _ _ _ _ _ _ _ _ g1 g2 g3 g4 g5 => rw [h1] at g1; cases g1; rw [h4] at g4; cases g4; exact ⟨rfl, eraseAll_unique h5 g5⟩
    | next _ _ _ _ _ _ _ _ _ _ _ _ _ _ _ g => omega
  | next m m' m'' x a b i e a' l h1 h2 h3 h4 h5 h6 _ ih =>
    intro l' m2 h'
    cases h' with
    | done _ _ _ _ _ g1 g2 => rw [h1] at g1; cases g1; rw [h2] at g2; cases g2
    | full _ _ _ _ _ _ _ _ _ _ _ _ _ g => omega
    | next _ _ _ _ _ _ _ _ _ _ g1 g2 g3 g4 g5 g6 g7 =>
      rw [h1] at g1; cases g1; rw [h4] at g4; cases g4; rw [h3] at g3; cases g3
      have := eraseAll_unique h5 g5; subst this
      obtain ⟨q1, q2⟩ := ih g7
      exact ⟨by rw [q1], q2⟩

/-- Entries after erasing records one after another: from the hash map each record's entry, from the ordered map all entries with its value. -/
def Erased (val : Nat → K → V) (rs : List Nat) (p p' : K × Idx V) : Prop :=
  p'.1 = p.1 ∧ p'.2.hash.content.Perm (rs.foldl (fun l r => l.erase (val r p.1, r)) p.2.hash.content) ∧
    p'.2.ord.content = rs.foldl (fun l r => dropValue l (val r p.1) r) p.2.ord.content

theorem eraseAll_run (S : Hash V) (val : K → V) (r : Nat) : ∀ (m : List (K × Idx V)), (∀ p ∈ m, ∃ multi, Maps multi p.2) →
    ∃ m', EraseAll S val r m m' ∧ (∀ p ∈ m', ∃ multi, Maps multi p.2) ∧
      List.Forall₂ (fun p p' : K × Idx V => p'.1 = p.1 ∧ p.2.Erase S (val p.1) r p'.2 ∧ p'.2.hash.content.Perm (p.2.hash.content.erase (val p.1, r)) ∧ p'.2.ord.content = dropValue p.2.ord.content (val p.1) r) m m'
  | [], _ => ⟨[], .nil, by simp, .nil⟩
  | (k, x) :: m, h => by
    obtain ⟨m', h1, h2, h3⟩ := eraseAll_run S val r m (fun p hp => h p (by simp [hp]))
    obtain ⟨mu, hx⟩ := h (k, x) (by simp)
    obtain ⟨x', g1, g2, g3⟩ := C75_erase hx S (val k) r
    refine ⟨(k, x') :: m', .cons k x x' m m' g1.1 h1, fun p hp => ?_, .cons ⟨rfl, g1.1, g2, g3⟩ h3⟩
    rcases List.mem_cons.1 hp with q | q
    · rw [q]; exact ⟨mu, Maps.step S x (.erase (val k) r) x' hx (.erase _ _ _ g1.1)⟩
    · exact h2 p q

theorem look_forall₂ [DecidableEq K] {R : K × Idx V → K × Idx V → Prop} (hR : ∀ p p', R p p' → p'.1 = p.1) {m m' : List (K × Idx V)} (h : List.Forall₂ R m m') {k : K} {x : Idx V} (hx : look m k = some x) :
    ∃ x', look m' k = some x' ∧ R (k, x) (k, x') := by
  induction h with
  | nil => cases hx
  | @cons p p' l l' h1 _ ih =>
    obtain ⟨k1, x1⟩ := p; obtain ⟨k2, x2⟩ := p'
    have e := hR _ _ h1; simp only at e; subst e
    unfold look at hx ⊢
    by_cases hk : k2 = k
    · subst hk; rw [if_pos rfl] at hx ⊢; cases hx; exact ⟨x2, rfl, h1⟩
    · rw [if_neg hk] at hx ⊢; exact ih hx

theorem look_mem [DecidableEq K] : ∀ {m : List (K × Idx V)} {k : K} {x : Idx V}, look m k = some x → (k, x) ∈ m
  | [], _, _, h => by cases h
  | (k', y) :: m, k, x, h => by
    unfold look at h
    by_cases hk : k' = k
    · rw [if_pos hk] at h; cases h; simp [hk]
    · rw [if_neg hk] at h; exact List.mem_cons_of_mem _ (look_mem h)

theorem split_unique {C D : Type} (f : C → D) : ∀ {l1 l2 l1' l2' : List C} {c c' : C}, l1 ++ c :: l2 = l1' ++ c' :: l2' → ((l1 ++ c :: l2).map f).Nodup → f c = f c' → l1 = l1' ∧ l2 = l2'
  | [], l2, [], l2', c, c', h, _, _ => by simp at h; exact ⟨rfl, h.2⟩
  | [], l2, d :: l1', l2', c, c', h, hn, hf => by
    simp only [List.nil_append, List.cons_append, List.cons.injEq] at h
    exfalso
    simp only [List.nil_append, List.map_cons, List.nodup_cons] at hn
    exact hn.1 (by rw [hf]; rw [h.2]; simp)
  | d :: l1, l2, [], l2', c, c', h, hn, hf => by
    simp only [List.nil_append, List.cons_append, List.cons.injEq] at h
    exfalso
    simp only [List.cons_append, List.map_cons, List.nodup_cons] at hn
    refine hn.1 ?_
    rw [h.1, ← hf]; simp
  | d :: l1, l2, d' :: l1', l2', c, c', h, hn, hf => by
    simp only [List.cons_append, List.cons.injEq] at h
    simp only [List.cons_append, List.map_cons, List.nodup_cons] at hn
    obtain ⟨e1, e2⟩ := split_unique f h.2 hn.2 hf
    exact ⟨by rw [h.1, e1], e2⟩

theorem forall₂_erased {val : Nat → K → V} {S : Hash V} {r : Nat} {rs : List Nat} {m m' m'' : List (K × Idx V)}
    (h : List.Forall₂ (fun p p' : K × Idx V => p'.1 = p.1 ∧ p.2.Erase S (val r p.1) r p'.2 ∧ p'.2.hash.content.Perm (p.2.hash.content.erase (val r p.1, r)) ∧ p'.2.ord.content = dropValue p.2.ord.content (val r p.1) r) m m')
    (h' : List.Forall₂ (Erased val rs) m' m'') : List.Forall₂ (Erased val (r :: rs)) m m'' := by
  induction h generalizing m'' with
  | nil => cases h'; exact .nil
  | cons h1 _ ih => cases h' with
    | cons g1 g2 =>
      refine .cons ?_ (ih g2)
      obtain ⟨a1, a2, a3, a4⟩ := h1
      obtain ⟨b1, b2, b3⟩ := g1
      refine ⟨b1.trans a1, ?_, ?_⟩
      · rw [a1] at b2
        refine b2.trans ?_
        simp only [List.foldl_cons]
        have : ∀ (l1 l2 : List (V × Nat)) (g : Nat → V), l1.Perm l2 → (rs.foldl (fun l r => l.erase (g r, r)) l1).Perm (rs.foldl (fun l r => l.erase (g r, r)) l2) := by
          clear ih g2 b2 b3
          intro l1 l2 g hp
          induction rs generalizing l1 l2 with
          | nil => exact hp
          | cons q rs ih2 => exact ih2 _ _ (hp.erase _)
        exact this _ _ (fun r => val r _) a3
      · rw [b3, a1, a4]; rfl

/-- The loop of `EraseRecords` over the entries with a value. -/
theorem eraseMany_run [DecidableEq K] (S : Hash V) (val : Nat → K → V) (k : K) (n : Nat) (v : V) : ∀ (mid : List (Node V Nat)) (m : List (K × Idx V)) (x : Idx V) (a b : It) (pre post : List (Node V Nat)) (i : Nat),
    (∀ p ∈ m, ∃ multi, Maps multi p.2) → look m k = some x → Stretch x.hash a b pre mid post → (∀ n ∈ mid, n.key = v) → (∀ e ∈ x.hash.content, val e.2 k = e.1) → (x.hash.content.map (·.2)).Nodup →
    ∃ m', EraseMany S val k n m a b i ((mid.map (·.val)).take (max (n - i) 1)) m' ∧ List.Forall₂ (Erased val ((mid.map (·.val)).take (max (n - i) 1))) m m'
  | [], m, x, a, b, pre, post, i, hm, hx, hs, hk, hv, hn => by
    refine ⟨m, by simpa using EraseMany.done m x a b i hx hs.nil, ?_⟩
    simp only [List.map_nil, List.take_nil]
    have : ∀ l : List (K × Idx V), List.Forall₂ (Erased val []) l l := by
      intro l; induction l with
      | nil => exact .nil
      | cons p l ih => exact .cons ⟨rfl, .refl _, rfl⟩ ih
    exact this m
  | nd :: mid, m, x, a, b, pre, post, i, hm, hx, hs, hk, hv, hn => by
    obtain ⟨h1, h2, a', h3, h4⟩ := hs.cons
    obtain ⟨m', e1, e2, e3⟩ := eraseAll_run S (val nd.val) nd.val m hm
    obtain ⟨x', l1, l2⟩ := look_forall₂ (fun p p' h => h.1) e3 hx
    obtain ⟨_, l3, l4, l5⟩ := l2
    simp only at l3 l4 l5
    by_cases hl : i + 1 ≥ n
    · have : max (n - i) 1 = 1 := by omega
      rw [this]
      refine ⟨m', .full m m' x a b i _ a' hx h1 h3 h2 e1 hl, ?_⟩
      refine forall₂_erased e3 (rs := []) ?_
      have : ∀ l : List (K × Idx V), List.Forall₂ (Erased val []) l l := by
        intro l; induction l with
        | nil => exact .nil
        | cons p l ih => exact .cons ⟨rfl, .refl _, rfl⟩ ih
      exact this m'
    · have hmax : max (n - i) 1 = max (n - (i + 1)) 1 + 1 := by omega
      rw [hmax]
      -- the maps of key `k` after the erasers
      have hreach : Ok x := (ireach_ok (hm _ (look_mem hx)).choose_spec).1
      have hcont : (nd.key, nd.val) ∈ x.hash.content := by
        rw [content_eq, hs.nodes]; simp [ent]
      have hvk : val nd.val k = nd.key := hv _ hcont
      rw [hvk] at l3 l4
      have hstr : Stretch x'.hash a' b pre mid post := by
        cases l3 with
        | run y z y1 z1 =>
          obtain ⟨pre0, mid0, post0, t, t1, t2, t3⟩ := range_hash S.stl hreach.h nd.key
          obtain ⟨y', r1, r2, r3, r4, r5⟩ := eraseIt_run nd.val mid0 t
          have := eraseIt_unique r1 y1; subst this
          have hnv : (x.hash.act.nodes.map (·.val)).Nodup := by
            have := hn; rw [content_eq] at this; simpa [ent, List.map_map, Function.comp_def] using this
          rcases r5 with ⟨q1, q2⟩ | ⟨m1, n0, m2, q1, q2, q3, q4⟩
          · exfalso
            have := (mem_stretch t.nodes t1 t2 t3 nd.val).1 (by rw [← content_eq]; exact hcont)
            obtain ⟨n', hn', en'⟩ := this
            exact q1 n' hn' en'
          · have es : pre ++ nd :: (mid ++ post) = (pre0 ++ m1) ++ n0 :: (m2 ++ post0) := by
              have e1' := hs.nodes; have e2' := t.nodes
              rw [e1', q1] at e2'
              simpa using e2'
            obtain ⟨u1, u2⟩ := split_unique (fun n : Node V Nat => n.val) es (by rw [hs.nodes] at hnv; simpa using hnv) q2.symm
            have hnodes : y.act.nodes = pre ++ (mid ++ post) := by rw [q4, u1, u2]; simp
            refine ⟨hnodes, ?_, ?_, ?_, ?_, ?_⟩
            · have hd := hs.nodup
              rw [hs.nodes] at hd
              show (ids y.act.nodes).Nodup
              rw [hnodes]
              refine List.Nodup.sublist ?_ hd
              simp only [ids]
              exact ((List.sublist_cons_self nd (mid ++ post)).append_left pre).map _
            · exact h4.ma.trans r2.symm
            · exact h4.mb.trans r2.symm
            · show a'.act = ⟨_, y.act.gen⟩; rw [r3]; exact h4.ea
            · show b.act = ⟨_, y.act.gen⟩; rw [r3]; exact h4.eb
      have hsub : ∀ e ∈ x'.hash.content, e ∈ x.hash.content := fun e he => List.mem_of_mem_erase (l4.subset he)
      have hn' : (x'.hash.content.map (·.2)).Nodup := by
        refine (l4.map _).nodup_iff.2 ?_
        exact ((List.erase_sublist).map _).nodup hn
      obtain ⟨m'', f1, f2⟩ := eraseMany_run S val k n v mid m' x' a' b pre post (i + 1) e2 l1 hstr (fun q hq => hk q (by simp [hq])) (fun e he => hv e (hsub e he)) hn'
      refine ⟨m'', ?_, ?_⟩
      · simp only [List.map_cons, List.take_succ_cons]
        exact .next m m' m'' x a b i _ a' _ hx h1 h3 h2 e1 (by omega) f1
      · simp only [List.map_cons, List.take_succ_cons]
        exact forall₂_erased e3 f2

/-- `EraseRecords`: although every record found is erased, while the loop runs, from the very map the loop goes through, the loop ends without undefined behaviour, with one outcome: erased are the records
of the first `n` entries with the value (at least one, if there is any), and from every map exactly their entries. Needed: the maps say the truth about the records, and no record is in the map twice. -/
theorem C75_eraseRecords [DecidableEq K] (S : Hash V) (val : Nat → K → V) (k : K) (v : V) (n : Nat) {m : List (K × Idx V)} {x : Idx V}
    (hm : ∀ p ∈ m, ∃ multi, Maps multi p.2) (hx : look m k = some x) (hv : ∀ e ∈ x.hash.content, val e.2 k = e.1) (hn : (x.hash.content.map (·.2)).Nodup) :
    ∃ m', Only (fun p : List Nat × List (K × Idx V) => EraseMany S val k n m (x.hash.equalRange S.stl v).1 (x.hash.equalRange S.stl v).2 0 p.1 p.2)
        ((((x.hash.content.filter fun e => decide (e.1 = v)).map (·.2)).take (max n 1)), m') ∧
      List.Forall₂ (Erased val (((x.hash.content.filter fun e => decide (e.1 = v)).map (·.2)).take (max n 1))) m m' := by
  obtain ⟨mu, hr⟩ := hm _ (look_mem hx)
  obtain ⟨pre, mid, post, s, s1, s2, s3⟩ := range_hash S.stl (ireach_ok hr).1.h v
  have hf := filter_stretch s s1 s2 s3
  rw [hf]
  have e0 : (ent mid).map (·.2) = mid.map (·.val) := by simp [ent]
  rw [e0]
  obtain ⟨m', h1, h2⟩ := eraseMany_run S val k n v mid m x _ _ pre post 0 hm hx s s1 hv hn
  refine ⟨m', ⟨h1, fun p hp => ?_⟩, h2⟩
  obtain ⟨l, m2⟩ := p
  obtain ⟨e1, e2⟩ := eraseMany_unique h1 hp
  simp only at e1 e2
  rw [e1, e2]; rfl

/-! ### Concrete cases -/

/-- A hash map for the examples. -/
def exHash : Hash Nat := ⟨demoHash, fun l k hl => by
  simp only [demoHash, hashStl, hashEqr]
  rw [dropWhile_full _ _ (fun n hn => by simpa using hl n hn)]; rfl⟩

/-- Three records, two of them with value 5. -/
def exIdx : Idx Nat := ((((Idx.empty true).add exHash 5 0).1.add exHash 3 1).1.add exHash 5 2).1
theorem exIdx_reach : IReach true exIdx := .step exHash _ (.add 5 2) _ (.step exHash _ (.add 3 1) _ (.step exHash _ (.add 5 0) _ .init (.add _ _)) (.add _ _)) (.add _ _)
example : exIdx.hash.content = [(3, 1), (5, 2), (5, 0)] ∧ exIdx.ord.content = [(3, 1), (5, 0), (5, 2)] := by decide
example : dropValue exIdx.ord.content 5 2 = [(3, 1)] ∧ exIdx.hash.content.erase (5, 2) = [(3, 1), (5, 0)] := by decide
example : (exIdx.ord.content.filter fun e => Kind.Interval.holds 2 5 true false e.1) = [(3, 1)] := by decide
/-- A unique key refuses a second record with the value, and a change of a value it holds. -/
def exUniq : Idx Nat := ((Idx.empty false).add exHash 5 0).1
theorem exUniq_reach : IReach false exUniq := .step exHash _ (.add 5 0) _ .init (.add _ _)
example : (exUniq.add exHash 5 1).2 = false ∧ (exUniq.add exHash 6 1).2 = true ∧ ∃ e ∈ exUniq.hash.content, e.1 = 5 := by decide
/-- Two keys: `EraseRecords` of the value 5 of the first one. -/
def exVal (r k : Nat) : Nat := if k = 0 then (if r = 1 then 3 else 5) else r
def exIdx2 : Idx Nat := ((((Idx.empty true).add exHash 0 0).1.add exHash 1 1).1.add exHash 2 2).1
theorem exIdx2_reach : IReach true exIdx2 := .step exHash _ (.add 2 2) _ (.step exHash _ (.add 1 1) _ (.step exHash _ (.add 0 0) _ .init (.add _ _)) (.add _ _)) (.add _ _)
example : look [(0, exIdx), (1, exIdx2)] 0 = some exIdx ∧ (∀ e ∈ exIdx.hash.content, exVal e.2 0 = e.1) ∧ (exIdx.hash.content.map (·.2)).Nodup ∧
    ((exIdx.hash.content.filter fun e => decide (e.1 = 5)).map (·.2)).take (max 7 1) = [2, 0] := ⟨rfl, by decide, by decide, by decide⟩
example : Maps true exIdx ∧ Maps false exUniq ∧ Maps true exIdx2 := ⟨exIdx_reach.maps, exUniq_reach.maps, exIdx2_reach.maps⟩

/-! ### C76: the world model's index functions -/

section Refine
open MVault.W (Col Env ReqType visited)
variable {Ty : Type} [MVault.W.Typed V Ty] [DecidableEq Ty]

/-- The two maps hold what the world model says. The order of the hash map is not part of the world model's state. -/
structure Sim (x : Idx V) (c : Col V Ty) : Prop where
  reach : Maps c.multi x
  hash : x.hash.content.Perm c.hash
  ord : x.ord.content = c.ord

/-- The operations on an index in the world model (`WorldBase`). A refused change leaves the index. -/
def absStep (c : Col V Ty) : IOp V → Col V Ty
  | .add v r => (c.add v r).1
  | .erase v r => c.erase v r
  | .set old new r => (c.setVal old new r).getD c
  | .clear => c.clear

theorem hasVal_perm {l l' : List (V × Nat)} (h : l.Perm l') (v : V) : W.hasVal l v = W.hasVal l' v := by
  rw [Bool.eq_iff_iff]
  simp only [W.hasVal, List.any_eq_true]
  exact ⟨fun ⟨e, h1, h2⟩ => ⟨e, h.subset h1, h2⟩, fun ⟨e, h1, h2⟩ => ⟨e, h.symm.subset h1, h2⟩⟩

theorem hasVal_iff (l : List (V × Nat)) (v : V) : W.hasVal l v = true ↔ ∃ e ∈ l, e.1 = v := by simp [W.hasVal, List.any_eq_true]

theorem hashEmplace_perm {m : Bool} {l l' : List (V × Nat)} (h : l.Perm l') (v : V) (r : Nat) : (W.hashEmplace m l v r).Perm (W.hashEmplace m l' v r) := by
  unfold W.hashEmplace
  rw [hasVal_perm h v]
  split
  · exact h
  · exact h.append_right _

theorem dropValue_perm {l l' : List (V × Nat)} (h : l.Perm l') (v : V) (r : Nat) : (dropValue l v r).Perm (dropValue l' v r) := by
  unfold dropValue
  rw [if_congr h.mem_iff rfl rfl]
  split
  · exact h.filter _
  · exact h

/-- A new key. -/
theorem C76_new (c : Col V Ty) (h : c.hash = []) (h' : c.ord = []) : Sim (.empty c.multi) c := by
  refine ⟨Maps.init _, ?_, ?_⟩
  · rw [h]; cases c.multi <;> exact .refl _
  · rw [h']; cases c.multi <;> rfl

theorem C76_add {x : Idx V} {c : Col V Ty} (h : Sim x c) (S : Hash V) (v : V) (r : Nat) :
    Sim (x.add S v r).1 (c.add v r).1 ∧ (x.add S v r).2 = (c.add v r).2 := by
  obtain ⟨ho, hm⟩ := ireach_ok h.reach
  have he := hash_emplace S ho.h v r
  have hoe := ord_emplace x.ord v r
  rw [ho.m, hm, h.ord] at hoe
  rw [hm, hasVal_perm h.hash] at he
  have hst : Maps c.multi (x.add S v r).1 := Maps.step S x (.add v r) _ h.reach (.add v r)
  unfold Col.add
  by_cases hc : c.multi = false ∧ W.hasVal c.hash v = true
  · rw [if_pos hc]
    have hf : (x.hash.emplace S.stl v r).2.2 = false := by
      rw [← Bool.not_eq_true, he.1, hc.1, hc.2]; simp
    have hk : x.add S v r = (x, false) := by
      obtain ⟨g1, g2, g3⟩ := C72_emplace S.stl ho.h v r
      unfold Idx.add
      simp only []
      rw [if_pos hf, (g3 hf).1]
    rw [hk]
    exact ⟨h, rfl⟩
  · rw [if_neg hc]
    have ht : (x.hash.emplace S.stl v r).2.2 = true := by
      rw [he.1]
      cases e : c.multi with
      | true => exact .inl rfl
      | false => right; by_contra q; exact hc ⟨e, by simpa using q⟩
    have hk : x.add S v r = (⟨(x.hash.emplace S.stl v r).1, (x.ord.emplace (ordStl 0) v r).1⟩, true) := by
      unfold Idx.add
      simp only []
      rw [if_neg (by rw [ht]; simp)]
    rw [hk] at hst ⊢
    refine ⟨⟨hst, ?_, hoe⟩, rfl⟩
    refine he.2.trans ?_
    exact hashEmplace_perm h.hash v r

theorem C76_erase {x : Idx V} {c : Col V Ty} (h : Sim x c) (S : Hash V) (v : V) (r : Nat) :
    ∃ x', Only (x.Erase S v r) x' ∧ Sim x' (c.erase v r) := by
  obtain ⟨x', h1, h2, h3⟩ := C75_erase h.reach S v r
  refine ⟨x', h1, Maps.step S x (.erase v r) x' h.reach (.erase v r x' h1.1), ?_, ?_⟩
  · exact h2.trans (h.hash.erase _)
  · rw [h3, h.ord]; rfl

theorem C76_set {x : Idx V} {c : Col V Ty} (h : Sim x c) (S : Hash V) (old new : V) (r : Nat) :
    (c.setVal old new r = none → Only (x.Set S old new r) none) ∧
    ∀ c', c.setVal old new r = some c' → ∃ x', Only (x.Set S old new r) (some x') ∧ Sim x' c' := by
  obtain ⟨ho, hm⟩ := ireach_ok h.reach
  obtain ⟨h1, h2⟩ := C75_set h.reach S old new r
  have hv : W.hasVal c.hash old = true ↔ ∃ e ∈ x.hash.content, e.1 = old := by rw [← hasVal_perm h.hash, hasVal_iff]
  unfold Col.setVal
  by_cases hc : c.multi = false ∧ W.hasVal c.hash old = true
  · rw [if_pos hc]
    exact ⟨fun _ => h1 ⟨hc.1, hv.1 hc.2⟩, fun c' e => by cases e⟩
  · rw [if_neg hc]
    refine ⟨fun e => by (cases e), fun c' e => ?_⟩
    cases e
    obtain ⟨x', g1, _, _⟩ := h2 (fun q => hc ⟨q.1, hv.2 q.2⟩)
    refine ⟨x', g1, Maps.step S x (.set old new r) x' h.reach (.set old new r x' g1.1), ?_, ?_⟩
    · cases g1.1 with
      | run y z y0 y1 y2 =>
        obtain ⟨pre, mid, post, s, s1, s2, s3⟩ := range_hash S.stl ho.h old
        obtain ⟨y', y3, y4⟩ := eraseKeyOf_content (r := r) s s1 s2 s3
        have := eraseKeyOf_unique y3 y1; subst this
        refine (hash_emplace S (reach_eraseKeyOf S.stl ho.h y1) new r).2.trans ?_
        rw [multi_eraseKeyOf y1, hm, y4]
        exact hashEmplace_perm (dropValue_perm h.hash old r) new r
    · cases g1.1 with
      | run y z y0 y1 y2 =>
        obtain ⟨pre, mid, post, s, s1, s2, s3⟩ := range_ord ho.o old
        obtain ⟨z', z3, z4⟩ := eraseKeyOf_content (r := r) s s1 s2 s3
        have := eraseKeyOf_unique z3 y2; subst this
        show (z.emplace (ordStl 0) new r).1.content = _
        rw [ord_emplace, multi_eraseKeyOf y2, ho.m, hm, z4, h.ord]; rfl

theorem C76_clear {x : Idx V} {c : Col V Ty} (h : Sim x c) : Sim x.clear c.clear := by
  refine ⟨Maps.step ⟨demoHash, fun l k hl => ?_⟩ x .clear _ h.reach .clear, ?_, ?_⟩
  · simp only [demoHash, hashStl, hashEqr]
    rw [dropWhile_full _ _ (fun n hn => by simpa using hl n hn)]; rfl
  · exact (C72_erase_key x.hash (W.zero c.ty)).2.2 ▸ .refl _
  · exact (C72_erase_key x.ord (W.zero c.ty)).2.2

/-- Every history of the world model's index functions is followed by the maps, whatever the hash map chooses. -/
theorem C76_history (c : Col V Ty) (h : c.hash = []) (h' : c.ord = []) (ops : List (Hash V × IOp V)) :
    ∃ x, Sim x ((ops.map (·.2)).foldl absStep c) := by
  suffices H : ∀ (ops : List (Hash V × IOp V)) (x : Idx V) (c : Col V Ty), Sim x c → ∃ x, Sim x ((ops.map (·.2)).foldl absStep c) from H ops _ c (C76_new c h h')
  intro ops
  induction ops with
  | nil => intro x c h; exact ⟨x, h⟩
  | cons p ops ih =>
    obtain ⟨S, op⟩ := p
    intro x c hx
    simp only [List.map_cons, List.foldl_cons]
    cases op with
    | add v r => exact ih _ _ (C76_add hx S v r).1
    | erase v r => obtain ⟨x', _, h⟩ := C76_erase hx S v r; exact ih _ _ h
    | set old new r =>
      obtain ⟨h1, h2⟩ := C76_set hx S old new r
      simp only [absStep]
      cases e : c.setVal old new r with
      | none => exact ih _ _ hx
      | some c' => obtain ⟨x', _, h⟩ := h2 c' e; exact ih _ _ h
    | clear => exact ih _ _ (C76_clear hx)

theorem env_of {l l' : List Nat} (h : l.Perm l') : ∃ env : Env, env.perm l' = l := by
  classical
  refine ⟨⟨fun q => if q = l' then l else q, fun q => ?_⟩, by simp⟩
  split
  · rename_i e; rw [e]; exact h
  · exact .refl _

/-- The kinds of requests of the two models. -/
def kindOf : ReqType → Kind
  | .Equal => .Equal | .Greater => .Greater | .GreaterOrEqual => .GreaterOrEqual | .Less => .Less | .LessOrEqual => .LessOrEqual | .Interval => .Interval

/-- Positions between two cuts of a sorted list. -/
theorem iter_cuts (pl pu : V → Bool) (hl : ∀ u v, u ≤ v → pl v = true → pl u = true) (hu : ∀ u v, u ≤ v → pu v = true → pu u = true) (hlu : ∀ v, pl v = true → pu v = true) :
    ∀ (l : List (V × Nat)), l.Pairwise (fun e e' => e.1 ≤ e'.1) →
    W.iterRange l (l.takeWhile fun e => pl e.1).length (l.takeWhile fun e => pu e.1).length = some ((l.filter fun e => !pl e.1 && pu e.1).map (·.2))
  | [], _ => rfl
  | e :: l, hs => by
    have h' := List.pairwise_cons.1 hs
    have ih := iter_cuts pl pu hl hu hlu l h'.2
    unfold W.iterRange at ih ⊢
    by_cases h1 : pl e.1 = true
    · have h2 := hlu _ h1
      have hf : ((e :: l).filter fun e => !pl e.1 && pu e.1) = l.filter fun e => !pl e.1 && pu e.1 := by rw [List.filter_cons]; simp [h1]
      rw [List.takeWhile_cons, if_pos h1, List.takeWhile_cons, if_pos h2, hf]
      simp only [List.length_cons, List.drop_succ_cons, Nat.add_le_add_iff_right, Nat.add_sub_add_right]
      exact ih
    · rw [List.takeWhile_cons, if_neg h1]
      have hnl : ∀ q ∈ l, pl q.1 = false := by
        intro q hq
        by_contra hc
        exact h1 (hl _ _ (h'.1 q hq) (by simpa using hc))
      by_cases h2 : pu e.1 = true
      · have hf : ((e :: l).filter fun e => !pl e.1 && pu e.1) = e :: l.filter fun e => !pl e.1 && pu e.1 := by rw [List.filter_cons]; simp [h1, h2]
        rw [List.takeWhile_cons, if_pos h2, hf]
        have hz : (l.takeWhile fun e => pl e.1) = [] := by
          cases l with
          | nil => rfl
          | cons q l => rw [List.takeWhile_cons, if_neg (by simp [hnl q (by simp)])]
        rw [hz] at ih
        simp only [List.length_nil, Nat.zero_le, if_true, List.drop_zero, Nat.sub_zero, Option.some.injEq] at ih ⊢
        simp only [List.length_cons, List.take_succ_cons, List.map_cons]
        rw [ih]
      · rw [List.takeWhile_cons, if_neg h2]
        have hnu : ∀ q ∈ l, pu q.1 = false := by
          intro q hq
          by_contra hc
          exact h2 (hu _ _ (h'.1 q hq) (by simpa using hc))
        rw [List.filter_eq_nil_iff.2]
        · simp
        · intro q hq
          rcases List.mem_cons.1 hq with z | z
          · rw [z]; simp [h2]
          · simp [hnu q z]

theorem takeWhile_true {C : Type} (l : List C) : (l.takeWhile fun _ => true) = l := by
  induction l with
  | nil => rfl
  | cons c l ih => rw [List.takeWhile_cons, if_pos rfl, ih]

theorem takeWhile_false {C : Type} (l : List C) : (l.takeWhile fun _ => false) = [] := by
  cases l <;> rfl

/-- The records visited by a request in the world model. -/
theorem visited_filter (env : Env) {c : Col V Ty} (hs : c.ord.Pairwise fun e e' => e.1 ≤ e'.1) (t : ReqType) (ht : t ≠ .Equal) (a b : V) (ia ib : Bool) :
    visited env c t a b ia ib = some ((c.ord.filter fun e => (kindOf t).holds a b ia ib e.1).map (·.2)) := by
  have lt_d : ∀ k u v : V, u ≤ v → decide (v < k) = true → decide (u < k) = true := fun k u v h q => by simp only [decide_eq_true_eq] at q ⊢; exact lt_of_le_of_lt h q
  have le_d : ∀ k u v : V, u ≤ v → decide (v ≤ k) = true → decide (u ≤ k) = true := fun k u v h q => by simp only [decide_eq_true_eq] at q ⊢; exact le_trans h q
  have tt : ∀ u v : V, u ≤ v → (fun _ : V => true) v = true → (fun _ : V => true) u = true := fun _ _ _ _ => rfl
  have ff : ∀ u v : V, u ≤ v → (fun _ : V => false) v = true → (fun _ : V => false) u = true := fun _ _ _ h => h
  cases t with
  | Equal => exact absurd rfl ht
  | Greater =>
    have := iter_cuts (fun v => decide (v ≤ a)) (fun _ => true) (le_d a) tt (fun _ _ => rfl) c.ord hs
    rw [takeWhile_true] at this
    simp only [visited, W.upperIdx]
    rw [this]; simp [kindOf, Kind.holds, ← decide_not, not_le]
  | GreaterOrEqual =>
    have := iter_cuts (fun v => decide (v < a)) (fun _ => true) (lt_d a) tt (fun _ _ => rfl) c.ord hs
    rw [takeWhile_true] at this
    simp only [visited, W.lowerIdx]
    rw [this]; simp [kindOf, Kind.holds, ← decide_not, not_lt]
  | Less =>
    have := iter_cuts (fun _ => false) (fun v => decide (v < b)) ff (lt_d b) (fun _ h => by cases h) c.ord hs
    rw [takeWhile_false] at this
    simp only [visited, W.lowerIdx]
    simp only [List.length_nil] at this
    rw [this]; simp [kindOf, Kind.holds]
  | LessOrEqual =>
    have := iter_cuts (fun _ => false) (fun v => decide (v ≤ a)) ff (le_d a) (fun _ h => by cases h) c.ord hs
    rw [takeWhile_false] at this
    simp only [visited, W.upperIdx]
    simp only [List.length_nil] at this
    rw [this]; simp [kindOf, Kind.holds]
  | Interval =>
    by_cases hc : b < a ∨ (a = b ∧ (ia = false ∨ ib = false))
    · simp only [visited]
      rw [if_pos hc, List.filter_eq_nil_iff.2]
      · simp [W.iterRange]
      · intro e he hq
        simp only [kindOf, Kind.holds, Bool.and_eq_true] at hq
        have l1 : a ≤ e.1 := by
          have := hq.1; split at this
          · simpa using this
          · exact le_of_lt (by simpa using this)
        have l2 : e.1 ≤ b := by
          have := hq.2; split at this
          · simpa using this
          · exact le_of_lt (by simpa using this)
        rcases hc with q | ⟨q, q'⟩
        · exact absurd (lt_of_lt_of_le q l1) (not_lt.2 l2)
        · subst q
          have he' : e.1 = a := le_antisymm l2 l1
          rcases q' with q' | q' <;> simp [q', he'] at hq
    · have hab : a ≤ b := not_lt.1 fun q => hc (.inl q)
      have hst : (ia = false ∨ ib = false) → a < b := fun q => lt_of_le_of_ne hab fun e => hc (.inr ⟨e, q⟩)
      simp only [visited]
      rw [if_neg hc]
      cases ia <;> cases ib <;> simp only [W.lowerIdx, W.upperIdx, if_true, if_false, Bool.false_eq_true]
      · rw [iter_cuts (fun v => decide (v ≤ a)) (fun v => decide (v < b)) (le_d a) (lt_d b) (fun v h => by simp only [decide_eq_true_eq] at h ⊢; exact lt_of_le_of_lt h (hst (.inl rfl))) c.ord hs]
        simp [kindOf, Kind.holds, ← decide_not, not_le]
      · rw [iter_cuts (fun v => decide (v ≤ a)) (fun v => decide (v ≤ b)) (le_d a) (le_d b) (fun v h => by simp only [decide_eq_true_eq] at h ⊢; exact le_trans h hab) c.ord hs]
        simp [kindOf, Kind.holds, ← decide_not, not_le]
      · rw [iter_cuts (fun v => decide (v < a)) (fun v => decide (v < b)) (lt_d a) (lt_d b) (fun v h => by simp only [decide_eq_true_eq] at h ⊢; exact lt_of_lt_of_le h hab) c.ord hs]
        simp [kindOf, Kind.holds, ← decide_not, not_lt]
      · rw [iter_cuts (fun v => decide (v < a)) (fun v => decide (v ≤ b)) (lt_d a) (le_d b) (fun v h => by simp only [decide_eq_true_eq] at h ⊢; exact le_of_lt (lt_of_lt_of_le h hab)) c.ord hs]
        simp [kindOf, Kind.holds, ← decide_not, not_lt]

theorem equalRange_env (S : Hash V) {x : Idx V} {c : Col V Ty} (h : Sim x c) (v : V) :
    ∃ env : Env, W.equalRange env c v = (x.hash.content.filter fun e => decide (e.1 = v)).map (·.2) := by
  obtain ⟨env, he⟩ := env_of ((h.hash.filter fun e => decide (e.1 = v)).map (·.2))
  exact ⟨env, he⟩

/-- A request without limit visits the records that the world model says, for some order of the hash map. -/
theorem C76_request {x : Idx V} {c : Col V Ty} (h : Sim x c) (S : Hash V) (t : ReqType) (a b : V) (ia ib : Bool) (n : Option Nat) :
    ∃ env l, Only (x.Request S (kindOf t) a b ia ib n) l ∧ (visited env c t a b ia ib).map (atMost n) = some (l.map (·.2)) := by
  have hr := C75_request h.reach S (kindOf t) a b ia ib n
  have hat : ∀ l : List (V × Nat), atMost n (l.map (·.2)) = (atMost n l).map (·.2) := by
    intro l; cases n <;> simp [atMost, List.map_take]
  by_cases ht : t = .Equal
  · subst ht
    obtain ⟨env, he⟩ := equalRange_env S h a
    refine ⟨env, _, hr, ?_⟩
    simp only [visited, he, Option.map_some, kindOf, if_true, Kind.holds, hat]
  · refine ⟨Env.id, _, hr, ?_⟩
    have hk : kindOf t ≠ .Equal := by cases t <;> simp_all [kindOf]
    have hs : c.ord.Pairwise fun e e' => e.1 ≤ e'.1 := by rw [← h.ord]; exact (C75_sort h.reach (fun _ _ => true)).1
    rw [visited_filter Env.id hs t ht, if_neg hk, h.ord]
    simp only [Option.map_some, hat]

/-- `GetRecord`, `GetRecords` find what the world model says, for some order of the hash map. -/
theorem C76_lookup {x : Idx V} {c : Col V Ty} (h : Sim x c) (S : Hash V) (v : V) (n : Nat) :
    (∃ env, Only (x.GetOne S v) (W.equalRange env c v).head?) ∧
    ∃ env, Only (x.GetMany S v n) (match W.equalRange env c v with | [] => none | l => some (l.take (max n 1))) := by
  constructor
  · obtain ⟨res, h1, h2, h3⟩ := C75_find h.reach S v
    cases res with
    | none =>
      refine ⟨Env.id, ?_⟩
      have : W.equalRange Env.id c v = [] := by
        simp only [W.equalRange, Env.id, List.map_eq_nil_iff, List.filter_eq_nil_iff]
        intro e he; simpa using h2.1 rfl e (h.hash.symm.subset he)
      rw [this]; exact h1
    | some r =>
      have hm : r ∈ (c.hash.filter fun e => decide (e.1 = v)).map (·.2) := by
        rw [List.mem_map]
        exact ⟨(v, r), List.mem_filter.2 ⟨h.hash.subset (h3 r rfl), by simp⟩, rfl⟩
      obtain ⟨l1, l2, e⟩ := List.append_of_mem hm
      obtain ⟨env, he⟩ := env_of (l := r :: (l1 ++ l2)) (l' := (c.hash.filter fun e => decide (e.1 = v)).map (·.2)) (by rw [e]; exact List.perm_middle.symm)
      refine ⟨env, ?_⟩
      have : W.equalRange env c v = r :: (l1 ++ l2) := he
      rw [this]; exact h1
  · obtain ⟨env, he⟩ := equalRange_env S h v
    refine ⟨env, ?_⟩
    have := C75_getRecords h.reach S v n
    rw [he]
    have hiff : (∃ e ∈ x.hash.content, e.1 = v) ↔ (x.hash.content.filter fun e => decide (e.1 = v)) ≠ [] := by
      rw [Ne, List.filter_eq_nil_iff]; simp
    rw [if_congr hiff rfl rfl] at this
    cases hf : x.hash.content.filter fun e => decide (e.1 = v) with
    | nil => rw [hf] at this; exact this
    | cons e l => rw [hf, if_pos (by simp)] at this; exact this

theorem eraseAll_sim {K : Type} {S : Hash V} {val : K → V} {r : Nat} {m m' : List (K × Idx V)} (h : EraseAll S val r m m') {cols : List (K × Col V Ty)}
    (hs : List.Forall₂ (fun p q => p.1 = q.1 ∧ Sim p.2 q.2) m cols) : List.Forall₂ (fun p q => p.1 = q.1 ∧ Sim p.2 q.2) m' (W.mmap (fun k c => c.erase (val k) r) cols) := by
  induction h generalizing cols with
  | nil => cases hs; exact .nil
  | cons k x x' l l' h1 _ ih => cases hs with
    | @cons _ q _ lq g1 g2 =>
      obtain ⟨k', c⟩ := q
      obtain ⟨e1, e2⟩ := g1
      simp only at e1 e2; subst e1
      obtain ⟨y, y1, y2⟩ := C76_erase e2 S (val k) r
      have := y1.2 _ h1; subst this
      exact .cons ⟨rfl, y2⟩ (ih g2)

theorem eraseMany_sim {K : Type} [DecidableEq K] {S : Hash V} {val : Nat → K → V} {k : K} {n : Nat} {m m' : List (K × Idx V)} {a b : It} {i : Nat} {rs : List Nat} (h : EraseMany S val k n m a b i rs m') :
    ∀ {cols : List (K × Col V Ty)}, List.Forall₂ (fun p q => p.1 = q.1 ∧ Sim p.2 q.2) m cols →
    List.Forall₂ (fun p q => p.1 = q.1 ∧ Sim p.2 q.2) m' (rs.foldl (fun cols r => W.mmap (fun k c => c.erase (val r k) r) cols) cols) := by
  induction h with
  | done => intro cols hs; exact hs
  | full m m' x a b i e a' h1 h2 h3 h4 h5 h6 => intro cols hs; exact eraseAll_sim h5 hs
  | next m m' m'' x a b i e a' l h1 h2 h3 h4 h5 h6 _ ih => intro cols hs; exact ih (eraseAll_sim h5 hs)

theorem look_sim {K : Type} [DecidableEq K] {m : List (K × Idx V)} {cols : List (K × Col V Ty)} (h : List.Forall₂ (fun p q => p.1 = q.1 ∧ Sim p.2 q.2) m cols) {k : K} {c : Col V Ty} (hc : W.mget cols k = some c) :
    ∃ x, look m k = some x ∧ Sim x c := by
  induction h with
  | nil => cases hc
  | @cons p q l l' h1 _ ih =>
    obtain ⟨k1, x⟩ := p; obtain ⟨k2, c'⟩ := q
    obtain ⟨e, hx⟩ := h1
    simp only at e hx; subst e
    unfold W.mget at hc; unfold look
    by_cases hk : k1 = k
    · rw [if_pos hk] at hc ⊢; cases hc; exact ⟨x, rfl, hx⟩
    · rw [if_neg hk] at hc ⊢; exact ih hc

/-- `EraseRecords` of a vault after any ordinary history of the world model: the loop over the maps of a key, which erases from these maps while it runs, ends without undefined behaviour; it
erases exactly the records that the world model says, for some order of the hash map, and the maps of all keys stay those of the world model. `val r` is what the erasers read from record `r`. -/
theorem C76_eraseRecords {K : Type} [LinearOrder K] {home : Nat → Nat} {w : W.World K V Ty} (hw : W.HReach W.Ordinary home w) {o : Nat} {vo : W.Obj K V Ty} (ho : w.getObj o = some vo) (hset : vo.isSet = false)
    {m : List (K × Idx V)} (hm : List.Forall₂ (fun p q => p.1 = q.1 ∧ Sim p.2 q.2) m vo.cols) {k : K} {c : Col V Ty} (hc : W.mget vo.cols k = some c) (S : Hash V) (v : V) (n : Nat)
    (val : Nat → K → V) (hval : ∀ r ∈ vo.recs, ∀ u, W.cellOf w r k = some u → val r k = u) :
    ∃ x env m', look m k = some x ∧ Sim x c ∧
      Only (fun p : List Nat × List (K × Idx V) => EraseMany S val k n m (x.hash.equalRange S.stl v).1 (x.hash.equalRange S.stl v).2 0 p.1 p.2) ((W.equalRange env c v).take (max n 1), m') ∧
      List.Forall₂ (fun p q => p.1 = q.1 ∧ Sim p.2 q.2) m' (((W.equalRange env c v).take (max n 1)).foldl (fun cols r => W.mmap (fun k c => c.erase (val r k) r) cols) vo.cols) := by
  obtain ⟨own, hi⟩ := W.reach_inv hw
  have hok := (hi.v.vok o vo ho hset).cols k c hc
  obtain ⟨x, hx, hs⟩ := look_sim hm hc
  obtain ⟨env, he⟩ := equalRange_env S hs v
  have hr : ∀ p ∈ m, ∃ multi, Maps multi p.2 := by
    intro p hp
    have : ∀ (m : List (K × Idx V)) (l : List (K × Col V Ty)), List.Forall₂ (fun p q => p.1 = q.1 ∧ Sim p.2 q.2) m l → ∀ p ∈ m, ∃ multi, Maps multi p.2 := by
      intro m l h
      induction h with
      | nil => simp
      | cons h1 _ ih =>
        intro p hp
        rcases List.mem_cons.1 hp with q | q
        · rw [q]; exact ⟨_, h1.2.reach⟩
        · exact ih p q
    exact this m _ hm p hp
  have hv : ∀ e ∈ x.hash.content, val e.2 k = e.1 := by
    intro e he
    have := hok.hashS e.1 e.2 (hs.hash.subset he)
    exact hval _ this.1 _ this.2
  have hn : (x.hash.content.map (·.2)).Nodup := by
    refine (hs.hash.map _).nodup_iff.2 ?_
    have hval' : ∀ e ∈ c.hash, val e.2 k = e.1 := fun e he => hv e (hs.hash.symm.subset he)
    rw [List.Nodup, List.pairwise_map]
    refine List.Pairwise.imp_of_mem ?_ hok.hashN
    intro e e' he he' hne h
    have h1 := hval' e he
    rw [h, hval' e' he'] at h1
    exact hne (Prod.ext h1.symm h)
  obtain ⟨m', h1, h2⟩ := C75_eraseRecords S val k v n hr hx hv hn
  rw [← he] at h1
  exact ⟨x, env, m', hx, hs, h1, eraseMany_sim h1.1 hm⟩

/-- Any entries are the content of a hash map: of a multi map, or of a map if no value is repeated. -/
theorem hash_of (multi : Bool) : ∀ (l : List (V × Nat)), (multi = false → (l.map (·.1)).Nodup) → ∃ x : PMap V Nat, PMap.Reach Grouped x ∧ x.isMulti = multi ∧ x.content.Perm l
  | [], _ => ⟨.empty multi, .init _, rfl, by cases multi <;> exact .refl _⟩
  | (v, r) :: l, hl => by
    obtain ⟨x, h1, h2, h3⟩ := hash_of multi l (fun e => by have := hl e; simp only [List.map_cons, List.nodup_cons] at this; exact this.2)
    obtain ⟨g1, g2, g3⟩ := C72_emplace demoHash h1 v r
    refine ⟨(x.emplace demoHash v r).1, .step demoHash x _ (.emplace v r) h1 rfl, (multi_emplace _ x v r).trans h2, ?_⟩
    refine (g2 (g1.2 ?_)).1.trans (h3.cons _)
    cases e : multi with
    | true => exact .inl (h2.trans e)
    | false =>
      right
      intro q hq hc
      have := hl e
      simp only [List.map_cons, List.nodup_cons] at this
      exact this.1 (List.mem_map.2 ⟨q, h3.subset hq, hc⟩)

theorem ordInsert_last : ∀ (l : List (V × Nat)) (v : V) (r : Nat), (∀ e ∈ l, e.1 ≤ v) → W.ordInsert l v r = l ++ [(v, r)]
  | [], _, _, _ => rfl
  | e :: l, v, r, h => by
    unfold W.ordInsert
    rw [if_neg (not_lt.2 (h e (by simp))), ordInsert_last l v r (fun q hq => h q (by simp [hq]))]; rfl

/-- Sorted entries are the content of an ordered map. -/
theorem ord_of (multi : Bool) (l : List (V × Nat)) (hs : l.Pairwise fun e e' => e.1 ≤ e'.1) (hl : multi = false → (l.map (·.1)).Nodup) :
    ∃ x : PMap V Nat, PMap.Reach Sorted x ∧ x.isMulti = multi ∧ x.content = l := by
  suffices H : ∀ l' : List (V × Nat), l'.reverse.Pairwise (fun e e' => e.1 ≤ e'.1) → (multi = false → (l'.map (·.1)).Nodup) → ∃ x : PMap V Nat, PMap.Reach Sorted x ∧ x.isMulti = multi ∧ x.content = l'.reverse by
    obtain ⟨x, h1, h2, h3⟩ := H l.reverse (by simpa using hs) (fun e => by rw [List.map_reverse]; exact (List.reverse_perm _).nodup_iff.2 (hl e))
    exact ⟨x, h1, h2, by simpa using h3⟩
  intro l'
  induction l' with
  | nil => intro _ _; exact ⟨.empty multi, .init _, rfl, by cases multi <;> rfl⟩
  | cons e l' ih =>
    obtain ⟨v, r⟩ := e
    intro hp hu
    rw [List.reverse_cons, List.pairwise_append] at hp
    obtain ⟨x, h1, h2, h3⟩ := ih hp.1 (fun e => by have := hu e; simp only [List.map_cons, List.nodup_cons] at this; exact this.2)
    refine ⟨(x.emplace (ordStl 0) v r).1, .step (ordStl 0) x _ (.emplace v r) h1 rfl, (multi_emplace _ x v r).trans h2, ?_⟩
    rw [ord_emplace, h2, h3]
    unfold W.ordEmplace
    rw [if_neg, List.reverse_cons, ordInsert_last]
    · intro q hq; exact hp.2.2 q hq (v, r) (by simp)
    · rintro ⟨e, hv⟩
      obtain ⟨q, hq, hqe⟩ := (hasVal_iff _ _).1 hv
      have := hu e
      simp only [List.map_cons, List.nodup_cons] at this
      exact this.1 (List.mem_map.2 ⟨q, by simpa using hq, hqe⟩)

/-- The index of every key of every vault of every ordinary history of the world model is the content of maps that a program can produce. -/
theorem C76_maps_exist {K : Type} [LinearOrder K] {home : Nat → Nat} {w : W.World K V Ty} (hw : W.HReach W.Ordinary home w) {o : Nat} {vo : W.Obj K V Ty} (ho : w.getObj o = some vo) (hset : vo.isSet = false)
    {k : K} {c : Col V Ty} (hg : W.mget vo.cols k = some c) : ∃ x : Idx V, Sim x c := by
  obtain ⟨own, hi⟩ := W.reach_inv hw
  have hok := (hi.v.vok o vo ho hset).cols k c hg
  have huniq : ∀ l : List (V × Nat), l.Nodup → (∀ v r, (v, r) ∈ l → r ∈ vo.recs ∧ W.cellOf w r k = some v) → c.multi = false → (l.map (·.1)).Nodup := by
    intro l hn hl hm
    rw [List.Nodup, List.pairwise_map]
    refine List.Pairwise.imp_of_mem ?_ hn
    intro e e' he he' hne h
    obtain ⟨a1, a2⟩ := hl e.1 e.2 he
    obtain ⟨b1, b2⟩ := hl e'.1 e'.2 he'
    exact hne (Prod.ext h ((hok.uniq hm).2.2 e.2 a1 e'.2 b1 (by rw [a2, b2, h])))
  obtain ⟨x, a1, a2, a3⟩ := hash_of c.multi c.hash (huniq _ hok.hashN hok.hashS)
  obtain ⟨y, b1, b2, b3⟩ := ord_of c.multi c.ord hok.sorted (huniq _ hok.ordN hok.ordS)
  exact ⟨⟨x, y⟩, ⟨a1, b1, a2, b2⟩, a3, b3⟩

theorem mget_mem {K : Type} [LinearOrder K] {q : K × Col V Ty} : ∀ {l : List (K × Col V Ty)}, (l.map (·.1)).Nodup → q ∈ l → W.mget l q.1 = some q.2
  | [], _, h => by simp at h
  | (k, c) :: l, hn, hm => by
    simp only [List.map_cons, List.nodup_cons] at hn
    unfold W.mget
    rcases List.mem_cons.1 hm with e | e
    · rw [e]; simp
    · rw [if_neg (fun h => hn.1 (by rw [h]; exact List.mem_map.2 ⟨q, e, rfl⟩))]; exact mget_mem hn.2 e

/-- Maps for all keys at once. -/
theorem maps_for {K : Type} [LinearOrder K] {home : Nat → Nat} {w : W.World K V Ty} (hw : W.HReach W.Ordinary home w) {o : Nat} {vo : W.Obj K V Ty} (ho : w.getObj o = some vo) (hset : vo.isSet = false)
    (hk : (vo.cols.map (·.1)).Nodup) : ∃ m : List (K × Idx V), List.Forall₂ (fun p q => p.1 = q.1 ∧ Sim p.2 q.2) m vo.cols := by
  have : ∀ l : List (K × Col V Ty), (∀ q ∈ l, ∃ x : Idx V, Sim x q.2) → ∃ m : List (K × Idx V), List.Forall₂ (fun p q => p.1 = q.1 ∧ Sim p.2 q.2) m l := by
    intro l
    induction l with
    | nil => intro _; exact ⟨[], .nil⟩
    | cons q l ih =>
      intro h
      obtain ⟨x, hx⟩ := h q (by simp)
      obtain ⟨m, hm⟩ := ih (fun p hp => h p (by simp [hp]))
      exact ⟨(q.1, x) :: m, .cons ⟨rfl, hx⟩ hm⟩
  exact this _ fun q hq => C76_maps_exist hw ho hset (mget_mem hk hq)

/-- A vault with two keys and three records, two of them with the same value of the first key. -/
theorem exErase : ∃ (w : W.DW) (vo : W.Obj Nat Nat Bool) (c : Col Nat Bool) (m : List (Nat × Idx Nat)), W.HReach W.Ordinary (fun _ => 0) w ∧ w.getObj 0 = some vo ∧ vo.isSet = false ∧
    List.Forall₂ (fun p q => p.1 = q.1 ∧ Sim p.2 q.2) m vo.cols ∧ W.mget vo.cols 1 = some c ∧ (∀ env : Env, (W.equalRange env c 6).length = 2) ∧
    ∀ r ∈ vo.recs, ∀ u, W.cellOf w r 1 = some u → (fun r k => if k = 1 then (if r = 1 then 8 else 6) else 4) r 1 = u := by
  have hr := W.demo_reach (l := [.newVault, .addKey 0 1 6, .addKey 0 2 4, .newRef, .newRef, .newRef, .createRecord 0 0 [], .createRecord 0 1 [(1, 8)], .createRecord 0 2 []]) rfl
  obtain ⟨m, hm⟩ := maps_for hr (o := 0) rfl rfl (by decide)
  refine ⟨_, _, _, m, hr, rfl, rfl, hm, rfl, fun env => ?_, by decide⟩
  exact (env.isPerm _).length_eq

end Refine

end MVault.Ix
