import Verif.ReqHeap
import Mathlib.Logic.Function.Basic
/-
C71: the memory of request objects.
-/
set_option linter.unusedSectionVars false
set_option linter.unusedSimpArgs false
set_option linter.unusedVariables false
namespace MVault.W
variable {K V : Type}

/-! ### Specification -/

/-- The requests a program has written down, without memory: what every object stands for (`none`: not there), and the objects it was made from. -/
structure RSpec (K V : Type) where
  expr : Nat → Option (Req K V)
  kids : Nat → List Nat
  n : Nat

def RSpec.init : RSpec K V := ⟨fun _ => none, fun _ => [], 0⟩

/-- One operation on the expressions. -/
def RSpec.step (m : RSpec K V) : RqOp K V → RSpec K V
  | .leaf t k v p => ⟨Function.update m.expr m.n (some (.leaf t k v p)), Function.update m.kids m.n [], m.n + 1⟩
  | .node isAnd a b => ⟨Function.update m.expr m.n ((m.expr a).bind fun x => (m.expr b).map fun y => if isAnd then .and x y else .or x y),
      Function.update m.kids m.n [a, b], m.n + 1⟩
  | .destroy i => { m with expr := Function.update m.expr i none }
  | _ => m

/-- Request objects are used with care: they are not copied or assigned, only existing objects are used, and an object is destroyed only when no object made
from it exists any more. -/
def RqOp.tidy (m : RSpec K V) : RqOp K V → Prop
  | .leaf _ _ _ _ => True
  | .node _ a b => (m.expr a).isSome ∧ (m.expr b).isSome
  | .copy _ => False
  | .assign _ _ => False
  | .destroy i => (m.expr i).isSome ∧ ∀ j, (m.expr j).isSome → i ∉ m.kids j
  | .eval i => (m.expr i).isSome

/-- All operations of a program are used with care. -/
def TidyRun : RSpec K V → List (RqOp K V) → Prop
  | _, [] => True
  | m, op :: ops => op.tidy m ∧ TidyRun (m.step op) ops

/-- The expressions after a program. -/
def RSpec.run (m : RSpec K V) (ops : List (RqOp K V)) : RSpec K V := ops.foldl RSpec.step m

/-- The objects that writing down a request makes, in the order of C++ (operands first), when `n` objects were made before; the last one is the whole request. -/
def build : Req K V → Nat → List (RqOp K V) × Nat
  | .leaf t k v p, n => ([.leaf t k v p], n + 1)
  | .and a b, n => ((build a n).1 ++ (build b (build a n).2).1 ++ [.node true ((build a n).2 - 1) ((build b (build a n).2).2 - 1)], (build b (build a n).2).2 + 1)
  | .or a b, n => ((build a n).1 ++ (build b (build a n).2).1 ++ [.node false ((build a n).2 - 1) ((build b (build a n).2).2 - 1)], (build b (build a n).2).2 + 1)

/-- Destroy objects `n - 1, ..., 0`. -/
def unbuild : Nat → List (RqOp K V)
  | 0 => []
  | n + 1 => .destroy n :: unbuild n

/-- `vault.Request(q, set);` as one statement: the objects are made, the request is evaluated, and the objects are destroyed in reverse order. -/
def statement (q : Req K V) : List (RqOp K V) := (build q 0).1 ++ [.eval ((build q 0).2 - 1)] ++ unbuild (build q 0).2

/-! ### Proof -/

structure RJ (h : RHeap K V) (m : RSpec K V) : Prop where
  n : h.nobj = m.n
  alive : ∀ i, (h.objs i).isSome ↔ (m.expr i).isSome
  ltO : ∀ i o, h.objs i = some o → i < h.nobj
  leaf : ∀ i t k c p, h.objs i = some (.leaf t k c p) → ∃ v, h.cells c = some v ∧ m.expr i = some (.leaf t k v p)
  node : ∀ i x a b, h.objs i = some (.node x a b) → m.kids i = [a, b] ∧ a < i ∧ b < i ∧
    ∃ ea eb, m.expr a = some ea ∧ m.expr b = some eb ∧ m.expr i = some (if x then .and ea eb else .or ea eb)
  inj : ∀ i j t k c p t' k' p', h.objs i = some (.leaf t k c p) → h.objs j = some (.leaf t' k' c p') → i = j
  live : ∀ c v, h.cells c = some v → ∃ i t k p, h.objs i = some (.leaf t k c p)
  lt : ∀ c v, h.cells c = some v → c < h.next

theorem RJ.init : RJ (RHeap.init : RHeap K V) RSpec.init := by
  constructor <;> simp [RHeap.init, RSpec.init]

theorem RJ.read {h : RHeap K V} {m : RSpec K V} (hj : RJ h m) : ∀ n i e, i < n → m.expr i = some e → h.read n i = some e := by
  intro n
  induction n with
  | zero => intro i e hi; omega
  | succ n ih =>
    intro i e hi he
    have ha : (h.objs i).isSome := (hj.alive i).2 (by simp [he])
    cases ho : h.objs i with
    | none => simp [ho] at ha
    | some o =>
      cases o with
      | leaf t k c p =>
        obtain ⟨v, h1, h2⟩ := hj.leaf i t k c p ho
        rw [h2] at he; cases he
        simp [RHeap.read, ho, h1]
      | node x a b =>
        obtain ⟨_, h1, h2, ea, eb, h3, h4, h5⟩ := hj.node i x a b ho
        rw [h5] at he; cases he
        simp [RHeap.read, ho, ih a ea (by omega) h3, ih b eb (by omega) h4]

theorem RJ.step {h : RHeap K V} {m : RSpec K V} (hj : RJ h m) (op : RqOp K V) (ht : op.tidy m) : ∃ h', h.step op = some h' ∧ RJ h' (m.step op) := by
  have fresh : h.objs h.nobj = none := by
    cases e : h.objs h.nobj with
    | none => rfl
    | some o => exact absurd (hj.ltO _ o e) (Nat.lt_irrefl _)
  have some_of : ∀ {i}, (m.expr i).isSome → ∃ o, h.objs i = some o := fun hs => Option.isSome_iff_exists.1 ((hj.alive _).2 hs)
  cases op with
  | leaf t k v p =>
    refine ⟨_, rfl, ?_⟩
    have hv : ∀ j, (h.leaf t k v p).objs j = if j = h.nobj then some (.leaf t k h.next p) else h.objs j := fun j => rfl
    have hc : ∀ c, (h.leaf t k v p).cells c = if c = h.next then some v else h.cells c := fun c => rfl
    have he : ∀ j, (m.step (.leaf t k v p)).expr j = if j = h.nobj then some (.leaf t k v p) else m.expr j := by
      intro j; simp [RSpec.step, Function.update_apply, hj.n]
    have hk : ∀ j, j ≠ h.nobj → (m.step (.leaf t k v p)).kids j = m.kids j := by intro j e; simp [RSpec.step, Function.update_apply, ← hj.n, e]
    constructor
    · show h.nobj + 1 = m.n + 1; rw [hj.n]
    · intro i; rw [hv, he]
      by_cases e : i = h.nobj
      · simp [e]
      · simp only [if_neg e]; exact hj.alive i
    · intro i o ho
      show i < h.nobj + 1
      rw [hv] at ho
      by_cases e : i = h.nobj
      · omega
      · rw [if_neg e] at ho; have := hj.ltO i o ho; omega
    · intro i t' k' c p' ho
      rw [hv] at ho
      by_cases e : i = h.nobj
      · rw [if_pos e] at ho; cases ho
        exact ⟨v, by rw [hc, if_pos rfl], by rw [he, if_pos e]⟩
      · rw [if_neg e] at ho
        obtain ⟨v', h1, h2⟩ := hj.leaf i t' k' c p' ho
        exact ⟨v', by rw [hc, if_neg (Nat.ne_of_lt (hj.lt c v' h1))]; exact h1, by rw [he, if_neg e]; exact h2⟩
    · intro i x a b ho
      rw [hv] at ho
      by_cases e : i = h.nobj
      · rw [if_pos e] at ho; cases ho
      · rw [if_neg e] at ho
        have hi := hj.ltO i _ ho
        obtain ⟨h0, h1, h2, ea, eb, h3, h4, h5⟩ := hj.node i x a b ho
        exact ⟨by rw [hk i e]; exact h0, h1, h2, ea, eb, by rw [he, if_neg (by omega)]; exact h3, by rw [he, if_neg (by omega)]; exact h4, by rw [he, if_neg e]; exact h5⟩
    · intro i j t1 k1 c p1 t2 k2 p2 h1 h2
      rw [hv] at h1 h2
      by_cases e : i = h.nobj <;> by_cases e' : j = h.nobj
      · rw [e, e']
      · rw [if_pos e] at h1; rw [if_neg e'] at h2; cases h1
        obtain ⟨v', h3, _⟩ := hj.leaf j _ _ _ _ h2
        exact absurd (hj.lt _ v' h3) (Nat.lt_irrefl _)
      · rw [if_neg e] at h1; rw [if_pos e'] at h2; cases h2
        obtain ⟨v', h3, _⟩ := hj.leaf i _ _ _ _ h1
        exact absurd (hj.lt _ v' h3) (Nat.lt_irrefl _)
      · rw [if_neg e] at h1; rw [if_neg e'] at h2; exact hj.inj i j _ _ _ _ _ _ _ h1 h2
    · intro c v' hcv
      rw [hc] at hcv
      by_cases e : c = h.next
      · exact ⟨h.nobj, t, k, p, by rw [hv, if_pos rfl, e]⟩
      · rw [if_neg e] at hcv
        obtain ⟨i, t', k', p', h1⟩ := hj.live c v' hcv
        exact ⟨i, t', k', p', by rw [hv, if_neg (Nat.ne_of_lt (hj.ltO i _ h1))]; exact h1⟩
    · intro c v' hcv
      show c < h.next + 1
      rw [hc] at hcv
      by_cases e : c = h.next
      · omega
      · rw [if_neg e] at hcv; have := hj.lt c v' hcv; omega
  | node x a b =>
    obtain ⟨oa, hoa⟩ := some_of ht.1
    obtain ⟨ob, hob⟩ := some_of ht.2
    obtain ⟨ea, hea⟩ := Option.isSome_iff_exists.1 ht.1
    obtain ⟨eb, heb⟩ := Option.isSome_iff_exists.1 ht.2
    have la := hj.ltO a oa hoa
    have lb := hj.ltO b ob hob
    refine ⟨h.push (.node x a b), by simp [RHeap.step, RHeap.node, hoa, hob], ?_⟩
    have hv : ∀ j, (h.push (.node x a b)).objs j = if j = h.nobj then some (.node x a b) else h.objs j := fun j => rfl
    have he : ∀ j, (m.step (.node x a b)).expr j = if j = h.nobj then some (if x then .and ea eb else .or ea eb) else m.expr j := by
      intro j; simp [RSpec.step, Function.update_apply, hj.n, hea, heb]
    have hk : ∀ j, (m.step (.node x a b)).kids j = if j = h.nobj then [a, b] else m.kids j := by intro j; simp [RSpec.step, Function.update_apply, hj.n]
    constructor
    · show h.nobj + 1 = m.n + 1; rw [hj.n]
    · intro i; rw [hv, he]
      by_cases e : i = h.nobj
      · simp [e]
      · simp only [if_neg e]; exact hj.alive i
    · intro i o ho
      show i < h.nobj + 1
      rw [hv] at ho
      by_cases e : i = h.nobj
      · omega
      · rw [if_neg e] at ho; have := hj.ltO i o ho; omega
    · intro i t' k' c p' ho
      rw [hv] at ho
      by_cases e : i = h.nobj
      · rw [if_pos e] at ho; cases ho
      · rw [if_neg e] at ho
        obtain ⟨v', h1, h2⟩ := hj.leaf i t' k' c p' ho
        exact ⟨v', h1, by rw [he, if_neg e]; exact h2⟩
    · intro i x' a' b' ho
      rw [hv] at ho
      by_cases e : i = h.nobj
      · rw [if_pos e] at ho; cases ho
        refine ⟨by rw [hk, if_pos e], by omega, by omega, ea, eb, ?_, ?_, ?_⟩
        · rw [he, if_neg (by omega)]; exact hea
        · rw [he, if_neg (by omega)]; exact heb
        · rw [he, if_pos e]
      · rw [if_neg e] at ho
        have hi := hj.ltO i _ ho
        obtain ⟨h0, h1, h2, ea', eb', h3, h4, h5⟩ := hj.node i x' a' b' ho
        exact ⟨by rw [hk, if_neg e]; exact h0, h1, h2, ea', eb', by rw [he, if_neg (by omega)]; exact h3, by rw [he, if_neg (by omega)]; exact h4, by rw [he, if_neg e]; exact h5⟩
    · intro i j t1 k1 c p1 t2 k2 p2 h1 h2
      rw [hv] at h1 h2
      by_cases e : i = h.nobj
      · rw [if_pos e] at h1; cases h1
      · by_cases e' : j = h.nobj
        · rw [if_pos e'] at h2; cases h2
        · rw [if_neg e] at h1; rw [if_neg e'] at h2; exact hj.inj i j _ _ _ _ _ _ _ h1 h2
    · intro c v' hcv
      obtain ⟨i, t', k', p', h1⟩ := hj.live c v' hcv
      exact ⟨i, t', k', p', by rw [hv, if_neg (Nat.ne_of_lt (hj.ltO i _ h1))]; exact h1⟩
    · exact hj.lt
  | copy i => exact ht.elim
  | assign i j => exact ht.elim
  | eval i =>
    obtain ⟨e, he⟩ := Option.isSome_iff_exists.1 ht
    obtain ⟨o, ho⟩ := some_of ht
    exact ⟨h, by simp [RHeap.step, hj.read _ i e (hj.ltO i o ho) he], hj⟩
  | destroy i =>
    obtain ⟨hal, hk⟩ := ht
    obtain ⟨o, ho⟩ := some_of hal
    have key : ∀ h' : RHeap K V, h'.nobj = h.nobj → h'.next = h.next → (∀ j, h'.objs j = if j = i then none else h.objs j) →
        (∀ c, h'.cells c = match o with | .leaf _ _ c' _ => if c = c' then none else h.cells c | .node _ _ _ => h.cells c) → RJ h' (m.step (.destroy i)) := by
      intro h' hn hnx hv hc
      have he : ∀ j, (m.step (.destroy i)).expr j = if j = i then none else m.expr j := by intro j; simp [RSpec.step, Function.update_apply]
      have hcs : ∀ c v, h'.cells c = some v → h.cells c = some v ∧ ∀ t k p, o ≠ .leaf t k c p := by
        intro c v hcv
        rw [hc] at hcv
        cases o with
        | node _ _ _ => exact ⟨hcv, fun _ _ _ => by simp⟩
        | leaf t k c' p =>
          dsimp only at hcv
          by_cases e : c = c'
          · rw [if_pos e] at hcv; cases hcv
          · rw [if_neg e] at hcv
            exact ⟨hcv, fun t1 k1 p1 heq => by cases heq; exact e rfl⟩
      constructor
      · rw [hn]; exact hj.n
      · intro j; rw [hv, he]
        by_cases e : j = i
        · simp [e]
        · simp only [if_neg e]; exact hj.alive j
      · intro j o' hj'
        rw [hv] at hj'
        by_cases e : j = i
        · rw [if_pos e] at hj'; cases hj'
        · rw [if_neg e] at hj'; rw [hn]; exact hj.ltO j o' hj'
      · intro j t k c p hj'
        rw [hv] at hj'
        by_cases e : j = i
        · rw [if_pos e] at hj'; cases hj'
        · rw [if_neg e] at hj'
          obtain ⟨v, h1, h2⟩ := hj.leaf j t k c p hj'
          refine ⟨v, ?_, by rw [he, if_neg e]; exact h2⟩
          rw [hc]
          cases o with
          | node _ _ _ => exact h1
          | leaf t2 k2 c2 p2 =>
            dsimp only
            rw [if_neg]; exact h1
            rintro rfl
            exact e (hj.inj j i _ _ _ _ _ _ _ hj' ho)
      · intro j x a b hj'
        rw [hv] at hj'
        by_cases e : j = i
        · rw [if_pos e] at hj'; cases hj'
        · rw [if_neg e] at hj'
          obtain ⟨h0, h1, h2, ea, eb, h3, h4, h5⟩ := hj.node j x a b hj'
          have hnk := hk j (by simp [h5])
          rw [h0] at hnk
          simp only [List.mem_cons, List.not_mem_nil, or_false, not_or] at hnk
          exact ⟨h0, h1, h2, ea, eb, by rw [he, if_neg (Ne.symm hnk.1)]; exact h3, by rw [he, if_neg (Ne.symm hnk.2)]; exact h4, by rw [he, if_neg e]; exact h5⟩
      · intro a b t1 k1 c p1 t2 k2 p2 h1 h2
        rw [hv] at h1 h2
        by_cases e : a = i
        · rw [if_pos e] at h1; cases h1
        · by_cases e' : b = i
          · rw [if_pos e'] at h2; cases h2
          · rw [if_neg e] at h1; rw [if_neg e'] at h2; exact hj.inj a b _ _ _ _ _ _ _ h1 h2
      · intro c v hcv
        obtain ⟨h1, h2⟩ := hcs c v hcv
        obtain ⟨j, t, k, p, h3⟩ := hj.live c v h1
        refine ⟨j, t, k, p, ?_⟩
        rw [hv, if_neg]; exact h3
        rintro rfl
        rw [ho] at h3; cases h3; exact h2 _ _ _ rfl
      · intro c v hcv
        rw [hnx]; exact hj.lt c v (hcs c v hcv).1
    cases o with
    | node x a b =>
      exact ⟨{ h with objs := fun l => if l = i then none else h.objs l }, by simp [RHeap.step, RHeap.destroy, ho], key _ rfl rfl (fun j => rfl) (fun c => rfl)⟩
    | leaf t k c p =>
      obtain ⟨v, h1, h2⟩ := hj.leaf i t k c p ho
      exact ⟨{ h with cells := fun q => if q = c then none else h.cells q, objs := fun l => if l = i then none else h.objs l },
        by simp [RHeap.step, RHeap.destroy, ho, h1], key _ rfl rfl (fun j => rfl) (fun c => rfl)⟩

theorem RJ.run {m : RSpec K V} : ∀ (ops : List (RqOp K V)) {h : RHeap K V} {m : RSpec K V}, RJ h m → TidyRun m ops → ∃ h', h.run ops = some h' ∧ RJ h' (m.run ops)
  | [], h, m, hj, _ => ⟨h, rfl, hj⟩
  | op :: ops, h, m, hj, ht => by
    obtain ⟨h1, e1, j1⟩ := hj.step op ht.1
    obtain ⟨h2, e2, j2⟩ := RJ.run (m := m) ops j1 ht.2
    exact ⟨h2, by simp only [RHeap.run, List.foldlM_cons, e1, Option.bind_eq_bind, Option.bind_some]; exact e2, j2⟩

/-! ### C71 -/

/-- Programs that use request objects with care: nothing is undefined, evaluating an object carries out the request it was written as, and the allocated values are
exactly those of the existing comparisons, each with its own. -/
theorem C71_with_care_partial (ops : List (RqOp K V)) (ht : TidyRun .init ops) : ∃ h : RHeap K V, RHeap.init.run ops = some h ∧
    (∀ i e, (RSpec.init.run ops).expr i = some e → h.read h.nobj i = some e) ∧
    (∀ c, (h.cells c).isSome ↔ ∃! i, ∃ t k p, h.objs i = some (.leaf t k c p)) ∧
    ((∀ i, (RSpec.init.run ops).expr i = none) → ∀ c, h.cells c = none) := by
  obtain ⟨h, e, hj⟩ := RJ.run (m := RSpec.init) ops .init ht
  refine ⟨h, e, ?_, ?_, ?_⟩
  · intro i x hx
    obtain ⟨o, ho⟩ := Option.isSome_iff_exists.1 ((hj.alive i).2 (by simp [hx]))
    exact hj.read _ i x (hj.ltO i o ho) hx
  · intro c
    constructor
    · intro hc
      obtain ⟨v, hv⟩ := Option.isSome_iff_exists.1 hc
      obtain ⟨i, t, k, p, ho⟩ := hj.live c v hv
      exact ⟨i, ⟨t, k, p, ho⟩, fun j ⟨t', k', p', hj'⟩ => hj.inj j i _ _ _ _ _ _ _ hj' ho⟩
    · rintro ⟨i, ⟨t, k, p, ho⟩, _⟩
      obtain ⟨v, hv, _⟩ := hj.leaf i t k c p ho
      simp [hv]
  · intro hn c
    cases hc : h.cells c with
    | none => rfl
    | some v =>
      obtain ⟨i, t, k, p, ho⟩ := hj.live c v hc
      have := (hj.alive i).1 (by simp [ho])
      rw [hn i] at this; cases this

theorem tidyRun_append : ∀ (a b : List (RqOp K V)) (m : RSpec K V), TidyRun m (a ++ b) ↔ TidyRun m a ∧ TidyRun (m.run a) b
  | [], b, m => by simp [TidyRun, RSpec.run]
  | op :: a, b, m => by simp only [List.cons_append, TidyRun, tidyRun_append a b, RSpec.run, List.foldl_cons, and_assoc]

theorem run_append_spec (a b : List (RqOp K V)) (m : RSpec K V) : m.run (a ++ b) = (m.run a).run b := by simp [RSpec.run]

/-- Objects are younger than the ones they were made from. -/
structure Young (m : RSpec K V) : Prop where
  lt : ∀ j, (m.expr j).isSome → j < m.n
  kids : ∀ j, (m.expr j).isSome → ∀ x ∈ m.kids j, x < j

/-- After writing down `q`. -/
structure Wrote (m m' : RSpec K V) (q : Req K V) (n' : Nat) : Prop where
  n : m'.n = n'
  lt : m.n < n'
  young : Young m'
  old : ∀ i, i < m.n → m'.expr i = m.expr i
  root : m'.expr (n' - 1) = some q

theorem node_wrote {m m1 m2 : RSpec K V} {a b : Req K V} {n1 n2 : Nat} (wa : Wrote m m1 a n1) (wb : Wrote m1 m2 b n2) (x : Bool) :
    (RqOp.node x (n1 - 1) (n2 - 1) : RqOp K V).tidy m2 ∧ Wrote m (m2.step (.node x (n1 - 1) (n2 - 1))) (if x then .and a b else .or a b) (n2 + 1) := by
  have l1 := wa.lt
  have l2 := wb.lt
  rw [wa.n] at l2
  have ea : m2.expr (n1 - 1) = some a := by rw [wb.old _ (by rw [wa.n]; omega)]; exact wa.root
  have eb := wb.root
  refine ⟨⟨by simp [ea], by simp [eb]⟩, ?_⟩
  have he : ∀ j, (m2.step (.node x (n1 - 1) (n2 - 1))).expr j = if j = n2 then some (if x then .and a b else .or a b) else m2.expr j := by
    intro j; simp [RSpec.step, Function.update_apply, wb.n, ea, eb]
  have hk : ∀ j, (m2.step (.node x (n1 - 1) (n2 - 1))).kids j = if j = n2 then [n1 - 1, n2 - 1] else m2.kids j := by
    intro j; simp [RSpec.step, Function.update_apply, wb.n]
  constructor
  · show m2.n + 1 = _; rw [wb.n]
  · omega
  · constructor
    · intro j hj
      show j < m2.n + 1
      rw [he] at hj
      by_cases e : j = n2
      · rw [wb.n]; omega
      · rw [if_neg e] at hj; have := wb.young.lt j hj; omega
    · intro j hj y hy
      rw [he] at hj; rw [hk] at hy
      by_cases e : j = n2
      · rw [if_pos e] at hy
        simp only [List.mem_cons, List.not_mem_nil, or_false] at hy
        omega
      · rw [if_neg e] at hj hy; exact wb.young.kids j hj y hy
  · intro i hi
    rw [he, if_neg (by omega), wb.old i (by rw [wa.n]; omega), wa.old i hi]
  · show (m2.step (.node x (n1 - 1) (n2 - 1))).expr (n2 + 1 - 1) = _
    rw [he, if_pos (by omega)]

theorem build_wrote : ∀ (q : Req K V) (m : RSpec K V), Young m → TidyRun m (build q m.n).1 ∧ Wrote m (m.run (build q m.n).1) q (build q m.n).2
  | .leaf t k v p, m, hy => by
    refine ⟨⟨trivial, trivial⟩, rfl, Nat.lt_succ_self _, ?_, ?_, ?_⟩
    · have he : ∀ j, (m.run (build (.leaf t k v p) m.n).1).expr j = if j = m.n then some (.leaf t k v p) else m.expr j := by
        intro j; simp [RSpec.run, build, RSpec.step, Function.update_apply]
      have hk : ∀ j, (m.run (build (.leaf t k v p) m.n).1).kids j = if j = m.n then [] else m.kids j := by
        intro j; simp [RSpec.run, build, RSpec.step, Function.update_apply]
      constructor
      · intro j hj
        show j < m.n + 1
        rw [he] at hj
        by_cases e : j = m.n
        · omega
        · rw [if_neg e] at hj; have := hy.lt j hj; omega
      · intro j hj x hx
        rw [he] at hj; rw [hk] at hx
        by_cases e : j = m.n
        · rw [if_pos e] at hx; cases hx
        · rw [if_neg e] at hj hx; exact hy.kids j hj x hx
    · intro i hi
      have : i ≠ m.n := Nat.ne_of_lt hi
      simp [RSpec.run, build, RSpec.step, Function.update_apply, this]
    · simp [RSpec.run, build, RSpec.step]
  | .and a b, m, hy => by
    obtain ⟨ta, wa⟩ := build_wrote a m hy
    obtain ⟨tb, wb⟩ := build_wrote b _ wa.young
    rw [wa.n] at tb wb
    obtain ⟨tn, wn⟩ := node_wrote wa wb true
    refine ⟨?_, ?_⟩
    · simp only [build, tidyRun_append, run_append_spec]
      exact ⟨⟨ta, tb⟩, tn, trivial⟩
    · simp only [build, run_append_spec]
      exact wn
  | .or a b, m, hy => by
    obtain ⟨ta, wa⟩ := build_wrote a m hy
    obtain ⟨tb, wb⟩ := build_wrote b _ wa.young
    rw [wa.n] at tb wb
    obtain ⟨tn, wn⟩ := node_wrote wa wb false
    refine ⟨?_, ?_⟩
    · simp only [build, tidyRun_append, run_append_spec]
      exact ⟨⟨ta, tb⟩, tn, trivial⟩
    · simp only [build, run_append_spec]
      exact wn

theorem unbuild_tidy : ∀ (n : Nat) (m : RSpec K V), (∀ i, i < n ↔ (m.expr i).isSome) → (∀ j, (m.expr j).isSome → ∀ x ∈ m.kids j, x < j) →
    TidyRun m (unbuild n) ∧ ∀ i, (m.run (unbuild n)).expr i = none
  | 0, m, ha, _ => by
    refine ⟨trivial, fun i => ?_⟩
    show m.expr i = none
    cases e : m.expr i with
    | none => rfl
    | some x => exact absurd ((ha i).2 (by simp [e])) (Nat.not_lt_zero _)
  | n + 1, m, ha, hk => by
    have he : ∀ j, (m.step (.destroy n)).expr j = if j = n then none else m.expr j := by intro j; simp [RSpec.step, Function.update_apply]
    have := unbuild_tidy n (m.step (.destroy n)) (by
      intro i; rw [he]
      by_cases e : i = n
      · simp [e]
      · rw [if_neg e, ← ha i]; omega) (by
      intro j hj
      rw [he] at hj
      by_cases e : j = n
      · rw [if_pos e] at hj; cases hj
      · rw [if_neg e] at hj; exact hk j hj)
    refine ⟨⟨⟨(ha n).1 (Nat.lt_succ_self n), fun j hj hx => ?_⟩, this.1⟩, this.2⟩
    have h1 := hk j hj n hx
    have h2 := (ha j).2 hj
    omega

theorem run_single (m : RSpec K V) (op : RqOp K V) : m.run [op] = m.step op := rfl

/-- All objects of a request exist. -/
theorem build_all : ∀ (q : Req K V) (m : RSpec K V), Young m → ∀ i, m.n ≤ i → i < (build q m.n).2 → ((m.run (build q m.n).1).expr i).isSome
  | .leaf t k v p, m, hy, i, h1, h2 => by
    have e : i = m.n := by simp only [build] at h2; omega
    subst e
    simp [RSpec.run, build, RSpec.step]
  | .and a b, m, hy, i, h1, h2 => by
    obtain ⟨ta, wa⟩ := build_wrote a m hy
    obtain ⟨tb, wb⟩ := build_wrote b _ wa.young
    have ia := build_all a m hy
    have ib := build_all b _ wa.young
    rw [wa.n] at tb wb ib
    obtain ⟨tn, wn⟩ := node_wrote wa wb true
    have wr := wn.root
    simp only [build] at h2
    simp only [build, run_append_spec, run_single]
    by_cases e : i = (build b (build a m.n).2).2
    · rw [e]
      rw [Nat.add_sub_cancel] at wr
      rw [wr]; rfl
    · have hlt : i < (build b (build a m.n).2).2 := by omega
      have hold : (((m.run (build a m.n).1).run (build b (build a m.n).2).1).step (.node true ((build a m.n).2 - 1) ((build b (build a m.n).2).2 - 1))).expr i =
          ((m.run (build a m.n).1).run (build b (build a m.n).2).1).expr i := by
        simp only [RSpec.step, Function.update_apply, wb.n, if_neg e]
      rw [hold]
      by_cases e2 : i < (build a m.n).2
      · rw [wb.old i (by rw [wa.n]; exact e2)]; exact ia i h1 e2
      · exact ib i (by omega) hlt
  | .or a b, m, hy, i, h1, h2 => by
    obtain ⟨ta, wa⟩ := build_wrote a m hy
    obtain ⟨tb, wb⟩ := build_wrote b _ wa.young
    have ia := build_all a m hy
    have ib := build_all b _ wa.young
    rw [wa.n] at tb wb ib
    obtain ⟨tn, wn⟩ := node_wrote wa wb false
    have wr := wn.root
    simp only [build] at h2
    simp only [build, run_append_spec, run_single]
    by_cases e : i = (build b (build a m.n).2).2
    · rw [e]
      rw [Nat.add_sub_cancel] at wr
      rw [wr]; rfl
    · have hlt : i < (build b (build a m.n).2).2 := by omega
      have hold : (((m.run (build a m.n).1).run (build b (build a m.n).2).1).step (.node false ((build a m.n).2 - 1) ((build b (build a m.n).2).2 - 1))).expr i =
          ((m.run (build a m.n).1).run (build b (build a m.n).2).1).expr i := by
        simp only [RSpec.step, Function.update_apply, wb.n, if_neg e]
      rw [hold]
      by_cases e2 : i < (build a m.n).2
      · rw [wb.old i (by rw [wa.n]; exact e2)]; exact ia i h1 e2
      · exact ib i (by omega) hlt

/-- A request of any shape and size written as one statement: nothing is undefined, the request that is carried out is the one written down, and afterwards all
its memory is freed. -/
theorem C71_one_statement (q : Req K V) :
    (∃ h : RHeap K V, RHeap.init.run (build q 0).1 = some h ∧ h.read h.nobj ((build q 0).2 - 1) = some q) ∧
    ∃ h : RHeap K V, RHeap.init.run (statement q) = some h ∧ (∀ c, h.cells c = none) ∧ ∀ i, h.objs i = none := by
  have y0 : Young (RSpec.init : RSpec K V) := ⟨by simp [RSpec.init], by simp [RSpec.init]⟩
  obtain ⟨ta, wa⟩ := build_wrote q RSpec.init y0
  have all := build_all q RSpec.init y0
  change TidyRun _ (build q 0).1 at ta
  change Wrote _ _ q (build q 0).2 at wa
  have tall : TidyRun (.init : RSpec K V) (statement q) ∧ ∀ i, ((RSpec.init : RSpec K V).run (statement q)).expr i = none := by
    simp only [statement, tidyRun_append, run_append_spec]
    have hu := unbuild_tidy (build q 0).2 ((RSpec.init : RSpec K V).run (build q 0).1) (by
      intro i
      constructor
      · intro h; exact all i (Nat.zero_le _) h
      · intro h; have := wa.young.lt i h; rw [wa.n] at this; exact this) wa.young.kids
    refine ⟨⟨⟨ta, ⟨?_, trivial⟩⟩, hu.1⟩, hu.2⟩
    have hroot : ((RSpec.init : RSpec K V).run (build q 0).1).expr ((build q 0).2 - 1) = some q := wa.root
    show (((RSpec.init : RSpec K V).run (build q 0).1).expr ((build q 0).2 - 1)).isSome
    rw [hroot]; rfl
  constructor
  · obtain ⟨h, e, hr, _⟩ := C71_with_care_partial _ ta
    exact ⟨h, e, hr _ _ wa.root⟩
  · obtain ⟨h, e, hj⟩ := RJ.run (m := RSpec.init) _ .init tall.1
    have ho : ∀ i, h.objs i = none := by
      intro i
      cases ho : h.objs i with
      | none => rfl
      | some o => have := (hj.alive i).1 (by simp [ho]); rw [tall.2 i] at this; cases this
    refine ⟨h, e, ?_, ho⟩
    intro c
    cases hc : h.cells c with
    | none => rfl
    | some v => obtain ⟨i, t, k, p, h1⟩ := hj.live c v hc; rw [ho i] at h1; cases h1

/-- A concrete statement: `(key 0 > 1 && key 0 < 5) || key 1 == 3`. -/
example : ∃ h : RHeap Nat Nat, RHeap.init.run (build (.or (.and (.leaf .Greater 0 1 fun _ => true) (.leaf .Less 0 5 fun _ => true)) (.leaf .Equal 1 3 fun _ => true)) 0).1 = some h ∧
    h.nobj = 5 ∧ h.cells 2 = some 3 := ⟨_, rfl, rfl, rfl⟩

/-- A stored combination: the operands written in its definition are destroyed at the end of that statement, evaluating it later is undefined. -/
theorem C71_refuted_stored : (RHeap.init : RHeap Nat Nat).run [.leaf .Greater 0 1 fun _ => true, .leaf .Less 0 5 fun _ => true, .node true 0 1, .destroy 1, .destroy 0] ≠ none ∧
    (RHeap.init : RHeap Nat Nat).run [.leaf .Greater 0 1 fun _ => true, .leaf .Less 0 5 fun _ => true, .node true 0 1, .destroy 1, .destroy 0, .eval 2] = none :=
  ⟨by simp [RHeap.run, RHeap.step, RHeap.leaf, RHeap.push, RHeap.init, RHeap.node, RHeap.destroy, List.foldlM], rfl⟩

/-- A copied comparison: the value is deleted twice. -/
theorem C71_refuted_copy : (RHeap.init : RHeap Nat Nat).run [.leaf .Greater 0 1 fun _ => true, .copy 0, .destroy 1] ≠ none ∧
    (RHeap.init : RHeap Nat Nat).run [.leaf .Greater 0 1 fun _ => true, .copy 0, .destroy 1, .destroy 0] = none :=
  ⟨by simp [RHeap.run, RHeap.step, RHeap.leaf, RHeap.push, RHeap.init, RHeap.copy, RHeap.destroy, List.foldlM], rfl⟩

/-- An assignment between comparisons: the old value is never freed, although evaluating the object is fine. -/
theorem C71_refuted_assign : ∃ h : RHeap Nat Nat, RHeap.init.run [.leaf .Greater 0 1 fun _ => true, .leaf .Greater 0 2 fun _ => true, .assign 0 1, .eval 0] = some h ∧
    h.cells 0 = some 1 ∧ ∀ i t k p, i < 2 → h.objs i ≠ some (.leaf t k 0 p) := by
  refine ⟨_, rfl, rfl, ?_⟩
  intro i t k p hi
  match i, hi with
  | 0, _ => intro e; cases e
  | 1, _ => intro e; cases e

end MVault.W
