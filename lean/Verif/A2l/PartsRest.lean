import Verif.A2l.PartsOdd
import Verif.A2l.OddProps
import Verif.A2l.FileProps

/-!
C65 for the remaining functions: BIT_OPERATION, FRAME, the value tables COMPU_TAB, COMPU_VTAB, COMPU_VTAB_RANGE and the file as a whole.
-/

namespace Verif.A2l.Decl
open Verif.Go Verif.A2l Lang

/-- `fs` are the parts in the tokens from position `a` up to but without position `b`, where the positions in `C` do not count as first tokens of
parts: each part begins with its keyword and was read there, they do not overlap, and there is no further keyword of a part outside of them. -/
structure PartsIn (E : Env) (R : PName → Nat → Nat → Val → Prop) (subs : List (Str × Sub)) (C : Nat → Prop) (a b : Nat)
    (fs : List Part) : Prop where
  tok : ∀ f ∈ fs, E.toks[f.pos]? = some f.key
  decl : ∀ f ∈ fs, (f.key, Sub.obj f.q f.field f.mode) ∈ subs
  read : ∀ f ∈ fs, R f.q f.pos f.stop f.val
  within : ∀ f ∈ fs, a ≤ f.pos ∧ f.pos ≤ f.stop ∧ f.stop < b
  order : fs.Pairwise (fun f g => f.stop < g.pos)
  all : ∀ z k q g md, a ≤ z → z < b → E.toks[z]? = some k → (k, Sub.obj q g md) ∈ subs → ¬ C z →
    ∃ f ∈ fs, f.pos ≤ z ∧ z ≤ f.stop

end Verif.A2l.Decl

namespace Verif.A2l.Props
open Verif.Go Verif.A2l Lang Decl Analysis Template Loose Odd FileSpec

/-- Values and the position of the next token. -/
structure At where
  o : Obj
  i : Nat

/-- The tokens from `x` to `y` are a part. -/
def IsPart (E : Env) (R : Loose.Calls) (S : List (Str × Sub)) (x y : At) : Prop :=
  ∃ k q f md v j, E.toks[x.i]? = some k ∧ (k, Sub.obj q f md) ∈ S ∧ R q x.i j v ∧ x.i ≤ j ∧ y.i = j + 1 ∧ Keeps x.o f md v y.o

/-- The tokens from `x` to `y` have nothing to do with the parts. -/
def Still (E : Env) (S : List (Str × Sub)) (C : Nat → Prop) (x y : At) : Prop :=
  x.i ≤ y.i ∧ (∀ z k q g md, x.i ≤ z → z < y.i → E.toks[z]? = some k → (k, Sub.obj q g md) ∈ S → C z) ∧
    ∀ k q g md, (k, Sub.obj q g md) ∈ S → y.o g = x.o g

inductive Chain (E : Env) (R : Loose.Calls) (S : List (Str × Sub)) (C : Nat → Prop) : At → At → Prop
  | nil {x} : Chain E R S C x x
  | part {x y z} (h : IsPart E R S x y) (hs : Chain E R S C y z) : Chain E R S C x z
  | still {x y z} (h : Still E S C x y) (hs : Chain E R S C y z) : Chain E R S C x z

theorem chain_parts {E : Env} {R : Loose.Calls} {S : List (Str × Sub)} {C : Nat → Prop}
    (hmode : ∀ k q g md k' q' md', (k, Sub.obj q g md) ∈ S → (k', Sub.obj q' g md') ∈ S → md = md')
    {x z : At} (h : Chain E R S C x z) :
    ∃ fs, PartsIn E R S C x.i z.i fs ∧ x.i ≤ z.i ∧
      ∀ k q g md, (k, Sub.obj q g md) ∈ S → z.o g = (partsFor fs g).foldl (fun a f => keep md a f.val) (x.o g) := by
  induction h with
  | nil => exact ⟨[], ⟨by simp, by simp, by simp, by simp, .nil, fun z _ _ _ _ h1 h2 => by omega⟩, Nat.le_refl _, fun _ _ _ _ _ => rfl⟩
  | @still x y z hq _ ih =>
    obtain ⟨fs, h1, h4, h5⟩ := ih
    obtain ⟨hle, hno, hsame⟩ := hq
    refine ⟨fs, ⟨h1.tok, h1.decl, h1.read, fun f hf => ?_, h1.order, fun w k q g md w1 w2 w3 w4 w5 => ?_⟩, by omega, fun k q g md hg => ?_⟩
    · have := h1.within f hf; omega
    · by_cases hw : w < y.i
      · exact (w5 (hno w k q g md w1 hw w3 w4)).elim
      · exact h1.all w k q g md (by omega) w2 w3 w4 w5
    · rw [h5 k q g md hg, hsame k q g md hg]
  | @part x y z hp _ ih =>
    obtain ⟨fs, h1, h4, h5⟩ := ih
    obtain ⟨t, q, f, md, v, j, ht, a, c, hij, hy, d⟩ := hp
    refine ⟨⟨t, q, f, md, x.i, j, v⟩ :: fs, ⟨?_, ?_, ?_, ?_, ?_, ?_⟩, by omega, ?_⟩
    · intro g hg
      rcases List.mem_cons.1 hg with rfl | hg
      · exact ht
      · exact h1.tok g hg
    · intro g hg
      rcases List.mem_cons.1 hg with rfl | hg
      · exact a
      · exact h1.decl g hg
    · intro g hg
      rcases List.mem_cons.1 hg with rfl | hg
      · exact c
      · exact h1.read g hg
    · intro g hg
      rcases List.mem_cons.1 hg with rfl | hg
      · exact ⟨Nat.le_refl _, hij, by show j < z.i; omega⟩
      · have := h1.within g hg
        omega
    · exact List.pairwise_cons.2 ⟨fun g hg => (by have := h1.within g hg; show j < g.pos; omega), h1.order⟩
    · intro w k' q' g' md' w1 w2 w3 w4 w5
      by_cases hw : w ≤ j
      · exact ⟨_, List.mem_cons_self .., w1, hw⟩
      · obtain ⟨f', hf', h⟩ := h1.all w k' q' g' md' (by omega) w2 w3 w4 w5
        exact ⟨f', List.mem_cons_of_mem _ hf', h⟩
    · intro k' q' g md' hg
      rw [h5 k' q' g md' hg]
      unfold partsFor
      by_cases hfg : f = g
      · subst hfg
        have hmd : md = md' := hmode _ _ _ _ _ _ _ a hg
        subst hmd
        rw [List.filter_cons, if_pos (by simp), List.foldl_cons, keeps_keep d]
      · rw [List.filter_cons, if_neg (by simpa using hfg), keeps_other d (Ne.symm hfg)]

/-- What a field that was empty keeps. -/
theorem kept_of {fs : List Decl.Part} {g : String} {r : Obj} {md : Decl.Mode} (hn : ∀ key, md ≠ .byName key)
    (h : r g = (partsFor fs g).foldl (fun a f => keep md a f.val) .zero) : KeptParts fs g r md := by
  cases md with
  | field =>
    show r g = _
    rw [h, fold_field]
  | append =>
    show r.list g = _
    unfold Obj.list
    rw [h]
    cases partsFor fs g with
    | nil => rfl
    | cons x l =>
      rw [List.foldl_cons, show keep .append .zero x.val = .list [x.val] from rfl, fold_append]
      rfl
  | byName key => exact absurd rfl (hn key)

/-- Parts without exceptions. -/
theorem partsOf_of {E : Env} {R : Loose.Calls} {S : List (Str × Sub)} {i j : Nat} {fs : List Decl.Part}
    (h : PartsIn E R S (fun _ => False) (i + 1) (j + 1) fs) : PartsOf E R S i j fs :=
  ⟨h.tok, h.decl, h.read, fun f hf => by have := h.within f hf; omega, h.order,
    fun z k q g md h1 h2 h3 h4 => h.all z k q g md (by omega) (by omega) h3 h4 (fun h => h)⟩

/-! ### BIT_OPERATION and FRAME -/

theorem bit_chain {E : Env} (hw : Wf E) (hmt : MtGood E) {k : Nat} {x y : View} (h : Steps (BitRound E (Succeeds E)) k x y) :
    Chain E (Succeeds E) (Shape.subs (shape .parseBitOperation)) (fun _ => False) ⟨x.o, x.i + 1⟩ ⟨y.o, y.i + 1⟩ := by
  induction h with
  | nil => exact .nil
  | cons h _ ih =>
    have hS : ∀ t ∉ bitParts.map (·.1), ∀ q g md, (t, Sub.obj q g md) ∉ Shape.subs (shape .parseBitOperation) := by
      intro t ht q g md hm
      have hm' := List.mem_map_of_mem (f := (·.1)) hm
      exact ht hm'
    cases h with
    | @part o e i j k q f v hk ht h =>
      refine .part ?_ ih
      refine ⟨k, q, f, .field, v, j, ht, ?_, h, ?_, rfl, rfl⟩
      · have : ∀ x ∈ bitParts, (x.1, Sub.obj x.2.1 x.2.2 .field) ∈ Shape.subs (shape .parseBitOperation) := by decide
        exact this _ hk
      · have hq : ∀ x ∈ bitParts, x.2.1 ≠ .parseModuleMultithreaded := by decide
        exact succeeds_le hw hmt (fun e => absurd e (hq _ hk)) ht h
    | @word o e i t ht h0 h1 h2 =>
      refine .still ?_ ih
      refine ⟨by simp, fun z k q g md z1 z2 z3 z4 => ?_, fun _ _ _ _ _ => rfl⟩
      obtain rfl : z = i + 1 := by simp only at z1 z2; omega
      unfold TokAfter at ht
      rw [ht] at z3
      cases z3
      exact hS _ h1 _ _ _ z4
    | @foreign o e i t ht h0 h1 h2 =>
      refine .still ?_ ih
      refine ⟨by simp, fun z k q g md z1 z2 z3 z4 => ?_, fun _ _ _ _ _ => rfl⟩
      obtain rfl : z = i + 1 := by simp only at z1 z2; omega
      unfold TokAfter at ht
      rw [ht] at z3
      cases z3
      exact hS _ h1 _ _ _ z4

/-- C65 for BIT_OPERATION: the shifts and the sign extension are those of the text, of each the last one. -/
theorem C65_bit_operation {E : Env} (hw : Wf E) (hmt : MtGood E) {i i' : Nat} {r : Obj}
    (h : Returns E .parseBitOperation i (.ok i' (.obj r) false)) :
    ∃ fs, PartsOf E (Succeeds E) (Shape.subs (shape .parseBitOperation)) i (i' - 1) fs ∧
      ∀ k q g md, (k, Sub.obj q g md) ∈ Shape.subs (shape .parseBitOperation) → KeptParts fs g r md := by
  obtain ⟨o, k, j, ho, hs, _, rfl⟩ := (C32_bit_operation_exact hw).1 h
  cases ho
  have hmd : ∀ k q g md, (k, Sub.obj q g md) ∈ Shape.subs (shape .parseBitOperation) → md = .field := by
    intro k q g md hm
    have : ((Shape.subs (shape .parseBitOperation)).all fun x => match x.2 with | .obj _ _ .field => true | _ => false) = true := by decide
    have := List.all_eq_true.1 this _ hm
    cases md <;> simp_all
  obtain ⟨fs, h1, _, h2⟩ := chain_parts (fun k q g md k' q' md' a b => by rw [hmd _ _ _ _ a, hmd _ _ _ _ b]) (bit_chain hw hmt hs)
  refine ⟨fs, partsOf_of h1, fun k q g md hm => kept_of (fun key e => ?_) (h2 k q g md hm)⟩
  rw [hmd _ _ _ _ hm] at e
  cases e

/-- The optional parts of FRAME, a2l/frame.go:23-41. -/
def frameSubs : List (Str × Sub) := [((str! "FRAME_MEASUREMENT"), .obj .parseFrameMeasurement "frameMeasurement" .field),
  ((str! "/begin IF_DATA"), .obj .parseIfData "ifData" .append)]

theorem frame_chain {E : Env} (hw : Wf E) (hmt : MtGood E) {k : Nat} {x y : View} (h : Steps (FrameRound E (Succeeds E)) k x y) :
    Chain E (Succeeds E) frameSubs (fun _ => False) ⟨x.o, x.i + 1⟩ ⟨y.o, y.i + 1⟩ := by
  induction h with
  | nil => exact .nil
  | cons h _ ih =>
    cases h with
    | @measurement o e i j v ht h =>
      refine .part ?_ ih
      exact ⟨_, _, _, .field, v, j, ht, List.mem_cons_self .., h, succeeds_le hw hmt (fun e => by cases e) ht h, rfl, rfl⟩
    | @data o e i j v ht h =>
      refine .part ?_ ih
      exact ⟨_, _, _, .append, v, j, ht, List.mem_cons_of_mem _ (List.mem_cons_self ..), h, succeeds_le hw hmt (fun e => by cases e) ht h, rfl, rfl⟩
    | @word o e i t ht h0 h1 h2 =>
      refine .still ?_ ih
      refine ⟨by simp, fun z k q g md z1 z2 z3 z4 => ?_, fun k q g md hm => ?_⟩
      · obtain rfl : z = i + 1 := by simp only at z1 z2; omega
        unfold TokAfter at ht
        rw [ht] at z3
        cases z3
        simp only [frameSubs, List.mem_cons, Prod.mk.injEq, List.not_mem_nil, or_false] at z4
        rcases z4 with ⟨rfl, _⟩ | ⟨rfl, _⟩
        · exact h1 rfl
        · exact h2 (by decide +kernel)
      · refine Template.set_other _ _ ?_
        rintro rfl
        simp [frameSubs] at hm

/-- C65 for FRAME: the measurements are those of the last list of measurements, the blocks of data all those of the text, in its order. -/
theorem C65_frame {E : Env} (hw : Wf E) (hmt : MtGood E) {i i' : Nat} {r : Obj}
    (h : Returns E .parseFrame i (.ok i' (.obj r) false)) :
    ∃ j fs, (i' = j + 1 ∨ i' = j) ∧ PartsOf E (Succeeds E) frameSubs i j fs ∧
      ∀ k q g md, (k, Sub.obj q g md) ∈ frameSubs → KeptParts fs g r md := by
  obtain ⟨o, k, y, ho, hs, he⟩ := (C32_frame_exact hw).1 h
  cases ho
  have hmd : ∀ k q g md k' q' md', (k, Sub.obj q g md) ∈ frameSubs → (k', Sub.obj q' g md') ∈ frameSubs → md = md' := by
    intro k q g md k' q' md' a b
    simp only [frameSubs, List.mem_cons, Prod.mk.injEq, Sub.obj.injEq, List.not_mem_nil, or_false] at a b
    rcases a with ⟨_, _, rfl, rfl⟩ | ⟨_, _, rfl, rfl⟩ <;> simp at b <;> simp [b]
  have hnb : ∀ k q g md, (k, Sub.obj q g md) ∈ frameSubs → ∀ key, md ≠ .byName key := by
    rintro k q g md a key rfl
    simp [frameSubs] at a
  obtain ⟨fs, h1, _, h2⟩ := chain_parts hmd (frame_chain hw hmt hs)
  have hr : r = y.o := by cases he <;> rfl
  refine ⟨y.i, fs, ?_, partsOf_of h1, fun k q g md hm => kept_of (hnb _ _ _ _ hm) (by rw [hr]; exact h2 k q g md hm)⟩
  cases he
  · exact .inl rfl
  · exact .inl rfl
  · exact .inr rfl

/-! ### The tables -/

/-- The token at `z` is where the text of a row stands: the table has rows that end with a text, and there is a number before it. -/
def RowText (E : Env) (T : Table) (z : Nat) : Prop :=
  T.cols.getLast?.map (·.kind) = some .str ∧ ∃ n, E.toks[z - 1]? = some n ∧ E.floatOk n = true

theorem rowObj_other {num : String} {g : String} : ∀ {cs : List Col} {vs : List Val} {o : Obj}, (∀ c ∈ cs, g ≠ c.field ∧ g ≠ c.flag) →
    rowObj num o cs vs g = o g
  | [], _, _, _ => rfl
  | _ :: _, [], _, _ => rfl
  | c :: cs, v :: vs, o, h => by
    rw [rowObj, rowObj_other (fun c' hc => h c' (List.mem_cons_of_mem _ hc))]
    obtain ⟨h1, h2⟩ := h c (List.mem_cons_self ..)
    unfold cell
    split
    · rw [Template.set_other _ _ h2, Template.set_other _ _ h1]
    · rw [Template.set_other _ _ h1]

/-- What the names in a table have to satisfy. -/
def tabPartsOk (T : Table) : Bool := T.subs.all fun x => match x.2 with
  | .obj q g .field => q ≠ .parseModuleMultithreaded && T.ps.all (fun p => p.field ≠ g && p.flag ≠ g) && T.cols.all (fun c => c.field ≠ g && c.flag ≠ g)
  | _ => false

theorem tabPartsOk_all : ∀ T ∈ tableKinds, tabPartsOk T = true := by
  intro T hT
  simp only [tableKinds, List.mem_cons, List.not_mem_nil, or_false] at hT
  rcases hT with rfl | rfl | rfl <;> decide +kernel

/-- Where in a row a keyword of a part can stand: only in the place of the text. -/
theorem row_text {E : Env} {T : Table} (hT : T ∈ tableKinds) (hfk : ∀ x ∈ T.subs, E.floatOk x.1 = false) {i : Nat} {t : Str}
    (ht : TokAfter E i t) {us : List Str} {vs : List Val} (hws : Words E (i + 1) us) (hwr : Written E (T.cols.map (·.kind)) (t :: us) vs)
    {z : Nat} {k : Str} {sb : Sub} (h1 : i + 1 < z) (h2 : z ≤ i + 1 + us.length) (h3 : E.toks[z]? = some k) (h4 : (k, sb) ∈ T.subs) : RowText E T z := by
  have hk : E.floatOk k = false := hfk _ h4
  clear h4 hfk
  simp only [tableKinds, List.mem_cons, List.not_mem_nil, or_false] at hT
  rcases hT with rfl | rfl | rfl
  · cases hwr with
    | cons a b => cases b with
      | cons c d =>
        cases d
        obtain rfl : z = i + 2 := by simp at h2; omega
        have := hws 0 _ rfl
        unfold TokAfter at this
        simp only [Nat.add_zero] at this
        rw [this] at h3
        cases h3
        have c : E.floatOk k = true ∧ _ := c
        rw [hk] at c
        cases c.1
  · cases hwr with
    | cons a b => cases b with
      | cons c d =>
        cases d
        obtain rfl : z = i + 2 := by simp at h2; omega
        have a : E.floatOk t = true ∧ _ := a
        exact ⟨rfl, t, ht, a.1⟩
  · cases hwr with
    | cons a b => cases b with
      | cons c d => cases d with
        | cons e f =>
          cases f
          have c : E.floatOk _ = true ∧ _ := c
          have w := hws 0 _ rfl
          unfold TokAfter at w
          simp only [Nat.add_zero] at w
          simp at h2
          by_cases hz : z = i + 2
          · subst hz
            rw [w] at h3
            cases h3
            rw [hk] at c
            cases c.1
          · obtain rfl : z = i + 3 := by omega
            exact ⟨rfl, _, w, c.1⟩

theorem table_chain {E : Env} (hw : Wf E) (hmt : MtGood E) {T : Table} (hT : T ∈ tableKinds) (hfk : ∀ x ∈ T.subs, E.floatOk x.1 = false)
    {n : Nat} {x z : Decl.Pos} (h : Loose.Items E (Succeeds E) T.fin (T.spec E) n x z) :
    Chain E (Succeeds E) T.subs (RowText E T) ⟨x.o, x.i + 1⟩ ⟨z.o, z.i + 1⟩ := by
  have hok : ∀ k q g md, (k, Sub.obj q g md) ∈ T.subs → _ := fun k q g md hm => List.all_eq_true.1 (tabPartsOk_all T hT) _ hm
  induction h with
  | nil => exact .nil
  | cons h _ ih =>
    cases h with
    | @param m o i t v p hp ht hne hfin hs hkw hv =>
      refine .still ?_ ih
      refine ⟨by simp, fun z k q g md z1 z2 z3 z4 => ?_, fun k q g md hm => ?_⟩
      · obtain rfl : z = i + 1 := by simp only at z1 z2; omega
        unfold TokAfter at ht
        rw [ht] at z3
        cases z3
        exact (hs (List.mem_map_of_mem (f := (·.1)) z4)).elim
      · have := hok k q g md hm
        cases md with
        | field =>
          simp only [Bool.and_eq_true, List.all_eq_true, decide_eq_true_eq] at this
          have := this.1.2 p (List.mem_of_getElem? hp)
          show ((o.set p.field v).set p.flag _) g = o g
          rw [Template.set_other _ _ (Ne.symm this.2), Template.set_other _ _ (Ne.symm this.1)]
        | append => cases this
        | byName => cases this
    | @rest m o o' i j t hm ht hne hfin hs hkw hr =>
      have hr : (if ∀ c ∈ T.cols, o.flag c.flag = true then o' = o ∧ j = i + 1 else ∃ us vs, Words E (i + 1) us ∧
        Written E (T.cols.map (·.kind)) (t :: us) vs ∧ j = i + 1 + us.length ∧ o' = rowObj T.num o T.cols vs) := hr
      have here : ∀ k sb, E.toks[i + 1]? = some k → (k, sb) ∉ T.subs := by
        intro k sb h1 h2
        unfold TokAfter at ht
        rw [ht] at h1
        cases h1
        exact hs (List.mem_map_of_mem (f := (·.1)) h2)
      split at hr
      · obtain ⟨rfl, rfl⟩ := hr
        refine .still ?_ ih
        refine ⟨by simp, fun z k q g md z1 z2 z3 z4 => ?_, fun _ _ _ _ _ => rfl⟩
        obtain rfl : z = i + 1 := by simp only at z1 z2; omega
        exact (here _ _ z3 z4).elim
      · obtain ⟨us, vs, h1, h2, rfl, rfl⟩ := hr
        refine .still ?_ ih
        refine ⟨by simp only; omega, fun z k q g md z1 z2 z3 z4 => ?_, fun k q g md hm => ?_⟩
        · simp only at z1 z2
          by_cases hz : z = i + 1
          · subst hz
            exact (here _ _ z3 z4).elim
          · exact row_text hT hfk ht h1 h2 (by omega) (by omega) z3 z4
        · refine rowObj_other fun c hc => ?_
          have := hok k q g md hm
          cases md with
          | field =>
            simp only [Bool.and_eq_true, List.all_eq_true, decide_eq_true_eq] at this
            exact ⟨Ne.symm (this.2 c hc).1, Ne.symm (this.2 c hc).2⟩
          | append => cases this
          | byName => cases this
    | @sub m o o' i j t hs ht hr =>
      obtain ⟨q, f, md, v, h1, h2, h3⟩ := hr
      have := hok t q f md h1
      have hq : q ≠ .parseModuleMultithreaded := by
        cases md with
        | field => simp only [Bool.and_eq_true, decide_eq_true_eq] at this; exact this.1.1
        | append => cases this
        | byName => cases this
      refine .part ?_ ih
      exact ⟨t, q, f, md, v, j, ht, h1, h2, succeeds_le hw hmt (fun e => absurd e hq) ht h2, rfl, h3⟩

/-- C65 for the value tables: the default values are those of the text, of each the last one. Where a row ends with a text, this text can be any
word; it is no part, even if it is the first token of one. `E.floatOk` is `strconv.ParseFloat`, which fails for these tokens. -/
theorem C65_tables {E : Env} (hw : Wf E) (hmt : MtGood E) (hfl : E.floatOk [] = false) {T : Table} (hT : T ∈ tableKinds)
    (hfk : ∀ x ∈ T.subs, E.floatOk x.1 = false) {i i' : Nat} {r : Obj} (h : Returns E T.p i (.ok i' (.obj r) false)) :
    ∃ fs, PartsIn E (Succeeds E) T.subs (RowText E T) (i + 1) i' fs ∧
      ∀ k q g md, (k, Sub.obj q g md) ∈ T.subs → KeptParts fs g r md := by
  obtain ⟨o, ho, n, m, j, o₁, hi, hfin, rfl, hc⟩ := C48_only hw hfl hT h
  cases ho
  have hmd : ∀ k q g md, (k, Sub.obj q g md) ∈ T.subs → md = .field := by
    intro k q g md hm
    have := List.all_eq_true.1 (tabPartsOk_all T hT) _ hm
    cases md with
    | field => rfl
    | append => cases this
    | byName => cases this
  obtain ⟨fs, h1, _, h2⟩ := chain_parts (fun k q g md k' q' md' a b => by rw [hmd _ _ _ _ a, hmd _ _ _ _ b]) (table_chain hw hmt hT hfk hi)
  refine ⟨fs, h1, fun k q g md hm => kept_of (fun key e => ?_) ?_⟩
  · rw [hmd _ _ _ _ hm] at e
    cases e
  · have hc : r = o₁ := hc
    rw [hc]
    exact h2 k q g md hm

/-! ### The file -/

/-- The parts of a file, a2l/a2l.go:90-130. -/
def fileSubs : List (Str × Sub) := heads.map fun x => (x.1, .obj x.2.1 x.2.2 .field)

theorem top_chain {E : Env} (hw : Wf E) (hmt : MtGood E) {i j : Nat} {o o' : Obj} (h : Top E i o j o') :
    Chain E (Succeeds E) fileSubs (fun _ => False) ⟨o, i⟩ ⟨o', j⟩ := by
  induction h with
  | stop => exact .nil
  | @word i o j o' t ht h0 h1 h2 _ ih =>
    refine .still (y := ⟨o, i + 1⟩) ⟨by simp, fun z k q g md z1 z2 z3 z4 => ?_, fun _ _ _ _ _ => rfl⟩ ih
    obtain rfl : z = i := by simp only at z1 z2; omega
    rw [ht] at z3
    cases z3
    obtain ⟨x, hx, e⟩ := List.mem_map.1 z4
    cases e
    exact h2 (List.mem_map_of_mem (f := (·.1)) hx)
  | @part i o j o' e t p f v ht hm hr _ ih =>
    refine .part (y := ⟨o.set f v, e + 1⟩) ⟨t, p, f, .field, v, e, ht, List.mem_map.2 ⟨_, hm, rfl⟩, hr, ?_, rfl, rfl⟩ ih
    have hq : ∀ x ∈ heads, x.2.1 ≠ .parseModuleMultithreaded := by decide
    exact succeeds_le hw hmt (fun e => absurd e (hq _ hm)) ht hr

/-- C65 for the file: the version numbers and the project are those of the file, of each the last one. -/
theorem C65_file {E : Env} (hw : Wf E) (hmt : MtGood E) {j : Nat} {r : Obj} (h : Returns E .parseA2l 0 (.ok j (.obj r) false)) :
    ∃ fs, PartsIn E (Succeeds E) fileSubs (fun _ => False) 0 j fs ∧ ∀ k q g md, (k, Sub.obj q g md) ∈ fileSubs → KeptParts fs g r md := by
  obtain ⟨o, ho, ht⟩ := (C56_file hw hmt).1 h
  cases ho
  have hmd : ∀ k q g md, (k, Sub.obj q g md) ∈ fileSubs → md = .field := by
    intro k q g md hm
    obtain ⟨x, _, e⟩ := List.mem_map.1 hm
    cases e
    rfl
  obtain ⟨fs, h1, _, h2⟩ := chain_parts (fun k q g md k' q' md' a b => by rw [hmd _ _ _ _ a, hmd _ _ _ _ b]) (top_chain hw hmt ht)
  refine ⟨fs, h1, fun k q g md hm => kept_of (fun key e => ?_) (h2 k q g md hm)⟩
  rw [hmd _ _ _ _ hm] at e
  cases e

/-! ### Examples -/

/-- A left shift, a right shift, and a second left shift. -/
def shiftToks : List Str := [(str! "/begin BIT_OPERATION"), (str! "LEFT_SHIFT"), (str! "1"), (str! "RIGHT_SHIFT"), (str! "2"),
  (str! "LEFT_SHIFT"), (str! "3"), (str! "/end BIT_OPERATION")]

/-- What was read as a field of a field. -/
def inner (E : Env) (p : PName) (f g : String) : Option Int := match parse E p 0 with
  | .ok _ (.obj o) false => match o f with
    | .obj o' => intOf (o' g)
    | _ => none
  | _ => none

-- the second left shift counts
example : (∃ o fs, Returns (mkEnv shiftToks) .parseBitOperation 0 (.ok 7 (.obj o) false) ∧
      PartsOf (mkEnv shiftToks) (Succeeds (mkEnv shiftToks)) (Shape.subs (shape .parseBitOperation)) 0 6 fs ∧
      KeptParts fs "leftShift" o .field) ∧ inner (mkEnv shiftToks) .parseBitOperation "leftShift" "bitcount" = some 3 := by
  refine ⟨?_, by decide +kernel⟩
  have hg : got (mkEnv shiftToks) .parseBitOperation 0 "x" = some (7, false, none, none) := by decide +kernel
  obtain ⟨o, h1, _⟩ := got_spec hg
  obtain ⟨fs, h2, h3⟩ := C65_bit_operation (mkEnv_wf (by decide)) (mkEnv_mt _) h1
  exact ⟨o, fs, h1, h2, h3 (str! "LEFT_SHIFT") .parseLeftShift _ _ (by decide)⟩

/-- Two blocks of data, with the name between them. -/
def frameToks : List Str := [(str! "/begin FRAME"), (str! "/begin IF_DATA"), (str! "A"), (str! "/end IF_DATA"), (str! "F"),
  (str! "/begin IF_DATA"), (str! "B"), (str! "/end IF_DATA"), (str! "/end FRAME")]

example : ∃ o j fs, Returns (mkEnv frameToks) .parseFrame 0 (.ok 8 (.obj o) false) ∧
    PartsOf (mkEnv frameToks) (Succeeds (mkEnv frameToks)) frameSubs 0 j fs ∧ Obj.list o "ifData" = (partsFor fs "ifData").map (·.val) := by
  have hg : got (mkEnv frameToks) .parseFrame 0 "name" = some (8, false, some (str! "F"), none) := by decide +kernel
  obtain ⟨o, h1, _⟩ := got_spec hg
  obtain ⟨j, fs, _, h2, h3⟩ := C65_frame (mkEnv_wf (by decide)) (mkEnv_mt _) h1
  exact ⟨o, j, fs, h1, h2, h3 (str! "/begin IF_DATA") .parseIfData _ .append (by simp [frameSubs])⟩

/-- A table with a row whose text is the first token of a part, and with a part. -/
def textTabToks : List Str := [(str! "/begin COMPU_VTAB"), (str! "T"), (str! "\"text\""), (str! "TAB_VERB"), (str! "1"), (str! "0"), (str! "DEFAULT_VALUE"),
  (str! "DEFAULT_VALUE"), (str! "\"other\""), (str! "/end COMPU_VTAB")]

/-- Numbers are words of digits. -/
def textTabEnv : Env := { mkEnv textTabToks with floatOk := fun t => !t.isEmpty && t.all (·.isDigit) }

example : ∃ o fs, Returns textTabEnv .parseCompuVtab 0 (.ok 9 (.obj o) false) ∧
    PartsIn textTabEnv (Succeeds textTabEnv) compuVtab.subs (RowText textTabEnv compuVtab) 1 9 fs ∧ KeptParts fs "DefaultValue" o .field ∧ RowText textTabEnv compuVtab 6 := by
  have hg : got textTabEnv .parseCompuVtab 0 "Name" = some (9, false, some (str! "T"), none) := by decide +kernel
  obtain ⟨o, h1, _⟩ := got_spec hg
  have hw : Wf textTabEnv := ⟨textTabToks, rfl, by decide⟩
  obtain ⟨fs, h2, h3⟩ := C65_tables (T := compuVtab) hw (fun h => by cases h) (by decide) (by simp [tableKinds]) (by decide) h1
  exact ⟨o, fs, h1, h2, h3 (str! "DEFAULT_VALUE") .parseDefaultValue _ _ (by simp [compuVtab]), rfl, _, rfl, by decide⟩

example : ∃ o fs, Returns wholeFile .parseA2l 0 (.ok 16 (.obj o) false) ∧
    PartsIn wholeFile (Succeeds wholeFile) fileSubs (fun _ => False) 0 16 fs ∧ KeptParts fs "Project" o .field := by
  obtain ⟨o, ho⟩ := accepted_ok (r := A2l.parse wholeFile .parseA2l 0) (j := 16) (by decide +kernel)
  have h1 := returns_of_run ho (by simp)
  obtain ⟨fs, h2, h3⟩ := C65_file wholeFile_wf (mtGood_seq rfl) h1
  exact ⟨o, fs, h1, h2, h3 (str! "/begin PROJECT") .parseProject _ _ (by simp [fileSubs, heads])⟩

end Verif.A2l.Props
