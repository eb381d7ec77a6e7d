import Verif.A2l.Parts
import Verif.A2l.LooseProps2

/-!
C65 for the blocks whose parse function does not follow the common form: BLOB, MEASUREMENT, TYPEDEF_MEASUREMENT, MEMORY_LAYOUT,
MEMORY_SEGMENT, OVERWRITE, PROJECT, UNIT, VARIANT_CODING (VAR_FORBIDDEN_COMB has no parts).
-/

namespace Verif.A2l.Loose
open Verif.Go Verif.A2l Lang Decl

/-- The optional parts of a block that are objects. The modules of a project are read by one function or the other. -/
def objParts (multi : Bool) (l : List (Str × XSub)) : List (Str × Sub) := l.filterMap fun x => match x.2 with
  | .obj q f md => some (x.1, .obj q f md)
  | .module f => some (x.1, .obj (if multi then .parseModuleMultithreaded else .parseModule) f .append)
  | _ => none

end Verif.A2l.Loose

namespace Verif.A2l.Props
open Verif.Go Verif.A2l Lang Decl Analysis Template Loose

/-- Words after position `i` up to `j` that have nothing to do with the parts `S`. -/
structure Quiet (E : Env) (S : List (Str × Sub)) (o : Obj) (i : Nat) (o' : Obj) (j : Nat) : Prop where
  le : i ≤ j
  no : ∀ z k q g md, i < z → z ≤ j → E.toks[z]? = some k → (k, Sub.obj q g md) ∉ S
  same : ∀ k q g md, (k, Sub.obj q g md) ∈ S → o' g = o g

theorem loose_parts {E : Env} {R : Calls} {fin : Str} {L : Loose.Spec} {S : List (Str × Sub)}
    (hps : ∀ p ∈ L.ps, ∀ k q g md, (k, Sub.obj q g md) ∈ S → g ≠ p.field ∧ g ≠ p.flag)
    (hkeys : ∀ k q g md, (k, Sub.obj q g md) ∈ S → k ∈ L.keys)
    (hmode : ∀ k q g md k' q' md', (k, Sub.obj q g md) ∈ S → (k', Sub.obj q' g md') ∈ S → md = md')
    (hrest : ∀ t o i o' j, L.rest R t o i o' j → Quiet E S o i o' j)
    (hsub : ∀ t o i o' j, E.toks[i]? = some t → L.sub R t o i o' j →
      (∃ q f md v, (t, Sub.obj q f md) ∈ S ∧ R q i j v ∧ i ≤ j ∧ Keeps o f md v o') ∨
      ((∀ q g md, (t, Sub.obj q g md) ∉ S) ∧ Quiet E S o i o' j))
    {n : Nat} {x z : Decl.Pos} (hi : Loose.Items E R fin L n x z) :
    ∃ fs, PartsOf E R S x.i z.i fs ∧ x.i ≤ z.i ∧
      ∀ k q g md, (k, Sub.obj q g md) ∈ S → z.o g = (partsFor fs g).foldl (fun a f => keep md a f.val) (x.o g) := by
  induction hi with
  | nil => exact ⟨[], ⟨by simp, by simp, by simp, by simp, .nil, fun z _ _ _ _ h1 h2 => by omega⟩, Nat.le_refl _, fun _ _ _ _ _ => rfl⟩
  | @cons n x y z hit hs ih =>
    obtain ⟨fs, h1, h4, h5⟩ := ih
    have plain : Quiet E S x.o x.i y.o y.i →
        ∃ fs, PartsOf E R S x.i z.i fs ∧ x.i ≤ z.i ∧
          ∀ k q g md, (k, Sub.obj q g md) ∈ S → z.o g = (partsFor fs g).foldl (fun a f => keep md a f.val) (x.o g) := by
      intro hq
      have hle := hq.le
      refine ⟨fs, ⟨h1.tok, h1.decl, h1.read, fun f hf => ?_, h1.order, fun w k q g md w1 w2 w3 w4 => ?_⟩, by omega, fun k q g md hg => ?_⟩
      · have := h1.within f hf; omega
      · by_cases hw : w ≤ y.i
        · exact (hq.no w k q g md w1 hw w3 w4).elim
        · exact h1.all w k q g md (by omega) w2 w3 w4
      · rw [h5 k q g md hg, hq.same k q g md hg]
    have first : ∀ {i j : Nat} {t : Str} {o o' : Obj}, TokAfter E i t → (∀ q g md, (t, Sub.obj q g md) ∉ S) → Quiet E S o (i + 1) o' j → Quiet E S o i o' j := by
      intro i j t o o' ht hs' hq
      have hle := hq.le
      refine ⟨by omega, fun w k q g md w1 w2 w3 w4 => ?_, hq.same⟩
      by_cases hw : w = i + 1
      · subst hw
        unfold TokAfter at ht
        rw [ht] at w3
        cases w3
        exact hs' _ _ _ w4
      · exact hq.no w k q g md (by omega) w2 w3 w4
    cases hit with
    | @param m o i t v p hp ht hne hfin hs' hkw hv =>
      refine plain (first ht (fun q g md h => hs' (hkeys _ _ _ _ h)) ⟨Nat.le_refl _, fun w _ _ _ _ w1 w2 => by simp only at w1 w2; omega, fun k q g md hg => ?_⟩)
      have := hps p (List.mem_of_getElem? hp) k q g md hg
      show ((o.set p.field v).set p.flag _) g = o g
      rw [set_other _ _ this.2, set_other _ _ this.1]
    | @rest m o o' i j t hm ht hne hfin hs' hkw hr =>
      exact plain (first ht (fun q g md h => hs' (hkeys _ _ _ _ h)) (hrest _ _ _ _ _ hr))
    | @sub m o o' i j t hs' ht hr =>
      rcases hsub _ _ _ _ _ ht hr with ⟨q, f, md, v, a, c, hij, d⟩ | ⟨hno, hq⟩
      · simp only at h1 h4 h5 ⊢
        refine ⟨⟨t, q, f, md, i + 1, j, v⟩ :: fs, ⟨?_, ?_, ?_, ?_, ?_, ?_⟩, by omega, ?_⟩
        · intro g hg
          rcases List.mem_cons.1 hg with rfl | hg
          · exact ht
          · exact h1.tok g hg
        · intro g hg
          rcases List.mem_cons.1 hg with rfl | hg
          · exact a
          · exact h1.decl g hg
        · intro g hg
          rcases List.mem_cons.1 hg with rfl | hg
          · exact c
          · exact h1.read g hg
        · intro g hg
          rcases List.mem_cons.1 hg with rfl | hg
          · exact ⟨Nat.lt_succ_self _, hij, h4⟩
          · have := h1.within g hg
            omega
        · exact List.pairwise_cons.2 ⟨fun g hg => (h1.within g hg).1, h1.order⟩
        · intro w k' q' g' md' w1 w2 w3 w4
          by_cases hw : w ≤ j
          · exact ⟨_, List.mem_cons_self .., w1, hw⟩
          · obtain ⟨f', hf', h⟩ := h1.all w k' q' g' md' (by omega) w2 w3 w4
            exact ⟨f', List.mem_cons_of_mem _ hf', h⟩
        · intro k' q' g md' hg
          rw [h5 k' q' g md' hg]
          unfold partsFor
          by_cases hfg : f = g
          · subst hfg
            have hmd : md = md' := hmode _ _ _ _ _ _ _ a hg
            subst hmd
            rw [List.filter_cons, if_pos (by simp), List.foldl_cons, keeps_keep d]
          · rw [List.filter_cons, if_neg (by simpa using hfg), keeps_other d (Ne.symm hfg)]
      · exact plain (first ht hno hq)

/-- The fields that words after the parameters and the closing token change. -/
def looseFields : List String := ["conversion", "offset", "offsetSet", "longIdentifier", "nameSet", "varSeparator", "varSeparatorSet",
  "criterionName", "criterionValue", "criterionNameSet", "criterionValueSet", "addressType"]

/-- An optional part with first token `t` does not disturb the part with first token `k` and field `g`. -/
def apart (t k : Str) (g : String) : XSub → Bool
  | .obj q _ _ => q ≠ .parseModuleMultithreaded
  | .module _ => true
  | .word f => f ≠ g && t ≠ k
  | .enumNext e f => f ≠ g && t ≠ k && e.table.all (·.1 ≠ k)
  | .enumHere _ f fl => f ≠ g && fl ≠ g && t ≠ k

/-- What the names in a block have to satisfy. -/
def irrPartsOk (multi : Bool) (B : Irr) : Bool := (objParts multi B.subs).all fun s => match s.2 with
  | .enum _ _ => false
  | .obj _ g md =>
    B.ps.all (fun p => p.field ≠ g && p.flag ≠ g) && !looseFields.contains g &&
    (match md with | .byName _ => false | _ => true) &&
    (objParts multi B.subs).all (fun s' => match s'.2 with | .obj _ g' md' => g' ≠ g || md' = md | .enum _ _ => false) &&
    B.subs.all (fun x => apart x.1 s.1 g x.2)

theorem irrPartsOk_all : ∀ B ∈ irrs, ∀ m, irrPartsOk m B = true := by
  intro B hB m
  simp only [irrs, List.mem_cons, List.not_mem_nil, or_false] at hB
  rcases hB with rfl | rfl | rfl | rfl | rfl | rfl | rfl | rfl | rfl | rfl <;> cases m <;> decide +kernel

theorem coding_kw (m : Bool) : ((objParts m Loose.variantCoding.subs).all fun s => keywords.contains s.1) = true := by
  cases m <;> decide +kernel

theorem quiet_here {E : Env} {S : List (Str × Sub)} {o o' : Obj} {i : Nat} (h : ∀ k q g md, (k, Sub.obj q g md) ∈ S → o' g = o g) :
    Quiet E S o i o' i := ⟨Nat.le_refl _, fun w _ _ _ _ w1 w2 => by omega, h⟩

theorem quiet_next {E : Env} {S : List (Str × Sub)} {o o' : Obj} {i : Nat} {u : Str} (hu : TokAfter E i u)
    (hn : ∀ q g md, (u, Sub.obj q g md) ∉ S) (h : ∀ k q g md, (k, Sub.obj q g md) ∈ S → o' g = o g) :
    Quiet E S o i o' (i + 1) := by
  refine ⟨by omega, fun w k q g md w1 w2 w3 => ?_, h⟩
  obtain rfl : w = i + 1 := by omega
  unfold TokAfter at hu
  rw [hu] at w3
  cases w3
  exact hn q g md

theorem rest_quiet {E : Env} (hw : Wf E) {B : Irr} (hB : B ∈ irrs) {S : List (Str × Sub)}
    (hS : ∀ k q g md, (k, Sub.obj q g md) ∈ S → g ∉ looseFields) (hkw : B = Loose.variantCoding → ∀ k q g md, (k, Sub.obj q g md) ∈ S → k ∈ keywords)
    (hnil : B = Loose.varForbiddenComb → S = []) {t : Str} {o : Obj} {i : Nat} {o' : Obj} {j : Nat}
    (h : B.rest E (Succeeds E) t o i o' j) : Quiet E S o i o' j := by
  have ne : ∀ {k q g md}, (k, Sub.obj q g md) ∈ S → ∀ f ∈ looseFields, g ≠ f := fun hm f hf e => hS _ _ _ _ hm (e ▸ hf)
  simp only [irrs, List.mem_cons, List.not_mem_nil, or_false] at hB
  rcases hB with rfl | rfl | rfl | rfl | rfl | rfl | rfl | rfl | rfl | rfl
  · obtain ⟨rfl, rfl⟩ := h
    exact quiet_here fun _ _ _ _ _ => rfl
  · obtain ⟨rfl, rfl⟩ := h
    exact quiet_here fun _ _ _ _ hm => set_other _ _ (ne hm _ (by decide))
  · obtain ⟨rfl, rfl⟩ := h
    exact quiet_here fun _ _ _ _ hm => set_other _ _ (ne hm _ (by decide))
  · obtain ⟨rfl, h⟩ := h
    refine quiet_here fun _ _ _ _ hm => ?_
    split at h
    · rw [h]
    · obtain ⟨v, _, rfl⟩ := h
      split
      · rw [set_other _ _ (ne hm _ (by decide)), set_other _ _ (ne hm _ (by decide))]
      · exact set_other _ _ (ne hm _ (by decide))
  · obtain ⟨rfl, h⟩ := h
    refine quiet_here fun _ _ _ _ hm => ?_
    split at h
    · rw [h]
    · rw [h, set_other _ _ (ne hm _ (by decide)), set_other _ _ (ne hm _ (by decide))]
  · obtain ⟨rfl, rfl⟩ := h
    exact quiet_here fun _ _ _ _ _ => rfl
  · obtain ⟨rfl, rfl⟩ := h
    exact quiet_here fun _ _ _ _ _ => rfl
  · obtain ⟨rfl, rfl⟩ := h
    exact quiet_here fun _ _ _ _ hm => by rw [set_other _ _ (ne hm _ (by decide)), set_other _ _ (ne hm _ (by decide))]
  · simp only [Loose.variantCoding] at h
    split at h
    · obtain ⟨rfl, rfl⟩ := h
      exact quiet_here fun _ _ _ _ _ => rfl
    · obtain ⟨v, hv, rfl⟩ := h
      obtain ⟨o₁, _, _, ht, _⟩ := C32_only_partial hw (p := .parseVarSeparator) (by decide) hv
      obtain ⟨hp, rfl⟩ : Params E i [⟨"separator", "separatorSet", .str⟩] Obj.empty o₁ ∧ j = i + 1 := ht
      cases hp with
      | cons hu _ hk _ _ =>
        exact quiet_next hu (fun q g md hm => hk (hkw rfl _ _ _ _ hm))
          fun _ _ _ _ hm => by rw [set_other _ _ (ne hm _ (by decide)), set_other _ _ (ne hm _ (by decide))]
  · obtain ⟨u, hu, _, rfl, _⟩ := h
    rw [hnil rfl]
    exact quiet_next hu (by simp) (by simp)

theorem close_same {B : Irr} (hB : B ∈ irrs) {g : String} (hg : g ∉ looseFields) (o : Obj) : B.close o g = o g := by
  have ne : ∀ f ∈ looseFields, g ≠ f := fun f hf e => hg (e ▸ hf)
  simp only [irrs, List.mem_cons, List.not_mem_nil, or_false] at hB
  rcases hB with rfl | rfl | rfl | rfl | rfl | rfl | rfl | rfl | rfl | rfl
  · show (if o.flag "addressTypeSet" = true then o else _) g = o g
    split
    · rfl
    · exact set_other _ _ (ne _ (by decide))
  all_goals first
    | rfl
    | exact (set_other _ _ (ne _ (by decide))).trans (set_other _ _ (ne _ (by decide)))

theorem succeeds_le {E : Env} (hw : Wf E) (hmt : MtGood E) {q : PName} (hq : q = .parseModuleMultithreaded → E.multi = true)
    {i j : Nat} {t : Str} {v : Val} (ht : E.toks[i]? = some t) (h : Succeeds E q i j v) : i ≤ j := by
  have hi := (List.getElem?_eq_some_iff.1 ht).1
  by_cases hm : q = .parseModuleMultithreaded
  · subst hm
    obtain ⟨_, n, d, hr⟩ := h
    obtain ⟨i', v', e, h1, h2, _⟩ := hmt (hq rfl) i hi
    have := hr n (d + 1) (by omega) (by omega)
    simp only [run, if_true, h1, PRes.ok.injEq] at this
    omega
  · obtain ⟨b', v', e, _, hr', hle, _⟩ := parse_ok hw hmt q hm i hi
    have := Returns.unique h hr'
    simp only [PRes.ok.injEq] at this
    omega

theorem mem_objParts {multi : Bool} {l : List (Str × XSub)} {k : Str} {q : PName} {g : String} {md : Decl.Mode} :
    (k, Sub.obj q g md) ∈ objParts multi l ↔ (k, XSub.obj q g md) ∈ l ∨
      ((k, XSub.module g) ∈ l ∧ q = (if multi then .parseModuleMultithreaded else .parseModule) ∧ md = .append) := by
  unfold objParts
  rw [List.mem_filterMap]
  constructor
  · rintro ⟨⟨k', x⟩, hx, h⟩
    cases x <;> simp only [Option.some.injEq, Prod.mk.injEq, Sub.obj.injEq, reduceCtorEq] at h
    · obtain ⟨rfl, rfl, rfl, rfl⟩ := h
      exact .inl hx
    · obtain ⟨rfl, rfl, rfl, rfl⟩ := h
      exact .inr ⟨hx, rfl, rfl⟩
  · rintro (h | ⟨h, rfl, rfl⟩)
    · exact ⟨_, h, rfl⟩
    · exact ⟨_, h, rfl⟩

/-- C65 for the irregular blocks: the optional parts that are objects are those of the text, each in its
place. Missing: BIT_OPERATION, FRAME, the tables, the file as a whole, see `PartsRest.lean`. -/
theorem C65_irregular_partial {E : Env} (hw : Wf E) (hmt : MtGood E) {B : Irr} (hB : B ∈ irrs) {i i' : Nat} {r : Obj}
    (h : Returns E B.p i (.ok i' (.obj r) false)) :
    ∃ fs, PartsOf E (Succeeds E) (objParts E.multi B.subs) i (i' - 1) fs ∧
      ∀ k q g md, (k, Sub.obj q g md) ∈ objParts E.multi B.subs → KeptParts fs g r md := by
  obtain ⟨o, ho, n, m, j, o₁, hi, hfin, rfl, hc⟩ := irr_only hw hB h
  cases ho
  have hok := irrPartsOk_all B hB E.multi
  unfold irrPartsOk at hok
  rw [List.all_eq_true] at hok
  have hok' : ∀ k q g md, (k, Sub.obj q g md) ∈ objParts E.multi B.subs → _ := fun k q g md hm => hok _ hm
  simp only [Bool.and_eq_true, List.all_eq_true, decide_eq_true_eq, Bool.not_eq_true', List.contains_eq_mem, decide_eq_false_iff_not] at hok'
  obtain ⟨fs, g1, _, g2⟩ := loose_parts (S := objParts E.multi B.subs)
    (fun p hp k q g md hm => ⟨Ne.symm ((hok' k q g md hm).1.1.1.1 p hp).1, Ne.symm ((hok' k q g md hm).1.1.1.1 p hp).2⟩)
    (fun k q g md hm => by
      rcases mem_objParts.1 hm with h | ⟨h, _⟩
      · exact List.mem_map_of_mem (f := (·.1)) h
      · exact List.mem_map_of_mem (f := (·.1)) h)
    (fun k q g md k' q' md' hm hm' => by
      have := (hok' k q g md hm).1.2 _ hm'
      simpa [eq_comm] using this)
    (fun t o i o' j hr => rest_quiet hw hB (fun k q g md hm => (hok' k q g md hm).1.1.1.2) (fun hB' k q g md hm => by
        have := coding_kw E.multi
        simp only [List.all_eq_true, List.contains_eq_mem, decide_eq_true_eq] at this
        exact this _ (hB' ▸ hm))
      (by rintro rfl; rfl) hr)
    (by
      rintro t o i o' j ht ⟨x, hx, hm⟩
      have ap := fun k q g md hm => (hok' k q g md hm).2 _ hx
      cases x with
      | obj q f md =>
        obtain ⟨v, hv, hk⟩ := hm
        have := (hok' t q f md (mem_objParts.2 (.inl hx))).2 _ hx
        simp only [apart, decide_eq_true_eq] at this
        exact .inl ⟨q, f, md, v, mem_objParts.2 (.inl hx), hv, succeeds_le hw hmt (fun e => absurd e this) ht hv, hk⟩
      | module f =>
        obtain ⟨v, hv, rfl⟩ := hm
        refine .inl ⟨_, f, .append, v, mem_objParts.2 (.inr ⟨hx, rfl, rfl⟩), hv, succeeds_le hw hmt ?_ ht hv, rfl⟩
        cases E.multi <;> simp
      | word f =>
        simp only [apart, Bool.and_eq_true, decide_eq_true_eq] at ap
        obtain ⟨rfl, rfl⟩ := hm
        refine .inr ⟨fun q g md hm => (ap t q g md hm).2 rfl, quiet_here fun k q g md hm => ?_⟩
        exact set_other _ _ (Ne.symm (ap k q g md hm).1)
      | enumNext e f =>
        simp only [apart, Bool.and_eq_true, decide_eq_true_eq, List.all_eq_true] at ap
        obtain ⟨u, v, hu, hd, rfl, rfl⟩ := hm
        refine .inr ⟨fun q g md hm => (ap t q g md hm).1.2 rfl, quiet_next hu (fun q g md hm => ?_) fun k q g md hm => ?_⟩
        · obtain ⟨⟨c, hc⟩, _⟩ := hd
          exact (ap u q g md hm).2 _ hc rfl
        · exact set_other _ _ (Ne.symm (ap k q g md hm).1.1)
      | enumHere e f fl =>
        simp only [apart, Bool.and_eq_true, decide_eq_true_eq] at ap
        obtain ⟨v, _, rfl, rfl⟩ := hm
        refine .inr ⟨fun q g md hm => (ap t q g md hm).2 rfl, quiet_here fun k q g md hm => ?_⟩
        rw [set_other _ _ (Ne.symm (ap k q g md hm).1.2), set_other _ _ (Ne.symm (ap k q g md hm).1.1)])
    hi
  refine ⟨fs, g1, fun k q g md hm => ?_⟩
  have hz := g2 k q g md hm
  simp only at hz
  have hr : r g = o₁ g := by rw [hc]; exact close_same hB (hok' k q g md hm).1.1.1.2 o₁
  cases md with
  | field =>
    show r g = _
    rw [hr, hz, fold_field]
    rfl
  | append =>
    show r.list g = _
    unfold Obj.list
    rw [hr, hz]
    show (match List.foldl _ Val.zero _ with | .list l => l | _ => []) = _
    cases partsFor fs g with
    | nil => rfl
    | cons x l =>
      rw [List.foldl_cons, show keep .append .zero x.val = .list [x.val] from rfl, fold_append]
      rfl
  | byName key => exact absurd (hok' k q g _ hm).1.1.2 (by simp)

def codingToks : List Str := [(str! "/begin VARIANT_CODING"), (str! "VAR_NAMING"), (str! "NUMERIC"), (str! "/begin VAR_CRITERION"),
  (str! "Car"), (str! "\"text\""), (str! "Limousine"), (str! "Kombi"), (str! "/end VAR_CRITERION"), (str! "VAR_SEPARATOR"), (str! "\".\""),
  (str! "/begin VAR_CRITERION"), (str! "Gear"), (str! "\"text\""), (str! "Manual"), (str! "/end VAR_CRITERION"), (str! "/end VARIANT_CODING")]

/-- The names of the criteria that the parser kept. -/
def criteria : List Str :=
  match parse (mkEnv codingToks) .parseVariantCoding 0 with
  | .ok _ (.obj o) false => (Obj.list o "varCriterion").map (·.strField "name")
  | _ => []

/-- The hypotheses are met by a VARIANT_CODING with the naming, two criteria and the separator between them. -/
example : (∃ o fs, Returns (mkEnv codingToks) .parseVariantCoding 0 (.ok 16 (.obj o) false) ∧
      PartsOf (mkEnv codingToks) (Succeeds (mkEnv codingToks)) (objParts false Loose.variantCoding.subs) 0 15 fs ∧
      Obj.list o "varCriterion" = (partsFor fs "varCriterion").map (·.val)) ∧
    criteria = [(str! "Car"), (str! "Gear")] := by
  refine ⟨?_, by decide +kernel⟩
  have hg : got (mkEnv codingToks) .parseVariantCoding 0 "name" = some (16, false, none, none) := by decide +kernel
  obtain ⟨o, h1, _⟩ := got_spec hg
  have hw : Wf (mkEnv codingToks) := mkEnv_wf (by decide)
  obtain ⟨fs, h2, h3⟩ := C65_irregular_partial hw (mkEnv_mt _) (B := Loose.variantCoding) (by simp [irrs]) h1
  exact ⟨o, fs, h1, h2, h3 (str! "/begin VAR_CRITERION") .parseVarCriterion _ .append (mem_objParts.2 (.inl (by simp [Loose.variantCoding])))⟩

end Verif.A2l.Props
