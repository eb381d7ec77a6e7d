import Verif.A2l.Marks
import Verif.A2l.KwProps
import Verif.A2l.Module

/-!
The optional parts of a block: which ones there are, and what the object keeps of them: of a
single part the last one, of a list all in their order, of a map the last one under each name.
-/

namespace Verif.A2l.Decl
open Verif.Go Verif.A2l Lang

/-- An optional part found in a block: its first token `key` at position `pos`, the parse function
that read it, the field it belongs to and how it is kept, its last token at position `stop`, its value. -/
structure Part where
  key : Str
  q : PName
  field : String
  mode : Mode
  pos : Nat
  stop : Nat
  val : Val

/-- `fs` are the parts of a block between the positions `i` and `j` that has the optional parts `subs`: each
begins with its keyword and was read there, they do not overlap, and there is no further keyword
of a part outside of them. -/
structure PartsOf (E : Env) (R : PName → Nat → Nat → Val → Prop) (subs : List (Str × Sub)) (i j : Nat)
    (fs : List Part) : Prop where
  tok : ∀ f ∈ fs, E.toks[f.pos]? = some f.key
  decl : ∀ f ∈ fs, (f.key, Sub.obj f.q f.field f.mode) ∈ subs
  read : ∀ f ∈ fs, R f.q f.pos f.stop f.val
  within : ∀ f ∈ fs, i < f.pos ∧ f.pos ≤ f.stop ∧ f.stop ≤ j
  order : fs.Pairwise (fun f g => f.stop < g.pos)
  all : ∀ z k q g md, i < z → z ≤ j → E.toks[z]? = some k → (k, Sub.obj q g md) ∈ subs →
    ∃ f ∈ fs, f.pos ≤ z ∧ z ≤ f.stop

/-- The parts that belong to a field. -/
def partsFor (fs : List Part) (g : String) : List Part := fs.filter (·.field = g)

/-- What a field keeps of the parts that belong to it. -/
def KeptParts (fs : List Part) (g : String) (r : Obj) : Mode → Prop
  | .field => r g = (((partsFor fs g).getLast?).map (·.val)).getD .zero
  | .append => r.list g = (partsFor fs g).map (·.val)
  | .byName key => ∀ name, r.map g name = (((partsFor fs g).filter (·.val.strField key = name)).getLast?).map (·.val)

end Verif.A2l.Decl

namespace Verif.A2l.Props
open Verif.Go Verif.A2l Lang Decl Analysis Template

/-- Keeping one more part. -/
def keep : Decl.Mode → Val → Val → Val
  | .field, _, v => v
  | .append, .list l, v => .list (l ++ [v])
  | .append, _, v => .list [v]
  | .byName key, .map m, v => .map fun k => if k = v.strField key then some v else m k
  | .byName _, old, _ => old

/-- The field `g` of the block keeps parts in the way `md`, and nothing else. -/
def keepsOnly (ps : List Param) (rest : Rest) (subs : List (Str × Sub)) (g : String) (md : Decl.Mode) : Bool :=
  !(ps.map (·.field)).contains g && !(restFields rest).contains g &&
    subs.all (fun y => match y.2 with | .obj _ f m => f ≠ g || m = md | .enum _ f => f ≠ g)

/-- Enumeration constants and keywords of enumerations are no keywords of parts. -/
def enumsApart (subs : List (Str × Sub)) : Bool :=
  subs.all fun y => match y.2 with
    | .obj _ _ _ => true
    | .enum e _ => (y.1 :: e.table.map (·.1)).all fun t => subs.all fun w => match w.2 with
        | .obj _ _ _ => w.1 ≠ t
        | .enum _ _ => true

theorem keeps_keep {o o' : Obj} {f : String} {md : Decl.Mode} {v : Val} (h : Keeps o f md v o') : o' f = keep md (o f) v := by
  cases md with
  | field => cases h; exact set_same _ _ _
  | append =>
    cases h
    rw [set_same]
    unfold Obj.list keep
    cases o f <;> rfl
  | byName key =>
    obtain ⟨mp, h1, rfl⟩ := h
    rw [set_same, h1]
    rfl

theorem keeps_other {o o' : Obj} {f g : String} {md : Decl.Mode} {v : Val} (h : Keeps o f md v o') (hg : g ≠ f) : o' g = o g := by
  cases md with
  | field => cases h; exact set_other _ _ hg
  | append => cases h; exact set_other _ _ hg
  | byName key => obtain ⟨mp, _, rfl⟩ := h; exact set_other _ _ hg

theorem items_parts {E : Env} {R : PName → Nat → Nat → Val → Prop} {raw : Bool} {fin : Str} {ps : List Param}
    {rest : Rest} {subs : List (Str × Sub)} {n : Nat} {x z : Decl.Pos} (hi : Items E R raw fin ps rest subs n x z)
    (ha : enumsApart subs = true)
    (hR : ∀ k q f m i j v, (k, Sub.obj q f m) ∈ subs → E.toks[i]? = some k → R q i j v → i ≤ j) :
    ∃ fs, PartsOf E R subs x.i z.i fs ∧ x.i ≤ z.i ∧
      ∀ g md, keepsOnly ps rest subs g md = true → z.o g = (partsFor fs g).foldl (fun a f => keep md a f.val) (x.o g) := by
  induction hi with
  | nil => exact ⟨[], ⟨by simp, by simp, by simp, by simp, .nil, fun z _ _ _ _ h1 h2 => by omega⟩, Nat.le_refl _, fun _ _ _ => rfl⟩
  | @cons n x y z hit hs ih =>
    obtain ⟨fs, h1, h4, h5⟩ := ih
    -- items that are no parts
    have plain : x.i ≤ y.i → (∀ g md, keepsOnly ps rest subs g md = true → y.o g = x.o g) →
        (∀ z k q g md, x.i < z → z ≤ y.i → E.toks[z]? = some k → (k, Sub.obj q g md) ∈ subs → False) →
        ∃ fs, PartsOf E R subs x.i z.i fs ∧ x.i ≤ z.i ∧ ∀ g md, keepsOnly ps rest subs g md = true →
          z.o g = (partsFor fs g).foldl (fun a f => keep md a f.val) (x.o g) := by
      intro hxy ho hno
      refine ⟨fs, ⟨h1.tok, h1.decl, h1.read, fun f hf => ?_, h1.order, fun w k q g md w1 w2 w3 w4 => ?_⟩, by omega,
        fun g md hg => ?_⟩
      · have := h1.within f hf; omega
      · by_cases hw : w ≤ y.i
        · exact (hno w k q g md w1 hw w3 w4).elim
        · exact h1.all w k q g md (by omega) w2 w3 w4
      · rw [h5 g md hg, ho g md hg]
    -- a word is no keyword of a part
    have word : ∀ {i : Nat} {t : Str}, TokAfter E i t → Plain raw fin subs t →
        ∀ z k q g md, i < z → z ≤ i + 1 → E.toks[z]? = some k → (k, Sub.obj q g md) ∈ subs → False := by
      intro i t ht hpl z k q g md z1 z2 z3 z4
      obtain rfl : z = i + 1 := by omega
      unfold TokAfter at ht
      rw [ht] at z3
      cases z3
      exact hpl.2.2.1 (List.mem_map.2 ⟨_, z4, rfl⟩)
    cases hit with
    | @param m o i t v p a b c d =>
      refine plain (by simp) (fun g md hg => ?_) (word b c)
      simp only [keepsOnly, Bool.and_eq_true, Bool.not_eq_true', List.contains_eq_mem, decide_eq_false_iff_not] at hg
      exact set_other _ _ (fun hh => hg.1.1 (hh ▸ List.mem_map.2 ⟨p, param_mem a, rfl⟩))
    | @member m o i t v f fl k a b c d e =>
      refine plain (by simp) (fun g md hg => ?_) (word c d)
      subst b
      simp only [keepsOnly, Bool.and_eq_true, Bool.not_eq_true', List.contains_eq_mem, decide_eq_false_iff_not] at hg
      exact set_other _ _ (fun hh => hg.1.2 (by rw [hh]; simp [restFields]))
    | @word m o i t f fl a b c d =>
      refine plain (by simp) (fun g md hg => ?_) (word c d)
      subst b
      simp only [keepsOnly, Bool.and_eq_true, Bool.not_eq_true', List.contains_eq_mem, decide_eq_false_iff_not] at hg
      exact set_other _ _ (fun hh => hg.1.2 (by rw [hh]; simp [restFields]))
    | surplus a b c d => exact plain (by simp) (fun _ _ _ => rfl) (word c d)
    | @enum m o i k e f t c a b c' d =>
      refine plain (by show i ≤ (if _ then i + 2 else i + 1); split <;> simp) (fun g md hg => ?_) ?_
      · simp only [keepsOnly, Bool.and_eq_true, List.all_eq_true] at hg
        have := hg.2 _ a
        simp only [decide_eq_true_eq] at this
        exact set_other _ _ (fun hh => this hh.symm)
      · intro w k' q g md w1 w2 w3 w4
        unfold enumsApart at ha
        have := List.all_eq_true.1 ha _ a
        simp only [List.all_eq_true] at this
        have hk := this k (List.mem_cons_self ..) _ w4
        have ht := this t (List.mem_cons_of_mem _ (List.mem_map.2 ⟨_, d, rfl⟩)) _ w4
        simp only [decide_eq_true_eq] at hk ht
        simp only at w1 w2
        unfold TokAfter at b c'
        by_cases hw : w = i + 1
        · subst hw
          rw [b] at w3
          cases w3
          exact hk rfl
        · split at w2
          · rename_i hu
            rw [if_pos hu] at c'
            obtain rfl : w = i + 2 := by omega
            rw [c'] at w3
            cases w3
            exact ht rfl
          · omega
    | @sub m o o' i j k q f md v a b c d =>
      have hij : i + 1 ≤ j := hR _ _ _ _ _ _ _ a b c
      simp only at h1 h4 h5 ⊢
      refine ⟨⟨k, q, f, md, i + 1, j, v⟩ :: fs, ⟨?_, ?_, ?_, ?_, ?_, ?_⟩, by omega, ?_⟩
      · intro g hg
        rcases List.mem_cons.1 hg with rfl | hg
        · exact b
        · exact h1.tok g hg
      · intro g hg
        rcases List.mem_cons.1 hg with rfl | hg
        · exact a
        · exact h1.decl g hg
      · intro g hg
        rcases List.mem_cons.1 hg with rfl | hg
        · exact c
        · exact h1.read g hg
      · intro g hg
        rcases List.mem_cons.1 hg with rfl | hg
        · exact ⟨Nat.lt_succ_self _, hij, h4⟩
        · have := h1.within g hg
          omega
      · exact List.pairwise_cons.2 ⟨fun g hg => (h1.within g hg).1, h1.order⟩
      · intro w k' q' g' md' w1 w2 w3 w4
        by_cases hw : w ≤ j
        · exact ⟨_, List.mem_cons_self .., w1, hw⟩
        · obtain ⟨f', hf', h⟩ := h1.all w k' q' g' md' (by omega) w2 w3 w4
          exact ⟨f', List.mem_cons_of_mem _ hf', h⟩
      · intro g md' hg
        rw [h5 g md' hg]
        simp only [keepsOnly, Bool.and_eq_true, List.all_eq_true] at hg
        have hk := hg.2 _ a
        simp only [Bool.or_eq_true, decide_eq_true_eq] at hk
        unfold partsFor
        by_cases hfg : f = g
        · subst hfg
          have hmd : md = md' := hk.resolve_left (fun h => h rfl)
          subst hmd
          rw [List.filter_cons, if_pos (by simp), List.foldl_cons, keeps_keep d]
        · rw [List.filter_cons, if_neg (by simpa using hfg), keeps_other d (Ne.symm hfg)]

theorem fold_field (l : List Part) (v : Val) : l.foldl (fun a f => keep .field a f.val) v =
    ((l.getLast?).map (·.val)).getD v := by
  induction l generalizing v with
  | nil => rfl
  | cons x l ih =>
    rw [List.foldl_cons, ih, List.getLast?_cons]
    cases l.getLast? <;> rfl

theorem fold_append (l : List Part) (w : List Val) : l.foldl (fun a f => keep .append a f.val) (.list w) =
    .list (w ++ l.map (·.val)) := by
  induction l generalizing w with
  | nil => simp
  | cons x l ih =>
    rw [List.foldl_cons, show keep .append (.list w) x.val = .list (w ++ [x.val]) from rfl, ih]
    simp

theorem fold_byName (key : String) (l : List Part) (m : Str → Option Val) :
    l.foldl (fun a f => keep (.byName key) a f.val) (.map m) =
    .map fun name => (((l.filter (·.val.strField key = name)).getLast?).map (·.val)).or (m name) := by
  induction l generalizing m with
  | nil => simp
  | cons x l ih =>
    rw [List.foldl_cons, show keep (.byName key) (.map m) x.val =
      .map (fun k => if k = x.val.strField key then some x.val else m k) from rfl, ih]
    congr 1
    funext name
    by_cases hn : x.val.strField key = name
    · rw [List.filter_cons_of_pos (by simpa using hn), List.getLast?_cons, if_pos hn.symm]
      cases (l.filter (·.val.strField key = name)).getLast? <;> simp
    · rw [List.filter_cons_of_neg (by simpa using hn), if_neg (fun h => hn h.symm)]

/-- What the parts of a regular block have to satisfy. -/
def partsOk : Shape → Bool
  | .block _ ps rest subs maps => enumsApart subs && subs.all fun y => match y.2 with
      | .obj q g md => q ≠ .parseModuleMultithreaded && keepsOnly ps rest subs g md && !(Decl.flags ps rest).contains g &&
          (match md with | .byName _ => maps.contains g | _ => !maps.contains g)
      | .enum _ _ => true
  | _ => true

theorem partsOk_all (p : PName) (hp : p ∉ irregular) : partsOk (shape p) = true := by
  cases p <;> first | exact absurd (by decide) hp | decide +kernel

/-- C65: an accepted block has parts, which are those of the text; a field for a single part has the value of the
last one, a list has the values of all in the order of the text, a map has under every name the last
one with that name. Missing: the functions in `irregular`. -/
theorem C65_parts_partial {E : Env} (hw : Wf E) (hmt : MtGood E) {p : PName} (hp : p ∉ irregular) {i i' : Nat}
    {r : Obj} (h : Returns E p i (.ok i' (.obj r) false)) :
    ∃ fs, PartsOf E (Succeeds E) (Shape.subs (shape p)) i (i' - 1) fs ∧
      ∀ k q g md, (k, Sub.obj q g md) ∈ Shape.subs (shape p) → KeptParts fs g r md := by
  obtain ⟨r', o, m, hr, h1, h2, _, _, _⟩ := C64_marks_partial hw hp h
  cases hr
  have hok := partsOk_all p hp
  have none : ∃ fs, PartsOf E (Succeeds E) [] i (i' - 1) fs ∧
      ∀ k q g md, (k, Sub.obj q g md) ∈ ([] : List (Str × Sub)) → KeptParts fs g r md :=
    ⟨[], ⟨by simp, by simp, by simp, by simp, .nil, by simp⟩, by simp⟩
  revert h1 h2 hok
  cases shape p with
  | keyword f fl => exact fun _ _ _ => none
  | one q => exact fun _ _ _ => none
  | seq ps => exact fun _ _ _ => none
  | other => exact fun _ _ _ => none
  | block raw ps rest subs maps =>
    rintro ⟨n, j, h1, h3, rfl⟩ h2 hok
    simp only [partsOk, Bool.and_eq_true, List.all_eq_true] at hok
    obtain ⟨hap, hok⟩ := hok
    obtain ⟨fs, g1, _, g2⟩ := items_parts h1 hap (by
      intro k q f md a b v hm ht hR
      have := hok _ hm
      simp only [Bool.and_eq_true, decide_eq_true_eq] at this
      obtain ⟨b', v', e, _, hr', hle, _⟩ := parse_ok hw hmt q this.1.1.1 a (List.getElem?_eq_some_iff.1 ht).1
      have := Returns.unique hR hr'
      simp only [PRes.ok.injEq] at this
      omega)
    refine ⟨fs, g1, fun k q g md hm => ?_⟩
    have hk := hok _ hm
    simp only [Bool.and_eq_true, Bool.not_eq_true', List.contains_eq_mem, decide_eq_false_iff_not] at hk
    have hz := g2 g md hk.1.1.2
    simp only at hz
    have hr : r g = o g := h2 g hk.1.2
    cases md with
    | field =>
      simp only [Bool.not_eq_true', decide_eq_false_iff_not] at hk
      have hst : start maps g = .zero := if_neg hk.2
      show r g = _
      rw [hr, hz, fold_field, hst]
    | append =>
      simp only [Bool.not_eq_true', decide_eq_false_iff_not] at hk
      have hst : start maps g = .zero := if_neg hk.2
      show r.list g = _
      unfold Obj.list
      rw [hr, hz]
      simp only [hst]
      cases partsFor fs g with
      | nil => rfl
      | cons x l =>
        rw [List.foldl_cons, show keep .append .zero x.val = .list [x.val] from rfl, fold_append]
        rfl
    | byName key =>
      simp only [decide_eq_true_eq] at hk
      have hst : start maps g = .map fun _ => Option.none := if_pos hk.2
      intro name
      unfold Obj.map
      rw [hr, hz]
      simp only [hst, fold_byName, Option.or_none]

def parToks : List Str := [(str! "/begin MOD_PAR"), (str! "\"text\""), (str! "SYSTEM_CONSTANT"), (str! "A"), (str! "1"),
  (str! "ADDR_EPK"), (str! "16"), (str! "SYSTEM_CONSTANT"), (str! "A"), (str! "2"), (str! "SYSTEM_CONSTANT"), (str! "B"),
  (str! "3"), (str! "ADDR_EPK"), (str! "32"), (str! "/end MOD_PAR")]

/-- What the parser kept of the constant with the given name. -/
def constOf (name : Str) : Option Str :=
  match parse (mkEnv parToks) .parseModPar 0 with
  | .ok _ (.obj o) false => (Obj.map o "SystemConstants" name).map (·.strField "Value")
  | _ => none

/-- The hypotheses are met by a MOD_PAR with five parts: two constants `A`, of which the second is kept, a
constant `B` and two addresses. -/
example : (∃ o fs, Returns (mkEnv parToks) .parseModPar 0 (.ok 15 (.obj o) false) ∧
      PartsOf (mkEnv parToks) (Succeeds (mkEnv parToks)) (Shape.subs (shape .parseModPar)) 0 14 fs ∧
      Obj.list o "addrEpk" = (partsFor fs "addrEpk").map (·.val)) ∧
    constOf (str! "A") = some (str! "2") ∧ constOf (str! "B") = some (str! "3") ∧ constOf (str! "C") = none := by
  refine ⟨?_, by decide +kernel, by decide +kernel, by decide +kernel⟩
  have hg : got (mkEnv parToks) .parseModPar 0 "comment" = some (15, false, some (str! "\"text\""), none) := by decide +kernel
  obtain ⟨o, h1, _⟩ := got_spec hg
  have hw : Wf (mkEnv parToks) := mkEnv_wf (by decide)
  obtain ⟨fs, h2, h3⟩ := C65_parts_partial hw (mkEnv_mt _) (by decide) h1
  exact ⟨o, fs, h1, h2, h3 (str! "ADDR_EPK") .parseAddrEpk _ .append (by decide)⟩

end Verif.A2l.Props
