import Verif.A2l.Loose
import Verif.A2l.TabProps

/-!
The irregular blocks: what each of them really consists of.
-/

namespace Verif.A2l.Loose
open Verif.Go Verif.A2l Lang Decl Analysis Template

/-! ### Optional parts in the common form -/

/-- An optional part of the list `S` in the common form. -/
def stdSub (S : List (Str × Sub)) (R : Calls) (t : Str) (o : Obj) (i : Nat) (o' : Obj) (j : Nat) : Prop :=
  ∃ q f md v, (t, Sub.obj q f md) ∈ S ∧ R q i j v ∧ Keeps o f md v o'

/-- Only sub-objects that are kept in a field or a list. -/
def simpleSub : Sub → Bool
  | .obj _ _ .field => true
  | .obj _ _ .append => true
  | _ => false

abbrev stdCode (S : List (Str × Sub)) : List (Str × List Stmt) := S.map fun x => (x.1, subStmt x.2)

theorem castVal_same (v : Val) : castVal .same v = v := by cases v <;> rfl

theorem std_fwd {E : Env} {K : PName → Nat → PRes} {n : Nat} {S : List (Str × Sub)} (hs : ∀ x ∈ S, simpleSub x.2 = true)
    (hn : (S.map (·.1)).Nodup) {s : St} {o' : Obj} {j : Nat} {st : List Stmt} {t : Str}
    (hl : (stdCode S).lookup t = some st) (h : stdSub S (Suc K) t s.obj s.idx o' j) :
    ∃ s', exec E K n (blk st) s = .ok s' .cont ∧ s'.err = false ∧ s'.obj = o' ∧ s'.idx = j := by
  obtain ⟨q, f, md, v, h1, h2, h3⟩ := h
  rw [lookup_map, lookup_of_mem hn h1] at hl
  simp only [Option.map_some, Option.some.injEq] at hl
  subst hl
  unfold Suc at h2
  cases md with
  | field =>
    cases h3
    refine ⟨{ s with idx := j, obj := s.obj.set f v, err := false }, ?_, rfl, rfl, rfl⟩
    simp only [subStmt, exec_blk_cons, exec, h2, ifErr, holds, Bool.false_eq_true, if_false, exec_blk_nil]
  | append =>
    cases h3
    refine ⟨{ s with idx := j, buf := v, err := false, obj := s.obj.set f (.list (s.obj.list f ++ [v])) }, ?_, rfl, rfl, rfl⟩
    simp only [subStmt, exec_blk_cons, exec, h2, ifErr, holds, Bool.false_eq_true, if_false, exec_blk_nil, castVal_same]
  | byName key => simpa [simpleSub] using hs _ h1

theorem std_back {E : Env} {K : PName → Nat → PRes} {n : Nat} {S : List (Str × Sub)} (hs : ∀ x ∈ S, simpleSub x.2 = true)
    {s s' : St} {c : Ctl} {st : List Stmt} {t : Str} (hl : (stdCode S).lookup t = some st)
    (h : exec E K n (blk st) s = .ok s' c) :
    (c = .cont → s'.err = false ∧ stdSub S (Suc K) t s.obj s.idx s'.obj s'.idx) ∧ (c = .brk → s'.err = true) := by
  rw [lookup_map] at hl
  cases hl' : S.lookup t with
  | none => rw [hl'] at hl; cases hl
  | some sb =>
    rw [hl'] at hl
    simp only [Option.map_some, Option.some.injEq] at hl
    subst hl
    have hm := lookup_isSome hl'
    have hsb := hs _ hm
    match sb, hm, hsb with
    | .obj q f .field, hm, _ =>
      cases hK : K q s.idx with
      | panic => simp [subStmt, exec_blk_cons, exec, hK] at h
      | timeout => simp [subStmt, exec_blk_cons, exec, hK] at h
      | ok i v e =>
        simp only [subStmt, exec_blk_cons, exec, hK, ifErr, holds, exec_blk_nil] at h
        cases e with
        | true =>
          simp only [if_true, exec_blk_cons, exec, Out.ok.injEq] at h
          obtain ⟨rfl, rfl⟩ := h
          exact ⟨fun h => (by cases h), fun _ => rfl⟩
        | false =>
          simp only [Bool.false_eq_true, if_false, Out.ok.injEq] at h
          obtain ⟨rfl, rfl⟩ := h
          exact ⟨fun _ => ⟨rfl, q, f, .field, v, hm, hK, rfl⟩, fun h => by cases h⟩
    | .obj q f .append, hm, _ =>
      cases hK : K q s.idx with
      | panic => simp [subStmt, exec_blk_cons, exec, hK] at h
      | timeout => simp [subStmt, exec_blk_cons, exec, hK] at h
      | ok i v e =>
        simp only [subStmt, exec_blk_cons, exec, hK, ifErr, holds, exec_blk_nil] at h
        cases e with
        | true =>
          simp only [if_true, exec_blk_cons, exec, Out.ok.injEq] at h
          obtain ⟨rfl, rfl⟩ := h
          exact ⟨fun h => (by cases h), fun _ => rfl⟩
        | false =>
          simp only [Bool.false_eq_true, if_false, Out.ok.injEq] at h
          obtain ⟨rfl, rfl⟩ := h
          exact ⟨fun _ => ⟨rfl, q, f, .append, v, hm, hK, by rw [castVal_same]; rfl⟩, fun h => by cases h⟩

theorem std_bound {E : Env} {S : List (Str × Sub)} {t : Str} {o o' : Obj} {i j : Nat}
    (h : stdSub S (Succeeds E) t o i o' j) :
    ∃ n₀ d₀, ∀ n d, n₀ ≤ n → d₀ ≤ d → stdSub S (Suc (run E n d)) t o i o' j := by
  obtain ⟨q, f, md, v, h1, ⟨_, n0, d0, h2⟩, h3⟩ := h
  exact ⟨n0, d0, fun n d hn hd => ⟨q, f, md, v, h1, h2 n d hn hd, h3⟩⟩

theorem std_mono {S : List (Str × Sub)} {R R' : Calls} (h : ∀ q i j v, R q i j v → R' q i j v) {t : Str} {o o' : Obj} {i j : Nat}
    (hs : stdSub S R t o i o' j) : stdSub S R' t o i o' j := by
  obtain ⟨q, f, md, v, h1, h2, h3⟩ := hs
  exact ⟨q, f, md, v, h1, h _ _ _ _ h2, h3⟩

/-- A simple sub-object changes its own field only. -/
theorem std_other {S : List (Str × Sub)} (hs : ∀ x ∈ S, simpleSub x.2 = true) {R : Calls} {t : Str} {o o' : Obj} {i j : Nat}
    (h : stdSub S R t o i o' j) {g : String} (hg : g ∉ S.map (fun x => subField x.2)) : o' g = o g := by
  obtain ⟨q, f, md, v, h1, _, h3⟩ := h
  have hgf : g ≠ f := fun hh => hg (List.mem_map.2 ⟨_, h1, hh.symm⟩)
  cases md with
  | field => cases h3; exact set_other _ _ hgf
  | append => cases h3; exact set_other _ _ hgf
  | byName key => simpa [simpleSub] using hs _ h1

/-- The fields `U` are never set. -/
def Unset (U : List String) (o : Obj) : Prop := ∀ f ∈ U, o.flag f = false

/-- What is to be checked of the tables for a block with simple optional parts `S`, parameters
`ps` and markers `U` that stay unset. -/
structure TableOk (fin : Str) (ps : List Param) (S : List (Str × Sub)) (U : List String) : Prop where
  nodup : (ps.map (·.flag)).Nodup
  kinds : ∀ p ∈ ps, kindOk p.kind = true
  fields : ∀ p ∈ ps, p.field ∉ ps.map (·.flag) ++ U
  flags : ∀ p ∈ ps, p.flag ∉ U
  simple : ∀ x ∈ S, simpleSub x.2 = true
  subFields : ∀ x ∈ S, subField x.2 ∉ ps.map (·.flag) ++ U
  keys : (S.map (·.1)).Nodup
  keyNe : ∀ x ∈ S, x.1 ≠ [] ∧ x.1 ≠ fin
  finNe : fin ≠ []

instance (fin : Str) (ps : List Param) (S : List (Str × Sub)) (U : List String) : Decidable (TableOk fin ps S U) :=
  decidable_of_iff ((ps.map (·.flag)).Nodup ∧ (∀ p ∈ ps, kindOk p.kind = true) ∧ (∀ p ∈ ps, p.field ∉ ps.map (·.flag) ++ U) ∧
    (∀ p ∈ ps, p.flag ∉ U) ∧ (∀ x ∈ S, simpleSub x.2 = true) ∧ (∀ x ∈ S, subField x.2 ∉ ps.map (·.flag) ++ U) ∧
    (S.map (·.1)).Nodup ∧ (∀ x ∈ S, x.1 ≠ [] ∧ x.1 ≠ fin) ∧ fin ≠ [])
    ⟨fun ⟨a, b, c, d, e, f, g, h, i⟩ => ⟨a, b, c, d, e, f, g, h, i⟩, fun ⟨a, b, c, d, e, f, g, h, i⟩ => ⟨a, b, c, d, e, f, g, h, i⟩⟩

theorem flag_congr {o o' : Obj} {f : String} (h : o' f = o f) : o'.flag f = o.flag f := by simp [Obj.flag, h]

/-- `Follows` for a block with simple optional parts. -/
theorem follows_std {E : Env} {fin : Str} {ps : List Param} {S : List (Str × Sub)} {U : List String}
    {tail : List (Cond × List Stmt)} {onFin : List Stmt} {rest : Calls → Str → Obj → Nat → Obj → Nat → Prop} {close : Obj → Obj}
    (T : TableOk fin ps S U)
    (restKeep : ∀ R t o i o' j, rest R t o i o' j → ∀ f ∈ ps.map (·.flag) ++ U, o'.flag f = o.flag f)
    (restFwd : ∀ K n s o' j, s.err = false → Unset U s.obj → s.ret = E.current s.idx → E.current s.idx ≠ [] →
      E.current s.idx ∉ keywords → rest (Suc K) (E.current s.idx) s.obj s.idx o' j →
      ∃ s', exec E K n (blk (chain tail)) s = .ok s' .cont ∧ s'.err = false ∧ s'.obj = o' ∧ s'.idx = j)
    (restBack : ∀ K n s s' c, s.err = false → Unset U s.obj → s.ret = E.current s.idx → E.current s.idx ≠ [] →
      E.current s.idx ∉ keywords → exec E K n (blk (chain tail)) s = .ok s' c →
      (c = .cont → s'.err = false ∧ rest (Suc K) (E.current s.idx) s.obj s.idx s'.obj s'.idx) ∧ (c = .brk → s'.err = true))
    (closing : ∀ K n s, ∃ s', exec E K n (blk onFin) s = .ok s' .brk ∧ s'.err = s.err ∧ s'.obj = close s.obj ∧ s'.idx = s.idx)
    (bound : ∀ t o i o' j, rest (Succeeds E) t o i o' j →
      ∃ n₀ d₀, ∀ n d, n₀ ≤ n → d₀ ≤ d → rest (Suc (run E n d)) t o i o' j)
    (mono : ∀ (R R' : Calls), (∀ q i j v, R q i j v → R' q i j v) → ∀ t o i o' j, rest R t o i o' j → rest R' t o i o' j) :
    Follows E fin ⟨ps, S.map (·.1), rest, stdSub S, close⟩ (Unset U) tail onFin (stdCode S) where
  nodup := T.nodup
  kinds := T.kinds
  fields := fun p hp hh => T.fields p hp (List.mem_append_left _ hh)
  keys := by simp [List.map_map, Function.comp_def]
  keyNe := by
    intro k hk
    obtain ⟨x, hx, rfl⟩ := List.mem_map.1 hk
    exact T.keyNe x hx
  finNe := T.finNe
  start := fun f _ => by simp [Obj.flag, Obj.empty]
  param := by
    intro o v p hp hG f hf
    have h1 : f ≠ p.flag := fun hh => T.flags p hp (hh ▸ hf)
    have h2 : f ≠ p.field := fun hh => T.fields p hp (List.mem_append_right _ (hh ▸ hf))
    rw [flag_other _ _ h1, flag_other _ _ h2]
    exact hG f hf
  restKeep := by
    intro R t o i o' j h hG _
    have := restKeep R t o i o' j h
    exact ⟨fun f hf => by rw [this f (List.mem_append_right _ hf)]; exact hG f hf,
      fun p hp => this p.flag (List.mem_append_left _ (List.mem_map.2 ⟨p, hp, rfl⟩))⟩
  subKeep := by
    intro R t o i o' j h hG
    have key : ∀ f ∈ ps.map (·.flag) ++ U, o'.flag f = o.flag f := fun f hf =>
      flag_congr (std_other T.simple h (fun hh => by
        obtain ⟨x, hx, he⟩ := List.mem_map.1 hh
        exact T.subFields x hx (he ▸ hf)))
    exact ⟨fun f hf => by rw [key f (List.mem_append_right _ hf)]; exact hG f hf,
      fun p hp => key p.flag (List.mem_append_left _ (List.mem_map.2 ⟨p, hp, rfl⟩))⟩
  restFwd := restFwd
  restBack := restBack
  subFwd := fun K n s o' j st _ _ _ _ hl h => std_fwd T.simple T.keys hl h
  subBack := fun K n s s' c st _ _ _ _ hl h => std_back T.simple hl h
  closing := closing
  bound := bound
  boundSub := fun t o i o' j h => std_bound h
  mono := mono
  monoSub := fun R R' h t o i o' j hs => std_mono h hs

/-! ### COMPU_TAB, COMPU_VTAB, COMPU_VTAB_RANGE -/

/-- A value of a row is appended to its column `f`; the marker `fl` is set when the column has
the declared number of values. -/
def cell (o : Obj) (f fl num : String) (v : Val) : Obj :=
  let o' := o.set f (.list (o.list f ++ [v]))
  if (((o.list f).length + 1) % 65536 : Nat) = o.int num then o'.set fl (.bool true) else o'

/-- A column of a table: field, marker "complete", kind. -/
structure Col where
  field : String
  flag : String
  kind : Kind

/-- The values of a row are appended to their columns. -/
def rowObj (num : String) : Obj → List Col → List Val → Obj
  | o, c :: cs, v :: vs => rowObj num (cell o c.field c.flag num v) cs vs
  | o, _, _ => o

/-- The values `vs` written as the tokens `ts`, in the kinds `ks`. -/
inductive Written (E : Env) : List Kind → List Str → List Val → Prop
  | nil : Written E [] [] []
  | cons {k ks t ts v vs} (h : Denotes E k t v) (hs : Written E ks ts vs) : Written E (k :: ks) (t :: ts) (v :: vs)

/-- A table: its parameters, its optional parts, its columns, and the parameter with the number of rows. -/
structure Table where
  p : PName
  fin : Str
  ps : List Param
  subs : List (Str × Sub)
  cols : List Col
  num : String

/-- After the parameters of a table: rows with one token for each column, as long as a column is not complete;
further words are ignored. -/
def Table.spec (T : Table) (E : Env) : Spec where
  ps := T.ps
  keys := T.subs.map (·.1)
  rest := fun _ t o i o' j =>
    if ∀ c ∈ T.cols, o.flag c.flag = true then o' = o ∧ j = i
    else ∃ us vs, Props.Words E i us ∧ Written E (T.cols.map (·.kind)) (t :: us) vs ∧ j = i + us.length ∧
      o' = rowObj T.num o T.cols vs
  sub := stdSub T.subs
  close := id

/-- COMPU_TAB, a2l/compu_tab.go:27-111: name, long identifier, conversion type, number of value pairs; rows of two numbers. -/
def compuTab : Table where
  p := .parseCompuTab
  fin := (str! "/end COMPU_TAB")
  ps := [⟨"Name", "NameSet", .str⟩, ⟨"longIdentifier", "longIdentifierSet", .str⟩,
    ⟨"ConversionType", "ConversionTypeSet", .enum parseConversionTypeEnum⟩, ⟨"NumberValuePairs", "NumberValuePairsSet", .uint 16⟩]
  subs := [((str! "DEFAULT_VALUE"), .obj .parseDefaultValue "DefaultValue" .field),
    ((str! "DEFAULT_VALUE_NUMERIC"), .obj .parseDefaultValueNumeric "DefaultValueNumeric" .field)]
  cols := [⟨"InVal", "InValSet", .float⟩, ⟨"OutVal", "OutValSet", .float⟩]
  num := "NumberValuePairs"

/-- COMPU_VTAB, a2l/compu_vtab.go:26-98: rows of a number and a text. -/
def compuVtab : Table where
  p := .parseCompuVtab
  fin := (str! "/end COMPU_VTAB")
  ps := [⟨"Name", "NameSet", .str⟩, ⟨"LongIdentifier", "LongIdentifierSet", .str⟩,
    ⟨"ConversionType", "ConversionTypeSet", .enum parseConversionTypeEnum⟩, ⟨"NumberValuePairs", "NumberValuePairsSet", .uint 16⟩]
  subs := [((str! "DEFAULT_VALUE"), .obj .parseDefaultValue "DefaultValue" .field)]
  cols := [⟨"InVal", "InValSet", .float⟩, ⟨"OutVal", "OutValSet", .str⟩]
  num := "NumberValuePairs"

/-- COMPU_VTAB_RANGE, a2l/compu_vtab_range.go:26-103: rows of two numbers and a text. -/
def compuVtabRange : Table where
  p := .parseCompuVtabRange
  fin := (str! "/end COMPU_VTAB_RANGE")
  ps := [⟨"Name", "NameSet", .str⟩, ⟨"LongIdentifier", "LongIdentifierSet", .str⟩,
    ⟨"NumberValueTriples", "NumberValueTriplesSet", .uint 16⟩]
  subs := [((str! "DEFAULT_VALUE"), .obj .parseDefaultValue "DefaultValue" .field)]
  cols := [⟨"InValMin", "InValMinSet", .float⟩, ⟨"InValMax", "InValMaxSet", .float⟩, ⟨"OutVal", "OutValSet", .str⟩]
  num := "NumberValueTriples"

/-- The statements for a row of COMPU_TAB. -/
def compuTabTail : List (Cond × List Stmt) :=
  [(.or (.unset "InValSet") (.unset "OutValSet"), [.conv .float, .ite .errNe (blk [.brk]) (blk []), .append "InVal" .same,
    .ite (.len16Is "InVal" "NumberValuePairs") (blk [.setTrue "InValSet"]) (blk []), .next, .convRet .float,
    .ite .errNe (blk [.brk]) (blk []), .append "OutVal" .same,
    .ite (.len16Is "OutVal" "NumberValuePairs") (blk [.setTrue "OutValSet"]) (blk [])])]

def compuVtabTail : List (Cond × List Stmt) :=
  [(.or (.unset "InValSet") (.unset "OutValSet"), [.conv .float, .ite .errNe (blk [.brk]) (blk []), .append "InVal" .same,
    .ite (.len16Is "InVal" "NumberValuePairs") (blk [.setTrue "InValSet"]) (blk []), .next, .appendCur "OutVal",
    .ite (.len16Is "OutVal" "NumberValuePairs") (blk [.setTrue "OutValSet"]) (blk [])])]

def compuVtabRangeTail : List (Cond × List Stmt) :=
  [(.or (.unset "InValMinSet") (.or (.unset "InValMaxSet") (.unset "OutValSet")),
    [.conv .float, .ite .errNe (blk [.brk]) (blk []), .append "InValMin" .same,
    .ite (.len16Is "InValMin" "NumberValueTriples") (blk [.setTrue "InValMinSet"]) (blk []), .next,
    .conv .float, .ite .errNe (blk [.brk]) (blk []), .append "InValMax" .same,
    .ite (.len16Is "InValMax" "NumberValueTriples") (blk [.setTrue "InValMaxSet"]) (blk []), .next, .appendCur "OutVal",
    .ite (.len16Is "OutVal" "NumberValueTriples") (blk [.setTrue "OutValSet"]) (blk [])])]

abbrev Table.body (T : Table) (E : Env) (tail : List (Cond × List Stmt)) : Stmt :=
  Loose.body T.fin (T.spec E) tail [.brk] (stdCode T.subs)

theorem compuTab_body (E : Env) : A2l.body .parseCompuTab = blk [.loop (compuTab.body E compuTabTail)] := rfl
theorem compuVtab_body (E : Env) : A2l.body .parseCompuVtab = blk [.loop (compuVtab.body E compuVtabTail)] := rfl
theorem compuVtabRange_body (E : Env) : A2l.body .parseCompuVtabRange = blk [.loop (compuVtabRange.body E compuVtabRangeTail)] := rfl

/-- A token other than the end of the file is followed by another one. -/
theorem next_tok {E : Env} (hw : Wf E) {i : Nat} (h : E.current i ≠ []) : E.hasNext i = true ∧ ∃ u, TokAfter E i u := by
  unfold Env.current at h
  have hi : i < E.toks.length := by
    rcases Nat.lt_or_ge i E.toks.length with hi | hi
    · exact hi
    · rw [List.getElem?_eq_none hi] at h; exact absurd rfl h
  have hne : i + 1 ≠ E.toks.length := fun hh => h ((hw.end_iff hi).2 hh)
  have hl : i + 1 < E.toks.length := by omega
  exact ⟨by simp [Env.hasNext, hl], _, List.getElem?_eq_getElem hl⟩

variable {E : Env} {K : PName → Nat → PRes} {n : Nat}

theorem exec_cell {f fl num : String} (hf : num ≠ f) (more : List Stmt) (s : St) :
    exec E K n (blk (.append f .same :: .ite (.len16Is f num) (blk [.setTrue fl]) (blk []) :: more)) s =
      exec E K n (blk more) { s with obj := cell s.obj f fl num s.buf } := by
  have h1 : (s.obj.set f (.list (s.obj.list f ++ [s.buf]))).list f = s.obj.list f ++ [s.buf] := by
    simp [Obj.list, set_same]
  have h2 : (s.obj.set f (.list (s.obj.list f ++ [s.buf]))).int num = s.obj.int num := by
    simp [Obj.int, set_other _ _ hf]
  rw [exec_blk_cons]
  simp only [exec]
  rw [exec_blk_cons]
  simp only [exec, holds, h1, h2, List.length_append, List.length_singleton, castVal_same, cell]
  by_cases h : (((s.obj.list f).length + 1) % 65536 : Nat) = s.obj.int num
  · simp only [h, decide_true, if_true]
    rw [exec_blk_one]
    rfl
  · simp only [h, decide_false, Bool.false_eq_true, if_false, exec_blk_nil]

theorem exec_cellCur {f fl num : String} (hf : num ≠ f) (more : List Stmt) (s : St) :
    exec E K n (blk (.appendCur f :: .ite (.len16Is f num) (blk [.setTrue fl]) (blk []) :: more)) s =
      exec E K n (blk more) { s with obj := cell s.obj f fl num (.str (E.current s.idx)) } := by
  have h1 : (s.obj.set f (.list (s.obj.list f ++ [.str (E.current s.idx)]))).list f =
      s.obj.list f ++ [.str (E.current s.idx)] := by simp [Obj.list, set_same]
  have h2 : (s.obj.set f (.list (s.obj.list f ++ [.str (E.current s.idx)]))).int num = s.obj.int num := by
    simp [Obj.int, set_other _ _ hf]
  rw [exec_blk_cons]
  simp only [exec]
  rw [exec_blk_cons]
  simp only [exec, holds, h1, h2, List.length_append, List.length_singleton, cell]
  by_cases h : (((s.obj.list f).length + 1) % 65536 : Nat) = s.obj.int num
  · simp only [h, decide_true, if_true]
    rw [exec_blk_one]
    rfl
  · simp only [h, decide_false, Bool.false_eq_true, if_false, exec_blk_nil]

/-- Reading a number: `buf, err = strconv.ParseFloat(tok.current(), 64)`. -/
theorem exec_float (more : List Stmt) (s : St) :
    exec E K n (blk (.conv .float :: .ite .errNe (blk [.brk]) (blk []) :: more)) s =
      if E.floatOk (E.current s.idx) = true then exec E K n (blk more) { s with buf := .flt (E.current s.idx), err := false }
      else .ok { s with buf := .zero, err := true } .brk := by
  rw [exec_blk_cons]
  simp only [exec]
  rw [exec_blk_cons]
  cases h : E.floatOk (E.current s.idx) <;>
    simp [exec, convert, h, holds, exec_blk_one, exec_blk_nil]

theorem exec_floatRet (more : List Stmt) (s : St) :
    exec E K n (blk (.convRet .float :: .ite .errNe (blk [.brk]) (blk []) :: more)) s =
      if E.floatOk s.ret = true then exec E K n (blk more) { s with buf := .flt s.ret, err := false }
      else .ok { s with buf := .zero, err := true } .brk := by
  rw [exec_blk_cons]
  simp only [exec]
  rw [exec_blk_cons]
  cases h : E.floatOk s.ret <;>
    simp [exec, convert, h, holds, exec_blk_one, exec_blk_nil]

theorem exec_next (more : List Stmt) (s : St) {u : Str} (h : TokAfter E s.idx u) :
    exec E K n (blk (.next :: more)) s = exec E K n (blk more) { s with idx := s.idx + 1, ret := u } := by
  obtain ⟨h1, h2⟩ := tokAt_of h
  have h3 : E.current (s.idx + 1) = u := by rw [← h2, tokAt, if_pos h1]
  rw [exec_blk_cons]
  simp only [exec, doNext, h1, if_true, h3]

theorem current_next {i : Nat} {u : Str} (h : TokAfter E i u) : E.current (i + 1) = u := by
  unfold TokAfter at h
  simp [Env.current, h]

theorem tok_unique {i : Nat} {u v : Str} (h : TokAfter E i u) (h' : TokAfter E i v) : u = v := by
  unfold TokAfter at h h'
  rw [h] at h'
  exact Option.some.inj h'

/-- A row of COMPU_TAB. -/
theorem compuTab_row (s : St) {u : Str} (hu : TokAfter E s.idx u) :
    exec E K n (blk (chain compuTabTail)) s =
      if ∀ c ∈ compuTab.cols, s.obj.flag c.flag = true then .ok s .cont
      else if E.floatOk (E.current s.idx) = true then
        if E.floatOk u = true then
          .ok ⟨s.idx + 1, u, rowObj compuTab.num s.obj compuTab.cols [.flt (E.current s.idx), .flt u], .flt u, false⟩ .cont
        else .ok ⟨s.idx + 1, u, cell s.obj "InVal" "InValSet" "NumberValuePairs" (.flt (E.current s.idx)), .zero, true⟩ .brk
      else .ok { s with buf := .zero, err := true } .brk := by
  rw [exec_chain]
  by_cases hf : ∀ c ∈ compuTab.cols, s.obj.flag c.flag = true
  · rw [if_pos hf]
    simp only [compuTab, List.mem_cons, List.not_mem_nil, or_false, forall_eq_or_imp, forall_eq] at hf
    simp [compuTabTail, List.find?, holds, hf.1, hf.2]
  · rw [if_neg hf]
    simp only [compuTab, List.mem_cons, List.not_mem_nil, or_false, forall_eq_or_imp, forall_eq] at hf
    have hh : holds E s (.or (.unset "InValSet") (.unset "OutValSet")) = true := by
      simp only [holds, Bool.or_eq_true, Bool.not_eq_true']
      cases h1 : s.obj.flag "InValSet" <;> cases h2 : s.obj.flag "OutValSet" <;> simp_all
    simp only [compuTabTail, List.find?_cons, hh]
    rw [exec_float]
    split
    · rw [exec_cell (by decide), exec_next (u := u), exec_floatRet]
      · dsimp only
        split
        · rw [exec_cell (by decide), exec_blk_nil]; rfl
        · rfl
      · exact hu
    · rfl

/-- A row of COMPU_VTAB. -/
theorem compuVtab_row (s : St) {u : Str} (hu : TokAfter E s.idx u) :
    exec E K n (blk (chain compuVtabTail)) s =
      if ∀ c ∈ compuVtab.cols, s.obj.flag c.flag = true then .ok s .cont
      else if E.floatOk (E.current s.idx) = true then
        .ok ⟨s.idx + 1, u, rowObj compuVtab.num s.obj compuVtab.cols [.flt (E.current s.idx), .str u],
          .flt (E.current s.idx), false⟩ .cont
      else .ok { s with buf := .zero, err := true } .brk := by
  rw [exec_chain]
  by_cases hf : ∀ c ∈ compuVtab.cols, s.obj.flag c.flag = true
  · rw [if_pos hf]
    simp only [compuVtab, List.mem_cons, List.not_mem_nil, or_false, forall_eq_or_imp, forall_eq] at hf
    simp [compuVtabTail, List.find?, holds, hf.1, hf.2]
  · rw [if_neg hf]
    simp only [compuVtab, List.mem_cons, List.not_mem_nil, or_false, forall_eq_or_imp, forall_eq] at hf
    have hh : holds E s (.or (.unset "InValSet") (.unset "OutValSet")) = true := by
      simp only [holds, Bool.or_eq_true, Bool.not_eq_true']
      cases h1 : s.obj.flag "InValSet" <;> cases h2 : s.obj.flag "OutValSet" <;> simp_all
    simp only [compuVtabTail, List.find?_cons, hh]
    rw [exec_float]
    split
    · rw [exec_cell (by decide), exec_next (u := u), exec_cellCur (by decide), exec_blk_nil]
      · dsimp only
        rw [current_next hu]; rfl
      · exact hu
    · rfl

/-- A row of COMPU_VTAB_RANGE. -/
theorem compuVtabRange_row (s : St) {u w : Str} (hu : TokAfter E s.idx u) (hw : E.floatOk u = true → TokAfter E (s.idx + 1) w) :
    exec E K n (blk (chain compuVtabRangeTail)) s =
      if ∀ c ∈ compuVtabRange.cols, s.obj.flag c.flag = true then .ok s .cont
      else if E.floatOk (E.current s.idx) = true then
        if E.floatOk u = true then
          .ok ⟨s.idx + 2, w, rowObj compuVtabRange.num s.obj compuVtabRange.cols [.flt (E.current s.idx), .flt u, .str w],
            .flt u, false⟩ .cont
        else .ok ⟨s.idx + 1, u, cell s.obj "InValMin" "InValMinSet" "NumberValueTriples" (.flt (E.current s.idx)), .zero, true⟩ .brk
      else .ok { s with buf := .zero, err := true } .brk := by
  rw [exec_chain]
  by_cases hf : ∀ c ∈ compuVtabRange.cols, s.obj.flag c.flag = true
  · rw [if_pos hf]
    simp only [compuVtabRange, List.mem_cons, List.not_mem_nil, or_false, forall_eq_or_imp, forall_eq] at hf
    simp [compuVtabRangeTail, List.find?, holds, hf.1, hf.2]
  · rw [if_neg hf]
    simp only [compuVtabRange, List.mem_cons, List.not_mem_nil, or_false, forall_eq_or_imp, forall_eq] at hf
    have hh : holds E s (.or (.unset "InValMinSet") (.or (.unset "InValMaxSet") (.unset "OutValSet"))) = true := by
      simp only [holds, Bool.or_eq_true, Bool.not_eq_true']
      cases h1 : s.obj.flag "InValMinSet" <;> cases h2 : s.obj.flag "InValMaxSet" <;> cases h3 : s.obj.flag "OutValSet" <;> simp_all
    simp only [compuVtabRangeTail, List.find?_cons, hh]
    rw [exec_float]
    split
    · rw [exec_cell (by decide), exec_next (u := u), exec_float]
      · dsimp only
        rw [current_next hu]
        split
        · rename_i hfl
          rw [exec_cell (by decide), exec_next (u := w), exec_cellCur (by decide), exec_blk_nil]
          · dsimp only
            rw [current_next (hw hfl)]; rfl
          · exact hw hfl
        · rfl
      · exact hu
    · rfl

theorem cell_other (o : Obj) {f fl num g : String} (v : Val) (h1 : g ≠ f) (h2 : g ≠ fl) : (cell o f fl num v) g = o g := by
  unfold cell
  split <;> simp [Obj.set, h1, h2]

theorem rowObj_other {num : String} {g : String} : ∀ (cs : List Col) (vs : List Val) (o : Obj),
    (∀ c ∈ cs, g ≠ c.field ∧ g ≠ c.flag) → (rowObj num o cs vs) g = o g
  | [], _, o, _ => rfl
  | c :: cs, [], o, _ => rfl
  | c :: cs, v :: vs, o, h => by
    rw [rowObj, rowObj_other cs vs _ (fun c' hc => h c' (List.mem_cons_of_mem _ hc)),
      cell_other _ _ (h c (by simp)).1 (h c (by simp)).2]

/-- The names of a table are different. -/
structure Table.Ok (T : Table) : Prop where
  ok : TableOk T.fin T.ps T.subs []
  cols : ∀ c ∈ T.cols, ∀ p ∈ T.ps, p.flag ≠ c.field ∧ p.flag ≠ c.flag
  fin : T.fin ∈ keywords
  keys : ∀ x ∈ T.subs, x.1 ∈ keywords

instance (T : Table) : Decidable T.Ok :=
  decidable_of_iff (TableOk T.fin T.ps T.subs [] ∧ (∀ c ∈ T.cols, ∀ p ∈ T.ps, p.flag ≠ c.field ∧ p.flag ≠ c.flag) ∧
    T.fin ∈ keywords ∧ (∀ x ∈ T.subs, x.1 ∈ keywords)) ⟨fun ⟨a, b, c, d⟩ => ⟨a, b, c, d⟩, fun ⟨a, b, c, d⟩ => ⟨a, b, c, d⟩⟩

/-- What a table function has to do on a word after the parameters. -/
theorem follows_table {T : Table} (hT : T.Ok) {tail : List (Cond × List Stmt)}
    (restFwd : ∀ K n s o' j, s.err = false → E.current s.idx ≠ [] → (T.spec E).rest (Suc K) (E.current s.idx) s.obj s.idx o' j →
      ∃ s', exec E K n (blk (chain tail)) s = .ok s' .cont ∧ s'.err = false ∧ s'.obj = o' ∧ s'.idx = j)
    (restBack : ∀ K n s s' c, s.err = false → E.current s.idx ≠ [] → exec E K n (blk (chain tail)) s = .ok s' c →
      (c = .cont → s'.err = false ∧ (T.spec E).rest (Suc K) (E.current s.idx) s.obj s.idx s'.obj s'.idx) ∧ (c = .brk → s'.err = true)) :
    Follows E T.fin (T.spec E) (Unset []) tail [.brk] (stdCode T.subs) := by
  refine follows_std (ps := T.ps) (S := T.subs) (U := []) hT.ok ?_ (fun K n s o' j h1 _ _ h2 _ => restFwd K n s o' j h1 h2)
    (fun K n s s' c h1 _ _ h2 _ => restBack K n s s' c h1 h2) ?_ ?_ ?_
  · intro R t o i o' j h f hf
    split at h
    · rw [h.1]
    · obtain ⟨us, vs, _, _, _, rfl⟩ := h
      simp only [List.append_nil, List.mem_map] at hf
      obtain ⟨p, hp, rfl⟩ := hf
      exact flag_congr (rowObj_other _ _ _ fun c hc => hT.cols c hc p hp)
  · intro K n s
    exact ⟨s, rfl, rfl, rfl, rfl⟩
  · intro t o i o' j h
    exact ⟨0, 0, fun _ _ _ _ => h⟩
  · intro R R' _ t o i o' j h
    exact h

theorem words_one {i : Nat} {u : Str} : Props.Words E i [u] ↔ TokAfter E i u := by
  constructor
  · intro h; simpa using h 0 u rfl
  · intro h j w hw
    cases j with
    | zero => simp at hw; subst hw; exact h
    | succ j => simp at hw

theorem words_two {i : Nat} {u w : Str} : Props.Words E i [u, w] ↔ TokAfter E i u ∧ TokAfter E (i + 1) w := by
  constructor
  · intro h; exact ⟨by simpa using h 0 u rfl, h 1 w rfl⟩
  · rintro ⟨h1, h2⟩ j w' hw
    match j with
    | 0 => simp at hw; subst hw; exact h1
    | 1 => simp at hw; subst hw; exact h2
    | j + 2 => simp at hw

theorem written_cons {k : Kind} {ks : List Kind} {ts : List Str} {vs : List Val} :
    Written E (k :: ks) ts vs ↔ ∃ t ts' v vs', ts = t :: ts' ∧ vs = v :: vs' ∧ Denotes E k t v ∧ Written E ks ts' vs' :=
  ⟨fun h => by cases h with | cons h hs => exact ⟨_, _, _, _, rfl, rfl, h, hs⟩,
   fun ⟨_, _, _, _, h1, h2, h3, h4⟩ => by subst h1 h2; exact .cons h3 h4⟩

theorem written_nil {ts : List Str} {vs : List Val} : Written E [] ts vs ↔ ts = [] ∧ vs = [] :=
  ⟨fun h => by cases h; exact ⟨rfl, rfl⟩, fun ⟨h1, h2⟩ => by subst h1 h2; exact .nil⟩

theorem follows_compuTab (hw : Wf E) : Follows E compuTab.fin (compuTab.spec E) (Unset []) compuTabTail [.brk]
    (stdCode compuTab.subs) := by
  refine follows_table (by decide +kernel) ?_ ?_
  · intro K n s o' j he h0 h
    obtain ⟨_, u, hu⟩ := next_tok hw h0
    rw [compuTab_row s hu]
    simp only [Table.spec] at h
    split at h
    · rename_i hf
      rw [if_pos hf]
      exact ⟨s, rfl, he, h.1.symm, h.2.symm⟩
    · rename_i hf
      obtain ⟨us, vs, h1, h2, rfl, rfl⟩ := h
      simp only [compuTab, List.map_cons, List.map_nil, written_cons, written_nil] at h2
      obtain ⟨_, _, _, _, e1, rfl, ⟨d1, rfl⟩, _, _, _, _, rfl, rfl, ⟨d2, rfl⟩, rfl, rfl⟩ := h2
      simp only [List.cons.injEq] at e1
      obtain ⟨rfl, rfl⟩ := e1
      obtain rfl := tok_unique hu (words_one.1 h1)
      rw [if_neg hf, if_pos d1, if_pos d2]
      exact ⟨_, rfl, rfl, rfl, rfl⟩
  · intro K n s s' c he h0 h
    obtain ⟨_, u, hu⟩ := next_tok hw h0
    rw [compuTab_row s hu] at h
    simp only [Table.spec]
    split at h
    · rename_i hf
      simp only [Out.ok.injEq] at h
      obtain ⟨rfl, rfl⟩ := h
      exact ⟨fun _ => ⟨he, by rw [if_pos hf]; exact ⟨rfl, rfl⟩⟩, fun h => (by cases h)⟩
    · rename_i hf
      split at h
      · rename_i h1
        split at h
        · rename_i h2
          simp only [Out.ok.injEq] at h
          obtain ⟨rfl, rfl⟩ := h
          refine ⟨fun _ => ⟨rfl, ?_⟩, fun h => (by cases h)⟩
          rw [if_neg hf]
          exact ⟨[u], _, words_one.2 hu, .cons ⟨h1, rfl⟩ (.cons ⟨h2, rfl⟩ .nil), rfl, rfl⟩
        · simp only [Out.ok.injEq] at h
          obtain ⟨rfl, rfl⟩ := h
          exact ⟨fun h => (by cases h), fun _ => rfl⟩
      · simp only [Out.ok.injEq] at h
        obtain ⟨rfl, rfl⟩ := h
        exact ⟨fun h => (by cases h), fun _ => rfl⟩

theorem follows_compuVtab (hw : Wf E) : Follows E compuVtab.fin (compuVtab.spec E) (Unset []) compuVtabTail [.brk]
    (stdCode compuVtab.subs) := by
  refine follows_table (by decide +kernel) ?_ ?_
  · intro K n s o' j he h0 h
    obtain ⟨_, u, hu⟩ := next_tok hw h0
    rw [compuVtab_row s hu]
    simp only [Table.spec] at h
    split at h
    · rename_i hf
      rw [if_pos hf]
      exact ⟨s, rfl, he, h.1.symm, h.2.symm⟩
    · rename_i hf
      obtain ⟨us, vs, h1, h2, rfl, rfl⟩ := h
      simp only [compuVtab, List.map_cons, List.map_nil, written_cons, written_nil] at h2
      obtain ⟨_, _, _, _, e1, rfl, ⟨d1, rfl⟩, _, _, _, _, rfl, rfl, d2, rfl, rfl⟩ := h2
      cases d2
      simp only [List.cons.injEq] at e1
      obtain ⟨rfl, rfl⟩ := e1
      obtain rfl := tok_unique hu (words_one.1 h1)
      rw [if_neg hf, if_pos d1]
      exact ⟨_, rfl, rfl, rfl, rfl⟩
  · intro K n s s' c he h0 h
    obtain ⟨_, u, hu⟩ := next_tok hw h0
    rw [compuVtab_row s hu] at h
    simp only [Table.spec]
    split at h
    · rename_i hf
      simp only [Out.ok.injEq] at h
      obtain ⟨rfl, rfl⟩ := h
      exact ⟨fun _ => ⟨he, by rw [if_pos hf]; exact ⟨rfl, rfl⟩⟩, fun h => (by cases h)⟩
    · rename_i hf
      split at h
      · rename_i h1
        simp only [Out.ok.injEq] at h
        obtain ⟨rfl, rfl⟩ := h
        refine ⟨fun _ => ⟨rfl, ?_⟩, fun h => (by cases h)⟩
        rw [if_neg hf]
        exact ⟨[u], _, words_one.2 hu, .cons ⟨h1, rfl⟩ (.cons rfl .nil), rfl, rfl⟩
      · simp only [Out.ok.injEq] at h
        obtain ⟨rfl, rfl⟩ := h
        exact ⟨fun h => (by cases h), fun _ => rfl⟩

theorem follows_compuVtabRange (hw : Wf E) (hfl : E.floatOk [] = false) :
    Follows E compuVtabRange.fin (compuVtabRange.spec E) (Unset []) compuVtabRangeTail [.brk] (stdCode compuVtabRange.subs) := by
  have third : ∀ i u, TokAfter E i u → ∃ w, E.floatOk u = true → TokAfter E (i + 1) w := by
    intro i u hu
    by_cases h : u = []
    · subst h; exact ⟨[], fun hh => by rw [hfl] at hh; cases hh⟩
    · obtain ⟨_, w, hw'⟩ := next_tok hw (i := i + 1) (by rw [current_next hu]; exact h)
      exact ⟨w, fun _ => hw'⟩
  refine follows_table (by decide +kernel) ?_ ?_
  · intro K n s o' j he h0 h
    obtain ⟨_, u, hu⟩ := next_tok hw h0
    obtain ⟨w, hw'⟩ := third _ _ hu
    rw [compuVtabRange_row s hu hw']
    simp only [Table.spec] at h
    split at h
    · rename_i hf
      rw [if_pos hf]
      exact ⟨s, rfl, he, h.1.symm, h.2.symm⟩
    · rename_i hf
      obtain ⟨us, vs, h1, h2, rfl, rfl⟩ := h
      simp only [compuVtabRange, List.map_cons, List.map_nil, written_cons, written_nil] at h2
      obtain ⟨_, _, _, _, e1, rfl, ⟨d1, rfl⟩, _, _, _, _, rfl, rfl, ⟨d2, rfl⟩, _, _, _, _, rfl, rfl, d3, rfl, rfl⟩ := h2
      cases d3
      simp only [List.cons.injEq] at e1
      obtain ⟨rfl, rfl⟩ := e1
      obtain ⟨k1, k2⟩ := words_two.1 h1
      obtain rfl := tok_unique hu k1
      obtain rfl := tok_unique (hw' d2) k2
      rw [if_neg hf, if_pos d1, if_pos d2]
      exact ⟨_, rfl, rfl, rfl, rfl⟩
  · intro K n s s' c he h0 h
    obtain ⟨_, u, hu⟩ := next_tok hw h0
    obtain ⟨w, hw'⟩ := third _ _ hu
    rw [compuVtabRange_row s hu hw'] at h
    simp only [Table.spec]
    split at h
    · rename_i hf
      simp only [Out.ok.injEq] at h
      obtain ⟨rfl, rfl⟩ := h
      exact ⟨fun _ => ⟨he, by rw [if_pos hf]; exact ⟨rfl, rfl⟩⟩, fun h => (by cases h)⟩
    · rename_i hf
      split at h
      · rename_i h1
        split at h
        · rename_i h2
          simp only [Out.ok.injEq] at h
          obtain ⟨rfl, rfl⟩ := h
          refine ⟨fun _ => ⟨rfl, ?_⟩, fun h => (by cases h)⟩
          rw [if_neg hf]
          exact ⟨[u, w], _, words_two.2 ⟨hu, hw' h2⟩, .cons ⟨h1, rfl⟩ (.cons ⟨h2, rfl⟩ (.cons rfl .nil)), rfl, rfl⟩
        · simp only [Out.ok.injEq] at h
          obtain ⟨rfl, rfl⟩ := h
          exact ⟨fun h => (by cases h), fun _ => rfl⟩
      · simp only [Out.ok.injEq] at h
        obtain ⟨rfl, rfl⟩ := h
        exact ⟨fun h => (by cases h), fun _ => rfl⟩

end Verif.A2l.Loose
