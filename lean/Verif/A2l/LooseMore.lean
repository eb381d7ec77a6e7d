import Verif.A2l.LooseProps

/-!
The other irregular blocks: BLOB, MEASUREMENT, TYPEDEF_MEASUREMENT, MEMORY_LAYOUT, MEMORY_SEGMENT,
OVERWRITE, PROJECT, UNIT, VARIANT_CODING, VAR_FORBIDDEN_COMB.
-/

namespace Verif.A2l.Loose
open Verif.Go Verif.A2l Lang Decl Analysis Template

/-- An optional part of an irregular block: a sub-object; the first token itself is kept
(`word`); an enumeration value after the first token (`enumNext`), or the first token itself taken
as the enumeration value (`enumHere`); a module. -/
inductive XSub where
  | obj (q : PName) (f : String) (md : Decl.Mode)
  | word (f : String)
  | enumNext (e : EnumDef) (f : String)
  | enumHere (e : EnumDef) (f fl : String)
  | module (f : String)

/-- Sub-objects are kept in a field or a list, and the enumerations are as expected. -/
def XSub.ok : XSub → Bool
  | .obj _ _ .field => true
  | .obj _ _ .append => true
  | .obj _ _ (.byName _) => false
  | .word _ => true
  | .enumNext e _ => enumOk e && e.usesNext
  | .enumHere e _ _ => enumOk e && !e.usesNext
  | .module _ => true

/-- The fields an optional part changes. -/
def XSub.names : XSub → List String
  | .obj _ f _ => [f]
  | .word f => [f]
  | .enumNext _ f => [f]
  | .enumHere _ f fl => [f, fl]
  | .module f => [f]

/-- What an optional part stands for; `t` is its first token, at position `i`. -/
def XSub.Means (E : Env) (R : Calls) (t : Str) (o : Obj) (i : Nat) (o' : Obj) (j : Nat) : XSub → Prop
  | .obj q f md => ∃ v, R q i j v ∧ Keeps o f md v o'
  | .word f => j = i ∧ o' = o.set f (.str t)
  | .enumNext e f => ∃ u v, TokAfter E i u ∧ Denotes E (.enum e) u v ∧ j = i + 1 ∧ o' = o.set f v
  | .enumHere e f fl => ∃ v, Denotes E (.enum e) t v ∧ j = i ∧ o' = (o.set f v).set fl (.bool true)
  | .module f => ∃ v, R (if E.multi then .parseModuleMultithreaded else .parseModule) i j v ∧
      o' = o.set f (.list (o.list f ++ [v]))

def XSub.code : XSub → List Stmt
  | .obj q f md => subStmt (.obj q f md)
  | .word f => [.storeCur f]
  | .enumNext e f => [.enumField f e, ifErr true]
  | .enumHere e f fl => [.enumField f e, ifErr true, .setTrue fl]
  | .module f => [.ite .multi (blk [.callBuf .parseModuleMultithreaded]) (blk [.callBuf .parseModule]), ifErr true,
      .append f .same]

variable {E : Env} {K : PName → Nat → PRes} {n : Nat}

theorem denotes_enum {e : EnumDef} (he : enumOk e = true) {t : Str} {c : Str} (h : e.table.lookup t = some c) :
    Denotes E (.enum e) t (.str t) ∧ c = t := by
  obtain ⟨h1, h2⟩ := lookup_some he h
  exact ⟨⟨⟨c, h1⟩, rfl⟩, h2⟩

theorem lookup_none_enum {e : EnumDef} {t : Str} (h : e.table.lookup t = none) (v : Val) : ¬ Denotes E (.enum e) t v := by
  rintro ⟨⟨c, hc⟩, _⟩
  exact lookup_isNone h (List.mem_map.2 ⟨_, hc, rfl⟩)

theorem xsub_fwd (hw : Wf E) {x : XSub} (hx : x.ok = true) {s : St} (h0 : E.current s.idx ≠ []) {o' : Obj} {j : Nat}
    (he : s.err = false) (h : x.Means E (Suc K) (E.current s.idx) s.obj s.idx o' j) :
    ∃ s', exec E K n (blk x.code) s = .ok s' .cont ∧ s'.err = false ∧ s'.obj = o' ∧ s'.idx = j := by
  cases x with
  | obj q f md =>
    obtain ⟨v, h2, h3⟩ := h
    unfold Suc at h2
    cases md with
    | field =>
      cases h3
      refine ⟨{ s with idx := j, obj := s.obj.set f v, err := false }, ?_, rfl, rfl, rfl⟩
      simp only [XSub.code, subStmt, exec_blk_cons, exec, h2, ifErr, holds, Bool.false_eq_true, if_false, exec_blk_nil]
    | append =>
      cases h3
      refine ⟨{ s with idx := j, buf := v, err := false, obj := s.obj.set f (.list (s.obj.list f ++ [v])) }, ?_, rfl, rfl, rfl⟩
      simp only [XSub.code, subStmt, exec_blk_cons, exec, h2, ifErr, holds, Bool.false_eq_true, if_false, exec_blk_nil, castVal_same]
    | byName key => cases hx
  | word f =>
    obtain ⟨rfl, rfl⟩ := h
    refine ⟨{ s with obj := s.obj.set f (.str (E.current s.idx)) }, ?_, he, rfl, rfl⟩
    simp only [XSub.code, exec_blk_cons, exec, exec_blk_nil]
  | enumNext e f =>
    obtain ⟨u, v, h1, ⟨⟨c, h2⟩, rfl⟩, rfl, rfl⟩ := h
    simp only [XSub.ok, Bool.and_eq_true] at hx
    obtain ⟨g1, g2⟩ := tokAt_of h1
    obtain ⟨hr, hc, ho, he', hi⟩ := doNext_spec hw s
    obtain ⟨c', hc'⟩ := lookup_keys (List.mem_map.2 ⟨_, h2, rfl⟩ : u ∈ e.table.map (·.1))
    obtain ⟨_, rfl⟩ := lookup_some hx.1 hc'
    refine ⟨{ doNext E s with obj := s.obj.set f (.str c'), err := false }, ?_, rfl, rfl, hi g1⟩
    rw [g2] at hr
    simp only [XSub.code, exec_blk_cons, exec, hx.2, if_true, hr, hc', ifErr, holds, Bool.false_eq_true, if_false, exec_blk_nil, ho]
  | enumHere e f fl =>
    obtain ⟨v, ⟨⟨c, h2⟩, rfl⟩, rfl, rfl⟩ := h
    simp only [XSub.ok, Bool.and_eq_true, Bool.not_eq_true'] at hx
    obtain ⟨c', hc'⟩ := lookup_keys (List.mem_map.2 ⟨_, h2, rfl⟩ : E.current s.idx ∈ e.table.map (·.1))
    obtain ⟨_, hcc⟩ := lookup_some hx.1 hc'
    refine ⟨{ s with obj := (s.obj.set f (.str (E.current s.idx))).set fl (.bool true), err := false }, ?_, rfl, rfl, rfl⟩
    simp only [XSub.code, exec_blk_cons, exec, hx.2, Bool.false_eq_true, if_false, hc', ifErr, holds, exec_blk_nil, hcc]
  | module f =>
    obtain ⟨v, h2, rfl⟩ := h
    unfold Suc at h2
    refine ⟨{ s with idx := j, buf := v, err := false, obj := s.obj.set f (.list (s.obj.list f ++ [v])) }, ?_, rfl, rfl, rfl⟩
    cases hm : E.multi <;>
      simp only [hm, if_true, Bool.false_eq_true, if_false] at h2 <;>
      simp only [XSub.code, exec_blk_cons, exec, holds, hm, if_true, Bool.false_eq_true, if_false, h2, ifErr, exec_blk_nil, castVal_same]

theorem xsub_back (hw : Wf E) {x : XSub} (hx : x.ok = true) {s s' : St} {c : Ctl} (h0 : E.current s.idx ≠ [])
    (he : s.err = false) (h : exec E K n (blk x.code) s = .ok s' c) :
    (c = .cont → s'.err = false ∧ x.Means E (Suc K) (E.current s.idx) s.obj s.idx s'.obj s'.idx) ∧ (c = .brk → s'.err = true) := by
  cases x with
  | obj q f md =>
    cases md with
    | field =>
      cases hK : K q s.idx with
      | panic => simp [XSub.code, subStmt, exec_blk_cons, exec, hK] at h
      | timeout => simp [XSub.code, subStmt, exec_blk_cons, exec, hK] at h
      | ok i v e =>
        simp only [XSub.code, subStmt, exec_blk_cons, exec, hK, ifErr, holds, exec_blk_nil] at h
        cases e with
        | true =>
          simp only [if_true, exec_blk_cons, exec, Out.ok.injEq] at h
          obtain ⟨rfl, rfl⟩ := h
          exact ⟨fun h => (by cases h), fun _ => rfl⟩
        | false =>
          simp only [Bool.false_eq_true, if_false, Out.ok.injEq] at h
          obtain ⟨rfl, rfl⟩ := h
          exact ⟨fun _ => ⟨rfl, v, hK, rfl⟩, fun h => by cases h⟩
    | append =>
      cases hK : K q s.idx with
      | panic => simp [XSub.code, subStmt, exec_blk_cons, exec, hK] at h
      | timeout => simp [XSub.code, subStmt, exec_blk_cons, exec, hK] at h
      | ok i v e =>
        simp only [XSub.code, subStmt, exec_blk_cons, exec, hK, ifErr, holds, exec_blk_nil] at h
        cases e with
        | true =>
          simp only [if_true, exec_blk_cons, exec, Out.ok.injEq] at h
          obtain ⟨rfl, rfl⟩ := h
          exact ⟨fun h => (by cases h), fun _ => rfl⟩
        | false =>
          simp only [Bool.false_eq_true, if_false, Out.ok.injEq] at h
          obtain ⟨rfl, rfl⟩ := h
          exact ⟨fun _ => ⟨rfl, v, hK, by rw [castVal_same]; rfl⟩, fun h => by cases h⟩
    | byName key => cases hx
  | word f =>
    simp only [XSub.code, exec_blk_cons, exec, exec_blk_nil, Out.ok.injEq] at h
    obtain ⟨rfl, rfl⟩ := h
    exact ⟨fun _ => ⟨he, rfl, rfl⟩, fun h => by cases h⟩
  | enumNext e f =>
    simp only [XSub.ok, Bool.and_eq_true] at hx
    obtain ⟨g1, u, hu⟩ := next_tok hw h0
    obtain ⟨hr, hc, ho, he', hi⟩ := doNext_spec hw s
    rw [(tokAt_of hu).2] at hr
    cases hl : e.table.lookup u with
    | none =>
      simp only [XSub.code, exec_blk_cons, exec, hx.2, if_true, hr, hl, ifErr, holds, Out.ok.injEq] at h
      obtain ⟨rfl, rfl⟩ := h
      exact ⟨fun h => (by cases h), fun _ => rfl⟩
    | some c' =>
      simp only [XSub.code, exec_blk_cons, exec, hx.2, if_true, hr, hl, ifErr, holds, Bool.false_eq_true, if_false, exec_blk_nil,
        ho, Out.ok.injEq] at h
      obtain ⟨rfl, rfl⟩ := h
      obtain ⟨hd, rfl⟩ := denotes_enum (E := E) hx.1 hl
      exact ⟨fun _ => ⟨rfl, c', _, hu, hd, hi g1, rfl⟩, fun h => by cases h⟩
  | enumHere e f fl =>
    simp only [XSub.ok, Bool.and_eq_true, Bool.not_eq_true'] at hx
    cases hl : e.table.lookup (E.current s.idx) with
    | none =>
      simp only [XSub.code, exec_blk_cons, exec, hx.2, Bool.false_eq_true, if_false, hl, ifErr, holds, if_true, Out.ok.injEq] at h
      obtain ⟨rfl, rfl⟩ := h
      exact ⟨fun h => (by cases h), fun _ => rfl⟩
    | some c' =>
      simp only [XSub.code, exec_blk_cons, exec, hx.2, hl, ifErr, holds, Bool.false_eq_true, if_false, exec_blk_nil,
        Out.ok.injEq] at h
      obtain ⟨rfl, rfl⟩ := h
      obtain ⟨hd, hcc⟩ := denotes_enum (E := E) hx.1 hl
      exact ⟨fun _ => ⟨rfl, _, hd, rfl, by rw [hcc]⟩, fun h => by cases h⟩
  | module f =>
    have key : exec E K n (blk (XSub.module f).code) s =
        match K (if E.multi then .parseModuleMultithreaded else .parseModule) s.idx with
        | .ok i v false => .ok { s with idx := i, buf := v, err := false, obj := s.obj.set f (.list (s.obj.list f ++ [v])) } .cont
        | .ok i v true => .ok { s with idx := i, buf := v, err := true } .brk
        | .panic => .panic
        | .timeout => .timeout := by
      cases hm : E.multi <;>
        simp only [XSub.code, exec_blk_cons, exec, holds, hm, if_true, Bool.false_eq_true, if_false]
      · cases hK : K .parseModule s.idx with
        | ok i v e => cases e <;> simp [ifErr, exec, holds, exec_blk_nil, castVal_same, exec_blk_cons]
        | panic => rfl
        | timeout => rfl
      · cases hK : K .parseModuleMultithreaded s.idx with
        | ok i v e => cases e <;> simp [ifErr, exec, holds, exec_blk_nil, castVal_same, exec_blk_cons]
        | panic => rfl
        | timeout => rfl
    rw [key] at h
    cases hK : K (if E.multi then .parseModuleMultithreaded else .parseModule) s.idx with
    | panic => rw [hK] at h; cases h
    | timeout => rw [hK] at h; cases h
    | ok i v e =>
      rw [hK] at h
      cases e with
      | true =>
        simp only [Out.ok.injEq] at h
        obtain ⟨rfl, rfl⟩ := h
        exact ⟨fun h => (by cases h), fun _ => rfl⟩
      | false =>
        simp only [Out.ok.injEq] at h
        obtain ⟨rfl, rfl⟩ := h
        exact ⟨fun _ => ⟨rfl, v, hK, rfl⟩, fun h => by cases h⟩

theorem xsub_bound {x : XSub} {t : Str} {o o' : Obj} {i j : Nat} (h : x.Means E (Succeeds E) t o i o' j) :
    ∃ n₀ d₀, ∀ n d, n₀ ≤ n → d₀ ≤ d → x.Means E (Suc (run E n d)) t o i o' j := by
  cases x with
  | obj q f md =>
    obtain ⟨v, ⟨_, n0, d0, h2⟩, h3⟩ := h
    exact ⟨n0, d0, fun n d hn hd => ⟨v, h2 n d hn hd, h3⟩⟩
  | module f =>
    obtain ⟨v, ⟨_, n0, d0, h2⟩, h3⟩ := h
    exact ⟨n0, d0, fun n d hn hd => ⟨v, h2 n d hn hd, h3⟩⟩
  | word f => exact ⟨0, 0, fun _ _ _ _ => h⟩
  | enumNext e f => exact ⟨0, 0, fun _ _ _ _ => h⟩
  | enumHere e f fl => exact ⟨0, 0, fun _ _ _ _ => h⟩

theorem xsub_mono {x : XSub} {R R' : Calls} (hR : ∀ q i j v, R q i j v → R' q i j v) {t : Str} {o o' : Obj} {i j : Nat}
    (h : x.Means E R t o i o' j) : x.Means E R' t o i o' j := by
  cases x with
  | obj q f md => obtain ⟨v, h2, h3⟩ := h; exact ⟨v, hR _ _ _ _ h2, h3⟩
  | module f => obtain ⟨v, h2, h3⟩ := h; exact ⟨v, hR _ _ _ _ h2, h3⟩
  | word f => exact h
  | enumNext e f => exact h
  | enumHere e f fl => exact h

theorem xsub_other {x : XSub} (hx : x.ok = true) {R : Calls} {t : Str} {o o' : Obj} {i j : Nat} (h : x.Means E R t o i o' j)
    {g : String} (hg : g ∉ x.names) : o' g = o g := by
  cases x with
  | obj q f md =>
    obtain ⟨v, _, h3⟩ := h
    simp only [XSub.names, List.mem_cons, List.not_mem_nil, or_false] at hg
    cases md with
    | field => cases h3; exact set_other _ _ hg
    | append => cases h3; exact set_other _ _ hg
    | byName key => cases hx
  | module f =>
    obtain ⟨v, _, rfl⟩ := h
    simp only [XSub.names, List.mem_cons, List.not_mem_nil, or_false] at hg
    exact set_other _ _ hg
  | word f =>
    obtain ⟨_, rfl⟩ := h
    simp only [XSub.names, List.mem_cons, List.not_mem_nil, or_false] at hg
    exact set_other _ _ hg
  | enumNext e f =>
    obtain ⟨u, v, _, _, _, rfl⟩ := h
    simp only [XSub.names, List.mem_cons, List.not_mem_nil, or_false] at hg
    exact set_other _ _ hg
  | enumHere e f fl =>
    obtain ⟨v, _, _, rfl⟩ := h
    simp only [XSub.names, List.mem_cons, List.not_mem_nil, or_false, not_or] at hg
    rw [set_other _ _ hg.2, set_other _ _ hg.1]

/-- An irregular block: parse function, closing token, parameters, optional parts, what a word
after the parameters stands for, what the closing token does, and the code of both. -/
structure Irr where
  p : PName
  fin : Str
  ps : List Param
  subs : List (Str × XSub)
  rest : Env → Calls → Str → Obj → Nat → Obj → Nat → Prop
  close : Obj → Obj
  unset : List String
  tail : List (Cond × List Stmt)
  onFin : List Stmt

def Irr.spec (B : Irr) (E : Env) : Spec where
  ps := B.ps
  keys := B.subs.map (·.1)
  rest := B.rest E
  sub := fun R t o i o' j => ∃ x, (t, x) ∈ B.subs ∧ x.Means E R t o i o' j
  close := B.close

/-- What is to be checked of the names. -/
structure Irr.Ok (B : Irr) : Prop where
  nodup : (B.ps.map (·.flag)).Nodup
  kinds : ∀ p ∈ B.ps, kindOk p.kind = true
  fields : ∀ p ∈ B.ps, p.field ∉ B.ps.map (·.flag) ++ B.unset
  flags : ∀ p ∈ B.ps, p.flag ∉ B.unset
  simple : ∀ x ∈ B.subs, x.2.ok = true
  subFields : ∀ x ∈ B.subs, ∀ f ∈ x.2.names, f ∉ B.ps.map (·.flag) ++ B.unset
  keys : (B.subs.map (·.1)).Nodup
  keyNe : ∀ x ∈ B.subs, x.1 ≠ [] ∧ x.1 ≠ B.fin
  finNe : B.fin ≠ []

instance (B : Irr) : Decidable B.Ok :=
  decidable_of_iff ((B.ps.map (·.flag)).Nodup ∧ (∀ p ∈ B.ps, kindOk p.kind = true) ∧ (∀ p ∈ B.ps, p.field ∉ B.ps.map (·.flag) ++ B.unset) ∧
    (∀ p ∈ B.ps, p.flag ∉ B.unset) ∧ (∀ x ∈ B.subs, x.2.ok = true) ∧ (∀ x ∈ B.subs, ∀ f ∈ x.2.names, f ∉ B.ps.map (·.flag) ++ B.unset) ∧
    (B.subs.map (·.1)).Nodup ∧ (∀ x ∈ B.subs, x.1 ≠ [] ∧ x.1 ≠ B.fin) ∧ B.fin ≠ [])
    ⟨fun ⟨a, b, c, d, e, f, g, h, i⟩ => ⟨a, b, c, d, e, f, g, h, i⟩, fun ⟨a, b, c, d, e, f, g, h, i⟩ => ⟨a, b, c, d, e, f, g, h, i⟩⟩

abbrev Irr.code (B : Irr) : List (Str × List Stmt) := B.subs.map fun x => (x.1, x.2.code)

/-- `Follows` for an irregular block. -/
theorem follows_irr (hw : Wf E) {B : Irr} (T : B.Ok)
    (restKeep : ∀ R t o i o' j, B.rest E R t o i o' j → Unset B.unset o → (∀ p ∈ B.ps, o.flag p.flag = true) →
      ∀ f ∈ B.ps.map (·.flag) ++ B.unset, o'.flag f = o.flag f)
    (restFwd : ∀ K n s o' j, s.err = false → Unset B.unset s.obj → E.current s.idx ≠ [] →
      B.rest E (Suc K) (E.current s.idx) s.obj s.idx o' j →
      ∃ s', exec E K n (blk (chain B.tail)) s = .ok s' .cont ∧ s'.err = false ∧ s'.obj = o' ∧ s'.idx = j)
    (restBack : ∀ K n s s' c, s.err = false → Unset B.unset s.obj → E.current s.idx ≠ [] →
      exec E K n (blk (chain B.tail)) s = .ok s' c →
      (c = .cont → s'.err = false ∧ B.rest E (Suc K) (E.current s.idx) s.obj s.idx s'.obj s'.idx) ∧ (c = .brk → s'.err = true))
    (closing : ∀ K n s, ∃ s', exec E K n (blk B.onFin) s = .ok s' .brk ∧ s'.err = s.err ∧ s'.obj = B.close s.obj ∧ s'.idx = s.idx)
    (bound : ∀ t o i o' j, B.rest E (Succeeds E) t o i o' j →
      ∃ n₀ d₀, ∀ n d, n₀ ≤ n → d₀ ≤ d → B.rest E (Suc (run E n d)) t o i o' j)
    (mono : ∀ (R R' : Calls), (∀ q i j v, R q i j v → R' q i j v) → ∀ t o i o' j, B.rest E R t o i o' j → B.rest E R' t o i o' j) :
    Follows E B.fin (B.spec E) (Unset B.unset) B.tail B.onFin B.code where
  nodup := T.nodup
  kinds := T.kinds
  fields := fun p hp hh => T.fields p hp (List.mem_append_left _ hh)
  keys := by simp [Irr.spec, List.map_map, Function.comp_def]
  keyNe := by
    intro k hk
    obtain ⟨x, hx, rfl⟩ := List.mem_map.1 hk
    exact T.keyNe x hx
  finNe := T.finNe
  start := fun f _ => by simp [Obj.flag, Obj.empty]
  param := by
    intro o v p hp hG f hf
    have h1 : f ≠ p.flag := fun hh => T.flags p hp (hh ▸ hf)
    have h2 : f ≠ p.field := fun hh => T.fields p hp (List.mem_append_right _ (hh ▸ hf))
    rw [flag_other _ _ h1, flag_other _ _ h2]
    exact hG f hf
  restKeep := by
    intro R t o i o' j h hG ha
    have := restKeep R t o i o' j h hG ha
    exact ⟨fun f hf => by rw [this f (List.mem_append_right _ hf)]; exact hG f hf,
      fun p hp => this p.flag (List.mem_append_left _ (List.mem_map.2 ⟨p, hp, rfl⟩))⟩
  subKeep := by
    intro R t o i o' j ⟨x, hx, h⟩ hG
    have key : ∀ f ∈ B.ps.map (·.flag) ++ B.unset, o'.flag f = o.flag f := fun f hf =>
      flag_congr (xsub_other (T.simple _ hx) h (fun hh => T.subFields _ hx f hh hf))
    exact ⟨fun f hf => by rw [key f (List.mem_append_right _ hf)]; exact hG f hf,
      fun p hp => key p.flag (List.mem_append_left _ (List.mem_map.2 ⟨p, hp, rfl⟩))⟩
  restFwd := fun K n s o' j h1 h2 _ h4 _ h => restFwd K n s o' j h1 h2 h4 h
  restBack := fun K n s s' c h1 h2 _ h4 _ h => restBack K n s s' c h1 h2 h4 h
  subFwd := by
    intro K n s o' j st h1 _ _ hk hl ⟨x, hx, h⟩
    rw [lookup_map, lookup_of_mem T.keys hx] at hl
    simp only [Option.map_some, Option.some.injEq] at hl
    subst hl
    exact xsub_fwd hw (T.simple _ hx) (T.keyNe _ hx).1 h1 h
  subBack := by
    intro K n s s' c st h1 _ _ hk hl h
    rw [lookup_map] at hl
    cases hl' : B.subs.lookup (E.current s.idx) with
    | none => rw [hl'] at hl; cases hl
    | some x =>
      rw [hl'] at hl
      simp only [Option.map_some, Option.some.injEq] at hl
      subst hl
      have hm := lookup_isSome hl'
      obtain ⟨g1, g2⟩ := xsub_back hw (T.simple _ hm) (T.keyNe _ hm).1 h1 h
      exact ⟨fun hc => ⟨(g1 hc).1, x, hm, (g1 hc).2⟩, g2⟩
  closing := closing
  bound := bound
  boundSub := by
    intro t o i o' j ⟨x, hx, h⟩
    obtain ⟨n0, d0, hb⟩ := xsub_bound h
    exact ⟨n0, d0, fun n d hn hd => ⟨x, hx, hb n d hn hd⟩⟩
  mono := mono
  monoSub := fun R R' hR t o i o' j ⟨x, hx, h⟩ => ⟨x, hx, xsub_mono hR h⟩

/-! ### The blocks -/

/-- The optional parts declared for a block (`Decl.shape`), as far as they are sub-objects. -/
def declared (p : PName) : List (Str × XSub) :=
  match shape p with
  | .block _ _ _ S _ => S.filterMap fun x =>
      match x.2 with
      | .obj q f md => some (x.1, .obj q f md)
      | .enum _ _ => none
  | _ => []

/-- A surplus word is ignored. -/
abbrev ignored : Env → Calls → Str → Obj → Nat → Obj → Nat → Prop := fun _ _ _ o i o' j => o' = o ∧ j = i

/-- BLOB, a2l/blob.go:33-144: name, long identifier, address, size; ADDRESS_TYPE takes its own first
token as the value. -/
def blob : Irr where
  p := .parseBlob
  fin := (str! "/end BLOB")
  ps := [⟨"name", "nameSet", .str⟩, ⟨"longIdentifier", "longIdentifierSet", .str⟩, ⟨"address", "addressSet", .str⟩,
    ⟨"size", "sizeSet", .uint 32⟩]
  subs := [((str! "/begin ANNOTATION"), .obj .parseAnnotation "annotation" .append),
    ((str! "ADDRESS_TYPE"), .enumHere parseAddrTypeEnum "addressType" "addressTypeSet"),
    ((str! "CALIBRATION_ACCESS"), .enumNext parseCalibrationAccessEnum "calibrationAccess"),
    ((str! "DISPLAY_IDENTIFIER"), .obj .parseDisplayIdentifier "displayIdentifier" .field),
    ((str! "ECU_ADDRESS_EXTENSION"), .obj .parseECUAddressExtension "ecuAddressExtension" .field),
    ((str! "/begin IF_DATA"), .obj .parseIfData "IfData" .append),
    ((str! "MAX_REFRESH"), .obj .parseMaxRefresh "maxRefresh" .field),
    ((str! "MODEL_LINK"), .obj .parseModelLink "modelLink" .field),
    ((str! "SYMBOL_LINK"), .obj .parseSymbolLink "symbolLink" .field)]
  rest := ignored
  close := fun o => if o.flag "addressTypeSet" = true then o else o.set "addressType" (.str (str! "DIRECT"))
  unset := []
  tail := []
  onFin := [.ite (.unset "addressTypeSet") (blk [.storeConst "addressType" Const.DIRECT]) (blk []), .brk]

/-- MEASUREMENT, a2l/measurement.go:51-290: name, long identifier, data type; each further word replaces
the conversion. -/
def measurement : Irr where
  p := .parseMeasurement
  fin := (str! "/end MEASUREMENT")
  ps := [⟨"name", "nameSet", .str⟩, ⟨"longIdentifier", "longIdentifierSet", .str⟩,
    ⟨"datatype", "datatypeSet", .enum parseDataTypeEnum⟩]
  subs := declared .parseMeasurement
  rest := fun _ _ t o i o' j => o' = o.set "conversion" (.str t) ∧ j = i
  close := id
  unset := ["conversionSet"]
  tail := (.unset "conversionSet", [.storeCur "conversion"]) :: List.map paramCase
    [⟨"resolution", "resolutionSet", .uint 16⟩, ⟨"accuracy", "accuracySet", .float⟩,
     ⟨"lowerLimit", "lowerLimitSet", .float⟩, ⟨"upperLimit", "upperLimitSet", .float⟩]
  onFin := [.brk]

/-- TYPEDEF_MEASUREMENT, a2l/type_def_measurement.go: the same. -/
def typeDefMeasurement : Irr where
  p := .parseTypeDefMeasurement
  fin := (str! "/end TYPEDEF_MEASUREMENT")
  ps := [⟨"name", "nameSet", .str⟩, ⟨"longIdentifier", "longIdentifierSet", .str⟩,
    ⟨"datatype", "datatypeSet", .enum parseDataTypeEnum⟩]
  subs := declared .parseTypeDefMeasurement
  rest := fun _ _ t o i o' j => o' = o.set "conversion" (.str t) ∧ j = i
  close := id
  unset := ["conversionSet"]
  tail := (.unset "conversionSet", [.storeCur "conversion"]) :: List.map paramCase
    [⟨"resolution", "resolutionSet", .uint 16⟩, ⟨"accuracy", "accuracySet", .float⟩,
     ⟨"lowerLimit", "lowerLimitSet", .float⟩, ⟨"upperLimit", "upperLimitSet", .float⟩]
  onFin := [.brk]

/-- MEMORY_LAYOUT, a2l/memory_layout.go:22-78: program type, address, size, five offsets. -/
def memoryLayout : Irr where
  p := .parseMemoryLayout
  fin := (str! "/end MEMORY_LAYOUT")
  ps := [⟨"prgType", "prgTypeSet", .enum parsePrgTypeEnum⟩, ⟨"address", "addressSet", .str⟩, ⟨"size", "sizeSet", .str⟩]
  subs := declared .parseMemoryLayout
  rest := fun E _ t o i o' j => j = i ∧
    if o.flag "offsetSet" = true then o' = o
    else ∃ v, Denotes E (.int 32) t v ∧ o' =
      if (o.list "offset").length + 1 = 5 then (o.set "offset" (.list (o.list "offset" ++ [v]))).set "offsetSet" (.bool true)
      else o.set "offset" (.list (o.list "offset" ++ [v]))
  close := id
  unset := []
  tail := [(.unset "offsetSet", [.conv (.int 32), ifErr true, .append "offset" (.int 32),
    .ite (.lenIs "offset" 5) (blk [.setTrue "offsetSet"]) (blk [])])]
  onFin := [.brk]

/-- MEMORY_SEGMENT, a2l/memory_segment.go:29-102: seven parameters; the next word is copied to all
five offsets. -/
def memorySegment : Irr where
  p := .parseMemorySegment
  fin := (str! "/end MEMORY_SEGMENT")
  ps := [⟨"name", "nameSet", .str⟩, ⟨"longIdentifier", "longIdentifierSet", .str⟩, ⟨"prgType", "prgTypeSet", .enum parsePrgTypeEnum⟩,
    ⟨"memoryType", "memoryTypeSet", .enum parseMemoryTypeEnum⟩, ⟨"attribute", "attributeSet", .enum parseAttributeEnum⟩,
    ⟨"address", "addressSet", .str⟩, ⟨"size", "sizeSet", .str⟩]
  subs := [((str! "/begin IF_DATA"), .obj .parseIfData "ifData" .append)]
  rest := fun _ _ t o i o' j => j = i ∧
    if o.flag "offsetSet" = true then o' = o
    else o' = (o.set "offset" (.list (List.replicate 5 (.str t)))).set "offsetSet" (.bool true)
  close := id
  unset := []
  tail := [(.unset "offsetSet", [.storeArr "offset" 5, .setTrue "offsetSet"])]
  onFin := [.brk]

/-- OVERWRITE, a2l/overwrite.go:24-100: name, axis number; CONVERSION and INPUT_QUANTITY keep their own
first token. -/
def overwrite : Irr where
  p := .parseOverwrite
  fin := (str! "/end OVERWRITE")
  ps := [⟨"name", "nameSet", .str⟩, ⟨"axisNumer", "axisNumberSet", .uint 16⟩]
  subs := [((str! "CONVERSION"), .word "conversion"), ((str! "EXTENDED_LIMITS"), .obj .parseExtendedLimits "extendedLimits" .field),
    ((str! "FORMAT"), .obj .parseFormat "format" .field), ((str! "INPUT_QUANTITY"), .word "inputQuantity"),
    ((str! "LIMITS"), .obj .parseLimits "limits" .field), ((str! "MONOTONY"), .obj .parseMonotony "monotony" .field),
    ((str! "PHYS_UNIT"), .obj .parsePhysUnit "physUnit" .field)]
  rest := ignored
  close := id
  unset := []
  tail := []
  onFin := [.brk]

/-- PROJECT, a2l/project.go:18-68: name, long identifier; a header and modules. -/
def project : Irr where
  p := .parseProject
  fin := (str! "/end PROJECT")
  ps := [⟨"Name", "nameSet", .str⟩, ⟨"longIdentifier", "longIdentifierSet", .str⟩]
  subs := [((str! "/begin HEADER"), .obj .parseHeader "header" .field), ((str! "/begin MODULE"), .module "Modules")]
  rest := ignored
  close := id
  unset := []
  tail := []
  onFin := [.brk]

/-- UNIT, a2l/unit.go:23-85: name; each further word replaces the long identifier. -/
def unit : Irr where
  p := .parseUnit
  fin := (str! "/end UNIT")
  ps := [⟨"name", "nameSet", .str⟩]
  subs := declared .parseUnit
  rest := fun _ _ t o i o' j => o' = (o.set "longIdentifier" (.str t)).set "nameSet" (.bool true) ∧ j = i
  close := id
  unset := ["longIdentifierSet"]
  tail := (.unset "longIdentifierSet", [.storeCur "longIdentifier", .setTrue "nameSet"]) :: List.map paramCase
    [⟨"display", "displaySet", .str⟩, ⟨"Type", "TypeSet", .enum parseTypeEnum⟩]
  onFin := [.brk]

/-- VARIANT_CODING, a2l/variant_coding.go:18-81: the first word that is no keyword introduces the
separator. -/
def variantCoding : Irr where
  p := .parseVariantCoding
  fin := (str! "/end VARIANT_CODING")
  ps := []
  subs := [((str! "/begin VAR_CHARACTERISTIC"), .obj .parseVarCharacteristic "varCharacteristic" .append),
    ((str! "/begin VAR_CRITERION"), .obj .parseVarCriterion "varCriterion" .append),
    ((str! "/begin VAR_FORBIDDEN_COMB"), .obj .parseVarForbiddenComb "varForbiddenComb" .append),
    ((str! "VAR_NAMING"), .obj .parseVarNaming "varNaming" .field)]
  rest := fun _ R _ o i o' j =>
    if o.flag "varSeparatorSet" = true then o' = o ∧ j = i
    else ∃ v, R .parseVarSeparator i j v ∧ o' = (o.set "varSeparator" v).set "varSeparatorSet" (.bool true)
  close := id
  unset := []
  tail := [(.unset "varSeparatorSet", [.callField "varSeparator" .parseVarSeparator, ifErr true, .setTrue "varSeparatorSet"])]
  onFin := [.brk]

/-- VAR_FORBIDDEN_COMB, a2l/var_forbidden_comb.go:16-48: pairs of criterion name and value. -/
def varForbiddenComb : Irr where
  p := .parseVarForbiddenComb
  fin := (str! "/end VAR_FORBIDDEN_COMB")
  ps := []
  subs := []
  rest := fun E _ t o i o' j => ∃ u, TokAfter E i u ∧ u ≠ [] ∧ j = i + 1 ∧
    o' = (o.set "criterionName" (.list (o.list "criterionName" ++ [.str t]))).set "criterionValue"
      (.list (o.list "criterionValue" ++ [.str u]))
  close := fun o => (o.set "criterionNameSet" (.bool true)).set "criterionValueSet" (.bool true)
  unset := ["criterionNameSet", "criterionValueSet"]
  tail := [(.or (.unset "criterionNameSet") (.unset "criterionValueSet"),
    [.appendCur "criterionName", .next, .ite (.retIs emptyToken) (blk [.setErr, .brk]) (blk [.appendCur "criterionValue"])])]
  onFin := [.setTrue "criterionNameSet", .setTrue "criterionValueSet", .brk]

/-- The irregular blocks. -/
def irrs : List Irr := [blob, measurement, typeDefMeasurement, memoryLayout, memorySegment, overwrite, project, unit, variantCoding,
  varForbiddenComb]

theorem irrs_body (E : Env) : ∀ B ∈ irrs, A2l.body B.p = blk [.loop (Loose.body B.fin (B.spec E) B.tail B.onFin B.code)] := by
  intro B hB
  simp only [irrs, List.mem_cons, List.not_mem_nil, or_false] at hB
  rcases hB with rfl | rfl | rfl | rfl | rfl | rfl | rfl | rfl | rfl | rfl <;> rfl

theorem irrs_ok : ∀ B ∈ irrs, B.Ok := by
  intro B hB
  simp only [irrs, List.mem_cons, List.not_mem_nil, or_false] at hB
  rcases hB with rfl | rfl | rfl | rfl | rfl | rfl | rfl | rfl | rfl | rfl <;> decide +kernel

theorem exec_brk (s : St) : exec E K n (blk [.brk]) s = .ok s .brk := by
  simp only [exec_blk_cons, exec]

theorem flag_iff {o : Obj} {f : String} : (!o.flag f) = true ↔ o.flag f = false := by cases o.flag f <;> simp

/-- Blocks that ignore surplus words. -/
theorem follows_ignored (hw : Wf E) {B : Irr} (hB : B.Ok) (h1 : B.rest = ignored) (h2 : B.tail = [])
    (closing : ∀ K n s, ∃ s', exec E K n (blk B.onFin) s = .ok s' .brk ∧ s'.err = s.err ∧ s'.obj = B.close s.obj ∧ s'.idx = s.idx) :
    Follows E B.fin (B.spec E) (Unset B.unset) B.tail B.onFin B.code := by
  refine follows_irr hw hB ?_ ?_ ?_ closing ?_ ?_
  · intro R t o i o' j h _ _ f _
    rw [h1] at h
    rw [h.1]
  · intro K n s o' j he _ _ h
    rw [h1] at h
    rw [h2]
    obtain ⟨rfl, rfl⟩ := h
    exact ⟨s, by simp only [chain, exec_blk_nil], he, rfl, rfl⟩
  · intro K n s s' c he _ _ h
    rw [h2] at h
    simp only [chain, exec_blk_nil, Out.ok.injEq] at h
    obtain ⟨rfl, rfl⟩ := h
    rw [h1]
    exact ⟨fun _ => ⟨he, rfl, rfl⟩, fun h => by cases h⟩
  · intro t o i o' j h
    rw [h1] at h ⊢
    exact ⟨0, 0, fun _ _ _ _ => h⟩
  · intro R R' _ t o i o' j h
    rw [h1] at h ⊢
    exact h

theorem closing_brk (K : PName → Nat → PRes) (n : Nat) (s : St) :
    ∃ s', exec E K n (blk [.brk]) s = .ok s' .brk ∧ s'.err = s.err ∧ s'.obj = id s.obj ∧ s'.idx = s.idx :=
  ⟨s, exec_brk s, rfl, rfl, rfl⟩

theorem follows_blob (hw : Wf E) : Follows E blob.fin (blob.spec E) (Unset blob.unset) blob.tail blob.onFin blob.code := by
  refine follows_ignored hw (irrs_ok _ (by simp [irrs])) rfl rfl fun K n s => ?_
  cases h : s.obj.flag "addressTypeSet" with
  | true =>
    refine ⟨s, ?_, rfl, ?_, rfl⟩
    · simp [blob, exec_blk_cons, exec, holds, h, exec_blk_nil]
    · simp [blob, h]
  | false =>
    refine ⟨{ s with obj := s.obj.set "addressType" (.str Const.DIRECT) }, ?_, rfl, ?_, rfl⟩
    · simp [blob, exec_blk_cons, exec, holds, h, exec_blk_nil]
    · simp [blob, h]; rfl

theorem follows_overwrite (hw : Wf E) :
    Follows E overwrite.fin (overwrite.spec E) (Unset overwrite.unset) overwrite.tail overwrite.onFin overwrite.code :=
  follows_ignored hw (irrs_ok _ (by simp [irrs])) rfl rfl closing_brk

theorem follows_project (hw : Wf E) :
    Follows E project.fin (project.spec E) (Unset project.unset) project.tail project.onFin project.code :=
  follows_ignored hw (irrs_ok _ (by simp [irrs])) rfl rfl closing_brk

/-- A first case that applies. -/
theorem chain_first {c : Cond} {b : List Stmt} {l : List (Cond × List Stmt)} {s : St} (h : holds E s c = true) :
    exec E K n (blk (chain ((c, b) :: l))) s = exec E K n (blk b) s := by
  simp only [chain, exec_blk_one, exec, h, if_true]

/-- A first case that does not apply. -/
theorem chain_next {c : Cond} {b : List Stmt} {l : List (Cond × List Stmt)} {s : St} (h : holds E s c = false) :
    exec E K n (blk (chain ((c, b) :: l))) s = exec E K n (blk (chain l)) s := by
  simp only [chain, exec_blk_one, exec, h, Bool.false_eq_true, if_false]

theorem holds_unset {s : St} {f : String} : holds E s (.unset f) = !s.obj.flag f := rfl

/-- Blocks in which each surplus word replaces a value. -/
theorem follows_replace (hw : Wf E) {B : Irr} (hB : B.Ok) {g : Obj → Str → Obj} {U : String} {code : List Stmt}
    {more : List (Cond × List Stmt)} (h1 : B.rest = fun _ _ t o i o' j => o' = g o t ∧ j = i) (h2 : B.tail = (.unset U, code) :: more)
    (h3 : B.unset = [U]) (h4 : B.onFin = [.brk]) (h5 : B.close = id)
    (hg : ∀ o t, Unset B.unset o → (∀ p ∈ B.ps, o.flag p.flag = true) → ∀ f ∈ B.ps.map (·.flag) ++ B.unset, (g o t).flag f = o.flag f)
    (hc : ∀ (K : PName → Nat → PRes) (n : Nat) (s : St), exec E K n (blk code) s = .ok { s with obj := g s.obj (E.current s.idx) } .cont) :
    Follows E B.fin (B.spec E) (Unset B.unset) B.tail B.onFin B.code := by
  refine follows_irr hw hB ?_ ?_ ?_ ?_ ?_ ?_
  · intro R t o i o' j h hu ha f hf
    rw [h1] at h
    obtain ⟨rfl, _⟩ := h
    exact hg o t hu ha f hf
  · intro K n s o' j he hu _ h
    rw [h1] at h
    obtain ⟨rfl, rfl⟩ := h
    rw [h2, chain_first (by rw [holds_unset, hu U (by rw [h3]; simp)]; rfl), hc]
    exact ⟨_, rfl, he, rfl, rfl⟩
  · intro K n s s' c he hu _ h
    rw [h2, chain_first (by rw [holds_unset, hu U (by rw [h3]; simp)]; rfl), hc] at h
    simp only [Out.ok.injEq] at h
    obtain ⟨rfl, rfl⟩ := h
    rw [h1]
    exact ⟨fun _ => ⟨he, rfl, rfl⟩, fun h => by cases h⟩
  · rw [h4, h5]; exact closing_brk
  · intro t o i o' j h
    rw [h1] at h ⊢
    exact ⟨0, 0, fun _ _ _ _ => h⟩
  · intro R R' _ t o i o' j h
    rw [h1] at h ⊢
    exact h

theorem follows_measurement (hw : Wf E) : Follows E measurement.fin (measurement.spec E) (Unset measurement.unset)
    measurement.tail measurement.onFin measurement.code := by
  refine follows_replace hw (irrs_ok _ (by simp [irrs])) (g := fun o t => o.set "conversion" (.str t)) rfl rfl rfl rfl rfl ?_ ?_
  · intro o t _ _ f hf
    refine flag_other _ _ ?_
    intro hh
    subst hh
    exact absurd hf (by decide)
  · intro K n s
    simp only [exec_blk_cons, exec, exec_blk_nil]

theorem follows_typeDefMeasurement (hw : Wf E) : Follows E typeDefMeasurement.fin (typeDefMeasurement.spec E)
    (Unset typeDefMeasurement.unset) typeDefMeasurement.tail typeDefMeasurement.onFin typeDefMeasurement.code := by
  refine follows_replace hw (irrs_ok _ (by simp [irrs])) (g := fun o t => o.set "conversion" (.str t)) rfl rfl rfl rfl rfl ?_ ?_
  · intro o t _ _ f hf
    refine flag_other _ _ ?_
    intro hh
    subst hh
    exact absurd hf (by decide)
  · intro K n s
    simp only [exec_blk_cons, exec, exec_blk_nil]

theorem follows_unit (hw : Wf E) : Follows E unit.fin (unit.spec E) (Unset unit.unset) unit.tail unit.onFin unit.code := by
  refine follows_replace hw (irrs_ok _ (by simp [irrs]))
    (g := fun o t => (o.set "longIdentifier" (.str t)).set "nameSet" (.bool true)) rfl rfl rfl rfl rfl ?_ ?_
  · intro o t _ ha f hf
    have hn := ha ⟨"name", "nameSet", .str⟩ (by simp [unit])
    simp only [unit, List.map_cons, List.map_nil, List.cons_append, List.nil_append, List.mem_cons, List.not_mem_nil, or_false] at hf
    rcases hf with rfl | rfl
    · rw [flag_same]; exact hn.symm
    · rw [flag_other _ _ (by decide), flag_other _ _ (by decide)]
  · intro K n s
    simp only [exec_blk_cons, exec, exec_blk_nil]

theorem follows_memorySegment (hw : Wf E) : Follows E memorySegment.fin (memorySegment.spec E) (Unset memorySegment.unset)
    memorySegment.tail memorySegment.onFin memorySegment.code := by
  refine follows_irr hw (irrs_ok _ (by simp [irrs])) ?_ ?_ ?_ closing_brk (fun t o i o' j h => ⟨0, 0, fun _ _ _ _ => h⟩)
    (fun _ _ _ _ _ _ _ _ h => h)
  · intro R t o i o' j h _ _ f hf
    obtain ⟨_, h⟩ := h
    split at h
    · rw [h]
    · rw [h, flag_other _ _ (by rintro rfl; exact absurd hf (by decide)), flag_other _ _ (by rintro rfl; exact absurd hf (by decide))]
  · intro K n s o' j he _ _ h
    obtain ⟨rfl, h⟩ := h
    cases hf : s.obj.flag "offsetSet" with
    | true =>
      rw [if_pos hf] at h
      rw [memorySegment, chain_next (by rw [holds_unset, hf]; rfl)]
      exact ⟨s, by simp only [chain, exec_blk_nil], he, h.symm, rfl⟩
    | false =>
      rw [if_neg (by rw [hf]; decide)] at h
      rw [memorySegment, chain_first (by rw [holds_unset, hf]; rfl)]
      exact ⟨{ s with obj := o' }, by simp only [exec_blk_cons, exec, exec_blk_nil, h], he, rfl, rfl⟩
  · intro K n s s' c he _ _ h
    cases hf : s.obj.flag "offsetSet" with
    | true =>
      rw [memorySegment, chain_next (by rw [holds_unset, hf]; rfl)] at h
      simp only [chain, exec_blk_nil, Out.ok.injEq] at h
      obtain ⟨rfl, rfl⟩ := h
      exact ⟨fun _ => ⟨he, rfl, by rw [if_pos hf]⟩, fun h => by cases h⟩
    | false =>
      rw [memorySegment, chain_first (by rw [holds_unset, hf]; rfl)] at h
      simp only [exec_blk_cons, exec, exec_blk_nil, Out.ok.injEq] at h
      obtain ⟨rfl, rfl⟩ := h
      exact ⟨fun _ => ⟨he, rfl, by rw [if_neg (by rw [hf]; decide)]⟩, fun h => by cases h⟩

theorem follows_variantCoding (hw : Wf E) : Follows E variantCoding.fin (variantCoding.spec E) (Unset variantCoding.unset)
    variantCoding.tail variantCoding.onFin variantCoding.code := by
  refine follows_irr hw (irrs_ok _ (by simp [irrs])) ?_ ?_ ?_ closing_brk ?_ ?_
  · intro R t o i o' j h _ _ f hf
    simp [variantCoding] at hf
  · intro K n s o' j he _ _ h
    cases hf : s.obj.flag "varSeparatorSet" with
    | true =>
      simp only [variantCoding, hf, if_true] at h
      rw [variantCoding, chain_next (by rw [holds_unset, hf]; rfl)]
      exact ⟨s, by simp only [chain, exec_blk_nil], he, h.1.symm, h.2.symm⟩
    | false =>
      simp only [variantCoding, hf, Bool.false_eq_true, if_false] at h
      obtain ⟨v, h1, rfl⟩ := h
      unfold Suc at h1
      rw [variantCoding, chain_first (by rw [holds_unset, hf]; rfl)]
      exact ⟨{ s with idx := j, obj := (s.obj.set "varSeparator" v).set "varSeparatorSet" (.bool true), err := false },
        by simp only [exec_blk_cons, exec, h1, ifErr, holds, Bool.false_eq_true, if_false, exec_blk_nil], rfl, rfl, rfl⟩
  · intro K n s s' c he _ _ h
    cases hf : s.obj.flag "varSeparatorSet" with
    | true =>
      rw [variantCoding, chain_next (by rw [holds_unset, hf]; rfl)] at h
      simp only [chain, exec_blk_nil, Out.ok.injEq] at h
      obtain ⟨rfl, rfl⟩ := h
      exact ⟨fun _ => ⟨he, by simp only [variantCoding, hf, if_true, and_self]⟩, fun h => by cases h⟩
    | false =>
      rw [variantCoding, chain_first (by rw [holds_unset, hf]; rfl)] at h
      cases hK : K .parseVarSeparator s.idx with
      | panic => simp [exec_blk_cons, exec, hK] at h
      | timeout => simp [exec_blk_cons, exec, hK] at h
      | ok i v e =>
        simp only [exec_blk_cons, exec, hK, ifErr, holds, exec_blk_nil] at h
        cases e with
        | true =>
          simp only [if_true, exec_blk_cons, exec, Out.ok.injEq] at h
          obtain ⟨rfl, rfl⟩ := h
          exact ⟨fun h => (by cases h), fun _ => rfl⟩
        | false =>
          simp only [Bool.false_eq_true, if_false, Out.ok.injEq] at h
          obtain ⟨rfl, rfl⟩ := h
          refine ⟨fun _ => ⟨rfl, ?_⟩, fun h => by cases h⟩
          simp only [variantCoding, hf, Bool.false_eq_true, if_false]
          exact ⟨v, hK, rfl⟩
  · intro t o i o' j h
    simp only [variantCoding] at h ⊢
    split at h
    · rename_i hf
      exact ⟨0, 0, fun _ _ _ _ => by rw [if_pos hf]; exact h⟩
    · rename_i hf
      obtain ⟨v, ⟨_, n0, d0, h1⟩, h2⟩ := h
      exact ⟨n0, d0, fun n d hn hd => by rw [if_neg hf]; exact ⟨v, h1 n d hn hd, h2⟩⟩
  · intro R R' hR t o i o' j h
    simp only [variantCoding] at h ⊢
    split at h
    · rename_i hf
      rw [if_pos hf]; exact h
    · rename_i hf
      obtain ⟨v, h1, h2⟩ := h
      rw [if_neg hf]; exact ⟨v, hR _ _ _ _ h1, h2⟩

theorem follows_varForbiddenComb (hw : Wf E) : Follows E varForbiddenComb.fin (varForbiddenComb.spec E)
    (Unset varForbiddenComb.unset) varForbiddenComb.tail varForbiddenComb.onFin varForbiddenComb.code := by
  have hrow : ∀ (K : PName → Nat → PRes) (n : Nat) (s : St) {u : Str}, Unset varForbiddenComb.unset s.obj → TokAfter E s.idx u →
      exec E K n (blk (chain varForbiddenComb.tail)) s =
        if u = [] then .ok { s with
          idx := s.idx + 1, ret := u, err := true
          obj := s.obj.set "criterionName" (.list (s.obj.list "criterionName" ++ [.str (E.current s.idx)])) } .brk
        else .ok { s with
          idx := s.idx + 1, ret := u
          obj := (s.obj.set "criterionName" (.list (s.obj.list "criterionName" ++ [.str (E.current s.idx)]))).set "criterionValue"
            (.list (s.obj.list "criterionValue" ++ [.str u])) } .cont := by
    intro K n s u hU hu
    rw [varForbiddenComb, chain_first (by
      have := hU "criterionNameSet" (by simp [varForbiddenComb])
      simp [holds, this])]
    rw [exec_blk_cons]
    simp only [exec]
    rw [exec_next (u := u)]
    · simp only [exec_blk_cons, exec, holds]
      by_cases h : u = []
      · subst h
        simp [emptyToken]
      · have e : (s.obj.set "criterionName" (.list (s.obj.list "criterionName" ++ [.str (E.current s.idx)]))).list "criterionValue" =
            s.obj.list "criterionValue" := by simp [Obj.list, Obj.set]
        simp [h, emptyToken, exec_blk_nil, e, current_next hu]
    · exact hu
  refine follows_irr hw (irrs_ok _ (by simp [irrs])) ?_ ?_ ?_ ?_ (fun t o i o' j h => ⟨0, 0, fun _ _ _ _ => h⟩)
    (fun _ _ _ _ _ _ _ _ h => h)
  · intro R t o i o' j h _ _ f hf
    obtain ⟨u, _, _, _, rfl⟩ := h
    rw [flag_other _ _ (by rintro rfl; exact absurd hf (by decide)), flag_other _ _ (by rintro rfl; exact absurd hf (by decide))]
  · intro K n s o' j he hU _ h
    obtain ⟨u, h1, h2, rfl, rfl⟩ := h
    rw [hrow K n s hU h1, if_neg h2]
    exact ⟨_, rfl, he, rfl, rfl⟩
  · intro K n s s' c he hU h0 h
    obtain ⟨_, u, hu⟩ := next_tok hw h0
    rw [hrow K n s hU hu] at h
    split at h
    · simp only [Out.ok.injEq] at h
      obtain ⟨rfl, rfl⟩ := h
      exact ⟨fun h => (by cases h), fun _ => rfl⟩
    · rename_i hne
      simp only [Out.ok.injEq] at h
      obtain ⟨rfl, rfl⟩ := h
      exact ⟨fun _ => ⟨he, u, hu, hne, rfl, rfl⟩, fun h => by cases h⟩
  · intro K n s
    exact ⟨{ s with obj := varForbiddenComb.close s.obj }, by simp only [varForbiddenComb, exec_blk_cons, exec], rfl, rfl, rfl⟩

theorem follows_memoryLayout (hw : Wf E) : Follows E memoryLayout.fin (memoryLayout.spec E) (Unset memoryLayout.unset)
    memoryLayout.tail memoryLayout.onFin memoryLayout.code := by
  have hrow : ∀ (K : PName → Nat → PRes) (n : Nat) (s : St) (z : Int), s.obj.flag "offsetSet" = false →
      parseInt (E.current s.idx) 32 = (z, true) → castVal (.int 32) (.int z) = .int z →
      exec E K n (blk (chain memoryLayout.tail)) s = .ok { s with
        buf := .int z, err := false
        obj := if (s.obj.list "offset").length + 1 = 5 then
          (s.obj.set "offset" (.list (s.obj.list "offset" ++ [.int z]))).set "offsetSet" (.bool true)
        else s.obj.set "offset" (.list (s.obj.list "offset" ++ [.int z])) } .cont := by
    intro K n s z hf hp hcast
    rw [memoryLayout, chain_first (by rw [holds_unset, hf]; rfl)]
    have e : (s.obj.set "offset" (.list (s.obj.list "offset" ++ [.int z]))).list "offset" = s.obj.list "offset" ++ [.int z] := by
      simp [Obj.list, Obj.set]
    simp only [exec_blk_cons, exec, convert, hp, Bool.not_true, ifErr, holds, Bool.false_eq_true, if_false, exec_blk_nil, hcast, e,
      List.length_append, List.length_singleton]
    by_cases h5 : (s.obj.list "offset").length + 1 = 5
    · simp [h5]
    · simp [h5]
  refine follows_irr hw (irrs_ok _ (by simp [irrs])) ?_ ?_ ?_ closing_brk (fun t o i o' j h => ⟨0, 0, fun _ _ _ _ => h⟩)
    (fun _ _ _ _ _ _ _ _ h => h)
  · intro R t o i o' j h _ _ f hf
    obtain ⟨_, h⟩ := h
    have n1 : f ≠ "offset" := by rintro rfl; exact absurd hf (by decide)
    have n2 : f ≠ "offsetSet" := by rintro rfl; exact absurd hf (by decide)
    split at h
    · rw [h]
    · obtain ⟨v, _, rfl⟩ := h
      split
      · rw [flag_other _ _ n2, flag_other _ _ n1]
      · rw [flag_other _ _ n1]
  · intro K n s o' j he _ _ h
    obtain ⟨rfl, h⟩ := h
    cases hf : s.obj.flag "offsetSet" with
    | true =>
      rw [if_pos hf] at h
      rw [memoryLayout, chain_next (by rw [holds_unset, hf]; rfl)]
      exact ⟨s, by simp only [chain, exec_blk_nil], he, h.symm, rfl⟩
    | false =>
      rw [if_neg (by rw [hf]; decide)] at h
      obtain ⟨v, ⟨z, h1, h2, h3, rfl⟩, rfl⟩ := h
      rw [hrow K n s z hf ((parseInt_ok (E.current s.idx) 32 z).2 ⟨h1, h2, h3⟩) (by rw [castVal, castInt_int (by decide) h2 h3])]
      exact ⟨_, rfl, rfl, rfl, rfl⟩
  · intro K n s s' c he _ _ h
    cases hf : s.obj.flag "offsetSet" with
    | true =>
      rw [memoryLayout, chain_next (by rw [holds_unset, hf]; rfl)] at h
      simp only [chain, exec_blk_nil, Out.ok.injEq] at h
      obtain ⟨rfl, rfl⟩ := h
      exact ⟨fun _ => ⟨he, rfl, by rw [if_pos hf]⟩, fun h => by cases h⟩
    | false =>
      cases hc : (parseInt (E.current s.idx) 32).2 with
      | true =>
        obtain ⟨h1, h2, h3⟩ := (parseInt_ok (E.current s.idx) 32 (parseInt (E.current s.idx) 32).1).1 (by rw [← hc])
        rw [hrow K n s _ hf ((parseInt_ok (E.current s.idx) 32 _).2 ⟨h1, h2, h3⟩) (by rw [castVal, castInt_int (by decide) h2 h3])] at h
        simp only [Out.ok.injEq] at h
        obtain ⟨rfl, rfl⟩ := h
        refine ⟨fun _ => ⟨rfl, rfl, ?_⟩, fun h => by cases h⟩
        rw [if_neg (by rw [hf]; decide)]
        exact ⟨_, ⟨_, h1, h2, h3, rfl⟩, rfl⟩
      | false =>
        rw [memoryLayout, chain_first (by rw [holds_unset, hf]; rfl)] at h
        simp only [exec_blk_cons, exec, convert, hc, Bool.not_false, ifErr, holds, if_true, Out.ok.injEq] at h
        obtain ⟨rfl, rfl⟩ := h
        exact ⟨fun h => (by cases h), fun _ => rfl⟩

/-- Every irregular block is read by its parse function as described. -/
theorem follows_irrs (hw : Wf E) : ∀ B ∈ irrs, Follows E B.fin (B.spec E) (Unset B.unset) B.tail B.onFin B.code := by
  intro B hB
  simp only [irrs, List.mem_cons, List.not_mem_nil, or_false] at hB
  rcases hB with rfl | rfl | rfl | rfl | rfl | rfl | rfl | rfl | rfl | rfl
  · exact follows_blob hw
  · exact follows_measurement hw
  · exact follows_typeDefMeasurement hw
  · exact follows_memoryLayout hw
  · exact follows_memorySegment hw
  · exact follows_overwrite hw
  · exact follows_project hw
  · exact follows_unit hw
  · exact follows_variantCoding hw
  · exact follows_varForbiddenComb hw

end Verif.A2l.Loose
