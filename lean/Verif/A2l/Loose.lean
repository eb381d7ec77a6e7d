import Verif.A2l.ObjProps2

/-!
Blocks whose parse function does not follow the common form (`Template.irregular`): after the
positional parameters they read rows of a table, a fixed number of offsets, and so on, or they
forget to set a marker. What such a block consists of is described by `Spec`; the generic
theorems here say that a parse function of the form `form` reads exactly these blocks.
-/

namespace Verif.A2l.Loose
open Verif.Go Verif.A2l Lang Decl Analysis Template

/-- How calls of other parse functions succeed: function, position before and after, value. -/
abbrev Calls := PName → Nat → Nat → Val → Prop

/-- What an irregular block consists of: the positional parameters, the first tokens of the
optional parts, what a word after the parameters stands for (`rest R t o i o' j`: with the word
`t` at position `i` the values `o` become `o'`, and `j` is the position of the last token that
belongs to it), what an optional part stands for, and what happens to the values at the closing
token. -/
structure Spec where
  ps : List Param
  keys : List Str
  rest : Calls → Str → Obj → Nat → Obj → Nat → Prop
  sub : Calls → Str → Obj → Nat → Obj → Nat → Prop
  close : Obj → Obj

/-- One item of an irregular block. Here the markers belong to the values. -/
inductive Item (E : Env) (R : Calls) (fin : Str) (L : Spec) : Decl.Pos → Decl.Pos → Prop
  | param {m o i t v} {p : Param} (hp : L.ps[m]? = some p) (ht : TokAfter E i t)
      (hne : t ≠ []) (hfin : t ≠ fin) (hs : t ∉ L.keys) (hkw : t ∉ keywords) (hv : Denotes E p.kind t v) :
      Item E R fin L ⟨m, o, i⟩ ⟨m + 1, (o.set p.field v).set p.flag (.bool true), i + 1⟩
  | rest {m o o' i j t} (hm : m = L.ps.length) (ht : TokAfter E i t)
      (hne : t ≠ []) (hfin : t ≠ fin) (hs : t ∉ L.keys) (hkw : t ∉ keywords) (h : L.rest R t o (i + 1) o' j) :
      Item E R fin L ⟨m, o, i⟩ ⟨m, o', j⟩
  | sub {m o o' i j t} (hs : t ∈ L.keys) (ht : TokAfter E i t) (h : L.sub R t o (i + 1) o' j) :
      Item E R fin L ⟨m, o, i⟩ ⟨m, o', j⟩

/-- A sequence of items. -/
inductive Items (E : Env) (R : Calls) (fin : Str) (L : Spec) : Nat → Decl.Pos → Decl.Pos → Prop
  | nil {x} : Items E R fin L 0 x x
  | cons {n x y z} (h : Item E R fin L x y) (hs : Items E R fin L n y z) : Items E R fin L (n + 1) x z

/-- The tokens after position `i` up to `i'` are the irregular block `L`, closed by `fin`, with
values `o`. -/
def Block (E : Env) (fin : Str) (L : Spec) (i i' : Nat) (o : Obj) : Prop :=
  ∃ n m j o₁, Items E (Succeeds E) fin L n ⟨0, Obj.empty, i⟩ ⟨m, o₁, j⟩ ∧ TokAfter E j fin ∧ i' = j + 1 ∧
    o = L.close o₁

/-! ### The form of the parse functions -/

/-- `if tok.current() == emptyToken ... else if == fin ... else if isKeyword ... else plain` -/
def guards (fin : Str) (onEmpty onFin onKw plain : List Stmt) : List Stmt :=
  [.ite (.curIs emptyToken) (blk onEmpty) (blk [.ite (.curIs fin) (blk onFin) (blk [.ite .curKw (blk onKw) (blk plain)])])]

def form (fin : Str) (subs : List (Str × List Stmt)) (onEmpty onFin onKw plain : List Stmt) : Stmt :=
  match subs with
  | [] => blk (.next :: guards fin onEmpty onFin onKw plain)
  | s :: ss => blk [.next, switchRet ((s :: ss).map fun x => (x.1, blk x.2)) (blk (guards fin onEmpty onFin onKw plain))]

variable {E : Env} {K : PName → Nat → PRes} {n : Nat}
variable {fin : Str} {subs : List (Str × List Stmt)} {onEmpty onFin onKw plain : List Stmt}

theorem exec_guards (s : St) : exec E K n (blk (guards fin onEmpty onFin onKw plain)) s =
    if E.current s.idx = [] then exec E K n (blk onEmpty) s
    else if E.current s.idx = fin then exec E K n (blk onFin) s
    else if E.current s.idx ∈ keywords then exec E K n (blk onKw) s
    else exec E K n (blk plain) s := by
  simp only [guards, exec_blk_one, exec, holds]
  by_cases h1 : E.current s.idx = []
  · simp [h1, emptyToken]
  · by_cases h2 : E.current s.idx = fin
    · simp [h1, h2, emptyToken]
    · by_cases h3 : E.current s.idx ∈ keywords
      · simp [h1, h2, h3, emptyToken, isKeyword]
      · simp [h1, h2, h3, emptyToken, isKeyword]

theorem exec_form (hw : Wf E) (s : St) : exec E K n (form fin subs onEmpty onFin onKw plain) s =
    match subs.lookup (tokAt E s.idx) with
    | some st => exec E K n (blk st) (doNext E s)
    | none =>
      if tokAt E s.idx = [] then exec E K n (blk onEmpty) (doNext E s)
      else if tokAt E s.idx = fin then exec E K n (blk onFin) (doNext E s)
      else if tokAt E s.idx ∈ keywords then exec E K n (blk onKw) (doNext E s)
      else exec E K n (blk plain) (doNext E s) := by
  obtain ⟨hr, hc, _⟩ := doNext_spec hw s
  rw [← hc]
  cases subs with
  | nil =>
    show exec E K n (blk (.next :: guards fin onEmpty onFin onKw plain)) s = _
    rw [exec_blk_cons]
    simp only [exec, List.lookup_nil]
    exact exec_guards _
  | cons x l =>
    show exec E K n (blk [Stmt.next, _]) s = _
    rw [exec_blk_cons]
    simp only [exec]
    rw [exec_blk_one, exec_switch, hr, lookup_map _ (fun y => blk y), hc]
    cases (x :: l).lookup (tokAt E s.idx) with
    | some st => rfl
    | none => simp only [Option.map_none]; rw [exec_guards, hc]

/-- The markers of the parameters: the first `m` are set. -/
structure Marked (ps : List Param) (m : Nat) (o : Obj) : Prop where
  le : m ≤ ps.length
  set : ∀ j (h : j < ps.length), o.flag ps[j].flag = decide (j < m)

/-- What the code for words after the parameters (`tail`), optional parts (`subs`) and the
closing token (`onFin`) has to do to follow `L`; `G` is an invariant of the values. -/
structure Follows (E : Env) (fin : Str) (L : Spec) (G : Obj → Prop) (tail : List (Cond × List Stmt)) (onFin : List Stmt)
    (subs : List (Str × List Stmt)) : Prop where
  nodup : (L.ps.map (·.flag)).Nodup
  kinds : ∀ p ∈ L.ps, kindOk p.kind = true
  fields : ∀ p ∈ L.ps, p.field ∉ L.ps.map (·.flag)
  keys : subs.map (·.1) = L.keys
  keyNe : ∀ k ∈ L.keys, k ≠ [] ∧ k ≠ fin
  finNe : fin ≠ []
  start : G Obj.empty
  param : ∀ o v, ∀ p ∈ L.ps, G o → G ((o.set p.field v).set p.flag (.bool true))
  restKeep : ∀ R t o i o' j, L.rest R t o i o' j → G o → (∀ p ∈ L.ps, o.flag p.flag = true) → G o' ∧ ∀ p ∈ L.ps, o'.flag p.flag = o.flag p.flag
  subKeep : ∀ R t o i o' j, L.sub R t o i o' j → G o → G o' ∧ ∀ p ∈ L.ps, o'.flag p.flag = o.flag p.flag
  restFwd : ∀ K n s o' j, s.err = false → G s.obj → s.ret = E.current s.idx → E.current s.idx ≠ [] →
    E.current s.idx ∉ keywords → L.rest (Suc K) (E.current s.idx) s.obj s.idx o' j →
    ∃ s', exec E K n (blk (chain tail)) s = .ok s' .cont ∧ s'.err = false ∧ s'.obj = o' ∧ s'.idx = j
  restBack : ∀ K n s s' c, s.err = false → G s.obj → s.ret = E.current s.idx → E.current s.idx ≠ [] →
    E.current s.idx ∉ keywords → exec E K n (blk (chain tail)) s = .ok s' c →
    (c = .cont → s'.err = false ∧ L.rest (Suc K) (E.current s.idx) s.obj s.idx s'.obj s'.idx) ∧
    (c = .brk → s'.err = true)
  subFwd : ∀ K n s o' j st, s.err = false → G s.obj → s.ret = E.current s.idx → E.current s.idx ∈ L.keys →
    subs.lookup (E.current s.idx) = some st → L.sub (Suc K) (E.current s.idx) s.obj s.idx o' j →
    ∃ s', exec E K n (blk st) s = .ok s' .cont ∧ s'.err = false ∧ s'.obj = o' ∧ s'.idx = j
  subBack : ∀ K n s s' c st, s.err = false → G s.obj → s.ret = E.current s.idx → E.current s.idx ∈ L.keys →
    subs.lookup (E.current s.idx) = some st → exec E K n (blk st) s = .ok s' c →
    (c = .cont → s'.err = false ∧ L.sub (Suc K) (E.current s.idx) s.obj s.idx s'.obj s'.idx) ∧
    (c = .brk → s'.err = true)
  closing : ∀ K n s, ∃ s', exec E K n (blk onFin) s = .ok s' .brk ∧ s'.err = s.err ∧ s'.obj = L.close s.obj ∧
    s'.idx = s.idx
  bound : ∀ t o i o' j, L.rest (Succeeds E) t o i o' j →
    ∃ n₀ d₀, ∀ n d, n₀ ≤ n → d₀ ≤ d → L.rest (Suc (run E n d)) t o i o' j
  boundSub : ∀ t o i o' j, L.sub (Succeeds E) t o i o' j →
    ∃ n₀ d₀, ∀ n d, n₀ ≤ n → d₀ ≤ d → L.sub (Suc (run E n d)) t o i o' j
  mono : ∀ (R R' : Calls), (∀ q i j v, R q i j v → R' q i j v) → ∀ t o i o' j, L.rest R t o i o' j → L.rest R' t o i o' j
  monoSub : ∀ (R R' : Calls), (∀ q i j v, R q i j v → R' q i j v) → ∀ t o i o' j, L.sub R t o i o' j → L.sub R' t o i o' j

variable {L : Spec} {G : Obj → Prop} {tail : List (Cond × List Stmt)}

theorem Marked.keep {ps : List Param} {m : Nat} {o o' : Obj} (h : Marked ps m o)
    (hk : ∀ p ∈ ps, o'.flag p.flag = o.flag p.flag) : Marked ps m o' :=
  ⟨h.le, fun j hj => by rw [hk _ (List.getElem_mem hj), h.set j hj]⟩

theorem Marked.all {ps : List Param} {m : Nat} {o : Obj} (h : Marked ps m o) (hm : m = ps.length) :
    ∀ p ∈ ps, o.flag p.flag = true := by
  intro p hp
  obtain ⟨j, hj, rfl⟩ := List.getElem_of_mem hp
  rw [h.set j hj]
  simp only [decide_eq_true_eq]
  omega

theorem Marked.next {ps : List Param} {m : Nat} {o : Obj} (h : Marked ps m o) (hn : (ps.map (·.flag)).Nodup) {p : Param}
    (hp : ps[m]? = some p) (hf : p.field ∉ ps.map (·.flag)) (v : Val) :
    Marked ps (m + 1) ((o.set p.field v).set p.flag (.bool true)) := by
  obtain ⟨hm, hpm⟩ := List.getElem?_eq_some_iff.1 hp
  refine ⟨hm, fun j hj => ?_⟩
  by_cases hjm : j = m
  · subst hjm
    rw [hpm, flag_same]
    simp
  · have hne : ps[j].flag ≠ p.flag := by
      intro hh
      have h1 : (ps.map (·.flag))[j]'(by simpa using hj) = (ps.map (·.flag))[m]'(by simpa using hm) := by
        simp [hh, hpm]
      exact hjm ((List.getElem_inj hn).1 h1)
    rw [flag_other _ _ hne, flag_other (f := p.field) _ _
      (fun hh => hf (hh ▸ List.mem_map.2 ⟨_, List.getElem_mem hj, rfl⟩)), h.set j hj]
    simp only [decide_eq_decide]
    omega

theorem exec_params {ps : List Param} {m : Nat} {s : St} (h : Marked ps m s.obj) :
    exec E K n (blk (chain (ps.map paramCase ++ tail))) s =
      match ps[m]? with
      | some p => exec E K n (blk (load true p.field p.kind ++ [.setTrue p.flag])) s
      | none => exec E K n (blk (chain tail)) s := by
  rw [exec_chain, exec_chain, List.find?_append, find_params h.le h.set]
  cases ps[m]? with
  | some p => rfl
  | none => simp

/-- The loop body of an irregular block. -/
abbrev body (fin : Str) (L : Spec) (tail : List (Cond × List Stmt)) (onFin : List Stmt) (subs : List (Str × List Stmt)) : Stmt :=
  form fin subs [.setErr, .brk] onFin [.setErr, .brk] (chain (L.ps.map paramCase ++ tail))

/-- State of the loop. -/
structure At (L : Spec) (G : Obj → Prop) (x : Decl.Pos) (s : St) : Prop where
  err : s.err = false
  obj : s.obj = x.o
  idx : s.idx = x.i
  good : G x.o
  marked : Marked L.ps x.m x.o

theorem lookup_keys {α : Type} {l : List (Str × α)} {t : Str} (h : t ∈ l.map (·.1)) : ∃ a, l.lookup t = some a := by
  cases hl : l.lookup t with
  | some a => exact ⟨a, rfl⟩
  | none => exact absurd h (lookup_isNone hl)

/-- A round on an item. -/
theorem round_item (hw : Wf E) (F : Follows E fin L G tail onFin subs) {x y : Decl.Pos} {s : St} (h : At L G x s)
    (hi : Item E (Suc K) fin L x y) :
    ∃ s', exec E K n (body fin L tail onFin subs) s = .ok s' .cont ∧ At L G y s' := by
  obtain ⟨hr, hc, ho, he, hx⟩ := doNext_spec hw s
  obtain ⟨m, o, i⟩ := x
  obtain ⟨h1, h2, h3, h4, h5⟩ := h
  simp only at h2 h3 h4 h5
  subst h3 h2
  rw [exec_form hw]
  cases hi with
  | param hp ht hne hfin hs hkw hv =>
    rename_i t v p
    obtain ⟨g1, rfl⟩ := tokAt_of ht
    rw [lookup_of_not_mem (by rw [F.keys]; exact hs)]
    simp only [hne, hfin, hkw, if_false]
    rw [exec_params (by rw [ho]; exact h5), hp]
    simp only
    obtain ⟨s', k1, k2, k3, k4⟩ := load_ok (K := K) (n := n) (b := true) (f := p.field) (F.kinds p (List.mem_of_getElem? hp))
      (s := doNext E s) (by rw [he]; exact h1) (by rw [hc]; exact hv) [.setTrue p.flag]
    rw [k1]
    refine ⟨{ s' with obj := s'.obj.set p.flag (.bool true) }, rfl, k4, ?_, ?_, ?_, ?_⟩
    · show s'.obj.set _ _ = _
      rw [k2, ho]
    · show s'.idx = _
      rw [k3, hx g1]
    · exact F.param _ _ p (List.mem_of_getElem? hp) h4
    · exact h5.next F.nodup hp (F.fields p (List.mem_of_getElem? hp)) v
  | rest hm ht hne hfin hs hkw hr' =>
    rename_i t
    obtain ⟨g1, rfl⟩ := tokAt_of ht
    rw [lookup_of_not_mem (by rw [F.keys]; exact hs)]
    simp only [hne, hfin, hkw, if_false]
    rw [exec_params (by rw [ho]; exact h5), List.getElem?_eq_none (by omega)]
    simp only
    have hk := F.restKeep _ _ _ _ _ _ hr' h4 (h5.all hm)
    rw [← hx g1, ← hc, ← ho] at hr'
    obtain ⟨s', k1, k2, k3, k4⟩ := F.restFwd K n (doNext E s) _ _ (by rw [he]; exact h1) (by rw [ho]; exact h4) (by rw [hr, hc])
      (by rw [hc]; exact hne) (by rw [hc]; exact hkw) hr'
    exact ⟨s', k1, k2, k3, k4, hk.1, h5.keep hk.2⟩
  | sub hs ht hr' =>
    rename_i t
    obtain ⟨g1, rfl⟩ := tokAt_of ht
    obtain ⟨st, hst⟩ := lookup_keys (l := subs) (t := tokAt E s.idx) (by rw [F.keys]; exact hs)
    rw [hst]
    simp only
    have hk := F.subKeep _ _ _ _ _ _ hr' h4
    rw [← hx g1, ← hc, ← ho] at hr'
    obtain ⟨s', k1, k2, k3, k4⟩ := F.subFwd K n (doNext E s) _ _ st (by rw [he]; exact h1) (by rw [ho]; exact h4) (by rw [hr, hc])
      (by rw [hc]; exact hs) (by rw [hc]; exact hst) hr'
    exact ⟨s', k1, k2, k3, k4, hk.1, h5.keep hk.2⟩

/-- A round on the closing token. -/
theorem round_fin (hw : Wf E) (F : Follows E fin L G tail onFin subs) {x : Decl.Pos} {s : St} (h : At L G x s)
    (ht : TokAfter E x.i fin) :
    ∃ s', exec E K n (body fin L tail onFin subs) s = .ok s' .brk ∧ s'.err = false ∧ s'.obj = L.close x.o ∧
      s'.idx = x.i + 1 := by
  obtain ⟨hr, hc, ho, he, hx⟩ := doNext_spec hw s
  rw [← h.idx] at ht ⊢
  obtain ⟨g1, g2⟩ := tokAt_of ht
  rw [exec_form hw, g2, lookup_of_not_mem (by rw [F.keys]; exact fun hh => (F.keyNe _ hh).2 rfl)]
  simp only [F.finNe, if_false, if_true]
  obtain ⟨s', k1, k2, k3, k4⟩ := F.closing K n (doNext E s)
  exact ⟨s', k1, by rw [k2, he, h.err], by rw [k3, ho, h.obj], by rw [k4, hx g1]⟩

/-- A round on a keyword that is not allowed. -/
theorem round_kw (hw : Wf E) (hkeys : subs.map (·.1) = L.keys) {s : St} {t : Str} (ht : TokAfter E s.idx t)
    (h1 : t ∈ keywords) (h2 : t ≠ fin) (h3 : t ∉ L.keys) :
    ∃ s', exec E K n (body fin L tail onFin subs) s = .ok s' .brk ∧ s'.err = true := by
  obtain ⟨g1, rfl⟩ := tokAt_of ht
  rw [exec_form hw, lookup_of_not_mem (by rw [hkeys]; exact h3)]
  simp only [h2, h1, if_false, if_true]
  split <;> exact ⟨_, rfl, rfl⟩

/-- Whatever a round does. -/
theorem round_cases (hw : Wf E) (F : Follows E fin L G tail onFin subs) {x : Decl.Pos} {s : St} (h : At L G x s) :
    (∃ s' y, exec E K n (body fin L tail onFin subs) s = .ok s' .cont ∧ At L G y s' ∧ Item E (Suc K) fin L x y) ∨
    (∃ s', exec E K n (body fin L tail onFin subs) s = .ok s' .brk ∧ s'.err = false ∧ s'.obj = L.close x.o ∧
      s'.idx = x.i + 1 ∧ TokAfter E x.i fin) ∨
    (∃ s', exec E K n (body fin L tail onFin subs) s = .ok s' .brk ∧ s'.err = true) ∨
    exec E K n (body fin L tail onFin subs) s = .panic ∨ exec E K n (body fin L tail onFin subs) s = .timeout := by
  have item : ∀ {y}, Item E (Suc K) fin L x y →
      ∃ s' y, exec E K n (body fin L tail onFin subs) s = .ok s' .cont ∧ At L G y s' ∧ Item E (Suc K) fin L x y := by
    intro y hy
    obtain ⟨s', h1, h2⟩ := round_item (n := n) hw F h hy
    exact ⟨s', y, h1, h2, hy⟩
  have hround := exec_form (E := E) (K := K) (n := n) (fin := fin) (subs := subs) (onEmpty := [.setErr, .brk]) (onFin := onFin)
    (onKw := [.setErr, .brk]) (plain := chain (L.ps.map paramCase ++ tail)) hw s
  obtain ⟨hr, hc, ho, he, hx⟩ := doNext_spec hw s
  obtain ⟨m, o, i⟩ := x
  have h5 := h.marked
  have h4 := h.good
  have hobj := h.obj
  have hidx := h.idx
  simp only at h4 h5 hobj hidx
  subst hobj hidx
  cases hl : subs.lookup (tokAt E s.idx) with
  | some st =>
    rw [hl] at hround
    simp only at hround
    have hkey : tokAt E s.idx ∈ L.keys := by
      rw [← F.keys]; exact List.mem_map.2 ⟨_, lookup_isSome hl, rfl⟩
    obtain ⟨g1, g2⟩ := tokAt_ne (t := tokAt E s.idx) rfl (F.keyNe _ hkey).1
    cases hx' : exec E K n (blk st) (doNext E s) with
    | ok s' c =>
      obtain ⟨k1, k2⟩ := F.subBack K n (doNext E s) s' c st (by rw [he]; exact h.err) (by rw [ho]; exact h4) (by rw [hr, hc])
        (by rw [hc]; exact hkey) (by rw [hc]; exact hl) hx'
      cases c with
      | cont =>
        obtain ⟨_, k4⟩ := k1 rfl
        rw [hc, ho, hx g1] at k4
        exact Or.inl (item (.sub hkey g2 k4))
      | brk => exact Or.inr (Or.inr (Or.inl ⟨s', by rw [hround, hx'], k2 rfl⟩))
    | panic => exact Or.inr (Or.inr (Or.inr (Or.inl (by rw [hround, hx']))))
    | timeout => exact Or.inr (Or.inr (Or.inr (Or.inr (by rw [hround, hx']))))
  | none =>
    rw [hl] at hround
    simp only at hround
    have hkey : tokAt E s.idx ∉ L.keys := by rw [← F.keys]; exact lookup_isNone hl
    by_cases h0 : tokAt E s.idx = []
    · rw [if_pos h0] at hround
      exact Or.inr (Or.inr (Or.inl ⟨_, hround, rfl⟩))
    · rw [if_neg h0] at hround
      obtain ⟨g1, g2⟩ := tokAt_ne (t := tokAt E s.idx) rfl h0
      by_cases hf : tokAt E s.idx = fin
      · rw [hf] at g2
        obtain ⟨s', k1, k2, k3, k4⟩ := round_fin (K := K) (n := n) hw F h g2
        exact Or.inr (Or.inl ⟨s', k1, k2, k3, k4, g2⟩)
      · rw [if_neg hf] at hround
        by_cases hkw : tokAt E s.idx ∈ keywords
        · rw [if_pos hkw] at hround
          exact Or.inr (Or.inr (Or.inl ⟨_, hround, rfl⟩))
        · rw [if_neg hkw, exec_params (by rw [ho]; exact h5)] at hround
          cases hp : L.ps[m]? with
          | some p =>
            rw [hp] at hround
            simp only at hround
            by_cases hv : ∃ v, Denotes E p.kind (tokAt E s.idx) v
            · obtain ⟨v, hv⟩ := hv
              exact Or.inl (item (.param hp g2 h0 hf hkey hkw hv))
            · obtain ⟨s', k1, k2⟩ := load_err (E := E) (K := K) (n := n) (f := p.field) (F.kinds p (List.mem_of_getElem? hp))
                (s := doNext E s) (fun v hh => hv ⟨v, by rw [← hc]; exact hh⟩) [.setTrue p.flag]
              exact Or.inr (Or.inr (Or.inl ⟨s', by rw [hround, k1], k2⟩))
          | none =>
            rw [hp] at hround
            simp only at hround
            cases hx' : exec E K n (blk (chain tail)) (doNext E s) with
            | ok s' c =>
              obtain ⟨k1, k2⟩ := F.restBack K n (doNext E s) s' c (by rw [he]; exact h.err) (by rw [ho]; exact h4) (by rw [hr, hc])
                (by rw [hc]; exact h0) (by rw [hc]; exact hkw) hx'
              cases c with
              | cont =>
                obtain ⟨_, k4⟩ := k1 rfl
                rw [hc, ho, hx g1] at k4
                have hm : m = L.ps.length := by
                  have := h5.le
                  rw [List.getElem?_eq_none_iff] at hp
                  omega
                exact Or.inl (item (.rest hm g2 h0 hf hkey hkw k4))
              | brk => exact Or.inr (Or.inr (Or.inl ⟨s', by rw [hround, hx'], k2 rfl⟩))
            | panic => exact Or.inr (Or.inr (Or.inr (Or.inl (by rw [hround, hx']))))
            | timeout => exact Or.inr (Or.inr (Or.inr (Or.inr (by rw [hround, hx']))))

/-! ### The whole loop -/

theorem iter_items (hw : Wf E) (F : Follows E fin L G tail onFin subs) {k : Nat} {x z : Decl.Pos}
    (hi : Items E (Suc K) fin L k x z) : ∀ {s : St}, At L G x s →
    ∃ s', At L G z s' ∧ ∀ N, iter (exec E K n (body fin L tail onFin subs)) (N + k) s =
      iter (exec E K n (body fin L tail onFin subs)) N s' := by
  induction hi with
  | nil => intro s h; exact ⟨s, h, fun N => rfl⟩
  | cons hit _ ih =>
    intro s h
    obtain ⟨s1, h1, h2⟩ := round_item (n := n) hw F h hit
    obtain ⟨s2, h3, h4⟩ := ih h2
    refine ⟨s2, h3, fun N => ?_⟩
    rw [← Nat.add_assoc, iter, h1]
    exact h4 N

theorem iter_success (hw : Wf E) (F : Follows E fin L G tail onFin subs) : ∀ {N : Nat} {x : Decl.Pos} {s s' : St} {c : Ctl},
    At L G x s → iter (exec E K n (body fin L tail onFin subs)) N s = .ok s' c → s'.err = false →
    ∃ k y, Items E (Suc K) fin L k x y ∧ TokAfter E y.i fin ∧ s'.idx = y.i + 1 ∧ s'.obj = L.close y.o := by
  intro N
  induction N with
  | zero => intro x s s' c _ h; simp [iter] at h
  | succ N ih =>
    intro x s s' c h hit he
    rw [iter] at hit
    rcases round_cases (K := K) (n := n) hw F h with ⟨s1, y, h1, h2, h3⟩ | ⟨s1, h1, h2, h3, h4, h5⟩ | ⟨s1, h1, h2⟩ | h1 | h1
    · rw [h1] at hit
      obtain ⟨k, z, g1, g2, g3, g4⟩ := ih h2 hit he
      exact ⟨k + 1, z, .cons h3 g1, g2, g3, g4⟩
    · rw [h1] at hit
      simp only [Out.ok.injEq] at hit
      obtain ⟨rfl, _⟩ := hit
      exact ⟨0, x, .nil, h5, h4, h3⟩
    · rw [h1] at hit
      simp only [Out.ok.injEq] at hit
      obtain ⟨rfl, _⟩ := hit
      rw [h2] at he; cases he
    · rw [h1] at hit; simp at hit
    · rw [h1] at hit; simp at hit

theorem Items.map (F : Follows E fin L G tail onFin subs) {R R' : Calls} (h : ∀ q i j v, R q i j v → R' q i j v)
    {k : Nat} {x z : Decl.Pos} (hi : Items E R fin L k x z) : Items E R' fin L k x z := by
  induction hi with
  | nil => exact .nil
  | cons hit _ ih =>
    refine .cons ?_ ih
    cases hit with
    | param a b c d e f g => exact .param a b c d e f g
    | rest a b c d e f g => exact .rest a b c d e f (F.mono R R' h _ _ _ _ _ g)
    | sub a b c => exact .sub a b (F.monoSub R R' h _ _ _ _ _ c)

theorem items_bounds (F : Follows E fin L G tail onFin subs) {k : Nat} {x z : Decl.Pos}
    (hi : Items E (Succeeds E) fin L k x z) :
    ∃ n₀ d₀, ∀ n d, n₀ ≤ n → d₀ ≤ d → Items E (Suc (run E n d)) fin L k x z := by
  induction hi with
  | nil => exact ⟨0, 0, fun _ _ _ _ => .nil⟩
  | cons hit _ ih =>
    obtain ⟨n1, d1, h1⟩ := ih
    cases hit with
    | param a b c d e f g => exact ⟨n1, d1, fun n d' hn hd => .cons (.param a b c d e f g) (h1 n d' hn hd)⟩
    | rest a b c d e f g =>
      obtain ⟨n2, d2, h2⟩ := F.bound _ _ _ _ _ g
      exact ⟨max n1 n2, max d1 d2, fun n d' hn hd =>
        .cons (.rest a b c d e f (h2 n d' (by omega) (by omega))) (h1 n d' (by omega) (by omega))⟩
    | sub a b c =>
      obtain ⟨n2, d2, h2⟩ := F.boundSub _ _ _ _ _ c
      exact ⟨max n1 n2, max d1 d2, fun n d' hn hd =>
        .cons (.sub a b (h2 n d' (by omega) (by omega))) (h1 n d' (by omega) (by omega))⟩

theorem at_start (F : Follows E fin L G tail onFin subs) (i : Nat) : At L G ⟨0, Obj.empty, i⟩ (St.init i) :=
  ⟨rfl, rfl, rfl, F.start, Nat.zero_le _, fun j hj => by simp [Obj.flag, Obj.empty]⟩

theorem run_loop {p : PName} (hp : p ≠ .parseModuleMultithreaded) {B : Stmt} (hb : A2l.body p = blk [.loop B]) (n d i : Nat) :
    run E n (d + 1) p i = finish (iter (exec E (run E n d) n B) n (St.init i)) := by
  rw [run, if_neg hp, hb, exec_blk_one]
  rfl

/-- A parse function that follows `L` returns without error only if it has read a block `L`, and
then the values are those of the block. -/
theorem reads_only (hw : Wf E) (F : Follows E fin L G tail onFin subs) {p : PName} (hp : p ≠ .parseModuleMultithreaded)
    (hb : A2l.body p = blk [.loop (body fin L tail onFin subs)]) {i i' : Nat} {v : Val}
    (h : Returns E p i (.ok i' v false)) : ∃ o, v = .obj o ∧ Block E fin L i i' o := by
  obtain ⟨_, n, d, h⟩ := h
  have h := h n (d + 1) (Nat.le_refl _) (by omega)
  rw [run_loop hp hb] at h
  cases hr : iter (exec E (run E n d) n (body fin L tail onFin subs)) n (St.init i) with
  | ok s c =>
    rw [hr] at h
    simp only [finish, PRes.ok.injEq] at h
    obtain ⟨rfl, rfl, h3⟩ := h
    obtain ⟨k, y, g1, g2, g3, g4⟩ := iter_success hw F (at_start F i) hr h3
    exact ⟨s.obj, rfl, k, y.m, y.i, y.o,
      Items.map F (fun q a b w hh => returns_of_run (r := .ok b w false) hh (by simp)) g1, g2, g3, g4⟩
  | panic => rw [hr] at h; simp [finish] at h
  | timeout => rw [hr] at h; simp [finish] at h

/-- It accepts every block `L`, with its values. -/
theorem reads_all (hw : Wf E) (F : Follows E fin L G tail onFin subs) {p : PName} (hp : p ≠ .parseModuleMultithreaded)
    (hb : A2l.body p = blk [.loop (body fin L tail onFin subs)]) {i i' : Nat} {o : Obj}
    (h : Block E fin L i i' o) : Returns E p i (.ok i' (.obj o) false) := by
  obtain ⟨k, m, j, o₁, h1, h2, rfl, rfl⟩ := h
  obtain ⟨n0, d0, hbd⟩ := items_bounds F h1
  have hi := hbd (n0 + 1 + k) d0 (by omega) (Nat.le_refl _)
  obtain ⟨s1, b1, b2⟩ := iter_items (n := n0 + 1 + k) hw F hi (at_start F i)
  obtain ⟨s2, c1, c2, c3, c4⟩ := round_fin (K := run E (n0 + 1 + k) d0) (n := n0 + 1 + k) hw F b1 h2
  refine returns_of_run (n := n0 + 1 + k) (d := d0 + 1) ?_ (by simp)
  rw [run_loop hp hb, b2 (n0 + 1), iter, c1]
  simp only [finish, c2, c3, c4]

/-- A keyword that is not allowed, after any number of items: error. -/
theorem rejects (hw : Wf E) (F : Follows E fin L G tail onFin subs) {p : PName} (hp : p ≠ .parseModuleMultithreaded)
    (hb : A2l.body p = blk [.loop (body fin L tail onFin subs)]) {i k : Nat} {x : Decl.Pos}
    (hi : Items E (Succeeds E) fin L k ⟨0, Obj.empty, i⟩ x) {t : Str} (ht : TokAfter E x.i t) (h1 : t ∈ keywords)
    (h2 : t ≠ fin) (h3 : t ∉ L.keys) : ∃ i' v, Returns E p i (.ok i' v true) := by
  obtain ⟨n0, d0, hbd⟩ := items_bounds F hi
  have hi := hbd (n0 + 1 + k) d0 (by omega) (Nat.le_refl _)
  obtain ⟨s1, b1, b2⟩ := iter_items (n := n0 + 1 + k) hw F hi (at_start F i)
  obtain ⟨s2, c1, c2⟩ := round_kw (K := run E (n0 + 1 + k) d0) (n := n0 + 1 + k) (fin := fin) (tail := tail) (onFin := onFin)
    hw F.keys (by rw [b1.idx]; exact ht) h1 h2 h3
  refine ⟨s2.idx, .obj s2.obj, returns_of_run (n := n0 + 1 + k) (d := d0 + 1) ?_ (by simp)⟩
  rw [run_loop hp hb, b2 (n0 + 1), iter, c1]
  simp only [finish, c2]

end Verif.A2l.Loose
