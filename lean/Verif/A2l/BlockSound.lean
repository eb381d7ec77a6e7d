import Verif.A2l.TmplSound

/-!
Blocks: the loop of the parse function follows the items of the text.
-/

namespace Verif.A2l.Template
open Verif.Go Verif.A2l Lang Decl Analysis

variable {E : Env} {K : PName → Nat → PRes} {n : Nat}
variable {raw : Bool} {fin : Str} {ps : List Param} {rest : Rest} {subs : List (Str × Sub)}
  {maps : List String}

def restFields : Rest → List String
  | .none => []
  | .list f _ _ => [f]
  | .text f _ => [f]

def subField : Sub → String
  | .obj _ f _ => f
  | .enum _ f => f

def subOk : Sub → Bool
  | .obj _ _ _ => true
  | .enum e _ => enumOk e && (e.table.all fun x => decide (x.1 ≠ []))

/-- What the proofs need of a declaration: the markers are different from each other and from
the fields, the first tokens of the optional parts are different from each other, from the
closing token and from the end of the file. -/
structure BlockOk (fin : Str) (ps : List Param) (rest : Rest) (subs : List (Str × Sub))
    (maps : List String) : Prop where
  nodup : (flags ps rest).Nodup
  kinds : ∀ p ∈ ps, kindOk p.kind = true
  restKind : restOk rest = true
  fields : ∀ f ∈ ps.map (·.field) ++ restFields rest ++ subs.map (fun x => subField x.2) ++ maps,
    f ∉ flags ps rest
  subKinds : ∀ x ∈ subs, subOk x.2 = true
  keys : (subs.map (·.1)).Nodup
  keyNe : ∀ x ∈ subs, x.1 ≠ [] ∧ x.1 ≠ fin
  finNe : fin ≠ []

instance : Decidable (BlockOk fin ps rest subs maps) :=
  decidable_of_iff ((flags ps rest).Nodup ∧ (∀ p ∈ ps, kindOk p.kind = true) ∧ restOk rest = true ∧
    (∀ f ∈ ps.map (·.field) ++ restFields rest ++ subs.map (fun x => subField x.2) ++ maps,
      f ∉ flags ps rest) ∧ (∀ x ∈ subs, subOk x.2 = true) ∧ (subs.map (·.1)).Nodup ∧
    (∀ x ∈ subs, x.1 ≠ [] ∧ x.1 ≠ fin) ∧ fin ≠ [])
    ⟨fun ⟨a, b, c, d, e, f, g, h⟩ => ⟨a, b, c, d, e, f, g, h⟩,
     fun ⟨a, b, c, d, e, f, g, h⟩ => ⟨a, b, c, d, e, f, g, h⟩⟩

/-- The state of the loop agrees with the values read so far. -/
structure Inv (ps : List Param) (rest : Rest) (m : Nat) (o : Obj) (s : St) : Prop where
  err : s.err = false
  le : m ≤ ps.length
  set : ∀ j (h : j < ps.length), s.obj.flag ps[j].flag = decide (j < m)
  unset : ∀ f ∈ rest.flags, s.obj.flag f = false
  same : SameValues (flags ps rest) s.obj o

theorem set_same (o : Obj) (f : String) (v : Val) : (o.set f v) f = v := by simp [Obj.set]
theorem set_other (o : Obj) {f g : String} (v : Val) (h : g ≠ f) : (o.set f v) g = o g := by
  simp [Obj.set, h]

theorem flag_other (o : Obj) {f g : String} (v : Val) (h : g ≠ f) : (o.set f v).flag g = o.flag g := by
  simp [Obj.flag, set_other o v h]

theorem flag_same (o : Obj) (f : String) : (o.set f (.bool true)).flag f = true := by
  simp [Obj.flag, set_same]

theorem _root_.Verif.A2l.Decl.SameValues.set {fl : List String} {o o' : Obj} (h : SameValues fl o o') (f : String) (v : Val) :
    SameValues fl (o.set f v) (o'.set f v) := by
  intro g hg
  by_cases hgf : g = f
  · subst hgf; rw [set_same, set_same]
  · rw [set_other _ _ hgf, set_other _ _ hgf]; exact h g hg

theorem _root_.Verif.A2l.Decl.SameValues.flag {fl : List String} {o o' : Obj} (h : SameValues fl o o') {f : String} (hf : f ∈ fl)
    (v : Val) : SameValues fl (o.set f v) o' := by
  intro g hg
  have : g ≠ f := fun hh => hg (hh ▸ hf)
  rw [set_other _ _ this]; exact h g hg

theorem _root_.Verif.A2l.Decl.SameValues.list {fl : List String} {o o' : Obj} (h : SameValues fl o o') {f : String} (hf : f ∉ fl) :
    o.list f = o'.list f := by unfold Obj.list; rw [h f hf]

theorem _root_.Verif.A2l.Decl.SameValues.str {fl : List String} {o o' : Obj} (h : SameValues fl o o') {f : String} (hf : f ∉ fl) :
    o.str f = o'.str f := by unfold Obj.str; rw [h f hf]

theorem param_mem {m : Nat} {p : Param} (hp : ps[m]? = some p) : p ∈ ps := List.mem_of_getElem? hp

theorem flag_mem {p : Param} (hp : p ∈ ps) : p.flag ∈ flags ps rest :=
  List.mem_append_left _ (List.mem_map.2 ⟨p, hp, rfl⟩)

theorem mem_getElem_flag {j : Nat} (h : j < ps.length) : ps[j].flag ∈ flags ps rest :=
  flag_mem (List.getElem_mem h)

/-- A field that is no marker is written. -/
theorem Inv.setField {m : Nat} {o : Obj} {s s' : St} (h : Inv ps rest m o s) {f : String}
    (hf : f ∉ flags ps rest) {v : Val} (ho : s'.obj = s.obj.set f v) (he : s'.err = false) :
    Inv ps rest m (o.set f v) s' := by
  refine ⟨he, h.le, ?_, ?_, ?_⟩
  · intro j hj
    rw [ho, flag_other (f := f) _ _ (fun hh => hf (hh ▸ mem_getElem_flag hj)), h.set j hj]
  · intro g hg
    rw [ho, flag_other (f := f) _ _ (fun hh => hf (hh ▸ List.mem_append_right _ hg)), h.unset g hg]
  · rw [ho]; exact h.same.set f v

/-- A positional parameter is written and its marker set. -/
theorem Inv.setParam {m : Nat} {o : Obj} {s s' : St} (h : Inv ps rest m o s) (hok : BlockOk fin ps rest subs maps)
    {p : Param} (hp : ps[m]? = some p) {v : Val}
    (ho : s'.obj = (s.obj.set p.field v).set p.flag (.bool true)) (he : s'.err = false) :
    Inv ps rest (m + 1) (o.set p.field v) s' := by
  obtain ⟨hm, hpm⟩ := List.getElem?_eq_some_iff.1 hp
  have hfld : p.field ∉ flags ps rest := hok.fields _ (by
    simp only [List.append_assoc, List.mem_append, List.mem_map]
    exact Or.inl ⟨p, param_mem hp, rfl⟩)
  have hnd := hok.nodup
  unfold flags at hnd
  rw [List.nodup_append] at hnd
  have hflag : p.flag ∈ flags ps rest := flag_mem (param_mem hp)
  refine ⟨he, hm, ?_, ?_, ?_⟩
  · intro j hj
    rw [ho]
    by_cases hjm : j = m
    · subst hjm
      rw [hpm, flag_same]
      simp
    · have hne : ps[j].flag ≠ p.flag := by
        intro hh
        have h1 : (ps.map (·.flag))[j]'(by simpa using hj) = (ps.map (·.flag))[m]'(by simpa using hm) := by
          simp [hh, hpm]
        exact hjm ((List.getElem_inj hnd.1).1 h1)
      rw [flag_other _ _ hne, flag_other (f := p.field) _ _ (fun hh => hfld (hh ▸ mem_getElem_flag hj)), h.set j hj]
      simp only [decide_eq_decide]
      omega
  · intro g hg
    have hne : g ≠ p.flag := fun hh => hnd.2.2 p.flag (List.mem_map.2 ⟨p, param_mem hp, rfl⟩) g hg hh.symm
    rw [ho, flag_other _ _ hne, flag_other (f := p.field) _ _ (fun hh => hfld (hh ▸ List.mem_append_right _ hg)),
      h.unset g hg]
  · rw [ho]; exact (h.same.set p.field v).flag hflag _

/-! ### One round of the loop -/

theorem lookup_map {α β : Type} (l : List (Str × α)) (f : α → β) (t : Str) :
    (l.map fun x => (x.1, f x.2)).lookup t = (l.lookup t).map f := by
  induction l with
  | nil => rfl
  | cons x l ih =>
    obtain ⟨k, v⟩ := x
    simp only [List.map_cons, List.lookup_cons]
    cases h : t == k <;> simp [ih]

theorem lookup_isSome {α : Type} {l : List (Str × α)} {t : Str} {a : α} (h : l.lookup t = some a) :
    (t, a) ∈ l := by
  induction l with
  | nil => simp at h
  | cons x l ih =>
    obtain ⟨k, v⟩ := x
    rw [List.lookup_cons] at h
    by_cases hk : t = k
    · subst hk; simp at h; simp [h]
    · have : (t == k) = false := by simpa using hk
      rw [this] at h
      exact List.mem_cons_of_mem _ (ih h)

theorem lookup_isNone {α : Type} {l : List (Str × α)} {t : Str} (h : l.lookup t = none) :
    t ∉ l.map (·.1) := by
  induction l with
  | nil => simp
  | cons x l ih =>
    obtain ⟨k, v⟩ := x
    rw [List.lookup_cons] at h
    by_cases hk : t = k
    · subst hk; simp at h
    · have : (t == k) = false := by simpa using hk
      rw [this] at h
      simp only [List.map_cons, List.mem_cons, not_or]
      exact ⟨hk, ih h⟩

theorem lookup_of_mem {α : Type} {l : List (Str × α)} (hn : (l.map (·.1)).Nodup) {t : Str} {a : α}
    (h : (t, a) ∈ l) : l.lookup t = some a := by
  induction l with
  | nil => simp at h
  | cons x l ih =>
    obtain ⟨k, v⟩ := x
    simp only [List.map_cons, List.nodup_cons] at hn
    rw [List.lookup_cons]
    rcases List.mem_cons.1 h with h | h
    · simp only [Prod.mk.injEq] at h
      obtain ⟨rfl, rfl⟩ := h
      simp
    · have hk : t ≠ k := fun hh => hn.1 (List.mem_map.2 ⟨_, h, hh⟩)
      have : (t == k) = false := by simpa using hk
      rw [this]
      exact ih hn.2 h

theorem lookup_of_not_mem {α : Type} {l : List (Str × α)} {t : Str} (h : t ∉ l.map (·.1)) :
    l.lookup t = none := by
  cases hl : l.lookup t with
  | none => rfl
  | some a => exact absurd (List.mem_map.2 ⟨_, lookup_isSome hl, rfl⟩) h

theorem round_eq (hw : Wf E) (s : St) : exec E K n (round raw fin ps rest subs) s =
    match subs.lookup (tokAt E s.idx) with
    | some sb => exec E K n (blk (subStmt sb)) (doNext E s)
    | none => exec E K n (blk (chain (defaults raw fin ps rest))) (doNext E s) := by
  have hr := (doNext_spec hw s).1
  cases subs with
  | nil => rfl
  | cons x l =>
    show exec E K n (blk [Stmt.next, _]) s = _
    rw [exec_blk_cons]
    simp only [exec]
    rw [exec_blk_one, exec_switch, hr, lookup_map _ (fun y => blk (subStmt y))]
    cases (x :: l).lookup (tokAt E s.idx) <;> rfl

theorem find_params {E : Env} {s : St} : ∀ {ps : List Param} {m : Nat} (_ : m ≤ ps.length)
    (_ : ∀ j (h : j < ps.length), s.obj.flag ps[j].flag = decide (j < m)),
    (ps.map paramCase).find? (fun x => holds E s x.1) = (ps[m]?).map paramCase
  | [], m, _, _ => by simp
  | p :: ps, 0, _, h => by
    have := h 0 (by simp)
    simp only [List.getElem_cons_zero, Nat.lt_irrefl, decide_false] at this
    simp [List.find?_cons, paramCase, holds, this]
  | p :: ps, m + 1, hm, h => by
    have h0 := h 0 (by simp)
    simp only [List.getElem_cons_zero, Nat.zero_lt_succ, decide_true] at h0
    have ih := find_params (E := E) (s := s) (ps := ps) (m := m) (by simpa using hm) (fun j hj => by
      have := h (j + 1) (by simpa using hj)
      simpa using this)
    simp [List.find?_cons, paramCase, holds, h0]
    simpa [paramCase] using ih

theorem exec_setTrues (l : List String) (s : St) : ∃ s', exec E K n (blk (l.map Stmt.setTrue ++ [.brk])) s =
    .ok s' .brk ∧ s'.idx = s.idx ∧ s'.err = s.err ∧ ∀ f, f ∉ l → s'.obj f = s.obj f := by
  induction l generalizing s with
  | nil => exact ⟨s, rfl, rfl, rfl, fun _ _ => rfl⟩
  | cons x l ih =>
    obtain ⟨s', h1, h2, h3, h4⟩ := ih { s with obj := s.obj.set x (.bool true) }
    refine ⟨s', ?_, h2, h3, fun f hf => ?_⟩
    · rw [List.map_cons, List.cons_append, exec_blk_cons]; exact h1
    · simp only [List.mem_cons, not_or] at hf
      rw [h4 f hf.2]; exact set_other _ _ hf.1

/-- The statements for what follows the positional parameters. -/
def restStmt : Rest → Stmt
  | .none => blk []
  | .list f _ k => blk (add f k)
  | .text f _ => blk [.concatCur f]

/-- The default branch on a plain token. -/
theorem default_plain {s : St} {m : Nat} {o : Obj} (hinv : Inv ps rest m o s)
    (h1 : E.current s.idx ≠ []) (h2 : E.current s.idx ≠ fin)
    (h3 : raw = true ∨ isKeyword (E.current s.idx) = false) :
    exec E K n (blk (chain (defaults raw fin ps rest))) s =
      match ps[m]? with
      | some p => exec E K n (blk (load true p.field p.kind ++ [.setTrue p.flag])) s
      | none => exec E K n (restStmt rest) s := by
  have e1 : holds E s (.curIs emptyToken) = false := by
    simp only [holds, decide_eq_false_iff_not]; exact h1
  have e2 : holds E s (.curIs fin) = false := by simp [holds, h2]
  have e3 : (if raw then [] else [(Cond.curKw, [Stmt.setErr, Stmt.brk])]).find?
      (fun x => holds E s x.1) = none := by
    cases raw with
    | true => rfl
    | false => rcases h3 with h3 | h3
               · cases h3
               · simp [holds, h3]
  rw [exec_chain]
  simp only [defaults, List.find?_cons, e1, e2, List.find?_append, e3, Option.none_or]
  rw [find_params hinv.le hinv.set]
  cases hp : ps[m]? with
  | some p => rfl
  | none =>
    cases rest with
    | none => rfl
    | list f fl k =>
      have := hinv.unset fl (by simp [Rest.flags])
      simp [restCase, restStmt, holds, this]
    | text f fl =>
      have := hinv.unset fl (by simp [Rest.flags])
      simp [restCase, restStmt, holds, this]

theorem default_end (raw : Bool) (fin : Str) (ps : List Param) (rest : Rest) {s : St}
    (h : E.current s.idx = []) :
    exec E K n (blk (chain (defaults raw fin ps rest))) s = .ok { s with err := true } .brk := by
  have e1 : holds E s (.curIs emptyToken) = true := by simp only [holds, decide_eq_true_eq]; exact h
  rw [exec_chain]
  simp only [defaults, List.find?_cons, e1]
  rfl

theorem default_fin (raw : Bool) (ps : List Param) (rest : Rest) {s : St} (hne : fin ≠ [])
    (h : E.current s.idx = fin) :
    exec E K n (blk (chain (defaults raw fin ps rest))) s =
      exec E K n (blk (rest.flags.map .setTrue ++ [.brk])) s := by
  have e1 : holds E s (.curIs emptyToken) = false := by
    simp only [holds, decide_eq_false_iff_not]; rw [h]; exact hne
  have e2 : holds E s (.curIs fin) = true := by simp [holds, h]
  rw [exec_chain]
  simp only [defaults, List.find?_cons, e1, e2]

theorem default_kw (ps : List Param) (rest : Rest) {s : St} (h1 : E.current s.idx ≠ [])
    (h2 : E.current s.idx ≠ fin) (h3 : isKeyword (E.current s.idx) = true) :
    exec E K n (blk (chain (defaults false fin ps rest))) s = .ok { s with err := true } .brk := by
  have e1 : holds E s (.curIs emptyToken) = false := by
    simp only [holds, decide_eq_false_iff_not]; exact h1
  have e2 : holds E s (.curIs fin) = false := by simp [holds, h2]
  have e3 : holds E s .curKw = true := h3
  rw [exec_chain]
  simp only [defaults, List.find?_cons, e1, e2, Bool.false_eq_true, if_false, List.cons_append, e3]
  rfl

/-- Success of a call answered by `K`. -/
def Suc (K : PName → Nat → PRes) (q : PName) (i j : Nat) (v : Val) : Prop := K q i = .ok j v false

theorem isKeyword_iff {t : Str} : isKeyword t = false ↔ t ∉ keywords := by
  simp [isKeyword]

/-- A round of the loop on an item of the text. -/
theorem round_item (hw : Wf E) (hok : BlockOk fin ps rest subs maps) {s : St} {m : Nat} {o : Obj}
    (hinv : Inv ps rest m o s) {y : Pos} (h : Item E (Suc K) raw fin ps rest subs ⟨m, o, s.idx⟩ y) :
    ∃ s', exec E K n (round raw fin ps rest subs) s = .ok s' .cont ∧ Inv ps rest y.m y.o s' ∧ s'.idx = y.i := by
  obtain ⟨hr, hc, ho, he, hi⟩ := doNext_spec hw s
  have hinv1 : Inv ps rest m o (doNext E s) :=
    ⟨by rw [he]; exact hinv.err, hinv.le, by rw [ho]; exact hinv.set, by rw [ho]; exact hinv.unset,
     by rw [ho]; exact hinv.same⟩
  rw [round_eq hw s]
  have plain : ∀ {t}, TokAfter E s.idx t → Plain raw fin subs t →
      subs.lookup (tokAt E s.idx) = none ∧ E.current (doNext E s).idx = t ∧ t ≠ [] ∧ t ≠ fin ∧
      (raw = true ∨ isKeyword t = false) ∧ (doNext E s).idx = s.idx + 1 := by
    intro t ht hp
    obtain ⟨h1, h2⟩ := tokAt_of ht
    refine ⟨by rw [h2]; exact lookup_of_not_mem hp.2.2.1, by rw [hc, h2], hp.1, hp.2.1, ?_, hi h1⟩
    exact hp.2.2.2.imp id isKeyword_iff.2
  cases h with
  | param hp ht hpl hv =>
    rename_i t v p
    obtain ⟨h1, h2, h3, h4, h5, h6⟩ := plain ht hpl
    rw [h1]
    simp only
    rw [default_plain hinv1 (by rw [h2]; exact h3) (by rw [h2]; exact h4) (by rw [h2]; exact h5), hp]
    simp only
    obtain ⟨s', g1, g2, g3, g4⟩ := load_ok (K := K) (n := n) (b := true) (f := p.field)
      (hok.kinds p (param_mem hp)) hinv1.err (by rw [h2]; exact hv) [.setTrue p.flag]
    rw [g1]
    exact ⟨{ s' with obj := s'.obj.set p.flag (.bool true) }, rfl,
      hinv1.setParam hok hp (by rw [g2]) g4, by rw [← h6, ← g3]⟩
  | member hm hrs ht hpl hv =>
    rename_i t v f fl k
    obtain ⟨h1, h2, h3, h4, h5, h6⟩ := plain ht hpl
    rw [h1]
    simp only
    rw [default_plain hinv1 (by rw [h2]; exact h3) (by rw [h2]; exact h4) (by rw [h2]; exact h5),
      List.getElem?_eq_none (by omega)]
    subst hrs
    simp only
    have hf : f ∉ flags ps (.list f fl k) := hok.fields f (by simp [restFields])
    obtain ⟨s', g1, g2, g3, g4⟩ := add_ok (K := K) (n := n) hok.restKind hinv1.err (by rw [h2]; exact hv)
    refine ⟨s', g1, ?_, by rw [← h6, ← g3]⟩
    rw [← hinv1.same.list hf]
    exact hinv1.setField hf g2 g4
  | word hm hrs ht hpl =>
    rename_i t f fl
    obtain ⟨h1, h2, h3, h4, h5, h6⟩ := plain ht hpl
    rw [h1]
    simp only
    rw [default_plain hinv1 (by rw [h2]; exact h3) (by rw [h2]; exact h4) (by rw [h2]; exact h5),
      List.getElem?_eq_none (by omega)]
    subst hrs
    simp only
    have hf : f ∉ flags ps (.text f fl) := hok.fields f (by simp [restFields])
    refine ⟨_, rfl, ?_, h6⟩
    rw [← hinv1.same.str hf]
    refine hinv1.setField hf (v := .str ((doNext E s).obj.str f ++ [' '] ++ t)) ?_ hinv1.err
    show (doNext E s).obj.set f (.str ((doNext E s).obj.str f ++ spaceToken ++ E.current (doNext E s).idx)) = _
    rw [h2]
    rfl
  | surplus hm hrs ht hpl =>
    rename_i t
    obtain ⟨h1, h2, h3, h4, h5, h6⟩ := plain ht hpl
    rw [h1]
    simp only
    rw [default_plain hinv1 (by rw [h2]; exact h3) (by rw [h2]; exact h4) (by rw [h2]; exact h5),
      List.getElem?_eq_none (by omega)]
    subst hrs
    exact ⟨_, rfl, hinv1, h6⟩
  | sub hs ht hR hk =>
    rename_i o' j k q f md v
    obtain ⟨h1, h2⟩ := tokAt_of ht
    rw [h2, lookup_of_mem hok.keys hs]
    simp only
    have h6 := hi h1
    have hf : f ∉ flags ps rest := hok.fields f (by
      simp only [List.mem_append, List.mem_map]
      exact Or.inl (Or.inr ⟨_, hs, rfl⟩))
    unfold Suc at hR
    rw [← h6] at hR
    cases md with
    | field =>
      cases hk
      refine ⟨{ doNext E s with idx := j, obj := (doNext E s).obj.set f v, err := false }, ?_,
        hinv1.setField hf rfl rfl, rfl⟩
      simp only [subStmt, exec_blk_cons, exec, hR, ifErr, holds, Bool.false_eq_true, if_false, exec_blk_nil]
    | append =>
      cases hk
      refine ⟨{ doNext E s with idx := j, buf := v, err := false, obj := (doNext E s).obj.set f (.list ((doNext E s).obj.list f ++ [v])) }, ?_,
        ?_, rfl⟩
      · have : castVal .same v = v := by cases v <;> rfl
        simp only [subStmt, exec_blk_cons, exec, hR, ifErr, holds, Bool.false_eq_true, if_false, exec_blk_nil,
          this]
      · rw [← hinv1.same.list hf]
        exact hinv1.setField hf rfl rfl
    | byName key =>
      obtain ⟨mp, hmp, rfl⟩ := hk
      have hmp' : (doNext E s).obj f = .map mp := by rw [hinv1.same f hf, hmp]
      refine ⟨{ doNext E s with idx := j, buf := v, err := false, obj := (doNext E s).obj.set f (.map (mapSet mp (v.strField key) v)) }, ?_,
        hinv1.setField hf rfl rfl, rfl⟩
      simp only [subStmt, exec_blk_cons, exec, hR, ifErr, holds, Bool.false_eq_true, if_false, exec_blk_nil,
        hmp']
  | enum hs ht ht' hcm =>
    rename_i k e f t c
    obtain ⟨h1, h2⟩ := tokAt_of ht
    rw [h2, lookup_of_mem hok.keys hs]
    simp only
    have h6 := hi h1
    have hf : f ∉ flags ps rest := hok.fields f (by
      simp only [List.mem_append, List.mem_map]
      exact Or.inl (Or.inr ⟨_, hs, rfl⟩))
    have hso := hok.subKinds _ hs
    simp only [subOk, Bool.and_eq_true] at hso
    obtain ⟨c', hc'⟩ := lookup_mem hcm
    obtain ⟨_, rfl⟩ := lookup_some hso.1 hc'
    cases hu : e.usesNext with
    | false =>
      rw [hu] at ht'
      simp only [Bool.false_eq_true, if_false] at ht'
      subst ht'
      rw [h2] at hc
      refine ⟨{ doNext E s with obj := (doNext E s).obj.set f (.str c'), err := false }, ?_,
        hinv1.setField hf rfl rfl, h6⟩
      simp only [subStmt, exec_blk_cons, exec, hu, Bool.false_eq_true, if_false, hc, hc', ifErr, holds,
        exec_blk_nil]
    | true =>
      rw [hu] at ht'
      simp only [if_true] at ht'
      rw [← h6] at ht'
      obtain ⟨g1, g2⟩ := tokAt_of ht'
      obtain ⟨a1, a2, a3, a4, a5⟩ := doNext_spec hw (doNext E s)
      rw [g2] at a1
      have hinv2 : Inv ps rest m o (doNext E (doNext E s)) :=
        ⟨by rw [a4]; exact hinv1.err, hinv1.le, by rw [a3]; exact hinv1.set, by rw [a3]; exact hinv1.unset,
         by rw [a3]; exact hinv1.same⟩
      refine ⟨{ doNext E (doNext E s) with obj := (doNext E (doNext E s)).obj.set f (.str c'), err := false }, ?_,
        hinv2.setField hf rfl rfl, by show (doNext E (doNext E s)).idx = _; rw [a5 g1, h6]; rfl⟩
      simp only [subStmt, exec_blk_cons, exec, hu, if_true, a1, hc', ifErr, holds, Bool.false_eq_true,
        if_false, exec_blk_nil]

/-- A round of the loop on the closing token. -/
theorem round_fin (hw : Wf E) (hok : BlockOk fin ps rest subs maps) {s : St} {m : Nat} {o : Obj}
    (hinv : Inv ps rest m o s) (ht : TokAfter E s.idx fin) :
    ∃ s', exec E K n (round raw fin ps rest subs) s = .ok s' .brk ∧ s'.err = false ∧
      SameValues (flags ps rest) s'.obj o ∧ s'.idx = s.idx + 1 := by
  obtain ⟨hr, hc, ho, he, hi⟩ := doNext_spec hw s
  obtain ⟨h1, h2⟩ := tokAt_of ht
  rw [round_eq hw s, h2, lookup_of_not_mem (fun hh => by
    obtain ⟨x, hx, hxe⟩ := List.mem_map.1 hh
    exact (hok.keyNe x hx).2 hxe)]
  simp only
  rw [default_fin raw ps rest hok.finNe (by rw [hc, h2])]
  obtain ⟨s', g1, g2, g3, g4⟩ := exec_setTrues (E := E) (K := K) (n := n) rest.flags (doNext E s)
  refine ⟨s', g1, by rw [g3, he, hinv.err], fun f hf => ?_, by rw [g2, hi h1]⟩
  rw [g4 f (fun hh => hf (List.mem_append_right _ hh)), ho]
  exact hinv.same f hf

/-- A round of the loop on a keyword that is not allowed. -/
theorem round_kw (hw : Wf E) {s : St} {t : Str} (ht : TokAfter E s.idx t) (h1 : t ∈ keywords) (h2 : t ≠ fin)
    (h3 : t ∉ subs.map (·.1)) :
    ∃ s', exec E K n (round false fin ps rest subs) s = .ok s' .brk ∧ s'.err = true := by
  obtain ⟨hr, hc, ho, he, hi⟩ := doNext_spec hw s
  obtain ⟨g1, g2⟩ := tokAt_of ht
  rw [round_eq hw s, g2, lookup_of_not_mem h3]
  simp only
  by_cases h0 : t = []
  · exact ⟨_, default_end _ _ _ _ (by rw [hc, g2, h0]), rfl⟩
  · refine ⟨_, default_kw ps rest (by rw [hc, g2]; exact h0) (by rw [hc, g2]; exact h2) ?_, rfl⟩
    rw [hc, g2]
    simpa [isKeyword] using h1

/-- Whatever a round of the loop does: it reads an item, or the closing token, or leaves with
an error, or does not return. -/
theorem round_cases (hw : Wf E) (hok : BlockOk fin ps rest subs maps) {s : St} {m : Nat} {o : Obj}
    (hinv : Inv ps rest m o s) :
    (∃ s' y, exec E K n (round raw fin ps rest subs) s = .ok s' .cont ∧ Inv ps rest y.m y.o s' ∧ s'.idx = y.i ∧
      Item E (Suc K) raw fin ps rest subs ⟨m, o, s.idx⟩ y) ∨
    (∃ s', exec E K n (round raw fin ps rest subs) s = .ok s' .brk ∧ s'.err = false ∧
      SameValues (flags ps rest) s'.obj o ∧ s'.idx = s.idx + 1 ∧ TokAfter E s.idx fin) ∨
    (∃ s', exec E K n (round raw fin ps rest subs) s = .ok s' .brk ∧ s'.err = true) ∨
    exec E K n (round raw fin ps rest subs) s = .panic ∨
    exec E K n (round raw fin ps rest subs) s = .timeout := by
  -- an item determines the round
  have item : ∀ {y}, Item E (Suc K) raw fin ps rest subs ⟨m, o, s.idx⟩ y →
      (∃ s' y, exec E K n (round raw fin ps rest subs) s = .ok s' .cont ∧ Inv ps rest y.m y.o s' ∧ s'.idx = y.i ∧
        Item E (Suc K) raw fin ps rest subs ⟨m, o, s.idx⟩ y) := by
    intro y hy
    obtain ⟨s', h1, h2, h3⟩ := round_item (n := n) hw hok hinv hy
    exact ⟨s', y, h1, h2, h3, hy⟩
  obtain ⟨hr, hc, ho, he, hi⟩ := doNext_spec hw s
  have hinv1 : Inv ps rest m o (doNext E s) :=
    ⟨by rw [he]; exact hinv.err, hinv.le, by rw [ho]; exact hinv.set, by rw [ho]; exact hinv.unset,
     by rw [ho]; exact hinv.same⟩
  cases hl : subs.lookup (tokAt E s.idx) with
  | some sb =>
    have hmem := lookup_isSome hl
    obtain ⟨hhas, ht⟩ := tokAt_ne (t := tokAt E s.idx) rfl (hok.keyNe _ hmem).1
    have h6 := hi hhas
    have hf : subField sb ∉ flags ps rest := hok.fields _ (by
      simp only [List.mem_append, List.mem_map]
      exact Or.inl (Or.inr ⟨_, hmem, rfl⟩))
    cases sb with
    | obj q f md =>
      cases hK : K q (doNext E s).idx with
      | panic =>
        refine Or.inr (Or.inr (Or.inr (Or.inl ?_)))
        rw [round_eq hw s, hl]
        cases md <;> simp only [subStmt, exec_blk_cons, exec, hK]
      | timeout =>
        refine Or.inr (Or.inr (Or.inr (Or.inr ?_)))
        rw [round_eq hw s, hl]
        cases md <;> simp only [subStmt, exec_blk_cons, exec, hK]
      | ok j v err =>
        cases err with
        | true =>
          refine Or.inr (Or.inr (Or.inl ?_))
          rw [round_eq hw s, hl]
          cases md with
          | field =>
            refine ⟨_, by simp only [subStmt, exec_blk_cons, exec, hK, ifErr, holds, if_true, exec_blk_nil]; rfl, rfl⟩
          | append =>
            refine ⟨_, by simp only [subStmt, exec_blk_cons, exec, hK, ifErr, holds, if_true, exec_blk_nil]; rfl, rfl⟩
          | byName key =>
            refine ⟨_, by simp only [subStmt, exec_blk_cons, exec, hK, ifErr, holds, if_true, exec_blk_nil]; rfl, rfl⟩
        | false =>
          have hS : Suc K q (s.idx + 1) j v := by unfold Suc; rw [← h6]; exact hK
          cases md with
          | field => exact Or.inl (item (.sub hmem ht hS rfl))
          | append => exact Or.inl (item (.sub hmem ht hS rfl))
          | byName key =>
            cases hm : o f with
            | map mp => exact Or.inl (item (.sub hmem ht hS ⟨mp, hm, rfl⟩))
            | _ =>
              refine Or.inr (Or.inr (Or.inr (Or.inl ?_)))
              rw [round_eq hw s, hl]
              have hm' := hm
              rw [← hinv1.same f hf] at hm'
              simp only [subStmt, exec_blk_cons, exec, hK, ifErr, holds, Bool.false_eq_true, if_false,
                exec_blk_nil, hm']
    | enum e f =>
      have hso := hok.subKinds _ hmem
      simp only [subOk, Bool.and_eq_true, List.all_eq_true, decide_eq_true_eq] at hso
      cases hu : e.usesNext with
      | false =>
        cases hlk : e.table.lookup (tokAt E s.idx) with
        | some c =>
          exact Or.inl (item (.enum (e := e) (f := f) (t := tokAt E s.idx) (c := c) hmem ht (by simp [hu])
            (lookup_some hso.1 hlk).1))
        | none =>
          refine Or.inr (Or.inr (Or.inl ?_))
          rw [round_eq hw s, hl]
          refine ⟨_, by simp only [subStmt, exec_blk_cons, exec, hu, Bool.false_eq_true, if_false, hc, hlk, ifErr,
            holds, if_true, exec_blk_nil]; rfl, rfl⟩
      | true =>
        obtain ⟨a1, a2, a3, a4, a5⟩ := doNext_spec hw (doNext E s)
        cases hlk : e.table.lookup (tokAt E (doNext E s).idx) with
        | some c =>
          have hm2 := (lookup_some hso.1 hlk).1
          obtain ⟨g1, g2⟩ := tokAt_ne (t := tokAt E (doNext E s).idx) rfl (hso.2 _ hm2)
          refine Or.inl (item (.enum (e := e) (f := f) (t := tokAt E (doNext E s).idx) (c := c) hmem ht ?_ hm2))
          rw [h6] at g2
          simpa [hu, h6] using g2
        | none =>
          refine Or.inr (Or.inr (Or.inl ?_))
          rw [round_eq hw s, hl]
          refine ⟨_, by simp only [subStmt, exec_blk_cons, exec, hu, if_true, a1, hlk, ifErr, holds,
            exec_blk_nil]; rfl, rfl⟩
  | none =>
    have hns := lookup_isNone hl
    by_cases h0 : tokAt E s.idx = []
    · refine Or.inr (Or.inr (Or.inl ?_))
      rw [round_eq hw s, hl]
      exact ⟨_, default_end _ _ _ _ (by rw [hc, h0]), rfl⟩
    · obtain ⟨hhas, ht⟩ := tokAt_ne (t := tokAt E s.idx) rfl h0
      have h6 := hi hhas
      by_cases hfin : tokAt E s.idx = fin
      · rw [hfin] at ht
        obtain ⟨s', g1, g2, g3, g4⟩ := round_fin (K := K) (n := n) (raw := raw) hw hok hinv ht
        exact Or.inr (Or.inl ⟨s', g1, g2, g3, g4, ht⟩)
      · by_cases hkw : raw = false ∧ tokAt E s.idx ∈ keywords
        · obtain ⟨rfl, hk⟩ := hkw
          exact Or.inr (Or.inr (Or.inl (round_kw hw ht hk hfin hns)))
        · have hpl : Plain raw fin subs (tokAt E s.idx) := by
            refine ⟨h0, hfin, hns, ?_⟩
            cases raw with
            | true => exact Or.inl rfl
            | false => exact Or.inr fun hh => hkw ⟨rfl, hh⟩
          have hdp := default_plain (K := K) (n := n) (raw := raw) (fin := fin) hinv1
            (by rw [hc]; exact h0) (by rw [hc]; exact hfin)
            (by rw [hc]; exact hpl.2.2.2.imp id isKeyword_iff.2)
          cases hp : ps[m]? with
          | some p =>
            by_cases hv : ∃ v, Denotes E p.kind (tokAt E s.idx) v
            · obtain ⟨v, hv⟩ := hv
              exact Or.inl (item (.param hp ht hpl hv))
            · refine Or.inr (Or.inr (Or.inl ?_))
              rw [round_eq hw s, hl]
              simp only
              rw [hdp, hp]
              exact load_err (hok.kinds p (param_mem hp)) (fun v hh => hv ⟨v, by rw [← hc]; exact hh⟩) _
          | none =>
            have hm : m = ps.length := by
              have := hinv.le
              rw [List.getElem?_eq_none_iff] at hp
              omega
            cases hrs : rest with
            | none => exact Or.inl (hrs ▸ item (.surplus hm hrs ht hpl))
            | text f fl => exact Or.inl (hrs ▸ item (.word hm hrs ht hpl))
            | list f fl k =>
              by_cases hv : ∃ v, Denotes E k (tokAt E s.idx) v
              · obtain ⟨v, hv⟩ := hv
                exact Or.inl (hrs ▸ item (.member hm hrs ht hpl hv))
              · refine Or.inr (Or.inr (Or.inl ?_))
                rw [← hrs, round_eq hw s, hl]
                simp only
                rw [hdp, hp, hrs]
                have hrok := hok.restKind
                rw [hrs] at hrok
                exact add_err hrok (fun v hh => hv ⟨v, by rw [← hc]; exact hh⟩)

end Verif.A2l.Template
