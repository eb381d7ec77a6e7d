import Verif.A2l.BlockSound

/-!
The parse functions of regular form read exactly the texts of their declared shape.
-/

namespace Verif.A2l.Template
open Verif.Go Verif.A2l Lang Decl Analysis

variable {E : Env} {K : PName → Nat → PRes} {n : Nat}
variable {raw : Bool} {fin : Str} {ps : List Param} {rest : Rest} {subs : List (Str × Sub)}
  {maps : List String}

/-! ### Blocks -/

theorem iter_items (hw : Wf E) (hok : BlockOk fin ps rest subs maps) {k : Nat} {x z : Pos}
    (h : Items E (Suc K) raw fin ps rest subs k x z) : ∀ {s : St}, Inv ps rest x.m x.o s → s.idx = x.i →
    ∃ s', Inv ps rest z.m z.o s' ∧ s'.idx = z.i ∧
      ∀ N, iter (exec E K n (round raw fin ps rest subs)) (N + k) s =
        iter (exec E K n (round raw fin ps rest subs)) N s' := by
  induction h with
  | nil => intro s hs hi; exact ⟨s, hs, hi, fun N => rfl⟩
  | cons hit _ ih =>
    rename_i k x y z _
    intro s hs hi
    obtain ⟨xm, xo, xi⟩ := x
    simp only at hs hi
    subst hi
    obtain ⟨s1, h1, h2, h3⟩ := round_item (n := n) hw hok hs hit
    obtain ⟨s', g1, g2, g3⟩ := ih h2 h3
    refine ⟨s', g1, g2, fun N => ?_⟩
    rw [← g3 N, ← Nat.add_assoc, iter, h1]

theorem iter_success (hw : Wf E) (hok : BlockOk fin ps rest subs maps) : ∀ {N : Nat} {s : St} {m : Nat} {o : Obj},
    Inv ps rest m o s → ∀ {s' c}, iter (exec E K n (round raw fin ps rest subs)) N s = .ok s' c → s'.err = false →
    ∃ k m' o' j, Items E (Suc K) raw fin ps rest subs k ⟨m, o, s.idx⟩ ⟨m', o', j⟩ ∧ TokAfter E j fin ∧
      s'.idx = j + 1 ∧ SameValues (flags ps rest) s'.obj o' := by
  intro N
  induction N with
  | zero => intro s m o _ s' c h; simp [iter] at h
  | succ N ih =>
    intro s m o hinv s' c h he
    rw [iter] at h
    rcases round_cases (K := K) (n := n) (raw := raw) hw hok hinv with
      ⟨s1, y, h1, h2, h3, h4⟩ | ⟨s1, h1, h2, h3, h4, h5⟩ | ⟨s1, h1, h2⟩ | h1 | h1
    · rw [h1] at h
      obtain ⟨k, m', o', j, g1, g2, g3, g4⟩ := ih h2 h he
      exact ⟨k + 1, m', o', j, .cons h4 (by rw [h3] at g1; exact g1), g2, g3, g4⟩
    · rw [h1] at h
      simp only [Out.ok.injEq] at h
      obtain ⟨rfl, _⟩ := h
      exact ⟨0, m, o, s.idx, .nil, h5, h4, h3⟩
    · rw [h1] at h
      simp only [Out.ok.injEq] at h
      obtain ⟨rfl, _⟩ := h
      rw [h2] at he; cases he
    · rw [h1] at h; simp at h
    · rw [h1] at h; simp at h

theorem exec_mapInits (l : List String) (st : Stmt) (s : St) : ∃ s', exec E K n (blk (l.map Stmt.mapInit ++ [st])) s =
    exec E K n st s' ∧ s'.idx = s.idx ∧ s'.err = s.err ∧
    ∀ f, s'.obj f = if f ∈ l then .map (fun _ => none) else s.obj f := by
  induction l generalizing s with
  | nil => exact ⟨s, exec_blk_one _ _, rfl, rfl, fun f => by simp⟩
  | cons x l ih =>
    obtain ⟨s', h1, h2, h3, h4⟩ := ih { s with obj := s.obj.set x (.map fun _ => none) }
    refine ⟨s', ?_, h2, h3, fun f => ?_⟩
    · rw [List.map_cons, List.cons_append, exec_blk_cons]; exact h1
    · rw [h4]
      by_cases hf : f ∈ l
      · simp [hf]
      · by_cases hx : f = x
        · subst hx; simp [set_same]
        · simp [hf, hx, set_other]

theorem inv_start (hok : BlockOk fin ps rest subs maps) {s : St}
    (ho : ∀ f, s.obj f = if f ∈ maps then .map (fun _ => none) else .zero) (he : s.err = false) :
    Inv ps rest 0 (start maps) s := by
  have hz : ∀ f ∈ flags ps rest, s.obj.flag f = false := by
    intro f hf
    have : f ∉ maps := fun hh => hok.fields f (List.mem_append_right _ hh) hf
    simp [Obj.flag, ho, this]
  refine ⟨he, Nat.zero_le _, fun j hj => ?_, fun f hf => hz f (List.mem_append_right _ hf), fun f _ => ho f⟩
  rw [hz _ (mem_getElem_flag hj)]; simp

/-- The block of statements before the loop. -/
theorem exec_block (hok : BlockOk fin ps rest subs maps) (i : Nat) :
    ∃ s, exec E K n (template fin (.block raw ps rest subs maps)) (St.init i) =
      iter (exec E K n (round raw fin ps rest subs)) n s ∧ s.idx = i ∧ Inv ps rest 0 (start maps) s := by
  obtain ⟨s, h1, h2, h3, h4⟩ := exec_mapInits (E := E) (K := K) (n := n) maps
    (.loop (round raw fin ps rest subs)) (St.init i)
  exact ⟨s, h1, h2, inv_start hok h4 h3⟩

/-! ### Sequences of parameters -/

def seqBody (p : Param) (last : Bool) : Cond × List Stmt :=
  (.unset p.flag, load true p.field p.kind ++ .setTrue p.flag :: if last then [.brk] else [])

theorem find_seq {E : Env} {s : St} : ∀ {ps : List Param} {m : Nat} (_ : m ≤ ps.length)
    (_ : ∀ j (h : j < ps.length), s.obj.flag ps[j].flag = decide (j < m)),
    (seqCases ps).find? (fun x => holds E s x.1) = (ps[m]?).map fun p => seqBody p (decide (m + 1 = ps.length))
  | [], m, _, _ => by simp [seqCases]
  | [p], 0, _, h => by
    have := h 0 (by simp)
    simp only [List.getElem_cons_zero, Nat.lt_irrefl, decide_false] at this
    simp [seqCases, seqBody, holds, this]
  | [p], m + 1, hm, h => by
    have := h 0 (by simp)
    simp only [List.getElem_cons_zero, Nat.zero_lt_succ, decide_true] at this
    simp [seqCases, holds, this]
  | p :: q :: ps, 0, _, h => by
    have := h 0 (by simp)
    simp only [List.getElem_cons_zero, Nat.lt_irrefl, decide_false] at this
    simp [seqCases, paramCase, seqBody, holds, this]
  | p :: q :: ps, m + 1, hm, h => by
    have h0 := h 0 (by simp)
    simp only [List.getElem_cons_zero, Nat.zero_lt_succ, decide_true] at h0
    have ih := find_seq (E := E) (s := s) (ps := q :: ps) (m := m) (by simpa using hm) (fun j hj => by
      have := h (j + 1) (by simpa using hj)
      simpa using this)
    rw [seqCases, List.find?_cons]
    · have : holds E s (paramCase p).1 = false := by simp [paramCase, holds, h0]
      rw [this]
      simp only
      rw [ih]
      simp
    · simp

def seqRound (ps : List Param) : Stmt := blk (.next :: chain ((.curIs emptyToken, [.setErr, .brk]) ::
      (.curKw, [.setErr, .brk]) :: seqCases ps))

theorem seqRound_plain {s : St} {m : Nat} {o : Obj} (hinv : Inv ps .none m o (doNext E s))
    {p : Param} (hp : ps[m]? = some p)
    (h1 : E.current (doNext E s).idx ≠ []) (h2 : isKeyword (E.current (doNext E s).idx) = false) :
    exec E K n (seqRound ps) s =
      exec E K n (blk (load true p.field p.kind ++ .setTrue p.flag :: if m + 1 = ps.length then [.brk] else []))
        (doNext E s) := by
  have e1 : holds E (doNext E s) (.curIs emptyToken) = false := by
    simp only [holds, decide_eq_false_iff_not]; exact h1
  have e2 : holds E (doNext E s) .curKw = false := h2
  rw [seqRound, exec_blk_cons]
  simp only [exec]
  rw [exec_chain]
  simp only [List.find?_cons, e1, e2]
  rw [find_seq hinv.le hinv.set, hp]
  simp only [Option.map_some, seqBody]
  by_cases h : m + 1 = ps.length <;> simp [h]

theorem seqRound_bad {s : St}
    (h : E.current (doNext E s).idx = [] ∨ isKeyword (E.current (doNext E s).idx) = true) :
    ∃ s', exec E K n (seqRound ps) s = .ok s' .brk ∧ s'.err = true := by
  rw [seqRound, exec_blk_cons]
  simp only [exec]
  rw [exec_chain]
  by_cases h0 : E.current (doNext E s).idx = []
  · have e1 : holds E (doNext E s) (.curIs emptyToken) = true := by
      simp only [holds, decide_eq_true_eq]; exact h0
    simp only [List.find?_cons, e1]
    exact ⟨_, rfl, rfl⟩
  · have e1 : holds E (doNext E s) (.curIs emptyToken) = false := by
      simp only [holds, decide_eq_false_iff_not]; exact h0
    have e2 : holds E (doNext E s) .curKw = true := h.resolve_left h0
    simp only [List.find?_cons, e1, e2]
    exact ⟨_, rfl, rfl⟩

theorem Inv.next (hw : Wf E) {m : Nat} {o : Obj} {s : St} (h : Inv ps rest m o s) : Inv ps rest m o (doNext E s) := by
  obtain ⟨_, _, ho, he, _⟩ := doNext_spec hw s
  exact ⟨by rw [he]; exact h.err, h.le, by rw [ho]; exact h.set, by rw [ho]; exact h.unset,
     by rw [ho]; exact h.same⟩

theorem drop_cons {α : Type} {l : List α} {m : Nat} {a : α} (h : l[m]? = some a) : l.drop m = a :: l.drop (m + 1) := by
  obtain ⟨hm, rfl⟩ := List.getElem?_eq_some_iff.1 h
  exact List.drop_eq_getElem_cons hm

/-- Parameters in order are read. -/
theorem seq_complete (hw : Wf E) (hok : BlockOk fin ps .none subs maps) : ∀ (k : Nat) {m : Nat} {o o' : Obj} {s : St},
    ps.length = m + (k + 1) → Inv ps .none m o s → Params E s.idx (ps.drop m) o o' → ∀ N, k < N →
    ∃ s', iter (exec E K n (seqRound ps)) N s = .ok s' .cont ∧ s'.err = false ∧ s'.idx = s.idx + (k + 1) ∧
      SameValues (flags ps .none) s'.obj o' := by
  intro k
  induction k with
  | zero =>
    intro m o o' s hl hinv hpar N hN
    obtain ⟨N, rfl⟩ : ∃ k, N = k + 1 := ⟨N - 1, by omega⟩
    have hp : ps[m]? = some ps[m] := List.getElem?_eq_getElem (by omega)
    rw [drop_cons hp] at hpar
    cases hpar with
    | cons ht hne hkw hv h =>
      rename_i t v
      obtain ⟨g1, g2⟩ := tokAt_of ht
      obtain ⟨a1, a2, a3, a4, a5⟩ := doNext_spec hw s
      rw [g2] at a2
      have hinv1 := hinv.next hw
      obtain ⟨s1, b1, b2, b3, b4⟩ := load_ok (K := K) (n := n) (b := true) (f := ps[m].field)
        (hok.kinds _ (param_mem hp)) hinv1.err (by rw [a2]; exact hv) [.setTrue ps[m].flag, .brk]
      have hr : exec E K n (seqRound ps) s = .ok { s1 with obj := s1.obj.set ps[m].flag (.bool true) } .brk := by
        rw [seqRound_plain hinv1 hp (by rw [a2]; exact hne) (by rw [a2]; exact isKeyword_iff.2 hkw),
          if_pos (by omega), b1]
        rfl
      rw [List.drop_eq_nil_of_le (by omega)] at h
      cases h
      refine ⟨{ s1 with obj := s1.obj.set ps[m].flag (.bool true) }, by rw [iter, hr], b4, ?_, ?_⟩
      · show s1.idx = _
        rw [b3, a5 g1]
      · exact (hinv1.setParam (s' := { s1 with obj := s1.obj.set ps[m].flag (.bool true) }) (v := v) hok hp
          (by show s1.obj.set _ _ = _; rw [b2]) b4).same
  | succ k ih =>
    intro m o o' s hl hinv hpar N hN
    obtain ⟨N, rfl⟩ : ∃ k, N = k + 1 := ⟨N - 1, by omega⟩
    have hp : ps[m]? = some ps[m] := List.getElem?_eq_getElem (by omega)
    rw [drop_cons hp] at hpar
    cases hpar with
    | cons ht hne hkw hv h =>
      rename_i t v
      obtain ⟨g1, g2⟩ := tokAt_of ht
      obtain ⟨a1, a2, a3, a4, a5⟩ := doNext_spec hw s
      rw [g2] at a2
      have hinv1 := hinv.next hw
      obtain ⟨s1, b1, b2, b3, b4⟩ := load_ok (K := K) (n := n) (b := true) (f := ps[m].field)
        (hok.kinds _ (param_mem hp)) hinv1.err (by rw [a2]; exact hv) [.setTrue ps[m].flag]
      have hr : exec E K n (seqRound ps) s = .ok { s1 with obj := s1.obj.set ps[m].flag (.bool true) } .cont := by
        rw [seqRound_plain hinv1 hp (by rw [a2]; exact hne) (by rw [a2]; exact isKeyword_iff.2 hkw),
          if_neg (by omega), b1]
        rfl
      have hidx : s1.idx = s.idx + 1 := by rw [b3, a5 g1]
      obtain ⟨s', c1, c2, c3, c4⟩ := ih (m := m + 1) (o := o.set ps[m].field v) (o' := o')
        (s := { s1 with obj := s1.obj.set ps[m].flag (.bool true) }) (by omega)
        (hinv1.setParam hok hp (by rw [b2]) b4) (by show Params E s1.idx _ _ _; rw [hidx]; exact h) N (by omega)
      refine ⟨s', by rw [iter, hr]; exact c1, c2, ?_, c4⟩
      rw [c3]
      show s1.idx + _ = _
      rw [hidx]; omega

/-- Whatever is read without error is parameters in order. -/
theorem seq_sound (hw : Wf E) (hok : BlockOk fin ps .none subs maps) : ∀ {N : Nat} {m : Nat} {o : Obj} {s : St},
    m < ps.length → Inv ps .none m o s → ∀ {s' c}, iter (exec E K n (seqRound ps)) N s = .ok s' c → s'.err = false →
    ∃ o', Params E s.idx (ps.drop m) o o' ∧ s'.idx = s.idx + (ps.length - m) ∧
      SameValues (flags ps .none) s'.obj o' := by
  intro N
  induction N with
  | zero => intro m o s _ _ s' c h; simp [iter] at h
  | succ N ih =>
    intro m o s hm hinv s' c h he
    obtain ⟨a1, a2, a3, a4, a5⟩ := doNext_spec hw s
    have hinv1 := hinv.next hw
    have hp : ps[m]? = some ps[m] := List.getElem?_eq_getElem hm
    by_cases hb : E.current (doNext E s).idx = [] ∨ isKeyword (E.current (doNext E s).idx) = true
    · obtain ⟨s1, h1, h2⟩ := seqRound_bad (K := K) (n := n) (ps := ps) hb
      rw [iter, h1] at h
      simp only [Out.ok.injEq] at h
      obtain ⟨rfl, _⟩ := h
      rw [h2] at he; cases he
    · rw [a2] at hb
      simp only [not_or, Bool.not_eq_true] at hb
      obtain ⟨g1, ht⟩ := tokAt_ne (t := tokAt E s.idx) rfl hb.1
      have heq := seqRound_plain (K := K) (n := n) hinv1 hp (by rw [a2]; exact hb.1) (by rw [a2]; exact hb.2)
      rw [drop_cons hp]
      by_cases hv : ∃ v, Denotes E ps[m].kind (E.current (doNext E s).idx) v
      · obtain ⟨v, hv⟩ := hv
        obtain ⟨s1, b1, b2, b3, b4⟩ := load_ok (K := K) (n := n) (b := true) (f := ps[m].field)
          (hok.kinds _ (param_mem hp)) hinv1.err hv
          (.setTrue ps[m].flag :: if m + 1 = ps.length then [.brk] else [])
        rw [b1] at heq
        have hidx : s1.idx = s.idx + 1 := by rw [b3, a5 g1]
        have hinv2 : Inv ps .none (m + 1) (o.set ps[m].field v) { s1 with obj := s1.obj.set ps[m].flag (.bool true) } :=
          hinv1.setParam hok hp (by rw [b2]) b4
        rw [a2] at hv
        by_cases hlast : m + 1 = ps.length
        · rw [if_pos hlast] at heq
          have heq' : exec E K n (seqRound ps) s = .ok { s1 with obj := s1.obj.set ps[m].flag (.bool true) } .brk := heq
          rw [iter, heq'] at h
          simp only [Out.ok.injEq] at h
          obtain ⟨rfl, _⟩ := h
          refine ⟨o.set ps[m].field v, .cons ht hb.1 (isKeyword_iff.1 hb.2) hv ?_, ?_, hinv2.same⟩
          · rw [List.drop_eq_nil_of_le (by omega)]; exact .nil
          · show s1.idx = _
            rw [hidx]; omega
        · rw [if_neg hlast] at heq
          have heq' : exec E K n (seqRound ps) s = .ok { s1 with obj := s1.obj.set ps[m].flag (.bool true) } .cont := heq
          rw [iter, heq'] at h
          obtain ⟨o', c1, c2, c3⟩ := ih (m := m + 1) (by omega) hinv2 h he
          refine ⟨o', .cons ht hb.1 (isKeyword_iff.1 hb.2) hv ?_, ?_, c3⟩
          · have c1' : Params E s1.idx _ _ _ := c1
            rw [hidx] at c1'
            exact c1'
          · rw [c2]
            show s1.idx + _ = _
            rw [hidx]; omega
      · obtain ⟨s1, b1, b2⟩ := load_err (K := K) (n := n) (f := ps[m].field) (hok.kinds _ (param_mem hp))
          (s := doNext E s) (fun v hh => hv ⟨v, hh⟩) (.setTrue ps[m].flag :: if m + 1 = ps.length then [.brk] else [])
        rw [b1] at heq
        rw [iter, heq] at h
        simp only [Out.ok.injEq] at h
        obtain ⟨rfl, _⟩ := h
        rw [b2] at he; cases he

/-! ### One parameter -/

theorem load_err_one {f fl : String} {k : Kind} (hk : kindOk k = true) {s : St}
    (hv : ∀ v, ¬ Denotes E k (E.current s.idx) v) :
    ∃ s', exec E K n (blk (load false f k ++ [.setTrue fl])) s = .ok s' .cont ∧ s'.err = true := by
  cases k with
  | str => exact absurd rfl (hv _)
  | uint w =>
    cases hc : (parseUint (E.current s.idx) w).2 with
    | true =>
      exfalso
      have := (parseUint_ok (E.current s.idx) w (parseUint (E.current s.idx) w).1).1 (by rw [← hc])
      exact hv _ ⟨_, this.1, this.2, rfl⟩
    | false =>
      refine ⟨_, by
        simp only [load, List.cons_append, List.nil_append, exec_blk_cons, exec, convert, hc, ifErr, holds,
          Bool.not_false, if_true, exec_blk_nil, Bool.false_eq_true, if_false]; rfl, rfl⟩
  | int w =>
    cases hc : (parseInt (E.current s.idx) w).2 with
    | true =>
      exfalso
      have := (parseInt_ok (E.current s.idx) w (parseInt (E.current s.idx) w).1).1 (by rw [← hc])
      exact hv _ ⟨_, this.1, this.2.1, this.2.2, rfl⟩
    | false =>
      refine ⟨_, by
        simp only [load, List.cons_append, List.nil_append, exec_blk_cons, exec, convert, hc, ifErr, holds,
          Bool.not_false, if_true, exec_blk_nil, Bool.false_eq_true, if_false]; rfl, rfl⟩
  | float =>
    have h1 : E.floatOk (E.current s.idx) = false := by
      cases h : E.floatOk (E.current s.idx) with
      | true => exact absurd ⟨h, rfl⟩ (hv (.flt (E.current s.idx)))
      | false => rfl
    refine ⟨_, by
      simp only [load, List.cons_append, List.nil_append, exec_blk_cons, exec, convert, h1, ifErr, holds,
        Bool.not_false, if_true, if_false, Bool.false_eq_true, exec_blk_nil]; rfl, rfl⟩
  | enum e =>
    simp only [kindOk, Bool.and_eq_true, Bool.not_eq_true'] at hk
    cases hl : e.table.lookup (E.current s.idx) with
    | some c => exact absurd ⟨⟨c, (lookup_some hk.1 hl).1⟩, rfl⟩ (hv _)
    | none =>
      refine ⟨_, by
        simp only [load, List.cons_append, List.nil_append, exec_blk_cons, exec, hk.2, hl, ifErr, holds,
          if_true, if_false, Bool.false_eq_true, exec_blk_nil]; rfl, rfl⟩

/-- A keyword with one parameter. -/
theorem one_cases (hw : Wf E) {p : Param} (hk : kindOk p.kind = true) (i : Nat) :
    (∃ s v, exec E K n (template fin (.one p)) (St.init i) = .ok s .cont ∧ s.err = false ∧ s.idx = i + 1 ∧
      s.obj = (Obj.empty.set p.field v).set p.flag (.bool true) ∧ TokAfter E i (tokAt E i) ∧
      tokAt E i ≠ [] ∧ tokAt E i ∉ keywords ∧ Denotes E p.kind (tokAt E i) v) ∨
    ((∃ s, exec E K n (template fin (.one p)) (St.init i) = .ok s .cont ∧ s.err = true) ∧
      ¬ ∃ t v, TokAfter E i t ∧ t ≠ [] ∧ t ∉ keywords ∧ Denotes E p.kind t v) := by
  obtain ⟨a1, a2, a3, a4, a5⟩ := doNext_spec hw (St.init i)
  have a2' : E.current (doNext E (St.init i)).idx = tokAt E i := a2
  have hneg : ∀ {P : Prop}, (¬ ∃ v, tokAt E i ≠ [] ∧ tokAt E i ∉ keywords ∧ Denotes E p.kind (tokAt E i) v) → P →
      P ∧ ¬ ∃ t v, TokAfter E i t ∧ t ≠ [] ∧ t ∉ keywords ∧ Denotes E p.kind t v := by
    intro P h hP
    refine ⟨hP, ?_⟩
    rintro ⟨t, v, h1, h2, h3, h4⟩
    obtain ⟨_, rfl⟩ := tokAt_of h1
    exact h ⟨v, h2, h3, h4⟩
  simp only [template, exec_blk_cons, exec]
  rw [exec_chain]
  by_cases h0 : tokAt E i = []
  · have e1 : holds E (doNext E (St.init i)) (.curIs emptyToken) = true := by
      simp only [holds, decide_eq_true_eq]; rw [a2']; exact h0
    simp only [List.find?_cons, e1]
    exact Or.inr (hneg (fun ⟨_, h, _⟩ => h h0) ⟨_, rfl, rfl⟩)
  · have e1 : holds E (doNext E (St.init i)) (.curIs emptyToken) = false := by
      simp only [holds, decide_eq_false_iff_not]; rw [a2']; exact h0
    obtain ⟨g1, ht⟩ := tokAt_ne (t := tokAt E i) rfl h0
    by_cases hkw : tokAt E i ∈ keywords
    · have e2 : holds E (doNext E (St.init i)) .curKw = true := by
        simp only [holds]; rw [a2']; simpa [isKeyword] using hkw
      simp only [List.find?_cons, e1, e2]
      exact Or.inr (hneg (fun ⟨_, _, h, _⟩ => h hkw) ⟨_, rfl, rfl⟩)
    · have e2 : holds E (doNext E (St.init i)) .curKw = false := by
        simp only [holds]; rw [a2']; exact isKeyword_iff.2 hkw
      have e3 : holds E (doNext E (St.init i)) (.unset p.flag) = true := by
        simp only [holds]; rw [a3]; rfl
      simp only [List.find?_cons, e1, e2, e3]
      by_cases hv : ∃ v, Denotes E p.kind (tokAt E i) v
      · obtain ⟨v, hv⟩ := hv
        obtain ⟨s1, b1, b2, b3, b4⟩ := load_ok (K := K) (n := n) (b := false) (f := p.field)
          hk (by rw [a4]; rfl) (by rw [a2']; exact hv) [.setTrue p.flag]
        rw [b1]
        refine Or.inl ⟨{ s1 with obj := s1.obj.set p.flag (.bool true) }, v, rfl, b4, ?_, ?_, ht, h0, hkw, hv⟩
        · show s1.idx = _
          rw [b3, a5 g1]; rfl
        · show s1.obj.set _ _ = _
          rw [b2, a3]; rfl
      · refine Or.inr (hneg (fun ⟨v, _, _, h⟩ => hv ⟨v, h⟩) ?_)
        exact load_err_one hk (fun v hh => hv ⟨v, by rw [← a2']; exact hh⟩)

end Verif.A2l.Template
