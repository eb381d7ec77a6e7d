import Verif.A2l.ObjProps2

/-!
C64: the markers `…Set` of the A2L structs say exactly which positional parameters were read.
-/

namespace Verif.A2l.Template
open Verif.Go Verif.A2l Lang Decl Analysis

variable {E : Env} {K : PName → Nat → PRes} {n : Nat}
variable {raw : Bool} {fin : Str} {ps : List Param} {rest : Rest} {subs : List (Str × Sub)}
  {maps : List String}

theorem exec_setTrues_flag (l : List String) (s : St) : ∃ s', exec E K n (blk (l.map Stmt.setTrue ++ [.brk])) s =
    .ok s' .brk ∧ (∀ f ∈ l, s'.obj.flag f = true) ∧ ∀ f, f ∉ l → s'.obj.flag f = s.obj.flag f := by
  induction l generalizing s with
  | nil => exact ⟨s, rfl, fun _ h => (List.not_mem_nil h).elim, fun _ _ => rfl⟩
  | cons x l ih =>
    obtain ⟨s', h1, h2, h3⟩ := ih { s with obj := s.obj.set x (.bool true) }
    refine ⟨s', ?_, fun f hf => ?_, fun f hf => ?_⟩
    · rw [List.map_cons, List.cons_append, exec_blk_cons]; exact h1
    · by_cases hl : f ∈ l
      · exact h2 f hl
      · rw [h3 f hl]
        rcases List.mem_cons.1 hf with rfl | hf
        · exact flag_same _ _
        · exact absurd hf hl
    · simp only [List.mem_cons, not_or] at hf
      rw [h3 f hf.2]; exact flag_other _ _ hf.1

/-- The markers at the closing token of a block. -/
theorem round_fin_marks (hw : Wf E) (hok : BlockOk fin ps rest subs maps) {s : St} {m : Nat} {o : Obj}
    (hinv : Inv ps rest m o s) (ht : TokAfter E s.idx fin) :
    ∃ s', exec E K n (round raw fin ps rest subs) s = .ok s' .brk ∧
      (∀ k (h : k < ps.length), s'.obj.flag ps[k].flag = decide (k < m)) ∧
      ∀ f ∈ rest.flags, s'.obj.flag f = true := by
  obtain ⟨hr, hc, ho, he, hi⟩ := doNext_spec hw s
  obtain ⟨h1, h2⟩ := tokAt_of ht
  rw [round_eq hw s, h2, lookup_of_not_mem (fun hh => by
    obtain ⟨x, hx, hxe⟩ := List.mem_map.1 hh
    exact (hok.keyNe x hx).2 hxe)]
  simp only
  rw [default_fin raw ps rest hok.finNe (by rw [hc, h2])]
  obtain ⟨s', g1, g2, g3⟩ := exec_setTrues_flag (E := E) (K := K) (n := n) rest.flags (doNext E s)
  refine ⟨s', g1, fun k hk => ?_, g2⟩
  have hnd := hok.nodup
  unfold flags at hnd
  rw [g3 _ (fun hh => (List.nodup_append.1 hnd).2.2 _ (List.mem_map.2 ⟨ps[k], List.getElem_mem hk, rfl⟩) _ hh rfl), ho]
  exact hinv.set k hk

theorem iter_marks (hw : Wf E) (hok : BlockOk fin ps rest subs maps) : ∀ {N : Nat} {s : St} {m : Nat} {o : Obj},
    Inv ps rest m o s → ∀ {s' c}, iter (exec E K n (round raw fin ps rest subs)) N s = .ok s' c → s'.err = false →
    ∃ k m' o' j, Items E (Suc K) raw fin ps rest subs k ⟨m, o, s.idx⟩ ⟨m', o', j⟩ ∧ TokAfter E j fin ∧
      s'.idx = j + 1 ∧ SameValues (flags ps rest) s'.obj o' ∧ m' ≤ ps.length ∧
      (∀ k (h : k < ps.length), s'.obj.flag ps[k].flag = decide (k < m')) ∧
      ∀ f ∈ rest.flags, s'.obj.flag f = true := by
  intro N
  induction N with
  | zero => intro s m o _ s' c h; simp [iter] at h
  | succ N ih =>
    intro s m o hinv s' c h he
    rw [iter] at h
    rcases round_cases (K := K) (n := n) (raw := raw) hw hok hinv with
      ⟨s1, y, h1, h2, h3, h4⟩ | ⟨s1, h1, h2, h3, h4, h5⟩ | ⟨s1, h1, h2⟩ | h1 | h1
    · rw [h1] at h
      obtain ⟨k, m', o', j, g1, g2⟩ := ih h2 h he
      exact ⟨k + 1, m', o', j, .cons h4 (by rw [h3] at g1; exact g1), g2⟩
    · obtain ⟨s2, g1, g2, g3⟩ := round_fin_marks (K := K) (n := n) (raw := raw) hw hok hinv h5
      rw [h1] at g1
      simp only [Out.ok.injEq, and_true] at g1
      subst g1
      rw [h1] at h
      simp only [Out.ok.injEq] at h
      obtain ⟨rfl, _⟩ := h
      exact ⟨0, m, o, s.idx, .nil, h5, h4, h3, hinv.le, g2, g3⟩
    · rw [h1] at h
      simp only [Out.ok.injEq] at h
      obtain ⟨rfl, _⟩ := h
      rw [h2] at he; cases he
    · rw [h1] at h; simp at h
    · rw [h1] at h; simp at h

/-- The markers after a sequence of parameters. -/
theorem seq_marks (hw : Wf E) (hok : BlockOk fin ps .none subs maps) : ∀ {N : Nat} {m : Nat} {o : Obj} {s : St},
    m < ps.length → Inv ps .none m o s → ∀ {s' c}, iter (exec E K n (seqRound ps)) N s = .ok s' c → s'.err = false →
    ∀ k (h : k < ps.length), s'.obj.flag ps[k].flag = true := by
  intro N
  induction N with
  | zero => intro m o s _ _ s' c h; simp [iter] at h
  | succ N ih =>
    intro m o s hm hinv s' c h he
    obtain ⟨a1, a2, a3, a4, a5⟩ := doNext_spec hw s
    have hinv1 := hinv.next hw
    have hp : ps[m]? = some ps[m] := List.getElem?_eq_getElem hm
    by_cases hb : E.current (doNext E s).idx = [] ∨ isKeyword (E.current (doNext E s).idx) = true
    · obtain ⟨s1, h1, h2⟩ := seqRound_bad (K := K) (n := n) (ps := ps) hb
      rw [iter, h1] at h
      simp only [Out.ok.injEq] at h
      obtain ⟨rfl, _⟩ := h
      rw [h2] at he; cases he
    · simp only [not_or, Bool.not_eq_true] at hb
      have heq := seqRound_plain (K := K) (n := n) hinv1 hp hb.1 hb.2
      by_cases hv : ∃ v, Denotes E ps[m].kind (E.current (doNext E s).idx) v
      · obtain ⟨v, hv⟩ := hv
        obtain ⟨s1, b1, b2, b3, b4⟩ := load_ok (K := K) (n := n) (b := true) (f := ps[m].field)
          (hok.kinds _ (param_mem hp)) hinv1.err hv
          (.setTrue ps[m].flag :: if m + 1 = ps.length then [.brk] else [])
        rw [b1] at heq
        have hinv2 : Inv ps .none (m + 1) (o.set ps[m].field v) { s1 with obj := s1.obj.set ps[m].flag (.bool true) } :=
          hinv1.setParam hok hp (by rw [b2]) b4
        by_cases hlast : m + 1 = ps.length
        · rw [if_pos hlast] at heq
          have heq' : exec E K n (seqRound ps) s = .ok { s1 with obj := s1.obj.set ps[m].flag (.bool true) } .brk := heq
          rw [iter, heq'] at h
          simp only [Out.ok.injEq] at h
          obtain ⟨rfl, _⟩ := h
          intro k hk
          rw [hinv2.set k hk]
          simp only [decide_eq_true_eq]
          omega
        · rw [if_neg hlast] at heq
          have heq' : exec E K n (seqRound ps) s = .ok { s1 with obj := s1.obj.set ps[m].flag (.bool true) } .cont := heq
          rw [iter, heq'] at h
          exact ih (m := m + 1) (by omega) hinv2 h he
      · obtain ⟨s1, b1, b2⟩ := load_err (K := K) (n := n) (f := ps[m].field) (hok.kinds _ (param_mem hp))
          (s := doNext E s) (fun v hh => hv ⟨v, hh⟩) (.setTrue ps[m].flag :: if m + 1 = ps.length then [.brk] else [])
        rw [b1] at heq
        rw [iter, heq] at h
        simp only [Out.ok.injEq] at h
        obtain ⟨rfl, _⟩ := h
        rw [b2] at he; cases he

end Verif.A2l.Template

namespace Verif.A2l.Decl
open Verif.Go Verif.A2l Lang

/-- The text of an object (`Text`), together with the number `m` of positional parameters that
were present. -/
def TextN (E : Env) (fin : Str) (sh : Shape) (i i' m : Nat) (o : Obj) : Prop :=
  match sh with
  | .keyword f _ => m = 0 ∧ i' = i ∧ o = Obj.empty.set f (.bool true)
  | .one p => m = 1 ∧ Params E i [p] Obj.empty o ∧ i' = i + 1
  | .seq ps => m = ps.length ∧ Params E i ps Obj.empty o ∧ i' = i + ps.length
  | .block raw ps rest subs maps => ∃ n j,
      Items E (Succeeds E) raw fin ps rest subs n ⟨0, start maps, i⟩ ⟨m, o, j⟩ ∧ TokAfter E j fin ∧ i' = j + 1
  | .other => False

/-- The markers that do not belong to a positional parameter: of a bare keyword, of the list
or text at the end of a block. -/
def Shape.endMarks : Shape → List String
  | .keyword _ fl => [fl]
  | .block _ _ rest _ _ => rest.flags
  | _ => []

/-- All fields a shape can fill. -/
def Shape.fields : Shape → List String
  | .keyword f _ => [f]
  | .one p => [p.field]
  | .seq ps => ps.map (·.field)
  | .block _ ps rest subs maps => ps.map (·.field) ++
      (match rest with | .none => [] | .list f _ _ => [f] | .text f _ => [f]) ++
      subs.map (fun x => match x.2 with | .obj _ f _ => f | .enum _ f => f) ++ maps
  | .other => []

end Verif.A2l.Decl

namespace Verif.A2l.Props
open Verif.Go Verif.A2l Lang Decl Analysis Template

/-- C64: the marker of the k-th positional parameter is set exactly if that many parameters
were present; the marker of a keyword, list or text is always set. -/
theorem C64_marks_partial {E : Env} (hw : Wf E) {p : PName} (hp : p ∉ irregular) {i i' : Nat} {v : Val}
    (h : Returns E p i (.ok i' v false)) :
    ∃ (r o : Obj) (m : Nat), v = .obj r ∧ TextN E (fin p) (shape p) i i' m o ∧ SameValues (shape p).flags r o ∧
      m ≤ (shape p).params.length ∧
      (∀ k q, (shape p).params[k]? = some q → (r.flag q.flag = true ↔ k < m)) ∧
      ∀ f ∈ (shape p).endMarks, r.flag f = true := by
  obtain ⟨_, n, d, h⟩ := h
  have h := h n (d + 1) (Nat.le_refl _) (by omega)
  rw [run_regular hp] at h
  have hok := shapeOk_all p hp
  revert h hok
  cases shape p with
  | keyword f fl =>
    intro h hok
    simp only [template, exec_blk_one] at h
    have h' : PRes.ok i (.obj ((Obj.empty.set f (.bool true)).set fl (.bool true))) false = .ok i' v false := h
    simp only [PRes.ok.injEq, and_true] at h'
    obtain ⟨rfl, rfl⟩ := h'
    refine ⟨_, Obj.empty.set f (.bool true), 0, rfl, ⟨rfl, rfl, rfl⟩, fun g hg => ?_, Nat.zero_le _, ?_, ?_⟩
    · exact set_other _ _ (fun hh => hg (by simp [Shape.flags, hh]))
    · intro k q hq; simp [Shape.params] at hq
    · intro g hg
      simp only [Shape.endMarks, List.mem_singleton] at hg
      subst hg
      exact flag_same _ _
  | one q =>
    intro h hok
    rcases one_cases (K := run E n d) (n := n) (fin := fin p) hw hok.1 i with
      ⟨s, w, h1, h2, h3, h4, h5, h6, h7, h8⟩ | ⟨⟨s, h1, h2⟩, _⟩
    · rw [h1] at h
      simp only [finish, PRes.ok.injEq] at h
      obtain ⟨rfl, rfl, _⟩ := h
      refine ⟨s.obj, Obj.empty.set q.field w, 1, rfl, ⟨rfl, .cons h5 h6 h7 h8 .nil, h3⟩, fun g hg => ?_,
        Nat.le_refl _, ?_, ?_⟩
      · rw [h4]
        exact set_other _ _ (fun hh => hg (by simp [Shape.flags, hh]))
      · intro k q' hq
        obtain ⟨hk, rfl⟩ := List.getElem?_eq_some_iff.1 hq
        have : k = 0 := by simpa [Shape.params] using hk
        subst this
        simp only [Shape.params, List.getElem_cons_zero, Nat.zero_lt_one, iff_true]
        rw [h4]; exact flag_same _ _
      · intro f hf; simp [Shape.endMarks] at hf
    · rw [h1] at h
      simp only [finish, PRes.ok.injEq] at h
      rw [h2] at h; simp at h
  | seq ps =>
    intro h hok
    have he : exec E (run E n d) n (template (fin p) (.seq ps)) (St.init i) =
        iter (exec E (run E n d) n (seqRound ps)) n (St.init i) := exec_blk_one _ _
    rw [he] at h
    cases hr : iter (exec E (run E n d) n (seqRound ps)) n (St.init i) with
    | ok s c =>
      rw [hr] at h
      simp only [finish, PRes.ok.injEq] at h
      obtain ⟨rfl, rfl, h3⟩ := h
      have hi := inv_start hok.2 (s := St.init i) (fun f => by simp [St.init, Obj.empty]) rfl
      have hl := List.length_pos_iff.2 hok.1
      obtain ⟨o', g1, g2, g3⟩ := seq_sound (m := 0) hw hok.2 hl hi hr h3
      have g4 := seq_marks (m := 0) hw hok.2 hl hi hr h3
      have : start [] = Obj.empty := by funext f; simp [start, Obj.empty]
      rw [this] at g1
      refine ⟨s.obj, o', ps.length, rfl, ⟨rfl, g1, by rw [g2]; rfl⟩, g3, Nat.le_refl _, ?_, ?_⟩
      · intro k q hq
        obtain ⟨hk, rfl⟩ := List.getElem?_eq_some_iff.1 hq
        exact ⟨fun _ => hk, fun _ => g4 k hk⟩
      · intro f hf; simp [Shape.endMarks] at hf
    | panic => rw [hr] at h; simp [finish] at h
    | timeout => rw [hr] at h; simp [finish] at h
  | block raw ps rest subs maps =>
    intro h hok
    obtain ⟨s0, h1, h2, h3⟩ := exec_block (E := E) (K := run E n d) (n := n) (raw := raw) hok i
    rw [h1] at h
    cases hr : iter (exec E (run E n d) n (round raw (fin p) ps rest subs)) n s0 with
    | ok s c =>
      rw [hr] at h
      simp only [finish, PRes.ok.injEq] at h
      obtain ⟨rfl, rfl, h5⟩ := h
      obtain ⟨k, m', o', j, g1, g2, g3, g4, g5, g6, g7⟩ := iter_marks hw hok h3 hr h5
      rw [h2] at g1
      refine ⟨s.obj, o', m', rfl,
        ⟨k, j, Items.map (fun q a b w hh => returns_of_run (r := .ok b w false) hh (by simp)) g1, g2, g3⟩, g4, g5, ?_, g7⟩
      intro k q hq
      obtain ⟨hk, rfl⟩ := List.getElem?_eq_some_iff.1 hq
      have : s.obj.flag ((Shape.block raw ps rest subs maps).params[k]'hk).flag = decide (k < m') := g6 k hk
      rw [this]
      simp
    | panic => rw [hr] at h; simp [finish] at h
    | timeout => rw [hr] at h; simp [finish] at h
  | other => intro _ hok; exact hok.elim

/-- A field that is not among the fields of the object is never filled. -/
theorem Items.untouched {E : Env} {R : PName → Nat → Nat → Val → Prop} {raw : Bool} {fin : Str} {ps : List Param}
    {rest : Rest} {subs : List (Str × Sub)} {n : Nat} {x z : Decl.Pos} (hi : Items E R raw fin ps rest subs n x z)
    {f : String} (h1 : ∀ k q, x.m ≤ k → k < z.m → ps[k]? = some q → q.field ≠ f) (h2 : f ∉ restFields rest)
    (h3 : f ∉ subs.map (fun y => subField y.2)) : x.m ≤ z.m ∧ z.o f = x.o f := by
  induction hi with
  | nil => exact ⟨Nat.le_refl _, rfl⟩
  | @cons n x y z hit hs ih =>
    have hmono : ∀ {n x z}, Items E R raw fin ps rest subs n x z → x.m ≤ z.m := by
      intro n x z h
      induction h with
      | nil => exact Nat.le_refl _
      | cons hit _ ih => cases hit <;> simp_all <;> omega
    have hm := hmono hs
    cases hit with
    | @param m o i t v p a b c d =>
      obtain ⟨g1, g2⟩ := ih (fun k q ha hb => h1 k q (by simp at ha ⊢; omega) hb)
      refine ⟨by simp at g1 ⊢; omega, ?_⟩
      rw [g2]
      exact set_other _ _ (fun hh => h1 m p (Nat.le_refl _) (by simp at hm ⊢; omega) a hh.symm)
    | member a b c d e =>
      obtain ⟨g1, g2⟩ := ih h1
      refine ⟨g1, ?_⟩
      rw [g2]
      exact set_other _ _ (fun hh => h2 (by simp [b, restFields, hh]))
    | word a b c d =>
      obtain ⟨g1, g2⟩ := ih h1
      refine ⟨g1, ?_⟩
      rw [g2]
      exact set_other _ _ (fun hh => h2 (by simp [b, restFields, hh]))
    | surplus a b c d => exact ih h1
    | @sub m o o' i j k q g md v a b c d =>
      obtain ⟨g1, g2⟩ := ih h1
      refine ⟨g1, ?_⟩
      rw [g2]
      have hne : f ≠ g := fun hh => h3 (List.mem_map.2 ⟨_, a, by simp [subField, hh]⟩)
      cases md with
      | field => simp only [Keeps] at d; subst d; exact set_other _ _ hne
      | append => simp only [Keeps] at d; subst d; exact set_other _ _ hne
      | byName key => obtain ⟨mp, _, rfl⟩ := d; exact set_other _ _ hne
    | @enum m o i k e g t c a b c' d =>
      obtain ⟨g1, g2⟩ := ih h1
      refine ⟨g1, ?_⟩
      rw [g2]
      exact set_other _ _ (fun hh => h3 (List.mem_map.2 ⟨_, a, by simp [subField, hh]⟩))

/-- Positional parameters have fields of their own. -/
def ownFields : Shape → Bool
  | .seq ps => decide (ps.map (·.field)).Nodup
  | .block _ ps rest subs maps => decide (ps.map (·.field)).Nodup &&
      ps.all fun q => !(restFields rest).contains q.field && !(subs.map fun y => subField y.2).contains q.field &&
        !maps.contains q.field
  | _ => true

theorem ownFields_all (p : PName) (hp : p ∉ irregular) : ownFields (shape p) = true := by
  cases p <;> first | exact absurd (by decide) hp | decide +kernel

theorem Params.untouched {E : Env} {i : Nat} {ps : List Param} {o o' : Obj} (h : Params E i ps o o') {f : String}
    (hf : f ∉ ps.map (·.field)) : o' f = o f := by
  induction h with
  | nil => rfl
  | cons a b c d h ih =>
    simp only [List.map_cons, List.mem_cons, not_or] at hf
    rw [ih hf.2]
    exact set_other _ _ hf.1

/-- C64: a parameter that was not present leaves its field at the zero value. -/
theorem C64_absent_zero {E : Env} {p : PName} (hp : p ∉ irregular) {i i' m : Nat} {o : Obj}
    (h : TextN E (fin p) (shape p) i i' m o) {k : Nat} {q : Param} (hq : (shape p).params[k]? = some q) (hk : m ≤ k) :
    o q.field = .zero := by
  have how := ownFields_all p hp
  revert h hq how
  cases shape p with
  | keyword f fl => intro _ hq; simp [Shape.params] at hq
  | one q' =>
    rintro ⟨rfl, _⟩ hq
    obtain ⟨hk', _⟩ := List.getElem?_eq_some_iff.1 hq
    simp only [Shape.params, List.length_singleton] at hk'
    omega
  | seq ps =>
    rintro ⟨rfl, _⟩ hq
    obtain ⟨hk', _⟩ := List.getElem?_eq_some_iff.1 hq
    simp only [Shape.params] at hk'
    omega
  | block raw ps rest subs maps =>
    rintro ⟨n, j, h1, _⟩ hq how
    simp only [ownFields, Bool.and_eq_true, decide_eq_true_eq, List.all_eq_true, Bool.not_eq_true',
      List.contains_eq_mem, decide_eq_false_iff_not] at how
    obtain ⟨hnd, hall⟩ := how
    have hq' : ps[k]? = some q := hq
    obtain ⟨⟨g1, g2⟩, g3⟩ := hall q (param_mem hq')
    have := (Items.untouched h1 (f := q.field) (fun k' q' _ hk2 hq2 he => by
      obtain ⟨a1, rfl⟩ := List.getElem?_eq_some_iff.1 hq'
      obtain ⟨a2, rfl⟩ := List.getElem?_eq_some_iff.1 hq2
      have e2 : k' = k := (List.getElem?_inj (l := ps.map (·.field)) (by simpa using a2) hnd).1 (by
        rw [List.getElem?_map, List.getElem?_map, hq', hq2]
        simpa using he)
      simp only at hk2
      omega) g1 g2).2
    simp only at this
    rw [this]
    simp [start, g3]
  | other => intro h; exact h.elim

/-- C64: a field the object does not declare is never filled. -/
theorem C64_undeclared_zero {E : Env} {p : PName} {i i' m : Nat} {o : Obj}
    (h : TextN E (fin p) (shape p) i i' m o) {f : String} (hf : f ∉ (shape p).fields) : o f = .zero := by
  revert h hf
  cases shape p with
  | keyword g fl =>
    rintro ⟨_, _, rfl⟩ hf
    simp only [Shape.fields, List.mem_singleton] at hf
    exact set_other _ _ hf
  | one q =>
    rintro ⟨_, h, _⟩ hf
    exact Params.untouched h (by simpa [Shape.fields] using hf)
  | seq ps =>
    rintro ⟨_, h, _⟩ hf
    exact Params.untouched h hf
  | block raw ps rest subs maps =>
    rintro ⟨n, j, h1, _⟩ hf
    simp only [Shape.fields, List.mem_append, not_or] at hf
    obtain ⟨⟨⟨a, b⟩, c⟩, d⟩ := hf
    have := (Items.untouched h1 (f := f) (fun k q _ _ hq he => a (List.mem_map.2 ⟨q, param_mem hq, he⟩))
      (by cases rest <;> simpa [restFields] using b) (fun hh => c (by
        obtain ⟨y, hy, he⟩ := List.mem_map.1 hh
        refine List.mem_map.2 ⟨y, hy, ?_⟩
        rw [← he]
        obtain ⟨y1, y2⟩ := y
        cases y2 <;> rfl))).2
    simp only at this
    rw [this]
    simp [start, d]
  | other => intro h; exact h.elim

/-- C64 as stated, for lists: the marker of the list of a block is set exactly if the list has a
member. -/
def C64_full : Prop := ∀ (E : Env), Wf E → ∀ (p : PName), p ∉ irregular → ∀ raw ps f fl k subs maps,
  shape p = .block raw ps (.list f fl k) subs maps → ∀ i i' (r : Obj), Returns E p i (.ok i' (.obj r) false) →
    (r.flag fl = true ↔ r.list f ≠ [])

/-- Result, marker and length of the list of a call. -/
def gotList (E : Env) (p : PName) (f fl : String) : Option (Nat × Bool × Bool × Nat) :=
  match parse E p 0 with
  | .ok j (.obj o) e => some (j, e, Obj.flag o fl, (Obj.list o f).length)
  | _ => none

/-- C64 is false of lists: an empty FUNCTION_LIST is marked as set. -/
theorem C64_false : ¬ C64_full := by
  intro h
  have hg : gotList (mkEnv [(str! "/begin FUNCTION_LIST"), (str! "/end FUNCTION_LIST")]) .parseFunctionList "name"
    "nameSet" = some (1, false, true, 0) := by decide +kernel
  unfold gotList at hg
  split at hg
  · rename_i j o e hh
    simp only [Option.some.injEq, Prod.mk.injEq] at hg
    obtain ⟨rfl, rfl, h1, h2⟩ := hg
    have := h _ (mkEnv_wf (by decide)) .parseFunctionList (by decide) _ _ _ _ _ _ _ rfl _ _ o (returns_of_run hh (by simp))
    exact this.1 h1 (List.length_eq_zero_iff.1 h2)
  · cases hg

def layToks : List Str := [(str! "/begin AXIS_PTS"), (str! "A"), (str! "\"text\""), (str! "16"), (str! "/end AXIS_PTS")]

/-- The hypotheses are met by an AXIS_PTS with three of its parameters: the first three markers
are set, that of the record layout is not. -/
example : ∃ o, Returns (mkEnv layToks) .parseAxisPts 0 (.ok 4 (.obj o) false) := by
  have hg : got (mkEnv layToks) .parseAxisPts 0 "x" = some (4, false, none, none) := by decide +kernel
  obtain ⟨o, hr, _⟩ := got_spec hg
  exact ⟨o, hr⟩

end Verif.A2l.Props
