import Verif.A2l.Missing

/-!
C96: words of an object that are read but not kept.
-/

namespace Verif.A2l.Props

open Verif.Go Verif.A2l Lang Decl Analysis Template

/-- C96 as stated, for blocks without a list, free text or optional parts: no more words than parameters are accepted. (For the other objects
it is proved below.) -/
def C96_full : Prop := ∀ (E : Env), Wf E → ∀ p ∉ irregular, ∀ raw ps subs maps, shape p = .block raw ps .none subs maps →
  ∀ (i : Nat) (ws : List Str) (r : Obj), Words E i (ws ++ [fin p]) → (∀ w ∈ ws, Plain raw (fin p) subs w) →
    Returns E p i (.ok (i + ws.length + 1) (.obj r) false) → ws.length ≤ ps.length

theorem items_surplus {E : Env} {R : PName → Nat → Nat → Val → Prop} {raw : Bool} {fin : Str} {ps : List Param} {subs : List (Str × Sub)} {o : Obj} :
    ∀ (ws : List Str) (i : Nat), Words E i ws → (∀ w ∈ ws, Plain raw fin subs w) →
    Items E R raw fin ps .none subs ws.length ⟨ps.length, o, i⟩ ⟨ps.length, o, i + ws.length⟩
  | [], i, _, _ => .nil
  | w :: ws, i, htx, hpl => by
    have h := items_surplus (E := E) (R := R) (raw := raw) (fin := fin) (ps := ps) (subs := subs) (o := o) ws (i + 1) htx.tail
      (fun w hw => hpl w (by simp [hw]))
    have e : i + (w :: ws).length = i + 1 + ws.length := by simp only [List.length_cons]; omega
    rw [e]
    exact .cons (.surplus rfl rfl (htx 0 w rfl) (hpl w (by simp))) h

theorem items_trans {E : Env} {R : PName → Nat → Nat → Val → Prop} {raw : Bool} {fin : Str} {ps : List Param} {rest : Rest} {subs : List (Str × Sub)}
    {n m : Nat} {x y z : Decl.Pos} (h : Items E R raw fin ps rest subs n x y) (h' : Items E R raw fin ps rest subs m y z) :
    Items E R raw fin ps rest subs (n + m) x z := by
  induction h with
  | nil => rw [Nat.zero_add]; exact h'
  | @cons n _ _ _ a _ ih => rw [Nat.add_right_comm]; exact .cons a (ih h')

/-- C96 is false of every block without a list or free text: behind its parameters there may be any words that are no keywords. Whatever
they are, the block is accepted with the values it has without them. `o`: the values of the parameters and of the parts between them. -/
theorem C96_surplus {E : Env} (hw : Wf E) {p : PName} (hp : p ∉ irregular) {raw : Bool} {ps : List Param} {subs : List (Str × Sub)}
    {maps : List String} (hsh : shape p = .block raw ps .none subs maps) {i j n : Nat} {o : Obj}
    (h : Items E (Succeeds E) raw (fin p) ps .none subs n ⟨0, start maps, i⟩ ⟨ps.length, o, j⟩) {ws : List Str}
    (htx : Words E j (ws ++ [fin p])) (hpl : ∀ w ∈ ws, Plain raw (fin p) subs w) :
    ∃ r : Obj, Returns E p i (.ok (j + ws.length + 1) (.obj r) false) ∧ SameValues (shape p).flags r o := by
  have hws : Words E j ws := fun k w hk => htx k w (by
    rw [List.getElem?_append_left (List.getElem?_eq_some_iff.1 hk).1]; exact hk)
  have h3 : Text E (fin p) (shape p) i (j + ws.length + 1) o := by
    rw [hsh]
    exact ⟨_, _, _, items_trans h (items_surplus ws j hws hpl), htx ws.length (fin p) (by simp), rfl⟩
  exact C32_partial hw hp h3

/-- A MOD_COMMON with two words behind its comment. -/
theorem modCommon_surplus : ∃ r : Obj, Returns (mkEnv [(str! "/begin MOD_COMMON"), (str! "\"c\""), (str! "x"), (str! "y"), (str! "/end MOD_COMMON")])
    .parseModCommon 0 (.ok 4 (.obj r) false) ∧ SameValues (shape .parseModCommon).flags r ((start []).set "comment" (.str (str! "\"c\""))) := by
  refine C96_surplus (E := mkEnv [(str! "/begin MOD_COMMON"), (str! "\"c\""), (str! "x"), (str! "y"), (str! "/end MOD_COMMON")])
    (mkEnv_wf (by decide)) (by decide) (p := .parseModCommon) rfl (i := 0) (j := 1) (ws := [(str! "x"), (str! "y")]) (n := 1)
    (.cons (.param (t := (str! "\"c\"")) rfl rfl ⟨by decide, by decide +kernel, by decide +kernel, .inr (by decide +kernel)⟩ rfl) .nil) ?_ ?_
  · intro j w hj
    match j with
    | 0 => exact hj
    | 1 => exact hj
    | 2 => exact hj
    | j + 3 => simp at hj
  · intro w hw
    simp only [List.mem_cons, List.not_mem_nil, or_false] at hw
    rcases hw with rfl | rfl <;> exact ⟨by decide, by decide +kernel, by decide +kernel, .inr (by decide +kernel)⟩

theorem C96_false : ¬ C96_full := by
  intro h
  obtain ⟨r, hr, _⟩ := modCommon_surplus
  have := h _ (mkEnv_wf (by decide)) .parseModCommon (by decide) _ _ _ _ rfl 0 [(str! "\"c\""), (str! "x"), (str! "y")] r (by
    intro j w hj
    match j with
    | 0 => exact hj
    | 1 => exact hj
    | 2 => exact hj
    | 3 => exact hj
    | j + 4 => simp at hj) (by
    intro w hw
    simp only [List.mem_cons, List.not_mem_nil, or_false] at hw
    rcases hw with rfl | rfl | rfl <;> exact ⟨by decide, by decide +kernel, by decide +kernel, .inr (by decide +kernel)⟩) hr
  exact absurd this (by decide)

/-- C96 for objects without `/begin` and `/end`: they end behind their last parameter, and each word is the value of one of them. Missing: the
blocks without a list or text, for which it is false. -/
theorem C96_seq_partial {E : Env} (hw : Wf E) {p : PName} (hp : p ∉ irregular) {i i' : Nat} {r : Obj}
    (h : Returns E p i (.ok i' (.obj r) false)) {ps : List Param} (hsh : shape p = .seq ps ∨ ∃ q, shape p = .one q ∧ ps = [q]) :
    ∀ k, i < k → k ≤ i' → ∃ t q, E.toks[k]? = some t ∧ q ∈ ps ∧ HasParam E q t r := by
  obtain ⟨r', e, hj, h1⟩ := flat_values hw hp hsh h
  cases e
  intro k hk hk'
  have hlt : k - i - 1 < ps.length := by omega
  obtain ⟨t, g1, _, g3⟩ := h1 (k - i - 1) _ (List.getElem?_eq_getElem hlt)
  refine ⟨t, _, ?_, List.getElem_mem hlt, g3⟩
  have : i + (k - i - 1) + 1 = k := by omega
  rw [← this]
  exact g1

/-- ALIGNMENT_WORD: its one word is the border. -/
example : ∃ r : Obj, ∀ k, 0 < k → k ≤ 1 → ∃ t q, (mkEnv [(str! "ALIGNMENT_WORD"), (str! "2"), (str! "x")]).toks[k]? = some t ∧
    q ∈ [(⟨"AlignmentBorder", "AlignmentBorderSet", .uint 16⟩ : Param)] ∧ HasParam (mkEnv [(str! "ALIGNMENT_WORD"), (str! "2"), (str! "x")]) q t r := by
  have hr : ∃ r : Obj, parse (mkEnv [(str! "ALIGNMENT_WORD"), (str! "2"), (str! "x")]) .parseAlignmentWord 0 = .ok 1 (.obj r) false := ⟨_, rfl⟩
  obtain ⟨r, hr⟩ := hr
  exact ⟨r, C96_seq_partial (mkEnv_wf (by decide)) (p := .parseAlignmentWord) (by decide) (returns_of_run (r := .ok 1 (.obj r) false) hr (by simp))
    (.inr ⟨_, rfl, rfl⟩)⟩

theorem items_members {E : Env} {R : PName → Nat → Nat → Val → Prop} {raw : Bool} {fin : Str} {ps : List Param} {f fl : String} {kd : Kind}
    {subs : List (Str × Sub)} (hfs : fin ∉ subs.map (·.1)) (hd : ∀ q ∈ ps, q.field ≠ f) {n : Nat} {x y : Decl.Pos}
    (h : Items E R raw fin ps (.list f fl kd) subs n x y) : ∀ (ws : List Str), Words E x.i ws → (∀ w ∈ ws, Plain raw fin subs w) → x.m ≤ ps.length →
      TokAfter E (x.i + ws.length) fin → TokAfter E y.i fin →
      ∃ vs, Obj.list y.o f = Obj.list x.o f ++ vs ∧ vs.length = ws.length - (ps.length - x.m) ∧
        ∀ (j : Nat) (w : Str) (v : Val), ws[ps.length - x.m + j]? = some w → vs[j]? = some v → Denotes E kd w v := by
  induction h with
  | @nil x =>
    intro ws hws hpl _ _ hy
    cases ws with
    | nil => exact ⟨[], by simp, by simp, by simp⟩
    | cons w ws => exact absurd (Option.some.inj ((hws 0 w rfl).symm.trans hy)) (hpl w (by simp)).2.1
  | @cons n x y z hit hs ih =>
    intro ws hws hpl hl hfin hz
    cases ws with
    | nil =>
      exfalso
      have hfin : TokAfter E x.i fin := hfin
      cases hit with
      | param hp ht hpl => exact hpl.2.1 (Option.some.inj (ht.symm.trans hfin))
      | member _ _ ht hpl => exact hpl.2.1 (Option.some.inj (ht.symm.trans hfin))
      | word _ _ ht hpl => exact hpl.2.1 (Option.some.inj (ht.symm.trans hfin))
      | surplus _ _ ht hpl => exact hpl.2.1 (Option.some.inj (ht.symm.trans hfin))
      | sub hsub ht =>
        obtain rfl := Option.some.inj (ht.symm.trans hfin)
        exact hfs (List.mem_map.2 ⟨_, hsub, rfl⟩)
      | enum hsub ht =>
        obtain rfl := Option.some.inj (ht.symm.trans hfin)
        exact hfs (List.mem_map.2 ⟨_, hsub, rfl⟩)
    | cons w ws =>
      have h0 : TokAfter E x.i w := hws 0 w rfl
      have hw := hpl w (by simp)
      have hfin' : TokAfter E (x.i + 1 + ws.length) fin := by
        rw [show x.i + 1 + ws.length = x.i + (w :: ws).length by simp only [List.length_cons]; omega]; exact hfin
      cases hit with
      | @param m o i t v p hp ht hpl' hv =>
        have hm : m < ps.length := (List.getElem?_eq_some_iff.1 hp).1
        obtain ⟨vs, g1, g2, g3⟩ := ih ws hws.tail (fun w hw => hpl w (by simp [hw])) (by simp only; omega) hfin' hz
        simp only at g1 g2 g3 ⊢
        refine ⟨vs, ?_, by simp only [List.length_cons]; omega, fun j u v hu hv => g3 j u v ?_ hv⟩
        · rw [g1]
          congr 1
          unfold Obj.list
          rw [set_other _ _ (hd p (List.mem_of_getElem? hp)).symm]
        · rw [show ps.length - m + j = (ps.length - (m + 1) + j) + 1 by omega, List.getElem?_cons_succ] at hu
          exact hu
      | @member m o i t v f' fl' k' hm hr ht hpl' hv =>
        cases hr
        obtain rfl : w = t := Option.some.inj (h0.symm.trans ht)
        obtain ⟨vs, g1, g2, g3⟩ := ih ws hws.tail (fun w hw => hpl w (by simp [hw])) (by simp only; omega) hfin' hz
        simp only at g1 g2 g3 ⊢
        refine ⟨v :: vs, ?_, by simp only [List.length_cons]; omega, fun j u v' hu hv' => ?_⟩
        · rw [g1]
          have : Obj.list (o.set f (.list (o.list f ++ [v]))) f = o.list f ++ [v] := by simp [Obj.list, Obj.set]
          rw [this, List.append_assoc]
          rfl
        · cases j with
          | zero =>
            rw [show ps.length - m + 0 = 0 by omega, List.getElem?_cons_zero] at hu
            cases hu; cases hv'; exact hv
          | succ j =>
            rw [show ps.length - m + (j + 1) = (ps.length - m + j) + 1 by omega, List.getElem?_cons_succ] at hu
            exact g3 j u v' hu (by simpa using hv')
      | word _ hr => cases hr
      | surplus _ hr => cases hr
      | sub hsub ht => obtain rfl := Option.some.inj (h0.symm.trans ht); exact absurd (List.mem_map.2 ⟨_, hsub, rfl⟩) hw.2.2.1
      | enum hsub ht => obtain rfl := Option.some.inj (h0.symm.trans ht); exact absurd (List.mem_map.2 ⟨_, hsub, rfl⟩) hw.2.2.1

/-- C96 for the blocks with a list: every word behind the parameters is a member of the list, in order, and the list has no other members. -/
theorem C96_list_partial {E : Env} (hw : Wf E) {p : PName} (hp : p ∉ irregular) {raw : Bool} {ps : List Param} {f fl : String} {kd : Kind}
    {subs : List (Str × Sub)} {maps : List String} (hsh : shape p = .block raw ps (.list f fl kd) subs maps) {i i' : Nat} {r : Obj}
    (h : Returns E p i (.ok i' (.obj r) false)) {ws : List Str} (htx : Words E i (ws ++ [fin p])) (hpl : ∀ w ∈ ws, Plain raw (fin p) subs w) :
    (Obj.list r f).length = ws.length - ps.length ∧
      ∀ (j : Nat) (w : Str) (v : Val), ws[ps.length + j]? = some w → (Obj.list r f)[j]? = some v → Denotes E kd w v := by
  have hws : Words E i ws := fun k w hk => htx k w (by
    rw [List.getElem?_append_left (List.getElem?_eq_some_iff.1 hk).1]; exact hk)
  obtain ⟨r', o, m, e, g1, g2, _, _, _⟩ := C64_marks_partial hw hp h
  cases e
  have hk : fin p ∉ subs.map (·.1) := by
    have := fin_no_part p hp
    rw [hsh] at this
    exact this
  have how := ownFields_all p hp
  have hfl : f ∉ (shape p).flags ∧ f ∉ maps := by
    have : ∀ p ∉ irregular, ∀ raw ps f fl kd subs maps, shape p = .block raw ps (.list f fl kd) subs maps → f ∉ (shape p).flags ∧ f ∉ maps := by
      intro p hp raw ps f fl kd subs maps hs
      cases p <;> first | exact absurd (by decide) hp | (cases hs; done) | (cases hs; decide +kernel)
    exact this p hp _ _ _ _ _ _ _ hsh
  have hv : r f = o f := g2 f hfl.1
  rw [hsh] at g1 how
  simp only [ownFields, Bool.and_eq_true, List.all_eq_true, Bool.not_eq_true', List.contains_eq_mem, decide_eq_false_iff_not] at how
  obtain ⟨n, j, hi, hf, _⟩ := g1
  obtain ⟨vs, e1, e2, e3⟩ := items_members hk (fun q hq he => (how.2 q hq).1.1 (by rw [he]; simp [restFields])) hi ws hws hpl (Nat.zero_le _)
    (htx ws.length (fin p) (by simp)) hf
  have hl : Obj.list r f = vs := by
    have : Obj.list (start maps) f = [] := by simp [Obj.list, start, hfl.2]
    simp only [this, List.nil_append] at e1
    rw [← e1]
    unfold Obj.list
    rw [hv]
  rw [hl]
  exact ⟨e2, fun j w v hw hv => e3 j w v hw hv⟩

/-- A FUNCTION_LIST of two names. -/
example : ∃ r : Obj, Returns (mkEnv [(str! "/begin FUNCTION_LIST"), (str! "a"), (str! "b"), (str! "/end FUNCTION_LIST")]) .parseFunctionList 0
    (.ok 3 (.obj r) false) ∧ (Obj.list r "name").length = 2 := by
  have hr : ∃ r : Obj, parse (mkEnv [(str! "/begin FUNCTION_LIST"), (str! "a"), (str! "b"), (str! "/end FUNCTION_LIST")]) .parseFunctionList 0 =
    .ok 3 (.obj r) false := ⟨_, rfl⟩
  obtain ⟨r, hr⟩ := hr
  have h := returns_of_run (r := .ok 3 (.obj r) false) hr (by simp)
  refine ⟨r, h, (C96_list_partial (mkEnv_wf (by decide)) (by decide) (p := .parseFunctionList) rfl h (ws := [(str! "a"), (str! "b")]) ?_ ?_).1⟩
  · intro j w hj
    match j with
    | 0 => exact hj
    | 1 => exact hj
    | 2 => exact hj
    | j + 3 => simp at hj
  · intro w hw
    simp only [List.mem_cons, List.not_mem_nil, or_false] at hw
    rcases hw with rfl | rfl <;> exact ⟨by decide, by decide +kernel, by decide +kernel, .inr (by decide +kernel)⟩

/-- The words of a text, each behind a space. -/
def spaced (ws : List Str) : Str := (ws.map fun w => ' ' :: w).flatten

theorem items_text {E : Env} {R : PName → Nat → Nat → Val → Prop} {raw : Bool} {fin : Str} {ps : List Param} {f fl : String}
    {subs : List (Str × Sub)} (hfs : fin ∉ subs.map (·.1)) (hd : ∀ q ∈ ps, q.field ≠ f) {n : Nat} {x y : Decl.Pos}
    (h : Items E R raw fin ps (.text f fl) subs n x y) : ∀ (ws : List Str), Words E x.i ws → (∀ w ∈ ws, Plain raw fin subs w) → x.m ≤ ps.length →
      TokAfter E (x.i + ws.length) fin → TokAfter E y.i fin →
      Obj.str y.o f = Obj.str x.o f ++ spaced (ws.drop (ps.length - x.m)) := by
  induction h with
  | @nil x =>
    intro ws hws hpl _ _ hy
    cases ws with
    | nil => simp [spaced]
    | cons w ws => exact absurd (Option.some.inj ((hws 0 w rfl).symm.trans hy)) (hpl w (by simp)).2.1
  | @cons n x y z hit hs ih =>
    intro ws hws hpl hl hfin hz
    cases ws with
    | nil =>
      exfalso
      have hfin : TokAfter E x.i fin := hfin
      cases hit with
      | param hp ht hpl => exact hpl.2.1 (Option.some.inj (ht.symm.trans hfin))
      | member _ _ ht hpl => exact hpl.2.1 (Option.some.inj (ht.symm.trans hfin))
      | word _ _ ht hpl => exact hpl.2.1 (Option.some.inj (ht.symm.trans hfin))
      | surplus _ _ ht hpl => exact hpl.2.1 (Option.some.inj (ht.symm.trans hfin))
      | sub hsub ht =>
        obtain rfl := Option.some.inj (ht.symm.trans hfin)
        exact hfs (List.mem_map.2 ⟨_, hsub, rfl⟩)
      | enum hsub ht =>
        obtain rfl := Option.some.inj (ht.symm.trans hfin)
        exact hfs (List.mem_map.2 ⟨_, hsub, rfl⟩)
    | cons w ws =>
      have h0 : TokAfter E x.i w := hws 0 w rfl
      have hw := hpl w (by simp)
      have hfin' : TokAfter E (x.i + 1 + ws.length) fin := by
        rw [show x.i + 1 + ws.length = x.i + (w :: ws).length by simp only [List.length_cons]; omega]; exact hfin
      cases hit with
      | @param m o i t v p hp ht hpl' hv =>
        have hm : m < ps.length := (List.getElem?_eq_some_iff.1 hp).1
        have g := ih ws hws.tail (fun w hw => hpl w (by simp [hw])) (by simp only; omega) hfin' hz
        simp only at g ⊢
        rw [g, show ps.length - m = (ps.length - (m + 1)) + 1 by omega, List.drop_succ_cons]
        congr 1
        unfold Obj.str
        rw [set_other _ _ (hd p (List.mem_of_getElem? hp)).symm]
      | member _ hr => cases hr
      | @word m o i t f' fl' hm hr ht hpl' =>
        cases hr
        obtain rfl : w = t := Option.some.inj (h0.symm.trans ht)
        have g := ih ws hws.tail (fun w hw => hpl w (by simp [hw])) (by simp only; omega) hfin' hz
        simp only [hm, Nat.sub_self, List.drop_zero] at g ⊢
        rw [g]
        have : Obj.str (o.set f (.str (o.str f ++ [' '] ++ w))) f = o.str f ++ [' '] ++ w := by simp [Obj.str, Obj.set]
        rw [this]
        simp [spaced]
      | surplus _ hr => cases hr
      | sub hsub ht => obtain rfl := Option.some.inj (h0.symm.trans ht); exact absurd (List.mem_map.2 ⟨_, hsub, rfl⟩) hw.2.2.1
      | enum hsub ht => obtain rfl := Option.some.inj (h0.symm.trans ht); exact absurd (List.mem_map.2 ⟨_, hsub, rfl⟩) hw.2.2.1

/-- C96 for the blocks with free text (A2ML and the like): the text kept is made of all words behind the parameters, in order, each behind
one space. -/
theorem C96_text_partial {E : Env} (hw : Wf E) {p : PName} (hp : p ∉ irregular) {raw : Bool} {ps : List Param} {f fl : String}
    {subs : List (Str × Sub)} {maps : List String} (hsh : shape p = .block raw ps (.text f fl) subs maps) {i i' : Nat} {r : Obj}
    (h : Returns E p i (.ok i' (.obj r) false)) {ws : List Str} (htx : Words E i (ws ++ [fin p])) (hpl : ∀ w ∈ ws, Plain raw (fin p) subs w) :
    Obj.str r f = ((ws.drop ps.length).map fun w => ' ' :: w).flatten := by
  have hws : Words E i ws := fun k w hk => htx k w (by
    rw [List.getElem?_append_left (List.getElem?_eq_some_iff.1 hk).1]; exact hk)
  obtain ⟨r', o, m, e, g1, g2, _, _, _⟩ := C64_marks_partial hw hp h
  cases e
  have hk : fin p ∉ subs.map (·.1) := by
    have := fin_no_part p hp
    rw [hsh] at this
    exact this
  have how := ownFields_all p hp
  have hfl : f ∉ (shape p).flags ∧ f ∉ maps := by
    have : ∀ p ∉ irregular, ∀ raw ps f fl subs maps, shape p = .block raw ps (.text f fl) subs maps → f ∉ (shape p).flags ∧ f ∉ maps := by
      intro p hp raw ps f fl subs maps hs
      cases p <;> first | exact absurd (by decide) hp | (cases hs; done) | (cases hs; decide +kernel)
    exact this p hp _ _ _ _ _ _ hsh
  have hv : r f = o f := g2 f hfl.1
  rw [hsh] at g1 how
  simp only [ownFields, Bool.and_eq_true, List.all_eq_true, Bool.not_eq_true', List.contains_eq_mem, decide_eq_false_iff_not] at how
  obtain ⟨n, j, hi, hf, _⟩ := g1
  have e1 := items_text hk (fun q hq he => (how.2 q hq).1.1 (by rw [he]; simp [restFields])) hi ws hws hpl (Nat.zero_le _)
    (htx ws.length (fin p) (by simp)) hf
  have h0 : Obj.str (start maps) f = [] := by simp [Obj.str, start, hfl.2]
  simp only [h0, List.nil_append, Nat.sub_zero] at e1
  rw [show Obj.str r f = Obj.str o f by unfold Obj.str; rw [hv]]
  exact e1

/-- An A2ML block of three words. -/
example : ∃ r : Obj, Returns (mkEnv [(str! "/begin A2ML"), (str! "block"), (str! "\"X\""), (str! "int;"), (str! "/end A2ML")]) .parseA2ML 0
    (.ok 4 (.obj r) false) ∧ ∃ f fl ps subs maps, shape .parseA2ML = .block true ps (.text f fl) subs maps ∧
      Obj.str r f = ((([(str! "block"), (str! "\"X\""), (str! "int;")] : List Str).drop ps.length).map fun w => ' ' :: w).flatten := by
  have hr : ∃ r : Obj, parse (mkEnv [(str! "/begin A2ML"), (str! "block"), (str! "\"X\""), (str! "int;"), (str! "/end A2ML")]) .parseA2ML 0 =
    .ok 4 (.obj r) false := ⟨_, rfl⟩
  obtain ⟨r, hr⟩ := hr
  have h := returns_of_run (r := .ok 4 (.obj r) false) hr (by simp)
  refine ⟨r, h, _, _, _, _, _, rfl, C96_text_partial (mkEnv_wf (by decide)) (by decide) (p := .parseA2ML) rfl h
    (ws := [(str! "block"), (str! "\"X\""), (str! "int;")]) ?_ ?_⟩
  · intro j w hj
    match j with
    | 0 => exact hj
    | 1 => exact hj
    | 2 => exact hj
    | 3 => exact hj
    | j + 4 => simp at hj
  · intro w hw
    simp only [List.mem_cons, List.not_mem_nil, or_false] at hw
    rcases hw with rfl | rfl | rfl <;> exact ⟨by decide, by decide +kernel, by decide +kernel, .inl rfl⟩

end Verif.A2l.Props
