import Verif.A2l.Flat
import Verif.A2l.Local

/-!
C95: objects without some of their mandatory parameters.
-/

namespace Verif.A2l.Props

open Verif.Go Verif.A2l Lang Decl Analysis Template

/-- C95 as stated: every positional parameter of an object that is accepted was in the text. -/
def C95_full : Prop := ∀ (E : Env), Wf E → ∀ p ∉ irregular, ∀ (i i' : Nat) (r : Obj), Returns E p i (.ok i' (.obj r) false) →
  ∀ q ∈ (shape p).params, r.flag q.flag = true

/-- C95 for the objects without `/begin` and `/end`: all their parameters are there, no one is missing. Missing: the blocks, for which it is
false (`C95_prefix`). -/
theorem C95_seq_partial {E : Env} (hw : Wf E) {p : PName} (hp : p ∉ irregular) {i i' : Nat} {r : Obj}
    (h : Returns E p i (.ok i' (.obj r) false)) (hb : ∀ raw ps rest subs maps, shape p ≠ .block raw ps rest subs maps) :
    ∀ q ∈ (shape p).params, r.flag q.flag = true ∧ ∃ k t, (shape p).params[k]? = some q ∧ TokAfter E (i + k) t ∧ t ∉ keywords ∧
      Denotes E q.kind t (r q.field) := by
  intro q hq
  cases hs : shape p with
  | keyword f fl => rw [hs] at hq; simp [Shape.params] at hq
  | one q' =>
    have hps : (shape p).params = [q'] := by rw [hs]; rfl
    obtain ⟨r', e, _, h1⟩ := flat_values hw hp (.inr ⟨q', hs, rfl⟩) h
    cases e
    rw [hps] at hq
    obtain ⟨k, hk⟩ := List.getElem?_of_mem hq
    obtain ⟨t, g1, g2, g3⟩ := h1 k q hk
    exact ⟨g3.2, k, t, by rw [← hs, hps]; exact hk, g1, g2, g3.1⟩
  | seq ps =>
    have hps : (shape p).params = ps := by rw [hs]; rfl
    obtain ⟨r', e, _, h1⟩ := flat_values hw hp (.inl hs) h
    cases e
    rw [hps] at hq
    obtain ⟨k, hk⟩ := List.getElem?_of_mem hq
    obtain ⟨t, g1, g2, g3⟩ := h1 k q hk
    exact ⟨g3.2, k, t, by rw [← hs, hps]; exact hk, g1, g2, g3.1⟩
  | block raw ps rest subs maps => exact absurd hs (hb _ _ _ _ _)
  | other => rw [hs] at hq; simp [Shape.params] at hq

/-- An ALIGNMENT_WORD with its border. -/
example : ∃ r : Obj, Returns (mkEnv [(str! "ALIGNMENT_WORD"), (str! "2"), (str! "x")]) .parseAlignmentWord 0 (.ok 1 (.obj r) false) ∧
    ∀ q ∈ (shape .parseAlignmentWord).params, Obj.flag r q.flag = true := by
  have hr : ∃ r : Obj, parse (mkEnv [(str! "ALIGNMENT_WORD"), (str! "2"), (str! "x")]) .parseAlignmentWord 0 = .ok 1 (.obj r) false := ⟨_, rfl⟩
  obtain ⟨r, hr⟩ := hr
  have h := returns_of_run (r := .ok 1 (.obj r) false) hr (by simp)
  exact ⟨r, h, fun q hq => (C95_seq_partial (mkEnv_wf (by decide)) (by decide) h (fun _ _ _ _ _ e => by cases e) q hq).1⟩

theorem items_prefix {E : Env} {R : PName → Nat → Nat → Val → Prop} {raw : Bool} {fin : Str} {ps : List Param} {rest : Rest}
    {subs : List (Str × Sub)} : ∀ (ws : List Str) (m i : Nat) (o : Obj), Words E i ws → (∀ w ∈ ws, Plain raw fin subs w) →
    (∀ (j : Nat) (w : Str), ws[j]? = some w → ∃ q v, ps[m + j]? = some q ∧ Denotes E q.kind w v) →
    ∃ o', Items E R raw fin ps rest subs ws.length ⟨m, o, i⟩ ⟨m + ws.length, o', i + ws.length⟩
  | [], m, i, o, _, _, _ => ⟨o, .nil⟩
  | w :: ws, m, i, o, htx, hpl, hv => by
    obtain ⟨q, v, h1, h2⟩ := hv 0 w rfl
    obtain ⟨o', h3⟩ := items_prefix (R := R) (rest := rest) ws (m + 1) (i + 1) (o.set q.field v) htx.tail (fun w hw => hpl w (by simp [hw])) (fun j w hj => by
      obtain ⟨q, v, g1, g2⟩ := hv (j + 1) w hj
      exact ⟨q, v, by rw [← g1]; congr 1; omega, g2⟩)
    refine ⟨o', ?_⟩
    have e1 : m + (w :: ws).length = m + 1 + ws.length := by simp only [List.length_cons]; omega
    have e2 : i + (w :: ws).length = i + 1 + ws.length := by simp only [List.length_cons]; omega
    rw [e1, e2]
    exact .cons (.param (by simpa using h1) (htx 0 w rfl) (hpl w (by simp)) h2) h3

theorem items_count {E : Env} {R : PName → Nat → Nat → Val → Prop} {raw : Bool} {fin : Str} {ps : List Param} {rest : Rest}
    {subs : List (Str × Sub)} (hfs : fin ∉ subs.map (·.1)) {n : Nat} {x y : Decl.Pos} (h : Items E R raw fin ps rest subs n x y) :
    ∀ (ws : List Str), Words E x.i ws → (∀ w ∈ ws, Plain raw fin subs w) → x.m + ws.length ≤ ps.length → TokAfter E (x.i + ws.length) fin →
      TokAfter E y.i fin → y.m = x.m + ws.length := by
  induction h with
  | @nil x =>
    intro ws hws hpl _ _ hy
    cases ws with
    | nil => rfl
    | cons w ws => exact absurd (Option.some.inj ((hws 0 w rfl).symm.trans hy)) (hpl w (by simp)).2.1
  | @cons n x y z hit hs ih =>
    intro ws hws hpl hl hfin hz
    cases ws with
    | nil =>
      exfalso
      have hfin : TokAfter E x.i fin := hfin
      cases hit with
      | param hp ht hpl => exact hpl.2.1 (Option.some.inj (ht.symm.trans hfin))
      | member _ _ ht hpl => exact hpl.2.1 (Option.some.inj (ht.symm.trans hfin))
      | word _ _ ht hpl => exact hpl.2.1 (Option.some.inj (ht.symm.trans hfin))
      | surplus _ _ ht hpl => exact hpl.2.1 (Option.some.inj (ht.symm.trans hfin))
      | sub hsub ht =>
        obtain rfl := Option.some.inj (ht.symm.trans hfin)
        exact hfs (List.mem_map.2 ⟨_, hsub, rfl⟩)
      | enum hsub ht =>
        obtain rfl := Option.some.inj (ht.symm.trans hfin)
        exact hfs (List.mem_map.2 ⟨_, hsub, rfl⟩)
    | cons w ws =>
      have h0 : TokAfter E x.i w := hws 0 w rfl
      have hw := hpl w (by simp)
      simp only [List.length_cons] at hl hfin ⊢
      cases hit with
      | @param m o i t v p hp ht hpl' hv =>
        simp only at hl hfin h0 ⊢
        have := ih ws hws.tail (fun w hw => hpl w (by simp [hw])) (by simp only; omega)
          (by simp only; rw [show i + 1 + ws.length = i + (ws.length + 1) by omega]; exact hfin) hz
        simp only at this
        omega
      | member hm => simp only at hl hm; omega
      | word hm => simp only at hl hm; omega
      | surplus hm => simp only at hl hm; omega
      | sub hsub ht => obtain rfl := Option.some.inj (h0.symm.trans ht); exact absurd (List.mem_map.2 ⟨_, hsub, rfl⟩) hw.2.2.1
      | enum hsub ht => obtain rfl := Option.some.inj (h0.symm.trans ht); exact absurd (List.mem_map.2 ⟨_, hsub, rfl⟩) hw.2.2.1

/-- The closing token of a block does not begin one of its parts. -/
theorem fin_no_part (p : PName) (hp : p ∉ irregular) : fin p ∉ (shape p).keys := by
  cases p <;> first | exact absurd (by decide) hp | decide +kernel

/-- C95 is false of every block with mandatory parameters: the block may be closed after any number of them, and is accepted. Only the markers
say that the others are missing. -/
theorem C95_prefix {E : Env} (hw : Wf E) {p : PName} (hp : p ∉ irregular) {raw : Bool} {ps : List Param}
    {rest : Rest} {subs : List (Str × Sub)} {maps : List String} (hsh : shape p = .block raw ps rest subs maps)
    {i : Nat} {ws : List Str} (hl : ws.length ≤ ps.length) (htx : Words E i (ws ++ [fin p])) (hpl : ∀ w ∈ ws, Plain raw (fin p) subs w)
    (hv : ∀ (j : Nat) (q : Param) (w : Str), ps[j]? = some q → ws[j]? = some w → ∃ v, Denotes E q.kind w v) :
    ∃ r : Obj, Returns E p i (.ok (i + ws.length + 1) (.obj r) false) ∧
      ∀ (k : Nat) (q : Param), ps[k]? = some q → (r.flag q.flag = true ↔ k < ws.length) := by
  have hws : Words E i ws := fun j w hj => htx j w (by
    rw [List.getElem?_append_left (List.getElem?_eq_some_iff.1 hj).1]; exact hj)
  have hfin : TokAfter E (i + ws.length) (fin p) := htx ws.length (fin p) (by simp)
  obtain ⟨o', h1⟩ := items_prefix (R := Succeeds E) (ps := ps) (rest := rest) ws 0 i (start maps) hws hpl (fun j w hj => by
    have hj' : j < ps.length := Nat.lt_of_lt_of_le (List.getElem?_eq_some_iff.1 hj).1 hl
    have hq : ps[j]? = some ps[j] := List.getElem?_eq_getElem hj'
    obtain ⟨v, hd⟩ := hv j _ w hq hj
    exact ⟨ps[j], v, by rw [Nat.zero_add]; exact hq, hd⟩)
  have h3 : Text E (fin p) (shape p) i (i + ws.length + 1) o' := by
    rw [hsh]
    exact ⟨_, _, _, h1, hfin, rfl⟩
  obtain ⟨r, h4, _⟩ := C32_partial hw hp h3
  obtain ⟨r', o, m, e, g1, _, _, g4, _⟩ := C64_marks_partial hw hp h4
  cases e
  refine ⟨r, h4, fun k q hq => ?_⟩
  have hk : fin p ∉ subs.map (·.1) := by
    have := fin_no_part p hp
    rw [hsh] at this
    exact this
  rw [hsh] at g1 g4
  obtain ⟨n, j, hi, hf, _⟩ := g1
  have hm := items_count hk hi ws hws hpl (by simpa using hl) hfin hf
  simp only [Nat.zero_add] at hm
  rw [← hm]
  exact g4 k q hq

/-- A CHARACTERISTIC that ends behind its type. -/
example : ∃ r : Obj, Returns (mkEnv [(str! "/begin CHARACTERISTIC"), (str! "c"), (str! "\"text\""), (str! "VALUE"), (str! "/end CHARACTERISTIC")])
      .parseCharacteristic 0 (.ok 4 (.obj r) false) ∧ Obj.flag r "TypeSet" = true ∧ Obj.flag r "addressSet" = false := by
  obtain ⟨r, h1, h2⟩ := C95_prefix (E := mkEnv [(str! "/begin CHARACTERISTIC"), (str! "c"), (str! "\"text\""), (str! "VALUE"), (str! "/end CHARACTERISTIC")])
    (mkEnv_wf (by decide)) (p := .parseCharacteristic) (by decide) rfl (i := 0) (ws := [(str! "c"), (str! "\"text\""), (str! "VALUE")]) (by decide)
    (by
      intro j w hj
      match j with
      | 0 => exact hj
      | 1 => exact hj
      | 2 => exact hj
      | 3 => exact hj
      | j + 4 => simp at hj)
    (by
      intro w hw
      simp only [List.mem_cons, List.not_mem_nil, or_false] at hw
      rcases hw with rfl | rfl | rfl <;> exact ⟨by decide, by decide +kernel, by decide +kernel, .inr (by decide +kernel)⟩)
    (by
      intro j q w hq hj
      match j with
      | 0 => cases hq; exact ⟨_, rfl⟩
      | 1 => cases hq; exact ⟨_, rfl⟩
      | 2 => cases hq; cases hj; exact ⟨.str (str! "VALUE"), ⟨_, List.mem_of_getElem? (i := 7) rfl⟩, rfl⟩
      | j + 3 => simp at hj)
  refine ⟨r, h1, (h2 2 _ rfl).2 (by decide), ?_⟩
  have := h2 3 _ rfl
  simpa using this

/-- C95, exactly: the functions that accept only objects with all mandatory parameters are those for objects without `/begin` and `/end`, and
those for blocks that have no mandatory parameter. -/
theorem C95_iff {p : PName} (hp : p ∉ irregular) :
    (∀ (E : Env), Wf E → ∀ (i i' : Nat) (r : Obj), Returns E p i (.ok i' (.obj r) false) → ∀ q ∈ (shape p).params, r.flag q.flag = true) ↔
      ∀ raw ps rest subs maps, shape p = .block raw ps rest subs maps → ps = [] := by
  constructor
  · intro h raw ps rest subs maps hsh
    cases ps with
    | nil => rfl
    | cons q ps =>
      exfalso
      have hne : fin p ≠ [] := by
        have : ∀ p : PName, p ∉ irregular → (∃ raw ps rest subs maps, shape p = .block raw ps rest subs maps) → fin p ≠ [] := by
          intro p hp ⟨raw, ps, rest, subs, maps, hs⟩
          cases p <;> first | exact absurd (by decide) hp | (exact Shape.noConfusion hs) | decide +kernel
        exact this p hp ⟨_, _, _, _, _, hsh⟩
      have hw : Wf (mkEnv [(str! "X"), fin p]) := mkEnv_wf (by simp [hne.symm])
      obtain ⟨r, h1, h2⟩ := C95_prefix hw hp hsh (i := 0) (ws := []) (by simp) (by
        intro j w hj
        cases j with
        | zero => exact hj
        | succ j => simp at hj) (by simp) (by simp)
      have h3 := h _ hw _ _ r h1 q (by rw [hsh]; simp [Shape.params])
      have := (h2 0 q rfl).1 h3
      simp at this
  · intro h E hw i i' r hr q hq
    by_cases hb : ∃ raw ps rest subs maps, shape p = .block raw ps rest subs maps
    · obtain ⟨raw, ps, rest, subs, maps, hs⟩ := hb
      obtain rfl := h _ _ _ _ _ hs
      rw [hs] at hq
      simp [Shape.params] at hq
    · exact (C95_seq_partial hw hp hr (fun raw ps rest subs maps hs => hb ⟨_, _, _, _, _, hs⟩) q hq).1

theorem C95_false : ¬ C95_full := by
  intro h
  have := (C95_iff (p := .parseCharacteristic) (by decide)).1 (fun E hw i i' r hr => h E hw _ (by decide) i i' r hr) _ _ _ _ _ rfl
  cases this

/-- All blocks, also those with functions of their own: closed at once, they are accepted. -/
theorem C95_empty {E : Env} {p : PName} (hp : p ≠ .parseModuleMultithreaded) (hp' : p ≠ .parseA2l) (hpr : E.multi = true → p ≠ .parseProject)
    {t : Str} (ht : Spec.endToken p = some t) {i : Nat} (h : TokAfter E i t) : ∃ o : Obj, Returns E p i (.ok (i + 1) (.obj o) false) := by
  have hlt : i + 1 < E.toks.length := (List.getElem?_eq_some_iff.1 h).1
  have hsplit : E.toks = E.toks.take i ++ [E.toks[i], t] ++ E.toks.drop (i + 2) := by
    have h1 : E.toks[i + 1] = t := (List.getElem?_eq_some_iff.1 h).2
    conv => lhs; rw [← List.take_append_drop i E.toks, List.drop_eq_getElem_cons (by omega), List.drop_eq_getElem_cons (by omega), h1]
    simp
  have hr : ∃ o : Obj, parse ⟨[E.toks[i], t, []], E.floatOk, E.multi, fun _ => .panic⟩ p 0 = .ok 1 (.obj o) false := by
    generalize E.toks[i] = w
    cases p <;> first | (cases ht; done) | exact absurd rfl hp | exact absurd rfl hp' | (cases ht; exact ⟨_, rfl⟩)
  obtain ⟨o, hr⟩ := hr
  have hlen : (E.toks.take i).length = i := by simp; omega
  have := C74_own_text (E := ⟨[E.toks[i], t, []], E.floatOk, E.multi, fun _ => .panic⟩) (E' := E) (pre := []) (own := [E.toks[i], t])
    (post := [[]]) rfl (by simp) hsplit rfl rfl hp hp' hpr (by rintro rfl; cases ht) (by rintro rfl; cases ht) (last := 1) rfl
    (returns_of_run (r := .ok 1 (.obj o) false) hr (by simp))
  rw [hlen] at this
  exact ⟨o, this⟩

/-- A MEASUREMENT and a FRAME without anything in them. -/
example : (∃ o : Obj, Returns (mkEnv [(str! "x"), (str! "/begin MEASUREMENT"), (str! "/end MEASUREMENT")]) .parseMeasurement 1 (.ok 2 (.obj o) false)) ∧
    ∃ o : Obj, Returns (mkEnv [(str! "/begin FRAME"), (str! "/end FRAME"), (str! "y")]) .parseFrame 0 (.ok 1 (.obj o) false) :=
  ⟨C95_empty (by decide) (by decide) (by decide) rfl rfl, C95_empty (by decide) (by decide) (by decide) rfl rfl⟩

end Verif.A2l.Props
