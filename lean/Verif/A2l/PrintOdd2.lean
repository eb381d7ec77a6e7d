import Verif.A2l.PrintOdd

/-!
C78 continued: VARIANT_CODING, VAR_FORBIDDEN_COMB, the conversion tables, BIT_OPERATION, FRAME, and the short objects.
-/

namespace Verif.A2l.Write
open Verif.Go Verif.A2l Lang Decl Template

/-- The columns of a conversion table with `d` declared rows: of the rows the first `Loose.limit d` are kept. A column is
marked as complete if there are that many rows. -/
def tableFields (cols : List Loose.Col) (d : Nat) (rows : List (List Str)) : List (String × Val) :=
  if rows = [] then [] else
    (cols.zipIdx.map fun x => (x.1.field, .list ((rows.take (Loose.limit d)).filterMap fun r => (r[x.2]?).map (valueOf x.1.kind)))) ++
    if Loose.limit d ≤ rows.length then cols.map fun c => (c.flag, .bool true) else []

/-- The rows are legal: one word for each column. -/
def FitsRows (E : Env) (cols : List Loose.Col) (rows : List (List Str)) : Prop :=
  ∀ r ∈ rows, r.length = cols.length ∧ ∀ (k : Nat) (c : Loose.Col) w, cols[k]? = some c → r[k]? = some w → ∃ v, Denotes E c.kind w v

/-- A conversion table with the given rows; the last parameter is the number of rows. -/
def table (key : Str) (T : Loose.Table) (rows : List (List Str)) : OddKind where
  key := key
  fn := T.p
  fin := T.fin
  ps := T.ps
  subs := T.subs
  more := fun hdr _ => tableFields T.cols (decVal (hdr.getLast?.getD [])) rows
  fits := fun E _ more => more = rows.flatten ∧ FitsRows E T.cols rows

/-- COMPU_TAB, a2l/compu_tab.go:27-111. -/
def compuTab : List (List Str) → OddKind := table (str! "/begin COMPU_TAB") Loose.compuTab

/-- COMPU_VTAB, a2l/compu_vtab.go:26-98. -/
def compuVtab : List (List Str) → OddKind := table (str! "/begin COMPU_VTAB") Loose.compuVtab

/-- COMPU_VTAB_RANGE, a2l/compu_vtab_range.go:26-103. -/
def compuVtabRange : List (List Str) → OddKind := table (str! "/begin COMPU_VTAB_RANGE") Loose.compuVtabRange

/-- A struct with the given fields. -/
def fieldsOf (l : List (String × Val)) : Obj := fun g => (l.lookup g).getD .zero

/-- MATRIX_DIM, a2l/matrix_dim.go: the first number is the first dimension, the last of the others the second. -/
def matrixDim (ws : List Str) : Node :=
  .given (str! "MATRIX_DIM") .parseMatrixDim ws (.obj (fieldsOf (match ws with
    | [] => []
    | w :: us => [("DimX", .int (decVal w)), ("DimXSet", .bool true)] ++
      match us.getLast? with
      | some u => [("DimY", .int (decVal u))]
      | none => [])))

/-- FRAME_MEASUREMENT, a2l/frame_measurement.go: all words. -/
def frameMeasurement (ws : List Str) : Node :=
  .given (str! "FRAME_MEASUREMENT") .parseFrameMeasurement ws (.obj (fieldsOf
    ((if ws = [] then [] else [("identifier", .list (ws.map .str))]) ++ [("identifierSet", .bool true)])))

/-- GUARD_RAILS, a2l/guard_rails.go. -/
def guardRails : Node := .given (str! "GUARD_RAILS") .parseGuardRails [] (.obj (fieldsOf [("value", .bool true), ("valueSet", .bool true)]))

/-- NO_RESCALE_X, a2l/no_rescale_x.go: the position. -/
def noRescaleX (w : Str) : Node := .given (str! "NO_RESCALE_X") .parseNoRescaleX [w] (.obj (fieldsOf [("Position", .int (decVal w)), ("PositionSet", .bool true)]))

/-- SYMBOL_TYPE_LINK, a2l/symbol_type_link.go: the name. -/
def symbolTypeLink (w : Str) : Node := .given (str! "SYMBOL_TYPE_LINK") .parseSymbolTypeLink [w] (.obj (fieldsOf [("symbolName", .str w)]))

end Verif.A2l.Write

namespace Verif.A2l.Props
open Verif.Go Verif.A2l Lang Decl Analysis Template Write

/-! ### VARIANT_CODING and VAR_FORBIDDEN_COMB -/

theorem variant_ignore {E : Env} : ∀ (ws : List Str) (i : Nat) (o : Obj), (∀ w ∈ ws, Loose.Word w ∧ w ∉ (Loose.variantCoding.spec E).keys) →
    Words E i ws → o.flag "varSeparatorSet" = true → IrrRun E Loose.variantCoding o i o (i + ws.length)
  | [], i, o, _, _, _ => ⟨0, .nil⟩
  | w :: ws, i, o, hwd, hws, hfl => by
    obtain ⟨⟨a, b⟩, c⟩ := hwd w (List.mem_cons_self ..)
    have hfin : w ≠ Loose.variantCoding.fin := fun hh => b (hh ▸ (Loose.irrs_names _ (by simp [Loose.irrs])).1)
    obtain ⟨k, h⟩ := variant_ignore ws (i + 1) o (fun x hx => hwd x (List.mem_cons_of_mem _ hx)) hws.tail hfl
    rw [List.length_cons, show i + (ws.length + 1) = i + 1 + ws.length by omega]
    refine ⟨_, .cons (.rest (L := Loose.variantCoding.spec E) rfl (hws 0 w rfl) a hfin c b ?_) h⟩
    show (if _ then _ else _)
    rw [if_pos hfl]
    exact ⟨rfl, rfl⟩

/-- VARIANT_CODING. -/
theorem variantCoding_legal {E : Env} (hw : Wf E) {more : List Str} {parts : List Node} (hl : Write.variantCoding.Legal E [] more parts) :
    Write.Legal E (Write.variantCoding.node [] more parts) := by
  have hwd := OddKind.Legal.word variantCodingKind hl
  refine irr_legal hw variantCodingKind hl (cl := []) (List.append_nil _).symm (fun g hg => ?_) (fun _ h => nomatch h)
    (fun i o ho hws => ?_) (fun _ _ => rfl)
  · rw [List.append_nil] at hg
    match more, hg with
    | _ :: _ :: _, hg => simpa [Write.variantCoding] using hg
  · match more, hl, hwd, hws with
    | [], _, _, _ => exact ⟨o, ⟨0, .nil⟩, fun _ => rfl⟩
    | [w], hl, _, _ => exact absurd rfl hl.fits
    | w :: s :: ws, hl, hwd, hws =>
      have hfl : o.flag "varSeparatorSet" = false := by rw [Obj.flag, ho]; rfl
      obtain ⟨⟨a, b⟩, c⟩ := hwd w (List.mem_cons_self ..)
      have hfin : w ≠ Loose.variantCoding.fin := fun hh => b (hh ▸ (Loose.irrs_names _ (by simp [Loose.irrs])).1)
      obtain ⟨⟨a', b'⟩, c'⟩ := hwd s (List.mem_cons_of_mem _ (List.mem_cons_self ..))
      have hsep : ReadBack E (.obj w .parseVarSeparator [s] [] []) := legal_read hw (.flat (ps := [⟨"separator", "separatorSet", .str⟩]) (by decide)
        (Or.inr ⟨_, rfl, rfl⟩) ⟨rfl, fun k q x h1 h2 => by
          match k with
          | 0 => cases h1; cases h2; exact ⟨_, rfl⟩
          | k + 1 => simp at h1⟩ (by simpa using ⟨a', b'⟩))
      have hret := hsep .parseVarSeparator rfl (i + 1) (hws 0 w rfl) (by
        intro j x hj
        match j with
        | 0 => cases hj; exact hws.tail 0 _ rfl
        | j + 1 => simp [Node.tail, closing, written, shape] at hj) (fun _ h => nomatch h)
      have hig := variant_ignore ws (i + 2) ((o.set "varSeparator" (.obj (Write.struct (shape .parseVarSeparator) [s] [] []))).set "varSeparatorSet" (.bool true))
        (fun x hx => hwd x (List.mem_cons_of_mem _ (List.mem_cons_of_mem _ hx))) hws.tail.tail (by rw [Obj.flag, set_same])
      obtain ⟨k, hig⟩ := hig
      refine ⟨(o.set "varSeparator" (.obj (Write.struct (shape .parseVarSeparator) [s] [] []))).set "varSeparatorSet" (.bool true),
        ⟨k + 1, .cons (y := ⟨_, (o.set "varSeparator" (.obj (Write.struct (shape .parseVarSeparator) [s] [] []))).set "varSeparatorSet" (.bool true), i + 2⟩)
          (.rest (L := Loose.variantCoding.spec E) rfl (hws 0 w rfl) a hfin c b ?_) ?_⟩, fun g => ?_⟩
      · show (if _ then _ else _)
        rw [if_neg (by rw [hfl]; simp)]
        exact ⟨_, hret, rfl⟩
      · rw [show i + (w :: s :: ws).length = i + 2 + ws.length by simp; omega]
        exact hig
      · show Obj.set _ _ _ _ = (List.lookup g [_, _]).getD _
        by_cases h1 : g = "varSeparatorSet"
        · subst h1; rfl
        · rw [set_other h1]
          by_cases h2 : g = "varSeparator"
          · subst h2; rfl
          · rw [set_other h2, lookup_none_of (by simp [h1, h2])]
            rfl

/-- The struct after pairs of words. -/
theorem comb_words {E : Env} : ∀ (n : Nat) (ws : List Str) (i : Nat) (o : Obj), ws.length = 2 * n → (∀ w ∈ ws, Loose.Word w) → Words E i ws →
    ∃ o', IrrRun E Loose.varForbiddenComb o i o' (i + ws.length) ∧
      o' "criterionName" = (if ws = [] then o "criterionName" else .list (o.list "criterionName" ++ (evens ws).map .str)) ∧
      o' "criterionValue" = (if ws = [] then o "criterionValue" else .list (o.list "criterionValue" ++ (odds ws).map .str)) ∧
      ∀ g, g ≠ "criterionName" → g ≠ "criterionValue" → o' g = o g
  | 0, [], i, o, _, _, _ => ⟨o, ⟨0, .nil⟩, rfl, rfl, fun _ _ _ => rfl⟩
  | 0, _ :: _, _, _, h, _, _ => by simp at h
  | n + 1, [], _, _, h, _, _ => by simp at h
  | n + 1, [_], _, _, h, _, _ => by simp at h; omega
  | n + 1, a :: b :: ws, i, o, h, hwd, hws => by
    have ha := hwd a (List.mem_cons_self ..)
    have hb := hwd b (List.mem_cons_of_mem _ (List.mem_cons_self ..))
    have hfin : a ≠ Loose.varForbiddenComb.fin := fun hh => ha.2 (hh ▸ (Loose.irrs_names _ (by simp [Loose.irrs])).1)
    obtain ⟨o', ⟨k, h1⟩, h2, h3, h4⟩ := comb_words n ws (i + 2) ((o.set "criterionName" (.list (o.list "criterionName" ++ [.str a]))).set "criterionValue"
      (.list (o.list "criterionValue" ++ [.str b]))) (by simp at h; omega) (fun x hx => hwd x (List.mem_cons_of_mem _ (List.mem_cons_of_mem _ hx))) hws.tail.tail
    refine ⟨o', ⟨_, .cons (.rest (L := Loose.varForbiddenComb.spec E) rfl (hws 0 a rfl) ha.1 hfin (List.not_mem_nil) ha.2 (j := i + 2)
      ⟨b, hws.tail 0 b rfl, hb.1, rfl, rfl⟩) (by rw [show i + (a :: b :: ws).length = i + 2 + ws.length by simp; omega]; exact h1)⟩, ?_, ?_, fun g g1 g2 => ?_⟩
    · rw [h2, set_other (by decide), set_same]
      have e : ((o.set "criterionName" (.list (o.list "criterionName" ++ [.str a]))).set "criterionValue"
        (.list (o.list "criterionValue" ++ [.str b]))).list "criterionName" = o.list "criterionName" ++ [.str a] := by
        generalize o.list "criterionName" ++ [.str a] = l
        generalize o.list "criterionValue" ++ [.str b] = l'
        rw [Obj.list, set_other (by decide), set_same]
      rw [e]
      simp only [reduceCtorEq, if_false, evens]
      split
      · rename_i hh; subst hh; rfl
      · simp
    · rw [h3, set_same]
      have e : ((o.set "criterionName" (.list (o.list "criterionName" ++ [.str a]))).set "criterionValue"
        (.list (o.list "criterionValue" ++ [.str b]))).list "criterionValue" = o.list "criterionValue" ++ [.str b] := by
        generalize o.list "criterionName" ++ [.str a] = l
        generalize o.list "criterionValue" ++ [.str b] = l'
        rw [Obj.list, set_same]
      rw [e]
      simp only [reduceCtorEq, if_false, odds]
      split
      · rename_i hh; subst hh; rfl
      · simp
    · rw [h4 g g1 g2, set_other g2, set_other g1]

/-- VAR_FORBIDDEN_COMB. -/
theorem varForbiddenComb_legal {E : Env} (hw : Wf E) {more : List Str} {parts : List Node} (hl : Write.varForbiddenComb.Legal E [] more parts) :
    Write.Legal E (Write.varForbiddenComb.node [] more parts) := by
  have hwd := OddKind.Legal.word varForbiddenCombKind hl
  have hev : more.length % 2 = 0 := hl.fits
  refine irr_legal hw varForbiddenCombKind hl (M := if more = [] then [] else
      [("criterionName", .list ((evens more).map .str)), ("criterionValue", .list ((odds more).map .str))])
    (cl := [("criterionNameSet", .bool true), ("criterionValueSet", .bool true)]) rfl (fun g hg => ?_) (fun g hg => ?_) (fun i o ho hws => ?_) (fun o _ => ?_)
  · split at hg <;> simp at hg ⊢
    · rcases hg with h | h <;> simp [h]
    · exact hg
  · split
    · simp
    · simp only [List.map_cons, List.map_nil, List.mem_cons, List.not_mem_nil, or_false] at hg ⊢
      rcases hg with rfl | rfl <;> decide
  · obtain ⟨o', h1, h2, h3, h4⟩ := comb_words (more.length / 2) more i o (by omega) (fun w h => (hwd w h).1) hws
    refine ⟨o', h1, fun g => ?_⟩
    have e1 : o.list "criterionName" = [] := by rw [Obj.list, ho]; rfl
    have e2 : o.list "criterionValue" = [] := by rw [Obj.list, ho]; rfl
    rw [e1] at h2
    rw [e2] at h3
    by_cases hm : more = []
    · rw [if_pos hm] at h2 h3 ⊢
      by_cases g1 : g = "criterionName"
      · subst g1; exact h2
      · by_cases g2 : g = "criterionValue"
        · subst g2; exact h3
        · exact h4 g g1 g2
    · rw [if_neg hm] at h2 h3 ⊢
      by_cases g1 : g = "criterionName"
      · subst g1; rw [h2]; rfl
      · by_cases g2 : g = "criterionValue"
        · subst g2; rw [h3]; rfl
        · rw [h4 g g1 g2, lookup_none_of (by simp [g1, g2])]
          rfl
  · funext g
    show Obj.set _ _ _ _ = _
    by_cases h1 : g = "criterionValueSet"
    · subst h1; rfl
    · rw [set_other h1]
      by_cases h2 : g = "criterionNameSet"
      · subst h2; rfl
      · rw [set_other h2, lookup_none_of (by simp [h1, h2])]
        rfl

/-! ### The short objects -/

theorem matrixDim_legal {E : Env} (hw : Wf E) {ws : List Str} (h : ∀ w ∈ ws, w ∉ keywords ∧ ∃ v, Denotes E (.uint 16) w v) :
    Write.Legal E (matrixDim ws) := by
  refine .given fun i _ hws hst => ?_
  obtain ⟨t, ht, hta⟩ := hst keywords rfl
  have hn : Nats ws (ws.map decVal) := by
    clear hws hst hta
    induction ws with
    | nil => exact .nil
    | cons w ws ih =>
      obtain ⟨h1, v, n, h2, h3, _⟩ := h w (List.mem_cons_self ..)
      have e : decVal w = n := h2.2.2
      rw [List.map_cons, e]
      exact .cons h1 h2 h3 (ih fun x hx => h x (List.mem_cons_of_mem _ hx))
  refine (C32_matrix_dim_exact hw).2 ⟨ws, _, hws, hn, ⟨t, ht, hta⟩, rfl, ?_⟩
  congr 1
  funext g
  cases ws with
  | nil => rfl
  | cons w us =>
    rw [List.map_cons, fieldsOf]
    have hd : dims (decVal w :: us.map decVal) = us.foldl (fun o u => o.set "DimY" (.int (decVal u)))
        ((Obj.empty.set "DimX" (.int (decVal w))).set "DimXSet" (.bool true)) := by
      show List.foldl _ _ (us.map decVal) = _
      rw [List.foldl_map]
    rw [hd]
    clear hd hn hws hst hta h
    have hl : ∀ (us : List Str) (o : Obj), us.foldl (fun o u => o.set "DimY" (.int (decVal u))) o g =
        ((match us.getLast? with | some u => [("DimY", Val.int (decVal u))] | none => []).lookup g).getD (o g) := by
      intro us
      induction us with
      | nil => intro o; rfl
      | cons u us ih =>
        intro o
        rw [List.foldl_cons, ih]
        cases us with
        | nil =>
          by_cases hg : g = "DimY"
          · subst hg; rfl
          · show Obj.set _ _ _ _ = _
            rw [set_other hg]
            simp only [List.getLast?_singleton]
            rw [lookup_none_of (by simp [hg])]
            rfl
        | cons v vs =>
          rw [List.getLast?_cons_cons, List.getLast?_eq_some_getLast (List.cons_ne_nil v vs)]
          by_cases hg : g = "DimY"
          · subst hg; rfl
          · simp only
            rw [lookup_none_of (by simp [hg]), set_other hg]
    rw [hl]
    by_cases h1 : g = "DimX"
    · subst h1
      cases us.getLast? <;> rfl
    · by_cases h2 : g = "DimXSet"
      · subst h2
        cases us.getLast? <;> rfl
      · rw [List.lookup_append, lookup_none_of (l := [("DimX", _), ("DimXSet", _)]) (by simp [h1, h2]), Option.none_or, set_other h2, set_other h1]
        rfl

/-- A struct with fields set one after the other. -/
theorem set_fields (o : Obj) (f : String) (v : Val) (l : List (String × Val)) (h : ∀ g, o g = (l.lookup g).getD .zero) (hf : f ∉ l.map (·.1)) :
    ∀ g, o.set f v g = ((l ++ [(f, v)]).lookup g).getD .zero := by
  intro g
  rw [List.lookup_append]
  by_cases hg : g = f
  · subst hg
    rw [set_same, lookup_none_of hf]
    simp
  · rw [set_other hg, h, lookup_none_of (l := [(f, v)]) (by simp [hg]), Option.or_none]

theorem frameMeasurement_legal {E : Env} (hw : Wf E) {ws : List Str} (h : ∀ w ∈ ws, w ≠ [] ∧ w ∉ keywords) : Write.Legal E (frameMeasurement ws) := by
  refine .given fun i _ hws hst => ?_
  obtain ⟨t, ht, hta⟩ := hst _ rfl
  have hs : ∀ (ws : List Str) (i : Nat) (o : Obj), Words E i ws → (∀ w ∈ ws, w ≠ [] ∧ w ∉ keywords) →
      ∃ o', Odd.Steps (Odd.FmRound E) ws.length ⟨o, false, i⟩ ⟨o', false, i + ws.length⟩ ∧
        o' "identifier" = (if ws = [] then o "identifier" else .list (o.list "identifier" ++ ws.map .str)) ∧
        ∀ g, g ≠ "identifier" → o' g = o g := by
    intro ws
    induction ws with
    | nil => intro i o _ _; exact ⟨o, .nil, rfl, fun _ _ => rfl⟩
    | cons w ws ih =>
      intro i o h1 h2
      obtain ⟨o', g1, g2, g3⟩ := ih (i + 1) (o.set "identifier" (.list (o.list "identifier" ++ [.str w]))) h1.tail (fun x hx => h2 x (List.mem_cons_of_mem _ hx))
      obtain ⟨a, b⟩ := h2 w (List.mem_cons_self ..)
      rw [Nat.add_assoc, Nat.add_comm 1] at g1
      refine ⟨o', .cons (.word (h1 0 w rfl) a b) g1, ?_, fun g hg => by rw [g3 g hg, set_other hg]⟩
      have e : (o.set "identifier" (.list (o.list "identifier" ++ [.str w]))).list "identifier" = o.list "identifier" ++ [.str w] := by
        generalize o.list "identifier" ++ [.str w] = l
        rw [Obj.list, set_same]
      rw [g2, e, set_same]
      simp only [reduceCtorEq, if_false]
      split
      · rename_i hh; subst hh; rfl
      · simp
  obtain ⟨o', g1, g2, g3⟩ := hs ws i Obj.empty hws h
  have hr := (Odd.reads (Odd.fmRounds hw) (by decide) Odd.fm_body).2 ⟨_, _, _, rfl, g1, .fin hta (by simpa using ht)⟩
  have e : o'.set "identifierSet" (.bool true) = fieldsOf ((if ws = [] then [] else [("identifier", .list (ws.map .str))]) ++ [("identifierSet", .bool true)]) := by
    funext g
    refine set_fields o' _ _ _ (fun g => ?_) (by split <;> simp) g
    by_cases hg : g = "identifier"
    · subst hg
      rw [g2]
      split <;> rfl
    · rw [g3 g hg, lookup_none_of (by split <;> simp [hg])]
      rfl
  rw [← e]
  exact hr

theorem guardRails_legal {E : Env} : Write.Legal E guardRails := by
  refine .given fun i hk _ _ => ?_
  have := guard_rails_exact (E := E) ⟨_, hk, by decide⟩
  have e : (Obj.empty.set "value" (.bool true)).set "valueSet" (.bool true) = fieldsOf [("value", .bool true), ("valueSet", .bool true)] := by
    funext g
    exact set_fields _ _ _ [_] (set_fields _ _ _ [] (fun _ => rfl) (by simp)) (by simp) g
  rw [← e]
  exact this

theorem noRescaleX_legal {E : Env} (hw : Wf E) {w : Str} (h : w ∉ keywords) (hv : ∃ v, Denotes E (.uint 16) w v) : Write.Legal E (noRescaleX w) := by
  refine .given fun i _ hws _ => ?_
  obtain ⟨v, n, h2, h3, _⟩ := hv
  refine (C32_no_rescale_x_exact hw).2 ⟨w, n, hws 0 w rfl, h, h2, h3, rfl, ?_⟩
  have hn : decVal w = n := h2.2.2
  rw [← hn]
  congr 1
  funext g
  exact (set_fields _ _ _ [_] (set_fields _ _ _ [] (fun _ => rfl) (by simp)) (by simp) g).symm

theorem symbolTypeLink_legal {E : Env} (hw : Wf E) {w : Str} (h : w ≠ [] ∧ w ∉ keywords) : Write.Legal E (symbolTypeLink w) := by
  refine .given fun i _ hws _ => ?_
  refine (C32_symbol_type_link hw).2 ⟨w, hws 0 w rfl, h.1, h.2, rfl, ?_⟩
  congr 1
  funext g
  exact (set_fields _ _ _ [] (fun _ => rfl) (by simp) g).symm

/-! ### BIT_OPERATION and FRAME -/

theorem Steps.append {P : Odd.View → Odd.View → Prop} {k l : Nat} {x y z : Odd.View} (h : Odd.Steps P k x y) (h' : Odd.Steps P l y z) :
    Odd.Steps P (k + l) x z := by
  induction h with
  | nil => simpa using h'
  | cons hi _ ih => rw [Nat.add_right_comm]; exact .cons hi (ih h')

theorem bitOperation_legal {E : Env} (hw : Wf E) {more : List Str} {parts : List Node} (hl : Write.bitOperation.Legal E [] more parts) :
    Write.Legal E (Write.bitOperation.node [] more parts) := by
  refine odd_legal hw hl (N := []) (by decide +kernel) (first := []) (cl := []) rfl (fun _ h => nomatch h) (fun _ h => nomatch h)
    (Start := fun i o j => ∃ k, Odd.Steps (Odd.BitRound E (Succeeds E)) k ⟨Obj.empty, false, i⟩ ⟨o, false, j⟩)
    (Run := fun o i o' j => ∃ k, Odd.Steps (Odd.BitRound E (Succeeds E)) k ⟨o, false, i⟩ ⟨o', false, j⟩) ⟨fun _ _ => ⟨0, .nil⟩,
      fun ⟨_, a⟩ ⟨_, b⟩ => ⟨_, Steps.append a b⟩, ?_, ?_⟩ ?_ ?_
  · intro k q f md o i j v o' hm ht hr hk
    have hm : (k = (str! "LEFT_SHIFT") ∧ q = .parseLeftShift ∧ f = "leftShift" ∧ md = .field) ∨
        (k = (str! "RIGHT_SHIFT") ∧ q = .parseRightShift ∧ f = "rightShift" ∧ md = .field) ∨
        (k = (str! "SIGN_EXTEND") ∧ q = .parseSignExtend ∧ f = "signExtend" ∧ md = .field) := by
      simpa [Write.bitOperation, declaredParts, shape] using hm
    have h2 : (k, q, f) ∈ Odd.bitParts ∧ md = .field := by
      rcases hm with ⟨rfl, rfl, rfl, rfl⟩ | ⟨rfl, rfl, rfl, rfl⟩ | ⟨rfl, rfl, rfl, rfl⟩ <;> exact ⟨by decide, rfl⟩
    obtain ⟨h2, rfl⟩ := h2
    cases hk
    exact ⟨1, .cons (.part h2 ht hr) .nil⟩
  · intro k e f o i w c hm
    simp [Write.bitOperation, declaredParts, shape] at hm
  · intro i _ hws
    refine ⟨Obj.empty, ?_, fun _ => rfl⟩
    have : ∀ (ws : List Str) (i : Nat), Words E i ws → (∀ w ∈ ws, w ∈ more) →
        Odd.Steps (Odd.BitRound E (Succeeds E)) ws.length ⟨Obj.empty, false, i⟩ ⟨Obj.empty, false, i + ws.length⟩ := by
      intro ws
      induction ws with
      | nil => intro i _ _; exact .nil
      | cons w ws ih =>
        intro i h1 h2
        obtain ⟨a, b, c⟩ := hl.words w (List.mem_append_right _ (h2 w (List.mem_cons_self ..)))
        have := ih (i + 1) h1.tail (fun x hx => h2 x (List.mem_cons_of_mem _ hx))
        rw [Nat.add_assoc, Nat.add_comm 1] at this
        exact .cons (.word (h1 0 w rfl) a c b) this
    exact ⟨_, this more i hws (fun _ h => h)⟩
  · intro i o1 j1 o j h1 h2 ht _
    obtain ⟨k, h1⟩ := h1
    obtain ⟨l, h2⟩ := h2
    exact (C32_bit_operation_exact hw).2 ⟨o, _, j, rfl, Steps.append h1 h2, ht, rfl⟩

theorem frame_legal {E : Env} (hw : Wf E) {more : List Str} {parts : List Node} (hl : Write.frame.Legal E [] more parts) :
    Write.Legal E (Write.frame.node [] more parts) := by
  refine odd_legal hw hl (N := ["name"]) (by decide +kernel) (first := lastWord "name" [] more) (cl := []) (List.append_nil _).symm
    (fun x hx => by
      rw [List.append_nil] at hx
      rw [lastWord_names _ (List.mem_map.2 ⟨x, hx, rfl⟩)]; simp) (fun _ h => nomatch h)
    (Start := fun i o j => ∃ k, Odd.Steps (Odd.FrameRound E (Succeeds E)) k ⟨Obj.empty, false, i⟩ ⟨o, false, j⟩)
    (Run := fun o i o' j => ∃ k, Odd.Steps (Odd.FrameRound E (Succeeds E)) k ⟨o, false, i⟩ ⟨o', false, j⟩) ⟨fun _ _ => ⟨0, .nil⟩,
      fun ⟨_, a⟩ ⟨_, b⟩ => ⟨_, Steps.append a b⟩, ?_, ?_⟩ ?_ ?_
  · intro k q f md o i j v o' hm ht hr hk
    have hm : (k = (str! "FRAME_MEASUREMENT") ∧ q = .parseFrameMeasurement ∧ f = "frameMeasurement" ∧ md = .field) ∨
        (k = (str! "/begin IF_DATA") ∧ q = .parseIfData ∧ f = "ifData" ∧ md = .append) := by
      simpa [Write.frame, declaredParts, shape] using hm
    rcases hm with ⟨rfl, rfl, rfl, rfl⟩ | ⟨rfl, rfl, rfl, rfl⟩
    · cases hk
      exact ⟨1, .cons (.measurement ht hr) .nil⟩
    · cases hk
      exact ⟨1, .cons (.data ht hr) .nil⟩
  · intro k e f o i w c hm
    simp [Write.frame, declaredParts, shape] at hm
  · intro i _ hws
    refine ⟨_, ⟨_, frame_words (R := Succeeds E) more (o := Obj.empty) hws (fun w hw' => ?_)⟩, fun g => fold_last "name" [] more Obj.empty g⟩
    obtain ⟨a, b, c⟩ := hl.words w (List.mem_append_right _ hw')
    exact ⟨a, fun hh => c (by rw [hh]; decide +kernel), b⟩
  · intro i o1 j1 o j h1 h2 ht _
    obtain ⟨k, h1⟩ := h1
    obtain ⟨l, h2⟩ := h2
    exact (C32_frame_exact hw).2 ⟨o, _, _, rfl, Steps.append h1 h2, .fin ht⟩

/-! ### The conversion tables -/

abbrev TabRun (E : Env) (T : Loose.Table) (o : Obj) (i : Nat) (o' : Obj) (j : Nat) : Prop :=
  ∃ k, Loose.Items E (Succeeds E) T.fin (T.spec E) k ⟨T.ps.length, o, i⟩ ⟨T.ps.length, o', j⟩

theorem cell_shape (o : Obj) (f fl num : String) (v : Val) (g : String) :
    Loose.cell o f fl num v g = o g ∨ (g = f ∧ ∃ l, Loose.cell o f fl num v g = .list l) ∨ (g = fl ∧ Loose.cell o f fl num v g = .bool true) := by
  unfold Loose.cell
  by_cases h2 : g = fl
  · subst h2
    simp only
    split
    · exact Or.inr (Or.inr ⟨trivial, set_same _ _ _⟩)
    · by_cases h1 : g = f
      · subst h1; exact Or.inr (Or.inl ⟨rfl, _, set_same _ _ _⟩)
      · exact Or.inl (set_other h1)
  · by_cases h1 : g = f
    · subst h1
      refine Or.inr (Or.inl ⟨rfl, ?_⟩)
      split
      · exact ⟨_, by rw [set_other h2, set_same]⟩
      · exact ⟨_, set_same _ _ _⟩
    · refine Or.inl ?_
      split
      · rw [set_other h2, set_other h1]
      · exact set_other h1

theorem rowObj_shape {num : String} : ∀ (cs : List Loose.Col) (vs : List Val) (o : Obj) (g : String),
    Loose.rowObj num o cs vs g = o g ∨ (g ∈ cs.map (·.field) ∧ ∃ l, Loose.rowObj num o cs vs g = .list l) ∨
      (g ∈ cs.map (·.flag) ∧ Loose.rowObj num o cs vs g = .bool true)
  | [], _, o, g => Or.inl (by simp [Loose.rowObj])
  | _ :: _, [], o, g => Or.inl (by simp [Loose.rowObj])
  | c :: cs, v :: vs, o, g => by
    rw [Loose.rowObj]
    rcases rowObj_shape cs vs (Loose.cell o c.field c.flag num v) g with h | ⟨h, l, hl⟩ | ⟨h, hl⟩
    · rw [h]
      rcases cell_shape o c.field c.flag num v g with h | ⟨h, l, hl⟩ | ⟨h, hl⟩
      · exact Or.inl h
      · exact Or.inr (Or.inl ⟨by simp [h], l, hl⟩)
      · exact Or.inr (Or.inr ⟨by simp [h], hl⟩)
    · exact Or.inr (Or.inl ⟨List.mem_cons_of_mem _ h, l, hl⟩)
    · exact Or.inr (Or.inr ⟨List.mem_cons_of_mem _ h, hl⟩)

theorem rows_shape {T : Loose.Table} (g : String) : ∀ (rows : List (List Val)) (o : Obj),
    rows.foldl (Loose.readRow T) o g = o g ∨ (g ∈ T.cols.map (·.field) ∧ ∃ l, rows.foldl (Loose.readRow T) o g = .list l) ∨
      (g ∈ T.cols.map (·.flag) ∧ rows.foldl (Loose.readRow T) o g = .bool true)
  | [], o => Or.inl rfl
  | r :: rows, o => by
    rw [List.foldl_cons]
    rcases rows_shape g rows (Loose.readRow T o r) with h | h | h
    · rw [h]
      unfold Loose.readRow
      split
      · exact Or.inl rfl
      · exact rowObj_shape _ _ _ _
    · exact Or.inr (Or.inl h)
    · exact Or.inr (Or.inr h)

theorem lookup_of_nodup {l : List (String × Val)} (hn : (l.map (·.1)).Nodup) {k : String} {a : Val} (h : (k, a) ∈ l) : l.lookup k = some a := by
  induction l with
  | nil => cases h
  | cons x l ih =>
    obtain ⟨c, d⟩ := x
    simp only [List.map_cons, List.nodup_cons] at hn
    rw [List.lookup_cons]
    rcases List.mem_cons.1 h with h | h
    · cases h; simp
    · have : k ≠ c := fun he => hn.1 (he ▸ List.mem_map.2 ⟨_, h, rfl⟩)
      rw [beq_eq_false_iff_ne.2 this]
      exact ih hn.2 h

/-- The values of a row. -/
abbrev rowVals (cols : List Loose.Col) (r : List Str) : List Val := (cols.zip r).map fun x => valueOf x.1.kind x.2

theorem row_written {E : Env} : ∀ (cols : List Loose.Col) (r : List Str), r.length = cols.length →
    (∀ (k : Nat) (c : Loose.Col) w, cols[k]? = some c → r[k]? = some w → ∃ v, Denotes E c.kind w v) →
    Loose.Written E (cols.map (·.kind)) r (rowVals cols r)
  | [], [], _, _ => .nil
  | [], _ :: _, h, _ => by simp at h
  | _ :: _, [], h, _ => by simp at h
  | p :: ps, w :: ws, h, h2 => by
    obtain ⟨v, hv⟩ := h2 0 p w rfl rfl
    have e := denotes_value hv
    subst e
    exact .cons hv (row_written ps ws (by simpa using h) (fun k q u a b => h2 (k + 1) q u (by simpa using a) (by simpa using b)))

theorem limit_pos (d : Nat) : 1 ≤ Loose.limit d := by
  unfold Loose.limit
  split <;> omega

/-- The rows of a table put the columns into the struct. -/
theorem rows_fields {T : Loose.Table} (hT : T.NamesOk) {d : Nat} (hd : d < 65536) (rows : List (List Str)) (hlen : ∀ r ∈ rows, r.length = T.cols.length) (o : Obj)
    (hnum : o.int T.num = d) (hz : ∀ c ∈ T.cols, o c.field = .zero ∧ o c.flag = .zero) (g : String) :
    (rows.map (rowVals T.cols)).foldl (Loose.readRow T) o g = ((tableFields T.cols d rows).lookup g).getD (o g) := by
  have hrr : Loose.RowsRead T d 0 o := by
    refine ⟨hnum, fun c hc => ?_, fun c hc => ?_, Nat.zero_le _⟩
    · rw [Obj.list, (hz c hc).1]; rfl
    · rw [Obj.flag, (hz c hc).2]
      have := limit_pos d
      simp only [false_eq_decide_iff]
      omega
  obtain ⟨h1, h2⟩ := Loose.readRows_get hT.cols hT.some hd (rows.map (rowVals T.cols)) 0 o hrr (by
    intro vs hvs
    obtain ⟨r, hr, rfl⟩ := List.mem_map.1 hvs
    simp [hlen r hr])
  by_cases hr0 : rows = []
  · subst hr0; rfl
  have hpos : 0 < rows.length := by cases rows with | nil => exact absurd rfl hr0 | cons => simp
  unfold tableFields
  rw [if_neg hr0, List.lookup_append]
  have hn1 : ((T.cols.zipIdx.map fun x => (x.1.field, Val.list ((rows.take (Loose.limit d)).filterMap fun r => (r[x.2]?).map (valueOf x.1.kind)))).map (·.1)) =
      T.cols.map (·.field) := by
    rw [List.map_map]
    have e : T.cols.zipIdx.map (fun x => x.1.field) = (T.cols.zipIdx.map (·.1)).map (·.field) := by rw [List.map_map]; rfl
    rw [List.zipIdx_map_fst] at e
    exact e
  have hn2 : ((T.cols.map fun c => (c.flag, Val.bool true)).map (·.1)) = T.cols.map (·.flag) := by
    rw [List.map_map]; rfl
  have hsh := rows_shape (T := T) g (rows.map (rowVals T.cols)) o
  generalize hO : (rows.map (rowVals T.cols)).foldl (Loose.readRow T) o = O at *
  by_cases hf : g ∈ T.cols.map (·.field)
  · obtain ⟨c, hc, rfl⟩ := List.mem_map.1 hf
    obtain ⟨k, hk, hck⟩ := List.getElem_of_mem hc
    have hck : T.cols[k]? = some c := by rw [List.getElem?_eq_getElem hk, hck]
    rw [lookup_of_nodup (by rw [hn1]; exact hT.cols.fields) (List.mem_map.2 ⟨(c, k), List.mem_zipIdx_iff_getElem?.2 hck, rfl⟩)]
    have hcol := h2 k c hck
    rw [Obj.list, Obj.list, (hz c hc).1] at hcol
    have hl := h1.len c hc
    rw [Obj.list] at hl
    simp only [List.length_map, Nat.zero_add, Nat.sub_zero, List.nil_append] at hcol hl
    have := limit_pos d
    have hcc : Loose.column k (List.take (Loose.limit d) (List.map (rowVals T.cols) rows)) =
        (rows.take (Loose.limit d)).filterMap fun r => (r[k]?).map (valueOf c.kind) := by
      unfold Loose.column
      rw [← List.map_take, List.filterMap_map]
      congr 1
      funext r
      show ((T.cols.zip r).map fun x => valueOf x.1.kind x.2)[k]? = _
      rw [List.getElem?_map]
      cases hr : r[k]? with
      | none =>
        rw [List.getElem?_eq_none (l := T.cols.zip r)]
        · rfl
        · rw [List.getElem?_eq_none_iff] at hr
          rw [List.length_zip]
          omega
      | some w => rw [(List.getElem?_zip_eq_some (z := (c, w))).2 ⟨hck, hr⟩]; rfl
    rw [hcc] at hcol
    rcases hsh with h | ⟨_, l, h⟩ | ⟨h, _⟩
    · rw [h, (hz c hc).1] at hl
      simp only [List.length_nil] at hl
      omega
    · rw [h] at hcol
      rw [h, ← hcol]
      rfl
    · exact absurd h (hT.cols.disj c hc)
  · rw [lookup_none_of (by rw [hn1]; exact hf), Option.none_or]
    by_cases hg : g ∈ T.cols.map (·.flag)
    · obtain ⟨c, hc, rfl⟩ := List.mem_map.1 hg
      have hfl := h1.flag c hc
      rw [Obj.flag] at hfl
      simp only [List.length_map, Nat.zero_add] at hfl
      by_cases hle : Loose.limit d ≤ rows.length
      · rw [if_pos hle, lookup_of_nodup (by rw [hn2]; exact hT.cols.flags) (List.mem_map.2 ⟨c, hc, rfl⟩)]
        rcases hsh with h | ⟨h, _⟩ | ⟨_, h⟩
        · rw [h, (hz c hc).2] at hfl
          simp only [false_eq_decide_iff] at hfl
          omega
        · exact absurd h hf
        · exact h
      · rw [if_neg hle]
        rcases hsh with h | ⟨h, _⟩ | ⟨_, h⟩
        · exact h
        · exact absurd h hf
        · rw [h] at hfl
          simp only [true_eq_decide_iff] at hfl
          omega
    · rw [lookup_none_of (by split; rw [hn2]; exact hg; simp)]
      rcases hsh with h | ⟨h, _⟩ | ⟨h, _⟩
      · exact h
      · exact absurd h hf
      · exact absurd h hg

theorem tabs_subs : ∀ T ∈ Loose.tableKinds, SubsOk T.subs (T.ps.flatMap (fun p => [p.field, p.flag]) ++ (T.cols.map (·.field) ++ T.cols.map (·.flag))) ∧
    T.subs.all (fun s => match s.2 with | .obj _ _ _ => true | _ => false) = true := by
  intro T hT
  simp only [Loose.tableKinds, List.mem_cons, List.not_mem_nil, or_false] at hT
  rcases hT with rfl | rfl | rfl <;> decide +kernel

theorem goes_table {E : Env} {T : Loose.Table} (hT : T ∈ Loose.tableKinds) : Goes E T.subs (TabRun E T) where
  refl := fun o i => ⟨0, .nil⟩
  trans := fun ⟨_, a⟩ ⟨_, b⟩ => ⟨_, a.append b⟩
  obj := by
    intro k q f md o i j v o' hm ht hr hk
    exact ⟨1, .cons (.sub (List.mem_map.2 ⟨_, hm, rfl⟩) ht ⟨q, f, md, v, hm, hr, hk⟩) .nil⟩
  choice := by
    intro k e f o i w c hm
    have := List.all_eq_true.1 (tabs_subs T hT).2 _ hm
    cases this

theorem tableFields_names {cols : List Loose.Col} {d : Nat} {rows : List (List Str)} {g : String} (h : g ∈ (tableFields cols d rows).map (·.1)) :
    g ∈ cols.map (·.field) ++ cols.map (·.flag) := by
  unfold tableFields at h
  split at h
  · cases h
  · rw [List.map_append, List.mem_append] at h
    rw [List.mem_append]
    rcases h with h | h
    · refine Or.inl ?_
      obtain ⟨x, hx, rfl⟩ := List.mem_map.1 h
      obtain ⟨y, hy, rfl⟩ := List.mem_map.1 hx
      exact List.mem_map.2 ⟨y.1, List.mem_of_getElem? (List.mem_zipIdx_iff_getElem?.1 hy), rfl⟩
    · refine Or.inr ?_
      split at h
      · obtain ⟨x, hx, rfl⟩ := List.mem_map.1 h
        obtain ⟨y, hy, rfl⟩ := List.mem_map.1 hx
        exact List.mem_map.2 ⟨y, hy, rfl⟩
      · cases h

/-- The conversion tables. -/
theorem table_legal {E : Env} (hw : Wf E) (hfl : E.floatOk [] = false) {T : Loose.Table} (hT : T ∈ Loose.tableKinds) {key : Str} {rows : List (List Str)}
    {hdr : List Str} {parts : List Node} (hl : (table key T rows).Legal E hdr rows.flatten parts) :
    Write.Legal E ((table key T rows).node hdr rows.flatten parts) := by
  have hn := Loose.tableKinds_ok T hT
  have hkey : Loose.Keyed T.fin (T.spec E) := ⟨hn.fin, fun k hk => by
    obtain ⟨x, hx, rfl⟩ := List.mem_map.1 hk
    exact hn.keys x hx⟩
  have hrows := hl.fits.2
  have hpar : Fits E T.ps hdr := hl.params
  -- the number of rows
  obtain ⟨q, hq, hq1, hq2⟩ := hn.last
  have hq : T.ps.getLast? = some q := hq
  have hlast : T.ps[T.ps.length - 1]? = some q := by rw [← List.getLast?_eq_getElem?]; exact hq
  have hpl : 0 < T.ps.length := by
    rcases Nat.eq_zero_or_pos T.ps.length with h | h
    · rw [List.length_eq_zero_iff.1 h] at hq; cases hq
    · exact h
  obtain ⟨w, hwl⟩ : ∃ w, hdr[T.ps.length - 1]? = some w := by
    rw [← hpar.1]
    exact ⟨_, List.getElem?_eq_getElem (by have := hpar.1; omega)⟩
  have hdl : hdr.getLast? = some w := by rw [List.getLast?_eq_getElem?, hpar.1]; exact hwl
  obtain ⟨v, hv⟩ := hpar.2 _ q w hlast hwl
  rw [hq2] at hv
  obtain ⟨n, hv1, hv2, rfl⟩ := hv
  have hdec : decVal w = n := hv1.2.2
  have hn16 : n < 65536 := hv2
  refine odd_legal hw hl (N := T.ps.flatMap (fun p => [p.field, p.flag]) ++ (T.cols.map (·.field) ++ T.cols.map (·.flag))) (tabs_subs T hT).1
    (first := writtenFields T.ps hdr ++ tableFields T.cols (decVal (hdr.getLast?.getD [])) rows) (cl := []) (List.append_nil _).symm ?_ (fun _ h => nomatch h)
    (goes_table hT) (Start := fun i o j => ∃ k, Loose.Items E (Succeeds E) T.fin (T.spec E) k ⟨0, Obj.empty, i⟩ ⟨T.ps.length, o, j⟩) ?_ ?_
  · intro x hx
    rw [List.append_nil, List.mem_append] at hx
    rw [List.mem_append]
    rcases hx with hx | hx
    · obtain ⟨p, hp, h⟩ := writtenFields_names (List.mem_map.2 ⟨x, hx, rfl⟩)
      exact Or.inl (List.mem_flatMap.2 ⟨p, hp, by rcases h with h | h <;> simp [h]⟩)
    · exact Or.inr (tableFields_names (List.mem_map.2 ⟨x, hx, rfl⟩))
  · intro i _ hws
    obtain ⟨h1, h2⟩ := Words.append hws
    have hword : ∀ t ∈ hdr ++ rows.flatten, Loose.Word t := fun t ht => ⟨(hl.words t ht).1, (hl.words t ht).2.1⟩
    have hp := Loose.params_items (R := Succeeds E) (L := T.spec E) hkey hdr (hdrVals T.ps hdr) 0 i Obj.empty (by omega)
      (by simpa [Loose.Table.spec] using fits_written hpar) (fun t ht => hword t (List.mem_append_left _ ht)) h1
    have hg := fun g => fillF_written (ps := T.ps) (hdr := hdr) Obj.empty g hn.ps hpar.1
    have hmm : (rows.map fun r => (r, rowVals T.cols r)).map (·.1) = rows := by rw [List.map_map]; exact List.map_id _
    have hmv : (rows.map fun r => (r, rowVals T.cols r)).map (·.2) = rows.map (rowVals T.cols) := by rw [List.map_map]; rfl
    obtain ⟨k, hr⟩ := Loose.rows_items (R := Succeeds E) hkey hn.some (rows.map fun r => (r, rowVals T.cols r)) (i + hdr.length)
      (Loose.fillF T.ps (hdrVals T.ps hdr) Obj.empty) (by
        intro r hr
        obtain ⟨s, hs, rfl⟩ := List.mem_map.1 hr
        exact row_written _ _ (hrows s hs).1 (hrows s hs).2) (by
        intro r hr t ht
        obtain ⟨s, hs, rfl⟩ := List.mem_map.1 hr
        exact hword t (List.mem_append_right _ (List.mem_flatten.2 ⟨s, hs, ht⟩))) (by rw [hmm]; exact h2)
    rw [hmm, hmv] at hr
    refine ⟨_, ⟨_, by rw [List.length_append, ← Nat.add_assoc]; exact hp.append hr⟩, fun g => ?_⟩
    have hnone : ∀ c ∈ T.cols, ∀ g, g = c.field ∨ g = c.flag → (writtenFields T.ps hdr).lookup g = none := by
      intro c hc g hg
      refine lookup_none_of fun hh => ?_
      obtain ⟨p, hp, h⟩ := writtenFields_names hh
      obtain ⟨a1, a2, a3, a4⟩ := hn.apart c hc p hp
      rcases hg with rfl | rfl
      · exact h.elim a1 a2
      · exact h.elim a3 a4
    have hnum : (Loose.fillF T.ps (hdrVals T.ps hdr) Obj.empty).int T.num = (n : Int) := by
      have := Loose.fillF_get T.ps (hdrVals T.ps hdr) Obj.empty hn.ps (by simp [hdrVals, hpar.1]) _ q hlast
      rw [hq1] at this
      have hz : (hdrVals T.ps hdr)[T.ps.length - 1]? = some (valueOf q.kind w) := by
        show ((T.ps.zip hdr).map _)[_]? = _
        rw [List.getElem?_map, (List.getElem?_zip_eq_some (z := (q, w))).2 ⟨hlast, hwl⟩]
        rfl
      rw [hz, hq2] at this
      rw [Obj.int, ← Option.some.inj this]
      show ((decVal w : Nat) : Int) = _
      rw [hdec]
    rw [rows_fields hn hn16 rows (fun r hr => (hrows r hr).1) _ hnum (fun c hc => ⟨by rw [hg, hnone c hc _ (Or.inl rfl)]; rfl, by
      rw [hg, hnone c hc _ (Or.inr rfl)]; rfl⟩), hg, List.lookup_append, hdl]
    rw [show decVal ((some w).getD []) = n from hdec]
    cases hfi : (writtenFields T.ps hdr).lookup g with
    | none => cases (tableFields T.cols n rows).lookup g <;> rfl
    | some v =>
      rw [lookup_none_of]
      · rfl
      · intro hh
        have := tableFields_names hh
        rw [List.mem_append] at this
        rcases this with h | h
        · obtain ⟨c, hc, rfl⟩ := List.mem_map.1 h
          rw [hnone c hc _ (Or.inl rfl)] at hfi
          cases hfi
        · obtain ⟨c, hc, rfl⟩ := List.mem_map.1 h
          rw [hnone c hc _ (Or.inr rfl)] at hfi
          cases hfi
  · intro i o1 j1 o j h1 h2 ht _
    obtain ⟨k, h1⟩ := h1
    obtain ⟨l, h2⟩ := h2
    exact Loose.table_reads hT hw hfl ⟨_, _, _, _, h1.append h2, ht, rfl, rfl⟩

end Verif.A2l.Props
