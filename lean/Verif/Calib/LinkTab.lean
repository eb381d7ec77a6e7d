import Verif.Calib.LinkProps
import Verif.Calib.Props3

/-!
From the text of a conversion table to the converted value: C67.
-/

namespace Verif.Link
open Verif.Go Verif.A2l Lang ModSpec FileSpec Analysis Loose Decl Template

/-! ### Reading the text of a table -/

theorem scan_read {E : Env} {s j : Nat} {os : List ModSpec.Found} (h : Scan E s os j) :
    ∀ f ∈ os, ∃ K, kinds[f.kind]? = some K ∧ E.toks[f.pos]? = some K.tok ∧ Returns E K.parser f.pos (.ok f.stop f.val false) := by
  induction h with
  | stop => simp
  | skip _ _ _ _ _ ih => exact ih
  | @obj s e j n os K v ht hk hr hs ih =>
    intro f hf
    rcases List.mem_cons.1 hf with rfl | hf
    · exact ⟨K, hk, ht, hr⟩
    · exact ih f hf

theorem fillF_flag : ∀ (ps : List Param) (vs : List Val) (o : Obj), Names ps → vs.length = ps.length →
    ∀ p ∈ ps, (fillF ps vs o).flag p.flag = true
  | [], _, o, _, _, p, hp => by simp at hp
  | _ :: _, [], o, _, hl, p, hp => by simp at hl
  | q :: ps, v :: vs, o, hn, hl, p, hp => by
    rw [fillF]
    rcases List.mem_cons.1 hp with rfl | hp
    · have h1 := (List.nodup_cons.1 hn.flags).1
      have h2 : ∀ r ∈ ps, p.flag ≠ r.field := fun r hr hh => hn.disj r (by simp [hr]) (by simp [← hh])
      unfold Obj.flag
      rw [fillF_other ps vs _ (fun r hr => ⟨h2 r hr, fun hh => h1 (List.mem_map.2 ⟨r, hr, hh.symm⟩)⟩)]
      simp [Obj.set]
    · exact fillF_flag ps vs _ hn.tail (by simpa using hl) p hp

theorem readRows_other {T : Table} {f : String} (hf : ∀ c ∈ T.cols, f ≠ c.field ∧ f ≠ c.flag) :
    ∀ (l : List (List Val)) (o : Obj), l.foldl (readRow T) o f = o f := by
  intro l
  induction l with
  | nil => intro o; rfl
  | cons a l ih =>
    intro o
    rw [List.foldl_cons, ih]
    unfold readRow
    split
    · rfl
    · exact rowObj_other _ _ _ hf

/-- After the parameters and the rows: every parameter and every column has its value, the parameters are marked,
the columns are marked if as many rows were there as declared, all else is untouched. -/
structure AfterRows (T : Table) (vals : List Val) (rows : List (List Val)) (d : Nat) (o : Obj) : Prop where
  params : ∀ (k : Nat) (p : Param), T.ps[k]? = some p → vals[k]? = some (o p.field)
  cols : ∀ (k : Nat) (c : Col), T.cols[k]? = some c → o.list c.field = column k (rows.take (limit d))
  colsSet : ∀ c ∈ T.cols, o.flag c.flag = decide (limit d ≤ rows.length)
  paramsSet : ∀ p ∈ T.ps, o.flag p.flag = true
  others : ∀ f, (∀ c ∈ T.cols, f ≠ c.field ∧ f ≠ c.flag) → (∀ p ∈ T.ps, f ≠ p.field ∧ f ≠ p.flag) → o f = .zero

theorem table_upto {E : Env} {T : Table} (hT : T ∈ tableKinds)
    {hdr : List Str} {vals : List Val} (hh : Written E (T.ps.map (·.kind)) hdr vals) {d : Nat} (hd : vals.getLast? = some (.int d))
    (hd16 : d < 65536)
    {rows : List (List Str × List Val)} (hr : ∀ r ∈ rows, Written E (T.cols.map (·.kind)) r.1 r.2)
    (hword : ∀ t ∈ hdr ++ (rows.map (·.1)).flatten, Loose.Word t)
    {i : Nat} (hws : Props.Words E i (hdr ++ (rows.map (·.1)).flatten)) :
    ∃ (n : Nat) (o : Obj), Loose.Items E (Succeeds E) T.fin (T.spec E) n ⟨0, Obj.empty, i⟩
        ⟨T.ps.length, o, i + hdr.length + (rows.map (·.1)).flatten.length⟩ ∧ AfterRows T vals (rows.map (·.2)) d o := by
  have ok := tableKinds_ok T hT
  have hk : Keyed T.fin (T.spec E) := ⟨ok.fin, fun k hk => by
    simp only [Table.spec, List.mem_map] at hk
    obtain ⟨x, hx, rfl⟩ := hk
    exact ok.keys x hx⟩
  obtain ⟨hws1, hws2⟩ := words_append.1 hws
  have hlen := written_length hh
  simp only [List.length_map] at hlen
  have hps : (T.spec E).ps = T.ps := rfl
  have hp := params_items (R := Succeeds E) hk hdr vals 0 i Obj.empty (by omega) (by rw [hps]; simpa using hh)
    (fun t ht => hword t (by simp [ht])) hws1
  simp only [hps, List.drop_zero] at hp
  obtain ⟨k, hrows⟩ := rows_items (R := Succeeds E) hk ok.some rows (i + hdr.length) (fillF T.ps vals Obj.empty) hr
    (fun r hr' t ht => hword t (by
      simp only [List.mem_append, List.mem_flatten, List.mem_map]
      exact Or.inr ⟨r.1, ⟨r, hr', rfl⟩, ht⟩)) hws2
  refine ⟨_, _, hp.append hrows, ?_⟩
  have hget := fillF_get T.ps vals Obj.empty ok.ps hlen.2
  obtain ⟨q, hq, hqf, hqk⟩ := ok.last
  have hqi : T.ps[T.ps.length - 1]? = some q := by rw [← List.getLast?_eq_getElem?]; exact hq
  have hqv : vals[T.ps.length - 1]? = some (.int d) := by rw [← hd, List.getLast?_eq_getElem?, hlen.2]
  have hnum : fillF T.ps vals Obj.empty T.num = .int d := by
    have := hget _ q hqi
    rw [hqv, hqf] at this
    exact (Option.some.inj this).symm
  have hlim : limit d ≠ 0 := by unfold limit; split <;> omega
  have h0 : RowsRead T d 0 (fillF T.ps vals Obj.empty) := by
    have hoth : ∀ c ∈ T.cols, fillF T.ps vals Obj.empty c.field = Obj.empty c.field ∧
        fillF T.ps vals Obj.empty c.flag = Obj.empty c.flag := fun c hc =>
      ⟨fillF_other _ _ _ fun p hp => ⟨(ok.apart c hc p hp).1, (ok.apart c hc p hp).2.1⟩,
       fillF_other _ _ _ fun p hp => ⟨(ok.apart c hc p hp).2.2.1, (ok.apart c hc p hp).2.2.2⟩⟩
    refine ⟨by rw [Obj.int, hnum], fun c hc => by rw [Obj.list, (hoth c hc).1]; rfl, fun c hc => ?_, by omega⟩
    rw [Obj.flag, (hoth c hc).2]
    simp [Obj.empty, hlim.symm]
  have hrl : ∀ vs ∈ rows.map (·.2), vs.length = T.cols.length := by
    intro vs hvs
    obtain ⟨r, hr', rfl⟩ := List.mem_map.1 hvs
    simpa using (written_length (hr r hr')).2
  obtain ⟨hread, hcols⟩ := readRows_get ok.cols ok.some hd16 (rows.map (·.2)) 0 _ h0 hrl
  refine ⟨fun k p hkp => ?_, fun k c hkc => ?_, fun c hc => ?_, fun p hp => ?_, fun f hf1 hf2 => ?_⟩
  · rw [hget k p hkp]
    have hpm := List.mem_of_getElem? hkp
    rw [readRows_other fun c hc => ⟨fun hh => (ok.apart c hc p hpm).1 hh.symm, fun hh => (ok.apart c hc p hpm).2.2.1 hh.symm⟩]
  · rw [hcols k c hkc]
    have hcm := List.mem_of_getElem? hkc
    have : (fillF T.ps vals Obj.empty).list c.field = [] := List.eq_nil_of_length_eq_zero (h0.len c hcm)
    rw [this, List.nil_append, Nat.sub_zero]
  · rw [hread.flag c hc, List.length_map]
    congr 1
    apply propext
    omega
  · unfold Obj.flag
    rw [readRows_other fun c hc => ⟨fun hh => (ok.apart c hc p hp).2.1 hh.symm, fun hh => (ok.apart c hc p hp).2.2.2 hh.symm⟩]
    exact fillF_flag T.ps vals _ ok.ps hlen.2 p hp
  · rw [readRows_other hf1, fillF_other _ _ _ hf2]
    rfl

/-- The tokens of an optional default value. -/
def dvToks (key : Str) : Option (Str × Val) → List Str
  | none => []
  | some x => [key, x.1]

/-- An object that is a keyword with one value. -/
theorem one_reads {E : Env} (hw : Wf E) {q : PName} (hq : q ∉ irregular) {par : Param} (hsh : shape q = .one par)
    (hne : par.field ≠ par.flag) {i : Nat} {t : Str} {v : Val} (ht : TokAfter E i t) (hwd : Loose.Word t) (hv : Denotes E par.kind t v) :
    ∃ x : Obj, Returns E q i (.ok (i + 1) (.obj x) false) ∧ x par.field = v ∧ x.flag par.flag = true := by
  have htx : Text E (fin q) (shape q) i (i + 1) (Obj.empty.set par.field v) := by
    rw [hsh]
    exact ⟨.cons ht hwd.1 hwd.2 hv .nil, rfl⟩
  obtain ⟨x, h1, h2⟩ := Props.accepts_all_text hw hq htx
  refine ⟨x, h1, ?_, ?_⟩
  · rw [h2 par.field (by rw [hsh]; simpa [Shape.flags] using hne)]
    simp [Obj.set]
  · obtain ⟨r, o, m, hr, h3, _, _, h4, _⟩ := Props.C64_marks_partial hw hq h1
    cases hr
    rw [hsh] at h3 h4
    exact (h4 0 par rfl).2 (by rw [h3.1]; decide)

theorem table_text {E : Env} (hw : Wf E) (hfl : E.floatOk [] = false) {T : Table} (hT : T ∈ tableKinds)
    {hdr : List Str} {vals : List Val} (hh : Written E (T.ps.map (·.kind)) hdr vals) {d : Nat} (hd : vals.getLast? = some (.int d))
    (hd16 : d < 65536)
    {rows : List (List Str × List Val)} (hr : ∀ r ∈ rows, Written E (T.cols.map (·.kind)) r.1 r.2)
    (hword : ∀ t ∈ hdr ++ (rows.map (·.1)).flatten, Loose.Word t)
    {key : Str} {q : PName} {fld : String} {par : Param} (hsub : (key, Sub.obj q fld .field) ∈ T.subs) (hq : q ∉ irregular)
    (hsh : shape q = .one par) (hne : par.field ≠ par.flag)
    (hfc : ∀ c ∈ T.cols, fld ≠ c.field ∧ fld ≠ c.flag) (hfp : ∀ p ∈ T.ps, fld ≠ p.field ∧ fld ≠ p.flag)
    {dv : Option (Str × Val)} (hdv : ∀ x, dv = some x → Loose.Word x.1 ∧ Denotes E par.kind x.1 x.2)
    {i : Nat} (hws : Props.Words E i (hdr ++ (rows.map (·.1)).flatten ++ dvToks key dv ++ [T.fin])) :
    ∃ o o' : Obj, Returns E T.p i (.ok (i + hdr.length + (rows.map (·.1)).flatten.length + (dvToks key dv).length + 1) (.obj o') false) ∧
      AfterRows T vals (rows.map (·.2)) d o ∧ (∀ f, f ≠ fld → o' f = o f) ∧ (dv = none → o' fld = .zero) ∧
      ∀ x, dv = some x → ∃ y : Obj, o' fld = .obj y ∧ y par.field = x.2 ∧ y.flag par.flag = true := by
  obtain ⟨h1, hfin⟩ := words_append.1 hws
  obtain ⟨h1, h2⟩ := words_append.1 h1
  obtain ⟨n, o, hi, ha⟩ := table_upto hT hh hd hd16 hr hword h1
  have hfin := hfin 0 _ rfl
  simp only [List.length_append, Nat.add_zero] at hfin h2
  cases dv with
  | none =>
    simp only [dvToks, List.length_nil, Nat.add_zero] at hfin ⊢
    refine ⟨o, o, ?_, ha, fun _ _ => rfl, fun _ => ha.others _ hfc hfp, fun x hx => by cases hx⟩
    have := table_reads hT hw hfl ⟨_, _, _, _, hi, (by rw [Nat.add_assoc]; exact hfin), rfl, rfl⟩
    exact this
  | some x =>
    obtain ⟨t, v⟩ := x
    obtain ⟨hwd, hden⟩ := hdv _ rfl
    simp only [dvToks, List.length_cons, List.length_nil, Nat.zero_add, Nat.add_zero] at hfin h2 ⊢
    have hkey := h2 0 _ rfl
    have hval := h2 1 _ rfl
    simp only [Nat.add_zero] at hkey hval
    obtain ⟨y, hy1, hy2, hy3⟩ := one_reads hw hq hsh hne hval hwd hden
    refine ⟨o, o.set fld (.obj y), ?_, ha, fun f hf => by simp [Obj.set, hf], fun hx => (by cases hx), ?_⟩
    · have hi' : Loose.Items E (Succeeds E) T.fin (T.spec E) (n + 1) ⟨0, Obj.empty, i⟩
          ⟨T.ps.length, o.set fld (.obj y), i + (hdr.length + (rows.map (·.1)).flatten.length) + 1 + 1⟩ := by
        rw [show i + hdr.length + (rows.map (·.1)).flatten.length = i + (hdr.length + (rows.map (·.1)).flatten.length) by omega] at hi
        refine hi.append (.cons (.sub (t := key) ?_ hkey ⟨q, fld, .field, .obj y, hsub, hy1, rfl⟩) .nil)
        exact List.mem_map.2 ⟨_, hsub, rfl⟩
      have := table_reads hT hw hfl ⟨_, _, _, _, hi', (by
        rw [show i + (hdr.length + (rows.map (·.1)).flatten.length) + 1 + 1 =
          i + (hdr.length + (rows.map (·.1)).flatten.length + 2) by omega]
        exact hfin), rfl, rfl⟩
      rw [show i + hdr.length + (rows.map (·.1)).flatten.length + (0 + 1 + 1) + 1 =
        i + (hdr.length + (rows.map (·.1)).flatten.length) + 1 + 1 + 1 by omega]
      exact this
    · intro x hx
      cases hx
      exact ⟨y, by simp [Obj.set], hy2, hy3⟩

/-! ### C67: tables from the text to the value -/

/-- The first of the first `n` rows whose key is the number. -/
def firstRow (fv : Str → Rat) (dec : Rat) (rows : List (Str × Str)) : Option (Str × Str) :=
  rows.find? fun r => decide (fv r.1 = dec)

theorem lookup_find {α : Type} (fv : Str → Rat) (dec : Rat) (g : Str → α) (rows pre : List (Str × Str)) :
    Calib.lookupLoop dec ((pre ++ rows).map fun r => g r.2) (rows.map fun r => fv r.1) pre.length =
      (firstRow fv dec rows).map fun r => .ok (g r.2) := by
  induction rows generalizing pre with
  | nil => rfl
  | cons r rows ih =>
    simp only [List.map_cons, Calib.lookupLoop, firstRow, List.find?_cons]
    by_cases h : fv r.1 = dec
    · rw [if_pos h.symm]
      simp [h, index_get, Calib.orPanic]
    · rw [if_neg (fun hh => h hh.symm)]
      simp only [h, decide_false]
      have := ih (pre ++ [r])
      simp only [List.append_assoc, List.singleton_append, List.length_append, List.length_singleton] at this
      exact this

theorem column_pairs {α : Type} (rows : List α) (g : α → List Val) (k : Nat) (h : α → Val)
    (hg : ∀ r, (g r)[k]? = some (h r)) (n : Nat) : column k ((rows.map g).take n) = (rows.take n).map h := by
  rw [← List.map_take]
  unfold column
  induction rows.take n with
  | nil => rfl
  | cons r l ih => simp [hg, ih]

theorem limit_is {n N : Nat} (h : N = if n = 0 then 65536 else n) : limit n = N := h.symm

/-- The value of the object found at a position. -/
theorem found_val {E : Env} {s j : Nat} {os : List ModSpec.Found} (hsc : Scan E s os j) {f : ModSpec.Found} (hf : f ∈ os) {K : ModSpec.Kind}
    (hk : kinds[f.kind]? = some K) {e : Nat} {v : Val} (hr : Returns E K.parser f.pos (.ok e v false)) : f.val = v := by
  obtain ⟨K', h1, _, h2⟩ := scan_read hsc f hf
  rw [hk] at h1
  cases h1
  have := h2.unique hr
  simp only [PRes.ok.injEq] at this
  exact this.2.1

/-- The text of a COMPU_VTAB after the position `i`. -/
structure VerbText (E : Env) (i : Nat) (name long conv num : Str) (n : Nat) (rows : List (Str × Str)) (dv : Option Str) : Prop where
  text : Props.Words E i ([name, long, conv, num] ++ (rows.map fun r => [r.1, r.2]).flatten ++
    (match dv with | none => [] | some t => [(str! "DEFAULT_VALUE"), t]) ++ [(str! "/end COMPU_VTAB")])
  words : ∀ t ∈ [name, long, conv, num] ++ (rows.map fun r => [r.1, r.2]).flatten, Loose.Word t
  dword : ∀ t, dv = some t → Loose.Word t
  isConv : ∃ c, (conv, c) ∈ parseConversionTypeEnum.table
  isNum : IsNat num n ∧ n < 2 ^ 16
  keys : ∀ r ∈ rows, E.floatOk r.1 = true

/-- C67 for verbal tables: the text of the first row with the number; if there is none, the default value of the table,
otherwise an error. Only the first `N` rows count, where `N` is the declared number of rows (65536 if 0 is declared, see C48); a table with
fewer rows is accepted but gives errors only. -/
theorem C67_verbal_partial {E : Env} (hw : Wf E) (hfl : E.floatOk [] = false) {s j : Nat} {os : List ModSpec.Found} (hsc : Scan E s os j)
    {fv : Str → Rat} {cd : Calib.CalData Val} (hu : Uses fv cd os) {f : ModSpec.Found} (hf : f ∈ os) (hkind : f.kind = 6)
    {name long conv num : Str} {n : Nat} {rows : List (Str × Str)} {dv : Option Str}
    (ht : VerbText E f.pos name long conv num n rows dv) {N : Nat} (hn : N = if n = 0 then 65536 else n) (hlast : lastNamed os 6 name = some f.val) (dec : Rat) :
    Calib.calcTabVerb dec name cd =
      if N ≤ rows.length then
        match firstRow fv dec (rows.take N) with
        | some r => .ok r.2
        | none => match dv with
          | some t => .ok t
          | none => .err
      else .err := by
  obtain ⟨o, o', hret, ha, hsame, hd0, hd1⟩ := table_text hw hfl (T := Loose.compuVtab) (i := f.pos) (by simp [tableKinds])
    (hdr := [name, long, conv, num]) (vals := [.str name, .str long, .str conv, .int n]) (d := n)
    (.cons rfl (.cons rfl (.cons ⟨ht.isConv, rfl⟩ (.cons ⟨n, ht.isNum.1, ht.isNum.2, rfl⟩ .nil)))) rfl ht.isNum.2
    (rows := rows.map fun r => ([r.1, r.2], [.flt r.1, .str r.2]))
    (by
      intro r hr
      obtain ⟨x, hx, rfl⟩ := List.mem_map.1 hr
      exact .cons ⟨ht.keys x hx, rfl⟩ (.cons rfl .nil))
    (by simpa [List.map_map, Function.comp_def] using ht.words)
    (key := (str! "DEFAULT_VALUE")) (q := .parseDefaultValue) (fld := "DefaultValue")
    (par := ⟨"DisplayString", "DisplayStringSet", .str⟩) (by simp [Loose.compuVtab]) (by decide) rfl (by decide)
    (by decide) (by decide) (dv := dv.map fun t => (t, .str t))
    (by
      intro x hx
      cases hdv : dv with
      | none => rw [hdv] at hx; cases hx
      | some t => rw [hdv] at hx; cases hx; exact ⟨ht.dword t hdv, rfl⟩)
    (by
      have := ht.text
      cases dv <;> simpa [List.map_map, Function.comp_def, dvToks, Loose.compuVtab] using this)
  have hval := found_val hsc hf (by rw [hkind]; rfl) hret
  rw [hval] at hlast
  obtain ⟨mo, h1, h2, _⟩ := hu
  have hmap : (module fv mo).compuVTabs name = some (compuVTab fv o') := by
    show (Obj.map mo "CompuVTabs" name).map _ = _
    have := h2 6 _ _ rfl rfl name
    simp only at this
    rw [this, hlast]
    rfl
  have hin : (compuVTab fv o').inVal = (rows.take N).map fun r => fv r.1 := by
    show (Obj.list o' "InVal").map _ = _
    have := ha.cols 0 _ rfl
    simp only [Obj.list] at this ⊢
    rw [hsame _ (by decide), this, limit_is hn]
    simp only [List.map_map, Function.comp_def]
    rw [column_pairs rows (fun r => [.flt r.1, .str r.2]) 0 (fun r => .flt r.1) (fun _ => rfl)]
    simp [Function.comp_def, number]
  have hout : (compuVTab fv o').outVal = (rows.take N).map fun r => r.2 := by
    show (Obj.list o' "OutVal").map _ = _
    have := ha.cols 1 _ rfl
    simp only [Obj.list] at this ⊢
    rw [hsame _ (by decide), this, limit_is hn]
    simp only [List.map_map, Function.comp_def]
    rw [column_pairs rows (fun r => [.flt r.1, .str r.2]) 1 (fun r => .str r.2) (fun _ => rfl)]
    simp [Function.comp_def, text]
  have hset : (compuVTab fv o').inValSet = decide (N ≤ rows.length) ∧ (compuVTab fv o').outValSet = decide (N ≤ rows.length) := by
    have a := ha.colsSet ⟨"InVal", "InValSet", .float⟩ (by simp [Loose.compuVtab])
    have b := ha.colsSet ⟨"OutVal", "OutValSet", .str⟩ (by simp [Loose.compuVtab])
    simp only [limit_is hn, List.length_map] at a b
    constructor
    · show Obj.flag o' "InValSet" = _
      rw [← a]
      unfold Obj.flag
      rw [hsame _ (by decide)]
    · show Obj.flag o' "OutValSet" = _
      rw [← b]
      unfold Obj.flag
      rw [hsame _ (by decide)]
  have hdef : (compuVTab fv o').defaultValue = dv := by
    show optStr (inner o' "DefaultValue") "DisplayString" "DisplayStringSet" = _
    cases dv with
    | none =>
      unfold inner
      rw [hd0 rfl]
      rfl
    | some t =>
      obtain ⟨y, g1, g2, g3⟩ := hd1 _ rfl
      unfold inner optStr
      rw [g1]
      simp only at g2 g3 ⊢
      rw [if_pos g3]
      unfold Obj.str
      rw [g2]
  unfold Calib.calcTabVerb
  rw [h1]
  simp only [hmap, hin, hout, hset.1, hset.2, hdef, Bool.and_self, decide_eq_true_eq]
  split
  · have := lookup_find (α := Str) fv dec id (rows.take N) []
    simp only [List.nil_append, List.length_nil, id] at this
    rw [this]
    cases firstRow fv dec (rows.take N) with
    | none => cases dv <;> rfl
    | some r => rfl
  · rfl

/-- The text of a COMPU_TAB after the position `i`. -/
structure NumText (E : Env) (i : Nat) (name long conv num : Str) (n : Nat) (rows : List (Str × Str)) (dv : Option Str) : Prop where
  text : Props.Words E i ([name, long, conv, num] ++ (rows.map fun r => [r.1, r.2]).flatten ++
    (match dv with | none => [] | some t => [(str! "DEFAULT_VALUE_NUMERIC"), t]) ++ [(str! "/end COMPU_TAB")])
  words : ∀ t ∈ [name, long, conv, num] ++ (rows.map fun r => [r.1, r.2]).flatten, Loose.Word t
  dword : ∀ t, dv = some t → Loose.Word t ∧ E.floatOk t = true
  isConv : ∃ c, (conv, c) ∈ parseConversionTypeEnum.table
  isNum : IsNat num n ∧ n < 2 ^ 16
  keys : ∀ r ∈ rows, E.floatOk r.1 = true ∧ E.floatOk r.2 = true

/-- What the fields of an accepted COMPU_TAB are. -/
theorem num_fields {E : Env} (hw : Wf E) (hfl : E.floatOk [] = false) {i : Nat} {name long conv num : Str} {n : Nat}
    {rows : List (Str × Str)} {dv : Option Str} (ht : NumText E i name long conv num n rows dv) {N : Nat} (hn : N = if n = 0 then 65536 else n) :
    ∃ (e : Nat) (o : Obj), Returns E .parseCompuTab i (.ok e (.obj o) false) ∧
      o.list "InVal" = (rows.take N).map (fun r => .flt r.1) ∧ o.list "OutVal" = (rows.take N).map (fun r => .flt r.2) ∧
      o.flag "InValSet" = decide (N ≤ rows.length) ∧ o.flag "OutValSet" = decide (N ≤ rows.length) ∧
      match dv with
      | none => inner o "DefaultValueNumeric" = Obj.empty
      | some t => (inner o "DefaultValueNumeric") "DisplayValue" = .flt t ∧ (inner o "DefaultValueNumeric").flag "DisplayValueSet" = true := by
  obtain ⟨o, o', hret, ha, hsame, hd0, hd1⟩ := table_text hw hfl (T := Loose.compuTab) (i := i) (by simp [tableKinds])
    (hdr := [name, long, conv, num]) (vals := [.str name, .str long, .str conv, .int n]) (d := n)
    (.cons rfl (.cons rfl (.cons ⟨ht.isConv, rfl⟩ (.cons ⟨n, ht.isNum.1, ht.isNum.2, rfl⟩ .nil)))) rfl ht.isNum.2
    (rows := rows.map fun r => ([r.1, r.2], [.flt r.1, .flt r.2]))
    (by
      intro r hr
      obtain ⟨x, hx, rfl⟩ := List.mem_map.1 hr
      exact .cons ⟨(ht.keys x hx).1, rfl⟩ (.cons ⟨(ht.keys x hx).2, rfl⟩ .nil))
    (by simpa [List.map_map, Function.comp_def] using ht.words)
    (key := (str! "DEFAULT_VALUE_NUMERIC")) (q := .parseDefaultValueNumeric) (fld := "DefaultValueNumeric")
    (par := ⟨"DisplayValue", "DisplayValueSet", .float⟩) (by simp [Loose.compuTab]) (by decide) rfl (by decide)
    (by decide) (by decide) (dv := dv.map fun t => (t, .flt t))
    (by
      intro x hx
      cases hdv : dv with
      | none => rw [hdv] at hx; cases hx
      | some t => rw [hdv] at hx; cases hx; exact ⟨(ht.dword t hdv).1, (ht.dword t hdv).2, rfl⟩)
    (by
      have := ht.text
      cases dv <;> simpa [List.map_map, Function.comp_def, dvToks, Loose.compuTab] using this)
  refine ⟨_, o', hret, ?_, ?_, ?_, ?_, ?_⟩
  · have := ha.cols 0 _ rfl
    simp only [Obj.list] at this ⊢
    rw [hsame _ (by decide), this, limit_is hn]
    simp only [List.map_map, Function.comp_def]
    rw [column_pairs rows (fun r => [.flt r.1, .flt r.2]) 0 (fun r => .flt r.1) (fun _ => rfl)]
  · have := ha.cols 1 _ rfl
    simp only [Obj.list] at this ⊢
    rw [hsame _ (by decide), this, limit_is hn]
    simp only [List.map_map, Function.comp_def]
    rw [column_pairs rows (fun r => [.flt r.1, .flt r.2]) 1 (fun r => .flt r.2) (fun _ => rfl)]
  · have a := ha.colsSet ⟨"InVal", "InValSet", .float⟩ (by simp [Loose.compuTab])
    simp only [limit_is hn, List.length_map] at a
    rw [← a]
    unfold Obj.flag
    rw [hsame _ (by decide)]
  · have b := ha.colsSet ⟨"OutVal", "OutValSet", .float⟩ (by simp [Loose.compuTab])
    simp only [limit_is hn, List.length_map] at b
    rw [← b]
    unfold Obj.flag
    rw [hsame _ (by decide)]
  · cases dv with
    | none =>
      simp only
      unfold inner
      rw [hd0 rfl]
    | some t =>
      obtain ⟨y, g1, g2, g3⟩ := hd1 _ rfl
      unfold inner
      rw [g1]
      exact ⟨g2, g3⟩

/-- C67 for numeric tables without interpolation: the number beside the first row with the key; if there is none (or
the table has fewer rows than declared, or than 65536 if 0 is declared), the default value of the table, otherwise an error. -/
theorem C67_numeric_partial {E : Env} (hw : Wf E) (hfl : E.floatOk [] = false) {s j : Nat} {os : List ModSpec.Found} (hsc : Scan E s os j)
    {fv : Str → Rat} {cd : Calib.CalData Val} (hu : Uses fv cd os) {f : ModSpec.Found} (hf : f ∈ os) (hkind : f.kind = 5)
    {name long conv num : Str} {n : Nat} {rows : List (Str × Str)} {dv : Option Str}
    (ht : NumText E f.pos name long conv num n rows dv) {N : Nat} (hn : N = if n = 0 then 65536 else n) (hlast : lastNamed os 5 name = some f.val)
    {cm : Calib.CompuMethod} (hcm : cm.compuTabRef = name) (dec : Rat) :
    Calib.calcTabNoIntp dec cm cd =
      match (if N ≤ rows.length then firstRow fv dec (rows.take N) else none) with
      | some r => .ok (fv r.2)
      | none => match dv with
        | some t => .ok (fv t)
        | none => .err := by
  obtain ⟨e, o', hret, hin, hout, hset1, hset2, hd⟩ := num_fields hw hfl ht hn
  have hval := found_val hsc hf (by rw [hkind]; rfl) hret
  rw [hval] at hlast
  obtain ⟨mo, h1, h2, _⟩ := hu
  have hmap : (module fv mo).compuTabs name = some (compuTab fv o') := by
    show (Obj.map mo "CompuTabs" name).map _ = _
    have := h2 5 _ _ rfl rfl name
    simp only at this
    rw [this, hlast]
    rfl
  have hin : (compuTab fv o').inVal = (rows.take N).map fun r => fv r.1 := by
    show (Obj.list o' "InVal").map _ = _
    rw [hin, List.map_map]
    rfl
  have hout : (compuTab fv o').outVal = (rows.take N).map fun r => fv r.2 := by
    show (Obj.list o' "OutVal").map _ = _
    rw [hout, List.map_map]
    rfl
  have hset : (compuTab fv o').inValSet = decide (N ≤ rows.length) ∧ (compuTab fv o').outValSet = decide (N ≤ rows.length) := ⟨hset1, hset2⟩
  have hdef : (compuTab fv o').defaultValue = dv.map fv := by
    show optNum fv (inner o' "DefaultValueNumeric") "DisplayValue" "DisplayValueSet" = _
    unfold optNum
    cases dv with
    | none => rw [hd]; rfl
    | some t => rw [if_pos hd.2, hd.1]; rfl
  unfold Calib.calcTabNoIntp
  rw [h1]
  simp only [hcm, hmap, hin, hout, hset.1, hset.2, hdef, Bool.and_self, decide_eq_true_eq, Option.getD_some]
  split
  · have := lookup_find fv dec fv (rows.take N) []
    simp only [List.nil_append, List.length_nil] at this
    rw [this]
    cases firstRow fv dec (rows.take N) with
    | none => cases dv <;> rfl
    | some r => rfl
  · cases dv <;> rfl

/-- The text of a COMPU_VTAB_RANGE after the position `i`. -/
structure RangeText (E : Env) (i : Nat) (name long num : Str) (n : Nat) (rows : List (Str × Str × Str)) (dv : Option Str) : Prop where
  text : Props.Words E i ([name, long, num] ++ (rows.map fun r => [r.1, r.2.1, r.2.2]).flatten ++
    (match dv with | none => [] | some t => [(str! "DEFAULT_VALUE"), t]) ++ [(str! "/end COMPU_VTAB_RANGE")])
  words : ∀ t ∈ [name, long, num] ++ (rows.map fun r => [r.1, r.2.1, r.2.2]).flatten, Loose.Word t
  dword : ∀ t, dv = some t → Loose.Word t
  isNum : IsNat num n ∧ n < 2 ^ 16
  keys : ∀ r ∈ rows, E.floatOk r.1 = true ∧ E.floatOk r.2.1 = true

/-- What the code does with every range table: whatever the rows say, a table with at least the declared number of rows gives
its default value (an error if it has none), and a table with fewer rows, which is accepted, crashes the conversion. -/
theorem C67_range_exact {E : Env} (hw : Wf E) (hfl : E.floatOk [] = false) {s j : Nat} {os : List ModSpec.Found} (hsc : Scan E s os j)
    {fv : Str → Rat} {cd : Calib.CalData Val} (hu : Uses fv cd os) {f : ModSpec.Found} (hf : f ∈ os) (hkind : f.kind = 7)
    {name long num : Str} {n : Nat} {rows : List (Str × Str × Str)} {dv : Option Str}
    (ht : RangeText E f.pos name long num n rows dv)
    (hlast : lastNamed os 7 name = some f.val) (dec : Rat) :
    Calib.calcTabVerbRange dec name cd =
      if n ≤ rows.length then
        match dv with
        | some t => .ok t
        | none => .err
      else .panic := by
  obtain ⟨o, o', hret, ha, hsame, hd0, hd1⟩ := table_text hw hfl (T := Loose.compuVtabRange) (i := f.pos) (by simp [tableKinds])
    (hdr := [name, long, num]) (vals := [.str name, .str long, .int n]) (d := n)
    (.cons rfl (.cons rfl (.cons ⟨n, ht.isNum.1, ht.isNum.2, rfl⟩ .nil))) rfl ht.isNum.2
    (rows := rows.map fun r => ([r.1, r.2.1, r.2.2], [.flt r.1, .flt r.2.1, .str r.2.2]))
    (by
      intro r hr
      obtain ⟨x, hx, rfl⟩ := List.mem_map.1 hr
      exact .cons ⟨(ht.keys x hx).1, rfl⟩ (.cons ⟨(ht.keys x hx).2, rfl⟩ (.cons rfl .nil)))
    (by simpa [List.map_map, Function.comp_def] using ht.words)
    (key := (str! "DEFAULT_VALUE")) (q := .parseDefaultValue) (fld := "DefaultValue")
    (par := ⟨"DisplayString", "DisplayStringSet", .str⟩) (by simp [Loose.compuVtabRange]) (by decide) rfl (by decide)
    (by decide) (by decide) (dv := dv.map fun t => (t, .str t))
    (by
      intro x hx
      cases hdv : dv with
      | none => rw [hdv] at hx; cases hx
      | some t => rw [hdv] at hx; cases hx; exact ⟨ht.dword t hdv, rfl⟩)
    (by
      have := ht.text
      cases dv <;> simpa [List.map_map, Function.comp_def, dvToks, Loose.compuVtabRange] using this)
  have hval := found_val hsc hf (by rw [hkind]; rfl) hret
  rw [hval] at hlast
  obtain ⟨mo, h1, h2, _⟩ := hu
  have hmap : (module fv mo).compuVTabRanges name = some (compuVTabRange fv o') := by
    show (Obj.map mo "CompuVTabRanges" name).map _ = _
    have := h2 7 _ _ rfl rfl name
    simp only at this
    rw [this, hlast]
    rfl
  have hlen : (compuVTabRange fv o').inValMin.length = min rows.length (limit n) := by
    show ((Obj.list o' "InValMin").map _).length = _
    have := ha.cols 0 _ rfl
    simp only [Obj.list] at this ⊢
    rw [hsame _ (by decide), this, List.length_map]
    simp only [List.map_map, Function.comp_def]
    rw [column_pairs rows (fun r => [.flt r.1, .flt r.2.1, .str r.2.2]) 0 (fun r => .flt r.1) (fun _ => rfl)]
    simp [Nat.min_comm]
  have hnum : (compuVTabRange fv o').numberValueTriples = some n := by
    show optNat o' "NumberValueTriples" "NumberValueTriplesSet" = _
    have a := ha.params 2 _ rfl
    have b := ha.paramsSet ⟨"NumberValueTriples", "NumberValueTriplesSet", .uint 16⟩ (by simp [Loose.compuVtabRange])
    simp only at a b
    unfold optNat Obj.flag Obj.int
    unfold Obj.flag at b
    rw [hsame _ (by decide), hsame _ (by decide), if_pos b, ← Option.some.inj a]
    rfl
  have hdef : (compuVTabRange fv o').defaultValue = dv := by
    show optStr (inner o' "DefaultValue") "DisplayString" "DisplayStringSet" = _
    cases dv with
    | none =>
      unfold inner
      rw [hd0 rfl]
      rfl
    | some t =>
      obtain ⟨y, g1, g2, g3⟩ := hd1 _ rfl
      unfold inner optStr
      rw [g1]
      simp only at g2 g3 ⊢
      rw [if_pos g3]
      unfold Obj.str
      rw [g2]
  have hlim : n ≤ limit n ∧ (n = 0 ∨ limit n = n) := by unfold limit; have := ht.isNum.2; split <;> omega
  by_cases hle : n ≤ rows.length
  · rw [if_pos hle]
    unfold Calib.calcTabVerbRange
    rw [h1]
    simp only [hmap, hnum, hdef]
    rw [Calib.Props.rangeLoop_none dec _ n 0 (by rw [hlen]; omega)]
    cases dv <;> rfl
  · rw [if_neg hle]
    refine Calib.Props.C43_short_table_crash cd _ name _ n dec ?_ hmap hnum (by rw [hlen]; omega)
    rw [← h1]
    unfold Calib.CalData.module?
    rw [index_get]

/-- What one expects of a range table that has the declared number of rows: the text of the row whose range contains
the value. -/
def C67_range_full : Prop := ∀ (E : Env), Wf E → E.floatOk [] = false → ∀ (s j : Nat) (os : List ModSpec.Found), Scan E s os j →
  ∀ (fv : Str → Rat) (cd : Calib.CalData Val), Uses fv cd os → ∀ f ∈ os, f.kind = 7 →
  ∀ (name long num : Str) (n : Nat) (rows : List (Str × Str × Str)) (dv : Option Str), RangeText E f.pos name long num n rows dv →
  n ≤ rows.length → lastNamed os 7 name = some f.val → ∀ (dec : Rat) (r : Str × Str × Str),
    (rows.take n).find? (fun r => decide (fv r.1 ≤ dec ∧ dec ≤ fv r.2.1)) = some r →
    Calib.calcTabVerbRange dec name cd = .ok r.2.2

/-! ### The example file -/

/-- The object of kind `n` between two positions of the example file. -/
def found (i e n : Nat) : ModSpec.Found :=
  ⟨i, e, n, match kinds[n]? with
    | some K => (match A2l.parse demo K.parser i with | .ok _ v _ => v | _ => .zero)
    | none => .zero⟩

theorem scan_step {s e j n : Nat} {K : ModSpec.Kind} {os : List ModSpec.Found} (h1 : demo.toks[s + 1]? = some K.tok) (h2 : kinds[n]? = some K)
    (h3 : (match A2l.parse demo K.parser (s + 1) with | .ok j _ b => some (j, b) | _ => none) = some (e, false))
    (h : Scan demo e os j) : Scan demo s (found (s + 1) e n :: os) j := by
  unfold found
  rw [h2]
  simp only
  split at h3
  · rename_i j v b hh
    simp only [Option.some.injEq, Prod.mk.injEq] at h3
    obtain ⟨rfl, rfl⟩ := h3
    exact .obj h1 h2 (returns_of_run hh (by simp)) h
  · cases h3

/-- The objects of the example file. -/
def demoOs : List ModSpec.Found := [
  found 9 15 14,
  found 16 21 15,
  found 22 31 4,
  found 32 45 4,
  found 46 54 4,
  found 55 66 5,
  found 67 76 6,
  found 77 84 7,
  found 85 92 7,
  found 93 105 16]

theorem demo_scan : Scan demo 8 demoOs 106 :=
    (scan_step (n := 14) (e := 15) rfl rfl (by decide +kernel)
    (scan_step (n := 15) (e := 21) rfl rfl (by decide +kernel)
    (scan_step (n := 4) (e := 31) rfl rfl (by decide +kernel)
    (scan_step (n := 4) (e := 45) rfl rfl (by decide +kernel)
    (scan_step (n := 4) (e := 54) rfl rfl (by decide +kernel)
    (scan_step (n := 5) (e := 66) rfl rfl (by decide +kernel)
    (scan_step (n := 6) (e := 76) rfl rfl (by decide +kernel)
    (scan_step (n := 7) (e := 84) rfl rfl (by decide +kernel)
    (scan_step (n := 7) (e := 92) rfl rfl (by decide +kernel)
    (scan_step (n := 16) (e := 105) rfl rfl (by decide +kernel)
    (.stop rfl)))))))))))

/-- The objects of the example file are the ones in use after it was read. -/
theorem demo_uses : Uses demoFv demoCd demoOs := by
  obtain ⟨ms, hm⟩ := file_modules demo_wf demo_seq demo_returns
  have hz : demoObj "Project" ≠ .zero := by
    have : (match demoObj "Project" with | .zero => false | _ => true) = true := by decide +kernel
    intro h
    rw [h] at this
    cases this
  rcases hm with ⟨h, _⟩ | ⟨a, b, _, hm⟩
  · exact absurd h hz
  · have hl : ms.length = 1 := by
      have := congrArg List.length hm.vals
      rw [List.length_map] at this
      rw [← this]
      decide +kernel
    obtain ⟨m, rfl⟩ := List.length_eq_one_iff.1 hl
    have h6 := (hm.ends m (by simp)).1
    have hpos : m.pos = 6 := by
      have hlt := (List.getElem?_eq_some_iff.1 h6).1
      have : ∀ k, k < demo.toks.length → demo.toks[k]? = some (str! "/begin MODULE") → k = 6 := by decide +kernel
      exact this _ hlt h6
    obtain ⟨os, h1, h2⟩ := uses_module (fv := demoFv) (mi := 0) hm (fun _ => none) rfl ⟨by
      rw [hpos]
      intro t ht
      cases (show demo.toks[7]? = some (str! "m") from rfl).symm.trans ht
      exact ⟨fun ⟨K, h, e⟩ => (show ∀ K ∈ kinds, K.tok ≠ (str! "m") by decide +kernel) K h e, by decide⟩, by
      rw [hpos]
      intro t ht
      cases (show demo.toks[8]? = some (str! "\"\"") from rfl).symm.trans ht
      exact ⟨fun ⟨K, h, e⟩ => (show ∀ K ∈ kinds, K.tok ≠ (str! "\"\"") by decide +kernel) K h e, by decide⟩⟩
    rw [hpos] at h1
    rw [← (scan_unique h1 demo_scan).1]
    exact h2

theorem words_of {E : Env} {i : Nat} {ws : List Str} (h : (E.toks.drop (i + 1)).take ws.length = ws) : Props.Words E i ws := by
  intro j w hj
  have hl := (List.getElem?_eq_some_iff.1 hj).1
  rw [← h, List.getElem?_take, if_pos hl, List.getElem?_drop] at hj
  unfold TokAfter
  rw [← hj]
  congr 1
  omega

theorem is_enum {t : Str} {l : List (Str × Str)} (h : t ∈ l.map (·.1)) : ∃ c, (t, c) ∈ l := by
  obtain ⟨x, hx, rfl⟩ := List.mem_map.1 h
  exact ⟨x.2, hx⟩

theorem demo_verb : VerbText demo 67 (str! "gear") (str! "\"\"") (str! "TAB_VERB") (str! "2") 2
    [((str! "0"), (str! "\"off\"")), ((str! "1"), (str! "\"on\""))] none where
  words := by decide +kernel
  dword := by simp
  isConv := is_enum (by decide +kernel)
  isNum := ⟨⟨by decide, by simp [IsDigit], rfl⟩, by decide⟩
  keys := by decide +kernel
  text := words_of (by decide +kernel)

theorem demo_num : NumText demo 55 (str! "tab") (str! "\"\"") (str! "TAB_NOINTP") (str! "2") 2
    [((str! "1"), (str! "4")), ((str! "2"), (str! "9"))] (some (str! "8")) where
  words := by decide +kernel
  dword := by intro t h; cases h; decide +kernel
  isConv := is_enum (by decide +kernel)
  isNum := ⟨⟨by decide, by simp [IsDigit], rfl⟩, by decide⟩
  keys := by decide +kernel
  text := words_of (by decide +kernel)

theorem demo_range : RangeText demo 85 (str! "vs") (str! "\"\"") (str! "1") 1
    [((str! "0"), (str! "5"), (str! "\"low\""))] none where
  words := by decide +kernel
  dword := by simp
  isNum := ⟨⟨by decide, by simp [IsDigit], rfl⟩, by decide⟩
  keys := by decide +kernel
  text := words_of (by decide +kernel)

theorem demo_short : RangeText demo 77 (str! "vr") (str! "\"\"") (str! "2") 2
    [((str! "0"), (str! "5"), (str! "\"low\""))] none where
  words := by decide +kernel
  dword := by simp
  isNum := ⟨⟨by decide, by simp [IsDigit], rfl⟩, by decide⟩
  keys := by decide +kernel
  text := words_of (by decide +kernel)

theorem lastNamed_of {a b : List ModSpec.Found} {f : ModSpec.Found} {n : Nat} {name : Str} (h1 : f.kind = n ∧ f.name = name)
    (h2 : ∀ g ∈ b, ¬ (g.kind = n ∧ g.name = name)) : lastNamed (a ++ f :: b) n name = some f.val := by
  have hb : b.filter (fun f => decide (f.kind = n ∧ f.name = name)) = [] := by
    rw [List.filter_eq_nil_iff]
    intro g hg
    simpa using h2 g hg
  unfold lastNamed
  rw [List.filter_append, List.filter_cons_of_pos (by simpa using h1), hb]
  simp

/-- C67 is false: the example file is accepted, its table `vs` says that 0 to 5 mean "low", and the conversion of 3
is an error. -/
theorem C67_range_false : ¬ C67_range_full := by
  intro h
  have hl : lastNamed demoOs 7 (str! "vs") = some (found 85 92 7).val :=
    lastNamed_of (a := demoOs.take 8) (b := demoOs.drop 9) (by decide +kernel) (by decide +kernel)
  have h1 := h demo demo_wf rfl 8 106 demoOs demo_scan demoFv demoCd demo_uses (found 85 92 7) (by simp [demoOs]) rfl _ _ _ _ _ _
    demo_range (by decide) hl 3 ((str! "0"), (str! "5"), (str! "\"low\"")) (by decide +kernel)
  rw [C67_range_exact demo_wf rfl demo_scan demo_uses (f := found 85 92 7) (by simp [demoOs]) rfl demo_range hl] at h1
  cases h1

/-- The table `vr` of the accepted example file has fewer rows than it declares: the conversion crashes. -/
theorem C67_range_crash : Returns demo .parseA2l 0 (.ok 108 (.obj demoObj) false) ∧
    Calib.calcTabVerbRange 3 (str! "vr") demoCd = .panic := by
  refine ⟨demo_returns, ?_⟩
  rw [C67_range_exact demo_wf rfl demo_scan demo_uses (f := found 77 84 7) (by simp [demoOs]) rfl demo_short
    (lastNamed_of (a := demoOs.take 7) (b := demoOs.drop 8) (by decide +kernel) (by decide +kernel))]
  rfl

/-- Non-vacuity of `C67_verbal_partial`: in the example file 1 means "on", 3 means nothing. -/
example : Calib.calcTabVerb 1 (str! "gear") demoCd = .ok (str! "\"on\"") ∧ Calib.calcTabVerb 3 (str! "gear") demoCd = .err := by
  have hl : lastNamed demoOs 6 (str! "gear") = some (found 67 76 6).val :=
    lastNamed_of (a := demoOs.take 6) (b := demoOs.drop 7) (by decide +kernel) (by decide +kernel)
  have := fun dec => C67_verbal_partial demo_wf rfl demo_scan demo_uses (f := found 67 76 6) (by simp [demoOs]) rfl demo_verb (N := 2) (by decide) hl dec
  constructor
  · rw [this]
    decide +kernel
  · rw [this]
    decide +kernel

/-- Non-vacuity of `C67_numeric_partial`: in the example file 2 becomes 9, 3 the default value 8. -/
example : Calib.calcTabNoIntp 2 { compuTabRef := (str! "tab") } demoCd = .ok 9 ∧
    Calib.calcTabNoIntp 3 { compuTabRef := (str! "tab") } demoCd = .ok 8 := by
  have hl : lastNamed demoOs 5 (str! "tab") = some (found 55 66 5).val :=
    lastNamed_of (a := demoOs.take 5) (b := demoOs.drop 6) (by decide +kernel) (by decide +kernel)
  have := fun dec (cm : Calib.CompuMethod) h =>
    C67_numeric_partial demo_wf rfl demo_scan demo_uses (f := found 55 66 5) (by simp [demoOs]) rfl demo_num (N := 2) (by decide) hl (cm := cm) h dec
  constructor
  · rw [this _ _ rfl]
    decide +kernel
  · rw [this _ _ rfl]
    decide +kernel

end Verif.Link
