import Verif.Calib.LinkConv
import Verif.Calib.ParseFloatProps

/-!
C88: from the text of a conversion method to the converted value, in `float64` arithmetic. Here `E.floatOk` is no parameter
any more: it is `strconv.ParseFloat` that accepts a token.
-/

namespace Verif.Calib.Spec
open Verif.Go

/-- The token `t` is read as `x`: it is the name of the special value `x`, or the number nearest to the written one. Numbers of
2000 or more digits and with an exponent of more than five digits are not covered. -/
def ReadsAs (t : Str) (x : F64) : Prop :=
  Named t x ∨ ∃ neg hex ds fs e, Number t neg hex ds fs e ∧
    (Moderate ds fs e → (∃ n, x = .fin neg n) ∧ Rounds (written neg hex ds fs e) x)

end Verif.Calib.Spec

namespace Verif.Link
open Verif.Go Verif.A2l Lang ModSpec FileSpec Analysis Loose Decl Template Calib.Spec

seal Calib.F64.ofQuot

/-- Whether the parser accepts the token as a number (`strconv.ParseFloat` and the check of the error, for instance
a2l/coeffs_linear.go:36-42). -/
def accepts (t : Str) : Bool :=
  match Calib.parseFloat t with
  | .ok _ => true
  | _ => false

/-- The number of an accepted token. -/
def float64Of (t : Str) : Calib.F64 :=
  match Calib.parseFloat t with
  | .ok x => x
  | _ => .fin false 0

/-- The number in a value. -/
def number64 : Lang.Val → Calib.F64
  | .flt t => float64Of t
  | _ => .fin false 0

/-- A floating-point field guarded by its marker. -/
def optNum64 (o : Obj) (f fl : String) : Option Calib.F64 := if o.flag fl then some (number64 (o f)) else none

/-- a2l/compu_tab.go:10-25 with `float64` columns (`compuTab`). -/
def tab64 (o : Obj) : Calib.Tab64 where
  inVal := (o.list "InVal").map number64
  inValSet := o.flag "InValSet"
  outVal := (o.list "OutVal").map number64
  outValSet := o.flag "OutValSet"
  defaultValue := optNum64 (inner o "DefaultValueNumeric") "DisplayValue" "DisplayValueSet"

/-- a2l/compu_method.go:9-26 with `float64` numbers (`compuMethod`). -/
def method64 (o : Obj) : Calib.Method64 where
  conversionType := conversionType (o.str "ConversionType")
  a := optNum64 (inner o "Coeffs") "A" "ASet"
  b := optNum64 (inner o "Coeffs") "B" "BSet"
  c := optNum64 (inner o "Coeffs") "C" "CSet"
  d := optNum64 (inner o "Coeffs") "D" "DSet"
  e := optNum64 (inner o "Coeffs") "E" "ESet"
  f := optNum64 (inner o "Coeffs") "F" "FSet"
  linA := optNum64 (inner o "CoeffsLinear") "A" "ASet"
  linB := optNum64 (inner o "CoeffsLinear") "B" "BSet"

/-- compu_methods.go:11-58 (`convDecToPhy`) with the method `r` of the module `mo`; compu_methods.go:166 looks up the table. -/
def convert64 (mo r : Obj) (x : Calib.F64) : Calib.Res Calib.F64 :=
  Calib.convDecToPhy64 ((mo.map "CompuTabs" ((inner r "CompuTabRef").str "ConversionTable")).map fun v => tab64 (objOf v)) x (method64 r)

/-- The module `mo` consists of the objects `os`. -/
structure Holds (mo : Obj) (os : List ModSpec.Found) : Prop where
  methods : ∀ name, mo.map "CompuMethods" name = lastNamed os 4 name
  tables : ∀ name, mo.map "CompuTabs" name = lastNamed os 5 name

theorem accepts_iff {t : Str} : accepts t = true ↔ Calib.parseFloat t = .ok (float64Of t) := by
  unfold accepts float64Of
  cases Calib.parseFloat t <;> simp

/-- C88: an accepted token is read as a number or a name of a special value. -/
theorem C88_accepted {t : Str} (h : accepts t = true) : ReadsAs t (float64Of t) := by
  have h := accepts_iff.1 h
  generalize float64Of t = x at h ⊢
  by_cases hn : ∃ x, Named t x
  · obtain ⟨y, hy⟩ := hn
    have := Calib.Props.C88_named hy
    rw [h] at this
    cases this
    exact Or.inl hy
  · by_cases hm : ∃ neg hex ds fs e, Number t neg hex ds fs e
    · obtain ⟨neg, hex, ds, fs, e, hm⟩ := hm
      refine Or.inr ⟨neg, hex, ds, fs, e, hm, fun he => ?_⟩
      rcases Calib.Props.C88_nearest hm he with ⟨n, h1, h2⟩ | ⟨h1, _⟩
      · rw [h] at h1
        cases h1
        exact ⟨⟨n, rfl⟩, h2⟩
      · rw [h] at h1
        cases h1
    · have := (Calib.Props.C88_syntax t).2 ⟨fun a b c d e hh => hm ⟨a, b, c, d, e, hh⟩, fun x hh => hn ⟨x, hh⟩⟩
      rw [h] at this
      cases this

theorem accepts_nil : accepts [] = false := by decide +kernel

/-- The token at position `k` is read as `x`. -/
def ReadsAt (E : Env) (k : Nat) (x : Calib.F64) : Prop := ∃ t, E.toks[k]? = some t ∧ Calib.parseFloat t = .ok x ∧ ReadsAs t x

theorem readsAt_of {E : Env} (hfl : E.floatOk = accepts) {f fl : String} {k : Nat} {t : Str} {x : Obj} (hk : TokAfter E k t)
    (h : Props.HasParam E ⟨f, fl, .float⟩ t x) : ∃ y, optNum64 x f fl = some y ∧ ReadsAt E (k + 1) y := by
  have ha : accepts t = true := by rw [← hfl]; exact h.val.1
  refine ⟨float64Of t, ?_, t, hk, accepts_iff.1 ha, C88_accepted ha⟩
  unfold optNum64
  rw [if_pos h.mark, h.val.2]
  rfl

/-- C88: what a conversion method of the file does with a `float64`, by its text. -/
theorem C88_method {E : Env} (hw : Wf E) (hs : E.multi = false) (hfl : E.floatOk = accepts) {i j : Nat} {v : Val}
    (h : Returns E .parseCompuMethod i (.ok j v false)) {name long conv format unit : Str} (ht : MethodText E i name long conv format unit) :
    ∃ (r : Obj) (fs : List Part), v = .obj r ∧ MethodParts E i j fs ∧ ∀ (mo : Obj) (x : Calib.F64),
      (conv = (str! "IDENTICAL") → convert64 mo r x = .ok x) ∧
      (conv = (str! "LINEAR") → match lastPart fs (str! "COEFFS_LINEAR") with
        | none => convert64 mo r x = .err
        | some a => ∃ A B, ReadsAt E (a + 1) A ∧ ReadsAt E (a + 2) B ∧ convert64 mo r x = .ok ((A.mul x).add B)) ∧
      (conv = (str! "RAT_FUNC") → match lastPart fs (str! "COEFFS") with
        | none => convert64 mo r x = .err
        | some k => ∃ a b c d e f, ReadsAt E (k + 1) a ∧ ReadsAt E (k + 2) b ∧ ReadsAt E (k + 3) c ∧ ReadsAt E (k + 4) d ∧
          ReadsAt E (k + 5) e ∧ ReadsAt E (k + 6) f ∧ convert64 mo r x = Calib.calcRatFunc64 a b c d e f x) := by
  obtain ⟨r, rfl, h1⟩ := Props.head_values hw (p := .parseCompuMethod) (by decide) rfl h ht.text
    (fun t h => ⟨(ht.plain t h).1, (ht.plain t h).2⟩) (by simp)
  obtain ⟨fs, h2, h3⟩ := Props.C65_parts_partial hw (Props.mtGood_seq hs) (by decide) h
  have hL := part_flat hw h2 (h3 (str! "COEFFS_LINEAR") .parseCoeffsLinear "CoeffsLinear" .field (by decide +kernel)) (key := (str! "COEFFS_LINEAR"))
    (q := .parseCoeffsLinear) (by decide +kernel) (by decide) (Or.inl rfl)
  have hC := part_flat hw h2 (h3 (str! "COEFFS") .parseCoeffs "Coeffs" .field (by decide +kernel)) (key := (str! "COEFFS"))
    (q := .parseCoeffs) (by decide +kernel) (by decide) (Or.inl rfl)
  have hconv : (method64 r).conversionType = conversionType conv := by
    show conversionType (Obj.str r "ConversionType") = _
    have := (h1 2 _ conv rfl rfl).val.2
    simp only at this
    unfold Obj.str
    rw [this]
  refine ⟨r, fs, rfl, h2, fun mo x => ⟨fun hc => ?_, fun hc => ?_, fun hc => ?_⟩⟩
  · unfold convert64 Calib.convDecToPhy64
    rw [hconv, hc, show conversionType (str! "IDENTICAL") = .identical by decide +kernel]
  · unfold convert64 Calib.convDecToPhy64
    rw [hconv, hc, show conversionType (str! "LINEAR") = .linear by decide +kernel]
    cases hl : lastPart fs (str! "COEFFS_LINEAR") with
    | none =>
      have e : (method64 r).linA = none := by
        show optNum64 (inner r "CoeffsLinear") "A" "ASet" = none
        rw [hL.1 hl]
        rfl
      simp only [e]
    | some a =>
      obtain ⟨t0, a0, _, b0⟩ := hL.2 a hl 0 _ rfl
      obtain ⟨t1, a1, _, b1⟩ := hL.2 a hl 1 _ rfl
      obtain ⟨A, e1, r1⟩ := readsAt_of hfl (k := a) a0 b0
      obtain ⟨B, e2, r2⟩ := readsAt_of hfl (k := a + 1) a1 b1
      refine ⟨A, B, r1, r2, ?_⟩
      have e1 : (method64 r).linA = some A := e1
      have e2 : (method64 r).linB = some B := e2
      simp only [e1, e2]
  · unfold convert64 Calib.convDecToPhy64
    rw [hconv, hc, show conversionType (str! "RAT_FUNC") = .ratFunc by decide +kernel]
    cases hl : lastPart fs (str! "COEFFS") with
    | none =>
      have e : (method64 r).a = none := by
        show optNum64 (inner r "Coeffs") "A" "ASet" = none
        rw [hC.1 hl]
        rfl
      simp only [e]
    | some a =>
      obtain ⟨t0, a0, _, b0⟩ := hC.2 a hl 0 _ rfl
      obtain ⟨t1, a1, _, b1⟩ := hC.2 a hl 1 _ rfl
      obtain ⟨t2, a2, _, b2⟩ := hC.2 a hl 2 _ rfl
      obtain ⟨t3, a3, _, b3⟩ := hC.2 a hl 3 _ rfl
      obtain ⟨t4, a4, _, b4⟩ := hC.2 a hl 4 _ rfl
      obtain ⟨t5, a5, _, b5⟩ := hC.2 a hl 5 _ rfl
      obtain ⟨x0, e0, r0⟩ := readsAt_of hfl (k := a) a0 b0
      obtain ⟨x1, e1, r1⟩ := readsAt_of hfl (k := a + 1) a1 b1
      obtain ⟨x2, e2, r2⟩ := readsAt_of hfl (k := a + 2) a2 b2
      obtain ⟨x3, e3, r3⟩ := readsAt_of hfl (k := a + 3) a3 b3
      obtain ⟨x4, e4, r4⟩ := readsAt_of hfl (k := a + 4) a4 b4
      obtain ⟨x5, e5, r5⟩ := readsAt_of hfl (k := a + 5) a5 b5
      refine ⟨x0, x1, x2, x3, x4, x5, r0, r1, r2, r3, r4, r5, ?_⟩
      have e0 : (method64 r).a = some x0 := e0
      have e1 : (method64 r).b = some x1 := e1
      have e2 : (method64 r).c = some x2 := e2
      have e3 : (method64 r).d = some x3 := e3
      have e4 : (method64 r).e = some x4 := e4
      have e5 : (method64 r).f = some x5 := e5
      simp only [e0, e1, e2, e3, e4, e5]

/-- C88 for LINEAR, from the text of the file to the physical value: both coefficients are the nearest numbers to the written
ones, the product and the sum are rounded once each. -/
theorem C88_linear {E : Env} (hw : Wf E) (hs : E.multi = false) (hfl : E.floatOk = accepts) {s j : Nat} {os : List ModSpec.Found}
    (hsc : Scan E s os j) {mo : Obj} (hm : Holds mo os) {f : ModSpec.Found} (hf : f ∈ os) (hkind : f.kind = 4)
    {name long format unit : Str} (ht : MethodText E f.pos name long (str! "LINEAR") format unit) (hlast : lastNamed os 4 name = some f.val) :
    ∃ r fs, mo.map "CompuMethods" name = some (.obj r) ∧ MethodParts E f.pos f.stop fs ∧
      ∀ a, lastPart fs (str! "COEFFS_LINEAR") = some a →
        ∀ ta tb nega negb hexa hexb dsa dsb fsa fsb ea eb, E.toks[a + 1]? = some ta → E.toks[a + 2]? = some tb →
        Number ta nega hexa dsa fsa ea → Number tb negb hexb dsb fsb eb → Moderate dsa fsa ea → Moderate dsb fsb eb →
        ∃ A B A' B', Rounds (written nega hexa dsa fsa ea) A ∧ Calib.Spec.number A = some A' ∧
          Rounds (written negb hexb dsb fsb eb) B ∧ Calib.Spec.number B = some B' ∧
          ∀ x X, Calib.Spec.number x = some X → ∃ u y, convert64 mo r x = .ok y ∧ Rounds (A' * X) u ∧
            (∀ U, Calib.Spec.number u = some U → Rounds (U + B') y) ∧ ∀ s, u = .inf s → y = .inf s := by
  obtain ⟨K, hk, _, hret⟩ := scan_read hsc f hf
  rw [hkind] at hk
  cases hk
  obtain ⟨r, fs, hv, h1, h2⟩ := C88_method hw hs hfl hret ht
  refine ⟨r, fs, by rw [hm.methods, hlast, hv], h1, fun a ha ta tb nega negb hexa hexb dsa dsb fsa fsb ea eb hta htb hna hnb hea heb => ?_⟩
  have key : ∀ (k : Nat) (t : Str) (neg hex : Bool) (ds fs : List Nat) (e : Int) (y : Calib.F64), E.toks[k]? = some t → Number t neg hex ds fs e →
      Moderate ds fs e → ReadsAt E k y → ∃ n, y = .fin neg n ∧ Rounds (written neg hex ds fs e) y := by
    intro k t neg hex ds fs e y h1 h2 h3 ⟨t', h4, h5, _⟩
    rw [h1] at h4
    cases h4
    rcases Calib.Props.C88_nearest h2 h3 with ⟨n, h6, h7⟩ | ⟨h6, _⟩ <;> rw [h5] at h6 <;> cases h6
    exact ⟨n, rfl, h7⟩
  obtain ⟨A, B, rA, rB, _⟩ : ∃ A B, ReadsAt E (a + 1) A ∧ ReadsAt E (a + 2) B ∧ True := by
    have := (h2 mo (.fin false 0)).2.1 rfl
    rw [ha] at this
    obtain ⟨A, B, p, q, _⟩ := this
    exact ⟨A, B, p, q, trivial⟩
  obtain ⟨n, eA, hA⟩ := key _ _ _ _ _ _ _ _ hta hna hea rA
  obtain ⟨m, eB, hB⟩ := key _ _ _ _ _ _ _ _ htb hnb heb rB
  obtain ⟨A', nA⟩ : ∃ A', Calib.Spec.number A = some A' := by rw [eA]; exact ⟨_, rfl⟩
  obtain ⟨B', nB⟩ : ∃ B', Calib.Spec.number B = some B' := by rw [eB]; exact ⟨_, rfl⟩
  refine ⟨A, B, A', B', hA, nA, hB, nB, fun x X hX => ?_⟩
  obtain ⟨u, y, e1, e2, e3, e4⟩ := Calib.Props.C87_linear_partial none { conversionType := .linear, linA := some A, linB := some B } rfl rfl rfl nA nB hX
  refine ⟨u, y, ?_, e2, e3, e4⟩
  have := (h2 mo x).2.1 rfl
  rw [ha] at this
  obtain ⟨A₂, B₂, ⟨t1, p1, p2, _⟩, ⟨t2, q1, q2, _⟩, h⟩ := this
  obtain ⟨t1', p1', p2', _⟩ := rA
  obtain ⟨t2', q1', q2', _⟩ := rB
  rw [p1] at p1'; cases p1'
  rw [q1] at q1'; cases q1'
  rw [p2] at p2'; cases p2'
  rw [q2] at q2'; cases q2'
  rw [h, ← e1]
  rfl

theorem lookup_find64 (x : Calib.F64) (rows pre : List (Str × Str)) :
    Calib.lookupLoop64 x ((pre ++ rows).map fun r => float64Of r.2) (rows.map fun r => float64Of r.1) pre.length =
      (rows.find? fun r => x.eq (float64Of r.1)).map fun r => .ok (float64Of r.2) := by
  induction rows generalizing pre with
  | nil => rfl
  | cons r rows ih =>
    simp only [List.map_cons, Calib.lookupLoop64, List.find?_cons]
    cases h : x.eq (float64Of r.1) with
    | true => simp [index_get, Calib.orPanic]
    | false =>
      have := ih (pre ++ [r])
      simp only [List.append_assoc, List.singleton_append, List.length_append, List.length_singleton] at this
      simpa using this

/-- C88 for TAB_NOINTP, from the text of the file to the physical value: the number beside the first row whose key is read as the
raw value, nothing else is rounded. Only the first `N` rows count, and only if there are as many (65536 if 0 rows are declared, see C48). -/
theorem C88_table {E : Env} (hw : Wf E) (hs : E.multi = false) (hfl : E.floatOk = accepts) {s j : Nat} {os : List ModSpec.Found}
    (hsc : Scan E s os j) {mo : Obj} (hm : Holds mo os) {f g : ModSpec.Found} (hf : f ∈ os) (hkind : f.kind = 4) (hg : g ∈ os) (hkg : g.kind = 5)
    {name long format unit : Str} (ht : MethodText E f.pos name long (str! "TAB_NOINTP") format unit) (hlast : lastNamed os 4 name = some f.val)
    {tab tlong conv num : Str} {n : Nat} {rows : List (Str × Str)} {dv : Option Str}
    (htab : NumText E g.pos tab tlong conv num n rows dv) {N : Nat} (hn : N = if n = 0 then 65536 else n) (hlg : lastNamed os 5 tab = some g.val) :
    ∃ r fs, mo.map "CompuMethods" name = some (.obj r) ∧ MethodParts E f.pos f.stop fs ∧
      ∀ a, lastPart fs (str! "COMPU_TAB_REF") = some a → E.toks[a + 1]? = some tab → ∀ x, convert64 mo r x =
        match (if N ≤ rows.length then (rows.take N).find? (fun r => x.eq (float64Of r.1)) else none) with
        | some r => .ok (float64Of r.2)
        | none => match dv with
          | some t => .ok (float64Of t)
          | none => .err := by
  obtain ⟨K, hk, _, hret⟩ := scan_read hsc f hf
  rw [hkind] at hk
  cases hk
  obtain ⟨r, fs, hv, h1, h2, _, _, _, _, h7, _⟩ := method_fields hw hs hret ht (fun _ => 0)
  refine ⟨r, fs, by rw [hm.methods, hlast, hv], h1, fun a ha hta x => ?_⟩
  obtain ⟨e, o', hret', hin, hout, hset1, hset2, hd⟩ := num_fields hw (by rw [hfl]; exact accepts_nil) htab hn
  have hval := found_val hsc hg (by rw [hkg]; rfl) hret'
  have href : (inner r "CompuTabRef").str "ConversionTable" = tab := by
    have := h7 a ha
    rw [hta] at this
    exact (Option.some.inj this).symm
  have htype : (method64 r).conversionType = .tabNointp := by
    have : (method64 r).conversionType = (compuMethod (fun _ => 0) r).conversionType := rfl
    rw [this, h2]
    decide +kernel
  have hin : (tab64 o').inVal = (rows.take N).map fun r => float64Of r.1 := by
    show (Obj.list o' "InVal").map _ = _
    rw [hin, List.map_map]
    rfl
  have hout : (tab64 o').outVal = (rows.take N).map fun r => float64Of r.2 := by
    show (Obj.list o' "OutVal").map _ = _
    rw [hout, List.map_map]
    rfl
  have hset : (tab64 o').inValSet = decide (N ≤ rows.length) ∧ (tab64 o').outValSet = decide (N ≤ rows.length) := ⟨hset1, hset2⟩
  have hdef : (tab64 o').defaultValue = dv.map float64Of := by
    show optNum64 (inner o' "DefaultValueNumeric") "DisplayValue" "DisplayValueSet" = _
    unfold optNum64
    cases dv with
    | none => rw [hd]; rfl
    | some t => rw [if_pos hd.2, hd.1]; rfl
  unfold convert64 Calib.convDecToPhy64
  rw [htype, href, hm.tables, hlg, hval]
  simp only [Option.map_some, objOf]
  unfold Calib.calcTabNoIntp64
  simp only [Option.getD_some, hin, hout, hset.1, hset.2, hdef, Bool.and_self, decide_eq_true_eq]
  split
  · have := lookup_find64 x (rows.take N) []
    simp only [List.nil_append, List.length_nil] at this
    rw [this]
    cases (rows.take N).find? (fun r => x.eq (float64Of r.1)) with
    | none => cases dv <;> rfl
    | some r => rfl
  · cases dv <;> rfl

/-! ### An example -/

/-- The tokens of a module with two conversion methods and a table. -/
def floatToks : List Str := [
  (str! "module"), (str! "/begin COMPU_METHOD"), (str! "lin"), (str! "\"\""), (str! "LINEAR"), (str! "\"%4.2\""), (str! "\"km\""),
  (str! "COEFFS_LINEAR"), (str! "0.1"), (str! "-2.5e-1"), (str! "/end COMPU_METHOD"),
  (str! "/begin COMPU_METHOD"), (str! "ref"), (str! "\"\""), (str! "TAB_NOINTP"), (str! "\"%4.2\""), (str! "\"km\""),
  (str! "COMPU_TAB_REF"), (str! "tab"), (str! "/end COMPU_METHOD"),
  (str! "/begin COMPU_TAB"), (str! "tab"), (str! "\"\""), (str! "TAB_NOINTP"), (str! "2"), (str! "0.5"), (str! "1e3"), (str! "0x1p1"), (str! "NaN"),
  (str! "DEFAULT_VALUE_NUMERIC"), (str! "7"), (str! "/end COMPU_TAB"), (str! "/end MODULE")]

def floatEnv : Env := ⟨floatToks ++ [[]], accepts, false, fun _ => .panic⟩

theorem floatEnv_wf : Wf floatEnv := ⟨floatToks, rfl, by decide⟩

/-- The object of kind `n` between two positions of the example. -/
def found64 (i e n : Nat) : ModSpec.Found :=
  ⟨i, e, n, match kinds[n]? with
    | some K => (match A2l.parse floatEnv K.parser i with | .ok _ v _ => v | _ => .zero)
    | none => .zero⟩

theorem scan_step64 {s e j n : Nat} {K : ModSpec.Kind} {os : List ModSpec.Found} (h1 : floatEnv.toks[s + 1]? = some K.tok) (h2 : kinds[n]? = some K)
    (h3 : (match A2l.parse floatEnv K.parser (s + 1) with | .ok j _ b => some (j, b) | _ => none) = some (e, false))
    (h : Scan floatEnv e os j) : Scan floatEnv s (found64 (s + 1) e n :: os) j := by
  unfold found64
  rw [h2]
  simp only
  split at h3
  · rename_i j v b hh
    simp only [Option.some.injEq, Prod.mk.injEq] at h3
    obtain ⟨rfl, rfl⟩ := h3
    exact .obj h1 h2 (returns_of_run hh (by simp)) h
  · cases h3

def floatOs : List ModSpec.Found := [found64 1 10 4, found64 11 19 4, found64 20 31 5]

theorem float_scan : Scan floatEnv 0 floatOs 32 :=
  (scan_step64 (n := 4) (e := 10) rfl rfl (by decide +kernel)
  (scan_step64 (n := 4) (e := 19) rfl rfl (by decide +kernel)
  (scan_step64 (n := 5) (e := 31) rfl rfl (by decide +kernel)
  (.stop rfl))))

/-- The module of the example. -/
def floatModule : Obj := (Obj.empty.set "CompuMethods" (.map fun n => lastNamed floatOs 4 n)).set "CompuTabs" (.map fun n => lastNamed floatOs 5 n)

theorem float_holds : Holds floatModule floatOs := ⟨fun _ => rfl, fun _ => rfl⟩

theorem float_lin : MethodText floatEnv 1 (str! "lin") (str! "\"\"") (str! "LINEAR") (str! "\"%4.2\"") (str! "\"km\"") where
  text := words_of (by decide +kernel)
  plain := by decide +kernel

theorem float_ref : MethodText floatEnv 11 (str! "ref") (str! "\"\"") (str! "TAB_NOINTP") (str! "\"%4.2\"") (str! "\"km\"") where
  text := words_of (by decide +kernel)
  plain := by decide +kernel

theorem float_tab : NumText floatEnv 20 (str! "tab") (str! "\"\"") (str! "TAB_NOINTP") (str! "2") 2
    [((str! "0.5"), (str! "1e3")), ((str! "0x1p1"), (str! "NaN"))] (some (str! "7")) where
  words := by decide +kernel
  dword := by intro t h; cases h; decide +kernel
  isConv := is_enum (by decide +kernel)
  isNum := ⟨⟨by decide, by simp [IsDigit], rfl⟩, by decide⟩
  keys := by decide +kernel
  text := words_of (by decide +kernel)

/-- Non-vacuity of `C88_linear`: the method `lin` of the example converts every number `x` to the sum of -1/4 and the product of `x` and
the number nearest to 1/10. -/
example : ∃ r A A', floatModule.map "CompuMethods" (str! "lin") = some (.obj r) ∧ Rounds (written false false [0] [1] 0) A ∧
    Calib.Spec.number A = some A' ∧ written false false [0] [1] 0 = 1 / 10 ∧ written true false [2] [5] (-1) = -1 / 4 ∧
    ∀ x X, Calib.Spec.number x = some X → ∃ u y, convert64 floatModule r x = .ok y ∧ Rounds (A' * X) u ∧
      ∀ U, Calib.Spec.number u = some U → ∃ B', Rounds (U + B') y := by
  obtain ⟨r, fs, h1, h2, h3⟩ := C88_linear floatEnv_wf rfl rfl float_scan float_holds (f := found64 1 10 4) (by simp [floatOs]) rfl float_lin
    (lastNamed_of (a := []) (b := floatOs.drop 1) (by decide +kernel) (by decide +kernel))
  have hl : lastPart fs (str! "COEFFS_LINEAR") = some 7 :=
    lastPart_only h2 (q := .parseCoeffsLinear) (g := "CoeffsLinear") (md := .field) rfl (by decide) (by decide) (by decide +kernel)
      (by decide +kernel)
  obtain ⟨A, B, A', B', e1, e2, e3, e4, e5⟩ := h3 7 hl (str! "0.1") (str! "-2.5e-1") false true false false [0] [2] [1] [5] 0 (-1) rfl rfl
    (.dec (s := []) (m := (str! "0.1")) .none (.both (t := ['0']) (u := ['1']) (.one (Or.inl rfl)) (.one (Or.inl rfl))))
    (.decExp (s := ['-']) (m := (str! "2.5")) (x := (str! "e-1")) .minus (.both (t := ['2']) (u := ['5']) (.one (Or.inl rfl)) (.one (Or.inl rfl)))
      (.mk (s := ['-']) (t := ['1']) (neg := true) (ds := [1]) (Or.inl rfl) .minus (.one (Or.inl rfl)))) (Or.inl (by decide)) (Or.inl (by decide))
  refine ⟨r, A, A', h1, e1, e2, by decide +kernel, by decide +kernel, fun x X hX => ?_⟩
  obtain ⟨u, y, g1, g2, g3, _⟩ := e5 x X hX
  exact ⟨u, y, g1, g2, fun U hU => ⟨B', g3 U hU⟩⟩

/-- Non-vacuity of `C88_table`: in the example 1/2 becomes 1000, 2 becomes NaN and all else 7. -/
example : ∃ r, floatModule.map "CompuMethods" (str! "ref") = some (.obj r) ∧
    convert64 floatModule r (float64Of (str! "5e-1")) = .ok (Calib.F64.ofInt 1000) ∧
    convert64 floatModule r (Calib.F64.ofInt 2) = .ok .nan ∧
    convert64 floatModule r (Calib.F64.ofInt 3) = .ok (Calib.F64.ofInt 7) := by
  obtain ⟨r, fs, h1, h2, h3⟩ := C88_table floatEnv_wf rfl rfl float_scan float_holds (f := found64 11 19 4) (g := found64 20 31 5) (by simp [floatOs]) rfl
    (by simp [floatOs]) rfl float_ref (lastNamed_of (a := floatOs.take 1) (b := floatOs.drop 2) (by decide +kernel) (by decide +kernel))
    float_tab (N := 2) (by decide) (lastNamed_of (a := floatOs.take 2) (b := []) (by decide +kernel) (by decide +kernel))
  have hl : lastPart fs (str! "COMPU_TAB_REF") = some 17 :=
    lastPart_only h2 (q := .parseCompuTabRef) (g := "CompuTabRef") (md := .field) rfl (by decide) (by decide) (by decide +kernel)
      (by decide +kernel)
  refine ⟨r, h1, ?_, ?_, ?_⟩ <;> rw [h3 17 hl rfl] <;> decide +kernel

end Verif.Link
