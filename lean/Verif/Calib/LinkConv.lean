import Verif.Calib.LinkTab
import Verif.A2l.Flat

/-!
C68: conversion methods, from the text of the file to the converted value.
-/

namespace Verif.Link
open Verif.Go Verif.A2l Lang ModSpec FileSpec Analysis Decl Template

/-- The position of the last part with the keyword `key`. -/
def lastPart (fs : List Part) (key : Str) : Option Nat := ((fs.filter (fun f => f.key = key)).getLast?).map (·.pos)

/-- The keyword `key` and the field `g` belong to each other, and to the function `q`. -/
def keyField (subs : List (Str × Decl.Sub)) (key : Str) (q : PName) (g : String) : Bool :=
  subs.all fun y => match y.2 with
    | .obj q' g' md => if y.1 = key then q' = q && g' = g && md = .field else g' ≠ g
    | .enum _ g' => g' ≠ g

/-- What a block keeps of a part without blocks: nothing if there is none, otherwise the values of the tokens after
its last keyword. -/
theorem part_flat {E : Env} (hw : Wf E) {subs : List (Str × Decl.Sub)} {i j : Nat} {fs : List Part}
    (hfs : PartsOf E (Succeeds E) subs i j fs) {key : Str} {q : PName} {g : String} {r : Obj} (hk : KeptParts fs g r .field)
    (hkf : keyField subs key q g = true) (hq : q ∉ irregular) {ps : List Param}
    (hsh : shape q = .seq ps ∨ ∃ q', shape q = .one q' ∧ ps = [q']) :
    (lastPart fs key = none → inner r g = Obj.empty) ∧
    ∀ a, lastPart fs key = some a → ∀ k par, ps[k]? = some par → ∃ t, TokAfter E (a + k) t ∧ t ∉ keywords ∧
      Props.HasParam E par t (inner r g) := by
  have hkey : ∀ f ∈ fs, (f.key = key ↔ f.field = g) ∧ (f.key = key → f.q = q) := by
    intro f hf
    have h1 := List.all_eq_true.1 hkf _ (hfs.decl f hf)
    simp only at h1
    split at h1
    · rename_i h2
      simp only [Bool.and_eq_true, decide_eq_true_eq] at h1
      exact ⟨⟨fun _ => h1.1.2, fun _ => h2⟩, fun _ => h1.1.1⟩
    · rename_i h2
      simp only [ne_eq, decide_not, Bool.not_eq_true', decide_eq_false_iff_not] at h1
      exact ⟨⟨fun h => absurd h h2, fun h => absurd h h1⟩, fun h => absurd h h2⟩
  have hp : partsFor fs g = fs.filter (fun f => f.key = key) := by
    unfold partsFor
    apply List.filter_congr
    intro f hf
    rw [decide_eq_decide]
    exact (hkey f hf).1.symm
  unfold KeptParts at hk
  rw [hp] at hk
  unfold lastPart inner
  cases hl : (fs.filter (fun f => f.key = key)).getLast? with
  | none =>
    rw [hl] at hk
    refine ⟨fun _ => by rw [hk]; rfl, (fun a h => by cases h)⟩
  | some f =>
    rw [hl] at hk
    refine ⟨(fun h => by cases h), fun a h => ?_⟩
    cases h
    have hm := List.mem_of_getLast? hl
    simp only [List.mem_filter, decide_eq_true_eq] at hm
    have hr := hfs.read f hm.1
    rw [(hkey f hm.1).2 hm.2] at hr
    obtain ⟨x, h1, _, h3⟩ := Props.flat_values hw hq hsh hr
    rw [hk]
    simp only [Option.map_some, Option.getD_some, h1]
    exact h3

/-- A floating-point parameter with its marker. -/
theorem optNum_of {E : Env} {fv : Str → Rat} {f fl : String} {t : Str} {x : Obj} (h : Props.HasParam E ⟨f, fl, .float⟩ t x) :
    optNum fv x f fl = some (fv t) := by
  unfold optNum
  rw [if_pos h.mark, h.val.2]
  rfl

theorem optNum_none {fv : Str → Rat} {f fl : String} : optNum fv Obj.empty f fl = none := rfl

/-- The number at position `k` of the token list. -/
def num (E : Env) (fv : Str → Rat) (k : Nat) : Rat := fv ((E.toks[k]?).getD [])

theorem num_of {E : Env} {fv : Str → Rat} {k : Nat} {t : Str} (h : TokAfter E k t) : num E fv (k + 1) = fv t := by
  unfold num
  rw [show E.toks[k + 1]? = some t from h]
  rfl

/-- The text of a COMPU_METHOD that begins at `i` starts with the five parameters (no optional part in between). -/
structure MethodText (E : Env) (i : Nat) (name long conv format unit : Str) : Prop where
  text : Props.Words E i [name, long, conv, format, unit]
  plain : ∀ t ∈ [name, long, conv, format, unit], t ∉ (Props.Shape.subs (shape .parseCompuMethod)).map (·.1) ∧ t ≠ (str! "/end COMPU_METHOD")

/-- The parts of a COMPU_METHOD. -/
def MethodParts (E : Env) (i j : Nat) (fs : List Part) : Prop :=
  PartsOf E (Succeeds E) (Props.Shape.subs (shape .parseCompuMethod)) i (j - 1) fs

/-- What the fields of an accepted COMPU_METHOD are. -/
theorem method_fields {E : Env} (hw : Wf E) (hs : E.multi = false) {i j : Nat} {v : Val}
    (h : Returns E .parseCompuMethod i (.ok j v false)) {name long conv format unit : Str}
    (ht : MethodText E i name long conv format unit) (fv : Str → Rat) :
    ∃ (r : Obj) (fs : List Part), v = .obj r ∧ MethodParts E i j fs ∧
      (compuMethod fv r).conversionType = conversionType conv ∧
      (∀ a, lastPart fs (str! "COEFFS_LINEAR") = some a →
        (compuMethod fv r).linA = some (num E fv (a + 1)) ∧ (compuMethod fv r).linB = some (num E fv (a + 2))) ∧
      (lastPart fs (str! "COEFFS_LINEAR") = none → (compuMethod fv r).linA = none ∧ (compuMethod fv r).linB = none) ∧
      (∀ a, lastPart fs (str! "COEFFS") = some a → (compuMethod fv r).coeffs =
        ⟨some (num E fv (a + 1)), some (num E fv (a + 2)), some (num E fv (a + 3)), some (num E fv (a + 4)), some (num E fv (a + 5)),
          some (num E fv (a + 6))⟩) ∧
      (lastPart fs (str! "COEFFS") = none → (compuMethod fv r).coeffs = {}) ∧
      (∀ a, lastPart fs (str! "COMPU_TAB_REF") = some a → E.toks[a + 1]? = some (compuMethod fv r).compuTabRef) ∧
      (lastPart fs (str! "COMPU_TAB_REF") = none → (compuMethod fv r).compuTabRef = []) := by
  obtain ⟨r, rfl, h1⟩ := Props.head_values hw (p := .parseCompuMethod) (by decide) rfl h ht.text
    (fun t h => ⟨(ht.plain t h).1, (ht.plain t h).2⟩) (by simp)
  obtain ⟨fs, h2, h3⟩ := Props.C65_parts_partial hw (Props.mtGood_seq hs) (by decide) h
  have hL := part_flat hw h2 (h3 (str! "COEFFS_LINEAR") .parseCoeffsLinear "CoeffsLinear" .field (by decide +kernel)) (key := (str! "COEFFS_LINEAR"))
    (q := .parseCoeffsLinear) (by decide +kernel) (by decide) (Or.inl rfl)
  have hC := part_flat hw h2 (h3 (str! "COEFFS") .parseCoeffs "Coeffs" .field (by decide +kernel)) (key := (str! "COEFFS"))
    (q := .parseCoeffs) (by decide +kernel) (by decide) (Or.inl rfl)
  have hT := part_flat hw h2 (h3 (str! "COMPU_TAB_REF") .parseCompuTabRef "CompuTabRef" .field (by decide +kernel)) (key := (str! "COMPU_TAB_REF"))
    (q := .parseCompuTabRef) (by decide +kernel) (by decide) (Or.inr ⟨_, rfl, rfl⟩)
  refine ⟨r, fs, rfl, h2, ?_, ?_, ?_, ?_, ?_, ?_, ?_⟩
  · show conversionType (Obj.str r "ConversionType") = _
    have := (h1 2 _ conv rfl rfl).val.2
    simp only at this
    unfold Obj.str
    rw [this]
  · intro a ha
    obtain ⟨t0, a0, _, b0⟩ := hL.2 a ha 0 _ rfl
    obtain ⟨t1, a1, _, b1⟩ := hL.2 a ha 1 _ rfl
    exact ⟨by rw [num_of (k := a) a0]; exact optNum_of b0, by rw [num_of (k := a + 1) a1]; exact optNum_of b1⟩
  · intro ha
    show optNum fv (inner r "CoeffsLinear") "A" "ASet" = none ∧ optNum fv (inner r "CoeffsLinear") "B" "BSet" = none
    rw [hL.1 ha]
    exact ⟨rfl, rfl⟩
  · intro a ha
    obtain ⟨t0, a0, _, b0⟩ := hC.2 a ha 0 _ rfl
    obtain ⟨t1, a1, _, b1⟩ := hC.2 a ha 1 _ rfl
    obtain ⟨t2, a2, _, b2⟩ := hC.2 a ha 2 _ rfl
    obtain ⟨t3, a3, _, b3⟩ := hC.2 a ha 3 _ rfl
    obtain ⟨t4, a4, _, b4⟩ := hC.2 a ha 4 _ rfl
    obtain ⟨t5, a5, _, b5⟩ := hC.2 a ha 5 _ rfl
    show coeffs fv (inner r "Coeffs") = _
    unfold coeffs
    rw [optNum_of b0, optNum_of b1, optNum_of b2, optNum_of b3, optNum_of b4, optNum_of b5, num_of (k := a) a0,
      num_of (k := a + 1) a1, num_of (k := a + 2) a2, num_of (k := a + 3) a3, num_of (k := a + 4) a4, num_of (k := a + 5) a5]
  · intro ha
    show coeffs fv (inner r "Coeffs") = _
    rw [hC.1 ha]
    rfl
  · intro a ha
    obtain ⟨t0, a0, _, b0⟩ := hT.2 a ha 0 _ rfl
    have := b0.val
    show _ = some ((inner r "CompuTabRef").str "ConversionTable")
    unfold Obj.str
    simp only [Denotes] at this
    rw [this]
    exact a0
  · intro ha
    show (inner r "CompuTabRef").str "ConversionTable" = []
    rw [hT.1 ha]
    rfl

/-- The conversion method that is found under the name `name`. -/
def MethodInUse (cd : Calib.CalData Val) (name : Str) (cm : Calib.CompuMethod) : Prop :=
  ∃ m : Calib.Module Val, cd.module? = some m ∧ m.compuMethods name = some cm

/-- What the text of a conversion method says about the conversion of `x` (`conv` is the conversion type): `none` if
it is not a numeric conversion or the parameters are missing, otherwise the relation between `x` and the result. -/
def Means (E : Env) (fv : Str → Rat) (fs : List Part) (conv : Str) (x : Rat) : Option (Rat → Prop) :=
  if conv = (str! "IDENTICAL") then some fun p => p = x
  else if conv = (str! "LINEAR") then (lastPart fs (str! "COEFFS_LINEAR")).map fun a p => p = num E fv (a + 1) * x + num E fv (a + 2)
  else if conv = (str! "RAT_FUNC") then (lastPart fs (str! "COEFFS")).map fun a p =>
    Calib.Spec.RatSolution (num E fv (a + 1)) (num E fv (a + 2)) (num E fv (a + 3)) (num E fv (a + 4)) (num E fv (a + 5))
      (num E fv (a + 6)) x p
  else none

/-- C68 in full: converting a value with a conversion method of the file gives a value that its text means, and an
error if the text means none. Table conversions are the subject of C67. -/
def C68_full : Prop := ∀ (E : Env), Wf E → E.multi = false → ∀ (s j : Nat) (os : List ModSpec.Found), Scan E s os j →
  ∀ (fv : Str → Rat) (cd : Calib.CalData Val), Uses fv cd os → ∀ f ∈ os, f.kind = 4 →
  ∀ (name long conv format unit : Str), MethodText E f.pos name long conv format unit → lastNamed os 4 name = some f.val →
  conv = (str! "IDENTICAL") ∨ conv = (str! "LINEAR") ∨ conv = (str! "RAT_FUNC") →
  ∃ fs cm, MethodParts E f.pos f.stop fs ∧ MethodInUse cd name cm ∧ ∀ (sqrt : Rat → Option Rat), Calib.Spec.IsSqrt sqrt → ∀ x : Rat,
    match Means E fv fs conv x with
    | none => Calib.convDecToPhy sqrt x cm cd = .err
    | some M => ((∃ p, M p) → ∃ p, M p ∧ Calib.convDecToPhy sqrt x cm cd = .ok (some p)) ∧
        ((∀ p, ¬ M p) → Calib.convDecToPhy sqrt x cm cd = .err)

/-- C68 for all methods except RAT_FUNC, and the exact results of the others: RAT_FUNC evaluates the code's formula with
the six numbers after the last COEFFS, TAB_NOINTP looks up the table called by the last COMPU_TAB_REF, TAB_INTP gives 0.
Missing: solutions of rational functions (see `C68_false`). -/
theorem C68_partial {E : Env} (hw : Wf E) (hs : E.multi = false) {s j : Nat} {os : List ModSpec.Found} (hsc : Scan E s os j)
    {fv : Str → Rat} {cd : Calib.CalData Val} (hu : Uses fv cd os) {f : ModSpec.Found} (hf : f ∈ os) (hkind : f.kind = 4)
    {name long conv format unit : Str} (ht : MethodText E f.pos name long conv format unit) (hlast : lastNamed os 4 name = some f.val) :
    ∃ fs cm, MethodParts E f.pos f.stop fs ∧ MethodInUse cd name cm ∧ ∀ (sqrt : Rat → Option Rat) (x : Rat),
      (conv ≠ (str! "RAT_FUNC") → conv ≠ (str! "TAB_INTP") → conv ≠ (str! "TAB_NOINTP") →
        match Means E fv fs conv x with
        | none => Calib.convDecToPhy sqrt x cm cd = .err
        | some M => ∃ p, M p ∧ Calib.convDecToPhy sqrt x cm cd = .ok (some p)) ∧
      (conv = (str! "RAT_FUNC") → Calib.convDecToPhy sqrt x cm cd =
        match lastPart fs (str! "COEFFS") with
        | none => .err
        | some a => Calib.calcRatFunc sqrt (num E fv (a + 1)) (num E fv (a + 2)) (num E fv (a + 3)) (num E fv (a + 4))
            (num E fv (a + 5)) (num E fv (a + 6)) x) ∧
      (conv = (str! "TAB_INTP") → Calib.convDecToPhy sqrt x cm cd = .ok (some 0)) ∧
      (conv = (str! "TAB_NOINTP") → Calib.convDecToPhy sqrt x cm cd = (Calib.calcTabNoIntp x cm cd).bind (fun p => .ok (some p)) ∧
        cm.compuTabRef = match lastPart fs (str! "COMPU_TAB_REF") with | none => [] | some a => (E.toks[a + 1]?).getD []) := by
  obtain ⟨K, hk, _, hret⟩ := scan_read hsc f hf
  rw [hkind] at hk
  cases hk
  obtain ⟨r, fs, hv, h1, h2, h3, h4, h5, h6, h7, h8⟩ := method_fields hw hs hret ht fv
  obtain ⟨mo, u1, u2, _⟩ := hu
  have hmap : (module fv mo).compuMethods name = some (compuMethod fv r) := by
    show (Obj.map mo "CompuMethods" name).map _ = _
    have := u2 4 _ _ rfl rfl name
    simp only at this
    rw [this, hlast, hv]
    rfl
  have hconv : ∃ c, (conv, c) ∈ parseConversionTypeEnum.table := by
    obtain ⟨r', _, g⟩ := Props.head_values hw (p := .parseCompuMethod) (by decide) rfl hret ht.text
      (fun t h => ⟨(ht.plain t h).1, (ht.plain t h).2⟩) (by simp)
    exact (g 2 _ conv rfl rfl).val.1
  refine ⟨fs, compuMethod fv r, h1, ⟨_, u1, hmap⟩, fun sqrt x => ⟨fun n1 n2 n3 => ?_, fun hc => ?_, fun hc => ?_, fun hc => ?_⟩⟩
  · unfold Means
    by_cases c1 : conv = (str! "IDENTICAL")
    · rw [if_pos c1]
      refine ⟨x, rfl, ?_⟩
      unfold Calib.convDecToPhy
      rw [h2, c1, show conversionType (str! "IDENTICAL") = .identical by decide +kernel]
    · rw [if_neg c1]
      by_cases c2 : conv = (str! "LINEAR")
      · rw [if_pos c2]
        have h2' : (compuMethod fv r).conversionType = .linear := by rw [h2, c2]; decide +kernel
        cases hl : lastPart fs (str! "COEFFS_LINEAR") with
        | none =>
          simp only [Option.map_none]
          unfold Calib.convDecToPhy
          rw [h2', (h4 hl).1]
        | some a =>
          simp only [Option.map_some]
          refine ⟨_, rfl, ?_⟩
          unfold Calib.convDecToPhy
          rw [h2', (h3 a hl).1, (h3 a hl).2]
      · rw [if_neg c2, if_neg n1]
        have h2' : conversionType conv = .form ∨ conversionType conv = .tabVerb ∨ conversionType conv = .undefined := by
          have : ∀ y ∈ parseConversionTypeEnum.table, y.1 ≠ (str! "RAT_FUNC") → y.1 ≠ (str! "TAB_INTP") → y.1 ≠ (str! "TAB_NOINTP") →
            y.1 ≠ (str! "IDENTICAL") → y.1 ≠ (str! "LINEAR") →
            conversionType y.1 = .form ∨ conversionType y.1 = .tabVerb ∨ conversionType y.1 = .undefined := by decide +kernel
          obtain ⟨c, hc⟩ := hconv
          exact this _ hc n1 n2 n3 c1 c2
        show Calib.convDecToPhy sqrt x (compuMethod fv r) cd = .err
        unfold Calib.convDecToPhy
        rw [h2]
        rcases h2' with e | e | e <;> rw [e]
  · unfold Calib.convDecToPhy
    rw [h2, hc, show conversionType (str! "RAT_FUNC") = .ratFunc by decide +kernel]
    cases hl : lastPart fs (str! "COEFFS") with
    | none => rw [h6 hl]
    | some a => rw [h5 a hl]
  · unfold Calib.convDecToPhy
    rw [h2, hc, show conversionType (str! "TAB_INTP") = .tabIntp by decide +kernel]
  · refine ⟨?_, ?_⟩
    · unfold Calib.convDecToPhy
      rw [h2, hc, show conversionType (str! "TAB_NOINTP") = .tabNointp by decide +kernel]
    · cases hl : lastPart fs (str! "COMPU_TAB_REF") with
      | none => rw [h8 hl]
      | some a => simp only; rw [h7 a hl]; rfl

/-- The keyword of a part that occurs once. -/
theorem lastPart_only {E : Env} {R : PName → Nat → Nat → Val → Prop} {subs : List (Str × Decl.Sub)} {i j a : Nat} {fs : List Part} {key : Str}
    {q : PName} {g : String} {md : Decl.Mode} (h : PartsOf E R subs i j fs) (ht : E.toks[a]? = some key) (h1 : i < a) (h2 : a ≤ j)
    (hs : (key, Decl.Sub.obj q g md) ∈ subs)
    (ho : ∀ z, z ≤ j → i < z → (E.toks[z]?).getD [] ∈ subs.map (·.1) → z = a) : lastPart fs key = some a := by
  have hpos : ∀ f ∈ fs, f.pos = a := by
    intro f hf
    refine ho f.pos (by have := h.within f hf; omega) (h.within f hf).1 ?_
    rw [h.tok f hf]
    exact List.mem_map.2 ⟨_, h.decl f hf, rfl⟩
  obtain ⟨f, hf, _⟩ := h.all a key q g md h1 h2 ht hs
  have hk : f.key = key := by
    have := h.tok f hf
    rw [hpos f hf, ht] at this
    exact (Option.some.inj this).symm
  unfold lastPart
  cases hl : (fs.filter (fun f => f.key = key)).getLast? with
  | none =>
    rw [List.getLast?_eq_none_iff, List.filter_eq_nil_iff] at hl
    exact absurd (by simpa using hk) (hl f hf)
  | some f' =>
    have := List.mem_of_getLast? hl
    simp only [List.mem_filter] at this
    rw [Option.map_some, hpos f' this.1]

theorem demo_lin : MethodText demo 22 (str! "lin") (str! "\"\"") (str! "LINEAR") (str! "\"%4.2\"") (str! "\"km\"") where
  text := words_of (by decide +kernel)
  plain := by decide +kernel

theorem demo_rat : MethodText demo 32 (str! "rat") (str! "\"\"") (str! "RAT_FUNC") (str! "\"%4.2\"") (str! "\"km\"") where
  text := words_of (by decide +kernel)
  plain := by decide +kernel

theorem demo_ref : MethodText demo 46 (str! "ref") (str! "\"\"") (str! "TAB_NOINTP") (str! "\"%4.2\"") (str! "\"km\"") where
  text := words_of (by decide +kernel)
  plain := by decide +kernel

theorem MethodInUse.unique {cd : Calib.CalData Val} {name : Str} {cm cm' : Calib.CompuMethod} (h : MethodInUse cd name cm)
    (h' : MethodInUse cd name cm') : cm = cm' := by
  obtain ⟨m, h1, h2⟩ := h
  obtain ⟨m', h1', h2'⟩ := h'
  rw [h1] at h1'
  cases h1'
  exact Option.some.inj (h2.symm.trans h2')

theorem rat_last : lastNamed demoOs 4 (str! "rat") = some (found 32 45 4).val :=
  lastNamed_of (a := demoOs.take 3) (b := demoOs.drop 4) (by decide +kernel) (by decide +kernel)

theorem rat_part {fs : List Part} (h : MethodParts demo 32 45 fs) : lastPart fs (str! "COEFFS") = some 38 :=
  lastPart_only h (q := .parseCoeffs) (g := "Coeffs") (md := .field) rfl (by decide) (by decide) (by decide +kernel) (by decide +kernel)

/-- C68 is false: the method `rat` of the example file says that the value is `2 p + 1`; 3 is the value for `p = 1`, but
converting 3 is an error. -/
theorem C68_false : ¬ C68_full := by
  intro h
  obtain ⟨sqrt, hsq⟩ := Calib.Props.exists_sqrt
  obtain ⟨fs, cm, h1, h2, h3⟩ := h demo demo_wf demo_seq 8 106 demoOs demo_scan demoFv demoCd demo_uses (found 32 45 4)
    (by simp [demoOs]) rfl _ _ _ _ _ demo_rat rat_last (Or.inr (Or.inr rfl))
  obtain ⟨fs', cm', g1, g2, g3⟩ := C68_partial demo_wf demo_seq demo_scan demo_uses (f := found 32 45 4) (by simp [demoOs]) rfl demo_rat rat_last
  obtain rfl := h2.unique g2
  have e := (g3 sqrt 3).2.1 rfl
  rw [rat_part g1] at e
  have e' : Calib.convDecToPhy sqrt 3 cm demoCd = .err := by
    rw [e]
    exact Calib.Props.C45_linear_ratfunc_rejected sqrt _ _ _ _ 3
  have h4 := h3 sqrt hsq 3
  unfold Means at h4
  rw [if_neg (by decide), if_neg (by decide), if_pos rfl, rat_part h1] at h4
  obtain ⟨p, _, hp⟩ := h4.1 ⟨1, by unfold Calib.Spec.RatSolution; decide +kernel⟩
  rw [e'] at hp
  cases hp

/-- Non-vacuity of `C68_partial`: the method `lin` of the example file converts 2 to 3 * 2 + 1, and `ref` looks up
the table `tab`, which says that 2 becomes 9. -/
example : (∃ cm, MethodInUse demoCd (str! "lin") cm ∧ Calib.convDecToPhy (fun _ => none) 2 cm demoCd = .ok (some 7)) ∧
    ∃ cm, MethodInUse demoCd (str! "ref") cm ∧ Calib.convDecToPhy (fun _ => none) 2 cm demoCd = .ok (some 9) := by
  constructor
  · obtain ⟨fs, cm, h1, h2, h3⟩ := C68_partial demo_wf demo_seq demo_scan demo_uses (f := found 22 31 4) (by simp [demoOs]) rfl demo_lin
      (lastNamed_of (a := demoOs.take 2) (b := demoOs.drop 3) (by decide +kernel) (by decide +kernel))
    have hl : lastPart fs (str! "COEFFS_LINEAR") = some 28 :=
      lastPart_only h1 (q := .parseCoeffsLinear) (g := "CoeffsLinear") (md := .field) rfl (by decide) (by decide) (by decide +kernel)
        (by decide +kernel)
    refine ⟨cm, h2, ?_⟩
    have := (h3 (fun _ => none) 2).1 (by decide) (by decide) (by decide)
    unfold Means at this
    rw [if_neg (by decide), if_pos rfl, hl] at this
    obtain ⟨p, hp, e⟩ := this
    rw [e, hp]
    decide +kernel
  · obtain ⟨fs, cm, h1, h2, h3⟩ := C68_partial demo_wf demo_seq demo_scan demo_uses (f := found 46 54 4) (by simp [demoOs]) rfl demo_ref
      (lastNamed_of (a := demoOs.take 4) (b := demoOs.drop 5) (by decide +kernel) (by decide +kernel))
    have hl : lastPart fs (str! "COMPU_TAB_REF") = some 52 :=
      lastPart_only h1 (q := .parseCompuTabRef) (g := "CompuTabRef") (md := .field) rfl (by decide) (by decide) (by decide +kernel)
        (by decide +kernel)
    refine ⟨cm, h2, ?_⟩
    obtain ⟨e, e'⟩ := (h3 (fun _ => none) 2).2.2.2 rfl
    rw [hl] at e'
    rw [e, C67_numeric_partial demo_wf rfl demo_scan demo_uses (f := found 55 66 5) (by simp [demoOs]) rfl demo_num (N := 2) (by decide)
      (lastNamed_of (a := demoOs.take 5) (b := demoOs.drop 6) (by decide +kernel) (by decide +kernel)) e' 2]
    decide +kernel

end Verif.Link
