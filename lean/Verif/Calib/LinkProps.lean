import Verif.Calib.Link

/-!
From the text of an A2L file to the answers of the root package: C66 (objects by name).
-/

namespace Verif.Link
open Verif.Go Verif.A2l Lang ModSpec FileSpec Analysis

/-- The object of kind number `n` with the value `v`, as the caller of `GetObjectByIdent` sees it; the kinds that
are not searched have no answer. -/
def view (fv : Str → Rat) (n : Nat) (v : Val) : Option (Calib.Obj Val) :=
  match n with
  | 1 => some (.axisPts v)
  | 3 => some (.characteristic v)
  | 4 => some (.compuMethod (compuMethod fv (objOf v)))
  | 5 => some (.compuTab (compuTab fv (objOf v)))
  | 6 => some (.compuVTab (compuVTab fv (objOf v)))
  | 7 => some (.compuVTabRange (compuVTabRange fv (objOf v)))
  | 9 => some (.function v)
  | 10 => some (.group v)
  | 13 => some (.measurement v)
  | 16 => some (.recordLayout (recordLayout (objOf v)))
  | 23 => some (.unit v)
  | _ => none

/-- `x` is an object called `ident` among the objects `os` of a module: the last one of one of the
searched kinds with that name, or a constant of the last MOD_PAR. -/
def Answer (fv : Str → Rat) (os : List Found) (ident : Str) (x : Calib.Obj Val) : Prop :=
  (∃ n v, lastNamed os n ident = some v ∧ view fv n v = some x) ∨
  ∃ p v, lastOf os 15 = some (.obj p) ∧ Obj.map p "SystemConstants" ident = some v ∧
    x = .systemConstant (systemConstant (objOf v))

/-- The module in use of `cd` consists of the objects `os`. -/
def Uses (fv : Str → Rat) (cd : Calib.CalData Val) (os : List Found) : Prop :=
  ∃ o : Obj, cd.module? = some (module fv o) ∧
    (∀ (n : Nat) (K : Kind) (key : String), kinds[n]? = some K → K.key = some key →
      ∀ name, o.map K.field name = lastNamed os n name) ∧
    (∀ (n : Nat) (K : Kind), kinds[n]? = some K → K.key = none → o K.field = (lastOf os n).getD .zero)

theorem lastNamed_kind {os : List Found} {n : Nat} {name : Str} {v : Val} (h : lastNamed os n name = some v) :
    ∃ f ∈ os, f.kind = n ∧ f.name = name ∧ f.val = v := by
  unfold lastNamed at h
  cases hl : (os.filter (fun f => f.kind = n ∧ f.name = name)).getLast? with
  | none => rw [hl] at h; cases h
  | some f =>
    rw [hl] at h
    have := List.mem_of_getLast? hl
    simp only [List.mem_filter, Bool.decide_and, Bool.and_eq_true, decide_eq_true_eq] at this
    exact ⟨f, this.1, this.2.1, this.2.2, Option.some.inj h⟩

theorem index_get {α : Type} {l : List α} {n : Nat} : index? l n = l[n]? := by
  unfold index?
  first | rfl | simp

/-- C66: the answer of `GetObjectByIdent` for the module in use. -/
theorem C66_answers {fv : Str → Rat} {cd : Calib.CalData Val} {os : List Found} (h : Uses fv cd os) (ident : Str) :
    ∃ r, Calib.getObjectByIdent cd ident = .ok r ∧ ∀ x, x ∈ r ↔ Answer fv os ident x := by
  obtain ⟨o, h1, h2, h3⟩ := h
  refine ⟨_, by unfold Calib.getObjectByIdent; rw [h1], fun x => ?_⟩
  have e (n : Nat) (K : Kind) (key : String) (hk : kinds[n]? = some K) (hK : K.key = some key) :
    Obj.map o K.field ident = lastNamed os n ident := h2 n K key hk hK ident
  have e1 := e 1 _ _ rfl rfl
  have e3 := e 3 _ _ rfl rfl
  have e4 := e 4 _ _ rfl rfl
  have e5 := e 5 _ _ rfl rfl
  have e6 := e 6 _ _ rfl rfl
  have e7 := e 7 _ _ rfl rfl
  have e9 := e 9 _ _ rfl rfl
  have e10 := e 10 _ _ rfl rfl
  have e13 := e 13 _ _ rfl rfl
  have e16 := e 16 _ _ rfl rfl
  have e23 := e 23 _ _ rfl rfl
  have em := h3 15 _ rfl rfl
  simp only at e1 e3 e4 e5 e6 e7 e9 e10 e13 e16 e23 em
  simp only [module, List.mem_append, Option.mem_toList, Option.mem_def, Option.map_eq_some_iff, e1, e3, e4, e5, e6, e7, e9,
    e10, e13, e16, e23]
  have hmp : ∀ v, Obj.map (inner o "ModPar") "SystemConstants" ident = some v ↔
      ∃ p, lastOf os 15 = some (.obj p) ∧ Obj.map p "SystemConstants" ident = some v := by
    intro v
    unfold inner
    rw [em]
    have hz : ∀ w : Val, ¬ Obj.map Obj.empty "SystemConstants" ident = some w := by
      intro w; simp [Obj.map, Obj.empty]
    cases hl : lastOf os 15 with
    | none => simp [hz]
    | some w => cases w <;> simp [hz]
  simp only [hmp]
  constructor
  · rintro (((((((((((⟨v, h, rfl⟩ | ⟨v, h, rfl⟩) | ⟨_, ⟨v, h, rfl⟩, rfl⟩) | ⟨_, ⟨v, h, rfl⟩, rfl⟩) | ⟨_, ⟨v, h, rfl⟩, rfl⟩) |
      ⟨_, ⟨v, h, rfl⟩, rfl⟩) | ⟨v, h, rfl⟩) | ⟨v, h, rfl⟩) | ⟨v, h, rfl⟩) | ⟨_, ⟨v, h, rfl⟩, rfl⟩) |
      ⟨_, ⟨v, ⟨p, hp, h⟩, rfl⟩, rfl⟩) | ⟨v, h, rfl⟩)
    · exact Or.inl ⟨1, v, h, rfl⟩
    · exact Or.inl ⟨3, v, h, rfl⟩
    · exact Or.inl ⟨4, v, h, rfl⟩
    · exact Or.inl ⟨5, v, h, rfl⟩
    · exact Or.inl ⟨6, v, h, rfl⟩
    · exact Or.inl ⟨7, v, h, rfl⟩
    · exact Or.inl ⟨9, v, h, rfl⟩
    · exact Or.inl ⟨10, v, h, rfl⟩
    · exact Or.inl ⟨13, v, h, rfl⟩
    · exact Or.inl ⟨16, v, h, rfl⟩
    · exact Or.inr ⟨p, v, hp, h, rfl⟩
    · exact Or.inl ⟨23, v, h, rfl⟩
  · rintro (⟨n, v, h, hv⟩ | ⟨p, v, hp, h, rfl⟩)
    · unfold view at hv
      split at hv <;> first | cases hv | skip
      all_goals simp [h]
    · simp [hp, h]

/-- The modules of an accepted file. -/
def ModulesOfFile (E : Env) (o : Obj) (ms : List FileSpec.Mod) : Prop :=
  (o "Project" = .zero ∧ ms = []) ∨ ∃ a b, E.toks[a]? = some (str! "/begin PROJECT") ∧
    Modules E a b (Obj.list (inner o "Project") "Modules") ms

theorem file_modules {E : Env} (hw : Wf E) (hs : E.multi = false) {j : Nat} {o : Obj}
    (h : Returns E .parseA2l 0 (.ok j (.obj o) false)) : ∃ ms, ModulesOfFile E o ms := by
  obtain ⟨o', ho, ht⟩ := (Props.C56_file hw (Props.mtGood_seq hs)).1 h
  cases ho
  rcases Props.top_project ht with hp | ⟨a, b, h1, h2⟩
  · exact ⟨[], Or.inl ⟨hp, rfl⟩⟩
  · obtain ⟨p, ms, hv, hm⟩ := Props.C56_project_partial hw hs (List.getElem?_eq_some_iff.1 h1).1 h2
    refine ⟨ms, Or.inr ⟨a, b, h1, ?_⟩⟩
    unfold inner
    rw [hv]
    exact hm

/-- The module with the number `moduleIndex`, if it has a name and a description, consists of the objects of its
text. -/
theorem uses_module {E : Env} {fv : Str → Rat} {a b : Nat} {o : Obj} {ms : List FileSpec.Mod}
    (hm : Modules E a b (Obj.list (inner o "Project") "Modules") ms) {mi : Nat} (hex : Nat → Option Nat) {m : FileSpec.Mod}
    (hmi : ms[mi]? = some m) (ht : Titled E m.pos) :
    ∃ os, Scan E (m.pos + 2) os m.stop ∧ Uses fv (calData fv o mi hex) os := by
  obtain ⟨x, os, hx, h1, _, h3, h4⟩ := hm.own m (List.mem_of_getElem? hmi) ht
  refine ⟨os, h1, x, ?_, h3, h4⟩
  unfold Calib.CalData.module? calData
  rw [index_get, hm.vals]
  simp [hmi, hx, objOf]

/-- C66: after an A2L file was read (sequentially), `GetObjectByIdent` returns, for every name, the objects with that
name that the text of the module in use contains, and nothing else: of every kind the last one, and the constant of
MOD_PAR. If the file has no module with the number in use the call panics. Missing: a file without a project is
accepted (the first case of `ModulesOfFile`), see `C66_false`; a module needs a name and a description. -/
theorem C66_partial {E : Env} (hw : Wf E) (hs : E.multi = false) {j : Nat} {o : Obj}
    (h : Returns E .parseA2l 0 (.ok j (.obj o) false)) (fv : Str → Rat) (mi : Nat) (hex : Nat → Option Nat) :
    ∃ ms, ModulesOfFile E o ms ∧
      (ms[mi]? = none → ∀ ident, Calib.getObjectByIdent (calData fv o mi hex) ident = .panic) ∧
      ∀ m, ms[mi]? = some m → Titled E m.pos → ∃ os, Scan E (m.pos + 2) os m.stop ∧
        ∀ ident, ∃ r, Calib.getObjectByIdent (calData fv o mi hex) ident = .ok r ∧ ∀ x, x ∈ r ↔ Answer fv os ident x := by
  have hno : (Obj.list (inner o "Project") "Modules")[mi]? = none →
      ∀ ident, Calib.getObjectByIdent (calData fv o mi hex) ident = .panic := by
    intro hn ident
    unfold Calib.getObjectByIdent Calib.CalData.module? calData
    rw [index_get]
    simp [hn]
  obtain ⟨ms, hm⟩ := file_modules hw hs h
  refine ⟨ms, hm, ?_⟩
  rcases hm with ⟨hp, rfl⟩ | ⟨a, b, h1, hm⟩
  · refine ⟨fun _ => hno ?_, fun m hmi => by cases hmi⟩
    unfold inner
    rw [hp]
    rfl
  · refine ⟨fun hmi => hno (by rw [hm.vals, List.getElem?_map, hmi]; rfl), fun m hmi ht => ?_⟩
    obtain ⟨os, g1, g2⟩ := uses_module (fv := fv) hm hex hmi ht
    exact ⟨os, g1, C66_answers g2⟩

/-- What one expects: after a file was read without error, objects can be looked up in its first module. -/
def C66_full : Prop := ∀ (E : Env), Wf E → E.multi = false → ∀ j o, Returns E .parseA2l 0 (.ok j (.obj o) false) →
  ∀ (fv : Str → Rat) (hex : Nat → Option Nat) (ident : Str), ∃ r, Calib.getObjectByIdent (calData fv o 0 hex) ident = .ok r

/-- It is false: the empty file is accepted, the lookup panics. -/
theorem C66_false : ¬ C66_full := by
  intro h
  obtain ⟨r, hr⟩ := h ⟨[[]], fun _ => false, false, fun _ => .panic⟩ ⟨[], rfl, by simp⟩ rfl 0 _
    (Props.C56_words_accepted ⟨[], rfl, by simp⟩ (Props.mtGood_seq rfl) (ws := []) rfl (by simp)) (fun _ => 0) (fun _ => none) []
  cases hr

/-! ### An example file -/

/-- A file with one module. -/
def demoToks : List Str := [(str! "ASAP2_VERSION"), (str! "1"), (str! "71"),
  (str! "/begin PROJECT"), (str! "p"), (str! "\"\""), (str! "/begin MODULE"), (str! "m"), (str! "\"\""),
  (str! "/begin MOD_COMMON"), (str! "\"\""), (str! "BYTE_ORDER"), (str! "MSB_FIRST"), (str! "ALIGNMENT_LONG"), (str! "4"),
  (str! "/end MOD_COMMON"),
  (str! "/begin MOD_PAR"), (str! "\"\""), (str! "SYSTEM_CONSTANT"), (str! "\"gear\""), (str! "\"7\""), (str! "/end MOD_PAR"),
  (str! "/begin COMPU_METHOD"), (str! "lin"), (str! "\"\""), (str! "LINEAR"), (str! "\"%4.2\""), (str! "\"km\""),
  (str! "COEFFS_LINEAR"), (str! "3"), (str! "1"), (str! "/end COMPU_METHOD"),
  (str! "/begin COMPU_METHOD"), (str! "rat"), (str! "\"\""), (str! "RAT_FUNC"), (str! "\"%4.2\""), (str! "\"km\""),
  (str! "COEFFS"), (str! "0"), (str! "2"), (str! "1"), (str! "0"), (str! "0"), (str! "1"), (str! "/end COMPU_METHOD"),
  (str! "/begin COMPU_METHOD"), (str! "ref"), (str! "\"\""), (str! "TAB_NOINTP"), (str! "\"%4.2\""), (str! "\"km\""),
  (str! "COMPU_TAB_REF"), (str! "tab"), (str! "/end COMPU_METHOD"),
  (str! "/begin COMPU_TAB"), (str! "tab"), (str! "\"\""), (str! "TAB_NOINTP"), (str! "2"), (str! "1"), (str! "4"),
  (str! "2"), (str! "9"), (str! "DEFAULT_VALUE_NUMERIC"), (str! "8"), (str! "/end COMPU_TAB"),
  (str! "/begin COMPU_VTAB"), (str! "gear"), (str! "\"\""), (str! "TAB_VERB"), (str! "2"), (str! "0"), (str! "\"off\""),
  (str! "1"), (str! "\"on\""), (str! "/end COMPU_VTAB"),
  (str! "/begin COMPU_VTAB_RANGE"), (str! "vr"), (str! "\"\""), (str! "2"), (str! "0"), (str! "5"), (str! "\"low\""),
  (str! "/end COMPU_VTAB_RANGE"),
  (str! "/begin COMPU_VTAB_RANGE"), (str! "vs"), (str! "\"\""), (str! "1"), (str! "0"), (str! "5"), (str! "\"low\""),
  (str! "/end COMPU_VTAB_RANGE"),
  (str! "/begin RECORD_LAYOUT"), (str! "gear"), (str! "FNC_VALUES"), (str! "1"), (str! "UBYTE"), (str! "COLUMN_DIR"),
  (str! "DIRECT"), (str! "AXIS_PTS_X"), (str! "2"), (str! "ULONG"), (str! "INDEX_INCR"), (str! "DIRECT"),
  (str! "/end RECORD_LAYOUT"),
  (str! "/end MODULE"), (str! "/end PROJECT")]

/-- Numbers of one digit. -/
def demoFv (t : Str) : Rat := match t with | [c] => (c.toNat - 48 : Nat) | _ => 0

def demo : Env := ⟨demoToks ++ [[]], fun t => decide (t.length = 1), false, fun _ => .panic⟩

theorem demo_wf : Wf demo := ⟨demoToks, rfl, by decide⟩

theorem demo_seq : demo.multi = false := rfl

/-- The result of reading the example file. -/
def demoObj : Obj := match A2l.parse demo .parseA2l 0 with | .ok _ (.obj o) false => o | _ => Obj.empty

theorem demo_returns : Returns demo .parseA2l 0 (.ok 108 (.obj demoObj) false) := by
  have h : (match A2l.parse demo .parseA2l 0 with | .ok j (.obj _) e => some (j, e) | _ => none) = some (108, false) := by
    decide +kernel
  have : A2l.parse demo .parseA2l 0 = .ok 108 (.obj demoObj) false := by
    unfold demoObj
    split at h
    · rename_i j o e hh
      simp only [Option.some.injEq, Prod.mk.injEq] at h
      obtain ⟨rfl, rfl⟩ := h
      rw [hh]
    · cases h
  exact returns_of_run this (by simp)

abbrev demoCd : Calib.CalData Val := calData demoFv demoObj 0 (fun _ => none)

/-- Which objects an answer has. -/
def tags (r : Calib.Res (List (Calib.Obj Val))) : List Nat :=
  match r with
  | .ok l => l.map fun x => match x with
    | .compuVTab t => 100 + t.inVal.length
    | .recordLayout _ => 16
    | .systemConstant s => 200 + (s.value.getD []).length
    | _ => 0
  | _ => [999]

/-- Non-vacuity of `C66_partial` and `C66_answers`: the example file is accepted, and has three objects called
`gear` (with quotation marks for the constant). -/
example : Returns demo .parseA2l 0 (.ok 108 (.obj demoObj) false) ∧
    tags (Calib.getObjectByIdent demoCd (str! "gear")) = [102, 16] ∧
    tags (Calib.getObjectByIdent demoCd (str! "\"gear\"")) = [203] ∧
    tags (Calib.getObjectByIdent demoCd (str! "nothing")) = [] :=
  ⟨demo_returns, by decide +kernel, by decide +kernel, by decide +kernel⟩

end Verif.Link
