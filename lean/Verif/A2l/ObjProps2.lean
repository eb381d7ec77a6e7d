import Verif.A2l.ObjProps

/-!
C31, C32: the property statements, with the functions of which they are false.
-/

namespace Verif.A2l.Props
open Verif.Go Verif.A2l Lang Decl Analysis Template

/-! ### C31 -/

/-- Reading an object of shape `sh` from position `i` one meets a keyword that is not allowed
there: in a block, after any number of legal items, a keyword that neither closes the block nor
starts one of its optional parts; in an object with a fixed number of parameters, a keyword
among them. -/
def Unexpected (E : Env) (fin : Str) (sh : Shape) (i : Nat) : Prop :=
  match sh with
  | .keyword _ _ => False
  | .one _ => ∃ t ∈ keywords, TokAfter E i t
  | .seq ps => ∃ m < ps.length, ∃ t ∈ keywords, TokAfter E (i + m) t
  | .block raw ps rest subs maps => raw = false ∧ ∃ k m o j,
      Items E (Succeeds E) raw fin ps rest subs k ⟨0, start maps, i⟩ ⟨m, o, j⟩ ∧
      ∃ t ∈ keywords, TokAfter E j t ∧ t ≠ fin ∧ t ∉ subs.map (·.1)
  | .other => False

/-- C31 as stated, for all declared objects. -/
def C31_full : Prop := ∀ (E : Env), Wf E → MtGood E → ∀ (p : PName), p ≠ .parseModuleMultithreaded →
  ∀ i < E.toks.length, Unexpected E (fin p) (shape p) i → ∃ i' v, Returns E p i (.ok i' v true)

theorem params_tok {E : Env} {i : Nat} {ps : List Param} {o o' : Obj} (h : Params E i ps o o') :
    ∀ m < ps.length, ∃ t, TokAfter E (i + m) t ∧ t ≠ [] ∧ t ∉ keywords := by
  induction h with
  | nil => intro m hm; simp at hm
  | cons ht hne hkw hv h ih =>
    intro m hm
    cases m with
    | zero => exact ⟨_, ht, hne, hkw⟩
    | succ m =>
      obtain ⟨t, h1, h2⟩ := ih m (by simpa using hm)
      exact ⟨t, by unfold TokAfter at h1 ⊢; rw [← h1]; congr 1; omega, h2⟩

/-- C31 for the 171 functions that follow their declaration (`irregular` lists the others).
Missing: the irregular ones; for BIT_OPERATION it is false. -/
theorem C31_partial {E : Env} (hw : Wf E) (hmt : MtGood E) {p : PName} (hp : p ∉ irregular) {i : Nat}
    (hi : i < E.toks.length) (hu : Unexpected E (fin p) (shape p) i) : ∃ i' v, Returns E p i (.ok i' v true) := by
  obtain ⟨i', v, e, hr, _, _⟩ := C28_terminates hw hmt p (not_mt hp) i hi
  cases e with
  | true => exact ⟨i', v, hr⟩
  | false =>
    obtain ⟨o, o', _, ht, _⟩ := accepts_only_text hw hp hr
    revert hu ht
    cases hsh : shape p with
    | keyword f fl => intro hu; exact hu.elim
    | one q =>
      rintro ⟨t, h1, h2⟩ ⟨h3, _⟩
      obtain ⟨t', g1, _, g2⟩ := params_tok h3 0 (by simp)
      have : some t = some t' := h2.symm.trans g1
      simp only [Option.some.injEq] at this
      exact absurd (this ▸ h1) g2
    | seq ps =>
      rintro ⟨m, hm, t, h1, h2⟩ ⟨h3, _⟩
      obtain ⟨t', g1, _, g2⟩ := params_tok h3 m hm
      have : some t = some t' := h2.symm.trans g1
      simp only [Option.some.injEq] at this
      exact absurd (this ▸ h1) g2
    | block raw ps rest subs maps =>
      rintro ⟨rfl, k, m, o, j, h1, t, h2, h3, h4, h5⟩ _
      exact rejects_keyword hw hp hsh h1 h3 h2 h4 h5
    | other => intro hu; exact hu.elim

/-- String and integer in a value. -/
def strOf : Val → Option Str
  | .str s => some s
  | _ => none

def intOf : Val → Option Int
  | .int z => some z
  | _ => none

/-- What a call leaves in field `f`. -/
def got (E : Env) (p : PName) (i : Nat) (f : String) : Option (Nat × Bool × Option Str × Option Int) :=
  match parse E p i with
  | .ok j (.obj o) e => some (j, e, strOf (o f), intOf (o f))
  | _ => none

theorem got_spec {E : Env} {p : PName} {i : Nat} {f : String} {j : Nat} {e : Bool} {a : Option Str} {b : Option Int}
    (h : got E p i f = some (j, e, a, b)) :
    ∃ o, Returns E p i (.ok j (.obj o) e) ∧ strOf (o f) = a ∧ intOf (o f) = b := by
  unfold got at h
  split at h
  · rename_i j' o e' hh
    simp only [Option.some.injEq, Prod.mk.injEq] at h
    obtain ⟨rfl, rfl, h1, h2⟩ := h
    exact ⟨o, returns_of_run hh (by simp), h1, h2⟩
  · cases h

/-- The token list `ts` followed by the end mark. -/
def mkEnv (ts : List Str) : Env := ⟨ts ++ [[]], fun _ => true, false, fun _ => .panic⟩

theorem mkEnv_wf {ts : List Str} (h : [] ∉ ts) : Wf (mkEnv ts) := ⟨ts, rfl, h⟩

theorem mkEnv_mt (ts : List Str) : MtGood (mkEnv ts) := fun h => by simp [mkEnv] at h

def bitToks : List Str := [(str! "/begin BIT_OPERATION"), (str! "/begin UNIT"),
  (str! "RIGHT_SHIFT"), (str! "1"), (str! "/end BIT_OPERATION")]

/-- C31 is false of BIT_OPERATION: the error set for the unexpected keyword is overwritten by
the next part that is read. -/
theorem C31_false : ¬ C31_full := by
  intro h
  obtain ⟨i', v, hr⟩ := h (mkEnv bitToks) (mkEnv_wf (by decide)) (mkEnv_mt _) .parseBitOperation (by decide) 0 (by decide)
    ⟨rfl, 0, 0, _, 0, .nil, (str! "/begin UNIT"), by decide +kernel, rfl, by decide, by decide⟩
  have hg : got (mkEnv bitToks) .parseBitOperation 0 "x" = some (4, false, none, none) := by decide +kernel
  obtain ⟨o, hr', _⟩ := got_spec hg
  have := hr.unique hr'
  simp at this

/-- The hypotheses of C31 are met: `/begin AXIS_PTS ... /begin UNIT`. -/
example : ∃ i' v, Returns (mkEnv [(str! "/begin AXIS_PTS"), (str! "name"), (str! "/begin UNIT"), (str! "/end AXIS_PTS")])
    .parseAxisPts 0 (.ok i' v true) :=
  C31_partial (mkEnv_wf (by decide)) (mkEnv_mt _) (by decide) (by decide)
    ⟨rfl, 1, 1, _, 1, .cons (.param (p := ⟨"name", "nameSet", .str⟩) (t := (str! "name")) (v := .str (str! "name")) rfl rfl
      ⟨by decide, by decide, by decide, Or.inr (by decide +kernel)⟩ rfl) .nil,
      (str! "/begin UNIT"), by decide +kernel, rfl, by decide, by decide⟩

/-! ### C32 -/

/-- C32 as stated, for all declared objects: from every text of the object the parser gets
exactly the values of the text. -/
def C32_full : Prop := ∀ (E : Env), Wf E → ∀ (p : PName) (i i' : Nat) (o : Obj),
  Text E (fin p) (shape p) i i' o →
  ∃ o', Returns E p i (.ok i' (.obj o') false) ∧ SameValues (shape p).flags o' o

/-- Optional markers aside, `vs` are put into the fields of `ps`. -/
def fill : List Param → List Val → Obj → Obj
  | p :: ps, v :: vs, o => fill ps vs (o.set p.field v)
  | _, _, o => o

theorem fill_other : ∀ (ps : List Param) (vs : List Val) (o : Obj) (f : String), f ∉ ps.map (·.field) →
    fill ps vs o f = o f
  | [], _, _, _, _ => by simp [fill]
  | _ :: _, [], _, _, _ => by simp [fill]
  | p :: ps, v :: vs, o, f, h => by
    simp only [List.map_cons, List.mem_cons, not_or] at h
    rw [fill, fill_other ps vs _ f h.2]
    simp [Obj.set, h.1]

theorem fill_get : ∀ (ps : List Param) (vs : List Val) (o : Obj), (ps.map (·.field)).Nodup →
    ∀ (j : Nat) (p : Param) (v : Val), ps[j]? = some p → vs[j]? = some v → fill ps vs o p.field = v
  | [], _, _, _, j, p, v, hp, _ => by simp at hp
  | _ :: _, [], _, _, j, p, v, _, hv => by simp at hv
  | q :: ps, w :: vs, o, hn, j, p, v, hp, hv => by
    simp only [List.map_cons, List.nodup_cons] at hn
    cases j with
    | zero =>
      simp only [List.getElem?_cons_zero, Option.some.injEq] at hp hv
      subst hp hv
      rw [fill, fill_other ps vs _ _ hn.1]
      simp [Obj.set]
    | succ j => rw [fill]; exact fill_get ps vs _ hn.2 j p v (by simpa using hp) (by simpa using hv)

/-- The tokens after position `i` are `ws`. -/
def Words (E : Env) (i : Nat) (ws : List Str) : Prop := ∀ j w, ws[j]? = some w → TokAfter E (i + j) w

theorem Words.tail {E : Env} {i : Nat} {w : Str} {ws : List Str} (h : Words E i (w :: ws)) : Words E (i + 1) ws := by
  intro j x hx
  have := h (j + 1) x (by simpa using hx)
  unfold TokAfter at this ⊢
  rw [← this]; congr 1; omega

theorem items_words {E : Env} {R : PName → Nat → Nat → Val → Prop} {raw : Bool} {fin : Str} {ps : List Param}
    {rest : Rest} {subs : List (Str × Sub)} : ∀ (qs : List Param) (ws : List Str) (vs : List Val) (m i : Nat) (o : Obj),
    ps.drop m = qs → ws.length = qs.length → vs.length = qs.length → Words E i ws →
    (∀ w ∈ ws, Plain raw fin subs w) →
    (∀ (j : Nat) (p : Param) (w : Str) (v : Val), qs[j]? = some p → ws[j]? = some w → vs[j]? = some v → Denotes E p.kind w v) →
    Items E R raw fin ps rest subs qs.length ⟨m, o, i⟩ ⟨m + qs.length, fill qs vs o, i + qs.length⟩
  | [], ws, vs, m, i, o, _, _, _, _, _, _ => by simp only [fill, List.length_nil, Nat.add_zero]; exact .nil
  | q :: qs, w :: ws, v :: vs, m, i, o, hd, hlw, hlv, htx, hpl, hv => by
    have h0 : ps[m]? = some q := by
      have : (ps.drop m)[0]? = some q := by rw [hd]; rfl
      simpa using this
    have h1 : ps.drop (m + 1) = qs := by
      have : (ps.drop m).drop 1 = qs := by rw [hd]; rfl
      simpa [List.drop_drop] using this
    have ih := items_words (R := R) (rest := rest) qs ws vs (m + 1) (i + 1) (o.set q.field v) h1 (by simpa using hlw) (by simpa using hlv)
      htx.tail (fun x hx => hpl x (List.mem_cons_of_mem _ hx))
      (fun j p x y a b c => hv (j + 1) p x y (by simpa using a) (by simpa using b) (by simpa using c))
    rw [fill, List.length_cons]
    have e1 : m + (qs.length + 1) = m + 1 + qs.length := by omega
    have e2 : i + (qs.length + 1) = i + 1 + qs.length := by omega
    rw [e1, e2]
    exact .cons (.param h0 (htx 0 w rfl) (hpl w (List.mem_cons_self ..)) (hv 0 q w v rfl rfl rfl)) ih
  | _ :: _, [], _, _, _, _, _, h, _, _, _, _ => by simp at h
  | _ :: _, _ :: _, [], _, _, _, _, _, h, _, _, _ => by simp at h

theorem params_words {E : Env} : ∀ (ps : List Param) (ws : List Str) (vs : List Val) (i : Nat) (o : Obj),
    ws.length = ps.length → vs.length = ps.length → Words E i ws → (∀ w ∈ ws, w ≠ [] ∧ w ∉ keywords) →
    (∀ (j : Nat) (p : Param) (w : Str) (v : Val), ps[j]? = some p → ws[j]? = some w → vs[j]? = some v → Denotes E p.kind w v) →
    Params E i ps o (fill ps vs o)
  | [], ws, vs, i, o, _, _, _, _, _ => by simp only [fill]; exact .nil
  | q :: qs, w :: ws, v :: vs, i, o, hlw, hlv, htx, hpl, hv =>
    .cons (htx 0 w rfl) (hpl w (List.mem_cons_self ..)).1 (hpl w (List.mem_cons_self ..)).2 (hv 0 q w v rfl rfl rfl)
      (params_words qs ws vs (i + 1) _ (by simpa using hlw) (by simpa using hlv)
      htx.tail (fun x hx => hpl x (List.mem_cons_of_mem _ hx))
      (fun j p x y a b c => hv (j + 1) p x y (by simpa using a) (by simpa using b) (by simpa using c)))
  | _ :: _, [], _, _, _, h, _, _, _, _ => by simp at h
  | _ :: _, _ :: _, [], _, _, _, h, _, _, _ => by simp at h

/-- Positional parameters of a shape. -/
def _root_.Verif.A2l.Decl.Shape.params : Shape → List Param
  | .keyword _ _ => []
  | .one p => [p]
  | .seq ps => ps
  | .block _ ps _ _ _ => ps
  | .other => []

/-- First tokens of the optional parts of a shape. -/
def _root_.Verif.A2l.Decl.Shape.keys : Shape → List Str
  | .block _ _ _ subs _ => subs.map (·.1)
  | _ => []

/-- No field of a declared object is used for two parameters or for a marker. -/
theorem fields_nodup (p : PName) (hp : p ∉ irregular) :
    ((shape p).params.map (·.field)).Nodup ∧ ∀ q ∈ (shape p).params, q.field ∉ (shape p).flags := by
  cases p <;> first | exact absurd (by decide) hp | decide +kernel

/-- C32 for the 171 functions that follow their declaration: from every text of the declared
object (parameters in order, optional parts anywhere between them) the function succeeds with
exactly the values of the text. Missing: the irregular functions; for several of them it is
false, see below. -/
theorem C32_partial {E : Env} (hw : Wf E) {p : PName} (hp : p ∉ irregular) {i i' : Nat} {o : Obj}
    (h : Text E (fin p) (shape p) i i' o) :
    ∃ o', Returns E p i (.ok i' (.obj o') false) ∧ SameValues (shape p).flags o' o :=
  accepts_all_text hw hp h

/-- And conversely: whatever such a function accepts is a text of the declared object, and the
result has the values of the text. -/
theorem C32_only_partial {E : Env} (hw : Wf E) {p : PName} (hp : p ∉ irregular) {i i' : Nat} {v : Val}
    (h : Returns E p i (.ok i' v false)) :
    ∃ o o', v = .obj o' ∧ Text E (fin p) (shape p) i i' o ∧ SameValues (shape p).flags o' o :=
  accepts_only_text hw hp h

/-- The plain case for blocks: the parameters `ws` in order, then the closing token. Each value
ends up in its own field. -/
theorem C32_block_partial {E : Env} (hw : Wf E) {p : PName} (hp : p ∉ irregular) {raw : Bool} {ps : List Param}
    {rest : Rest} {subs : List (Str × Sub)} {maps : List String} (hsh : shape p = .block raw ps rest subs maps)
    {i : Nat} {ws : List Str} {vs : List Val} (hlw : ws.length = ps.length) (hlv : vs.length = ps.length)
    (htx : Words E i (ws ++ [fin p])) (hpl : ∀ w ∈ ws, Plain raw (fin p) subs w)
    (hv : ∀ (j : Nat) (q : Param) (w : Str) (v : Val), ps[j]? = some q → ws[j]? = some w → vs[j]? = some v → Denotes E q.kind w v) :
    ∃ o, Returns E p i (.ok (i + ws.length + 1) (.obj o) false) ∧
      ∀ (j : Nat) (q : Param) (v : Val), ps[j]? = some q → vs[j]? = some v → o q.field = v := by
  have h1 := items_words (R := Succeeds E) (rest := rest) (subs := subs) ps ws vs 0 i (start maps) rfl hlw hlv
    (fun j w hj => htx j w (by
      rw [List.getElem?_append_left (by have := (List.getElem?_eq_some_iff.1 hj).1; exact this)]; exact hj)) hpl hv
  have h2 : TokAfter E (i + ps.length) (fin p) := by
    have := htx ws.length (fin p) (by simp)
    rw [hlw] at this
    exact this
  have h3 : Text E (fin p) (shape p) i (i + ws.length + 1) (fill ps vs (start maps)) := by
    rw [hsh, hlw]
    exact ⟨_, _, _, h1, h2, rfl⟩
  obtain ⟨o', h4, h5⟩ := accepts_all_text hw hp h3
  refine ⟨o', h4, fun j q v hq hv' => ?_⟩
  obtain ⟨n1, n2⟩ := fields_nodup p hp
  rw [h5 _ (n2 q (by rw [hsh]; exact List.mem_of_getElem? hq))]
  rw [hsh] at n1
  exact fill_get ps vs _ n1 j q v hq hv'

/-- The plain case for keywords with a fixed number of parameters. -/
theorem C32_seq_partial {E : Env} (hw : Wf E) {p : PName} (hp : p ∉ irregular) {ps : List Param}
    (hsh : shape p = .seq ps ∨ ∃ q, shape p = .one q ∧ ps = [q])
    {i : Nat} {ws : List Str} {vs : List Val} (hlw : ws.length = ps.length) (hlv : vs.length = ps.length)
    (htx : Words E i ws) (hpl : ∀ w ∈ ws, w ≠ [] ∧ w ∉ keywords)
    (hv : ∀ (j : Nat) (q : Param) (w : Str) (v : Val), ps[j]? = some q → ws[j]? = some w → vs[j]? = some v → Denotes E q.kind w v) :
    ∃ o, Returns E p i (.ok (i + ws.length) (.obj o) false) ∧
      ∀ (j : Nat) (q : Param) (v : Val), ps[j]? = some q → vs[j]? = some v → o q.field = v := by
  have h1 := params_words ps ws vs i Obj.empty hlw hlv htx hpl hv
  have h3 : Text E (fin p) (shape p) i (i + ws.length) (fill ps vs Obj.empty) := by
    rcases hsh with hsh | ⟨q, hsh, rfl⟩
    · rw [hsh, hlw]; exact ⟨h1, rfl⟩
    · rw [hsh, hlw]; exact ⟨h1, rfl⟩
  have h0 : (shape p).params = ps := by
    rcases hsh with hsh | ⟨q, hsh, rfl⟩ <;> rw [hsh] <;> rfl
  obtain ⟨o', h4, h5⟩ := accepts_all_text hw hp h3
  refine ⟨o', h4, fun j q v hq hv' => ?_⟩
  obtain ⟨n1, n2⟩ := fields_nodup p hp
  rw [h0] at n1 n2
  rw [h5 _ (n2 q (List.mem_of_getElem? hq))]
  exact fill_get ps vs _ n1 j q v hq hv'

/-- C32 on an example: a MOD_COMMON. -/
example : ∃ o, Returns (mkEnv [(str! "/begin MOD_COMMON"), (str! "\"text\""), (str! "/end MOD_COMMON")])
      .parseModCommon 0 (.ok 2 (.obj o) false) ∧
    ∀ (j : Nat) (q : Param) (v : Val), [(⟨"comment", "commentSet", .str⟩ : Param)][j]? = some q →
      [Val.str (str! "\"text\"")][j]? = some v → o q.field = v := by
  refine C32_block_partial (mkEnv_wf (by decide)) (by decide) (ws := [(str! "\"text\"")]) rfl rfl rfl ?_ ?_ ?_
  · intro j w hj
    match j with
    | 0 => cases hj; rfl
    | 1 => cases hj; rfl
    | j + 2 => simp at hj
  · intro w hw
    rw [List.mem_singleton] at hw
    subst hw
    exact ⟨by decide, by decide, by decide +kernel, Or.inr (by decide +kernel)⟩
  · intro j q w v h1 h2 h3
    match j with
    | 0 => cases h1; cases h2; cases h3; rfl
    | j + 1 => simp at h1

def measToks : List Str := [(str! "/begin MEASUREMENT"), (str! "N"), (str! "\"speed\""), (str! "UWORD"), (str! "CM"),
  (str! "7"), (str! "0.5"), (str! "0"), (str! "100"), (str! "/end MEASUREMENT")]

def measWords : List Str := [(str! "N"), (str! "\"speed\""), (str! "UWORD"), (str! "CM"),
  (str! "7"), (str! "0.5"), (str! "0"), (str! "100")]

def measVals : List Val := [.str (str! "N"), .str (str! "\"speed\""), .str (str! "UWORD"), .str (str! "CM"),
  .int 7, .flt (str! "0.5"), .flt (str! "0"), .flt (str! "100")]

theorem meas_text : Text (mkEnv measToks) (fin .parseMeasurement) (shape .parseMeasurement) 0 9
    (fill (shape .parseMeasurement).params measVals (start [])) := by
  refine ⟨8, 8, 8, ?_, rfl, rfl⟩
  refine items_words (shape .parseMeasurement).params measWords measVals 0 0 (start []) rfl rfl rfl ?_ ?_ ?_
  · intro j w hj
    match j with
    | 0 | 1 | 2 | 3 | 4 | 5 | 6 | 7 => cases hj; rfl
    | j + 8 => simp [measWords] at hj
  · have : ∀ w ∈ measWords, w ≠ [] ∧ w ≠ fin .parseMeasurement ∧ w ∉ keywords ∧
        w ∉ (shape .parseMeasurement).keys := by decide +kernel
    intro w hw
    obtain ⟨h1, h2, h3, h4⟩ := this w hw
    exact ⟨h1, h2, h4, Or.inr h3⟩
  · intro j q w v h1 h2 h3
    match j with
    | 0 | 1 | 3 => cases h1; cases h2; cases h3; rfl
    | 2 => cases h1; cases h2; cases h3; exact ⟨⟨(str! "UWORD"), by decide⟩, rfl⟩
    | 4 => cases h1; cases h2; cases h3; exact ⟨7, ⟨by decide, by unfold IsDigit; decide, by decide⟩, by decide, rfl⟩
    | 5 | 6 | 7 => cases h1; cases h2; cases h3; exact ⟨rfl, rfl⟩
    | j + 8 => simp [measWords] at h2

/-- C32 is false: in the MEASUREMENT `N "speed" UWORD CM 7 0.5 0 100` the parser puts `100`
into `conversion` and leaves `resolution`, `accuracy` and both limits empty. -/
theorem C32_false : ¬ C32_full := by
  intro h
  obtain ⟨o', hr, hs⟩ := h (mkEnv measToks) (mkEnv_wf (by decide)) .parseMeasurement 0 9 _ meas_text
  have hg : got (mkEnv measToks) .parseMeasurement 0 "resolution" = some (9, false, none, none) := by decide +kernel
  obtain ⟨o, hr', _, h2⟩ := got_spec hg
  have := hr.unique hr'
  simp only [PRes.ok.injEq, Val.obj.injEq, true_and, and_true] at this
  subst this
  have h3 := hs "resolution" (by decide)
  rw [h3] at h2
  exact absurd h2 (by decide +kernel)

theorem C32_measurement_false : ∃ o, Returns (mkEnv measToks) .parseMeasurement 0 (.ok 9 (.obj o) false) ∧
    strOf (o "conversion") = some (str! "100") :=
  have hg : got (mkEnv measToks) .parseMeasurement 0 "conversion" = some (9, false, some (str! "100"), none) := by
    decide +kernel
  let ⟨o, h1, h2, _⟩ := got_spec hg
  ⟨o, h1, h2⟩

/-- The same defect in TYPEDEF_MEASUREMENT. -/
theorem C32_typedef_measurement_false : ∃ o, Returns (mkEnv [(str! "/begin TYPEDEF_MEASUREMENT"), (str! "N"),
      (str! "\"speed\""), (str! "UWORD"), (str! "CM"), (str! "7"), (str! "0.5"), (str! "0"), (str! "100"),
      (str! "/end TYPEDEF_MEASUREMENT")]) .parseTypeDefMeasurement 0 (.ok 9 (.obj o) false) ∧
    strOf (o "conversion") = some (str! "100") :=
  have hg : got (mkEnv [(str! "/begin TYPEDEF_MEASUREMENT"), (str! "N"),
      (str! "\"speed\""), (str! "UWORD"), (str! "CM"), (str! "7"), (str! "0.5"), (str! "0"), (str! "100"),
      (str! "/end TYPEDEF_MEASUREMENT")]) .parseTypeDefMeasurement 0 "conversion" =
      some (9, false, some (str! "100"), none) := by
    decide +kernel
  let ⟨o, h1, h2, _⟩ := got_spec hg
  ⟨o, h1, h2⟩

/-- UNIT `km "kilometre" "km" DERIVED`: the long identifier becomes `DERIVED`. -/
theorem C32_unit_false : ∃ o, Returns (mkEnv [(str! "/begin UNIT"), (str! "km"), (str! "\"kilometre\""),
      (str! "\"km\""), (str! "DERIVED"), (str! "/end UNIT")]) .parseUnit 0 (.ok 5 (.obj o) false) ∧
    strOf (o "longIdentifier") = some (str! "DERIVED") :=
  have hg : got (mkEnv [(str! "/begin UNIT"), (str! "km"), (str! "\"kilometre\""),
      (str! "\"km\""), (str! "DERIVED"), (str! "/end UNIT")]) .parseUnit 0 "longIdentifier" =
      some (5, false, some (str! "DERIVED"), none) := by
    decide +kernel
  let ⟨o, h1, h2, _⟩ := got_spec hg
  ⟨o, h1, h2⟩

/-- `MATRIX_DIM 3 4 5`: the second dimension becomes 5 (and the third stays 0). -/
theorem C32_matrix_dim_false : ∃ o, Returns (mkEnv [(str! "MATRIX_DIM"), (str! "3"), (str! "4"), (str! "5"),
      (str! "/end CHARACTERISTIC")]) .parseMatrixDim 0 (.ok 3 (.obj o) false) ∧ intOf (o "DimY") = some 5 :=
  have hg : got (mkEnv [(str! "MATRIX_DIM"), (str! "3"), (str! "4"), (str! "5"),
      (str! "/end CHARACTERISTIC")]) .parseMatrixDim 0 "DimY" = some (3, false, none, some 5) := by
    decide +kernel
  let ⟨o, h1, _, h2⟩ := got_spec hg
  ⟨o, h1, h2⟩

/-- `NO_RESCALE_X 1 UBYTE`: the data type is not read; the cursor stays before it. -/
theorem C32_no_rescale_x_false : ∃ o, Returns (mkEnv [(str! "NO_RESCALE_X"), (str! "1"), (str! "UBYTE")])
    .parseNoRescaleX 0 (.ok 1 (.obj o) false) ∧ strOf (o "Datatype") = none :=
  have hg : got (mkEnv [(str! "NO_RESCALE_X"), (str! "1"), (str! "UBYTE")])
    .parseNoRescaleX 0 "Datatype" = some (1, false, none, none) := by
    decide +kernel
  let ⟨o, h1, h2, _⟩ := got_spec hg
  ⟨o, h1, h2⟩

/-- FRAME `F "text" 3 100`: the name becomes `100`. -/
theorem C32_frame_false : ∃ o, Returns (mkEnv [(str! "/begin FRAME"), (str! "F"), (str! "\"text\""),
      (str! "3"), (str! "100"), (str! "/end FRAME")]) .parseFrame 0 (.ok 5 (.obj o) false) ∧
    strOf (o "name") = some (str! "100") :=
  have hg : got (mkEnv [(str! "/begin FRAME"), (str! "F"), (str! "\"text\""),
      (str! "3"), (str! "100"), (str! "/end FRAME")]) .parseFrame 0 "name" =
      some (5, false, some (str! "100"), none) := by
    decide +kernel
  let ⟨o, h1, h2, _⟩ := got_spec hg
  ⟨o, h1, h2⟩

/-- OVERWRITE `a 1 CONVERSION CM`: the conversion becomes the keyword `CONVERSION`. -/
theorem C32_overwrite_false : ∃ o, Returns (mkEnv [(str! "/begin OVERWRITE"), (str! "a"), (str! "1"),
      (str! "CONVERSION"), (str! "CM"), (str! "/end OVERWRITE")]) .parseOverwrite 0 (.ok 5 (.obj o) false) ∧
    strOf (o "conversion") = some (str! "CONVERSION") :=
  have hg : got (mkEnv [(str! "/begin OVERWRITE"), (str! "a"), (str! "1"),
      (str! "CONVERSION"), (str! "CM"), (str! "/end OVERWRITE")]) .parseOverwrite 0 "conversion" =
      some (5, false, some (str! "CONVERSION"), none) := by
    decide +kernel
  let ⟨o, h1, h2, _⟩ := got_spec hg
  ⟨o, h1, h2⟩

end Verif.A2l.Props
