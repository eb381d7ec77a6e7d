import Verif.A2l.PrintFile

/-!
C70 from characters to structs, and a checker for legal objects.
-/

namespace Verif.A2l.Props
open Verif.Go Lang Analysis Decl Template Write File FileSpec Shared Verif.Conc ModSpec

/-! ### A checker for legal objects -/

def digitB (c : Char) : Bool := decide ('0' ≤ c) && decide (c ≤ '9')

def natB (t : Str) : Bool := !t.isEmpty && t.all digitB

def fitB (floatOk : Str → Bool) : Decl.Kind → Str → Bool
  | .str, _ => true
  | .uint b, t => natB t && decide (decVal t < 2 ^ b)
  | .int b, '-' :: t => natB t && decide (decVal t ≤ 2 ^ (b - 1))
  | .int b, '+' :: t => natB t && decide (decVal t < 2 ^ (b - 1))
  | .int b, t => natB t && decide (decVal t < 2 ^ (b - 1))
  | .float, t => floatOk t
  | .enum e, t => (e.table.map (·.1)).contains t

theorem natB_spec {t : Str} (h : natB t = true) : IsNat t (decVal t) := by
  simp only [natB, digitB, Bool.and_eq_true, Bool.not_eq_true', List.isEmpty_eq_false_iff, List.all_eq_true, decide_eq_true_eq] at h
  exact ⟨h.1, h.2, rfl⟩

theorem fitB_spec {E : Env} {k : Decl.Kind} {t : Str} (h : fitB E.floatOk k t = true) : ∃ v, Denotes E k t v := by
  cases k with
  | str => exact ⟨_, rfl⟩
  | uint b =>
    simp only [fitB, Bool.and_eq_true, decide_eq_true_eq] at h
    exact ⟨_, _, natB_spec h.1, h.2, rfl⟩
  | int b =>
    unfold fitB at h
    split at h
    · rename_i heq; cases heq
    · rename_i heq; cases heq
    · rename_i b' t' heq
      cases heq
      simp only [Bool.and_eq_true, decide_eq_true_eq] at h
      have hp : 0 < 2 ^ (b - 1) := Nat.pow_pos (by decide)
      exact ⟨_, _, Or.inr (Or.inr ⟨_, _, rfl, natB_spec h.1, rfl⟩), by omega, by omega, rfl⟩
    · rename_i b' t' heq
      cases heq
      simp only [Bool.and_eq_true, decide_eq_true_eq] at h
      exact ⟨_, _, Or.inr (Or.inl ⟨_, _, rfl, natB_spec h.1, rfl⟩), by omega, by omega, rfl⟩
    · rename_i b' t' heq _ _
      cases heq
      simp only [Bool.and_eq_true, decide_eq_true_eq] at h
      exact ⟨_, _, Or.inl ⟨_, natB_spec h.1, rfl⟩, by omega, by omega, rfl⟩
    · rename_i heq; cases heq
    · rename_i heq; cases heq
  | float => exact ⟨_, h, rfl⟩
  | enum e =>
    simp only [fitB, List.contains_eq_mem, decide_eq_true_eq] at h
    obtain ⟨x, hx, rfl⟩ := List.mem_map.1 h
    exact ⟨_, ⟨x.2, hx⟩, rfl⟩

def fitsB (floatOk : Str → Bool) (ps : List Param) (ws : List Str) : Bool :=
  ws.length == ps.length && (ps.zip ws).all fun x => fitB floatOk x.1.kind x.2

theorem fitsB_spec {E : Env} {ps : List Param} {ws : List Str} (h : fitsB E.floatOk ps ws = true) : Fits E ps ws := by
  simp only [fitsB, Bool.and_eq_true, beq_iff_eq, List.all_eq_true] at h
  refine ⟨h.1, fun k q w h1 h2 => fitB_spec (h.2 (q, w) ?_)⟩
  have := (List.getElem?_zip_eq_some (z := (q, w))).2 ⟨h1, h2⟩
  exact List.mem_of_getElem? this

def fitsRestB (floatOk : Str → Bool) : Rest → List Str → Bool
  | .none, ms => ms.isEmpty
  | .list _ _ k, ms => ms.all (fitB floatOk k)
  | .text _ _, _ => true

theorem fitsRestB_spec {E : Env} {rest : Rest} {ms : List Str} (h : fitsRestB E.floatOk rest ms = true) : FitsRest E rest ms := by
  cases rest with
  | none => exact List.isEmpty_iff.1 h
  | list f fl k => exact fun w hw => fitB_spec (List.all_eq_true.1 h w hw)
  | text f fl => trivial

def plainB (raw : Bool) (fin : Str) (subs : List (Str × Sub)) (t : Str) : Bool :=
  decide (t ≠ [] ∧ t ≠ fin ∧ t ∉ subs.map (·.1) ∧ (raw = true ∨ t ∉ keywords))

def allowedB (subs : List (Str × Sub)) (n : Node) : Bool := subs.any fun s =>
  s.1 = n.key && match n, s.2 with
    | .obj _ fn _ _ _, .obj q _ _ => fn = q
    | .given _ fn _ _, .obj q _ _ => fn = q
    | .choice _ w, .enum e _ => e.usesNext && (e.table.map (·.1)).contains w
    | _, _ => false

theorem allowedB_spec {subs : List (Str × Sub)} {n : Node} (h : allowedB subs n = true) : Allowed subs n := by
  obtain ⟨⟨k, s⟩, hs, h⟩ := List.any_eq_true.1 h
  simp only [Bool.and_eq_true, decide_eq_true_eq] at h
  obtain ⟨rfl, h⟩ := h
  cases n with
  | obj k fn ws ms parts =>
    cases s with
    | obj q f md => simp only [decide_eq_true_eq] at h; subst h; exact ⟨f, md, hs⟩
    | enum e f => cases h
  | given k fn ts v =>
    cases s with
    | obj q f md => simp only [decide_eq_true_eq] at h; subst h; exact ⟨f, md, hs⟩
    | enum e f => cases h
  | choice k w =>
    cases s with
    | obj q f md => cases h
    | enum e f =>
      simp only [Bool.and_eq_true, List.contains_eq_mem, decide_eq_true_eq] at h
      obtain ⟨x, hx, rfl⟩ := List.mem_map.1 h.2
      exact ⟨e, f, x.2, hs, h.1, hx⟩

mutual
/-- A checker for `Legal`. -/
def legalB (floatOk : Str → Bool) : Node → Bool
  | .obj _ fn ws ms parts => !irregular.contains fn && match shape fn with
    | .keyword _ _ => ws.isEmpty && ms.isEmpty && parts.isEmpty
    | .seq ps => fitsB floatOk ps ws && ms.isEmpty && parts.isEmpty && ws.all (fun w => decide (w ≠ [] ∧ w ∉ keywords))
    | .one q => fitsB floatOk [q] ws && ms.isEmpty && parts.isEmpty && ws.all (fun w => decide (w ≠ [] ∧ w ∉ keywords))
    | .block raw ps rest subs _ => fitsB floatOk ps ws && fitsRestB floatOk rest ms && (ws ++ ms).all (plainB raw (fin fn) subs) &&
        parts.all (allowedB subs) && followed parts (fin fn) && legalsB floatOk parts
    | .other => false
  | .choice _ _ => true
  | .given _ _ _ _ => false
def legalsB (floatOk : Str → Bool) : List Node → Bool
  | [] => true
  | n :: ns => legalB floatOk n && legalsB floatOk ns
end

mutual
theorem legalB_spec {E : Env} : ∀ n : Node, legalB E.floatOk n = true → Write.Legal E n
  | .choice _ _, _ => .choice
  | .given _ _ _ _, h => by simp [legalB] at h
  | .obj k fn ws ms parts, h => by
    rw [legalB] at h
    simp only [Bool.and_eq_true, Bool.not_eq_true', List.contains_eq_mem, decide_eq_false_iff_not] at h
    obtain ⟨hr, h⟩ := h
    cases hs : shape fn with
    | keyword f fl =>
      rw [hs] at h
      simp only [Bool.and_eq_true, List.isEmpty_iff] at h
      obtain ⟨⟨rfl, rfl⟩, rfl⟩ := h
      exact .keyword hr hs
    | seq ps =>
      rw [hs] at h
      simp only [Bool.and_eq_true, List.isEmpty_iff, List.all_eq_true, decide_eq_true_eq] at h
      obtain ⟨⟨⟨h1, rfl⟩, rfl⟩, h2⟩ := h
      exact .flat hr (Or.inl hs) (fitsB_spec h1) h2
    | one q =>
      rw [hs] at h
      simp only [Bool.and_eq_true, List.isEmpty_iff, List.all_eq_true, decide_eq_true_eq] at h
      obtain ⟨⟨⟨h1, rfl⟩, rfl⟩, h2⟩ := h
      exact .flat hr (Or.inr ⟨q, hs, rfl⟩) (fitsB_spec h1) h2
    | block raw ps rest subs maps =>
      rw [hs] at h
      simp only [Bool.and_eq_true] at h
      obtain ⟨⟨⟨⟨⟨h1, h2⟩, h3⟩, h4⟩, h6⟩, h5⟩ := h
      refine .block hr hs (fitsB_spec h1) (fitsRestB_spec h2) (fun w hw => ?_) (fun n hn => ?_) h6 (legalsB_spec parts h5)
      · have := List.all_eq_true.1 h3 w hw
        simp only [plainB, decide_eq_true_eq] at this
        exact this
      · exact allowedB_spec (List.all_eq_true.1 h4 n hn)
    | other => rw [hs] at h; cases h
theorem legalsB_spec {E : Env} : ∀ ns : List Node, legalsB E.floatOk ns = true → ∀ n ∈ ns, Write.Legal E n
  | [], _ => fun _ hn => (List.not_mem_nil hn).elim
  | n :: ns, h => by
    rw [legalsB, Bool.and_eq_true] at h
    exact List.forall_mem_cons.2 ⟨legalB_spec n h.1, legalsB_spec ns h.2⟩
end

/-! ### C70 -/

/-- C70 for objects: a legal object that is written as tokens is read, wherever its tokens stand, with exactly the value
that was written, all markers included, and reading stops at its last token (an object without an end of its own
has to stand before a token that ends it). Missing: the functions in `irregular`, of which
some do not read back what was written (`C70_false`); they can take part as `given`. -/
theorem C70_object_partial {E : Env} (hw : Wf E) {n : Node} (h : Write.Legal E n) {fn : PName} (hf : fnOf n = some fn) {i : Nat}
    (hk : E.toks[i]? = some n.key) (ht : Words E i n.tail)
    (hn : ∀ l, n.stops = some l → ∃ t ∈ l, TokAfter E (i + n.tail.length) t) :
    Returns E fn i (.ok (i + n.tail.length) n.value false) := legal_read hw h fn hf i hk ht hn

/-- The environment in which a written file is read. -/
def writtenEnv (floatOk : Str → Bool) (ns : List Node) : Env := ⟨written ns ++ [[]], floatOk, false, fun _ => .panic⟩

theorem writtenEnv_wf {floatOk : Str → Bool} {ns : List Node} (h : ∀ t ∈ written ns, Writable t) : Wf (writtenEnv floatOk ns) :=
  ⟨written ns, rfl, fun hh => (writable_line (h _ hh)).2 rfl⟩

theorem own_result (S : Setup) (c : Nat) (before after : List Nat) (hb : c ∉ before) {ts : List Str}
    (hts : tokensOfFile S.graphic S.np (S.text c) = some ts) (h32 : ts.count (str! "/begin MODULE") < 2 ^ 32) :
    (calls S init (before ++ List.replicate (S.np + 3) c ++ after)).result c =
      some (A2l.parse (if 2 ≤ ts.count (str! "/begin MODULE") then ⟨ts, S.floatOk, false, fun _ => .panic⟩
        else mtEnv ⟨ts, S.floatOk, false, fun _ => .panic⟩ S.np (S.sched c)) .parseA2l 0) := by
  obtain ⟨r, h1, ts', h3, h4⟩ := C37_partial S c before after hb (fun ts' h => by
    rw [hts] at h; cases h; exact h32)
  rw [hts] at h3
  cases h3
  rw [h1, h4]
  have hm : useMultithreading ts = !decide (2 ≤ ts.count (str! "/begin MODULE")) := by
    unfold useMultithreading moduleCount
    rw [show beginModule = (str! "/begin MODULE") by decide]
    rfl
  rw [hm]
  by_cases h : 2 ≤ ts.count (str! "/begin MODULE")
  · rw [if_pos h]; simp [h]
  · rw [if_neg h]; simp [h]

theorem count_end (ts : List Str) : (ts ++ [[]]).count (str! "/begin MODULE") = ts.count (str! "/begin MODULE") := by
  rw [List.count_append]; rfl

/-- C70: a file of legal objects with at least two modules, written with one token per line, is read with exactly the values
that were written, by any number of workers, whatever other calls happen before and after. Missing: overlapping calls (C37),
the functions in `irregular`. -/
theorem C70_partial (S : Setup) (hnp : 0 < S.np) (c : Nat) (before after : List Nat) (hb : c ∉ before) (ns : List Node)
    (ha : ∀ n ∈ ns, Allowed fileParts n) (hp : ∀ n ∈ ns, Write.Legal (writtenEnv S.floatOk ns) n)
    (hwr : ∀ t ∈ written ns, Writable t) (hc : Clean S.graphic (unlines (written ns))) (htext : S.text c = unlines (written ns))
    (h2 : 2 ≤ (written ns).count (str! "/begin MODULE")) (h32 : (written ns).count (str! "/begin MODULE") < 2 ^ 32) :
    (calls S init (before ++ List.replicate (S.np + 3) c ++ after)).result c =
      some (.ok (written ns).length (.obj (fileStruct ns)) false) := by
  have hne : written ns ≠ [] := fun hh => by rw [hh] at h2; exact absurd h2 (by decide)
  have hts : tokensOfFile S.graphic S.np (S.text c) = some (written ns ++ [[]]) := by
    rw [htext]; exact C70_lines S.graphic hne hwr hc hnp
  rw [own_result S c before after hb hts (by rw [count_end]; exact h32), count_end, if_pos h2]
  exact congrArg some (C70_tokens_partial (E := writtenEnv S.floatOk ns) (writtenEnv_wf hwr) rfl ha hp rfl)

/-- C70 for files with one module, which is read by several workers: under the conditions of `C34_partial` on the module.
Missing: the other modules, see `C34_false`. -/
theorem C70_one_module_partial (S : Setup) (hnp : 0 < S.np) (c : Nat) (before after : List Nat) (hb : c ∉ before) (ns : List Node)
    (ha : ∀ n ∈ ns, Allowed fileParts n) (hp : ∀ n ∈ ns, Write.Legal (writtenEnv S.floatOk ns) n) (hne : ns ≠ [])
    (hwr : ∀ t ∈ written ns, Writable t) (hc : Clean S.graphic (unlines (written ns))) (htext : S.text c = unlines (written ns))
    (h2 : (written ns).count (str! "/begin MODULE") ≤ 1)
    (hsched : ∀ i < (written ns).length + 1, mtModule (writtenEnv S.floatOk ns) S.np (S.sched c i) i ≠ .timeout)
    (hmod : ∀ i j, (written ns)[i]? = some (str! "/begin MODULE") →
      (∃ v, Returns (writtenEnv S.floatOk ns) .parseModule i (.ok j v false)) → OneModule (writtenEnv S.floatOk ns) i j ∧
      ∀ os, Scan (writtenEnv S.floatOk ns) (i + 2) os j → SafeCuts (writtenEnv S.floatOk ns) (i + 2) j S.np os ∧ Consistent os) :
    (calls S init (before ++ List.replicate (S.np + 3) c ++ after)).result c =
      some (.ok (written ns).length (.obj (fileStruct ns)) false) := by
  have hne' : written ns ≠ [] := by
    cases ns with
    | nil => exact absurd rfl hne
    | cons n ns => rw [written]; simp
  have hts : tokensOfFile S.graphic S.np (S.text c) = some (written ns ++ [[]]) := by
    rw [htext]; exact C70_lines S.graphic hne' hwr hc hnp
  rw [own_result S c before after hb hts (by rw [count_end]; exact Nat.lt_of_le_of_lt h2 (by decide)), count_end,
    if_neg (by omega)]
  refine congrArg some (C34_file_partial (E := writtenEnv S.floatOk ns) (writtenEnv_wf hwr) rfl hnp (fun i hi => hsched i ?_) ?_
    (C70_tokens_partial (E := writtenEnv S.floatOk ns) (writtenEnv_wf hwr) rfl ha hp rfl))
  · simpa [writtenEnv] using hi
  · intro i j hi hv
    refine hmod i j ?_ hv
    have hi' : (written ns ++ [[]])[i]? = some (str! "/begin MODULE") := hi
    by_cases hl : i < (written ns).length
    · rwa [List.getElem?_append_left hl] at hi'
    · rw [List.getElem?_append_right (by omega)] at hi'
      have hm := List.mem_of_getElem? hi'
      simp at hm

/-- The full statement for blocks without optional parts: what is written is read. -/
def C70_full : Prop := ∀ (E : Env), Wf E → ∀ (fn : PName), fn ≠ .parseModuleMultithreaded → ∀ raw ps rest subs maps,
  shape fn = .block raw ps rest subs maps → ∀ ws, Fits E ps ws → (∀ w ∈ ws, Plain raw (fin fn) subs w) →
  ∀ i, Words E i (ws ++ [fin fn]) → Returns E fn i (.ok (i + ws.length + 1) (.obj (struct (shape fn) ws [] [])) false)

/-- C70 is false of MEASUREMENT: the parameters after the third are mixed up. -/
theorem C70_false : ¬ C70_full := by
  intro h
  have := h (mkEnv measToks) (mkEnv_wf (by decide)) .parseMeasurement (by decide) _ _ _ _ _ rfl measWords
    (fitsB_spec (by decide +kernel)) (by
      intro w hw
      have : measWords.all (plainB false (fin .parseMeasurement) (Shape.subs (shape .parseMeasurement))) = true := by decide +kernel
      have := List.all_eq_true.1 this w hw
      simp only [plainB, decide_eq_true_eq] at this
      exact this) 0 (by
      intro j w hj
      match j with
      | 0 | 1 | 2 | 3 | 4 | 5 | 6 | 7 | 8 => cases hj; rfl
      | j + 9 => simp [measWords] at hj)
  have hg : got (mkEnv measToks) .parseMeasurement 0 "resolution" = some (9, false, none, none) := by decide +kernel
  obtain ⟨o, hr', _, h2⟩ := got_spec hg
  have := this.unique hr'
  simp only [PRes.ok.injEq, Val.obj.injEq, and_true] at this
  rw [← this.2] at h2
  have hx : intOf (struct (shape .parseMeasurement) measWords [] [] "resolution") = some 7 := by decide +kernel
  rw [hx] at h2
  cases h2

/-! ### Non-vacuity -/

def demoModule1 : Node := .obj (str! "/begin MODULE") .parseModule [(str! "M1"), (str! "\"first module\"")] [] [
  .obj (str! "/begin MOD_PAR") .parseModPar [(str! "\"\"")] [] [
    .obj (str! "SYSTEM_CONSTANT") .parseSystemConstant [(str! "\"A\""), (str! "\"1\"")] [] []],
  .obj (str! "/begin GROUP") .parseGroup [(str! "G"), (str! "\"a group\"")] [] [
    .obj (str! "ROOT") .parseRoot [] [] [],
    .obj (str! "/begin REF_CHARACTERISTIC") .parseRefCharacteristic [] [(str! "x"), (str! "y")] []],
  .obj (str! "/begin CHARACTERISTIC") .parseCharacteristic [(str! "x"), (str! "\"\""), (str! "VALUE"), (str! "0x10"),
      (str! "RL"), (str! "0"), (str! "CM"), (str! "-1"), (str! "1.5")] [] [
    .choice (str! "CALIBRATION_ACCESS") (str! "CALIBRATION"),
    .obj (str! "BIT_MASK") .parseBitMask [(str! "255")] [] []]]

def demoModule2 : Node := .obj (str! "/begin MODULE") .parseModule [(str! "M2"), (str! "\"\"")] [] []

def demoFile : List Node := [
  .obj (str! "ASAP2_VERSION") .parseASAP2Version [(str! "1"), (str! "71")] [] [],
  project (str! "P") (str! "\"project\"") [demoModule1, demoModule2]]

def wordB (w : Str) : Bool := !w.isEmpty && w.all fun c => !isSpace c && c ≠ '"' && c ≠ '/'

theorem wordB_spec {w : Str} (h : wordB w = true) : Spec.Plain w := by
  simp only [wordB, Bool.and_eq_true, Bool.not_eq_true', List.isEmpty_eq_false_iff, List.all_eq_true, decide_eq_true_eq] at h
  exact ⟨h.1, fun c hc => ⟨(h.2 c hc).1.1, (h.2 c hc).1.2, (h.2 c hc).2⟩⟩

def quotedB (t : Str) : Bool :=
  let c := (t.drop 1).dropLast
  t = '"' :: c ++ ['"'] && Spec.doubled c && Spec.unwords (fields t) = t && !c.contains '\n'

/-- A checker for `Writable`. -/
def writableB (t : Str) : Bool := wordB t || (t = "/begin ".toList ++ t.drop 7 && wordB (t.drop 7)) ||
  (t = "/end ".toList ++ t.drop 5 && wordB (t.drop 5)) || quotedB t

theorem writableB_spec {t : Str} (h : writableB t = true) : Writable t := by
  simp only [writableB, Bool.or_eq_true] at h
  rcases h with ((h | h) | h) | h
  · exact Or.inl (wordB_spec h)
  · simp only [Bool.and_eq_true, decide_eq_true_eq] at h
    exact Or.inr (Or.inl ⟨_, Or.inl h.1, wordB_spec h.2⟩)
  · simp only [Bool.and_eq_true, decide_eq_true_eq] at h
    exact Or.inr (Or.inl ⟨_, Or.inr h.1, wordB_spec h.2⟩)
  · simp only [quotedB, Bool.and_eq_true, decide_eq_true_eq, Bool.not_eq_true', List.contains_eq_mem, decide_eq_false_iff_not] at h
    exact Or.inr (Or.inr ⟨_, h.1.1.1, h.1.1.2, h.1.2, h.2⟩)

theorem demo_legal : ∀ n ∈ demoFile, Write.Legal (writtenEnv (fun _ => true) demoFile) n := by
  have hw : Wf (writtenEnv (fun _ => true) demoFile) := ⟨written demoFile, rfl, by decide +kernel⟩
  intro n hn
  simp only [demoFile, List.mem_cons, List.not_mem_nil, or_false] at hn
  rcases hn with rfl | rfl
  · exact legalB_spec _ (by decide +kernel)
  · refine project_legal hw rfl ⟨by decide, by decide +kernel⟩ ⟨by decide, by decide +kernel⟩ (fun n hn => ?_)
      (legalsB_spec [demoModule1, demoModule2] (by decide +kernel))
    have : [demoModule1, demoModule2].all (allowedB projectParts) = true := by decide +kernel
    exact allowedB_spec (List.all_eq_true.1 this n hn)

theorem demo_writable : ∀ t ∈ written demoFile, Writable t := by
  have : (written demoFile).all writableB = true := by decide +kernel
  exact fun t ht => writableB_spec (List.all_eq_true.1 this t ht)

theorem demo_allowed : ∀ n ∈ demoFile, Allowed fileParts n := by
  have : demoFile.all (allowedB fileParts) = true := by decide +kernel
  exact fun n hn => allowedB_spec (List.all_eq_true.1 this n hn)

def demoSetup : Setup := ⟨3, fun _ => true, fun _ => true, fun _ => unlines (written demoFile), fun _ _ => []⟩

/-- Field `f` of a struct. -/
def sub (v : Val) (f : String) : Val := match v with
  | .obj o => o f
  | _ => .zero

/-- The element of a list. -/
def nth (v : Val) (k : Nat) : Val := match v with
  | .list l => (l[k]?).getD .zero
  | _ => .zero

/-- The element of a map. -/
def at' (v : Val) (name : Str) : Val := match v with
  | .map m => (m name).getD .zero
  | _ => .zero

/-- The hypotheses are met by a file with two modules, with three workers; among the values that are read is the bit
mask of a characteristic in the first module, its access and its lower limit. -/
example : (calls demoSetup init ([1, 0] ++ List.replicate 6 2 ++ [0, 1])).result 2 =
      some (.ok 45 (.obj (fileStruct demoFile)) false) ∧
    strOf (sub (sub (at' (sub (nth (sub (fileStruct demoFile "Project") "Modules") 0) "Characteristics") (str! "x")) "bitMask")
      "mask") = some (str! "255") ∧
    strOf (sub (at' (sub (nth (sub (fileStruct demoFile "Project") "Modules") 0) "Characteristics") (str! "x"))
      "calibrationAccess") = some (str! "CALIBRATION") ∧
    strOf (sub (nth (sub (fileStruct demoFile "Project") "Modules") 1) "Name") = some (str! "M2") := by
  refine ⟨?_, by decide +kernel, by decide +kernel, by decide +kernel⟩
  have := C70_partial demoSetup (by decide) 2 [1, 0] [0, 1] (by decide) demoFile demo_allowed demo_legal demo_writable
    (clean_of (by decide +kernel)) rfl (by decide +kernel) (by decide +kernel)
  have hl : (written demoFile).length = 45 := by decide +kernel
  rw [hl] at this
  exact this

end Verif.A2l.Props
