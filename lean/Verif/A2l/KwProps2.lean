import Verif.A2l.KwProps
import Verif.A2l.Module

/-!
C58 (every part begins with its own keyword), C59 (the keyword table).
-/

namespace Verif.A2l.Props
open Verif.Go Lang Analysis Decl Template KwSpec

/-! ### C58: specification -/

/-- May a call of parse function `q` happen with the cursor on token `t`? Yes if `t` is the keyword of the object;
the exempt ones may be called anywhere. -/
def Admits (exempt : List PName) (q : PName) (t : Str) : Bool := keyword q == some t || exempt.contains q

/-- Runs in which every call of a parse function by another one is checked: the cursor must stand on the keyword of the
object, otherwise the program crashes. -/
def guarded (E : Env) (exempt : List PName) (K : PName → Nat → PRes) : PName → Nat → PRes :=
  fun q i => if Admits exempt q (E.current i) then K q i else .panic

def runGuarded (E : Env) (exempt : List PName) (n : Nat) : Nat → PName → Nat → PRes
  | 0, _, _ => .timeout
  | d + 1, p, i =>
    if p = .parseModuleMultithreaded then E.mtModule i
    else finish (exec E (guarded E exempt (runGuarded E exempt n d)) n (body p) (St.init i))

/-- C58 as stated: the checks never fail. -/
def C58_full : Prop := ∀ (E : Env), Wf E → ∀ (n d : Nat) (p : PName) (i : Nat), runGuarded E [] n d p i = run E n d p i

/-! ### What is known about the token under the cursor -/

structure Known where
  /-- the token under the cursor, if known -/
  tok : Option Str
  /-- is the value returned by the last `tok.next()` the token under the cursor -/
  fresh : Bool
deriving DecidableEq

def Known.join (a b : Known) : Known := ⟨if a.tok = b.tok then a.tok else none, a.fresh && b.fresh⟩

def Known.refine (k : Known) : Cond → Known
  | .curIs t => ⟨some t, k.fresh⟩
  | .retIs t => if k.fresh then ⟨some t, true⟩ else k
  | _ => k

def callOk (exempt : List PName) (k : Known) (p : PName) : Bool :=
  exempt.contains p || (match k.tok with
    | some t => keyword p == some t
    | none => false)

/-- What is known after a statement; `none` if some call may happen on a wrong token. -/
def track (exempt : List PName) : Stmt → Known → Option Known
  | .seq a b, k =>
    match track exempt a k with
    | some k' => track exempt b k'
    | none => none
  | .next, _ => some ⟨none, true⟩
  | .prev, _ => some ⟨none, false⟩
  | .enumField _ e, k => if e.usesNext then some ⟨none, true⟩ else some k
  | .callBuf p, k => if callOk exempt k p then some ⟨none, false⟩ else none
  | .callField _ p, k => if callOk exempt k p then some ⟨none, false⟩ else none
  | .ite c a b, k =>
    match track exempt a (k.refine c), track exempt b k with
    | some x, some y => some (x.join y)
    | _, _ => none
  | .loop b, _ =>
    match track exempt b ⟨none, false⟩ with
    | some _ => some ⟨none, false⟩
    | none => none
  | _, k => some k

/-- The state agrees with what is known. -/
def Known.Fits (E : Env) (k : Known) (s : St) : Prop :=
  (∀ t, k.tok = some t → E.current s.idx = t) ∧ (k.fresh = true → s.ret = E.current s.idx)

theorem Known.Fits.nothing {E : Env} (s : St) : Known.Fits E ⟨none, false⟩ s := ⟨fun _ h => (by cases h), fun h => (by cases h)⟩

theorem current_last {E : Env} (hw : Wf E) {i : Nat} (h : ¬ i + 1 < E.toks.length) : E.current i = emptyToken := by
  obtain ⟨pre, he, _⟩ := hw
  unfold Env.current
  rw [he] at h ⊢
  rw [List.length_append, List.length_singleton] at h
  by_cases hi : i = pre.length
  · subst hi; simp
  · rw [List.getElem?_eq_none (by simp; omega)]; rfl

theorem fits_next {E : Env} (hw : Wf E) (s : St) : Known.Fits E ⟨none, true⟩ (doNext E s) := by
  refine ⟨fun _ h => (by cases h), fun _ => ?_⟩
  unfold doNext
  by_cases h : E.hasNext s.idx = true
  · rw [if_pos h]
  · rw [if_neg h]
    simp only [Env.hasNext, decide_eq_true_eq] at h
    exact (current_last hw h).symm

theorem Known.Fits.left {E : Env} {a b : Known} {s : St} (h : a.Fits E s) : (a.join b).Fits E s := by
  refine ⟨fun t ht => ?_, fun hf => ?_⟩
  · unfold Known.join at ht
    by_cases he : a.tok = b.tok
    · simp only [he, if_true] at ht; exact h.1 t (he ▸ ht)
    · simp only [he, if_false] at ht; cases ht
  · simp only [Known.join, Bool.and_eq_true] at hf; exact h.2 hf.1

theorem Known.Fits.right {E : Env} {a b : Known} {s : St} (h : b.Fits E s) : (a.join b).Fits E s := by
  refine ⟨fun t ht => ?_, fun hf => ?_⟩
  · unfold Known.join at ht
    by_cases he : a.tok = b.tok
    · simp only [he, if_true] at ht; exact h.1 t ht
    · simp only [he, if_false] at ht; cases ht
  · simp only [Known.join, Bool.and_eq_true] at hf; exact h.2 hf.2

theorem Known.Fits.refine {E : Env} {k : Known} {s : St} (h : k.Fits E s) {c : Cond} (hc : holds E s c = true) : (k.refine c).Fits E s := by
  cases c with
  | curIs t =>
    simp only [holds, decide_eq_true_eq] at hc
    exact ⟨fun u hu => (by cases hu; exact hc), h.2⟩
  | retIs t =>
    simp only [holds, decide_eq_true_eq] at hc
    unfold Known.refine
    by_cases hf : k.fresh = true
    · simp only [hf, if_true]
      exact ⟨fun u hu => (by cases hu; rw [← h.2 hf]; exact hc), fun _ => h.2 hf⟩
    · simp only [hf, if_false]; exact h
  | _ => exact h

theorem callOk_admits {E : Env} {exempt : List PName} {k : Known} {p : PName} {s : St} (h : k.Fits E s) (hc : callOk exempt k p = true) :
    Admits exempt p (E.current s.idx) = true := by
  unfold callOk at hc
  unfold Admits
  rw [Bool.or_eq_true] at hc ⊢
  rcases hc with hc | hc
  · exact Or.inr hc
  · cases ht : k.tok with
    | none => rw [ht] at hc; cases hc
    | some t => rw [ht] at hc; rw [h.1 t ht]; exact Or.inl hc

/-- Tracking is sound. -/
theorem track_sound {E : Env} (hw : Wf E) (exempt : List PName) (K : PName → Nat → PRes) (n : Nat) :
    ∀ (st : Stmt) (k k' : Known) (s : St), track exempt st k = some k' → k.Fits E s →
      exec E (guarded E exempt K) n st s = exec E K n st s ∧ ∀ s', exec E K n st s = .ok s' .cont → k'.Fits E s' := by
  intro st
  induction st with
  | seq a b iha ihb =>
    intro k k' s ht hf
    rw [track] at ht
    cases ha : track exempt a k with
    | none => rw [ha] at ht; cases ht
    | some k1 =>
      rw [ha] at ht
      simp only at ht
      obtain ⟨h1, h2⟩ := iha k k1 s ha hf
      rw [exec, exec, h1]
      cases hx : exec E K n a s with
      | ok s1 c1 =>
        cases c1 with
        | cont => exact ihb k1 k' s1 ht (h2 s1 hx)
        | brk => exact ⟨rfl, fun s' h => by cases h⟩
      | panic => exact ⟨rfl, fun s' h => by cases h⟩
      | timeout => exact ⟨rfl, fun s' h => by cases h⟩
  | next =>
    intro k k' s ht hf
    cases ht
    exact ⟨rfl, fun s' h => by cases h; exact fits_next hw s⟩
  | prev =>
    intro k k' s ht hf
    cases ht
    exact ⟨rfl, fun s' h => Known.Fits.nothing _⟩
  | enumField f e =>
    intro k k' s ht hf
    refine ⟨rfl, fun s' h => ?_⟩
    rw [track] at ht
    simp only [exec] at h
    by_cases hu : e.usesNext = true
    · simp only [hu, if_true, Option.some.injEq] at ht h
      subst ht
      have := fits_next hw s
      cases hl : e.table.lookup (doNext E s).ret with
      | some v => rw [hl] at h; cases h; exact this
      | none => rw [hl] at h; cases h; exact this
    · simp only [hu, Bool.false_eq_true, if_false, Option.some.injEq] at ht h
      subst ht
      cases hl : e.table.lookup (E.current s.idx) with
      | some v => rw [hl] at h; cases h; exact hf
      | none => rw [hl] at h; cases h; exact hf
  | callBuf p =>
    intro k k' s ht hf
    rw [track] at ht
    by_cases hc : callOk exempt k p = true
    · rw [if_pos hc] at ht
      cases ht
      refine ⟨?_, fun s' h => Known.Fits.nothing _⟩
      rw [exec, exec, guarded, if_pos (callOk_admits hf hc)]
    · rw [if_neg hc] at ht; cases ht
  | callField f p =>
    intro k k' s ht hf
    rw [track] at ht
    by_cases hc : callOk exempt k p = true
    · rw [if_pos hc] at ht
      cases ht
      refine ⟨?_, fun s' h => Known.Fits.nothing _⟩
      rw [exec, exec, guarded, if_pos (callOk_admits hf hc)]
    · rw [if_neg hc] at ht; cases ht
  | ite c a b iha ihb =>
    intro k k' s ht hf
    rw [track] at ht
    cases ha : track exempt a (k.refine c) with
    | none => simp [ha] at ht
    | some x =>
      cases hb : track exempt b k with
      | none => simp [ha, hb] at ht
      | some y =>
        simp only [ha, hb, Option.some.injEq] at ht
        subst ht
        rw [exec, exec]
        by_cases hc : holds E s c = true
        · rw [if_pos hc, if_pos hc]
          obtain ⟨h1, h2⟩ := iha _ x s ha (hf.refine hc)
          exact ⟨h1, fun s' h => (h2 s' h).left⟩
        · rw [if_neg hc, if_neg hc]
          obtain ⟨h1, h2⟩ := ihb _ y s hb hf
          exact ⟨h1, fun s' h => (h2 s' h).right⟩
  | loop b ih =>
    intro k k' s ht hf
    rw [track] at ht
    cases hb : track exempt b ⟨none, false⟩ with
    | none => rw [hb] at ht; cases ht
    | some x =>
      rw [hb] at ht
      cases ht
      refine ⟨?_, fun s' h => Known.Fits.nothing _⟩
      rw [exec, exec]
      have he : exec E (guarded E exempt K) n b = exec E K n b := funext fun s => (ih _ x s hb (Known.Fits.nothing s)).1
      rw [he]
  | mapInsert f key =>
    intro k k' s ht hf
    cases ht
    refine ⟨rfl, fun s' h => ?_⟩
    rw [exec] at h
    cases hm : s.obj f with
    | map m => rw [hm] at h; cases h; exact hf
    | _ => rw [hm] at h; cases h
  | _ =>
    intro k k' s ht hf
    cases ht
    exact ⟨rfl, fun s' h => by cases h <;> exact hf⟩

/-- All parse functions: every call happens on the keyword of its object, except that of parseVarSeparator. -/
theorem tracked (p : PName) : (track [.parseVarSeparator] (body p) ⟨none, false⟩).isSome = true := by
  cases p <;> decide +kernel

/-- C58, except for VAR_SEPARATOR: whatever the tokens are, an object is only read where its keyword stands. -/
theorem C58_partial {E : Env} (hw : Wf E) (n d : Nat) (p : PName) (i : Nat) :
    runGuarded E [.parseVarSeparator] n d p i = run E n d p i := by
  induction d generalizing p i with
  | zero => rfl
  | succ d ih =>
    rw [runGuarded, run]
    by_cases hp : p = .parseModuleMultithreaded
    · rw [if_pos hp, if_pos hp]
    · rw [if_neg hp, if_neg hp]
      have he : runGuarded E [.parseVarSeparator] n d = run E n d := funext fun q => funext fun j => ih q j
      rw [he]
      obtain ⟨k, hk⟩ := Option.isSome_iff_exists.1 (tracked p)
      rw [(track_sound hw [.parseVarSeparator] (run E n d) n (body p) ⟨none, false⟩ k (St.init i) hk (Known.Fits.nothing _)).1]

/-- The objects of a module are read at their keywords by the parallel parser, too. -/
theorem C58_parallel : ∀ c ∈ channels, keyword c.parser = some c.tok := by decide +kernel

def sepToks : List Str := [(str! "/begin VARIANT_CODING"), (str! "NONSENSE"), (str! "\".\""), (str! "/end VARIANT_CODING")]

/-- C58 is false of VARIANT_CODING: the word `NONSENSE` is taken for VAR_SEPARATOR. -/
theorem C58_false : ¬ C58_full := by
  intro h
  have h1 := h (mkEnv sepToks) (mkEnv_wf (by decide)) 6 3 .parseVariantCoding 0
  have h2 : (match runGuarded (mkEnv sepToks) [] 6 3 .parseVariantCoding 0 with | .panic => true | _ => false) = true := by decide +kernel
  have h3 : (match run (mkEnv sepToks) 6 3 .parseVariantCoding 0 with | .panic => true | _ => false) = false := by decide +kernel
  rw [h1] at h2
  rw [h2] at h3
  cases h3

/-- The checks are passed by a file with nested objects. -/
example : ∃ o, runGuarded (mkEnv [(str! "/begin COMPU_METHOD"), (str! "M"), (str! "\"x\""), (str! "RAT_FUNC"), (str! "\"%4.2\""), (str! "\"rpm\""),
      (str! "COEFFS"), (str! "0"), (str! "1"), (str! "0"), (str! "0"), (str! "0"), (str! "1"), (str! "/end COMPU_METHOD")]) [.parseVarSeparator] 16 8
      .parseCompuMethod 0 = .ok 13 (.obj o) false := by
  rw [C58_partial (mkEnv_wf (by decide))]
  exact ⟨_, rfl⟩

/-- And the checks are real: a COEFFS read elsewhere would fail. -/
example : guarded (mkEnv methToks) [] (fun _ _ => .timeout) .parseCoeffs 1 = .panic := rfl

/-! ### C59: which words are reserved -/

/-- The words with a meaning of their own: those that introduce an object, close a block or introduce an enumeration
part (ADDRESS_TYPE, CALIBRATION_ACCESS, ENCODING). -/
def Reserved (t : Str) : Prop :=
  (∃ p, keyword p = some t) ∨ (∃ p w, keyword p = some ((str! "/begin ") ++ w) ∧ t = (str! "/end ") ++ w) ∨
    ∃ p, p ∉ irregular ∧ ∃ x ∈ enumParts (Shape.subs (shape p)), x.1 = t

/-- The reserved words that are missing in `keywordMap`. -/
def missing : List Str := [(str! "FIX_AXIS_PAR"), (str! "READ_ONLY"), (str! "READ_WRITE"), (str! "RESERVED"), (str! "VAR_SEPARATOR")]

/-- The words in `keywordMap` without a meaning of their own. -/
def surplusWords : List Str := [(str! "/begin FIX_AXIS_PAR"), (str! "/end FIX_AXIS_PAR"), (str! "/end USER"), (str! "ALTERNATE_CURVES"),
  (str! "ALTERNATE_WITH_X"), (str! "ALTERNATE_WITH_Y"), (str! "CONVERSION"), (str! "INPUT_QUANTITY")]

theorem intro_known (p : PName) : ∀ t ∈ keyword p, t ∈ keywords ∨ t ∈ missing := by cases p <;> decide +kernel

theorem close_known (p : PName) : ∀ t ∈ keyword p, t.take 7 = (str! "/begin ") → (str! "/end ") ++ t.drop 7 ∈ keywords := by
  cases p <;> decide +kernel

theorem part_known (p : PName) (hp : p ∉ irregular) : ∀ x ∈ enumParts (Shape.subs (shape p)), x.1 ∈ keywords := by
  cases p <;> first | exact absurd (by decide) hp | decide +kernel

/-- Every word of the table, with its meaning: an object it introduces, a block it closes, a part. -/
def wordMeaning (t : Str) : Bool :=
  PName.all.any (fun p => keyword p == some t) ||
  PName.all.any (fun p => keyword p == some ((str! "/begin ") ++ t.drop 5) && t.take 5 == (str! "/end ")) ||
  PName.all.any (fun p => !irregular.contains p && (enumParts (Shape.subs (shape p))).any (fun x => x.1 == t)) ||
  surplusWords.contains t

theorem words_meaning : ∀ t ∈ keywords, wordMeaning t = true := by decide +kernel

/-- C59 for the table: the words refused as parameters are the reserved ones, except for five that are missing and eight
that are surplus. -/
theorem C59_table_partial (t : Str) : (Reserved t → t ∈ keywords ∨ t ∈ missing) ∧ (t ∈ keywords → Reserved t ∨ t ∈ surplusWords) := by
  constructor
  · rintro (⟨p, h⟩ | ⟨p, w, h, rfl⟩ | ⟨p, hp, x, hx, rfl⟩)
    · exact intro_known p t h
    · have := close_known p _ h (by simp)
      exact Or.inl (by simpa using this)
    · exact Or.inl (part_known p hp x hx)
  · intro h
    have := words_meaning t h
    simp only [wordMeaning, Bool.or_eq_true, List.any_eq_true, Bool.and_eq_true, beq_iff_eq, List.contains_iff_mem, Bool.not_eq_true',
      ← Bool.not_eq_true] at this
    rcases this with ((⟨p, _, h1⟩ | ⟨p, _, h1, h2⟩) | ⟨p, _, h1, x, hx, h2⟩) | h1
    · exact Or.inl (Or.inl ⟨p, h1⟩)
    · refine Or.inl (Or.inr (Or.inl ⟨p, t.drop 5, h1, ?_⟩))
      rw [← h2, List.take_append_drop]
    · exact Or.inl (Or.inr (Or.inr ⟨p, h1, x, hx, h2⟩))
    · exact Or.inr h1

theorem surplus_none (p : PName) : (∀ t ∈ keyword p, t ∉ surplusWords ∧ (t.take 7 = (str! "/begin ") → (str! "/end ") ++ t.drop 7 ∉ surplusWords)) ∧
    ∀ x ∈ enumParts (Shape.subs (shape p)), x.1 ∉ surplusWords := by
  cases p <;> decide +kernel

theorem missing_some : ∀ t ∈ missing, (∃ p ∈ PName.all, keyword p = some t) ∧ t ∉ keywords := by decide +kernel

theorem surplus_known : ∀ t ∈ surplusWords, t ∈ keywords := by decide +kernel

/-- Both lists are exact. -/
theorem C59_table_exact : (∀ t ∈ missing, Reserved t ∧ t ∉ keywords) ∧ ∀ t ∈ surplusWords, t ∈ keywords ∧ ¬ Reserved t := by
  refine ⟨fun t ht => ?_, fun t ht => ⟨surplus_known t ht, ?_⟩⟩
  · obtain ⟨⟨p, _, h⟩, h'⟩ := missing_some t ht
    exact ⟨Or.inl ⟨p, h⟩, h'⟩
  · rintro (⟨p, h⟩ | ⟨p, w, h, rfl⟩ | ⟨p, hp, x, hx, rfl⟩)
    · exact ((surplus_none p).1 t h).1 ht
    · exact ((surplus_none p).1 _ h).2 (by simp) (by simpa using ht)
    · exact (surplus_none p).2 x hx ht

/-- Reading an object of shape `sh` from position `i` one meets the word `t` where it does not belong: after any number of
legal items of a block it neither closes the block nor starts one of its parts, or it stands among a fixed number of parameters. -/
def Misplaced (E : Env) (fin : Str) (sh : Shape) (i : Nat) (t : Str) : Prop :=
  match sh with
  | .one _ => TokAfter E i t
  | .seq ps => ∃ m < ps.length, TokAfter E (i + m) t
  | .block raw ps rest subs maps => raw = false ∧ ∃ k m o j,
      Items E (Succeeds E) raw fin ps rest subs k ⟨0, start maps, i⟩ ⟨m, o, j⟩ ∧ TokAfter E j t ∧ t ≠ fin ∧ t ∉ subs.map (·.1)
  | _ => False

/-- C59 as stated: a reserved word is never taken for a parameter. -/
def C59_full : Prop := ∀ (E : Env), Wf E → MtGood E → ∀ (p : PName), p ∉ irregular → ∀ i < E.toks.length, ∀ t, Reserved t →
  Misplaced E (fin p) (shape p) i t → ∃ i' v, Returns E p i (.ok i' v true)

/-- C59 except for the five words missing in the table. -/
theorem C59_partial {E : Env} (hw : Wf E) (hmt : MtGood E) {p : PName} (hp : p ∉ irregular) {i : Nat} (hi : i < E.toks.length)
    {t : Str} (ht : Reserved t) (hm : t ∉ missing) (hu : Misplaced E (fin p) (shape p) i t) : ∃ i' v, Returns E p i (.ok i' v true) := by
  have hk : t ∈ keywords := ((C59_table_partial t).1 ht).resolve_right hm
  refine C31_partial hw hmt hp hi ?_
  revert hu
  cases shape p with
  | keyword f fl => exact id
  | one q => exact fun h => ⟨t, hk, h⟩
  | seq ps => rintro ⟨m, h1, h2⟩; exact ⟨m, h1, t, hk, h2⟩
  | block raw ps rest subs maps => rintro ⟨h1, k, m, o, j, h2, h3, h4, h5⟩; exact ⟨h1, k, m, o, j, h2, t, hk, h3, h4, h5⟩
  | other => exact id

/-- The five words are taken for a parameter by every keyword with one text parameter. -/
theorem C59_missing_taken {E : Env} (hw : Wf E) {p : PName} (hp : p ∉ irregular) {q : Param} (hsh : shape p = .one q) (hq : q.kind = .str)
    {t : Str} (ht : t ∈ missing) {i : Nat} (hi : TokAfter E i t) : ∃ o : Obj, Returns E p i (.ok (i + 1) (.obj o) false) ∧ o q.field = .str t := by
  have hne : ∀ t ∈ missing, t ≠ [] ∧ t ∉ keywords := by decide +kernel
  obtain ⟨o, h1, h2⟩ := C32_seq_partial hw hp (Or.inr ⟨q, hsh, rfl⟩) (i := i) (ws := [t]) (vs := [.str t]) rfl rfl
    (by
      intro j w hj
      match j with
      | 0 => cases hj; exact hi
      | j + 1 => simp at hj)
    (by intro w hw; rw [List.mem_singleton] at hw; subst hw; exact hne _ ht)
    (by
      intro j r w v a b c
      match j with
      | 0 => cases a; cases b; cases c; rw [hq]; rfl
      | j + 1 => simp at a)
  exact ⟨o, h1, h2 0 q _ rfl rfl⟩

/-- The witness: `FORMAT READ_ONLY` gives the format "READ_ONLY". -/
theorem C59_false : ¬ C59_full := by
  intro h
  obtain ⟨i', v, h1⟩ := h (mkEnv [(str! "FORMAT"), (str! "READ_ONLY")]) (mkEnv_wf (by decide)) (mkEnv_mt _) .parseFormat (by decide) 0 (by decide)
    (str! "READ_ONLY") (Or.inl ⟨.parseReadOnly, rfl⟩) rfl
  obtain ⟨o, h2, _⟩ := C59_missing_taken (E := mkEnv [(str! "FORMAT"), (str! "READ_ONLY")]) (mkEnv_wf (by decide)) (p := .parseFormat) (by decide) rfl rfl
    (t := (str! "READ_ONLY")) (by decide) (i := 0) rfl
  have := h2.unique h1
  simp at this

/-- C59 on an example: `FORMAT DISCRETE` is rejected. -/
example : ∃ i' v, Returns (mkEnv [(str! "FORMAT"), (str! "DISCRETE")]) .parseFormat 0 (.ok i' v true) :=
  C59_partial (mkEnv_wf (by decide)) (mkEnv_mt _) (by decide) (by decide) (t := (str! "DISCRETE")) (Or.inl ⟨.parseDiscrete, rfl⟩) (by decide) rfl

/-- A surplus word: a FORMAT named CONVERSION is rejected although the word means nothing. -/
theorem C59_surplus_rejected {E : Env} (hw : Wf E) (hmt : MtGood E) {p : PName} (hp : p ∉ irregular) {i : Nat} (hi : i < E.toks.length)
    {t : Str} (ht : t ∈ surplusWords) (hu : Misplaced E (fin p) (shape p) i t) : ∃ i' v, Returns E p i (.ok i' v true) := by
  have hk : t ∈ keywords := surplus_known t ht
  refine C31_partial hw hmt hp hi ?_
  revert hu
  cases shape p with
  | keyword f fl => exact id
  | one q => exact fun h => ⟨t, hk, h⟩
  | seq ps => rintro ⟨m, h1, h2⟩; exact ⟨m, h1, t, hk, h2⟩
  | block raw ps rest subs maps => rintro ⟨h1, k, m, o, j, h2, h3, h4, h5⟩; exact ⟨h1, k, m, o, j, h2, t, hk, h3, h4, h5⟩
  | other => exact id

/-- A block: `/begin COMPU_METHOD CONVERSION` is rejected. -/
example : ∃ i' v, Returns (mkEnv [(str! "/begin COMPU_METHOD"), (str! "CONVERSION")]) .parseCompuMethod 0 (.ok i' v true) :=
  C59_surplus_rejected (mkEnv_wf (by decide)) (mkEnv_mt _) (by decide) (by decide) (t := (str! "CONVERSION")) (by decide)
    ⟨rfl, 0, 0, _, 0, .nil, rfl, by decide, by decide⟩

end Verif.A2l.Props
