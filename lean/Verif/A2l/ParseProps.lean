import Verif.A2l.Checked
import Verif.A2l.Stable
import Verif.A2l.TokProps

/-!
C28 to C30: the parse functions terminate, report truncated objects, and stop at their own
closing token.
-/

namespace Verif.A2l.Props
open Verif.Go Verif.A2l Lang Analysis

/-- What is assumed of `parseModuleMultithreaded` when it can be called: it returns without
moving the cursor backwards or out of the token list. -/
def MtGood (E : Env) : Prop := E.multi = true → ∀ i < E.toks.length, Good E (E.mtModule i) i 0

theorem run_ok {E : Env} (hw : Wf E) (hmt : MtGood E) {n : Nat} (hn : E.toks.length < n) :
    ∀ d p i, rank p < d → p ≠ .parseModuleMultithreaded → i < E.toks.length →
    ∃ i' v e, run E n d p i = .ok i' v e ∧ i ≤ i' ∧ i' < E.toks.length ∧
      (e = false → i + adv p ≤ i' ∧ ∀ t, Spec.endToken p = some t →
        E.current i' = t ∨ (p = .parseFrame ∧ E.current i' = emptyToken)) := by
  intro d
  induction d with
  | zero => intro p i h; omega
  | succ d ih =>
    intro p i hd hp hi
    have hpos := rank_pos p hp
    have hc := checked_all p hp
    unfold checked at hc
    split at hc
    · rename_i outs ho
      obtain ⟨s', c, a', he, hm, hg⟩ := absexec_sound (K := run E n d) (n := n) hw hn
        (fun q j hj hq => by
          rcases hq with hq | ⟨hm, rfl⟩
          · simp only [okFor, Bool.and_eq_true, decide_eq_true_eq] at hq
            obtain ⟨j', v, e, h1, h2, h3, h4⟩ := ih q j (by omega) hq.2 hj
            exact ⟨j', v, e, h1, h2, h3, fun hh => (h4 hh).1⟩
          · obtain ⟨k, rfl⟩ : ∃ k, d = k + 1 := ⟨d - 1, by omega⟩
            simp only [run, if_true]
            exact hmt hm j hj)
        (body p) Abs.init outs ho i (St.init i)
        { lt := hi, lo := Nat.le_refl _, pend := Or.inl (Nat.le_refl _)
          retCur := fun hh => by simp [Abs.init] at hh, cur := fun t hh => by simp [Abs.init] at hh
          err := fun b hb => by simp [Abs.init] at hb; simp [St.init, hb]
          maps := fun f hf => by simp [Abs.init] at hf, mt := fun hh => by simp [Abs.init] at hh
          ne := fun hh => by simp [Abs.init] at hh, succ := fun _ => Nat.le_refl _ }
      refine ⟨s'.idx, .obj s'.obj, s'.err, ?_, ?_, hg.lt, fun hs => ?_⟩
      · simp only [run, if_neg hp, he, finish]
      · have := hg.lo; omega
      · have hpo := List.all_eq_true.1 hc _ hm
        simp only [pathOk, Bool.or_eq_true, Bool.and_eq_true, decide_eq_true_eq] at hpo
        rcases hpo with hpo | ⟨hlo, hend⟩
        · have := hg.err _ hpo; rw [hs] at this; cases this
        · refine ⟨by have := hg.lo; omega, fun t ht => ?_⟩
          rw [ht] at hend
          simp only [Bool.or_eq_true, Bool.and_eq_true, decide_eq_true_eq] at hend
          rcases hend with hend | ⟨hf, hend⟩
          · exact Or.inl (hg.cur _ hend)
          · exact Or.inr ⟨hf, hg.cur _ hend⟩
    · cases hc

/-- The call returns, and with the result computed by `parse`. -/
theorem parse_ok {E : Env} (hw : Wf E) (hmt : MtGood E) (p : PName)
    (hp : p ≠ .parseModuleMultithreaded) (i : Nat) (hi : i < E.toks.length) :
    ∃ i' v e, parse E p i = .ok i' v e ∧ Returns E p i (.ok i' v e) ∧ i ≤ i' ∧ i' < E.toks.length ∧
      (e = false → i + adv p ≤ i' ∧ ∀ t, Spec.endToken p = some t →
        E.current i' = t ∨ (p = .parseFrame ∧ E.current i' = emptyToken)) := by
  obtain ⟨i', v, e, h1, h2, h3, h4⟩ := run_ok hw hmt (n := E.toks.length + 1) (by omega) maxDepth p i
    (rank_lt p) hp hi
  exact ⟨i', v, e, h1, returns_of_run h1 (by simp), h2, h3, h4⟩

/-! ### C28 -/

/-- C28: on every token list made by the tokenizer (the empty token is the last one and only
the last one) every parse function returns a value or an error from every position; it does
not crash, and the cursor stays inside the list and does not move backwards. The
multithreaded module parser is not included; if it is enabled it is assumed to return. -/
theorem C28_terminates {E : Env} (hw : Wf E) (hmt : MtGood E) (p : PName)
    (hp : p ≠ .parseModuleMultithreaded) (i : Nat) (hi : i < E.toks.length) :
    ∃ i' v e, Returns E p i (.ok i' v e) ∧ i ≤ i' ∧ i' < E.toks.length := by
  obtain ⟨i', v, e, _, h, h2, h3, _⟩ := parse_ok hw hmt p hp i hi
  exact ⟨i', v, e, h, h2, h3⟩

/-- Together with the tokenizer: every file can be parsed to the end. -/
theorem C28_file (graphic : Char → Bool) (n : Nat) (s : Str) (floatOk : Str → Bool) :
    ∃ ts, tokensOfFile graphic n s = some ts ∧
    ∀ mt, ∃ i v e, Returns ⟨ts, floatOk, false, mt⟩ .parseA2l 0 (.ok i v e) := by
  obtain ⟨ts, h1, h2⟩ := C27_tokenizer_total graphic n s
  refine ⟨_, h1, fun mt => ?_⟩
  obtain ⟨i', v, e, h, _, _⟩ := C28_terminates (E := ⟨ts ++ [[]], floatOk, false, mt⟩)
    ⟨ts, rfl, fun hh => h2 _ hh rfl⟩ (fun hh => by simp at hh) .parseA2l (by decide) 0 (by simp)
  exact ⟨i', v, e, h⟩

theorem iter_forever {f : St → Out} {Inv : St → Prop}
    (h : ∀ s, Inv s → ∃ s', f s = .ok s' .cont ∧ Inv s') : ∀ n s, Inv s → iter f n s = .timeout := by
  intro n
  induction n with
  | zero => intro s _; rfl
  | succ n ih =>
    intro s hs
    obtain ⟨s', h1, h2⟩ := h s hs
    simp only [iter, h1]
    exact ih s' h2

/-- The empty token at the end is needed: without it the parsers loop forever. -/
theorem C28_needs_end (floatOk : Str → Bool) (mt : Nat → PRes) (n d : Nat) :
    run ⟨[(str! "a")], floatOk, false, mt⟩ n d .parseIfData 0 = .timeout := by
  cases d with
  | zero => rfl
  | succ d =>
    simp only [run, if_neg (show PName.parseIfData ≠ .parseModuleMultithreaded by decide), body,
      parseIfData, blk, exec]
    rw [iter_forever (Inv := fun s => s.idx = 0 ∧ s.obj.flag "dataSet" = false)]
    · rfl
    · rintro ⟨i, r, o, b, e⟩ ⟨h1, h2⟩
      simp only at h1 h2
      subst h1
      have h3 : holds ⟨[(str! "a")], floatOk, false, mt⟩ ⟨0, emptyToken, o, b, e⟩ (.curIs emptyToken) = false := rfl
      have h4 : holds ⟨[(str! "a")], floatOk, false, mt⟩ ⟨0, emptyToken, o, b, e⟩ (.curIs endIfDataToken) = false := rfl
      have h5 : doNext ⟨[(str! "a")], floatOk, false, mt⟩ ⟨0, r, o, b, e⟩ = ⟨0, emptyToken, o, b, e⟩ := by
        simp [doNext, Env.hasNext]
      simp only [h5, h3, h4, Bool.false_eq_true, if_false]
      cases h6 : o.flag "nameSet"
      · refine ⟨_, by simp only [holds, h6]; rfl, rfl, ?_⟩
        simpa [Obj.flag, Obj.set] using h2
      · refine ⟨_, by simp only [holds, h6, h2]; rfl, rfl, ?_⟩
        simpa [Obj.flag, Obj.set] using h2
    · exact ⟨rfl, rfl⟩

/-! ### C29 -/

/-- C29 as stated: if the closing token does not occur in the rest of the list, the function
reports an error. -/
def C29_full : Prop := ∀ (E : Env), Wf E → MtGood E → ∀ (p : PName) (t : Str),
  p ≠ .parseModuleMultithreaded → Spec.endToken p = some t → ∀ i < E.toks.length,
  t ∉ E.toks.drop (i + 1) → ∃ i' v, Returns E p i (.ok i' v true)

theorem mem_drop_of_current {E : Env} {i j : Nat} {t : Str} (hij : i < j) (hj : j < E.toks.length)
    (h : E.current j = t) : t ∈ E.toks.drop (i + 1) := by
  unfold Env.current at h
  rw [List.getElem?_eq_getElem hj] at h
  simp only [Option.getD_some] at h
  rw [List.mem_drop_iff_getElem]
  exact ⟨j - (i + 1), by omega, by rw [← h]; congr 1; omega⟩

def frameEnv : Env := ⟨[(str! "/begin FRAME"), (str! "a"), []], fun _ => true, false, fun _ => .panic⟩

/-- It is false of `parseFrame`: at the end of the file it returns without error. -/
theorem C29_false : ¬ C29_full := by
  intro h
  obtain ⟨i', v, hr⟩ := h frameEnv ⟨[(str! "/begin FRAME"), (str! "a")], rfl, by decide⟩
    (fun hh => by simp [frameEnv] at hh) .parseFrame (str! "/end FRAME") (by decide) (by decide) 0 (by decide) (by decide)
  have hf : ∃ i v, parse frameEnv .parseFrame 0 = .ok i v false := by
    have : (match parse frameEnv .parseFrame 0 with | .ok _ _ e => e | _ => true) = false := by decide +kernel
    split at this
    · rename_i i v e hh; exact ⟨i, v, by rw [hh, this]⟩
    · cases this
  obtain ⟨i, v', hf⟩ := hf
  have := hr.unique (returns_of_run hf (by simp))
  simp at this

/-- C29 for all blocks but FRAME. Missing: `parseFrame`, for which it is false. -/
theorem C29_partial {E : Env} (hw : Wf E) (hmt : MtGood E) (p : PName) (t : Str)
    (hp : p ≠ .parseModuleMultithreaded) (hf : p ≠ .parseFrame) (ht : Spec.endToken p = some t)
    (i : Nat) (hi : i < E.toks.length) (hnone : t ∉ E.toks.drop (i + 1)) :
    ∃ i' v, Returns E p i (.ok i' v true) := by
  obtain ⟨i', v, e, _, hr, hle, hlt, hs⟩ := parse_ok hw hmt p hp i hi
  cases e with
  | true => exact ⟨i', v, hr⟩
  | false =>
    exfalso
    obtain ⟨h1, h2⟩ := hs rfl
    have h3 := (h2 t ht).resolve_right fun hh => hf hh.1
    have h4 := block_adv p hp hf (by rw [ht]; rfl)
    exact hnone (mem_drop_of_current (by omega) hlt h3)

/-! ### C30 -/

/-- C30 as stated: a successful call ends on the closing token of the block, after moving
forward. -/
def C30_full : Prop := ∀ (E : Env), Wf E → MtGood E → ∀ (p : PName) (t : Str),
  p ≠ .parseModuleMultithreaded → Spec.endToken p = some t → ∀ i < E.toks.length, ∀ i' v,
  Returns E p i (.ok i' v false) → i < i' ∧ E.toks[i']? = some t

theorem current_eq {E : Env} {i : Nat} (hi : i < E.toks.length) : E.toks[i]? = some (E.current i) := by
  unfold Env.current
  rw [List.getElem?_eq_getElem hi]
  rfl

/-- It is false of `parseFrame`, which can end on the end of the file. -/
theorem C30_false : ¬ C30_full := by
  intro h
  have hf : ∃ v, parse frameEnv .parseFrame 0 = .ok 2 v false := by
    have : (match parse frameEnv .parseFrame 0 with | .ok i _ e => some (i, e) | _ => none) = some (2, false) := by
      decide +kernel
    split at this
    · rename_i i v e hh
      simp only [Option.some.injEq, Prod.mk.injEq] at this
      exact ⟨v, by rw [hh, this.1, this.2]⟩
    · cases this
  obtain ⟨v, hf⟩ := hf
  have := (h frameEnv ⟨[(str! "/begin FRAME"), (str! "a")], rfl, by decide⟩
    (fun hh => by simp [frameEnv] at hh) .parseFrame (str! "/end FRAME") (by decide) (by decide) 0 (by decide)
    2 v (returns_of_run hf (by simp))).2
  exact absurd this (by decide)

/-- C30 for all blocks but FRAME: a successful call ends on the closing token of the block it
reads and has moved forward. Missing: `parseFrame`, for which it is false. -/
theorem C30_partial {E : Env} (hw : Wf E) (hmt : MtGood E) (p : PName) (t : Str)
    (hp : p ≠ .parseModuleMultithreaded) (hf : p ≠ .parseFrame) (ht : Spec.endToken p = some t)
    (i : Nat) (hi : i < E.toks.length) (i' : Nat) (v : Val) (hr : Returns E p i (.ok i' v false)) :
    i < i' ∧ E.toks[i']? = some t := by
  obtain ⟨j, v', e, _, hr', hle, hlt, hs⟩ := parse_ok hw hmt p hp i hi
  have := hr.unique hr'
  simp only [PRes.ok.injEq] at this
  obtain ⟨rfl, rfl, rfl⟩ := this
  obtain ⟨h1, h2⟩ := hs rfl
  have h3 := (h2 t ht).resolve_right fun hh => hf hh.1
  have h4 := block_adv p hp hf (by rw [ht]; rfl)
  exact ⟨by omega, by rw [current_eq hlt, h3]⟩

/-- FRAME: a successful call ends on the closing token or at the end of the file. -/
theorem C30_frame_partial {E : Env} (hw : Wf E) (hmt : MtGood E) (i : Nat) (hi : i < E.toks.length)
    (i' : Nat) (v : Val) (hr : Returns E .parseFrame i (.ok i' v false)) :
    E.toks[i']? = some (str! "/end FRAME") ∨ (E.toks[i']? = some [] ∧ i' + 1 = E.toks.length) := by
  obtain ⟨j, v', e, _, hr', hle, hlt, hs⟩ := parse_ok hw hmt .parseFrame (by decide) i hi
  have := hr.unique hr'
  simp only [PRes.ok.injEq] at this
  obtain ⟨rfl, rfl, rfl⟩ := this
  rw [current_eq hlt]
  rcases (hs rfl).2 (str! "/end FRAME") (by decide) with h | ⟨_, h⟩
  · exact Or.inl (by rw [h])
  · exact Or.inr ⟨by rw [h]; rfl, (hw.end_iff hlt).1 h⟩

/-- A token list for the examples: a measurement inside a module. -/
def sampleEnv : Env := ⟨[(str! "/begin UNIT"), (str! "m"), (str! "\"metre\""), (str! "/end UNIT"), []],
  fun _ => true, false, fun _ => .panic⟩

theorem sampleEnv_wf : Wf sampleEnv :=
  ⟨[(str! "/begin UNIT"), (str! "m"), (str! "\"metre\""), (str! "/end UNIT")], rfl, by decide⟩

theorem sampleEnv_mt : MtGood sampleEnv := fun h => by simp [sampleEnv] at h

/-- C28 on the example: the function returns. -/
example : ∃ i' v e, Returns sampleEnv .parseUnit 0 (.ok i' v e) ∧ 0 ≤ i' ∧ i' < 5 :=
  C28_terminates sampleEnv_wf sampleEnv_mt .parseUnit (by decide) 0 (by decide)

/-- C29 on the example: a COMPU_TAB that is never closed. -/
example : ∃ i' v, Returns sampleEnv .parseCompuTab 0 (.ok i' v true) :=
  C29_partial sampleEnv_wf sampleEnv_mt .parseCompuTab (str! "/end COMPU_TAB") (by decide) (by decide) (by decide)
    0 (by decide) (by decide)

/-- The hypotheses of C30 are met on the example: UNIT is parsed successfully. -/
example : ∃ v, Returns sampleEnv .parseUnit 0 (.ok 3 v false) := by
  have : (match parse sampleEnv .parseUnit 0 with | .ok i _ e => some (i, e) | _ => none) = some (3, false) := by
    decide +kernel
  split at this
  · rename_i i v e hh
    simp only [Option.some.injEq, Prod.mk.injEq] at this
    obtain ⟨rfl, rfl⟩ := this
    exact ⟨v, returns_of_run hh (by simp)⟩
  · cases this

end Verif.A2l.Props
