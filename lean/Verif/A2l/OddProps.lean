import Verif.A2l.Odd
import Verif.A2l.KwProps2

/-!
C31 and C32 for BIT_OPERATION, FRAME, FRAME_MEASUREMENT, MATRIX_DIM, NO_RESCALE_X, GUARD_RAILS and SYMBOL_TYPE_LINK.
-/

namespace Verif.A2l.Props
open Verif.Go Verif.A2l Lang Decl Analysis Template Loose Odd

variable {E : Env}

/-! ### BIT_OPERATION -/

/-- BIT_OPERATION is accepted exactly if it is a sequence of rounds that leaves no error, and its end. -/
theorem C32_bit_operation_exact (hw : Wf E) {i i' : Nat} {v : Val} : Returns E .parseBitOperation i (.ok i' v false) ↔
    ∃ o k j, v = .obj o ∧ Steps (BitRound E (Succeeds E)) k ⟨Obj.empty, false, i⟩ ⟨o, false, j⟩ ∧
      TokAfter E j (str! "/end BIT_OPERATION") ∧ i' = j + 1 := by
  rw [reads (bitRounds hw) (by decide) bit_body]
  constructor
  · rintro ⟨o, k, y, rfl, h1, h2⟩
    cases h2 with
    | fin ht => exact ⟨o, k, _, rfl, h1, ht, rfl⟩
  · rintro ⟨o, k, j, rfl, h1, h2, rfl⟩
    exact ⟨o, k, _, rfl, h1, .fin h2⟩

theorem items_bit {n : Nat} {x y : Decl.Pos} (h : Decl.Items E (Succeeds E) false (fin .parseBitOperation) [] .none (Shape.subs (shape .parseBitOperation)) n x y) :
    Steps (BitRound E (Succeeds E)) n ⟨x.o, false, x.i⟩ ⟨y.o, false, y.i⟩ := by
  induction h with
  | nil => exact .nil
  | cons h _ ih =>
    refine .cons ?_ ih
    cases h with
    | param hp => simp at hp
    | member _ hr => cases hr
    | word _ hr => cases hr
    | surplus hm hr ht hpl =>
      refine .word ht hpl.1 hpl.2.2.1 ?_
      rcases hpl.2.2.2 with h | h
      · cases h
      · exact h
    | sub hs ht hR hk =>
      have : ∀ k q f md, (k, Sub.obj q f md) ∈ Shape.subs (shape .parseBitOperation) → (k, q, f) ∈ bitParts ∧ md = .field := by
        intro k q f md h
        have h : (k = (str! "LEFT_SHIFT") ∧ q = .parseLeftShift ∧ f = "leftShift" ∧ md = .field) ∨
          (k = (str! "RIGHT_SHIFT") ∧ q = .parseRightShift ∧ f = "rightShift" ∧ md = .field) ∨
          (k = (str! "SIGN_EXTEND") ∧ q = .parseSignExtend ∧ f = "signExtend" ∧ md = .field) := by
          simpa [Shape.subs, shape] using h
        rcases h with ⟨rfl, rfl, rfl, rfl⟩ | ⟨rfl, rfl, rfl, rfl⟩ | ⟨rfl, rfl, rfl, rfl⟩ <;> exact ⟨by decide, rfl⟩
      obtain ⟨h1, rfl⟩ := this _ _ _ _ hs
      cases hk
      exact .part h1 ht hR
    | enum hs => simp [Shape.subs, shape] at hs

/-- C32 holds of BIT_OPERATION: from every text of the declared form the parser gets exactly the values of the text. -/
theorem C32_bit_operation (hw : Wf E) {i i' : Nat} {o : Obj} (h : Text E (fin .parseBitOperation) (shape .parseBitOperation) i i' o) :
    Returns E .parseBitOperation i (.ok i' (.obj o) false) := by
  obtain ⟨n, m, j, h1, h2, rfl⟩ := h
  exact (C32_bit_operation_exact hw).2 ⟨o, n, j, rfl, items_bit h1, h2, rfl⟩

theorem bit_det {R : Calls} (hR : ∀ q i j j' v v', R q i j v → R q i j' v' → j = j' ∧ v = v') {x y z : View} (h : BitRound E R x y)
    (h' : BitRound E R x z) : y = z := by
  have tk : ∀ {i : Nat} {a b : Str}, TokAfter E i a → TokAfter E i b → a = b := by
    intro i a b h1 h2
    unfold TokAfter at h1 h2
    rw [h1] at h2
    cases h2; rfl
  cases h with
  | part hk ht h =>
    cases h' with
    | part hk' ht' h' =>
      have := tk ht ht'
      subst this
      have hu : ∀ a ∈ bitParts, ∀ b ∈ bitParts, a.1 = b.1 → a = b := by decide
      cases hu _ hk _ hk' rfl
      obtain ⟨rfl, rfl⟩ := hR _ _ _ _ _ _ h h'
      rfl
    | word ht' _ h1 => exact absurd (List.mem_map.2 ⟨_, hk, tk ht ht'⟩) h1
    | foreign ht' _ h1 => exact absurd (List.mem_map.2 ⟨_, hk, tk ht ht'⟩) h1
  | word ht h0 h1 h2 =>
    cases h' with
    | part hk' ht' h' => exact absurd (List.mem_map.2 ⟨_, hk', tk ht' ht⟩) h1
    | word ht' _ h1 => rfl
    | foreign ht' _ _ h4 => exact absurd h4 (tk ht ht' ▸ h2)
  | foreign ht h0 h1 h2 =>
    cases h' with
    | part hk' ht' h' => exact absurd (List.mem_map.2 ⟨_, hk', tk ht' ht⟩) h1
    | word ht' _ _ h4 => exact absurd h2 (tk ht ht' ▸ h4)
    | foreign ht' _ h1 => rfl

theorem succeeds_det : ∀ q i j j' v v', Succeeds E q i j v → Succeeds E q i j' v' → j = j' ∧ v = v' := by
  intro q i j j' v v' h h'
  have := Returns.unique h h'
  simp only [PRes.ok.injEq] at this
  exact ⟨this.1, this.2.1⟩

/-- Where the rounds of a block stop is determined. -/
theorem steps_det {step : View → View → Prop} (hd : ∀ {x y z}, step x y → step x z → y = z) {k k' : Nat} {x y z : View}
    (h : Steps step k x y) (h' : Steps step k' x z) (hy : ∀ w, ¬ step y w) (hz : ∀ w, ¬ step z w) : y = z := by
  induction h generalizing k' z with
  | nil =>
    cases h' with
    | nil => rfl
    | cons a _ => exact absurd a (hy _)
  | cons a _ ih =>
    cases h' with
    | nil => exact absurd a (hz _)
    | cons b h' =>
      cases hd a b
      exact ih h' hy hz

theorem bit_end_stops {R : Calls} {x : View} (h : TokAfter E x.i (str! "/end BIT_OPERATION")) : ∀ w, ¬ BitRound E R x w := by
  have tk : ∀ {i : Nat} {a b : Str}, TokAfter E i a → TokAfter E i b → a = b := by
    intro i a b h1 h2
    unfold TokAfter at h1 h2
    rw [h1] at h2
    cases h2; rfl
  intro w hs
  cases hs with
  | part hk ht _ =>
    have := tk h ht
    subst this
    revert hk
    have : ∀ a ∈ bitParts, a.1 ≠ (str! "/end BIT_OPERATION") := by decide
    exact fun hk => this _ hk rfl
  | word ht h0 h1 h2 =>
    cases tk h ht
    exact h2 (by decide +kernel)
  | foreign ht h0 => exact h0 (tk h ht).symm

/-- C31 of BIT_OPERATION: if no part is read between the unexpected keyword and the end of the block, that is if the rounds
leave an error, the error is reported. Missing: a part that follows overwrites the error (`C31_false`). -/
theorem C31_bit_operation_partial (hw : Wf E) (hmt : MtGood E) {i k : Nat} (hi : i < E.toks.length) {o : Obj} {j : Nat}
    (h : Steps (BitRound E (Succeeds E)) k ⟨Obj.empty, false, i⟩ ⟨o, true, j⟩) (hend : TokAfter E j (str! "/end BIT_OPERATION")) :
    ∃ i' v, Returns E .parseBitOperation i (.ok i' v true) := by
  obtain ⟨i', v, e, hr, _⟩ := C28_terminates hw hmt .parseBitOperation (by decide) i hi
  cases e with
  | true => exact ⟨i', v, hr⟩
  | false =>
    obtain ⟨o', k', j', rfl, h1, h2, rfl⟩ := (C32_bit_operation_exact hw).1 hr
    have := steps_det (step := BitRound E (Succeeds E)) (fun a b => bit_det succeeds_det a b) h h1 (bit_end_stops hend) (bit_end_stops h2)
    simp at this

/-- The hypotheses are met: `/begin BIT_OPERATION LEFT_SHIFT 2 /begin UNIT /end BIT_OPERATION`. -/
def bitToks2 : List Str := [(str! "/begin BIT_OPERATION"), (str! "LEFT_SHIFT"), (str! "2"), (str! "/begin UNIT"), (str! "/end BIT_OPERATION")]

theorem left_shift : ∃ v, Succeeds (mkEnv bitToks2) .parseLeftShift 1 2 v := by
  have hg : got (mkEnv bitToks2) .parseLeftShift 1 "bitcount" = some (2, false, none, some 2) := by decide +kernel
  obtain ⟨o, h, _⟩ := got_spec hg
  exact ⟨_, h⟩

example : ∃ i' v, Returns (mkEnv bitToks2) .parseBitOperation 0 (.ok i' v true) := by
  obtain ⟨v, hv⟩ := left_shift
  exact C31_bit_operation_partial (mkEnv_wf (by decide)) (mkEnv_mt _) (by decide) (k := 2) (o := Obj.empty.set "leftShift" v) (j := 3)
    (.cons (.part (k := (str! "LEFT_SHIFT")) (q := .parseLeftShift) (f := "leftShift") (by decide) rfl hv)
      (.cons (.foreign (t := (str! "/begin UNIT")) rfl (by decide) (by decide) (by decide +kernel)) .nil)) rfl

/-! ### FRAME -/

/-- FRAME is accepted exactly if it is a sequence of rounds and its end, or the end of the file. -/
theorem C32_frame_exact (hw : Wf E) {i i' : Nat} {v : Val} : Returns E .parseFrame i (.ok i' v false) ↔
    ∃ o k y, v = .obj o ∧ Steps (FrameRound E (Succeeds E)) k ⟨Obj.empty, false, i⟩ y ∧ FrameEnd E y ⟨o, false, i'⟩ :=
  reads (frameRounds hw) (by decide) frame_body

theorem frame_unset {R : Calls} {k : Nat} {x y : View} (h : Steps (FrameRound E R) k x y) {f : String}
    (hf : f ∉ ["name", "frameMeasurement", "ifData"]) : y.o f = x.o f := by
  simp only [List.mem_cons, List.not_mem_nil, or_false, not_or] at hf
  induction h with
  | nil => rfl
  | cons a _ ih =>
    rw [ih]
    cases a with
    | measurement => exact set_other _ _ hf.2.1
    | data => exact set_other _ _ hf.2.2
    | word => exact set_other _ _ hf.1

/-- Whatever a FRAME contains, only its name, measurements and data are read: the long identifier, the scaling unit and the
rate of every frame stay empty. -/
theorem C32_frame_lost (hw : Wf E) {i i' : Nat} {o : Obj} (h : Returns E .parseFrame i (.ok i' (.obj o) false)) :
    ∀ f ∈ ["longIdentifier", "scalingUnit", "rate"], o f = .zero := by
  obtain ⟨o', k, y, h0, h1, h2⟩ := (C32_frame_exact hw).1 h
  cases h0
  intro f hf
  have : o = y.o := by cases h2 <;> rfl
  rw [this, frame_unset h1 (by revert hf; revert f; decide)]
  rfl

theorem frame_words {R : Calls} : ∀ (ws : List Str) {i : Nat} {o : Obj}, Words E i ws → (∀ w ∈ ws, w ≠ [] ∧ w ≠ (str! "FRAME_MEASUREMENT") ∧ w ∉ keywords) →
    Steps (FrameRound E R) ws.length ⟨o, false, i⟩ ⟨ws.foldl (fun o w => o.set "name" (.str w)) o, false, i + ws.length⟩ := by
  intro ws
  induction ws with
  | nil => intro i o _ _; exact .nil
  | cons w ws ih =>
    intro i o h hw
    obtain ⟨h1, h2, h3⟩ := hw w (List.mem_cons_self ..)
    have := ih (o := o.set "name" (.str w)) h.tail (fun x hx => hw x (List.mem_cons_of_mem _ hx))
    rw [Nat.add_assoc, Nat.add_comm 1] at this
    exact .cons (.word (h 0 w rfl) h1 h2 h3) this

/-- The name of a FRAME is the last of its words: of the name, the long identifier, the scaling unit and the rate, the rate. -/
theorem C32_frame_name (hw : Wf E) {i : Nat} {ws : List Str} {w : Str} (h : Words E i (ws ++ [w]))
    (hws : ∀ x ∈ ws ++ [w], x ≠ [] ∧ x ≠ (str! "FRAME_MEASUREMENT") ∧ x ∉ keywords) (hend : TokAfter E (i + ws.length + 1) (str! "/end FRAME")) :
    ∃ o : Obj, Returns E .parseFrame i (.ok (i + ws.length + 2) (.obj o) false) ∧ o "name" = .str w := by
  have hs := frame_words (R := Succeeds E) (ws ++ [w]) (o := Obj.empty) h hws
  rw [List.length_append] at hs
  refine ⟨(ws ++ [w]).foldl (fun o w => o.set "name" (.str w)) Obj.empty, (C32_frame_exact hw).2 ⟨_, _, _, rfl, hs, .fin hend⟩, ?_⟩
  rw [List.foldl_append]
  rfl

/-- The hypotheses are met: `/begin FRAME F "text" 3 100 /end FRAME`. -/
example : ∃ o : Obj, Returns (mkEnv [(str! "/begin FRAME"), (str! "F"), (str! "\"text\""), (str! "3"), (str! "100"), (str! "/end FRAME")]) .parseFrame 0
    (.ok 5 (.obj o) false) ∧ o "name" = .str (str! "100") :=
  C32_frame_name (mkEnv_wf (by decide)) (ws := [(str! "F"), (str! "\"text\""), (str! "3")]) (w := (str! "100"))
    (by
      intro j w h
      match j, h with
      | 0, h => cases h; rfl
      | 1, h => cases h; rfl
      | 2, h => cases h; rfl
      | 3, h => cases h; rfl
      | n + 4, h => simp at h)
    (by decide +kernel) rfl

theorem tok_det {i : Nat} {a b : Str} (h1 : TokAfter E i a) (h2 : TokAfter E i b) : a = b := by
  unfold TokAfter at h1 h2
  rw [h1] at h2
  cases h2; rfl

theorem frame_det {x y z : View} (h : FrameRound E (Succeeds E) x y) (h' : FrameRound E (Succeeds E) x z) : y = z := by
  cases h with
  | measurement ht h =>
    cases h' with
    | measurement _ h' => obtain ⟨rfl, rfl⟩ := succeeds_det _ _ _ _ _ _ h h'; rfl
    | data ht' _ => exact absurd (tok_det ht ht') (by decide)
    | word ht' _ h1 => exact absurd (tok_det ht ht').symm h1
  | data ht h =>
    cases h' with
    | measurement ht' _ => exact absurd (tok_det ht ht') (by decide)
    | data _ h' => obtain ⟨rfl, rfl⟩ := succeeds_det _ _ _ _ _ _ h h'; rfl
    | word ht' _ _ h2 => exact absurd (tok_det ht ht' ▸ (by decide +kernel)) h2
  | word ht h0 h1 h2 =>
    cases h' with
    | measurement ht' _ => exact absurd (tok_det ht ht') h1
    | data ht' _ => exact absurd (tok_det ht' ht ▸ (by decide +kernel)) h2
    | word ht' _ _ _ => rw [tok_det ht ht']

/-- C31 of FRAME: a keyword that is not allowed there is an error. -/
theorem C31_frame (hw : Wf E) (hmt : MtGood E) {i k : Nat} (hi : i < E.toks.length) {y : View}
    (h : Steps (FrameRound E (Succeeds E)) k ⟨Obj.empty, false, i⟩ y) {t : Str} (ht : TokAfter E y.i t) (hk : t ∈ keywords)
    (hn : t ∉ [(str! "/end FRAME"), (str! "/begin IF_DATA"), (str! "FRAME_MEASUREMENT")]) :
    ∃ i' v, Returns E .parseFrame i (.ok i' v true) := by
  obtain ⟨i', v, e, hr, _⟩ := C28_terminates hw hmt .parseFrame (by decide) i hi
  cases e with
  | true => exact ⟨i', v, hr⟩
  | false =>
    exfalso
    obtain ⟨o', k', z, rfl, h1, h2⟩ := (C32_frame_exact hw).1 hr
    simp only [List.mem_cons, List.not_mem_nil, or_false, not_or] at hn
    have hy : ∀ w, ¬ FrameRound E (Succeeds E) y w := by
      intro w hs
      cases hs with
      | measurement ht' _ => exact hn.2.2 (tok_det ht ht')
      | data ht' _ => exact hn.2.1 (tok_det ht ht')
      | word ht' _ _ h2 => exact h2 (tok_det ht ht' ▸ hk)
    have hz : ∀ w, ¬ FrameRound E (Succeeds E) z w := by
      intro w hs
      have hin : ∀ {t : Str}, TokAfter E z.i t → t ∈ [(str! "/end FRAME"), []] := by
        intro t ht
        cases h2 with
        | fin ht' => rw [tok_det ht ht']; exact List.mem_cons_self ..
        | eof ht' => rw [tok_det ht ht']; simp
        | over hl => unfold TokAfter at ht; rw [List.getElem?_eq_none hl] at ht; cases ht
      cases hs with
      | measurement ht' _ => exact absurd (hin ht') (by decide)
      | data ht' _ => exact absurd (hin ht') (by decide)
      | word ht' h0 _ h2 =>
        have := hin ht'
        simp only [List.mem_cons, List.not_mem_nil, or_false] at this
        rcases this with rfl | rfl
        · exact h2 (by decide +kernel)
        · exact h0 rfl
    have := steps_det (step := FrameRound E (Succeeds E)) (fun a b => frame_det a b) h h1 hy hz
    subst this
    cases h2 with
    | fin ht' => exact hn.1 (tok_det ht ht')
    | eof ht' =>
      have := tok_det ht ht'
      subst this
      revert hk
      decide +kernel
    | over hl => unfold TokAfter at ht; rw [List.getElem?_eq_none hl] at ht; cases ht

/-- The hypotheses are met: `/begin FRAME F /begin UNIT /end FRAME`. -/
example : ∃ i' v, Returns (mkEnv [(str! "/begin FRAME"), (str! "F"), (str! "/begin UNIT"), (str! "/end FRAME")]) .parseFrame 0 (.ok i' v true) :=
  C31_frame (mkEnv_wf (by decide)) (mkEnv_mt _) (by decide) (k := 1)
    (.cons (.word (t := (str! "F")) rfl (by decide) (by decide) (by decide +kernel)) .nil) (t := (str! "/begin UNIT")) rfl (by decide +kernel) (by decide)

/-! ### MATRIX_DIM -/

/-- The struct for the dimensions `ms`, marker included. -/
def dims : List Nat → Obj
  | [] => Obj.empty
  | m :: ms => ms.foldl (fun o (m : Nat) => o.set "DimY" (.int m)) ((Obj.empty.set "DimX" (.int m)).set "DimXSet" (.bool true))

/-- The words `ws` are numbers below 65536 with the values `ms`. -/
inductive Nats : List Str → List Nat → Prop
  | nil : Nats [] []
  | cons {w ws m ms} (h1 : w ∉ keywords) (h2 : IsNat w m) (h3 : m < 65536) (h : Nats ws ms) : Nats (w :: ws) (m :: ms)

theorem words_cons {i : Nat} {w : Str} {ws : List Str} (h : TokAfter E i w) (hs : Words E (i + 1) ws) : Words E i (w :: ws) := by
  intro j x hx
  cases j with
  | zero => cases hx; exact h
  | succ j =>
    have := hs j x (by simpa using hx)
    rw [Nat.add_assoc, Nat.add_comm 1] at this
    exact this

theorem flag_dim {o : Obj} {m : Nat} (h : o.flag "DimXSet" = true) : (o.set "DimY" (.int m)).flag "DimXSet" = true :=
  (flag_other _ _ (by decide)).trans h

theorem dim_steps : ∀ {k : Nat} {x y : View}, Steps (DimRound E) k x y → x.o.flag "DimXSet" = true → x.e = false →
    ∃ ws ms, Words E x.i ws ∧ Nats ws ms ∧ y = ⟨ms.foldl (fun o (m : Nat) => o.set "DimY" (.int m)) x.o, false, x.i + ws.length⟩ := by
  intro k x y h
  induction h with
  | nil =>
    rename_i x
    intro _ he
    refine ⟨[], [], fun j w h => by simp at h, .nil, ?_⟩
    rw [← he]; rfl
  | cons a _ ih =>
    intro hf he
    cases a with
    | first _ _ _ _ hf' => rw [hf'] at hf; cases hf
    | @more o e i t m ht h1 h2 h3 _ =>
      obtain ⟨ws, ms, g1, g2, rfl⟩ := ih (flag_dim hf) rfl
      exact ⟨t :: ws, m :: ms, words_cons ht g1, .cons h1 h2 h3 g2, by simp only [List.foldl_cons, List.length_cons, View.mk.injEq, true_and]; omega⟩

theorem dim_words {ws : List Str} {ms : List Nat} (h : Nats ws ms) : ∀ {i : Nat} {o : Obj}, Words E i ws → o.flag "DimXSet" = true →
    Steps (DimRound E) ws.length ⟨o, false, i⟩ ⟨ms.foldl (fun o (m : Nat) => o.set "DimY" (.int m)) o, false, i + ws.length⟩ := by
  induction h with
  | nil => intro i o _ _; exact .nil
  | cons h1 h2 h3 _ ih =>
    rename_i w ws m ms _
    intro i o h hf
    have := ih (o := o.set "DimY" (.int m)) h.tail (flag_dim hf)
    rw [Nat.add_assoc, Nat.add_comm 1] at this
    exact .cons (.more (h 0 w rfl) h1 h2 h3 hf) this

/-- MATRIX_DIM is accepted exactly if it is a list of numbers below 65536 of any length, followed by a keyword; the struct is
`dims`. -/
theorem C32_matrix_dim_exact (hw : Wf E) {i i' : Nat} {v : Val} : Returns E .parseMatrixDim i (.ok i' v false) ↔
    ∃ ws ms, Words E i ws ∧ Nats ws ms ∧ (∃ t ∈ keywords, TokAfter E (i + ws.length) t) ∧ i' = i + ws.length ∧ v = .obj (dims ms) := by
  rw [reads (dimRounds hw) (by decide) dim_body]
  constructor
  · rintro ⟨o, k, y, rfl, h1, h2⟩
    cases h2 with
    | key ht hk =>
      cases h1 with
      | nil => exact ⟨[], [], fun j w h => by simp at h, .nil, ⟨_, hk, ht⟩, rfl, rfl⟩
      | cons a h =>
        cases a with
        | more _ _ _ _ hf => cases hf
        | @first _ _ _ t m gt g1 g2 g3 _ =>
          obtain ⟨ws, ms, f1, f2, f3⟩ := dim_steps h rfl rfl
          simp only [View.mk.injEq] at f3
          obtain ⟨rfl, _, f4⟩ := f3
          have hi : i' = i + (t :: ws).length := by simp only [List.length_cons]; omega
          refine ⟨t :: ws, m :: ms, words_cons gt f1, .cons g1 g2 g3 f2, ⟨_, hk, ?_⟩, hi, rfl⟩
          rw [← hi]; exact ht
  · rintro ⟨ws, ms, h1, h2, ⟨t, hk, ht⟩, rfl, rfl⟩
    cases h2 with
    | nil => exact ⟨_, 0, _, rfl, .nil, .key ht hk⟩
    | cons g1 g2 g3 g =>
      rename_i w ws m ms
      have hs := dim_words g (i := i + 1) (o := (Obj.empty.set "DimX" (.int m)).set "DimXSet" (.bool true)) h1.tail rfl
      rw [Nat.add_assoc, Nat.add_comm 1] at hs
      exact ⟨_, _, _, rfl, .cons (.first (h1 0 w rfl) g1 g2 g3 rfl) hs, .key ht hk⟩

theorem dims_other (m : Nat) (ms : List Nat) {f : String} (hf : f ≠ "DimY") :
    dims (m :: ms) f = ((Obj.empty.set "DimX" (.int m)).set "DimXSet" (.bool true)) f := by
  show ms.foldl (fun o (m : Nat) => o.set "DimY" (.int m)) ((Obj.empty.set "DimX" (.int m)).set "DimXSet" (.bool true)) f = _
  generalize ((Obj.empty.set "DimX" (.int m)).set "DimXSet" (.bool true)) = o
  induction ms generalizing o with
  | nil => rfl
  | cons a ms ih => rw [List.foldl_cons, ih]; exact set_other _ _ hf

/-- The first dimension is read correctly. The second one is the last one given; the third, fourth and fifth are never read. -/
theorem C32_matrix_dim_lost (hw : Wf E) {i i' : Nat} {o : Obj} (h : Returns E .parseMatrixDim i (.ok i' (.obj o) false)) :
    ∃ ws ms, Words E i ws ∧ Nats ws ms ∧ i' = i + ws.length ∧ (∀ f ∈ ["DimZ", "Dim4", "Dim5"], o f = .zero) ∧
      (∀ m, ms.head? = some m → o "DimX" = .int m) ∧ (∀ m, ms.tail.getLast? = some m → o "DimY" = .int m) := by
  obtain ⟨ws, ms, h1, h2, _, h3, h4⟩ := (C32_matrix_dim_exact hw).1 h
  cases h4
  refine ⟨ws, ms, h1, h2, h3, ?_, ?_, ?_⟩
  · intro f hf
    cases ms with
    | nil => rfl
    | cons m ms =>
      have hn : f ≠ "DimY" ∧ f ≠ "DimX" ∧ f ≠ "DimXSet" := by revert hf; revert f; decide
      rw [dims_other m ms hn.1, set_other _ _ hn.2.2, set_other _ _ hn.2.1]
      rfl
  · intro m hm
    cases ms with
    | nil => cases hm
    | cons m' ms =>
      cases hm
      rw [dims_other m ms (by decide)]
      rfl
  · intro m hm
    cases ms with
    | nil => cases hm
    | cons m' ms =>
      simp only [List.tail_cons] at hm
      obtain ⟨l, rfl⟩ : ∃ l, ms = l ++ [m] := by
        rw [List.getLast?_eq_some_iff] at hm
        exact hm
      simp only [dims, List.foldl_append, List.foldl_cons, List.foldl_nil]
      rfl

theorem Nats.mem {ws : List Str} {ms : List Nat} (h : Nats ws ms) : ∀ w ∈ ws, w ∉ keywords ∧ ∃ m, IsNat w m ∧ m < 65536 := by
  induction h with
  | nil => intro w h; simp at h
  | cons h1 h2 h3 _ ih =>
    intro w hw
    rcases List.mem_cons.1 hw with rfl | hw
    · exact ⟨h1, _, h2, h3⟩
    · exact ih w hw

/-- Anything else after the numbers of a MATRIX_DIM is an error. -/
theorem C31_matrix_dim (hw : Wf E) (hmt : MtGood E) {i : Nat} (hi : i < E.toks.length) {ws : List Str} {ms : List Nat}
    (h : Words E i ws) (hn : Nats ws ms) {w : Str} (hk : w ∉ keywords) (hm : ∀ m, ¬ (IsNat w m ∧ m < 65536)) (ht : TokAfter E (i + ws.length) w) :
    ∃ i' v, Returns E .parseMatrixDim i (.ok i' v true) := by
  obtain ⟨i', v, e, hr, _⟩ := C28_terminates hw hmt .parseMatrixDim (by decide) i hi
  cases e with
  | true => exact ⟨i', v, hr⟩
  | false =>
    exfalso
    obtain ⟨ws', ms', h1, h2, ⟨t, htk, ht'⟩, _⟩ := (C32_matrix_dim_exact hw).1 hr
    unfold TokAfter at ht ht'
    rcases Nat.lt_trichotomy ws'.length ws.length with hl | hl | hl
    · have hh := h ws'.length _ (List.getElem?_eq_getElem hl)
      unfold TokAfter at hh
      rw [ht'] at hh
      cases hh
      exact (hn.mem _ (List.getElem_mem hl)).1 htk
    · rw [hl, ht] at ht'
      cases ht'
      exact hk htk
    · have hh := h1 ws.length _ (List.getElem?_eq_getElem hl)
      unfold TokAfter at hh
      rw [ht] at hh
      cases hh
      obtain ⟨m, hm'⟩ := (h2.mem _ (List.getElem_mem hl)).2
      exact hm m hm'

/-- The words of the language that `keywords` lacks end no MATRIX_DIM: followed by one of them (as in
`MATRIX_DIM 3 READ_WRITE`), it is an error. -/
theorem C59_matrix_dim_missing (hw : Wf E) (hmt : MtGood E) {i : Nat} (hi : i < E.toks.length) {ws : List Str} {ms : List Nat}
    (h : Words E i ws) (hn : Nats ws ms) {w : Str} (hm : w ∈ missing) (ht : TokAfter E (i + ws.length) w) :
    ∃ i' v, Returns E .parseMatrixDim i (.ok i' v true) := by
  have hmk : ∀ w ∈ missing, w ∉ keywords := by decide +kernel
  have hmd : ∀ w ∈ missing, ∃ c ∈ w, ¬ ('0' ≤ c ∧ c ≤ '9') := by decide
  refine C31_matrix_dim hw hmt hi h hn (hmk w hm) ?_ ht
  rintro m ⟨h1, _⟩
  obtain ⟨c, hc, hd⟩ := hmd w hm
  exact hd (h1.2.1 c hc)

theorem isNat_of {s : Str} {n : Nat} (h1 : s ≠ []) (h2 : ∀ c ∈ s, '0' ≤ c ∧ c ≤ '9') (h3 : decVal s = n) : IsNat s n := ⟨h1, h2, h3⟩

/-- The hypotheses are met: `MATRIX_DIM 3 READ_WRITE`. -/
example : ∃ i' v, Returns (mkEnv [(str! "MATRIX_DIM"), (str! "3"), (str! "READ_WRITE"), (str! "/end CHARACTERISTIC")]) .parseMatrixDim 0 (.ok i' v true) :=
  C59_matrix_dim_missing (mkEnv_wf (by decide)) (mkEnv_mt _) (by decide) (ws := [(str! "3")]) (ms := [3])
    (words_cons rfl (fun j w h => by simp at h)) (.cons (by decide +kernel) (isNat_of (by decide) (by decide) (by decide)) (by decide) .nil)
    (w := (str! "READ_WRITE")) (by decide) rfl

/-- `MATRIX_DIM 3 4 5` is accepted with the second dimension 5. -/
example : Returns (mkEnv [(str! "MATRIX_DIM"), (str! "3"), (str! "4"), (str! "5"), (str! "/end CHARACTERISTIC")]) .parseMatrixDim 0
    (.ok 3 (.obj (dims [3, 4, 5])) false) :=
  (C32_matrix_dim_exact (mkEnv_wf (by decide))).2 ⟨[(str! "3"), (str! "4"), (str! "5")], [3, 4, 5],
    words_cons rfl (words_cons rfl (words_cons rfl (fun j w h => by simp at h))),
    .cons (by decide +kernel) (isNat_of (by decide) (by decide) (by decide)) (by decide)
      (.cons (by decide +kernel) (isNat_of (by decide) (by decide) (by decide)) (by decide)
        (.cons (by decide +kernel) (isNat_of (by decide) (by decide) (by decide)) (by decide) .nil)),
    ⟨(str! "/end CHARACTERISTIC"), by decide +kernel, rfl⟩, rfl, rfl⟩

/-! ### FRAME_MEASUREMENT -/

theorem fm_steps : ∀ {k : Nat} {x y : View}, Steps (FmRound E) k x y → ∃ ws : List Str, Words E x.i ws ∧ (∀ w ∈ ws, w ≠ [] ∧ w ∉ keywords) ∧
    y.e = x.e ∧ y.i = x.i + ws.length ∧ y.o.list "identifier" = x.o.list "identifier" ++ ws.map .str ∧
    (∀ f, f ≠ "identifier" → y.o f = x.o f) ∧ (ws = [] → y.o = x.o) := by
  intro k x y h
  induction h with
  | nil => exact ⟨[], fun j w h => by simp at h, fun w h => by simp at h, rfl, rfl, by simp, fun _ _ => rfl, fun _ => rfl⟩
  | cons a _ ih =>
    obtain ⟨ws, h1, h2, h3, h4, h5, h6, h7⟩ := ih
    cases a with
    | @word o e i t ht h0 hk =>
      refine ⟨t :: ws, words_cons ht h1, ?_, h3, ?_, ?_, ?_, fun h => by cases h⟩
      · intro w hw
        rcases List.mem_cons.1 hw with rfl | hw
        · exact ⟨h0, hk⟩
        · exact h2 w hw
      · simp only at h4
        rw [h4, List.length_cons]
        show i + 1 + ws.length = i + (ws.length + 1)
        omega
      · rw [h5]
        simp only [Obj.list, Obj.set, if_true]
        simp
      · intro f hf
        rw [h6 f hf]
        exact set_other _ _ hf

/-- FRAME_MEASUREMENT is accepted exactly if words are followed by the end of the frame or by a block of data; the cursor
stops before that. -/
theorem C32_frame_measurement_only (hw : Wf E) {i i' : Nat} {v : Val} (h : Returns E .parseFrameMeasurement i (.ok i' v false)) :
    ∃ (o : Obj) (ws : List Str), v = .obj o ∧ Words E i ws ∧ (∀ w ∈ ws, w ≠ [] ∧ w ∉ keywords) ∧ i' = i + ws.length ∧
      o.list "identifier" = ws.map .str ∧ (TokAfter E i' (str! "/end FRAME") ∨ TokAfter E i' (str! "/begin IF_DATA")) := by
  obtain ⟨o, k, y, rfl, h1, h2⟩ := (reads (fmRounds hw) (by decide) fm_body).1 h
  obtain ⟨ws, g1, g2, g3, g4, g5, g6, _⟩ := fm_steps h1
  cases h2 with
  | fin ht hh =>
    refine ⟨_, ws, rfl, g1, g2, g4, ?_, ?_⟩
    · simpa [Obj.list, Obj.set, Obj.empty] using g5
    · rcases hh with rfl | rfl
      · exact Or.inl ht
      · exact Or.inr ht

theorem fm_words : ∀ (ws : List Str) {i : Nat} {o : Obj}, Words E i ws → (∀ w ∈ ws, w ≠ [] ∧ w ∉ keywords) →
    ∃ o', Steps (FmRound E) ws.length ⟨o, false, i⟩ ⟨o', false, i + ws.length⟩ := by
  intro ws
  induction ws with
  | nil => intro i o _ _; exact ⟨o, .nil⟩
  | cons w ws ih =>
    intro i o h hw
    obtain ⟨h1, h2⟩ := hw w (List.mem_cons_self ..)
    obtain ⟨o', this⟩ := ih (o := o.set "identifier" (.list (o.list "identifier" ++ [.str w]))) h.tail (fun x hx => hw x (List.mem_cons_of_mem _ hx))
    rw [Nat.add_assoc, Nat.add_comm 1] at this
    exact ⟨o', .cons (.word (h 0 w rfl) h1 h2) this⟩

/-- The identifiers of a FRAME_MEASUREMENT are read in order. -/
theorem C32_frame_measurement (hw : Wf E) {i : Nat} {ws : List Str} (h : Words E i ws) (hws : ∀ w ∈ ws, w ≠ [] ∧ w ∉ keywords) {t : Str}
    (ht : TokAfter E (i + ws.length) t) (hend : t = (str! "/end FRAME") ∨ t = (str! "/begin IF_DATA")) :
    ∃ o : Obj, Returns E .parseFrameMeasurement i (.ok (i + ws.length) (.obj o) false) ∧ o.list "identifier" = ws.map .str := by
  obtain ⟨o, hs⟩ := fm_words ws (o := Obj.empty) h hws
  have hr := (reads (fmRounds hw) (by decide) fm_body).2 ⟨_, _, _, rfl, hs, .fin ht hend⟩
  refine ⟨_, hr, ?_⟩
  obtain ⟨o', ws', g0, g1, g2, g3, g4, g5⟩ := C32_frame_measurement_only hw hr
  cases g0
  have hl : ws'.length = ws.length := by omega
  have : ws' = ws := by
    apply List.ext_getElem? 
    intro j
    by_cases hj : j < ws.length
    · have a := h j _ (List.getElem?_eq_getElem hj)
      have b := g1 j _ (List.getElem?_eq_getElem (by omega))
      unfold TokAfter at a b
      rw [a] at b
      rw [List.getElem?_eq_getElem hj, List.getElem?_eq_getElem (by omega)]
      exact b.symm
    · rw [List.getElem?_eq_none (by omega), List.getElem?_eq_none (by omega)]
  rw [g4, this]

/-- The hypotheses are met: `FRAME_MEASUREMENT a b /end FRAME`. -/
example : ∃ o : Obj, Returns (mkEnv [(str! "FRAME_MEASUREMENT"), (str! "a"), (str! "b"), (str! "/end FRAME")]) .parseFrameMeasurement 0
    (.ok 2 (.obj o) false) ∧ o.list "identifier" = [.str (str! "a"), .str (str! "b")] :=
  C32_frame_measurement (mkEnv_wf (by decide)) (ws := [(str! "a"), (str! "b")]) (words_cons rfl (words_cons rfl (fun j w h => by simp at h)))
    (by decide +kernel) (t := (str! "/end FRAME")) rfl (Or.inl rfl)

/-! ### NO_RESCALE_X -/

/-- NO_RESCALE_X is accepted exactly if a number below 65536 follows; the data type that should follow is not read. -/
theorem C32_no_rescale_x_exact (hw : Wf E) {i i' : Nat} {v : Val} : Returns E .parseNoRescaleX i (.ok i' v false) ↔
    ∃ t, ∃ m : Nat, TokAfter E i t ∧ t ∉ keywords ∧ IsNat t m ∧ m < 65536 ∧ i' = i + 1 ∧
      v = .obj ((Obj.empty.set "Position" (.int m)).set "PositionSet" (.bool true)) := by
  rw [reads (nrRounds hw) (by decide) nr_body]
  constructor
  · rintro ⟨o, k, y, rfl, h1, h2⟩
    cases h1 with
    | cons h _ => exact h.elim
    | nil =>
      cases h2 with
      | fin ht a b c => exact ⟨_, _, ht, a, b, c, rfl, rfl⟩
  · rintro ⟨t, m, h1, h2, h3, h4, rfl, rfl⟩
    exact ⟨_, 0, _, rfl, .nil, .fin h1 h2 h3 h4⟩

/-- `NO_RESCALE_X 1 UBYTE` -/
example : Returns (mkEnv [(str! "NO_RESCALE_X"), (str! "1"), (str! "UBYTE")]) .parseNoRescaleX 0
    (.ok 1 (.obj ((Obj.empty.set "Position" (.int 1)).set "PositionSet" (.bool true))) false) :=
  (C32_no_rescale_x_exact (mkEnv_wf (by decide))).2 ⟨(str! "1"), 1, rfl, by decide +kernel, isNat_of (by decide) (by decide) (by decide),
    by decide, rfl, rfl⟩

/-! ### GUARD_RAILS, SYMBOL_TYPE_LINK -/

theorem guard_rails_exact {i : Nat} (h : ∃ t, E.toks[i]? = some t ∧ t ≠ []) :
    Returns E .parseGuardRails i (.ok i (.obj ((Obj.empty.set "value" (.bool true)).set "valueSet" (.bool true))) false) := by
  obtain ⟨t, h1, h2⟩ := h
  refine returns_of_run (n := 1) (d := 1) ?_ (by simp)
  have hc : E.current i = t := by simp [Env.current, h1]
  rw [run, if_neg (by decide)]
  show finish (exec E _ 1 parseGuardRails _) = _
  simp [parseGuardRails, exec_blk_cons, exec_blk_nil, exec, holds, St.init, hc, h2, emptyToken, Obj.flag, Obj.empty, finish]

/-- The keyword GUARD_RAILS is read wherever it stands. -/
theorem C32_guard_rails {i : Nat} (h : ∃ t, E.toks[i]? = some t ∧ t ≠ []) : ∃ o : Obj, Returns E .parseGuardRails i (.ok i (.obj o) false) ∧
    o "value" = .bool true := ⟨_, guard_rails_exact h, rfl⟩

example : ∃ o : Obj, Returns (mkEnv [(str! "/begin AXIS_PTS"), (str! "GUARD_RAILS")]) .parseGuardRails 1 (.ok 1 (.obj o) false) ∧ o "value" = .bool true :=
  C32_guard_rails ⟨_, rfl, by decide⟩

/-- SYMBOL_TYPE_LINK is accepted exactly if a word follows, which is its name. -/
theorem C32_symbol_type_link (hw : Wf E) {i i' : Nat} {v : Val} : Returns E .parseSymbolTypeLink i (.ok i' v false) ↔
    ∃ t, TokAfter E i t ∧ t ≠ [] ∧ t ∉ keywords ∧ i' = i + 1 ∧ v = .obj (Obj.empty.set "symbolName" (.str t)) := by
  obtain ⟨hr, hc, ho, he, hx⟩ := doNext_spec hw (St.init i)
  have key : ∀ n d, run E n (d + 1) .parseSymbolTypeLink i = if tokAt E i = [] then .ok (doNext E (St.init i)).idx (.obj Obj.empty) true else
      if tokAt E i ∈ keywords then .ok (doNext E (St.init i)).idx (.obj Obj.empty) true else
      .ok (i + 1) (.obj (Obj.empty.set "symbolName" (.str (tokAt E i)))) false := by
    intro n d
    rw [run, if_neg (by decide)]
    have := exec_short hw (K := run E n d) (n := n) (onEmpty := [.setErr]) (onKw := [.setErr]) (plain := [.storeCur "symbolName"]) (St.init i)
    show finish (exec E _ n (short [.setErr] [.setErr] [.storeCur "symbolName"]) _) = _
    rw [this]
    show finish (if tokAt E i = [] then _ else _) = _
    by_cases h0 : tokAt E i = []
    · rw [if_pos h0, if_pos h0, exec_blk_one]
      simp only [exec, finish, ho]
      rfl
    · obtain ⟨g1, g2⟩ := tokAt_ne rfl h0
      rw [if_neg h0, if_neg h0]
      by_cases h1 : tokAt E i ∈ keywords
      · rw [show (St.init i).idx = i from rfl, if_pos h1, if_pos h1, exec_blk_one]
        simp only [exec, finish, ho]
        rfl
      · rw [show (St.init i).idx = i from rfl, if_neg h1, if_neg h1, exec_blk_one]
        simp only [exec, finish, ho, he, hc]
        rw [hx g1]
        rfl
  constructor
  · rintro ⟨_, n, d, h⟩
    have h := h n (d + 1) (Nat.le_refl _) (by omega)
    rw [key] at h
    by_cases h0 : tokAt E i = []
    · rw [if_pos h0] at h; cases h
    · rw [if_neg h0] at h
      by_cases h1 : tokAt E i ∈ keywords
      · rw [if_pos h1] at h; cases h
      · rw [if_neg h1] at h
        cases h
        exact ⟨_, (tokAt_ne rfl h0).2, h0, h1, rfl, rfl⟩
  · rintro ⟨t, h1, h2, h3, rfl, rfl⟩
    obtain ⟨g1, g2⟩ := tokAt_of h1
    refine returns_of_run (n := 0) (d := 1) ?_ (by simp)
    rw [key, g2, if_neg h2, if_neg h3]

example : Returns (mkEnv [(str! "SYMBOL_TYPE_LINK"), (str! "\"s\"")]) .parseSymbolTypeLink 0 (.ok 1 (.obj (Obj.empty.set "symbolName" (.str (str! "\"s\"")))) false) :=
  (C32_symbol_type_link (mkEnv_wf (by decide))).2 ⟨(str! "\"s\""), rfl, by decide, by decide +kernel, rfl, rfl⟩

end Verif.A2l.Props
