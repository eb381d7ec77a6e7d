import Verif.A2l.LooseProps2

/-!
The remaining parse functions that do not follow their declaration: BIT_OPERATION, FRAME, FRAME_MEASUREMENT,
MATRIX_DIM, NO_RESCALE_X, GUARD_RAILS, SYMBOL_TYPE_LINK. What they accept, exactly.
-/

namespace Verif.A2l.Odd
open Verif.Go Verif.A2l Lang Decl Analysis Template Loose

/-! ### Loops described by their rounds -/

/-- What one round sees: the values, whether there is an error, the position. -/
structure View where
  o : Obj
  e : Bool
  i : Nat

def view (s : St) : View := ⟨s.obj, s.err, s.idx⟩

inductive Steps (step : View → View → Prop) : Nat → View → View → Prop
  | nil {x} : Steps step 0 x x
  | cons {n x y z} (h : step x y) (hs : Steps step n y z) : Steps step (n + 1) x z

/-- The rounds of the loop `b`: a round that goes on, the last round. `G` is an invariant of the values. -/
structure Rounds (E : Env) (b : Stmt) (G : Obj → Prop) (step : Calls → View → View → Prop) (stop : View → View → Prop) : Prop where
  start : G Obj.empty
  keep : ∀ R x y, G x.o → step R x y → G y.o
  fwd : ∀ K n s y, G s.obj → step (Suc K) (view s) y → ∃ s', exec E K n b s = .ok s' .cont ∧ view s' = y
  fwdStop : ∀ K n s y, G s.obj → stop (view s) y → ∃ s', exec E K n b s = .ok s' .brk ∧ view s' = y
  back : ∀ K n s s' c, G s.obj → exec E K n b s = .ok s' c →
    (c = .cont → step (Suc K) (view s) (view s')) ∧ (c = .brk → s'.err = false → stop (view s) (view s'))
  mono : ∀ (R R' : Calls), (∀ q i j v, R q i j v → R' q i j v) → ∀ x y, step R x y → step R' x y
  bound : ∀ x y, step (Succeeds E) x y → ∃ n₀ d₀, ∀ n d, n₀ ≤ n → d₀ ≤ d → step (Suc (run E n d)) x y

variable {E : Env} {b : Stmt} {G : Obj → Prop} {step : Calls → View → View → Prop} {stop : View → View → Prop}

theorem iter_steps (L : Rounds E b G step stop) {K : PName → Nat → PRes} {n k : Nat} {x z : View} (h : Steps (step (Suc K)) k x z) :
    ∀ s, view s = x → G s.obj → ∃ s', view s' = z ∧ G s'.obj ∧ ∀ N, iter (exec E K n b) (N + k) s = iter (exec E K n b) N s' := by
  induction h with
  | nil => intro s h hg; exact ⟨s, h, hg, fun N => rfl⟩
  | cons hit _ ih =>
    rintro s rfl hg
    obtain ⟨s1, h1, h2⟩ := L.fwd K n s _ hg hit
    obtain ⟨s2, h3, h5, h4⟩ := ih s1 h2 (by have := L.keep _ _ _ hg hit; rw [← h2] at this; exact this)
    refine ⟨s2, h3, h5, fun N => ?_⟩
    rw [← Nat.add_assoc, iter, h1]
    exact h4 N

theorem steps_iter (L : Rounds E b G step stop) {K : PName → Nat → PRes} {n : Nat} : ∀ {N : Nat} {s s' : St} {c : Ctl}, G s.obj →
    iter (exec E K n b) N s = .ok s' c → s'.err = false → ∃ k y, Steps (step (Suc K)) k (view s) y ∧ stop y (view s') := by
  intro N
  induction N with
  | zero => intro s s' c _ h; simp [iter] at h
  | succ N ih =>
    intro s s' c hg hit he
    rw [iter] at hit
    cases hr : exec E K n b s with
    | ok s1 c1 =>
      rw [hr] at hit
      cases c1 with
      | cont =>
        have h1 := (L.back K n s s1 _ hg hr).1 rfl
        obtain ⟨k, y, h2, h3⟩ := ih (L.keep _ _ _ hg h1 : G (view s1).o) hit he
        exact ⟨k + 1, y, .cons h1 h2, h3⟩
      | brk =>
        simp only [Out.ok.injEq] at hit
        obtain ⟨rfl, _⟩ := hit
        exact ⟨0, _, .nil, (L.back K n s _ _ hg hr).2 rfl he⟩
    | panic => rw [hr] at hit; cases hit
    | timeout => rw [hr] at hit; cases hit

theorem Steps.map {P Q : View → View → Prop} (h : ∀ x y, P x y → Q x y) {k : Nat} {x y : View} (hs : Steps P k x y) : Steps Q k x y := by
  induction hs with
  | nil => exact .nil
  | cons a _ ih => exact .cons (h _ _ a) ih

theorem steps_bound (L : Rounds E b G step stop) {k : Nat} {x z : View} (h : Steps (step (Succeeds E)) k x z) :
    ∃ n₀ d₀, ∀ n d, n₀ ≤ n → d₀ ≤ d → Steps (step (Suc (run E n d))) k x z := by
  induction h with
  | nil => exact ⟨0, 0, fun _ _ _ _ => .nil⟩
  | cons hit _ ih =>
    obtain ⟨n1, d1, h1⟩ := ih
    obtain ⟨n2, d2, h2⟩ := L.bound _ _ hit
    exact ⟨max n1 n2, max d1 d2, fun n d' hn hd => .cons (h2 n d' (by omega) (by omega)) (h1 n d' (by omega) (by omega))⟩

/-- A parse function with such a loop accepts exactly what its rounds describe. -/
theorem reads (L : Rounds E b G step stop) {p : PName} (hp : p ≠ .parseModuleMultithreaded) (hb : A2l.body p = blk [.loop b])
    {i i' : Nat} {v : Val} : Returns E p i (.ok i' v false) ↔
      ∃ o k y, v = .obj o ∧ Steps (step (Succeeds E)) k ⟨Obj.empty, false, i⟩ y ∧ stop y ⟨o, false, i'⟩ := by
  constructor
  · rintro ⟨_, n, d, h⟩
    have h := h n (d + 1) (Nat.le_refl _) (by omega)
    rw [run_loop hp hb] at h
    cases hr : iter (exec E (run E n d) n b) n (St.init i) with
    | ok s c =>
      rw [hr] at h
      simp only [finish, PRes.ok.injEq] at h
      obtain ⟨rfl, rfl, h3⟩ := h
      obtain ⟨k, y, g1, g2⟩ := steps_iter L (s := St.init i) L.start hr h3
      refine ⟨s.obj, k, y, rfl, Steps.map (L.mono _ _ (fun q a b w hh => returns_of_run (r := .ok b w false) hh (by simp))) g1, ?_⟩
      have : view s = ⟨s.obj, false, s.idx⟩ := by rw [← h3]; rfl
      rw [← this]
      exact g2
    | panic => rw [hr] at h; simp [finish] at h
    | timeout => rw [hr] at h; simp [finish] at h
  · rintro ⟨o, k, y, rfl, h1, h2⟩
    obtain ⟨n0, d0, hbd⟩ := steps_bound L h1
    have hi := hbd (n0 + 1 + k) d0 (by omega) (Nat.le_refl _)
    obtain ⟨s1, b1, b3, b2⟩ := iter_steps (n := n0 + 1 + k) L hi (St.init i) rfl L.start
    obtain ⟨s2, c1, c2⟩ := L.fwdStop (run E (n0 + 1 + k) d0) (n0 + 1 + k) s1 _ b3 (by rw [b1]; exact h2)
    refine returns_of_run (n := n0 + 1 + k) (d := d0 + 1) ?_ (by simp)
    rw [run_loop hp hb, b2 (n0 + 1), iter, c1]
    simp only [view, View.mk.injEq] at c2
    simp only [finish, c2]

/-! ### BIT_OPERATION -/

/-- The parts of a BIT_OPERATION. -/
def bitParts : List (Str × PName × String) := [((str! "LEFT_SHIFT"), .parseLeftShift, "leftShift"),
  ((str! "RIGHT_SHIFT"), .parseRightShift, "rightShift"), ((str! "SIGN_EXTEND"), .parseSignExtend, "signExtend")]

/-- A round in BIT_OPERATION: a part; a word, ignored; a foreign keyword, which is an error until the next part. -/
inductive BitRound (E : Env) (R : Calls) : View → View → Prop
  | part {o e i j k q f v} (hk : (k, q, f) ∈ bitParts) (ht : TokAfter E i k) (h : R q (i + 1) j v) : BitRound E R ⟨o, e, i⟩ ⟨o.set f v, false, j⟩
  | word {o e i t} (ht : TokAfter E i t) (h0 : t ≠ []) (h1 : t ∉ bitParts.map (·.1)) (h2 : t ∉ keywords) : BitRound E R ⟨o, e, i⟩ ⟨o, e, i + 1⟩
  | foreign {o e i t} (ht : TokAfter E i t) (h0 : t ≠ (str! "/end BIT_OPERATION")) (h1 : t ∉ bitParts.map (·.1)) (h2 : t ∈ keywords) :
      BitRound E R ⟨o, e, i⟩ ⟨o, true, i + 1⟩

inductive BitEnd (E : Env) : View → View → Prop
  | fin {o e i} (ht : TokAfter E i (str! "/end BIT_OPERATION")) : BitEnd E ⟨o, e, i⟩ ⟨o, e, i + 1⟩

def bitCode : List (Str × List Stmt) := bitParts.map fun x => (x.1, [.callField x.2.2 x.2.1, .ite .errNe (blk [.brk]) (blk [])])

def bitBody : Stmt := form endBitOperationToken bitCode [.setErr, .brk] [.brk] [.setErr] []

theorem bit_body : A2l.body .parseBitOperation = blk [.loop bitBody] := rfl

theorem lookup_mem {α : Type} {l : List (Str × α)} (hn : (l.map (·.1)).Nodup) {k : Str} {a : α} (h : (k, a) ∈ l) : l.lookup k = some a := by
  induction l with
  | nil => cases h
  | cons x l ih =>
    obtain ⟨c, d⟩ := x
    simp only [List.map_cons, List.nodup_cons] at hn
    rw [List.lookup_cons]
    rcases List.mem_cons.1 h with h | h
    · cases h; simp
    · have : k ≠ c := fun he => hn.1 (he ▸ List.mem_map.2 ⟨_, h, rfl⟩)
      rw [show (k == c) = false by simpa using this]
      exact ih hn.2 h

theorem exec_part {K : PName → Nat → PRes} {n : Nat} {q : PName} {f : String} (s : St) :
    exec E K n (blk [.callField f q, .ite .errNe (blk [.brk]) (blk [])]) s =
      match K q s.idx with
      | .ok i v e => .ok { s with idx := i, obj := s.obj.set f v, err := e } (if e then .brk else .cont)
      | .panic => .panic
      | .timeout => .timeout := by
  rw [exec_blk_cons]
  simp only [exec]
  cases K q s.idx with
  | ok i v e => cases e <;> rfl
  | panic => rfl
  | timeout => rfl

theorem bitRounds (hw : Wf E) : Rounds E bitBody (fun _ => True) (BitRound E) (BitEnd E) where
  start := trivial
  keep := fun _ _ _ _ _ => trivial
  fwd := by
    intro K n s y _ h
    obtain ⟨hr, hc, ho, he, hx⟩ := doNext_spec hw s
    rw [bitBody, exec_form hw]
    cases h with
    | part hk ht h =>
      rename_i j k q f v
      obtain ⟨g1, g2⟩ := tokAt_of ht
      rw [g2, lookup_mem (l := bitCode) (by decide) (List.mem_map.2 ⟨_, hk, rfl⟩)]
      simp only
      rw [exec_part, hx g1]
      have h' : K q (s.idx + 1) = .ok j v false := h
      rw [h']
      exact ⟨_, rfl, by simp only [view, ho]⟩
    | word ht h0 h1 h2 =>
      rename_i t
      obtain ⟨g1, g2⟩ := tokAt_of ht
      rw [g2, lookup_of_not_mem (l := bitCode) (by exact h1)]
      have hf : t ≠ endBitOperationToken := fun hh => h2 (hh ▸ by decide +kernel)
      simp only [h0, hf, h2, if_false]
      exact ⟨_, rfl, by simp only [view, ho, he, hx g1]⟩
    | foreign ht h0 h1 h2 =>
      rename_i t
      obtain ⟨g1, g2⟩ := tokAt_of ht
      rw [g2, lookup_of_not_mem (l := bitCode) (by exact h1)]
      have hf : t ≠ endBitOperationToken := h0
      have hn : t ≠ [] := fun hh => by rw [hh] at h2; exact absurd h2 (by decide +kernel)
      simp only [hn, hf, h2, if_false, if_true]
      exact ⟨_, rfl, by simp only [view, ho, hx g1]⟩
  fwdStop := by
    intro K n s y _ h
    obtain ⟨hr, hc, ho, he, hx⟩ := doNext_spec hw s
    rw [bitBody, exec_form hw]
    cases h with
    | fin ht =>
      obtain ⟨g1, g2⟩ := tokAt_of ht
      rw [g2, lookup_of_not_mem (l := bitCode) (by decide)]
      have hf : (str! "/end BIT_OPERATION") = endBitOperationToken := rfl
      simp only [hf, if_true]
      exact ⟨_, rfl, by simp only [view, ho, he, hx g1]⟩
  back := by
    intro K n s s' c _ h
    obtain ⟨hr, hc, ho, he, hx⟩ := doNext_spec hw s
    rw [bitBody, exec_form hw] at h
    cases hl : bitCode.lookup (tokAt E s.idx) with
    | some st =>
      rw [hl] at h
      simp only at h
      obtain ⟨⟨k, q, f⟩, hk, hst⟩ := List.mem_map.1 (lookup_isSome hl)
      simp only [Prod.mk.injEq] at hst
      obtain ⟨hk', rfl⟩ := hst
      have hne : k ≠ [] := by
        have : ∀ x ∈ bitParts, x.1 ≠ [] := by decide
        exact this _ hk
      obtain ⟨g1, g2⟩ := tokAt_ne hk'.symm hne
      rw [exec_part, hx g1] at h
      cases hK : K q (s.idx + 1) with
      | ok j v e =>
        rw [hK] at h
        simp only [Out.ok.injEq] at h
        obtain ⟨rfl, rfl⟩ := h
        cases e with
        | false =>
          refine ⟨fun _ => ?_, fun h => (by cases h)⟩
          simp only [view, ho]
          exact .part hk g2 hK
        | true => exact ⟨fun h => (by cases h), fun _ h => (by cases h)⟩
      | panic => rw [hK] at h; cases h
      | timeout => rw [hK] at h; cases h
    | none =>
      rw [hl] at h
      have hkey : tokAt E s.idx ∉ bitParts.map (·.1) := by
        have := lookup_isNone hl
        rw [bitCode, List.map_map] at this
        exact this
      simp only at h
      by_cases h0 : tokAt E s.idx = []
      · rw [if_pos h0] at h
        cases h
        exact ⟨fun h => (by cases h), fun _ h => (by cases h)⟩
      · rw [if_neg h0] at h
        obtain ⟨g1, g2⟩ := tokAt_ne rfl h0
        by_cases h1 : tokAt E s.idx = endBitOperationToken
        · rw [if_pos h1] at h
          cases h
          refine ⟨fun h => (by cases h), fun _ h => ?_⟩
          rw [h1] at g2
          simp only [view, ho, he, hx g1]
          exact .fin g2
        · rw [if_neg h1] at h
          by_cases h2 : tokAt E s.idx ∈ keywords
          · rw [if_pos h2] at h
            cases h
            refine ⟨fun _ => ?_, fun h => (by cases h)⟩
            simp only [view, ho, hx g1]
            exact .foreign g2 h1 hkey h2
          · rw [if_neg h2] at h
            cases h
            refine ⟨fun _ => ?_, fun h => (by cases h)⟩
            simp only [view, ho, he, hx g1]
            exact .word g2 h0 hkey h2
  mono := by
    intro R R' h x y hs
    cases hs with
    | part a b c => exact .part a b (h _ _ _ _ c)
    | word a b c d => exact .word a b c d
    | foreign a b c d => exact .foreign a b c d
  bound := by
    intro x y hs
    cases hs with
    | part a b c =>
      obtain ⟨_, n0, d0, h⟩ := c
      exact ⟨n0, d0, fun n d hn hd => .part a b (h n d hn hd)⟩
    | word a b c d => exact ⟨0, 0, fun _ _ _ _ => .word a b c d⟩
    | foreign a b c d => exact ⟨0, 0, fun _ _ _ _ => .foreign a b c d⟩

/-! ### FRAME -/

/-- A round in FRAME: the measurements, a block of data, a word. Every word becomes the name. -/
inductive FrameRound (E : Env) (R : Calls) : View → View → Prop
  | measurement {o e i j v} (ht : TokAfter E i (str! "FRAME_MEASUREMENT")) (h : R .parseFrameMeasurement (i + 1) j v) :
      FrameRound E R ⟨o, e, i⟩ ⟨o.set "frameMeasurement" v, false, j⟩
  | data {o e i j v} (ht : TokAfter E i (str! "/begin IF_DATA")) (h : R .parseIfData (i + 1) j v) :
      FrameRound E R ⟨o, e, i⟩ ⟨o.set "ifData" (.list (o.list "ifData" ++ [v])), false, j⟩
  | word {o e i t} (ht : TokAfter E i t) (h0 : t ≠ []) (h1 : t ≠ (str! "FRAME_MEASUREMENT")) (h2 : t ∉ keywords) :
      FrameRound E R ⟨o, e, i⟩ ⟨o.set "name" (.str t), e, i + 1⟩

/-- The end of a FRAME: its closing token, or the end of the file. -/
inductive FrameEnd (E : Env) : View → View → Prop
  | fin {o e i} (ht : TokAfter E i (str! "/end FRAME")) : FrameEnd E ⟨o, e, i⟩ ⟨o, e, i + 1⟩
  | eof {o e i} (ht : TokAfter E i []) : FrameEnd E ⟨o, e, i⟩ ⟨o, e, i + 1⟩
  | over {o e i} (ht : E.toks.length ≤ i + 1) : FrameEnd E ⟨o, e, i⟩ ⟨o, e, i⟩

def frameCode : List (Str × List Stmt) := [(frameMeasurementToken, [.callField "frameMeasurement" .parseFrameMeasurement, .ite .errNe (blk [.brk]) (blk [])]),
  (beginIfDataToken, [.callBuf .parseIfData, .ite .errNe (blk [.brk]) (blk []), .append "ifData" .same])]

def framePlain : List Stmt := [
  .ite (.unset "nameSet")
    (blk [.storeCur "name"])
    (blk [
      .ite (.unset "longIdentifierSet")
        (blk [.storeCur "longIdentifier"])
        (blk [
          .ite (.unset "scalingUnitSet")
            (blk [
              .conv (.uint 16),
              .ite .errNe (blk [.brk]) (blk []),
              .store "scalingUnit" (.uint 16)])
            (blk [
              .ite (.unset "rateSet")
                (blk [
                  .conv (.uint 32),
                  .ite .errNe (blk [.brk]) (blk []),
                  .store "rate" (.uint 32)])
                (blk [])])])])]

def frameBody : Stmt := form endFrameToken frameCode [.brk] [.brk] [.setErr, .brk] framePlain

theorem frame_body : A2l.body .parseFrame = blk [.loop frameBody] := rfl

theorem exec_append_part {K : PName → Nat → PRes} {n : Nat} {q : PName} {f : String} (s : St) :
    exec E K n (blk [.callBuf q, .ite .errNe (blk [.brk]) (blk []), .append f .same]) s =
      match K q s.idx with
      | .ok i v e => if e then .ok { s with idx := i, buf := v, err := e } .brk
          else .ok { s with idx := i, buf := v, err := e, obj := s.obj.set f (.list (s.obj.list f ++ [v])) } .cont
      | .panic => .panic
      | .timeout => .timeout := by
  rw [exec_blk_cons]
  simp only [exec]
  cases K q s.idx with
  | ok i v e =>
    cases e
    · simp only [exec_blk_cons, exec, holds, Bool.false_eq_true, if_false, exec_blk_nil, castVal_same]
    · rfl
  | panic => rfl
  | timeout => rfl

theorem exec_framePlain {K : PName → Nat → PRes} {n : Nat} {s : St} (h : s.obj.flag "nameSet" = false) :
    exec E K n (blk framePlain) s = .ok { s with obj := s.obj.set "name" (.str (E.current s.idx)) } .cont := by
  rw [framePlain, exec_blk_one]
  simp only [exec, holds, h, Bool.not_false, if_true, exec_blk_one]

theorem frameRounds (hw : Wf E) : Rounds E frameBody (fun o => o.flag "nameSet" = false) (FrameRound E) (FrameEnd E) where
  start := rfl
  keep := by
    intro R x y hg h
    cases h with
    | measurement ht h => exact (flag_other _ _ (by decide)).trans hg
    | data ht h => exact (flag_other _ _ (by decide)).trans hg
    | word ht h0 h1 h2 => exact (flag_other _ _ (by decide)).trans hg
  fwd := by
    intro K n s y hg h
    obtain ⟨hr, hc, ho, he, hx⟩ := doNext_spec hw s
    rw [frameBody, exec_form hw]
    cases h with
    | measurement ht h =>
      rename_i j v
      obtain ⟨g1, g2⟩ := tokAt_of ht
      rw [g2]
      show ∃ s', exec E K n (blk [.callField "frameMeasurement" .parseFrameMeasurement, .ite .errNe (blk [.brk]) (blk [])]) _ = _ ∧ _
      rw [exec_part, hx g1]
      have h' : K .parseFrameMeasurement (s.idx + 1) = .ok j v false := h
      rw [h']
      exact ⟨_, rfl, by simp only [view, ho]⟩
    | data ht h =>
      rename_i j v
      obtain ⟨g1, g2⟩ := tokAt_of ht
      rw [g2]
      show ∃ s', exec E K n (blk [.callBuf .parseIfData, .ite .errNe (blk [.brk]) (blk []), .append "ifData" .same]) _ = _ ∧ _
      rw [exec_append_part, hx g1]
      have h' : K .parseIfData (s.idx + 1) = .ok j v false := h
      rw [h']
      exact ⟨_, rfl, by simp only [view, ho]⟩
    | word ht h0 h1 h2 =>
      rename_i t
      obtain ⟨g1, g2⟩ := tokAt_of ht
      have hk : t ∉ frameCode.map (·.1) := by
        intro hh
        have : t = frameMeasurementToken ∨ t = beginIfDataToken := by simpa [frameCode] using hh
        rcases this with rfl | rfl
        · exact h1 rfl
        · exact h2 (by decide +kernel)
      have hf : t ≠ endFrameToken := fun hh => h2 (hh ▸ by decide +kernel)
      rw [g2, lookup_of_not_mem hk]
      simp only [h0, hf, h2, if_false]
      rw [exec_framePlain (by rw [ho]; exact hg)]
      exact ⟨_, rfl, by rw [hc, g2]; simp only [view, ho, he, hx g1]⟩
  fwdStop := by
    intro K n s y hg h
    obtain ⟨hr, hc, ho, he, hx⟩ := doNext_spec hw s
    rw [frameBody, exec_form hw]
    cases h with
    | fin ht =>
      obtain ⟨g1, g2⟩ := tokAt_of ht
      rw [g2]
      exact ⟨_, rfl, by simp only [view, ho, he, hx g1]⟩
    | eof ht =>
      obtain ⟨g1, g2⟩ := tokAt_of ht
      rw [g2]
      exact ⟨_, rfl, by simp only [view, ho, he, hx g1]⟩
    | over ht =>
      have hn : E.hasNext s.idx = false := by simp [Env.hasNext, view] at ht ⊢; exact ht
      have g2 : tokAt E s.idx = [] := by simp [tokAt, hn]
      rw [g2]
      refine ⟨_, rfl, ?_⟩
      simp [view, doNext, hn]
  back := by
    intro K n s s' c hg h
    obtain ⟨hr, hc, ho, he, hx⟩ := doNext_spec hw s
    rw [frameBody, exec_form hw] at h
    by_cases k1 : tokAt E s.idx = frameMeasurementToken
    · obtain ⟨g1, g2⟩ := tokAt_ne k1 (by decide)
      rw [k1] at h
      replace h : exec E K n (blk [.callField "frameMeasurement" .parseFrameMeasurement, .ite .errNe (blk [.brk]) (blk [])]) (doNext E s) = .ok s' c := h
      rw [exec_part, hx g1] at h
      cases hK : K .parseFrameMeasurement (s.idx + 1) with
      | ok j v e =>
        rw [hK] at h
        simp only [Out.ok.injEq] at h
        obtain ⟨rfl, rfl⟩ := h
        cases e with
        | false =>
          refine ⟨fun _ => ?_, fun h => (by cases h)⟩
          simp only [view, ho]
          exact .measurement g2 hK
        | true => exact ⟨fun h => (by cases h), fun _ h => (by cases h)⟩
      | panic => rw [hK] at h; cases h
      | timeout => rw [hK] at h; cases h
    · by_cases k2 : tokAt E s.idx = beginIfDataToken
      · obtain ⟨g1, g2⟩ := tokAt_ne k2 (by decide)
        rw [k2] at h
        replace h : exec E K n (blk [.callBuf .parseIfData, .ite .errNe (blk [.brk]) (blk []), .append "ifData" .same]) (doNext E s) = .ok s' c := h
        rw [exec_append_part, hx g1] at h
        cases hK : K .parseIfData (s.idx + 1) with
        | ok j v e =>
          rw [hK] at h
          cases e with
          | false =>
            simp only [Bool.false_eq_true, if_false, Out.ok.injEq] at h
            obtain ⟨rfl, rfl⟩ := h
            refine ⟨fun _ => ?_, fun h => (by cases h)⟩
            simp only [view, ho]
            exact .data g2 hK
          | true =>
            simp only [if_true, Out.ok.injEq] at h
            obtain ⟨rfl, rfl⟩ := h
            exact ⟨fun h => (by cases h), fun _ h => (by cases h)⟩
        | panic => rw [hK] at h; cases h
        | timeout => rw [hK] at h; cases h
      · rw [lookup_of_not_mem (l := frameCode) (by simp [frameCode, k1, k2])] at h
        simp only at h
        by_cases h0 : tokAt E s.idx = []
        · rw [if_pos h0] at h
          cases h
          refine ⟨fun h => (by cases h), fun _ _ => ?_⟩
          by_cases hn : E.hasNext s.idx = true
          · simp only [view, ho, he, hx hn]
            refine .eof ?_
            have : s.idx + 1 < E.toks.length := by simpa [Env.hasNext] using hn
            unfold TokAfter
            rw [List.getElem?_eq_getElem this]
            simp only [tokAt, hn, if_true, Env.current, List.getElem?_eq_getElem this, Option.getD_some] at h0
            rw [h0]
          · have hl : E.toks.length ≤ s.idx + 1 := by simpa [Env.hasNext] using hn
            have : view (doNext E s) = view s := by simp [view, doNext, hn]
            rw [this]
            exact .over hl
        · rw [if_neg h0] at h
          obtain ⟨g1, g2⟩ := tokAt_ne rfl h0
          by_cases h1 : tokAt E s.idx = endFrameToken
          · rw [if_pos h1] at h
            cases h
            refine ⟨fun h => (by cases h), fun _ h => ?_⟩
            rw [h1] at g2
            simp only [view, ho, he, hx g1]
            exact .fin g2
          · rw [if_neg h1] at h
            by_cases h2 : tokAt E s.idx ∈ keywords
            · rw [if_pos h2] at h
              cases h
              exact ⟨fun h => (by cases h), fun _ h => (by cases h)⟩
            · rw [if_neg h2, exec_framePlain (by rw [ho]; exact hg)] at h
              cases h
              refine ⟨fun _ => ?_, fun h => (by cases h)⟩
              simp only [view, ho, he, hx g1]
              rw [show E.current (s.idx + 1) = tokAt E s.idx by rw [← hc, hx g1]]
              exact .word g2 h0 k1 h2
  mono := by
    intro R R' h x y hs
    cases hs with
    | measurement b c => exact .measurement b (h _ _ _ _ c)
    | data b c => exact .data b (h _ _ _ _ c)
    | word a b c d => exact .word a b c d
  bound := by
    intro x y hs
    cases hs with
    | measurement b c =>
      obtain ⟨_, n0, d0, h⟩ := c
      exact ⟨n0, d0, fun n d hn hd => .measurement b (h n d hn hd)⟩
    | data b c =>
      obtain ⟨_, n0, d0, h⟩ := c
      exact ⟨n0, d0, fun n d hn hd => .data b (h n d hn hd)⟩
    | word a b c d => exact ⟨0, 0, fun _ _ _ _ => .word a b c d⟩

/-! ### MATRIX_DIM -/

/-- A round in MATRIX_DIM: the first number is the first dimension, every other one the second. -/
inductive DimRound (E : Env) : View → View → Prop
  | first {o e i t} {m : Nat} (ht : TokAfter E i t) (h1 : t ∉ keywords) (h2 : IsNat t m) (h3 : m < 65536) (hf : o.flag "DimXSet" = false) :
      DimRound E ⟨o, e, i⟩ ⟨(o.set "DimX" (.int m)).set "DimXSet" (.bool true), false, i + 1⟩
  | more {o e i t} {m : Nat} (ht : TokAfter E i t) (h1 : t ∉ keywords) (h2 : IsNat t m) (h3 : m < 65536) (hf : o.flag "DimXSet" = true) :
      DimRound E ⟨o, e, i⟩ ⟨o.set "DimY" (.int m), false, i + 1⟩

/-- The end of a MATRIX_DIM: a keyword, which is not read. -/
inductive DimEnd (E : Env) : View → View → Prop
  | key {o e i t} (ht : TokAfter E i t) (h : t ∈ keywords) : DimEnd E ⟨o, e, i⟩ ⟨o, e, i⟩

def dimPlain : List Stmt := [
  .ite (.unset "DimXSet")
    (blk (load true "DimX" (.uint 16) ++ [.setTrue "DimXSet"]))
    (blk [
      .ite (.unset "DimYSet")
        (blk (load true "DimY" (.uint 16)))
        (blk [
          .ite (.unset "DimZSet")
            (blk (load true "DimZ" (.uint 16)))
            (blk [
              .ite (.unset "Dim4Set")
                (blk (load true "Dim4" (.uint 16)))
                (blk [
                  .ite (.unset "Dim5Set")
                    (blk (load true "Dim5" (.uint 16) ++ [.brk]))
                    (blk [])])])])])]

/-- A round that looks at the end of the file and at keywords only. -/
def short (onEmpty onKw plain : List Stmt) : Stmt :=
  blk [.next, .ite (.curIs emptyToken) (blk onEmpty) (blk [.ite .curKw (blk onKw) (blk plain)])]

theorem exec_short (hw : Wf E) {K : PName → Nat → PRes} {n : Nat} {onEmpty onKw plain : List Stmt} (s : St) :
    exec E K n (short onEmpty onKw plain) s =
      if tokAt E s.idx = [] then exec E K n (blk onEmpty) (doNext E s)
      else if tokAt E s.idx ∈ keywords then exec E K n (blk onKw) (doNext E s)
      else exec E K n (blk plain) (doNext E s) := by
  obtain ⟨hr, hc, _⟩ := doNext_spec hw s
  rw [← hc, short, exec_blk_cons]
  simp only [exec]
  rw [exec_blk_one]
  by_cases h1 : E.current (doNext E s).idx = []
  · simp [exec, holds, emptyToken, h1]
  · by_cases h2 : E.current (doNext E s).idx ∈ keywords
    · simp [exec, holds, emptyToken, h1, exec_blk_one, isKeyword, h2]
    · simp [exec, holds, emptyToken, h1, exec_blk_one, isKeyword, h2]

def dimBody : Stmt := short [.setErr, .brk] [.prev, .brk] dimPlain

theorem dim_body : A2l.body .parseMatrixDim = blk [.loop dimBody] := rfl

theorem nat_ne {t : Str} {m : Nat} (h : IsNat t m) : t ≠ [] := h.1

/-- Reading a number of 16 bits. -/
theorem exec_load16 {K : PName → Nat → PRes} {n : Nat} {f : String} (s : St) (tail : List Stmt) :
    (∃ m : Nat, IsNat (E.current s.idx) m ∧ m < 65536 ∧ exec E K n (blk (load true f (.uint 16) ++ tail)) s =
      exec E K n (blk tail) { s with obj := s.obj.set f (.int m), buf := .int m, err := false }) ∨
    (∃ s', exec E K n (blk (load true f (.uint 16) ++ tail)) s = .ok s' .brk ∧ s'.err = true) := by
  by_cases h : ∃ v, Denotes E (.uint 16) (E.current s.idx) v
  · obtain ⟨_, m, h1, h2, rfl⟩ := h
    have hc := (parseUint_ok (E.current s.idx) 16 m).2 ⟨h1, h2⟩
    refine Or.inl ⟨m, h1, h2, ?_⟩
    simp only [load, List.cons_append, List.nil_append, exec_blk_cons, exec, convert, hc, ifErr, holds,
      Bool.not_true, Bool.false_eq_true, if_false, exec_blk_nil, castVal, castInt_uint h2]
  · exact Or.inr (load_err rfl (fun v hv => h ⟨v, hv⟩) tail)

theorem load16_ok {K : PName → Nat → PRes} {n : Nat} {f : String} {s : St} {m : Nat} (h1 : IsNat (E.current s.idx) m) (h2 : m < 65536)
    (tail : List Stmt) : exec E K n (blk (load true f (.uint 16) ++ tail)) s =
      exec E K n (blk tail) { s with obj := s.obj.set f (.int m), buf := .int m, err := false } := by
  have hc := (parseUint_ok (E.current s.idx) 16 m).2 ⟨h1, h2⟩
  simp only [load, List.cons_append, List.nil_append, exec_blk_cons, exec, convert, hc, ifErr, holds,
      Bool.not_true, Bool.false_eq_true, if_false, exec_blk_nil, castVal, castInt_uint (show m < 2 ^ 16 from h2)]

theorem dimRounds (hw : Wf E) : Rounds E dimBody (fun o => o.flag "DimYSet" = false) (fun _ => DimRound E) (DimEnd E) where
  start := rfl
  keep := by
    intro R x y hg h
    cases h with
    | first => exact (flag_other _ _ (by decide)).trans ((flag_other _ _ (by decide)).trans hg)
    | more => exact (flag_other _ _ (by decide)).trans hg
  fwd := by
    intro K n s y hg h
    obtain ⟨hr, hc, ho, he, hx⟩ := doNext_spec hw s
    rw [dimBody, exec_short hw]
    cases h with
    | first ht h1 h2 h3 hf =>
      obtain ⟨g1, g2⟩ := tokAt_of ht
      rw [g2, if_neg (nat_ne h2), if_neg h1, dimPlain, exec_blk_one]
      simp only [exec, holds, ho, hf, Bool.not_false, if_true]
      rw [load16_ok (by rw [hc, g2]; exact h2) h3, exec_blk_one]
      exact ⟨_, rfl, by simp only [view, ho, hx g1]⟩
    | more ht h1 h2 h3 hf =>
      obtain ⟨g1, g2⟩ := tokAt_of ht
      rw [g2, if_neg (nat_ne h2), if_neg h1, dimPlain, exec_blk_one]
      simp only [exec, holds, ho, hf, hg, Bool.not_false, Bool.not_true, Bool.false_eq_true, if_false, if_true, exec_blk_one]
      have := load16_ok (K := K) (n := n) (f := "DimY") (s := doNext E s) (by rw [hc, g2]; exact h2) h3 []
      rw [List.append_nil] at this
      rw [this, exec_blk_nil]
      exact ⟨_, rfl, by simp only [view, ho, hx g1]⟩
  fwdStop := by
    intro K n s y hg h
    obtain ⟨hr, hc, ho, he, hx⟩ := doNext_spec hw s
    rw [dimBody, exec_short hw]
    cases h with
    | key ht h =>
      rename_i t
      obtain ⟨g1, g2⟩ := tokAt_of ht
      rw [g2, if_neg (fun hh => by subst hh; revert h; decide +kernel), if_pos h]
      refine ⟨{ doNext E s with idx := (doNext E s).idx - 1 }, ?_, ?_⟩
      · simp [exec_blk_cons, exec, hx g1]
      · simp only [view, ho, he, hx g1, Nat.add_sub_cancel]
  back := by
    intro K n s s' c hg h
    obtain ⟨hr, hc, ho, he, hx⟩ := doNext_spec hw s
    rw [dimBody, exec_short hw] at h
    by_cases h0 : tokAt E s.idx = []
    · rw [if_pos h0] at h
      cases h
      exact ⟨fun h => (by cases h), fun _ h => (by cases h)⟩
    rw [if_neg h0] at h
    obtain ⟨g1, g2⟩ := tokAt_ne rfl h0
    by_cases h1 : tokAt E s.idx ∈ keywords
    · rw [if_pos h1] at h
      simp [exec_blk_cons, exec, hx g1] at h
      obtain ⟨rfl, rfl⟩ := h
      refine ⟨fun h => (by cases h), fun _ _ => ?_⟩
      simp only [view, ho, he]
      exact .key g2 h1
    · rw [if_neg h1, dimPlain, exec_blk_one] at h
      by_cases hf : s.obj.flag "DimXSet" = true
      · simp only [exec, holds, ho, hf, hg, Bool.not_false, Bool.not_true, Bool.false_eq_true, if_false, if_true, exec_blk_one] at h
        rcases exec_load16 (K := K) (n := n) (f := "DimY") (doNext E s) [] with ⟨m, h2, h3, a⟩ | ⟨s1, a, b⟩
        · rw [List.append_nil] at a
          rw [a, exec_blk_nil] at h
          cases h
          refine ⟨fun _ => ?_, fun h => (by cases h)⟩
          rw [hc] at h2
          simp only [view, ho, hx g1]
          exact .more g2 h1 h2 h3 hf
        · rw [List.append_nil] at a
          rw [a] at h
          cases h
          exact ⟨fun h => (by cases h), fun _ h => by rw [b] at h; cases h⟩
      · simp only [Bool.not_eq_true] at hf
        simp only [exec, holds, ho, hf, Bool.not_false, if_true] at h
        rcases exec_load16 (K := K) (n := n) (f := "DimX") (doNext E s) [.setTrue "DimXSet"] with ⟨m, h2, h3, a⟩ | ⟨s1, a, b⟩
        · rw [a, exec_blk_one] at h
          cases h
          refine ⟨fun _ => ?_, fun h => (by cases h)⟩
          rw [hc] at h2
          simp only [view, ho, hx g1]
          exact .first g2 h1 h2 h3 hf
        · rw [a] at h
          cases h
          exact ⟨fun h => (by cases h), fun _ h => by rw [b] at h; cases h⟩
  mono := fun _ _ _ _ _ h => h
  bound := fun _ _ h => ⟨0, 0, fun _ _ _ _ => h⟩

/-! ### FRAME_MEASUREMENT -/

/-- A round in FRAME_MEASUREMENT: a word is added to the list. -/
inductive FmRound (E : Env) : View → View → Prop
  | word {o e i t} (ht : TokAfter E i t) (h0 : t ≠ []) (h1 : t ∉ keywords) :
      FmRound E ⟨o, e, i⟩ ⟨o.set "identifier" (.list (o.list "identifier" ++ [.str t])), e, i + 1⟩

/-- The end: the end of the frame or a block of data, not read. -/
inductive FmEnd (E : Env) : View → View → Prop
  | fin {o e i t} (ht : TokAfter E i t) (h : t = (str! "/end FRAME") ∨ t = (str! "/begin IF_DATA")) :
      FmEnd E ⟨o, e, i⟩ ⟨o.set "identifierSet" (.bool true), e, i⟩

def fmBody : Stmt := blk [.next, .ite (.curIs emptyToken) (blk [.setErr, .brk]) (blk [
  .ite (.or (.curIs endFrameToken) (.curIs beginIfDataToken)) (blk [.setTrue "identifierSet", .prev, .brk]) (blk [
    .ite .curKw (blk [.setErr, .brk]) (blk [.ite (.unset "identifierSet") (blk [.appendCur "identifier"]) (blk [])])])])]

theorem fm_body : A2l.body .parseFrameMeasurement = blk [.loop fmBody] := rfl

theorem exec_fm (hw : Wf E) {K : PName → Nat → PRes} {n : Nat} (s : St) (hg : s.obj.flag "identifierSet" = false) : exec E K n fmBody s =
      if tokAt E s.idx = [] then exec E K n (blk [.setErr, .brk]) (doNext E s)
      else if tokAt E s.idx = (str! "/end FRAME") ∨ tokAt E s.idx = (str! "/begin IF_DATA") then
        exec E K n (blk [.setTrue "identifierSet", .prev, .brk]) (doNext E s)
      else if tokAt E s.idx ∈ keywords then exec E K n (blk [.setErr, .brk]) (doNext E s)
      else exec E K n (.appendCur "identifier") (doNext E s) := by
  obtain ⟨hr, hc, ho, _⟩ := doNext_spec hw s
  have e1 : (str! "/end FRAME") = endFrameToken := rfl
  have e2 : (str! "/begin IF_DATA") = beginIfDataToken := rfl
  rw [← hc, e1, e2, fmBody, exec_blk_cons]
  simp only [exec]
  rw [exec_blk_one]
  by_cases h1 : E.current (doNext E s).idx = []
  · simp [exec, holds, emptyToken, h1]
  · by_cases h2 : E.current (doNext E s).idx = endFrameToken ∨ E.current (doNext E s).idx = beginIfDataToken
    · rw [if_neg h1, if_pos h2]
      simp [exec, holds, emptyToken, h1, exec_blk_one, h2]
    · rw [if_neg h1, if_neg h2]
      simp only [not_or] at h2
      by_cases h3 : E.current (doNext E s).idx ∈ keywords
      · simp [exec, holds, emptyToken, h1, exec_blk_one, h2, isKeyword, h3]
      · simp [exec, holds, emptyToken, h1, exec_blk_one, h2, isKeyword, h3, ho, hg]

theorem fmRounds (hw : Wf E) : Rounds E fmBody (fun o => o.flag "identifierSet" = false) (fun _ => FmRound E) (FmEnd E) where
  start := rfl
  keep := by
    intro R x y hg h
    cases h with
    | word => exact (flag_other _ _ (by decide)).trans hg
  fwd := by
    intro K n s y hg h
    obtain ⟨hr, hc, ho, he, hx⟩ := doNext_spec hw s
    rw [exec_fm hw s hg]
    cases h with
    | word ht h0 h1 =>
      rename_i t
      obtain ⟨g1, g2⟩ := tokAt_of ht
      have hf : ¬ (t = (str! "/end FRAME") ∨ t = (str! "/begin IF_DATA")) := by
        rintro (rfl | rfl)
        · exact h1 (by decide +kernel)
        · exact h1 (by decide +kernel)
      rw [g2, if_neg h0, if_neg hf, if_neg h1]
      refine ⟨_, rfl, ?_⟩
      rw [hc, g2]
      simp only [view, ho, he, hx g1]
  fwdStop := by
    intro K n s y hg h
    obtain ⟨hr, hc, ho, he, hx⟩ := doNext_spec hw s
    rw [exec_fm hw s hg]
    cases h with
    | fin ht h =>
      rename_i t
      obtain ⟨g1, g2⟩ := tokAt_of ht
      rw [g2, if_neg (by rcases h with rfl | rfl <;> decide), if_pos h]
      refine ⟨{ doNext E s with idx := (doNext E s).idx - 1, obj := (doNext E s).obj.set "identifierSet" (.bool true) }, ?_, ?_⟩
      · simp [exec_blk_cons, exec, hx g1]
      · simp only [view, ho, he, hx g1, Nat.add_sub_cancel]
  back := by
    intro K n s s' c hg h
    obtain ⟨hr, hc, ho, he, hx⟩ := doNext_spec hw s
    rw [exec_fm hw s hg] at h
    by_cases h0 : tokAt E s.idx = []
    · rw [if_pos h0] at h
      cases h
      exact ⟨fun h => (by cases h), fun _ h => (by cases h)⟩
    rw [if_neg h0] at h
    obtain ⟨g1, g2⟩ := tokAt_ne rfl h0
    by_cases h1 : tokAt E s.idx = (str! "/end FRAME") ∨ tokAt E s.idx = (str! "/begin IF_DATA")
    · rw [if_pos h1] at h
      simp [exec_blk_cons, exec, hx g1] at h
      obtain ⟨rfl, rfl⟩ := h
      refine ⟨fun h => (by cases h), fun _ _ => ?_⟩
      simp only [view, ho, he]
      exact .fin g2 h1
    rw [if_neg h1] at h
    by_cases h2 : tokAt E s.idx ∈ keywords
    · rw [if_pos h2] at h
      cases h
      exact ⟨fun h => (by cases h), fun _ h => (by cases h)⟩
    · rw [if_neg h2] at h
      cases h
      refine ⟨fun _ => ?_, fun h => (by cases h)⟩
      rw [hc]
      simp only [view, ho, he, hx g1]
      exact .word g2 h0 h2
  mono := fun _ _ _ _ _ h => h
  bound := fun _ _ h => ⟨0, 0, fun _ _ _ _ => h⟩

/-! ### NO_RESCALE_X -/

/-- The only round: the position. -/
inductive NrEnd (E : Env) : View → View → Prop
  | fin {o e i t} {m : Nat} (ht : TokAfter E i t) (h1 : t ∉ keywords) (h2 : IsNat t m) (h3 : m < 65536) :
      NrEnd E ⟨o, e, i⟩ ⟨(o.set "Position" (.int m)).set "PositionSet" (.bool true), false, i + 1⟩

def nrPlain : List Stmt := [
  .ite (.unset "PositionSet")
    (blk (load true "Position" (.uint 16) ++ [.setTrue "PositionSet", .brk]))
    (blk [
      .ite (.unset "DatatypeSet")
        (blk [
          .enumField "Datatype" parseDataTypeEnum,
          .ite .errNe (blk [.brk]) (blk []),
          .setTrue "DatatypeSet"])
        (blk [])])]

def nrBody : Stmt := short [.setErr, .brk] [.setErr, .brk] nrPlain

theorem nr_body : A2l.body .parseNoRescaleX = blk [.loop nrBody] := rfl

theorem nrRounds (hw : Wf E) : Rounds E nrBody (fun o => o.flag "PositionSet" = false) (fun _ _ _ => False) (NrEnd E) where
  start := rfl
  keep := fun _ _ _ _ h => h.elim
  fwd := fun _ _ _ _ _ h => h.elim
  fwdStop := by
    intro K n s y hg h
    obtain ⟨hr, hc, ho, he, hx⟩ := doNext_spec hw s
    rw [nrBody, exec_short hw]
    cases h with
    | fin ht h1 h2 h3 =>
      obtain ⟨g1, g2⟩ := tokAt_of ht
      rw [g2, if_neg (nat_ne h2), if_neg h1, nrPlain, exec_blk_one]
      simp only [exec, holds, ho, hg, Bool.not_false, if_true]
      rw [load16_ok (by rw [hc, g2]; exact h2) h3]
      exact ⟨_, rfl, by simp only [view, ho, hx g1]⟩
  back := by
    intro K n s s' c hg h
    obtain ⟨hr, hc, ho, he, hx⟩ := doNext_spec hw s
    rw [nrBody, exec_short hw] at h
    by_cases h0 : tokAt E s.idx = []
    · rw [if_pos h0] at h
      cases h
      exact ⟨fun h => (by cases h), fun _ h => (by cases h)⟩
    rw [if_neg h0] at h
    obtain ⟨g1, g2⟩ := tokAt_ne rfl h0
    by_cases h1 : tokAt E s.idx ∈ keywords
    · rw [if_pos h1] at h
      cases h
      exact ⟨fun h => (by cases h), fun _ h => (by cases h)⟩
    · rw [if_neg h1, nrPlain, exec_blk_one] at h
      simp only [exec, holds, ho, hg, Bool.not_false, if_true] at h
      rcases exec_load16 (K := K) (n := n) (f := "Position") (doNext E s) [.setTrue "PositionSet", .brk] with ⟨m, h2, h3, a⟩ | ⟨s1, a, b⟩
      · rw [a] at h
        cases h
        refine ⟨fun h => (by cases h), fun _ _ => ?_⟩
        rw [hc] at h2
        simp only [view, ho, hx g1]
        exact .fin g2 h1 h2 h3
      · rw [a] at h
        cases h
        exact ⟨fun h => (by cases h), fun _ h => by rw [b] at h; cases h⟩
  mono := fun _ _ _ _ _ h => h
  bound := fun _ _ h => h.elim

end Verif.A2l.Odd
