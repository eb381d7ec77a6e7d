import Verif.A2l.RenameMt

/-!
C104: exchanging two names in an A2L file exchanges them in the result and changes nothing else.
-/

namespace Verif.A2l.Rename
open Verif.Go Verif.A2l Lang Verif.Conc

/-! ### Specification -/

/-- `x` for `y` and `y` for `x`. -/
def swap (x y w : Str) : Str := if w = x then y else if w = y then x else w

/-- `g` applied to every word of `t`; words are separated by blanks. `w` is the beginning of the word before `t`. -/
def everyWord (g : Str → Str) (w : Str) : Str → Str
  | [] => g w
  | c :: t => if c = ' ' then g w ++ ' ' :: everyWord g [] t else everyWord g (w ++ [c]) t

/-- The words of `t`; `w` is the beginning of the word before `t`. -/
def wordsFrom (w : Str) : Str → List Str
  | [] => [w]
  | c :: t => if c = ' ' then w :: wordsFrom [] t else wordsFrom (w ++ [c]) t

def wordsOf (t : Str) : List Str := wordsFrom [] t

/-- Both names exchanged in a text, wherever one of them is a whole word. -/
def swapWords (x y t : Str) : Str := everyWord (swap x y) [] t

/-- The words of the language: the words of all keywords and of all other words the parse functions know. -/
def reserved : List Str := (keywords ++ PName.all.flatMap fun p => stmtWords (body p)).flatMap wordsOf

/-- A name: no blank, not a word of the language, and neither an integer nor (part of) what is accepted as a floating-point number. -/
structure Name (floatOk : Str → Bool) (x : Str) : Prop where
  blank : ' ' ∉ x
  free : x ∉ reserved
  notInt : ∃ c ∈ x, c ∉ ['+', '-', '0', '1', '2', '3', '4', '5', '6', '7', '8', '9']
  notFloat : ∀ t, floatOk t = true → x ∉ wordsOf t

/-! ### Words -/

section
variable {x y : Str}

theorem swap_swap (w : Str) : swap x y (swap x y w) = w := by
  unfold swap
  by_cases h1 : w = x
  · rw [if_pos h1]
    by_cases h2 : y = x
    · rw [if_pos h2, h1, h2]
    · rw [if_neg h2, if_pos rfl, h1]
  · rw [if_neg h1]
    by_cases h2 : w = y
    · rw [if_pos h2, if_pos rfl, h2]
    · rw [if_neg h2, if_neg h1, if_neg h2]

theorem swap_blank (hx : ' ' ∉ x) (hy : ' ' ∉ y) {w : Str} (hw : ' ' ∉ w) : ' ' ∉ swap x y w := by
  unfold swap
  split
  · exact hy
  · split
    · exact hx
    · exact hw

theorem everyWord_blank (g : Str → Str) (a t : Str) : ∀ w, everyWord g w (a ++ ' ' :: t) = everyWord g w a ++ ' ' :: everyWord g [] t := by
  induction a with
  | nil => intro w; simp [everyWord]
  | cons c a ih =>
    intro w
    simp only [List.cons_append, everyWord]
    split
    · rw [ih]; simp
    · exact ih _

theorem everyWord_word (g : Str → Str) {u : Str} : ∀ w, ' ' ∉ u → everyWord g w u = g (w ++ u) := by
  induction u with
  | nil => intro w _; simp [everyWord]
  | cons c u ih =>
    intro w hu
    simp only [List.mem_cons, not_or] at hu
    simp only [everyWord]
    rw [if_neg (fun h => hu.1 h.symm), ih _ hu.2]
    simp

theorem everyWord_inv (hx : ' ' ∉ x) (hy : ' ' ∉ y) (t : Str) : ∀ w, ' ' ∉ w →
    everyWord (swap x y) [] (everyWord (swap x y) w t) = w ++ t := by
  induction t with
  | nil =>
    intro w hw
    simp only [everyWord]
    rw [everyWord_word _ _ (swap_blank hx hy hw)]
    simp [swap_swap]
  | cons c t ih =>
    intro w hw
    simp only [everyWord]
    split
    · next hc =>
      rw [everyWord_blank, everyWord_word _ _ (swap_blank hx hy hw), ih [] (by simp)]
      simp [swap_swap, hc]
    · next hc =>
      rw [ih _ (by simp [hw, Ne.symm hc])]
      simp

theorem everyWord_fix {g : Str → Str} (t : Str) : ∀ w, (∀ u ∈ wordsFrom w t, g u = u) → everyWord g w t = w ++ t := by
  induction t with
  | nil => intro w h; simpa [everyWord] using h w (by simp [wordsFrom])
  | cons c t ih =>
    intro w h
    simp only [wordsFrom] at h
    simp only [everyWord]
    by_cases hc : c = ' '
    · rw [if_pos hc] at h ⊢
      rw [h w (by simp), ih [] (fun u hu => h u (by simp [hu])), hc]
      simp
    · rw [if_neg hc] at h ⊢
      rw [ih _ h]
      simp

theorem wordsFrom_chars {u : Str} (t : Str) : ∀ w, u ∈ wordsFrom w t → ∀ c ∈ u, c ∈ w ++ t := by
  induction t with
  | nil => intro w h c hc; simp only [wordsFrom, List.mem_singleton] at h; subst h; simpa using hc
  | cons d t ih =>
    intro w h c hc
    simp only [wordsFrom] at h
    split at h
    · rcases List.mem_cons.1 h with rfl | h
      · simp [hc]
      · have := ih [] h c hc
        simp only [List.nil_append] at this
        simp [this]
    · have := ih _ h c hc
      simpa [List.append_assoc] using this

/-- A text that changes contains one of the names. -/
theorem swapWords_moves {t : Str} (h : swapWords x y t ≠ t) : x ∈ wordsOf t ∨ y ∈ wordsOf t := by
  refine Classical.byContradiction fun hn => h ?_
  simp only [not_or] at hn
  have := everyWord_fix (g := swap x y) t [] (fun u hu => by
    unfold swap
    rw [if_neg (fun e => hn.1 (by rw [← e]; exact hu)), if_neg (fun e => hn.2 (by rw [← e]; exact hu))])
  simpa [swapWords] using this
end

/-! ### Numbers -/

def intChars : List Char := ['+', '-', '0', '1', '2', '3', '4', '5', '6', '7', '8', '9']

theorem digit_intChar {c : Char} {d : Nat} (h : digit? c = some d) : c ∈ intChars := by
  unfold digit? at h
  split at h
  · next hc =>
    have hn : c.toNat = 48 ∨ c.toNat = 49 ∨ c.toNat = 50 ∨ c.toNat = 51 ∨ c.toNat = 52 ∨ c.toNat = 53 ∨ c.toNat = 54 ∨ c.toNat = 55 ∨ c.toNat = 56 ∨ c.toNat = 57 := by
      have h1 : 48 ≤ c.toNat := hc.1
      have h2 : c.toNat ≤ 57 := hc.2
      omega
    have he : ∀ e : Char, c.toNat = e.toNat → c = e := fun e h => Char.ext (UInt32.toNat_inj.1 h)
    rcases hn with h | h | h | h | h | h | h | h | h | h
    · rw [he '0' h]; decide
    · rw [he '1' h]; decide
    · rw [he '2' h]; decide
    · rw [he '3' h]; decide
    · rw [he '4' h]; decide
    · rw [he '5' h]; decide
    · rw [he '6' h]; decide
    · rw [he '7' h]; decide
    · rw [he '8' h]; decide
    · rw [he '9' h]; decide
  · cases h

theorem digits_none {t : Str} : ∀ a, (∃ c ∈ t, c ∉ intChars) → digits? a t = none := by
  induction t with
  | nil => intro a h; simp at h
  | cons d t ih =>
    intro a h
    obtain ⟨c, hc, hn⟩ := h
    simp only [digits?]
    cases hd : digit? d with
    | none => rfl
    | some v =>
      refine ih _ ⟨c, ?_, hn⟩
      rcases List.mem_cons.1 hc with rfl | hc
      · exact absurd (digit_intChar hd) hn
      · exact hc

theorem uint_bad {t : Str} (h : ∃ c ∈ t, c ∉ intChars) (b : Nat) : parseUint t b = (0, false) := by
  unfold parseUint
  cases t with
  | nil => rfl
  | cons c t => simp only [digits_none 0 h]

theorem int_bad {t : Str} (h : ∃ c ∈ t, c ∉ intChars) (b : Nat) : parseInt t b = (0, false) := by
  have key : ∀ (neg : Bool) (d : Str), (∃ c ∈ d, c ∉ intChars) → (match d with
      | [] => ((0 : Int), false)
      | _ => match digits? 0 d with
        | none => (0, false)
        | some n =>
          if neg then
            if n ≤ 2 ^ (b - 1) then (-(n : Int), true) else (-((2 ^ (b - 1) : Nat) : Int), false)
          else
            if n < 2 ^ (b - 1) then ((n : Int), true) else (((2 ^ (b - 1) : Nat) : Int) - 1, false)) = (0, false) := by
    intro neg d hd
    cases d with
    | nil => rfl
    | cons c d => simp only [digits_none 0 hd]
  unfold parseInt
  obtain ⟨c, hc, hn⟩ := h
  split
  next neg d hs =>
  refine key neg d ?_
  split at hs
  · cases hs
    rcases List.mem_cons.1 hc with rfl | hc
    · exact absurd (by decide) hn
    · exact ⟨c, hc, hn⟩
  · cases hs
    rcases List.mem_cons.1 hc with rfl | hc
    · exact absurd (by decide) hn
    · exact ⟨c, hc, hn⟩
  · cases hs; exact ⟨c, hc, hn⟩

/-! ### Exchanging two names is such a function -/

theorem all_mem (p : PName) : p ∈ PName.all := by cases p <;> decide +kernel

theorem swap_renames {floatOk : Str → Bool} {x y : Str} (hx : Name floatOk x) (hy : Name floatOk y) : Renames (swapWords x y) floatOk := by
  have inv : ∀ t, swapWords x y (swapWords x y t) = t := fun t => by
    simpa [swapWords] using everyWord_inv hx.blank hy.blank t [] (by simp)
  have free : ∀ t, (∀ u ∈ wordsOf t, u ∈ reserved) → swapWords x y t = t := fun t h => by
    refine Classical.byContradiction fun hn => ?_
    rcases swapWords_moves hn with h' | h'
    · exact hx.free (h x h')
    · exact hy.free (h y h')
  have bad : ∀ t, swapWords x y t ≠ t → ∃ c ∈ t, c ∉ intChars := fun t h => by
    rcases swapWords_moves h with h' | h'
    · obtain ⟨c, hc, hn⟩ := hx.notInt
      exact ⟨c, by simpa using wordsFrom_chars t [] h' c hc, hn⟩
    · obtain ⟨c, hc, hn⟩ := hy.notInt
      exact ⟨c, by simpa using wordsFrom_chars t [] h' c hc, hn⟩
  have bad' : ∀ t, swapWords x y t ≠ t → ∃ c ∈ swapWords x y t, c ∉ intChars := fun t h =>
    bad (swapWords x y t) (by rw [inv]; exact fun e => h e.symm)
  refine ⟨inv, ?_, ?_, ?_, ?_, ?_, ?_, ?_⟩
  · have : [] ∈ reserved := by decide +kernel
    exact free [] (by simpa [wordsOf, wordsFrom] using this)
  · intro a t
    have := everyWord_blank (swap x y) a t []
    simpa [swapWords] using this
  · intro t ht
    exact free t fun u hu => List.mem_flatMap.2 ⟨t, List.mem_append.2 (.inl ht), hu⟩
  · intro p t ht
    exact free t fun u hu => List.mem_flatMap.2 ⟨t, List.mem_append.2 (.inr (List.mem_flatMap.2 ⟨p, all_mem p, ht⟩)), hu⟩
  · intro t ht
    refine Classical.byContradiction fun hn => ?_
    rcases swapWords_moves hn with h' | h'
    · exact hx.notFloat t ht h'
    · exact hy.notFloat t ht h'
  · intro t b
    by_cases h : swapWords x y t = t
    · rw [h]
    · rw [uint_bad (bad t h), uint_bad (bad' t h)]
  · intro t b
    by_cases h : swapWords x y t = t
    · rw [h]
    · rw [int_bad (bad t h), int_bad (bad' t h)]

/-! ### Without parallel parsing -/

/-- Every call of the parallel module parser is behind the question whether there is one. -/
def guarded : Stmt → Bool
  | .seq a b => guarded a && guarded b
  | .callBuf p => p ≠ .parseModuleMultithreaded
  | .callField _ p => p ≠ .parseModuleMultithreaded
  | .ite .multi _ b => guarded b
  | .ite _ a b => guarded a && guarded b
  | .loop b => guarded b
  | _ => true

theorem all_guarded (p : PName) : guarded (body p) = true := by
  have h : PName.all.all (fun p => guarded (body p)) = true := by decide +kernel
  exact List.all_eq_true.1 h p (all_mem p)

theorem iter_congr {g g' : St → Out} (h : ∀ s, g s = g' s) : iter g = iter g' := by
  have : g = g' := funext h
  rw [this]

theorem exec_seq {E E' : Env} (ht : E.toks = E'.toks) (hf : E.floatOk = E'.floatOk) (hm : E.multi = false) (hm' : E'.multi = false)
    {K K' : PName → Nat → PRes} (hK : ∀ p, p ≠ .parseModuleMultithreaded → ∀ i, K p i = K' p i) (n : Nat) (st : Stmt) (hg : guarded st = true) :
    ∀ s, exec E K n st s = exec E' K' n st s := by
  obtain ⟨toks, fo, mu, mt⟩ := E
  obtain ⟨toks', fo', mu', mt'⟩ := E'
  simp only at ht hf hm hm'
  subst ht hf hm hm'
  have hh : ∀ (c : Cond) (s : St), holds ⟨toks, fo, false, mt⟩ s c = holds ⟨toks, fo, false, mt'⟩ s c := by
    intro c s
    induction c with
    | or a b iha ihb => simp only [holds, iha, ihb]
    | _ => rfl
  have hc : ∀ (c : Conv) (t : Str), convert ⟨toks, fo, false, mt⟩ c t = convert ⟨toks, fo, false, mt'⟩ c t := by
    intro c t; cases c <;> rfl
  induction st with
  | seq a b iha ihb =>
    intro s
    simp only [guarded, Bool.and_eq_true] at hg
    simp only [exec, iha hg.1]
    cases exec ⟨toks, fo, false, mt'⟩ K' n a s with
    | ok s' c => cases c <;> simp [ihb hg.2]
    | panic => rfl
    | timeout => rfl
  | callBuf p =>
    intro s
    simp only [guarded, decide_eq_true_eq] at hg
    simp only [exec, hK p hg]
  | callField g p =>
    intro s
    simp only [guarded, decide_eq_true_eq] at hg
    simp only [exec, hK p hg]
  | ite c a b iha ihb =>
    intro s
    by_cases hmu : c = .multi
    · subst hmu
      simp only [guarded] at hg
      simp only [exec, holds, Bool.false_eq_true, if_false, ihb hg]
    · have hg' : guarded a = true ∧ guarded b = true := by
        cases c <;> first | exact absurd rfl hmu | simpa [guarded] using hg
      simp only [exec, hh, iha hg'.1, ihb hg'.2]
  | loop b ih =>
    intro s
    simp only [guarded] at hg
    simp only [exec]
    rw [iter_congr (ih hg)]
  | conv c => intro s; simp only [exec, hc]; rfl
  | convRet c => intro s; simp only [exec, hc]
  | _ => intro s; rfl

theorem run_seq {E E' : Env} (ht : E.toks = E'.toks) (hf : E.floatOk = E'.floatOk) (hm : E.multi = false) (hm' : E'.multi = false) (n d : Nat) :
    ∀ p, p ≠ .parseModuleMultithreaded → ∀ i, run E n d p i = run E' n d p i := by
  induction d with
  | zero => intro p _ i; rfl
  | succ d ih =>
    intro p hp i
    simp only [run, if_neg hp]
    rw [exec_seq ht hf hm hm' ih n (body p) (all_guarded p)]

theorem parse_seq {E E' : Env} (ht : E.toks = E'.toks) (hf : E.floatOk = E'.floatOk) (hm : E.multi = false) (hm' : E'.multi = false)
    {p : PName} (hp : p ≠ .parseModuleMultithreaded) (i : Nat) : parse E p i = parse E' p i := by
  unfold parse
  rw [ht]
  exact run_seq ht hf hm hm' _ _ p hp i

theorem channel_parsers : ∀ c ∈ channels, c.parser ≠ .parseModuleMultithreaded := by decide

theorem findCase_mem {t : Str} : ∀ {cs : List ModCase} {k k' : Nat} {c : ModCase}, findCase t k cs = some (k', c) → c ∈ cs := by
  intro cs
  induction cs with
  | nil => intro k k' c h; cases h
  | cons d cs ih =>
    intro k k' c h
    simp only [findCase] at h
    split at h
    · cases h; simp
    · simp [ih h]

theorem worker_seq {E E' : Env} (ht : E.toks = E'.toks) (hf : E.floatOk = E'.floatOk) (hm : E.multi = false) (hm' : E'.multi = false) (max : Int) (n : Nat) :
    ∀ i, worker E max n i = worker E' max n i := by
  have hcur : ∀ i, E.current i = E'.current i := fun i => by simp only [Env.current, ht]
  have hhn : ∀ i, E.hasNext i = E'.hasNext i := fun i => by simp [Env.hasNext, ht]
  have hnx : ∀ i, nextIdx E i = nextIdx E' i := fun i => by simp only [nextIdx, hhn]
  have hnt : ∀ i, nextTok E i = nextTok E' i := fun i => by simp only [nextTok, hhn, hcur]
  induction n with
  | zero => intro i; rfl
  | succ n ih =>
    intro i
    simp only [worker, hcur, hnx, hnt]
    split
    · rfl
    · cases hc : findCase (nextTok E' i) 1 channels with
      | none => simp only [ih]
      | some kc =>
        obtain ⟨k, c⟩ := kc
        simp only [parse_seq ht hf hm hm' (channel_parsers c (findCase_mem hc)), ih]

theorem mtModule_seq {E E' : Env} (ht : E.toks = E'.toks) (hf : E.floatOk = E'.floatOk) (hm : E.multi = false) (hm' : E'.multi = false)
    (np : Nat) (sched : List Collect.Op) (i : Nat) : mtModule E np sched i = mtModule E' np sched i := by
  have hcur : ∀ i, E.current i = E'.current i := fun i => by simp only [Env.current, ht]
  have hhn : ∀ i, E.hasNext i = E'.hasNext i := fun i => by simp [Env.hasNext, ht]
  have hnx : ∀ i, nextIdx E i = nextIdx E' i := fun i => by simp only [nextIdx, hhn]
  have hh : header E i = header E' i := by simp only [header, hcur, hnx]
  have he : endIndex E = endIndex E' := by simp only [endIndex, ht]
  have hs : ∀ a b, scripts E np a b = scripts E' np a b := fun a b => by
    simp only [scripts, ht, worker_seq ht hf hm hm']
  simp only [mtModule, hh, he, hs]

/-! ### C104 -/

/-- C104, sequential parsing: exchanging two names in the tokens exchanges them in the result, in all texts and all keys of maps, and changes nothing
else: not the position where the parse function ends, not whether it returns an error, crashes or returns at all. -/
theorem C104_sequential {E : Env} (hs : E.multi = false) {x y : Str} (hx : Name E.floatOk x) (hy : Name E.floatOk y) {p : PName}
    (hp : p ≠ .parseModuleMultithreaded) (i : Nat) :
    parse { E with toks := E.toks.map (swapWords x y) } p i = renP (swapWords x y) (parse E p i) := by
  rw [← parse_ren (swap_renames hx hy) p i]
  exact parse_seq (E := { E with toks := E.toks.map (swapWords x y) }) (E' := renE (swapWords x y) E) rfl rfl hs hs hp i

/-- C104, parallel parsing of the modules by `np` workers, for every schedule. -/
theorem C104_parallel {E : Env} (hs : E.multi = false) {x y : Str} (hx : Name E.floatOk x) (hy : Name E.floatOk y) (np : Nat)
    (sched : Nat → List Collect.Op) (p : PName) (i : Nat) :
    parse (mtEnv { E with toks := E.toks.map (swapWords x y) } np sched) p i = renP (swapWords x y) (parse (mtEnv E np sched) p i) := by
  have h := swap_renames hx hy
  rw [← parse_ren (E := mtEnv E np sched) h p i, ← mtEnv_ren h]
  have : mtEnv { E with toks := E.toks.map (swapWords x y) } np sched = mtEnv (renE (swapWords x y) E) np sched := by
    simp only [mtEnv]
    congr 1
    funext i
    exact mtModule_seq (E := { E with toks := E.toks.map (swapWords x y) }) (E' := renE (swapWords x y) E) rfl rfl hs hs np (sched i) i
  rw [this]

/-- What the exchange means for a map: the object that was stored under `k` is stored under the new name of `k`. -/
theorem C104_keys {x y : Str} (hx : ' ' ∉ x) (hy : ' ' ∉ y) (m : Str → Option Val) :
    ∃ m', ren (swapWords x y) (.map m) = .map m' ∧ ∀ k, m' (swapWords x y k) = (m k).map (ren (swapWords x y)) := by
  refine ⟨_, rfl, fun k => ?_⟩
  have inv : swapWords x y (swapWords x y k) = k := by simpa [swapWords] using everyWord_inv hx hy k [] (by simp)
  simp only [inv, renO_map]

/-- A word with a lower-case letter that does not begin with `/` is not a word of the language. -/
theorem lower_free {x : Str} (h : ∃ c ∈ x, c.isLower = true) (h' : x.head? ≠ some '/') : x ∉ reserved := by
  have hk : reserved.all (fun t => t.head? == some '/' || !(t.any Char.isLower)) = true := by decide +kernel
  intro hm
  have := List.all_eq_true.1 hk x hm
  simp only [Bool.or_eq_true, beq_iff_eq, Bool.not_eq_true', List.any_eq_false] at this
  rcases this with h1 | h1
  · exact h' h1
  · obtain ⟨c, hc, hl⟩ := h
    exact h1 c hc hl

/-! ### Examples -/

/-- A module with two units; one of them refers to the other. Floating-point numbers without exponent and sign. -/
def units : Env := ⟨[str! "/begin MODULE", str! "M", str! "\"d\"", str! "/begin UNIT", str! "metre", str! "\"see second below\"",
  str! "REF_UNIT", str! "second", str! "/end UNIT", str! "/begin UNIT", str! "second", str! "\"two\"", str! "/end UNIT",
  str! "/end MODULE", []], fun t => t.all fun c => c.isDigit || c == '.', false, fun _ => .panic⟩

theorem units_name {x : Str} (h0 : x ≠ []) (h1 : ∀ c ∈ x, c.isLower = true) : Name units.floatOk x := by
  obtain ⟨c, t, rfl⟩ := List.exists_cons_of_ne_nil h0
  have hc := h1 c (by simp)
  refine ⟨fun h => absurd (h1 _ h) (by decide), lower_free ⟨c, by simp, hc⟩ ?_, ⟨c, by simp, fun h => ?_⟩, fun u hu h => ?_⟩
  · intro h
    simp only [List.head?_cons, Option.some.injEq] at h
    subst h
    exact absurd hc (by decide)
  · have : ∀ e ∈ intChars, e.isLower = false := by decide
    rw [this c h] at hc; cases hc
  · have := wordsFrom_chars u [] h c (by simp)
    simp only [List.nil_append] at this
    have hd := List.all_eq_true.1 hu c this
    simp only [Char.isLower, Char.isDigit, Bool.and_eq_true, decide_eq_true_eq, Bool.or_eq_true, beq_iff_eq] at hc hd
    rcases hd with hd | rfl
    · have h1 := hc.1
      have h2 := hd.2
      exact absurd (UInt32.le_trans h1 h2) (by decide)
    · exact absurd hc.1 (by decide)

/-- The unit stored under a name: its name, long identifier and reference. -/
def unitOf (r : PRes) (k : Str) : Option (Str × Str) :=
  match r with
  | .ok _ (.obj o) false => match o "Units" with
    | .map m => (m k).map fun v => (v.strField "name", v.strField "longIdentifier")
    | _ => none
  | _ => none

example : parse { units with toks := units.toks.map (swapWords (str! "metre") (str! "second")) } .parseModule 0 =
    renP (swapWords (str! "metre") (str! "second")) (parse units .parseModule 0) :=
  C104_sequential rfl (units_name (by decide) (by decide)) (units_name (by decide) (by decide)) (by decide) 0

example : unitOf (parse units .parseModule 0) (str! "metre") = some (str! "metre", str! "\"see second below\"") := by decide +kernel
example : unitOf (parse { units with toks := units.toks.map (swapWords (str! "metre") (str! "second")) } .parseModule 0) (str! "second") =
    some (str! "second", str! "\"see metre below\"") := by decide +kernel
example (np : Nat) (sched : Nat → List Collect.Op) : parse (mtEnv { units with toks := units.toks.map (swapWords (str! "metre") (str! "second")) } np sched) .parseModule 0 =
    renP (swapWords (str! "metre") (str! "second")) (parse (mtEnv units np sched) .parseModule 0) :=
  C104_parallel rfl (units_name (by decide) (by decide)) (units_name (by decide) (by decide)) np sched _ 0
example : swapWords (str! "a") (str! "b") (str! "a ab b") = str! "b ab a" := by decide

/-- A name that is a word of the language is not opaque: with `REF_UNIT` for `metre` the module does not parse the same way. -/
theorem C104_reserved : unitOf (parse { units with toks := units.toks.map (swapWords (str! "metre") (str! "REF_UNIT")) } .parseModule 0) (str! "REF_UNIT") = none := by
  decide +kernel

end Verif.A2l.Rename
