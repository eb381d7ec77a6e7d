import Verif.A2l.Utf8Lemmas

/-!
Lemmas for C89: every step of the tokenizer does the same on the bytes of runes and on their characters.
-/

namespace Verif.A2l.Bytes

open Verif.Go Verif.A2l.Spec

def AllOk (us : List Rune) : Prop := ∀ u ∈ us, Ok u

theorem Ok.ascii_iff {u : Rune} (h : Ok u) {a : Char} (ha : a.toNat < 0x80) : a ∈ u.2 ↔ u.1 = a := by
  rcases h with ⟨h1, h2⟩ | ⟨h1, h2, h3⟩
  · rw [h2, List.mem_singleton]; exact eq_comm
  · constructor
    · intro h; have := h3 a h; omega
    · rintro rfl; omega

theorem mem_flat {us : List Rune} (h : AllOk us) {a : Char} (ha : a.toNat < 0x80) : a ∈ flat us ↔ a ∈ chars us := by
  unfold flat chars
  rw [List.mem_flatMap, List.mem_map]
  constructor
  · rintro ⟨u, hu, hm⟩; exact ⟨u, hu, ((h u hu).ascii_iff ha).1 hm⟩
  · rintro ⟨u, hu, hm⟩; exact ⟨u, hu, ((h u hu).ascii_iff ha).2 hm⟩

theorem Ok.ne_nil {u : Rune} (h : Ok u) : u.2 ≠ [] := by
  rcases h with ⟨_, h2⟩ | ⟨_, h2, _⟩
  · rw [h2]; simp
  · exact h2

theorem flat_eq_nil {us : List Rune} (h : AllOk us) : flat us = [] ↔ us = [] := by
  constructor
  · intro he
    cases us with
    | nil => rfl
    | cons u us => rw [flat_cons, List.append_eq_nil_iff] at he; exact absurd he.1 (h u List.mem_cons_self).ne_nil
  · rintro rfl; rfl

abbrev Ascii (m : Str) : Prop := ∀ a ∈ m, a.toNat < 0x80

theorem isPrefix_flat {m : Str} (hm : Ascii m) {us : List Rune} (h : AllOk us) : m <+: flat us ↔ m <+: chars us := by
  induction m generalizing us with
  | nil => simp
  | cons a m ih =>
    have ha := hm a List.mem_cons_self
    have hm' : Ascii m := fun b hb => hm b (List.mem_cons_of_mem _ hb)
    cases us with
    | nil => simp [flat, chars]
    | cons u us =>
      have h' : AllOk us := fun v hv => h v (List.mem_cons_of_mem _ hv)
      rw [flat_cons]
      show _ ↔ _ <+: u.1 :: chars us
      rcases h u List.mem_cons_self with ⟨_, h2⟩ | ⟨h1, h2, h3⟩
      · rw [h2, List.singleton_append, List.cons_prefix_cons, List.cons_prefix_cons, ih hm' h']
      · obtain ⟨x, xs, hx⟩ := List.exists_cons_of_ne_nil h2
        have := h3 x (by rw [hx]; simp)
        rw [hx, List.cons_append, List.cons_prefix_cons, List.cons_prefix_cons]
        constructor
        · rintro ⟨rfl, _⟩; omega
        · rintro ⟨rfl, _⟩; omega

theorem infix_skip {m xs s : Str} (hne : m ≠ []) (hm : Ascii m) (hx : ∀ x ∈ xs, 0x80 ≤ x.toNat) : m <:+: xs ++ s ↔ m <:+: s := by
  induction xs with
  | nil => rfl
  | cons x xs ih =>
    rw [List.cons_append, List.infix_cons_iff, ih (fun y hy => hx y (List.mem_cons_of_mem _ hy))]
    constructor
    · rintro (h | h)
      · obtain ⟨a, m, rfl⟩ := List.exists_cons_of_ne_nil hne
        rw [List.cons_prefix_cons] at h
        have h1 := hm a List.mem_cons_self
        have h2 := hx x List.mem_cons_self
        rw [h.1] at h1
        omega
      · exact h
    · exact Or.inr

theorem infix_flat {m : Str} (hne : m ≠ []) (hm : Ascii m) {us : List Rune} (h : AllOk us) : m <:+: flat us ↔ m <:+: chars us := by
  induction us with
  | nil => rfl
  | cons u us ih =>
    have h' : AllOk us := fun v hv => h v (List.mem_cons_of_mem _ hv)
    have hp := isPrefix_flat hm h
    have ih := ih h'
    show _ ↔ m <:+: u.1 :: chars us
    rcases h u List.mem_cons_self with ⟨_, h2⟩ | ⟨h1, h2, h3⟩
    · rw [flat_cons, h2, List.singleton_append] at hp
      rw [flat_cons, h2, List.singleton_append, List.infix_cons_iff, List.infix_cons_iff, ih]
      exact or_congr hp Iff.rfl
    · rw [flat_cons, infix_skip hne hm h3, ih]
      show _ ↔ m <:+: [u.1] ++ chars us
      rw [infix_skip hne hm (by simpa using h1)]

theorem contains_flat {m : Str} (hne : m ≠ []) (hm : Ascii m) {us : List Rune} (h : AllOk us) : contains m (flat us) = contains m (chars us) := by
  rw [Bool.eq_iff_iff, contains_iff, contains_iff, infix_flat hne hm h]

open Reading in
theorem opens_cons {m s : Str} {x : Char} : Opens m (x :: s) ↔ m <+: x :: s ∨ (x ≠ '"' ∧ Opens m s) := by
  constructor
  · rintro ⟨a, b, h, ha⟩
    cases a with
    | nil => exact Or.inl ⟨b, h.symm⟩
    | cons y a =>
      injection h with h1 h2
      subst h1
      exact Or.inr ⟨fun hx => ha (by simp [hx]), a, b, h2, fun hm => ha (List.mem_cons_of_mem _ hm)⟩
  · rintro (⟨b, h⟩ | ⟨hx, a, b, h, ha⟩)
    · exact ⟨[], b, h.symm, by simp⟩
    · refine ⟨x :: a, b, by rw [h]; rfl, ?_⟩
      intro hm
      rcases List.mem_cons.1 hm with h1 | h1
      · exact hx h1.symm
      · exact ha h1

open Reading in
theorem opens_skip {m xs s : Str} (hne : m ≠ []) (hm : Ascii m) (hx : ∀ x ∈ xs, 0x80 ≤ x.toNat) : Opens m (xs ++ s) ↔ Opens m s := by
  induction xs with
  | nil => rfl
  | cons x xs ih =>
    have h2 := hx x List.mem_cons_self
    rw [List.cons_append, opens_cons, ih (fun y hy => hx y (List.mem_cons_of_mem _ hy))]
    constructor
    · rintro (h | h)
      · obtain ⟨a, m, rfl⟩ := List.exists_cons_of_ne_nil hne
        rw [List.cons_prefix_cons] at h
        have h1 := hm a List.mem_cons_self
        rw [h.1] at h1
        omega
      · exact h.2
    · refine fun h => Or.inr ⟨?_, h⟩
      rintro rfl
      revert h2; decide

open Reading in
theorem opens_flat {m : Str} (hne : m ≠ []) (hm : Ascii m) {us : List Rune} (h : AllOk us) : Opens m (flat us) ↔ Opens m (chars us) := by
  induction us with
  | nil => rfl
  | cons u us ih =>
    have h' : AllOk us := fun v hv => h v (List.mem_cons_of_mem _ hv)
    have hp := isPrefix_flat hm h
    have ih := ih h'
    show _ ↔ Opens m (u.1 :: chars us)
    rcases h u List.mem_cons_self with ⟨_, h2⟩ | ⟨h1, h2, h3⟩
    · rw [flat_cons, h2, List.singleton_append] at hp
      rw [flat_cons, h2, List.singleton_append, opens_cons, opens_cons, ih]
      exact or_congr hp Iff.rfl
    · rw [flat_cons, opens_skip hne hm h3, ih]
      show _ ↔ Opens m ([u.1] ++ chars us)
      rw [opens_skip hne hm (by simpa using h1)]

theorem before_flat {m : Str} (hne : m ≠ []) (hq : '"' ∉ m) (hm : Ascii m) {us : List Rune} (h : AllOk us) :
    before m (flat us) = before m (chars us) := by
  rw [Bool.eq_iff_iff, Reading.before_iff hne hq, Reading.before_iff hne hq, opens_flat hne hm h, mem_flat h (by decide)]

theorem count_flat {us : List Rune} (h : AllOk us) : countChar quotationMark (flat us) = countChar quotationMark (chars us) := by
  unfold countChar
  induction us with
  | nil => rfl
  | cons u us ih =>
    have ih := ih fun v hv => h v (List.mem_cons_of_mem _ hv)
    rw [flat_cons, List.count_append, ih]
    show _ = List.count _ (u.1 :: chars us)
    rcases h u List.mem_cons_self with ⟨_, h2⟩ | ⟨h1, h2, h3⟩
    · rw [h2, List.count_cons, List.count_cons]; simp [Nat.add_comm]
    · rw [List.count_eq_zero_of_not_mem, List.count_cons_of_ne, Nat.zero_add]
      · intro he; rw [he] at h1; revert h1; decide
      · intro hm; have := h3 _ hm; revert this; decide

/-- The blank between the words of a token. -/
def blank : Rune := (' ', [' '])

theorem allOk_append {us vs : List Rune} : AllOk (us ++ vs) ↔ AllOk us ∧ AllOk vs := by
  unfold AllOk; simp only [List.mem_append]
  exact ⟨fun h => ⟨fun u hu => h u (Or.inl hu), fun u hu => h u (Or.inr hu)⟩, fun h u hu => hu.elim (h.1 u) (h.2 u)⟩

theorem allOk_blank : AllOk [blank] := by
  intro u hu
  obtain rfl : u = blank := by simpa using hu
  exact Or.inl ⟨by decide, rfl⟩

/-- Words as Go sees them, or the end of a line. -/
abbrev EvR := Option (List Rune)

def evB : EvR → Ev
  | some w => .word (flat w)
  | none => .nl

def evC : EvR → Ev
  | some w => .word (chars w)
  | none => .nl

/-- A token made of the words of `P`. -/
inductive Joined (P : List Rune → Prop) : List Rune → Prop
  | word {w} : P w → Joined P w
  | more {t w} : Joined P t → P w → Joined P (t ++ [blank] ++ w)

/-- The lexer is in the same mode on bytes and on characters. -/
inductive Same (P : List Rune → Prop) : Mode → Mode → Prop
  | normal : Same P .normal .normal
  | line : Same P .line .line
  | block : Same P .block .block
  | quote {a} : Joined P a → Same P (.quote (flat a)) (.quote (chars a))
  | tag {a} : Joined P a → Same P (.tag (flat a)) (.tag (chars a))
  | dead : Same P .dead .dead

def Step (P : List Rune → Prop) (x y : Mode × List Str) : Prop :=
  Same P x.1 y.1 ∧ ∃ ts : List (List Rune), (∀ t ∈ ts, Joined P t) ∧ x.2 = ts.map flat ∧ y.2 = ts.map chars

theorem step_none {P : List Rune → Prop} {m m' : Mode} (h : Same P m m') : Step P (m, []) (m', []) := ⟨h, [], by simp, rfl, rfl⟩

theorem step_one {P : List Rune → Prop} {m m' : Mode} (h : Same P m m') {t : List Rune} (ht : Joined P t) :
    Step P (m, [flat t]) (m', [chars t]) := ⟨h, [t], by simpa using ht, rfl, rfl⟩

theorem step_ite {P : List Rune → Prop} {p q : Prop} [Decidable p] [Decidable q] (hpq : p ↔ q) {x x' y y' : Mode × List Str}
    (h : q → Step P x x') (h' : ¬ q → Step P y y') : Step P (if p then x else y) (if q then x' else y') := by
  by_cases hq : q
  · rw [if_pos (hpq.2 hq), if_pos hq]; exact h hq
  · rw [if_neg (fun hp => hq (hpq.1 hp)), if_neg hq]; exact h' hq

theorem joined_ok {P : List Rune → Prop} (hP : ∀ w, P w → AllOk w) {t : List Rune} (h : Joined P t) : AllOk t := by
  induction h with
  | word h => exact hP _ h
  | more _ h ih => exact allOk_append.2 ⟨allOk_append.2 ⟨ih, allOk_blank⟩, hP _ h⟩

theorem lexWord_same {P : List Rune → Prop} (hP : ∀ w, P w → AllOk w) {w : List Rune} (hw : P w) :
    Step P (lexWord (flat w)) (lexWord (chars w)) := by
  have ok := hP w hw
  unfold lexWord
  rw [contains_flat (by decide) (by decide) ok, contains_flat (by decide) (by decide) ok, contains_flat (by decide) (by decide) ok,
    contains_flat (by decide) (by decide) ok, contains_flat (by decide) (by decide) ok, contains_flat (by decide) (by decide) ok,
    contains_flat (by decide) (by decide) ok, before_flat (by decide) (by decide) (by decide) ok,
    before_flat (by decide) (by decide) (by decide) ok, count_flat ok]
  have hb : ∀ p : Bool, Step P (if p then Mode.normal else .block, []) (if p then Mode.normal else .block, []) := by
    intro p; cases p
    · exact step_none .block
    · exact step_none .normal
  refine step_ite Iff.rfl (fun _ => ?_) fun _ => ?_
  · refine step_ite Iff.rfl (fun _ => hb _) fun _ => ?_
    refine step_ite Iff.rfl (fun _ => step_none .line) fun _ => ?_
    exact step_ite Iff.rfl (fun _ => step_one .normal (.word hw)) fun _ => step_none (.quote (.word hw))
  · refine step_ite Iff.rfl (fun _ => step_none .line) fun _ => ?_
    refine step_ite Iff.rfl (fun _ => hb _) fun _ => ?_
    refine step_ite Iff.rfl (fun _ => ?_) fun _ => step_one .normal (.word hw)
    exact step_ite Iff.rfl (fun _ => step_none (.tag (.word hw))) fun _ => step_none .dead

theorem flat_join (a w : List Rune) : flat a ++ [' '] ++ flat w = flat (a ++ [blank] ++ w) := by
  rw [flat_append, flat_append]; rfl

theorem chars_append (us vs : List Rune) : chars (us ++ vs) = chars us ++ chars vs := List.map_append

theorem chars_join (a w : List Rune) : chars a ++ [' '] ++ chars w = chars (a ++ [blank] ++ w) := by
  rw [chars_append, chars_append]; rfl

theorem lexStep_same {P : List Rune → Prop} (hP : ∀ w, P w → AllOk w) {m m' : Mode} (h : Same P m m') {e : EvR} (he : ∀ w, e = some w → P w) :
    Step P (lexStep m (evB e)) (lexStep m' (evC e)) := by
  cases e with
  | none => cases h <;> first | exact step_none .normal | exact step_none .block | exact step_none .dead |
      (rename_i h; first | exact step_none (.quote h) | exact step_none (.tag h))
  | some w =>
    have hw := he w rfl
    cases h with
    | normal => exact lexWord_same hP hw
    | line => exact step_none .line
    | dead => exact step_none .dead
    | block =>
      show Step P (if contains endMultilineComment (flat w) then Mode.normal else .block, [])
        (if contains endMultilineComment (chars w) then Mode.normal else .block, [])
      rw [contains_flat (by decide) (by decide) (hP w hw)]
      cases contains endMultilineComment (chars w)
      · exact step_none .block
      · exact step_none .normal
    | tag h =>
      rename_i a
      show Step P (.normal, [flat a ++ [' '] ++ flat w]) (.normal, [chars a ++ [' '] ++ chars w])
      rw [flat_join, chars_join]
      exact step_one .normal (.more h hw)
    | quote h =>
      rename_i a
      show Step P (if countChar quotationMark (flat a ++ [' '] ++ flat w) % 2 = 0 then (.normal, [flat a ++ [' '] ++ flat w])
          else (.quote (flat a ++ [' '] ++ flat w), []))
        (if countChar quotationMark (chars a ++ [' '] ++ chars w) % 2 = 0 then (.normal, [chars a ++ [' '] ++ chars w])
          else (.quote (chars a ++ [' '] ++ chars w), []))
      have hj : Joined P (a ++ [blank] ++ w) := .more h hw
      rw [flat_join, chars_join, count_flat (joined_ok hP hj)]
      exact step_ite Iff.rfl (fun _ => step_one .normal hj) fun _ => step_none (.quote hj)

theorem lex_same {P : List Rune → Prop} (hP : ∀ w, P w → AllOk w) {m m' : Mode} (h : Same P m m') (es : List EvR)
    (he : ∀ w, some w ∈ es → P w) :
    ∃ ts : List (List Rune), (∀ t ∈ ts, Joined P t) ∧ lex m (es.map evB) = ts.map flat ∧ lex m' (es.map evC) = ts.map chars := by
  induction es generalizing m m' with
  | nil => exact ⟨[], by simp, rfl, rfl⟩
  | cons e es ih =>
    obtain ⟨h1, ts, h2, h3, h4⟩ := lexStep_same hP h (e := e) fun w hw => he w (by simp [hw])
    obtain ⟨us, h5, h6, h7⟩ := ih h1 fun w hw => he w (List.mem_cons_of_mem _ hw)
    refine ⟨ts ++ us, ?_, ?_, ?_⟩
    · intro t ht
      rcases List.mem_append.1 ht with ht | ht
      · exact h2 t ht
      · exact h5 t ht
    · rw [List.map_cons, lex, h3, h6, List.map_append]
    · rw [List.map_cons, lex, h4, h7, List.map_append]

/-- Lines without words do not matter, see `lex_blank`. -/
theorem lex_blank_lines (m : Mode) (ls : List Line) (hm : m ≠ .line) :
    lex m (stream (ls.filter fun l => l ≠ [])) = lex m (stream ls) ∧ lexMode m (stream (ls.filter fun l => l ≠ [])) = lexMode m (stream ls) ∧
    lexMode m (stream ls) ≠ .line := by
  have hnl : ∀ (m : Mode) (ws : List Str), lexMode m (lineEvs ws) ≠ .line := by
    intro m ws
    unfold lineEvs
    rw [lexMode_append]
    generalize lexMode m (ws.map .word) = m'
    cases m' <;> simp [lexMode, lexStep]
  induction ls generalizing m with
  | nil => exact ⟨rfl, rfl, hm⟩
  | cons l ls ih =>
    by_cases h : l = []
    · have hl : lineEvs l = [.nl] := by rw [h]; rfl
      rw [List.filter_cons_of_neg (by simpa using h), stream_cons, hl]
      have h2 : lexMode m (.nl :: stream ls) = lexMode m (stream ls) := by
        cases m <;> first | (exact absurd rfl hm) | rfl
      rw [List.singleton_append, lex_nl hm, h2]
      exact ih m hm
    · rw [List.filter_cons_of_pos (by simpa using h), stream_cons, stream_cons, lex_append, lexMode_append, lex_append, lexMode_append]
      have := ih (lexMode m (lineEvs l)) (hnl _ _)
      rw [this.1, this.2.1]
      exact ⟨rfl, rfl, this.2.2⟩

/-! ### From the file to the words -/

theorem chars_dropWhile (f : Char → Bool) (us : List Rune) : chars (us.dropWhile fun u => f u.1) = (chars us).dropWhile f := by
  induction us with
  | nil => rfl
  | cons u us ih =>
    show _ = (u.1 :: chars us).dropWhile f
    rw [List.dropWhile_cons, List.dropWhile_cons]
    split
    · exact ih
    · rfl

theorem chars_reverse (us : List Rune) : chars us.reverse = (chars us).reverse := List.map_reverse

theorem chars_trim (f : Char → Bool) (us : List Rune) : chars (trimR f us) = trimFunc f (chars us) := by
  unfold trimR trimFunc
  rw [chars_reverse, chars_dropWhile, chars_reverse, chars_dropWhile]

theorem trimR_part (f : Char → Bool) (us : List Rune) : ∃ a b, us = a ++ trimR f us ++ b := by
  obtain ⟨b, hb⟩ := (us.dropWhile fun u => f u.1).reverse.dropWhile_suffix fun u => f u.1
  obtain ⟨a, ha⟩ := us.dropWhile_suffix fun u => f u.1
  refine ⟨a, b.reverse, ?_⟩
  unfold trimR
  rw [List.append_assoc, ← List.reverse_append, hb, List.reverse_reverse, ha]

/-- `strings.Split` at line ends. -/
def splitR : List Rune → List (List Rune)
  | [] => [[]]
  | u :: us =>
    if u.1 = '\n' then [] :: splitR us
    else match splitR us with
      | [] => [[u]]
      | l :: ls => (u :: l) :: ls

theorem splitR_ne_nil (us : List Rune) : splitR us ≠ [] := by
  cases us with
  | nil => simp [splitR]
  | cons u us =>
    rw [splitR]
    split
    · simp
    · split <;> simp

theorem split_chars (us : List Rune) : splitChar '\n' (chars us) = (splitR us).map chars := by
  induction us with
  | nil => rfl
  | cons u us ih =>
    show splitChar '\n' (u.1 :: chars us) = _
    rw [splitChar, splitR, ih]
    split
    · rfl
    · obtain ⟨l, ls, h⟩ := List.exists_cons_of_ne_nil (splitR_ne_nil us)
      rw [h]; rfl

theorem split_skip {xs s l : Str} {ls : List Str} (hx : '\n' ∉ xs) (h : splitChar '\n' s = l :: ls) : splitChar '\n' (xs ++ s) = (xs ++ l) :: ls := by
  induction xs with
  | nil => exact h
  | cons x xs ih =>
    rw [List.cons_append, splitChar, if_neg (fun he => hx (by simp [he])), ih (fun hm => hx (List.mem_cons_of_mem _ hm))]
    rfl

theorem split_flat {us : List Rune} (h : AllOk us) : splitChar '\n' (flat us) = (splitR us).map flat := by
  induction us with
  | nil => rfl
  | cons u us ih =>
    have ih := ih fun v hv => h v (List.mem_cons_of_mem _ hv)
    have hu := h u List.mem_cons_self
    rw [flat_cons, splitR]
    obtain ⟨l, ls, hl⟩ := List.exists_cons_of_ne_nil (splitR_ne_nil us)
    split
    · rename_i hn
      rcases hu with ⟨_, h2⟩ | ⟨h1, _⟩
      · rw [h2, hn, List.singleton_append, splitChar, if_pos rfl, ih]; rfl
      · rw [hn] at h1; exact absurd h1 (by decide)
    · rename_i hn
      rw [hl] at ih ⊢
      exact split_skip (fun hm => hn ((hu.ascii_iff (by decide)).1 hm)) ih

/-- `a` is nothing, or ends in a space. -/
def Open (a : List Rune) : Prop := a = [] ∨ ∃ a' y, a = a' ++ [y] ∧ isSpace y.1 = true

theorem open_cons {u : Rune} {a : List Rune} (h : isSpace u.1 = true) (ha : Open a) : Open (u :: a) := by
  rcases ha with rfl | ⟨a', y, rfl, hy⟩
  · exact Or.inr ⟨[], u, rfl, h⟩
  · exact Or.inr ⟨u :: a', y, rfl, hy⟩

theorem splitR_part (us : List Rune) : ∀ l ∈ splitR us, ∃ a b, us = a ++ l ++ b ∧ Open a := by
  have main : ∀ us, (∃ l ls b, splitR us = l :: ls ∧ us = l ++ b ∧ ∀ l ∈ ls, ∃ a b, us = a ++ l ++ b ∧ a ≠ [] ∧ Open a) := by
    intro us
    induction us with
    | nil => exact ⟨[], [], [], rfl, rfl, by simp⟩
    | cons u us ih =>
      obtain ⟨l, ls, b, h1, h2, h3⟩ := ih
      rw [splitR]
      split
      · rename_i hn
        have hu : isSpace u.1 = true := by rw [hn]; decide
        refine ⟨[], splitR us, u :: us, rfl, rfl, ?_⟩
        intro x hx
        rw [h1] at hx
        rcases List.mem_cons.1 hx with rfl | hx
        · exact ⟨[u], b, by rw [h2]; rfl, by simp, open_cons hu (Or.inl rfl)⟩
        · obtain ⟨a, c, h, _, ho⟩ := h3 x hx
          exact ⟨u :: a, c, by rw [h]; rfl, by simp, open_cons hu ho⟩
      · rw [h1]
        refine ⟨u :: l, ls, b, rfl, by rw [h2]; rfl, ?_⟩
        intro x hx
        obtain ⟨a, c, h, hne, ho⟩ := h3 x hx
        refine ⟨u :: a, c, by rw [h]; rfl, by simp, ?_⟩
        rcases ho with ho | ⟨a', y, rfl, hy⟩
        · exact absurd ho hne
        · exact Or.inr ⟨u :: a', y, rfl, hy⟩
  obtain ⟨l, ls, b, h1, h2, h3⟩ := main us
  rw [h1]
  intro x hx
  rcases List.mem_cons.1 hx with rfl | hx
  · exact ⟨[], b, h2, Or.inl rfl⟩
  · obtain ⟨a, c, h, _, ho⟩ := h3 x hx
    exact ⟨a, c, h, ho⟩

theorem fields_chars (us : List Rune) : fields (chars us) = (fieldsAuxR [] us).map chars := by
  have main : ∀ acc us, fieldsAux (chars acc) (chars us) = (fieldsAuxR acc us).map chars := by
    intro acc us
    induction us generalizing acc with
    | nil =>
      cases acc with
      | nil => rfl
      | cons a acc => show [(chars (a :: acc)).reverse] = [chars (a :: acc).reverse]; rw [chars_reverse]
    | cons u us ih =>
      show fieldsAux (chars acc) (u.1 :: chars us) = _
      rw [fieldsAux, fieldsAuxR]
      split
      · cases acc with
        | nil => exact ih []
        | cons a acc =>
          show (chars (a :: acc)).reverse :: fieldsAux [] (chars us) = chars (a :: acc).reverse :: _
          rw [chars_reverse, show fieldsAux [] (chars us) = _ from ih []]
      · exact ih (u :: acc)
  exact main [] us

theorem fieldsR_part (us : List Rune) : ∀ w ∈ fieldsAuxR [] us, w ≠ [] ∧ ∃ a b, us = a ++ w ++ b ∧ Open a := by
  have main : ∀ acc us, ∀ w ∈ fieldsAuxR acc us, w ≠ [] ∧ ∃ a b, acc.reverse ++ us = a ++ w ++ b ∧ Open a := by
    intro acc us
    induction us generalizing acc with
    | nil =>
      intro w hw
      rw [fieldsAuxR] at hw
      cases acc with
      | nil => simp at hw
      | cons a acc =>
        obtain rfl : w = (a :: acc).reverse := by simpa using hw
        exact ⟨by simp, [], [], by simp, Or.inl rfl⟩
    | cons u us ih =>
      intro w hw
      rw [fieldsAuxR] at hw
      split at hw
      · rename_i hu
        cases acc with
        | nil =>
          obtain ⟨h1, a, b, h2, h3⟩ := ih [] w hw
          exact ⟨h1, u :: a, b, by simp only [List.reverse_nil, List.nil_append] at h2 ⊢; rw [h2]; rfl, open_cons hu h3⟩
        | cons c acc =>
          rcases List.mem_cons.1 hw with rfl | hw
          · exact ⟨by simp, [], u :: us, rfl, Or.inl rfl⟩
          · obtain ⟨h1, a, b, h2, h3⟩ := ih [] w hw
            simp only [List.reverse_nil, List.nil_append] at h2
            refine ⟨h1, (c :: acc).reverse ++ u :: a, b, by rw [h2]; simp, ?_⟩
            rcases open_cons hu h3 with h4 | ⟨a', y, h4, hy⟩
            · cases h4
            · exact Or.inr ⟨(c :: acc).reverse ++ a', y, by rw [h4]; simp, hy⟩
      · obtain ⟨h1, a, b, h2, h3⟩ := ih (u :: acc) w hw
        exact ⟨h1, a, b, by rw [← h2]; simp, h3⟩
  exact main [] us

theorem fieldsB_flat {us : List Rune} (h : Seen us) : fieldsB (flat us) = (fieldsAuxR [] us).map flat := by
  unfold fieldsB; rw [runes_of h]

theorem trimSpaceB_flat {us : List Rune} (h : Seen us) : trimSpaceB (flat us) = [] ↔ fieldsB (flat us) = [] := by
  rw [fieldsB_flat h]
  unfold trimSpaceB
  rw [trimFunc_seen isSpace h]
  obtain ⟨a, b, hab⟩ := trimR_part isSpace us
  have ho : AllOk (trimR isSpace us) := seen_ok (seen_part (hab ▸ h))
  have h2 := fields_chars us
  have h3 := chars_trim isSpace us
  rw [flat_eq_nil ho, List.map_eq_nil_iff]
  have e1 : trimR isSpace us = [] ↔ trimSpace (chars us) = [] := by
    unfold trimSpace; rw [← h3]; unfold chars; rw [List.map_eq_nil_iff]
  rw [e1, trimSpace_eq_nil_iff, h2, List.map_eq_nil_iff]

/-- The words and line ends of lines. -/
def eventsR (ls : List (List Rune)) : List EvR := (ls.map fun l => (fieldsAuxR [] l).map some ++ [none]).flatten

theorem events_chars (ls : List (List Rune)) : (eventsR ls).map evC = textStream (ls.map chars) := by
  unfold eventsR textStream stream
  rw [List.map_flatten, List.map_map, List.map_map, List.map_map]
  congr 1
  apply List.map_congr_left
  intro l _
  simp only [Function.comp_apply]
  rw [fields_chars]
  simp [lineEvs, evC, Function.comp_def]

theorem events_flat (ls : List (List Rune)) (h : ∀ l ∈ ls, Seen l) : (eventsR ls).map evB = stream ((ls.map flat).map fieldsB) := by
  unfold eventsR stream
  rw [List.map_flatten, List.map_map, List.map_map, List.map_map]
  congr 1
  apply List.map_congr_left
  intro l hl
  simp only [Function.comp_apply]
  rw [fieldsB_flat (h l hl)]
  simp [lineEvs, evB, Function.comp_def]

theorem routine_flat (ls : List (List Rune)) (h : ∀ l ∈ ls, Seen l) :
    tokenBuilderRoutineB (ls.map flat) = some (lex .normal ((eventsR ls).map evB)) := by
  unfold tokenBuilderRoutineB
  have e : ((ls.map flat).filter fun l => trimSpaceB l ≠ []).map fieldsB = ((ls.map flat).map fieldsB).filter fun l => l ≠ [] := by
    rw [List.filter_map (f := fieldsB)]
    congr 1
    apply List.filter_congr
    intro l hl
    obtain ⟨us, hu, rfl⟩ := List.mem_map.1 hl
    simp only [Function.comp_apply]
    rw [decide_eq_decide]
    exact not_congr (trimSpaceB_flat (h us hu))
  rw [e, buildTokenList_eq, (lex_blank_lines .normal _ (by simp)).1, events_flat ls h]
  intro l hl
  refine ⟨by simpa using (List.mem_filter.1 hl).2, ?_⟩
  obtain ⟨s, hs, rfl⟩ := List.mem_map.1 (List.mem_filter.1 hl).1
  obtain ⟨us, hu, rfl⟩ := List.mem_map.1 hs
  intro w hw
  rw [fieldsB_flat (h us hu)] at hw
  obtain ⟨v, hv, rfl⟩ := List.mem_map.1 hw
  obtain ⟨h1, a, b, h2, _⟩ := fieldsR_part us v hv
  have ho : AllOk v := seen_ok (seen_part (h2 ▸ h us hu))
  rwa [Ne, flat_eq_nil ho]

theorem share_map {α β : Type} (f : α → β) (xs : List α) (n i : Nat) : share (xs.map f) n i = (share xs n i).map f := by
  unfold share
  rw [List.length_map, List.map_take, List.map_drop]

theorem share_mem {α : Type} {xs : List α} {n i : Nat} {x : α} (h : x ∈ share xs n i) : x ∈ xs :=
  List.mem_of_mem_drop (List.mem_of_mem_take h)

/-- A word of the text: it stands at the start of the text or after a space. -/
def Part (T w : List Rune) : Prop := w ≠ [] ∧ ∃ a b, T = a ++ w ++ b ∧ Open a

theorem part_of {T L w : List Rune} (h : ∃ a b, T = a ++ L ++ b ∧ Open a) (h' : w ≠ [] ∧ ∃ a b, L = a ++ w ++ b ∧ Open a) : Part T w := by
  obtain ⟨a, b, rfl, ha⟩ := h
  obtain ⟨hw, c, d, rfl, hc⟩ := h'
  refine ⟨hw, a ++ c, d ++ b, by simp, ?_⟩
  rcases hc with rfl | ⟨c', y, rfl, hy⟩
  · simpa using ha
  · exact Or.inr ⟨a ++ c', y, by simp, hy⟩

theorem tokens_same {T : List Rune} (h : Seen T) (hb : NoEscape (flat T)) (hc : NoEscape (chars T)) (n : Nat) :
    ∃ ts : List (List Rune), (∀ t ∈ ts, Joined (Part T) t) ∧ tokensFromStringB n (flat T) = some (ts.map flat ++ [[]]) ∧
      tokensFromString n (chars T) = some (ts.map chars ++ [[]]) := by
  have hP : ∀ w, Part T w → AllOk w := by rintro w ⟨_, a, b, rfl, _⟩; exact seen_ok (seen_part h)
  have hs : ∀ i, ∀ l ∈ share (splitR T) n i, Seen l := by
    intro i l hl
    obtain ⟨a, b, rfl, _⟩ := splitR_part T l (share_mem hl)
    exact seen_part h
  have hl : ∀ i, ∃ ts : List (List Rune), (∀ t ∈ ts, Joined (Part T) t) ∧
      lex .normal ((eventsR (share (splitR T) n i)).map evB) = ts.map flat ∧
      lex .normal ((eventsR (share (splitR T) n i)).map evC) = ts.map chars := by
    intro i
    refine lex_same hP .normal _ ?_
    intro w hw
    unfold eventsR at hw
    simp only [List.mem_flatten, List.mem_map] at hw
    obtain ⟨x, ⟨l, hl, rfl⟩, hw⟩ := hw
    have hw : w ∈ fieldsAuxR [] l := by simpa using hw
    exact part_of (splitR_part T l (share_mem hl)) (fieldsR_part l w hw)
  have hl : ∃ f : Nat → List (List Rune), ∀ i, (∀ t ∈ f i, Joined (Part T) t) ∧
      lex .normal ((eventsR (share (splitR T) n i)).map evB) = (f i).map flat ∧
      lex .normal ((eventsR (share (splitR T) n i)).map evC) = (f i).map chars := ⟨fun i => (hl i).choose, fun i => (hl i).choose_spec⟩
  obtain ⟨f, hl⟩ := hl
  refine ⟨((List.range n).map f).flatten, ?_, ?_, ?_⟩
  · intro t ht
    simp only [List.mem_flatten, List.mem_map] at ht
    obtain ⟨x, ⟨i, _, rfl⟩, ht⟩ := ht
    exact (hl i).1 t ht
  · unfold tokensFromStringB
    simp only
    rw [noEscape_quotes hb, split_flat (seen_ok h), shares?_eq]
    simp only [Option.bind_eq_bind, Option.bind_some]
    have e : (List.range n).map (share ((splitR T).map flat) n) = (List.range n).map fun i => (share (splitR T) n i).map flat := by
      apply List.map_congr_left; intro i _; exact share_map _ _ _ _
    have e2 : ((List.range n).map fun i => (share (splitR T) n i).map flat).mapM tokenBuilderRoutineB =
        some ((List.range n).map fun i => (f i).map flat) := by
      rw [List.mapM_map]
      apply mapM_option_eq_some
      intro i _
      simp only [Function.comp_apply]
      rw [routine_flat _ (hs i), (hl i).2.1]
    rw [e, e2]
    simp only [Option.bind_some]
    show some _ = some _
    rw [List.map_flatten, List.map_map]
    rfl
  · rw [tokensFromString_eq, noEscape_quotes hc, split_chars]
    rw [List.map_flatten, List.map_map]
    have e : ((List.range n).map fun i => lex .normal (textStream (share ((splitR T).map chars) n i))) =
        (List.range n).map fun i => (f i).map chars := by
      apply List.map_congr_left
      intro i _
      rw [share_map, ← events_chars, (hl i).2.2]
    rw [e]
    rfl

end Verif.A2l.Bytes
