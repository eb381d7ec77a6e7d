import Verif.A2l.Utf8Lex
import Verif.A2l.FileProps

/-!
C89: the bytes of an A2L file. What is read of a file in UTF-8, in a code page with one byte per character such as Latin-1, and in
UTF-16.
-/

namespace Verif.A2l.Spec

open Verif.Go

/-- The bytes of characters given with their bytes. -/
def bytesOf (us : List (Char × Str)) : Str := us.flatMap Prod.snd

/-- The characters. -/
def charsOf (us : List (Char × Str)) : Str := us.map Prod.fst

/-- What Go sees of a byte in a text in which no bytes form a character in UTF-8. -/
def seenAs (x : Char) : Char := if x.toNat < 0x80 then x else '�'

/-- A text of ASCII characters in UTF-16 with a byte order mark, low byte first. -/
def utf16LE (s : Str) : Str := byte 0xFF :: byte 0xFE :: s.flatMap fun c => [c, byte 0]

/-- The same with the high byte first. -/
def utf16BE (s : Str) : Str := byte 0xFE :: byte 0xFF :: s.flatMap fun c => [byte 0, c]

end Verif.A2l.Spec

namespace Verif.A2l.Bytes

open Verif.Go Verif.A2l.Spec

/-! ### Escapes -/

theorem unesc_copy {xs s t : Str} (hx : '\\' ∉ xs) (h : UnescapedBytes s t) : UnescapedBytes (xs ++ s) (xs ++ t) := by
  induction xs with
  | nil => exact h
  | cons x xs ih => exact .byte (fun he => hx (by simp [he])) (ih fun hm => hx (List.mem_cons_of_mem _ hm))

theorem deleteEscapesR_ne {u : Rune} (h : u.1 ≠ '\\') (us : List Rune) : deleteEscapesR (u :: us) = u :: deleteEscapesR us := by
  cases us with
  | nil => simp [deleteEscapesR]
  | cons v us => rw [deleteEscapesR, if_neg h]

theorem unesc_delete {us : List Rune} (h : Seen us) : UnescapedBytes (flat us) (flat (deleteEscapesR us)) := by
  have main : ∀ n (us : List Rune), us.length ≤ n → Seen us → UnescapedBytes (flat us) (flat (deleteEscapesR us)) := by
    intro n
    induction n with
    | zero => intro us hs _; rw [List.length_eq_zero_iff.1 (Nat.le_zero.1 hs)]; simp only [deleteEscapesR]; exact .done
    | succ n ih =>
      intro us hs h
      cases us with
      | nil => simp only [deleteEscapesR]; exact .done
      | cons u us =>
        simp only [List.length_cons] at hs
        have hu := seen_ok h u List.mem_cons_self
        by_cases hc : u.1 = '\\'
        · have h2 : u.2 = ['\\'] := by
            rcases hu with ⟨_, h2⟩ | ⟨h1, _⟩
            · rw [h2, hc]
            · rw [hc] at h1; exact absurd h1 (by decide)
          cases us with
          | nil =>
            have : deleteEscapesR [u] = [u] := by simp [deleteEscapesR]
            rw [this, flat_cons, h2]; exact .textEnd
          | cons v us =>
            simp only [List.length_cons] at hs
            have hv := seen_ok h v (by simp)
            have hs' := seen_tail (seen_tail h)
            rw [deleteEscapesR, if_pos hc]
            by_cases hd : v.1 = '\n'
            · rw [if_pos hd]
              have h3 : v.2 = ['\n'] := by
                rcases hv with ⟨_, h3⟩ | ⟨h1, _⟩
                · rw [h3, hd]
                · rw [hd] at h1; exact absurd h1 (by decide)
              simp only [flat_cons, h2, h3]
              exact .lineEnd (ih us (by omega) hs')
            · rw [if_neg hd]
              simp only [flat_cons, h2]
              rcases (seen_cons.1 (seen_tail h)).2 with h3 | ⟨x, h3, hn⟩
              · rw [h3]; exact .escape hd (ih us (by omega) hs')
              · rw [h3]; exact .escapeByte hn (ih us (by omega) hs')
        · rw [deleteEscapesR_ne hc, flat_cons, flat_cons]
          exact unesc_copy (fun hm => hc ((hu.ascii_iff (by decide)).1 hm)) (ih us (by omega) (seen_tail h))
  exact main _ us (Nat.le_refl _) h

theorem utf8_nl : utf8 '\n' = ['\n'] := utf8_ascii (by decide)

theorem unesc_unique {s t t' : Str} (h : UnescapedBytes s t) (h' : UnescapedBytes s t') : t = t' := by
  induction h generalizing t' with
  | done => cases h'; rfl
  | byte hx _ ih =>
    generalize he : _ :: _ = z at h'
    cases h' with
    | done => cases he
    | byte _ h2 => injection he with e1 e2; subst e1; subst e2; rw [ih h2]
    | escape => injection he with e1 _; exact absurd e1 hx
    | escapeByte => injection he with e1 _; exact absurd e1 hx
    | lineEnd => injection he with e1 _; exact absurd e1 hx
    | textEnd => injection he with e1 _; exact absurd e1 hx
  | @escape c s t hc _ ih =>
    generalize he : '\\' :: (utf8 c ++ s) = z at h'
    cases h' with
    | done => cases he
    | byte hx _ => injection he with e1 _; exact absurd e1.symm hx
    | @escape d s' _ _ h2 =>
      injection he with _ e2
      have : c = d := utf8_prefix_unique ⟨s, e2⟩ ⟨s', rfl⟩
      subst this
      have := List.append_cancel_left e2
      subst this
      exact ih h2
    | escapeByte hn _ => injection he with _ e2; exact absurd ⟨s, e2⟩ (hn c)
    | @lineEnd s' _ h2 =>
      injection he with _ e2
      exact absurd (utf8_prefix_unique (s := '\n' :: s') ⟨s, e2⟩ ⟨s', by rw [utf8_nl]; rfl⟩) hc
    | textEnd => injection he with _ e2; exact absurd (List.append_eq_nil_iff.1 e2).1 (utf8_ne_nil _)
  | @escapeByte x s t hn _ ih =>
    generalize he : '\\' :: x :: s = z at h'
    cases h' with
    | done => cases he
    | byte hx _ => injection he with e1 _; exact absurd e1.symm hx
    | @escape d s' _ _ h2 => injection he with _ e2; exact absurd ⟨s', e2.symm⟩ (hn d)
    | escapeByte _ h2 => injection he with _ e2; injection e2 with e2 e3; subst e3; exact ih h2
    | @lineEnd s' _ h2 => injection he with _ e2; injection e2 with e2 e3; subst e2; exact absurd ⟨s, by rw [utf8_nl]; rfl⟩ (hn '\n')
    | textEnd => cases he
  | @lineEnd s t _ ih =>
    generalize he : '\\' :: '\n' :: s = z at h'
    cases h' with
    | done => cases he
    | byte hx _ => injection he with e1 _; exact absurd e1.symm hx
    | @escape d s' _ hd h2 =>
      injection he with _ e2
      exact absurd (utf8_prefix_unique (s := '\n' :: s) ⟨s', e2.symm⟩ ⟨s, by rw [utf8_nl]; rfl⟩) hd
    | escapeByte hn h2 => injection he with _ e2; injection e2 with e2 e3; subst e2; exact absurd ⟨s, by rw [utf8_nl, e3]; rfl⟩ (hn '\n')
    | lineEnd h2 => injection he with _ e2; injection e2 with _ e3; subst e3; rw [ih h2]
    | textEnd => cases he
  | textEnd =>
    generalize he : ['\\'] = z at h'
    cases h' with
    | done => cases he
    | byte hx _ => injection he with e1 _; exact absurd e1.symm hx
    | escape _ _ => injection he with _ e2; exact absurd (List.append_eq_nil_iff.1 e2.symm).1 (utf8_ne_nil _)
    | escapeByte => cases he
    | lineEnd => cases he
    | textEnd => rfl

theorem unesc_iff {b r : Str} : UnescapedBytes b r ↔ flat (deleteEscapesR (runes b)) = r := by
  have h := unesc_delete (us := runes b) (by unfold Seen; rw [decodes_flat (decodes_runes b)]; exact decodes_runes b)
  rw [decodes_flat (decodes_runes b)] at h
  exact ⟨fun h' => unesc_unique h h', fun e => e ▸ h⟩

theorem unesc_noEscape {s t : Str} (h : UnescapedBytes s t) : NoEscape t := by
  induction h with
  | done => intro u c v h; simp at h
  | byte hc _ ih =>
    intro u c v h
    cases u with
    | nil => injection h with h _; exact absurd h hc
    | cons d u => injection h with _ h; exact ih u c v h
  | escape _ _ ih => exact ih
  | escapeByte _ _ ih => exact ih
  | lineEnd _ ih =>
    intro u c v h
    cases u with
    | nil => simp only [List.nil_append, List.cons.injEq] at h; exact h.2.1.symm
    | cons d u =>
      cases u with
      | nil => simp only [List.cons_append, List.nil_append, List.cons.injEq] at h; exact absurd h.2.1 (by decide)
      | cons e u =>
        simp only [List.cons_append, List.cons.injEq] at h
        exact ih u c v h.2.2
  | textEnd =>
    intro u c v h
    have := congrArg List.length h
    simp only [List.length_append, List.length_cons, List.length_nil] at this
    omega

theorem noEscape_chars {us : List Rune} (h : AllOk us) (hn : NoEscape (flat us)) : NoEscape (chars us) := by
  intro a c b he
  obtain ⟨p, q, rfl, _, hq⟩ := List.map_eq_append_iff.1 he
  obtain ⟨u, q', rfl, hu, hq'⟩ := List.map_eq_cons_iff.1 hq
  obtain ⟨v, q'', rfl, hv, _⟩ := List.map_eq_cons_iff.1 hq'
  have ou := h u (by simp)
  have ov := h v (by simp)
  have h2 : u.2 = ['\\'] := by
    rcases ou with ⟨_, h2⟩ | ⟨h1, _⟩
    · rw [h2, hu]
    · rw [hu] at h1; exact absurd h1 (by decide)
  obtain ⟨x, xs, hx⟩ := List.exists_cons_of_ne_nil ov.ne_nil
  have hxn : x = '\n' := hn (flat p) x (xs ++ flat q'') (by rw [flat_append, flat_cons, flat_cons, h2, hx]; simp)
  rw [← hv]
  exact (ov.ascii_iff (by decide)).1 (by rw [hx, hxn]; simp)

/-! ### The tokens -/

theorem runes_seen (s : Str) : Seen (runes s) := by
  unfold Seen; rw [decodes_flat (decodes_runes s)]; exact decodes_runes s

/-- The tokens of the bytes and those of the characters Go sees in them. -/
theorem file_same (graphic : Char → Bool) (n : Nat) {b r : Str} {us : List Rune} (hr : UnescapedBytes b r) (hu : Decodes r us) :
    ∃ ts : List (List Rune), (∀ t ∈ ts, Joined (Part (trimR (fun c => !graphic c) us)) t) ∧
      tokensOfFileB graphic n b = some (ts.map flat ++ [[]]) ∧ tokensOfFile graphic n (chars us) = some (ts.map chars ++ [[]]) := by
  have hrun := runes_of hu
  have hs : Seen us := hrun ▸ runes_seen r
  have hfl : flat us = r := decodes_flat hu
  have hne : NoEscape (flat us) := hfl.symm ▸ unesc_noEscape hr
  have hnc : NoEscape (chars us) := noEscape_chars (seen_ok hs) hne
  obtain ⟨a, c, hab⟩ := trimR_part (fun c => !graphic c) us
  have hT : Seen (trimR (fun c => !graphic c) us) := seen_part (hab ▸ hs)
  have hb : NoEscape (flat (trimR (fun c => !graphic c) us)) := by
    refine hne.part (u := flat a) (v := flat c) ?_
    conv => lhs; rw [hab]
    rw [flat_append, flat_append]
  have hc : NoEscape (chars (trimR (fun c => !graphic c) us)) := by
    refine hnc.part (u := chars a) (v := chars c) ?_
    conv => lhs; rw [hab]
    rw [chars_append, chars_append]
  obtain ⟨ts, h1, h2, h3⟩ := tokens_same hT hb hc n
  refine ⟨ts, h1, ?_, ?_⟩
  · unfold tokensOfFileB cleanB
    rw [unesc_iff.1 hr, ← hfl, trimFunc_seen _ hs, h2]
  · unfold tokensOfFile cleanString
    rw [noEscape_unescaped hnc, ← chars_trim, h3]

theorem joined_seen {T t : List Rune} (hT : Seen T) (h : Joined (Part T) t) : Seen t := by
  have hp : ∀ w, Part T w → Seen w := by rintro w ⟨_, a, b, rfl, _⟩; exact seen_part hT
  induction h with
  | word h => exact hp _ h
  | more _ h ih => rw [List.append_assoc]; exact seen_join (by decide) ih (hp _ h)

theorem joined_mem {T t : List Rune} (h : Joined (Part T) t) : ∀ u ∈ t, u ∈ T ∨ u = blank := by
  have hp : ∀ w, Part T w → ∀ u ∈ w, u ∈ T := by rintro w ⟨_, a, b, rfl, _⟩ u hu; simp [hu]
  induction h with
  | word h => exact fun u hu => Or.inl (hp _ h u hu)
  | more _ h ih =>
    intro u hu
    simp only [List.mem_append, List.mem_singleton] at hu
    rcases hu with (hu | hu) | hu
    · exact ih u hu
    · exact Or.inr hu
    · exact Or.inl (hp _ h u hu)

/-- Every file has exactly one reading of its bytes: the escapes are left out, the rest is seen as characters. -/
theorem C89_seen (b : Str) : ∃ r us, (UnescapedBytes b r ∧ Decodes r us) ∧ ∀ r' us', UnescapedBytes b r' → Decodes r' us' → r' = r ∧ us' = us := by
  refine ⟨_, _, ⟨unesc_iff.2 rfl, decodes_runes _⟩, fun r' us' h1 h2 => ?_⟩
  have e := unesc_iff.1 h1
  subst e
  exact ⟨rfl, decodes_unique h2 (decodes_runes _)⟩

/-- C89: for any bytes whatsoever, the tokens are those of the characters Go sees (to which C24 to C27, C76 and C86 apply), with exactly
the bytes the file has for them: no byte is changed, and none that is not UTF-8 is rejected. -/
theorem C89_bytes (graphic : Char → Bool) (n : Nat) {b r : Str} {us : List (Char × Str)} (hr : UnescapedBytes b r) (hu : Decodes r us) :
    ∃ ts : List (List (Char × Str)), tokensOfFileB graphic n b = some (ts.map bytesOf) ∧
      tokensOfFile graphic n (charsOf us) = some (ts.map charsOf) ∧
      ∀ t ∈ ts, Decodes (bytesOf t) t ∧ ∀ u ∈ t, u ∈ us ∨ u = (' ', [' ']) := by
  obtain ⟨ts, h1, h2, h3⟩ := file_same graphic n hr hu
  have hs : Seen us := runes_of hu ▸ runes_seen r
  obtain ⟨a, c, hab⟩ := trimR_part (fun c => !graphic c) us
  refine ⟨ts ++ [[]], ?_, ?_, ?_⟩
  · rw [h2, List.map_append]; rfl
  · show tokensOfFile graphic n (chars us) = _
    rw [h3, List.map_append]; rfl
  · intro t ht
    rcases List.mem_append.1 ht with ht | ht
    · refine ⟨joined_seen (seen_part (hab ▸ hs)) (h1 t ht), fun u hu => ?_⟩
      rcases joined_mem (h1 t ht) u hu with h | h
      · exact Or.inl (by rw [hab]; simp [h])
      · exact Or.inr h
    · obtain rfl : t = [] := by simpa using ht
      exact ⟨.done, by simp⟩

/-! ### UTF-8 -/

theorem decodes_encoded (s : Str) : Decodes (encoded s) (s.map fun c => (c, utf8 c)) := by
  induction s with
  | nil => exact .done
  | cons c s ih => exact .rune ih

theorem unesc_encoded {s t : Str} (h : Unescaped s t) : UnescapedBytes (encoded s) (encoded t) := by
  induction h with
  | done => exact .done
  | @char c s t hc _ ih =>
    refine unesc_copy (xs := utf8 c) (fun hm => ?_) ih
    by_cases h : c.toNat < 0x80
    · rw [utf8_ascii h] at hm; exact hc (List.mem_singleton.1 hm).symm
    · have := utf8_high (by omega) _ hm
      exact absurd this (by decide)
  | @escape c s t hc _ ih =>
    have e : encoded ('\\' :: c :: s) = '\\' :: (utf8 c ++ encoded s) := by
      show utf8 '\\' ++ (utf8 c ++ encoded s) = _
      rw [utf8_ascii (by decide)]; rfl
    rw [e]
    exact .escape hc ih
  | @lineEnd s t _ ih =>
    have e : ∀ s, encoded ('\\' :: '\n' :: s) = '\\' :: '\n' :: encoded s := by
      intro s
      show utf8 '\\' ++ (utf8 '\n' ++ encoded s) = _
      rw [utf8_ascii (by decide), utf8_nl]; rfl
    rw [e, e]
    exact .lineEnd ih
  | textEnd =>
    have e : encoded ['\\'] = ['\\'] := by show utf8 '\\' ++ [] = _; rw [utf8_ascii (by decide)]; rfl
    rw [e]; exact .textEnd

/-- C89, UTF-8: the tokens of a text in UTF-8 are the tokens of the text in UTF-8. -/
theorem C89_utf8 (graphic : Char → Bool) (n : Nat) (s : Str) :
    tokensOfFileB graphic n (encoded s) = (tokensOfFile graphic n s).map (List.map encoded) := by
  have hx := unescaped_iff.2 (rfl : deleteEscapes s = deleteEscapes s)
  obtain ⟨ts, h1, h2, h3⟩ := C89_bytes graphic n (unesc_encoded hx) (decodes_encoded (deleteEscapes s))
  have e : charsOf ((deleteEscapes s).map fun c => (c, utf8 c)) = deleteEscapes s := by
    unfold charsOf; rw [List.map_map]; exact List.map_id _
  have e2 : tokensOfFile graphic n (deleteEscapes s) = tokensOfFile graphic n s := by
    unfold tokensOfFile cleanString
    rw [noEscape_unescaped (unescaped_noEscape hx)]
  rw [e, e2] at h2
  rw [h1, h2, Option.map_some, List.map_map]
  congr 1
  apply List.map_congr_left
  intro t ht
  have hm := (h3 t ht).2
  show t.flatMap Prod.snd = (t.map Prod.fst).flatMap utf8
  rw [List.flatMap_map]
  clear ht
  induction t with
  | nil => rfl
  | cons u t ih =>
    rw [List.flatMap_cons, List.flatMap_cons, ih (fun v hv => hm v (List.mem_cons_of_mem _ hv))]
    · congr 1
      rcases hm u List.mem_cons_self with h | h
      · obtain ⟨c, _, rfl⟩ := List.mem_map.1 h; rfl
      · rw [h]; exact (utf8_ascii (by decide)).symm

/-! ### Code pages -/

theorem decodes_seenAs {r : Str} (h : ∀ c, 0x80 ≤ c.toNat → ¬ utf8 c <:+: r) : Decodes r (r.map fun x => (seenAs x, [x])) := by
  induction r with
  | nil => exact .done
  | cons x r ih =>
    have ih := ih fun c hc hi => h c hc (hi.trans (List.suffix_cons x r).isInfix)
    rw [List.map_cons]
    by_cases hx : x.toNat < 0x80
    · have e : seenAs x = x := by unfold seenAs; rw [if_pos hx]
      rw [e]
      have := Decodes.rune (c := x) ih
      rwa [utf8_ascii hx] at this
    · have e : seenAs x = '�' := by unfold seenAs; rw [if_neg hx]
      rw [e]
      refine .invalid (fun c hc => ?_) ih
      by_cases hcc : c.toNat < 0x80
      · rw [utf8_ascii hcc, List.cons_prefix_cons] at hc
        rw [hc.1] at hcc
        exact hx hcc
      · exact h c (by omega) hc.isInfix

/-- C89, code pages: in a file in which no bytes beyond ASCII happen to form a character in UTF-8, every byte beyond ASCII is an ordinary
character of a word, also where the code page has a space there; the tokens have the bytes of the file. -/
theorem C89_codepage (graphic : Char → Bool) (n : Nat) {b r : Str} (hr : UnescapedBytes b r) (h : ∀ c, 0x80 ≤ c.toNat → ¬ utf8 c <:+: r) :
    ∃ ts, tokensOfFileB graphic n b = some ts ∧ tokensOfFile graphic n (r.map seenAs) = some (ts.map (List.map seenAs)) := by
  obtain ⟨ts, h1, h2, h3⟩ := C89_bytes graphic n hr (decodes_seenAs h)
  refine ⟨_, h1, ?_⟩
  have e : charsOf (r.map fun x => (seenAs x, [x])) = r.map seenAs := by unfold charsOf; rw [List.map_map]; rfl
  rw [e] at h2
  rw [h2, List.map_map]
  congr 1
  apply List.map_congr_left
  intro t ht
  have hm := (h3 t ht).2
  show t.map Prod.fst = (t.flatMap Prod.snd).map seenAs
  clear ht
  induction t with
  | nil => rfl
  | cons u t ih =>
    rw [List.map_cons, List.flatMap_cons, List.map_append, ← ih (fun v hv => hm v (List.mem_cons_of_mem _ hv))]
    rcases hm u List.mem_cons_self with h | h
    · obtain ⟨c, _, rfl⟩ := List.mem_map.1 h; rfl
    · rw [h]; rfl

theorem utf8_two {c : Char} (h : 0x80 ≤ c.toNat) : ∃ x y t, utf8 c = x :: y :: t ∧ 0x80 ≤ x.toNat ∧ 0x80 ≤ y.toNat := by
  have hh := utf8_high h
  have hl : ∃ x y t, utf8 c = x :: y :: t := by
    unfold utf8
    rw [if_neg (by omega)]
    split
    · exact ⟨_, _, _, rfl⟩
    · split
      · exact ⟨_, _, _, rfl⟩
      · exact ⟨_, _, _, rfl⟩
  obtain ⟨x, y, t, e⟩ := hl
  exact ⟨x, y, t, e, hh x (by rw [e]; simp), hh y (by rw [e]; simp)⟩

/-- Non-vacuity of `C89_codepage`: a degree sign and a no-break space in Latin-1; the space of the code page separates nothing. -/
example : UnescapedBytes ['a', byte 0xB0, 'C', byte 0xA0, 'x', ' ', 'y'] ['a', byte 0xB0, 'C', byte 0xA0, 'x', ' ', 'y'] ∧
    (∀ c, 0x80 ≤ c.toNat → ¬ utf8 c <:+: ['a', byte 0xB0, 'C', byte 0xA0, 'x', ' ', 'y']) ∧
    tokensOfFileB (fun _ => true) 1 ['a', byte 0xB0, 'C', byte 0xA0, 'x', ' ', 'y'] =
      some [['a', byte 0xB0, 'C', byte 0xA0, 'x'], ['y'], []] := by
  refine ⟨unesc_iff.2 (by decide +kernel), ?_, by decide +kernel⟩
  intro c hc hi
  obtain ⟨x, y, t, e, hx, hy⟩ := utf8_two hc
  rw [e] at hi
  have n1 : ('a' : Char).toNat = 97 := by decide
  have n2 : ('C' : Char).toNat = 67 := by decide
  have n3 : ('x' : Char).toNat = 120 := by decide
  have n4 : (' ' : Char).toNat = 32 := by decide
  have n5 : ('y' : Char).toNat = 121 := by decide
  simp only [List.infix_cons_iff, List.cons_prefix_cons, List.infix_nil, List.prefix_nil, reduceCtorEq, and_false, or_false] at hi
  rcases hi with ⟨rfl, rfl, _⟩ | ⟨rfl, rfl, _⟩ | ⟨rfl, rfl, _⟩ | ⟨rfl, rfl, _⟩ | ⟨rfl, rfl, _⟩ | ⟨rfl, rfl, _⟩ <;> omega

/-- Non-vacuity of `C89_bytes`: an incomplete character, an escape, and the rest of the character. When the escape is left out, a euro
sign appears that was not in the file; the no-break space in UTF-8 separates words. -/
example : UnescapedBytes [byte 0xE2, '\\', 'x', byte 0x82, byte 0xAC, byte 0xC2, byte 0xA0, 'y'] [byte 0xE2, byte 0x82, byte 0xAC, byte 0xC2, byte 0xA0, 'y'] ∧
    Decodes [byte 0xE2, byte 0x82, byte 0xAC, byte 0xC2, byte 0xA0, 'y'] [('€', utf8 '€'), ('\u00A0', utf8 '\u00A0'), ('y', ['y'])] ∧
    tokensOfFileB (fun _ => true) 1 [byte 0xE2, '\\', 'x', byte 0x82, byte 0xAC, byte 0xC2, byte 0xA0, 'y'] = some [utf8 '€', ['y'], []] := by
  refine ⟨unesc_iff.2 (by decide +kernel), ?_, by decide +kernel⟩
  have h := decodes_runes [byte 0xE2, byte 0x82, byte 0xAC, byte 0xC2, byte 0xA0, 'y']
  rwa [show runes [byte 0xE2, byte 0x82, byte 0xAC, byte 0xC2, byte 0xA0, 'y'] =
    [('€', utf8 '€'), ('\u00A0', utf8 '\u00A0'), ('y', ['y'])] by decide +kernel] at h

/-- `C89_utf8` on a unit. -/
example : tokensOfFileB (fun _ => true) 1 (encoded "\"°C\" // µ".toList) = some [encoded "\"°C\"".toList, []] := by decide +kernel

/-- What one expects of the strings delivered: Go strings are UTF-8. It is false, see `C89_false`. -/
def C89_full : Prop := ∀ (graphic : Char → Bool) n b ts, tokensOfFileB graphic n b = some ts → ∀ t ∈ ts, ∃ s, t = encoded s

/-- A file in Latin-1 with the unit `"°C"`: the token is not UTF-8. -/
theorem C89_false : ¬ C89_full := by
  intro h
  have h1 : tokensOfFileB (fun _ => true) 1 ['"', byte 0xB0, 'C', '"'] = some [['"', byte 0xB0, 'C', '"'], []] := by decide +kernel
  obtain ⟨s, hs⟩ := h _ 1 _ _ h1 _ List.mem_cons_self
  have h2 := runes_of (decodes_encoded s)
  rw [← hs] at h2
  have h3 : runes ['"', byte 0xB0, 'C', '"'] = [('"', ['"']), ('�', [byte 0xB0]), ('C', ['C']), ('"', ['"'])] := by decide +kernel
  rw [h3] at h2
  cases s with
  | nil => cases h2
  | cons a s =>
    cases s with
    | nil => cases h2
    | cons c s =>
      simp only [List.map_cons, List.cons.injEq, Prod.mk.injEq] at h2
      have := h2.2.1
      rw [← this.1] at this
      exact absurd this.2 (by decide +kernel)

/-- C89, the part of `C89_full` that holds: files in UTF-8. -/
theorem C89_partial (graphic : Char → Bool) (n : Nat) (s : Str) {ts : List Str} (h : tokensOfFileB graphic n (encoded s) = some ts) :
    ∀ t ∈ ts, ∃ s, t = encoded s := by
  rw [C89_utf8] at h
  obtain ⟨ts', _, rfl⟩ := Option.map_eq_some_iff.1 h
  intro t ht
  obtain ⟨s, _, rfl⟩ := List.mem_map.1 ht
  exact ⟨s, rfl⟩

end Verif.A2l.Bytes
