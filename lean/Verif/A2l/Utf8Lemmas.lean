import Verif.A2l.Utf8

/-!
Lemmas for C89: decoding of UTF-8, and the tokenizer seen on bytes and on characters.
-/

namespace Verif.A2l.Bytes

open Verif.Go Verif.A2l.Spec

theorem char_valid (c : Char) : c.toNat < 0xD800 ∨ (0xDFFF < c.toNat ∧ c.toNat < 0x110000) := c.valid

theorem toNat_ofNat {n : Nat} (h : n < 0xD800 ∨ (0xDFFF < n ∧ n < 0x110000)) : (Char.ofNat n).toNat = n := by
  unfold Char.ofNat
  rw [dif_pos (show n.isValidChar from h)]
  rfl

theorem toNat_byte {n : Nat} (h : n < 256) : (byte n).toNat = n := toNat_ofNat (Or.inl (by omega))

theorem byte_toNat (c : Char) : byte c.toNat = c := Char.ofNat_toNat c

theorem byte_eq {c : Char} {n : Nat} (h : n = c.toNat) : byte n = c := by rw [h, byte_toNat]

theorem ofNat_eq {c : Char} {n : Nat} (h : n = c.toNat) : Char.ofNat n = c := by rw [h, Char.ofNat_toNat]

theorem decode1_utf8 (c : Char) (s : Str) : decode1 (utf8 c ++ s) = some (c, (utf8 c).length) := by
  have hv := char_valid c
  unfold utf8
  split
  · rename_i h
    simp [decode1, h]
  · rename_i h1
    split
    · rename_i h2
      have e1 : (byte (0xC0 + c.toNat / 64)).toNat = 0xC0 + c.toNat / 64 := toNat_byte (by omega)
      have e2 : (byte (0x80 + c.toNat % 64)).toNat = 0x80 + c.toNat % 64 := toNat_byte (by omega)
      generalize byte (0xC0 + c.toNat / 64) = x1 at e1
      generalize byte (0x80 + c.toNat % 64) = x2 at e2
      show decode1 (x1 :: x2 :: s) = some (c, 2)
      simp only [decode1]
      rw [if_neg (by omega), if_pos (by omega), if_pos (by simp [isCont]; omega), ofNat_eq (c := c) (by omega)]
    · rename_i h2
      split
      · rename_i h3
        have e1 : (byte (0xE0 + c.toNat / 4096)).toNat = 0xE0 + c.toNat / 4096 := toNat_byte (by omega)
        have e2 : (byte (0x80 + c.toNat / 64 % 64)).toNat = 0x80 + c.toNat / 64 % 64 := toNat_byte (by omega)
        have e3 : (byte (0x80 + c.toNat % 64)).toNat = 0x80 + c.toNat % 64 := toNat_byte (by omega)
        generalize byte (0xE0 + c.toNat / 4096) = x1 at e1
        generalize byte (0x80 + c.toNat / 64 % 64) = x2 at e2
        generalize byte (0x80 + c.toNat % 64) = x3 at e3
        show decode1 (x1 :: x2 :: x3 :: s) = some (c, 3)
        simp only [decode1]
        rw [if_neg (by omega), if_neg (by omega), if_pos (by omega), if_pos (by simp [isCont]; omega), ofNat_eq (c := c) (by omega)]
      · rename_i h3
        have e1 : (byte (0xF0 + c.toNat / 262144)).toNat = 0xF0 + c.toNat / 262144 := toNat_byte (by omega)
        have e2 : (byte (0x80 + c.toNat / 4096 % 64)).toNat = 0x80 + c.toNat / 4096 % 64 := toNat_byte (by omega)
        have e3 : (byte (0x80 + c.toNat / 64 % 64)).toNat = 0x80 + c.toNat / 64 % 64 := toNat_byte (by omega)
        have e4 : (byte (0x80 + c.toNat % 64)).toNat = 0x80 + c.toNat % 64 := toNat_byte (by omega)
        generalize byte (0xF0 + c.toNat / 262144) = x1 at e1
        generalize byte (0x80 + c.toNat / 4096 % 64) = x2 at e2
        generalize byte (0x80 + c.toNat / 64 % 64) = x3 at e3
        generalize byte (0x80 + c.toNat % 64) = x4 at e4
        show decode1 (x1 :: x2 :: x3 :: x4 :: s) = some (c, 4)
        simp only [decode1]
        rw [if_neg (by omega), if_neg (by omega), if_neg (by omega), if_pos (by omega), if_pos (by simp [isCont]; omega), ofNat_eq (c := c) (by omega)]

theorem decode1_some {s : Str} {c : Char} {w : Nat} (h : decode1 s = some (c, w)) : utf8 c <+: s ∧ w = (utf8 c).length := by
  cases s with
  | nil => simp [decode1] at h
  | cons a s =>
    rw [decode1.eq_def] at h
    simp only at h
    split at h
    · rename_i h1
      injection h with h; injection h with h2 h3
      subst h2; subst h3
      unfold utf8
      rw [if_pos h1]
      exact ⟨⟨s, rfl⟩, rfl⟩
    · rename_i h1
      cases s with
      | nil => simp at h
      | cons b s =>
        simp only at h
        split at h
        · rename_i h2
          split at h
          · rename_i h3
            simp only [isCont, Bool.and_eq_true, decide_eq_true_eq] at h3
            injection h with h; injection h with h4 h5
            have e : c.toNat = (a.toNat - 0xC0) * 64 + (b.toNat - 0x80) := by rw [← h4, toNat_ofNat (by omega)]
            subst h5
            unfold utf8
            rw [if_neg (by omega), if_pos (by omega)]
            refine ⟨⟨s, ?_⟩, rfl⟩
            rw [byte_eq (c := a) (by omega), byte_eq (c := b) (by omega)]
            rfl
          · simp at h
        · rename_i h2
          cases s with
          | nil => simp at h
          | cons d s =>
            simp only at h
            split at h
            · rename_i h3
              split at h
              · rename_i h4
                simp only [isCont, Bool.and_eq_true, decide_eq_true_eq, Bool.not_eq_true', Bool.and_eq_false_iff, decide_eq_false_iff_not] at h4
                injection h with h; injection h with h5 h6
                have e : c.toNat = (a.toNat - 0xE0) * 4096 + (b.toNat - 0x80) * 64 + (d.toNat - 0x80) := by
                  rw [← h5, toNat_ofNat (by omega)]
                subst h6
                unfold utf8
                rw [if_neg (by omega), if_neg (by omega), if_pos (by omega)]
                refine ⟨⟨s, ?_⟩, rfl⟩
                rw [byte_eq (c := a) (by omega), byte_eq (c := b) (by omega), byte_eq (c := d) (by omega)]
                rfl
              · simp at h
            · rename_i h3
              cases s with
              | nil => simp at h
              | cons f s =>
                simp only at h
                split at h
                · rename_i h4
                  split at h
                  · rename_i h5
                    simp only [isCont, Bool.and_eq_true, decide_eq_true_eq, Bool.not_eq_true', Bool.and_eq_false_iff,
                      decide_eq_false_iff_not] at h5
                    injection h with h; injection h with h6 h7
                    have e : c.toNat = (a.toNat - 0xF0) * 262144 + (b.toNat - 0x80) * 4096 + (d.toNat - 0x80) * 64 + (f.toNat - 0x80) := by
                      rw [← h6, toNat_ofNat (by omega)]
                    subst h7
                    unfold utf8
                    rw [if_neg (by omega), if_neg (by omega), if_neg (by omega)]
                    refine ⟨⟨s, ?_⟩, rfl⟩
                    rw [byte_eq (c := a) (by omega), byte_eq (c := b) (by omega), byte_eq (c := d) (by omega), byte_eq (c := f) (by omega)]
                    rfl
                  · simp at h
                · simp at h

theorem utf8_ne_nil (c : Char) : utf8 c ≠ [] := by
  unfold utf8; repeat' split
  all_goals simp

theorem utf8_length_pos (c : Char) : 0 < (utf8 c).length := List.length_pos_iff.2 (utf8_ne_nil c)

theorem utf8_ascii {c : Char} (h : c.toNat < 0x80) : utf8 c = [c] := by unfold utf8; rw [if_pos h]

theorem utf8_high {c : Char} (h : 0x80 ≤ c.toNat) : ∀ x ∈ utf8 c, 0x80 ≤ x.toNat := by
  have hv := char_valid c
  unfold utf8
  rw [if_neg (by omega)]
  split
  · intro x hx
    simp only [List.mem_cons, List.not_mem_nil, or_false] at hx
    rcases hx with rfl | rfl <;> rw [toNat_byte (by omega)] <;> omega
  · split
    · intro x hx
      simp only [List.mem_cons, List.not_mem_nil, or_false] at hx
      rcases hx with rfl | rfl | rfl <;> rw [toNat_byte (by omega)] <;> omega
    · intro x hx
      simp only [List.mem_cons, List.not_mem_nil, or_false] at hx
      rcases hx with rfl | rfl | rfl | rfl <;> rw [toNat_byte (by omega)] <;> omega

theorem decode1_none {s : Str} : decode1 s = none ↔ NoRune s := by
  constructor
  · intro h c ⟨r, hr⟩
    rw [← hr, decode1_utf8] at h
    cases h
  · intro h
    cases hd : decode1 s with
    | none => rfl
    | some x => exact absurd (decode1_some (c := x.1) (w := x.2) hd).1 (h _)

/-- Go's runes are the characters of the bytes. -/
theorem decodes_runes (s : Str) : Decodes s (runes s) := by
  have main : ∀ n (s : Str), s.length ≤ n → Decodes s (runesN n s) := by
    intro n
    induction n with
    | zero => intro s hs; rw [List.length_eq_zero_iff.1 (Nat.le_zero.1 hs)]; exact .done
    | succ n ih =>
      intro s hs
      cases s with
      | nil => exact .done
      | cons a s =>
        rw [runesN]
        cases hd : decode1 (a :: s) with
        | none => exact .invalid (decode1_none.1 hd) (ih s (by simpa using hs))
        | some x =>
          obtain ⟨c, w⟩ := x
          obtain ⟨⟨r, hr⟩, hw⟩ := decode1_some hd
          have hp := utf8_length_pos c
          simp only
          rw [← hr, hw, List.take_left', List.drop_left']
          · refine .rune (ih r ?_)
            have := congrArg List.length hr
            simp only [List.length_append, List.length_cons] at this hs
            omega
          · rfl
          · rfl
  exact main _ s (Nat.le_refl _)

theorem utf8_prefix_unique {c d : Char} {s : Str} (h : utf8 c <+: s) (h' : utf8 d <+: s) : c = d := by
  obtain ⟨r, rfl⟩ := h
  obtain ⟨r', hr⟩ := h'
  have h1 := decode1_utf8 c r
  rw [← hr, decode1_utf8] at h1
  injection h1 with h1; injection h1 with h1 _; exact h1.symm

theorem decodes_flat {s : Str} {us : List (Char × Str)} (h : Decodes s us) : flat us = s := by
  induction h with
  | done => rfl
  | rune _ ih => show _ ++ flat _ = _; rw [ih]
  | invalid _ _ ih => show _ ++ flat _ = _; rw [ih]; rfl

theorem decodes_unique {s : Str} {us vs : List (Char × Str)} (h : Decodes s us) (h' : Decodes s vs) : us = vs := by
  induction h generalizing vs with
  | done =>
    generalize hs : ([] : Str) = s at h'
    cases h' with
    | done => rfl
    | rune _ => exact absurd (List.append_eq_nil_iff.1 hs.symm).1 (utf8_ne_nil _)
    | invalid _ _ => cases hs
  | @rune c s us _ ih =>
    generalize hs : utf8 c ++ s = t at h'
    cases h' with
    | done => exact absurd (List.append_eq_nil_iff.1 hs).1 (utf8_ne_nil _)
    | @rune d s' us' h2 =>
      have : c = d := utf8_prefix_unique ⟨s, hs⟩ ⟨s', rfl⟩
      subst this
      have := List.append_cancel_left hs
      subst this
      rw [ih h2]
    | invalid hn _ => exact absurd ⟨s, hs⟩ (hn c)
  | @invalid x s us hn _ ih =>
    generalize hs : x :: s = t at h'
    cases h' with
    | done => cases hs
    | @rune d s' us' h2 => exact absurd ⟨s', hs.symm⟩ (hn d)
    | invalid _ h2 => injection hs with h3 h4; subst h3; subst h4; rw [ih h2]

theorem runes_of {s : Str} {us : List (Char × Str)} (h : Decodes s us) : runes s = us := decodes_unique (decodes_runes s) h

/-- The runes of a text are what Go sees in the bytes of these runes. -/
def Seen (us : List Rune) : Prop := Decodes (flat us) us

theorem flat_append (us vs : List Rune) : flat (us ++ vs) = flat us ++ flat vs := List.flatMap_append

theorem flat_cons (u : Rune) (us : List Rune) : flat (u :: us) = u.2 ++ flat us := rfl

theorem seen_tail {u : Rune} {us : List Rune} (h : Seen (u :: us)) : Seen us := by
  unfold Seen at h
  generalize hs : flat (u :: us) = s at h
  generalize hv : u :: us = vs at h
  cases h with
  | done => cases hv
  | rune h => injection hv with h1 h2; subst h2; subst h1; rw [flat_cons] at hs; have := List.append_cancel_left hs; subst this; exact h
  | invalid _ h =>
    injection hv with h1 h2; subst h2; subst h1; rw [flat_cons] at hs
    injection hs with _ hs; subst hs; exact h

theorem seen_right {us vs : List Rune} (h : Seen (us ++ vs)) : Seen vs := by
  induction us with
  | nil => exact h
  | cons u us ih => exact ih (seen_tail h)

theorem seen_cons {u : Rune} {us : List Rune} : Seen (u :: us) ↔ Seen us ∧ (u.2 = utf8 u.1 ∨ (∃ x, u = ('�', [x]) ∧ NoRune (x :: flat us))) := by
  constructor
  · intro h
    refine ⟨seen_tail h, ?_⟩
    unfold Seen at h
    generalize hs : flat (u :: us) = s at h
    generalize hv : u :: us = vs at h
    cases h with
    | done => cases hv
    | rune h => injection hv with h1 h2; subst h1; exact Or.inl rfl
    | invalid hn h =>
      injection hv with h1 h2; subst h2; subst h1; rw [flat_cons] at hs
      injection hs with _ hs; subst hs; exact Or.inr ⟨_, rfl, hn⟩
  · rintro ⟨h, h1 | ⟨x, rfl, hn⟩⟩
    · obtain ⟨c, bs⟩ := u
      simp only at h1
      subst h1
      exact .rune h
    · exact .invalid hn h

theorem seen_left {us vs : List Rune} (h : Seen (us ++ vs)) : Seen us := by
  induction us with
  | nil => exact .done
  | cons u us ih =>
    rw [List.cons_append, seen_cons] at h
    rw [seen_cons]
    refine ⟨ih h.1, ?_⟩
    rcases h.2 with h2 | ⟨x, h2, hn⟩
    · exact Or.inl h2
    · refine Or.inr ⟨x, h2, fun c hc => hn c ?_⟩
      rw [flat_append]
      exact hc.trans ⟨flat vs, by simp⟩

theorem seen_part {us vs ws : List Rune} (h : Seen (us ++ vs ++ ws)) : Seen vs := seen_right (seen_left h)

/-- A text continues after an ASCII byte. -/
theorem seen_join {us vs : List Rune} {a : Char} (ha : a.toNat < 0x80) (h : Seen us) (h' : Seen vs) : Seen (us ++ (a, [a]) :: vs) := by
  induction us with
  | nil => exact seen_cons.2 ⟨h', Or.inl (utf8_ascii ha).symm⟩
  | cons u us ih =>
    rw [seen_cons] at h
    rw [List.cons_append, seen_cons]
    refine ⟨ih h.1, ?_⟩
    rcases h.2 with h2 | ⟨x, h2, hn⟩
    · exact Or.inl h2
    · refine Or.inr ⟨x, h2, fun c hc => ?_⟩
      rw [flat_append, flat_cons] at hc
      by_cases hl : (utf8 c).length ≤ (x :: flat us).length
      · exact hn c (List.prefix_of_prefix_length_le hc ⟨a :: flat vs, by simp⟩ hl)
      · have h3 : (x :: flat us) ++ [a] <+: utf8 c :=
          List.prefix_of_prefix_length_le (l₃ := x :: (flat us ++ ([a] ++ flat vs))) ⟨flat vs, by simp⟩ hc (by simp at hl ⊢; omega)
        by_cases h4 : c.toNat < 0x80
        · rw [utf8_ascii h4] at hl; simp at hl
        · have := utf8_high (by omega) a (h3.subset (by simp))
          omega

/-- What Go sees in the bytes: an ASCII character is its own byte, any other character has bytes that are not ASCII. -/
def Ok (u : Rune) : Prop :=
  (u.1.toNat < 0x80 ∧ u.2 = [u.1]) ∨ (0x80 ≤ u.1.toNat ∧ u.2 ≠ [] ∧ ∀ x ∈ u.2, 0x80 ≤ x.toNat)

theorem seen_ok {us : List Rune} (h : Seen us) : ∀ u ∈ us, Ok u := by
  induction us with
  | nil => simp
  | cons v us ih =>
    rw [seen_cons] at h
    intro u hu
    rcases List.mem_cons.1 hu with rfl | hu
    · rcases h.2 with h2 | ⟨x, rfl, hn⟩
      · by_cases hc : u.1.toNat < 0x80
        · exact Or.inl ⟨hc, by rw [h2, utf8_ascii hc]⟩
        · exact Or.inr ⟨by omega, by rw [h2]; exact utf8_ne_nil _, by rw [h2]; exact utf8_high (by omega)⟩
      · refine Or.inr ⟨show 0x80 ≤ '�'.toNat by decide, by simp, ?_⟩
        intro y hy
        obtain rfl : y = x := by simpa using hy
        by_cases hc : y.toNat < 0x80
        · exact absurd ⟨flat us, by rw [utf8_ascii hc]; rfl⟩ (hn y)
        · omega
    · exact ih h.1 u hu

/-! ### Decoding from the right -/

theorem utf8_shape (c : Char) : ∃ a t, utf8 c = a :: t ∧ isCont a = false ∧ (∀ x ∈ t, isCont x = true) ∧ t.length ≤ 3 := by
  have hv := char_valid c
  unfold utf8
  split
  · rename_i h
    exact ⟨c, [], rfl, by unfold isCont; simp; omega, by simp, by simp⟩
  · rename_i h1
    have hc : ∀ n, n < 64 → isCont (byte (0x80 + n)) = true := by
      intro n hn
      unfold isCont
      rw [toNat_byte (by omega)]
      simp; omega
    have hl : ∀ n, 0xC0 ≤ n → n < 256 → isCont (byte n) = false := by
      intro n hn hn'
      unfold isCont
      rw [toNat_byte hn']
      simp; omega
    split
    · refine ⟨_, _, rfl, hl _ (by omega) (by omega), ?_, by simp⟩
      intro x hx
      simp only [List.mem_cons, List.not_mem_nil, or_false] at hx
      subst hx
      exact hc _ (by omega)
    · split
      · refine ⟨_, _, rfl, hl _ (by omega) (by omega), ?_, by simp⟩
        intro x hx
        simp only [List.mem_cons, List.not_mem_nil, or_false] at hx
        rcases hx with rfl | rfl <;> exact hc _ (by omega)
      · refine ⟨_, _, rfl, hl _ (by omega) (by omega), ?_, by simp⟩
        intro x hx
        simp only [List.mem_cons, List.not_mem_nil, or_false] at hx
        rcases hx with rfl | rfl | rfl <;> exact hc _ (by omega)

/-- A character at the end of the bytes is the last rune. -/
theorem seen_last {us : List Rune} (h : Seen us) {p : Str} {c : Char} (he : flat us = p ++ utf8 c) : ∃ vs, us = vs ++ [(c, utf8 c)] := by
  induction us generalizing p with
  | nil => exact absurd (List.append_eq_nil_iff.1 he.symm).2 (utf8_ne_nil c)
  | cons u us ih =>
    rw [flat_cons] at he
    rcases List.append_eq_append_iff.1 he with ⟨q, h1, h2⟩ | ⟨q, h1, h2⟩
    · obtain ⟨vs, hvs⟩ := ih (seen_tail h) h2
      exact ⟨u :: vs, by rw [hvs]; rfl⟩
    · cases p with
      | nil =>
        rw [List.nil_append] at he h1
        rcases (seen_cons.1 h).2 with h3 | ⟨x, h3, hn⟩
        · have hc : u.1 = c := utf8_prefix_unique (s := utf8 c) ⟨flat us, by rw [← h3, he]⟩ ⟨[], by simp⟩
          rw [h3, hc] at he
          have hnil : flat us = [] := by simpa using he
          have : us = [] := by
            cases us with
            | nil => rfl
            | cons v us =>
              rw [flat_cons, List.append_eq_nil_iff] at hnil
              rcases seen_ok (seen_tail h) v List.mem_cons_self with ⟨_, h5⟩ | ⟨_, h5, _⟩
              · rw [h5] at hnil; simp at hnil
              · exact absurd hnil.1 h5
          subst this
          refine ⟨[], ?_⟩
          rw [List.nil_append, ← hc, ← h3]
        · subst h3
          exact absurd ⟨[], by rw [List.append_nil, ← he]; rfl⟩ (hn c)
      | cons y p =>
        cases q with
        | nil =>
          rw [List.nil_append] at h2
          obtain ⟨vs, hvs⟩ := ih (seen_tail h) (p := []) (by rw [List.nil_append, h2])
          exact ⟨u :: vs, by rw [hvs]; rfl⟩
        | cons z q =>
          exfalso
          rcases (seen_cons.1 h).2 with h3 | ⟨x, h3, hn⟩
          · obtain ⟨a, t, ha, _, ht, _⟩ := utf8_shape u.1
            obtain ⟨b, r, hb, hb', _⟩ := utf8_shape c
            rw [h3, ha, List.cons_append] at h1
            injection h1 with _ h1
            have hz : isCont z = true := ht z (by rw [h1]; simp)
            rw [hb, List.cons_append] at h2
            injection h2 with h2 _
            rw [← h2, hb'] at hz
            cases hz
          · subst h3
            have := congrArg List.length h1
            simp at this

theorem utf8_multi {c : Char} (h : 0x80 ≤ c.toNat) : ∃ b d t, utf8 c = b :: d :: t := by
  unfold utf8
  rw [if_neg (by omega)]
  split
  · exact ⟨_, _, _, rfl⟩
  · split <;> exact ⟨_, _, _, rfl⟩

theorem decodeLast_seen {us : List Rune} {u : Rune} (h : Seen (us ++ [u])) : decodeLast (flat (us ++ [u])) = (u.1, u.2.length) := by
  have hu : Seen [u] := seen_right h
  have hfl : flat (us ++ [u]) = flat us ++ u.2 := by rw [flat_append]; simp [flat]
  rcases seen_ok hu u List.mem_cons_self with ⟨h1, h2⟩ | ⟨h1, h2, h3⟩
  · unfold decodeLast
    rw [hfl, h2, List.getLast?_concat]
    simp [h1]
  · have hlast : ∃ x, (flat (us ++ [u])).getLast? = some x ∧ 0x80 ≤ x.toNat := by
      rw [hfl, List.getLast?_append]
      obtain ⟨x, hx⟩ : ∃ x, u.2.getLast? = some x := ⟨_, List.getLast?_eq_some_getLast h2⟩
      exact ⟨x, by rw [hx]; rfl, h3 x (List.mem_of_getLast? hx)⟩
    obtain ⟨x, hx, hxh⟩ := hlast
    unfold decodeLast
    rw [hx]
    simp only
    rw [if_neg (by omega)]
    rcases (seen_cons.1 hu).2 with h4 | ⟨y, h4, hn⟩
    · have hk : lastLen (flat (us ++ [u])).reverse = u.2.length := by
        rw [hfl, List.reverse_append]
        generalize (flat us).reverse = r
        obtain ⟨a, t, ha, hac, htc, htl⟩ := utf8_shape u.1
        obtain ⟨b, d, t', hb⟩ := utf8_multi h1
        rw [h4, ha]
        rw [hb] at ha
        injection ha with _ ha
        subst ha
        match t', htl, htc with
        | [], _, htc =>
          have hd := htc d (by simp)
          match r with
          | [] => rfl
          | [r1] => simp [lastLen, runeStart, hac]
          | r1 :: r2 :: r => simp [lastLen, runeStart, hac]
        | [e], _, htc =>
          have hd := htc d (by simp)
          have he := htc e (by simp)
          match r with
          | [] => simp [lastLen, runeStart, hd]
          | r1 :: r => simp [lastLen, runeStart, hac, hd]
        | [e, f], _, htc =>
          have hd := htc d (by simp)
          have he := htc e (by simp)
          simp [lastLen, runeStart, hac, hd, he]
        | e :: f :: g :: t', htl, _ => simp at htl
      rw [hk, hfl]
      have e : (flat us ++ u.2).drop ((flat us ++ u.2).length - u.2.length) = u.2 := by simp
      rw [e]
      have := decode1_utf8 u.1 []
      rw [List.append_nil, ← h4] at this
      rw [this]
      simp
    · subst h4
      have key : ∀ k c w, decode1 ((flat (us ++ [('�', [y])])).drop ((flat (us ++ [('�', [y])])).length - k)) = some (c, w) →
          k ≤ (flat (us ++ [('�', [y])])).length → w ≠ k := by
        intro k c w hd hk hw
        obtain ⟨⟨r, hr⟩, hw'⟩ := decode1_some hd
        have hl := congrArg List.length hr
        simp only [List.length_append, List.length_drop] at hl
        have hr0 : r = [] := List.length_eq_zero_iff.1 (by omega)
        subst hr0
        rw [List.append_nil] at hr
        have he : flat (us ++ [('�', [y])]) = (flat (us ++ [('�', [y])])).take ((flat (us ++ [('�', [y])])).length - k) ++ utf8 c := by
          rw [hr, List.take_append_drop]
        obtain ⟨vs, hvs⟩ := seen_last h he
        have := List.append_inj_right' hvs rfl
        simp only [List.cons.injEq, and_true, Prod.mk.injEq] at this
        have h5 := this.2
        rw [← this.1] at h5
        have := congrArg List.length h5
        have h3 : (utf8 '�').length = 3 := by decide +kernel
        rw [h3] at this
        cases this
      have hkl : ∀ s : Str, lastLen s ≤ s.length := by
        intro s
        unfold lastLen
        split
        · simp only [List.length_cons]
          repeat' split
          all_goals first
            | omega
            | (rename_i t _ _ _ hne
               cases t with
               | nil => exact absurd rfl hne
               | cons _ _ => simp only [List.length_cons]; omega)
        · simp only [List.length_cons, List.length_nil]
          split <;> omega
        · omega
      have hk := hkl (flat (us ++ [('�', [y])])).reverse
      rw [List.length_reverse] at hk
      cases hd : decode1 ((flat (us ++ [('�', [y])])).drop ((flat (us ++ [('�', [y])])).length - lastLen (flat (us ++ [('�', [y])])).reverse)) with
      | none => rfl
      | some z =>
        obtain ⟨c, w⟩ := z
        simp only
        rw [if_neg (key _ _ _ hd hk)]
        rfl

/-- `strings.TrimFunc` on runes. -/
def trimR (f : Char → Bool) (us : List Rune) : List Rune :=
  ((us.dropWhile fun u => f u.1).reverse.dropWhile fun u => f u.1).reverse

theorem width_seen {u : Rune} {us : List Rune} (h : Seen (u :: us)) : width (flat (u :: us)) = u.2.length := by
  rw [flat_cons]
  unfold width
  rcases (seen_cons.1 h).2 with h1 | ⟨x, h1, hn⟩
  · rw [h1, decode1_utf8]
  · subst h1
    show (match decode1 (x :: flat us) with | some (_, w) => w | none => 1) = 1
    rw [decode1_none.2 hn]

theorem lastIndex_seen (f : Char → Bool) (n : Nat) (us : List Rune) (h : Seen us) (hn : us.length ≤ n) :
    match lastIndex f n (flat us) with
    | none => us.reverse.dropWhile (fun u => f u.1) = []
    | some i => ∃ vs u ws, us = vs ++ [u] ++ ws ∧ i = (flat vs).length ∧ (us.reverse.dropWhile fun u => f u.1).reverse = vs ++ [u] := by
  induction n generalizing us with
  | zero => rw [List.length_eq_zero_iff.1 (Nat.le_zero.1 hn)]; rfl
  | succ n ih =>
    rcases List.eq_nil_or_concat us with rfl | ⟨vs, u, rfl⟩
    · rfl
    · rw [List.concat_eq_append] at *
      have hu : Seen [u] := seen_right h
      have hne : u.2 ≠ [] := by
        rcases seen_ok hu u List.mem_cons_self with ⟨_, h2⟩ | ⟨_, h2, _⟩
        · rw [h2]; simp
        · exact h2
      have hfl : flat (vs ++ [u]) = flat vs ++ u.2 := by rw [flat_append]; simp [flat]
      rw [lastIndex, if_neg (by rw [hfl]; simp [hne]), decodeLast_seen h]
      simp only
      have hlen : (flat (vs ++ [u])).length - u.2.length = (flat vs).length := by rw [hfl]; simp
      rw [hlen, List.reverse_append, List.reverse_singleton, List.singleton_append, List.dropWhile_cons]
      by_cases hf : f u.1 = true
      · rw [if_pos hf, if_pos hf]
        have ht : (flat (vs ++ [u])).take (flat vs).length = flat vs := by rw [hfl]; simp
        rw [ht]
        have := ih vs (seen_left h) (by simp at hn; omega)
        revert this
        cases lastIndex f n (flat vs) with
        | none => exact id
        | some i =>
          rintro ⟨as, a, bs, e1, e2, e3⟩
          exact ⟨as, a, bs ++ [u], by rw [e1]; simp, e2, e3⟩
      · rw [if_neg hf, if_neg hf]
        exact ⟨vs, u, [], by simp, rfl, by simp⟩

theorem trimRight_seen (f : Char → Bool) {us : List Rune} (h : Seen us) :
    trimRightB f (flat us) = flat (us.reverse.dropWhile fun u => f u.1).reverse := by
  have hl : us.length ≤ (flat us).length := by
    have ho := seen_ok h
    clear h
    induction us with
    | nil => simp
    | cons u us ih =>
      rw [flat_cons, List.length_append, List.length_cons]
      have := ih fun v hv => ho v (List.mem_cons_of_mem _ hv)
      have hne : u.2 ≠ [] := by
        rcases ho u List.mem_cons_self with ⟨_, h2⟩ | ⟨_, h2, _⟩
        · rw [h2]; simp
        · exact h2
      have := List.length_pos_iff.2 hne
      omega
  have hi := lastIndex_seen f (flat us).length us h hl
  unfold trimRightB
  revert hi
  cases lastIndex f (flat us).length (flat us) with
  | none => intro hi; simp only at hi ⊢; rw [hi]; rfl
  | some i =>
    rintro ⟨vs, u, ws, e1, e2, e3⟩
    simp only
    rw [e3]
    have hfl : flat us = flat vs ++ flat (u :: ws) := by rw [e1]; simp [flat]
    have hus : Seen (u :: ws) := seen_right (us := vs) (by rw [e1] at h; simpa using h)
    have hd : (flat us).drop i = flat (u :: ws) := by rw [hfl, e2]; simp
    rw [hd, width_seen hus, hfl, e2, flat_append, flat_cons]
    have : flat [u] = u.2 := by simp [flat]
    rw [this, ← List.append_assoc, ← List.length_append, List.take_left]

theorem trimFunc_seen (f : Char → Bool) {us : List Rune} (h : Seen us) : trimFuncB f (flat us) = flat (trimR f us) := by
  unfold trimFuncB
  rw [runes_of h]
  obtain ⟨a, ha⟩ := us.dropWhile_suffix fun u => f u.1
  have hs : Seen (us.dropWhile fun u => f u.1) := seen_right (us := a) (by rw [ha]; exact h)
  exact trimRight_seen f hs

end Verif.A2l.Bytes
