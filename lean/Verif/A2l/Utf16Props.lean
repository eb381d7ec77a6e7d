import Verif.A2l.Utf8Props

/-!
C89, UTF-16: a file in UTF-16 is accepted as a file without content.
-/

namespace Verif.A2l.Bytes

open Verif.Go Verif.A2l.Spec Verif.A2l.Lang Verif.A2l.FileSpec Verif.A2l.Analysis Verif.A2l.Props Verif.Conc

/-- Zero bytes and bytes that are not ASCII. -/
def Foreign (c : Char) : Prop := c = byte 0 ∨ 0x80 ≤ c.toNat

/-- After a space and at the start there is a zero or a character that is not ASCII; `p` says that a character that is no space is in
front. -/
def Chain : Bool → List Rune → Prop
  | _, [] => True
  | p, u :: us => (p = true ∨ Foreign u.1) ∧ Chain (!isSpace u.1) us

theorem chain_weaken {p : Bool} {us : List Rune} (h : Chain p us) : Chain true us := by
  cases us with
  | nil => trivial
  | cons u us => exact ⟨Or.inl rfl, h.2⟩

theorem chain_left {p : Bool} {a b : List Rune} (h : Chain p (a ++ b)) : Chain p a := by
  induction a generalizing p with
  | nil => trivial
  | cons u a ih => exact ⟨h.1, ih h.2⟩

theorem chain_right {p : Bool} {a b : List Rune} (h : Chain p (a ++ b)) : ∃ q, Chain q b := by
  induction a generalizing p with
  | nil => exact ⟨p, h⟩
  | cons u a ih => exact ih h.2

theorem not_foreign : ¬ Foreign '\\' := by unfold Foreign byte; decide

theorem chain_delete {p : Bool} {us : List Rune} (h : Chain p us) : Chain p (deleteEscapesR us) := by
  have main : ∀ n (us : List Rune) p, us.length ≤ n → Chain p us → Chain p (deleteEscapesR us) := by
    intro n
    induction n with
    | zero => intro us p hs _; rw [List.length_eq_zero_iff.1 (Nat.le_zero.1 hs)]; simp only [deleteEscapesR]; trivial
    | succ n ih =>
      intro us p hs h
      cases us with
      | nil => simp only [deleteEscapesR]; trivial
      | cons u us =>
        simp only [List.length_cons] at hs
        by_cases hc : u.1 = '\\'
        · cases us with
          | nil => simpa only [deleteEscapesR] using h
          | cons v us =>
            simp only [List.length_cons] at hs
            rw [deleteEscapesR, if_pos hc]
            have hp : p = true := h.1.resolve_right (by rw [hc]; exact not_foreign)
            split
            · exact ⟨h.1, h.2.1, ih us _ (by omega) h.2.2⟩
            · rw [hp]; exact ih us _ (by omega) (chain_weaken h.2.2)
        · rw [deleteEscapesR_ne hc]
          exact ⟨h.1, ih us _ (by omega) h.2⟩
  exact main _ us p (Nat.le_refl _) h

theorem delete_mem {us : List Rune} : ∀ u ∈ deleteEscapesR us, u ∈ us := by
  have main : ∀ n (us : List Rune), us.length ≤ n → ∀ u ∈ deleteEscapesR us, u ∈ us := by
    intro n
    induction n with
    | zero => intro us hs; rw [List.length_eq_zero_iff.1 (Nat.le_zero.1 hs)]; simp [deleteEscapesR]
    | succ n ih =>
      intro us hs
      cases us with
      | nil => simp [deleteEscapesR]
      | cons u us =>
        simp only [List.length_cons] at hs
        by_cases hc : u.1 = '\\'
        · cases us with
          | nil => simp [deleteEscapesR]
          | cons v us =>
            simp only [List.length_cons] at hs
            rw [deleteEscapesR, if_pos hc]
            have := ih us (by omega)
            split
            · intro x hx
              simp only [List.mem_cons] at hx ⊢
              exact hx.imp_right fun h => h.imp_right (this x)
            · intro x hx
              simp only [List.mem_cons]
              exact Or.inr (Or.inr (this x hx))
        · rw [deleteEscapesR_ne hc]
          have := ih us (by omega)
          intro x hx
          simp only [List.mem_cons] at hx ⊢
          exact hx.imp_right (this x)
  exact main _ us (Nat.le_refl _)

/-- A byte that never occurs in UTF-8. -/
theorem noRune_high {x : Char} (hx : 0xF5 ≤ x.toNat) (s : Str) : NoRune (x :: s) := by
  intro c hc
  have hv := char_valid c
  have key : ∀ n t, n < 0xF5 → byte n :: t <+: x :: s → False := by
    intro n t hn h
    rw [List.cons_prefix_cons] at h
    have := toNat_byte (n := n) (by omega)
    rw [h.1] at this
    omega
  unfold utf8 at hc
  split at hc
  · rw [List.cons_prefix_cons] at hc
    have := hc.1
    subst this
    omega
  · split at hc
    · exact key _ _ (by omega) hc
    · split at hc
      · exact key _ _ (by omega) hc
      · exact key _ _ (by omega) hc

/-- An ASCII character, or a byte of the byte order mark. -/
def Simple (u : Rune) : Prop := (u.1.toNat < 0x80 ∧ u.2 = [u.1]) ∨ ∃ x, 0xF5 ≤ x.toNat ∧ u = ('�', [x])

theorem seen_simple {us : List Rune} (h : ∀ u ∈ us, Simple u) : Seen us := by
  induction us with
  | nil => exact .done
  | cons u us ih =>
    refine seen_cons.2 ⟨ih fun v hv => h v (List.mem_cons_of_mem _ hv), ?_⟩
    rcases h u List.mem_cons_self with ⟨h1, h2⟩ | ⟨x, h1, h2⟩
    · exact Or.inl (by rw [h2, utf8_ascii h1])
    · exact Or.inr ⟨x, h2, noRune_high h1 _⟩

theorem trim_head {f : Char → Bool} {u : Rune} (h : f u.1 = false) (us : List Rune) : ∃ b, u :: us = trimR f (u :: us) ++ b := by
  unfold trimR
  rw [List.dropWhile_cons, if_neg (by simp [h])]
  obtain ⟨b, hb⟩ := (u :: us).reverse.dropWhile_suffix fun u => f u.1
  refine ⟨b.reverse, ?_⟩
  rw [← List.reverse_append, hb, List.reverse_reverse]

theorem part_foreign {T w : List Rune} (h : Chain false T) (hw : Part T w) : ∃ u us, w = u :: us ∧ Foreign u.1 := by
  obtain ⟨hne, a, b, rfl, ha⟩ := hw
  obtain ⟨u, us, rfl⟩ := List.exists_cons_of_ne_nil hne
  refine ⟨u, us, rfl, ?_⟩
  rcases ha with rfl | ⟨a', y, rfl, hy⟩
  · exact h.1.resolve_left (by simp)
  · rw [List.append_assoc, List.append_assoc] at h
    obtain ⟨q, hq⟩ := chain_right h
    have hq := hq.2
    rw [hy] at hq
    exact hq.1.resolve_left (by simp)

theorem joined_foreign {T t : List Rune} (h : Chain false T) (hw : Joined (Part T) t) : ∃ u us, t = u :: us ∧ Foreign u.1 := by
  induction hw with
  | word hw => exact part_foreign h hw
  | more _ _ ih => obtain ⟨u, us, rfl, hu⟩ := ih; exact ⟨u, _, rfl, hu⟩

theorem flat_foreign {t : List Rune} (h : AllOk t) (ht : ∃ u us, t = u :: us ∧ Foreign u.1) : ∃ x xs, flat t = x :: xs ∧ Foreign x := by
  obtain ⟨u, us, rfl, hu⟩ := ht
  rcases h u List.mem_cons_self with ⟨h1, h2⟩ | ⟨h1, h2, h3⟩
  · exact ⟨u.1, flat us, by rw [flat_cons, h2]; rfl, hu⟩
  · obtain ⟨x, xs, hx⟩ := List.exists_cons_of_ne_nil h2
    exact ⟨x, xs ++ flat us, by rw [flat_cons, hx]; rfl, Or.inr (h3 x (by rw [hx]; simp))⟩

/-- No keyword starts with such a byte. -/
theorem keywords_ascii : ∀ k ∈ keywords ++ heads.map (·.1), ∀ x xs, k = x :: xs → ¬ Foreign x := by
  have h : (keywords ++ heads.map (·.1)).all (fun k => match k with | [] => true | x :: _ => decide (x ≠ byte 0 ∧ x.toNat < 0x80)) = true := by
    decide +kernel
  intro k hk x xs e hf
  have := List.all_eq_true.1 h k hk
  rw [e] at this
  have := of_decide_eq_true this
  rcases hf with hf | hf
  · exact this.1 hf
  · omega

/-- The words of such a text are no keywords. -/
theorem foreign_words (graphic : Char → Bool) (hg : graphic '�' = true) (n : Nat) {u : Rune} {us : List Rune} (hu : u.1 = '�')
    (hs : ∀ v ∈ u :: us, Simple v) (hc : Chain false (u :: us)) :
    ∃ ws, tokensOfFileB graphic n (flat (u :: us)) = some (ws ++ [[]]) ∧
      ∀ w ∈ ws, w ≠ [] ∧ w ∉ keywords ∧ w ∉ heads.map (·.1) := by
  have h1 : runes (flat (u :: us)) = u :: us := runes_of (seen_simple hs)
  have hne : u.1 ≠ '\\' := by rw [hu]; decide
  have h2 : deleteEscapesR (u :: us) = u :: deleteEscapesR us := deleteEscapesR_ne hne us
  have hS : Seen (u :: deleteEscapesR us) := by
    rw [← h2]; exact seen_simple fun v hv => hs v (delete_mem v hv)
  have hC : Chain false (u :: deleteEscapesR us) := by rw [← h2]; exact chain_delete hc
  have hr : UnescapedBytes (flat (u :: us)) (flat (u :: deleteEscapesR us)) := unesc_iff.2 (by rw [h1, h2])
  obtain ⟨ts, h3, h4, _⟩ := file_same graphic n hr hS
  obtain ⟨b, hb⟩ := trim_head (f := fun c => !graphic c) (u := u) (by rw [hu, hg]; rfl) (deleteEscapesR us)
  refine ⟨_, h4, ?_⟩
  intro w hw
  obtain ⟨t, ht, rfl⟩ := List.mem_map.1 hw
  have hT : Chain false (trimR (fun c => !graphic c) (u :: deleteEscapesR us)) := chain_left (hb ▸ hC)
  have hTs : Seen (trimR (fun c => !graphic c) (u :: deleteEscapesR us)) := seen_left (hb ▸ hS)
  obtain ⟨x, xs, hx, hf⟩ := flat_foreign (seen_ok (joined_seen hTs (h3 t ht))) (joined_foreign hT (h3 t ht))
  refine ⟨by rw [hx]; simp, fun hk => ?_, fun hk => ?_⟩
  · exact keywords_ascii _ (List.mem_append_left _ hk) x xs hx hf
  · exact keywords_ascii _ (List.mem_append_right _ hk) x xs hx hf

def leRunes (s : Str) : List Rune := s.flatMap fun c => [(c, [c]), (byte 0, [byte 0])]

def beRunes (s : Str) : List Rune := s.flatMap fun c => [(byte 0, [byte 0]), (c, [c])]

theorem le_chain (s : Str) : Chain true (leRunes s) := by
  induction s with
  | nil => trivial
  | cons c s ih => exact ⟨Or.inl rfl, Or.inr (Or.inl rfl), ih⟩

theorem be_chain (p : Bool) (s : Str) : Chain p (beRunes s) := by
  induction s generalizing p with
  | nil => trivial
  | cons c s ih => exact ⟨Or.inr (Or.inl rfl), Or.inl (by decide), ih _⟩

theorem le_flat (s : Str) : flat (leRunes s) = s.flatMap fun c => [c, byte 0] := by
  induction s with
  | nil => rfl
  | cons c s ih => show c :: byte 0 :: flat (leRunes s) = _; rw [ih]; rfl

theorem be_flat (s : Str) : flat (beRunes s) = s.flatMap fun c => [byte 0, c] := by
  induction s with
  | nil => rfl
  | cons c s ih => show byte 0 :: c :: flat (beRunes s) = _; rw [ih]; rfl

theorem le_simple {s : Str} (h : ∀ c ∈ s, c.toNat < 0x80) : ∀ u ∈ leRunes s, Simple u := by
  intro u hu
  simp only [leRunes, List.mem_flatMap, List.mem_cons, List.not_mem_nil, or_false] at hu
  obtain ⟨c, hc, rfl | rfl⟩ := hu
  · exact Or.inl ⟨h c hc, rfl⟩
  · exact Or.inl ⟨show (byte 0).toNat < 0x80 by decide, rfl⟩

theorem be_simple {s : Str} (h : ∀ c ∈ s, c.toNat < 0x80) : ∀ u ∈ beRunes s, Simple u := by
  intro u hu
  simp only [beRunes, List.mem_flatMap, List.mem_cons, List.not_mem_nil, or_false] at hu
  obtain ⟨c, hc, rfl | rfl⟩ := hu
  · exact Or.inl ⟨show (byte 0).toNat < 0x80 by decide, rfl⟩
  · exact Or.inl ⟨h c hc, rfl⟩

theorem utf16_words (graphic : Char → Bool) (hg : graphic '�' = true) (n : Nat) {s : Str} (hs : ∀ c ∈ s, c.toNat < 0x80) {b : Str}
    (hb : b = utf16LE s ∨ b = utf16BE s) :
    ∃ ws, tokensOfFileB graphic n b = some (ws ++ [[]]) ∧ ∀ w ∈ ws, w ≠ [] ∧ w ∉ keywords ∧ w ∉ heads.map (·.1) := by
  have bom : ∀ x y : Char, 0xF5 ≤ x.toNat → 0xF5 ≤ y.toNat → ∀ us : List Rune, (∀ v ∈ us, Simple v) → Chain true us →
      ∃ ws, tokensOfFileB graphic n (x :: y :: flat us) = some (ws ++ [[]]) ∧ ∀ w ∈ ws, w ≠ [] ∧ w ∉ keywords ∧ w ∉ heads.map (·.1) := by
    intro x y hx hy us h1 h2
    have hf : 0x80 ≤ '�'.toNat := by decide
    have hsp : (!isSpace '�') = true := by decide
    refine foreign_words graphic hg n (u := ('�', [x])) (us := ('�', [y]) :: us) rfl ?_ ⟨Or.inr (Or.inr hf), Or.inr (Or.inr hf), ?_⟩
    · intro v hv
      simp only [List.mem_cons] at hv
      rcases hv with rfl | rfl | hv
      · exact Or.inr ⟨x, hx, rfl⟩
      · exact Or.inr ⟨y, hy, rfl⟩
      · exact h1 v hv
    · rw [hsp]; exact h2
  rcases hb with rfl | rfl
  · unfold utf16LE
    rw [← le_flat]
    exact bom _ _ (by decide) (by decide) _ (le_simple hs) (le_chain s)
  · unfold utf16BE
    rw [← be_flat]
    exact bom _ _ (by decide) (by decide) _ (be_simple hs) (be_chain _ s)

/-- C89, UTF-16: every ASCII text in UTF-16 with a byte order mark, an A2L file or not, is accepted without an error as a file with
nothing in it, on one CPU and on several. (`unicode.IsGraphic` holds for U+FFFD.) -/
theorem C89_utf16 (graphic : Char → Bool) (hg : graphic '�' = true) (n : Nat) (s : Str) (hs : ∀ c ∈ s, c.toNat < 0x80) (b : Str)
    (hb : b = utf16LE s ∨ b = utf16BE s) :
    ∃ ts, tokensOfFileB graphic n b = some ts ∧
      (∀ E : Env, E.toks = ts → E.multi = false → ∃ j, Returns E .parseA2l 0 (.ok j (.obj Obj.empty) false)) ∧
      ∀ (E : Env) (np : Nat) (sched : Nat → List Collect.Op), E.toks = ts → E.multi = false → 0 < np →
        (∀ i < E.toks.length, mtModule E np (sched i) i ≠ .timeout) →
        ∃ j, Returns (mtEnv E np sched) .parseA2l 0 (.ok j (.obj Obj.empty) false) := by
  obtain ⟨ws, h1, h2⟩ := utf16_words graphic hg n hs hb
  have hne : [] ∉ ws := fun h => (h2 _ h).1 rfl
  refine ⟨_, h1, fun E ht hm => ⟨_, C56_words_accepted ⟨ws, ht, hne⟩ (mtGood_seq hm) ht fun t h => (h2 t h).2⟩, ?_⟩
  intro E np sched ht hm hnp hc
  have hw : Wf E := ⟨ws, ht, hne⟩
  have hmt' : MtGood (mtEnv E np sched) := by
    intro _ k hk
    obtain ⟨j, o, e, h1, h2, h3⟩ := (C35_returns hw hm hnp hk).2 (sched k) (hc k hk)
    exact ⟨j, .obj o, e, h1, h2, h3, fun _ => h2⟩
  exact ⟨_, C56_words_accepted (E := mtEnv E np sched) hw hmt' ht fun t h => (h2 t h).2⟩

/-- Non-vacuity: a file with a project and a module. -/
example : ∃ ts, tokensOfFileB (fun _ => true) 1 (utf16LE "/begin PROJECT p \"x\" /begin MODULE m \"y\" /end MODULE /end PROJECT".toList) = some ts ∧
    ∀ E : Env, E.toks = ts → E.multi = false → ∃ j, Returns E .parseA2l 0 (.ok j (.obj Obj.empty) false) := by
  obtain ⟨ts, h1, h2, _⟩ := C89_utf16 (fun _ => true) rfl 1 "/begin PROJECT p \"x\" /begin MODULE m \"y\" /end MODULE /end PROJECT".toList
    (by decide) _ (Or.inl rfl)
  exact ⟨ts, h1, h2⟩

/-- The tokens of a short one. -/
example : tokensOfFileB (fun _ => true) 1 (utf16LE "A B".toList) =
    some [[byte 0xFF, byte 0xFE, 'A', byte 0], [byte 0, 'B', byte 0], []] := by decide +kernel

end Verif.A2l.Bytes
