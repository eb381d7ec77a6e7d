import Verif.A2l.TokProps
import Verif.A2l.WhiteSpace

/-!
C94: which quoted strings are delivered to the parser character for character.
-/

namespace Verif.A2l.Spec

open Verif.Go

/-- The only white characters are spaces, and there are never two of them side by side. -/
def SingleSpaced (s : Str) : Prop := (∀ c ∈ s, White c → c = ' ') ∧ ∀ i, s[i]? = some ' ' → s[i + 1]? ≠ some ' '

end Verif.A2l.Spec

namespace Verif.A2l.Props

open Verif.Go Verif.A2l.Spec

theorem white_false {c : Char} : isSpace c = false ↔ ¬ White c := by
  rw [← isSpace_iff]; simp

theorem unwords_cons {w : Str} {ws : List Str} (h : ws ≠ []) : unwords (w :: ws) = w ++ ' ' :: unwords ws := by
  cases ws with
  | nil => exact absurd rfl h
  | cons a l => rfl

/-- Words with one space between them are single-spaced and do not begin with a space. -/
theorem single_unwords (ws : List Str) (h : ∀ w ∈ ws, w ≠ [] ∧ ∀ c ∈ w, ¬ White c) :
    SingleSpaced (unwords ws) ∧ (unwords ws)[0]? ≠ some ' ' := by
  have sp : White ' ' := by decide
  induction ws with
  | nil => exact ⟨⟨by simp [unwords], by simp [unwords]⟩, by simp [unwords]⟩
  | cons w ws ih =>
    obtain ⟨h0, hw⟩ := h w (by simp)
    have hno : ∀ i : Nat, w[i]? ≠ some ' ' := fun i he => hw _ (List.mem_of_getElem? he) sp
    by_cases hn : ws = []
    · subst hn
      exact ⟨⟨fun c hc hwh => absurd hwh (hw c hc), fun i he => absurd he (hno i)⟩, hno 0⟩
    · obtain ⟨⟨h1, h2⟩, h3⟩ := ih fun x hx => h x (by simp [hx])
      rw [unwords_cons hn]
      have hl : 0 < w.length := List.length_pos_iff.2 h0
      refine ⟨⟨?_, ?_⟩, ?_⟩
      · intro c hc hwh
        rcases List.mem_append.1 hc with hc | hc
        · exact absurd hwh (hw c hc)
        · rcases List.mem_cons.1 hc with hc | hc
          · exact hc
          · exact h1 c hc hwh
      · intro i hi he
        rcases Nat.lt_trichotomy i w.length with hlt | heq | hgt
        · rw [List.getElem?_append_left hlt] at hi
          exact hno i hi
        · rw [List.getElem?_append_right (by omega), show i + 1 - w.length = 0 + 1 by omega, List.getElem?_cons_succ] at he
          exact h3 he
        · rw [List.getElem?_append_right (by omega), show i - w.length = (i - w.length - 1) + 1 by omega, List.getElem?_cons_succ] at hi
          rw [List.getElem?_append_right (by omega), show i + 1 - w.length = (i - w.length - 1 + 1) + 1 by omega, List.getElem?_cons_succ] at he
          exact h2 _ hi he
      · rw [List.getElem?_append_left hl]
        exact hno 0

theorem unwords_fieldsAux (acc s : Str) (hs : SingleSpaced s) (h0 : acc = [] → s[0]? ≠ some ' ') (hl : s.getLast? ≠ some ' ') :
    unwords (fieldsAux acc s) = acc.reverse ++ s := by
  induction s generalizing acc with
  | nil =>
    unfold fieldsAux
    split
    · next h => rw [List.isEmpty_iff.1 h]; rfl
    · simp [unwords]
  | cons c cs ih =>
    have hs' : SingleSpaced cs := ⟨fun x hx => hs.1 x (by simp [hx]), fun i h => by
      have := hs.2 (i + 1); simp only [List.getElem?_cons_succ] at this; exact this h⟩
    have hl' : cs ≠ [] → cs.getLast? ≠ some ' ' := by
      intro hne h
      apply hl
      rw [List.getLast?_cons_of_ne_nil hne]; exact h
    unfold fieldsAux
    by_cases hc : isSpace c = true
    · have hsp : c = ' ' := hs.1 c (by simp) ((isSpace_iff c).1 hc)
      have hacc : acc ≠ [] := fun h => h0 h (by simp [hsp])
      have hcs : cs ≠ [] := fun h => hl (by simp [h, hsp])
      have hfirst : cs[0]? ≠ some ' ' := by
        have := hs.2 0
        simp only [List.getElem?_cons_succ, List.getElem?_cons_zero] at this
        exact this (by rw [hsp])
      have hne : fieldsAux [] cs ≠ [] := by
        intro h
        rw [fieldsAux_eq_nil] at h
        cases cs with
        | nil => exact hcs rfl
        | cons x xs => exact hfirst (by rw [hs'.1 x (by simp) ((isSpace_iff x).1 (h.2 x (by simp)))]; rfl)
      rw [if_pos hc, if_neg (by simp [hacc]), unwords_cons hne, ih [] hs' (fun _ => hfirst) (hl' hcs), hsp]
      rfl
    · rw [if_neg hc]
      by_cases hcs : cs = []
      · subst hcs
        simp [fieldsAux, unwords]
      · rw [ih (c :: acc) hs' (fun h => by cases h) (hl' hcs)]
        simp

/-- C94 as stated: the token of a string is the string, whatever stands before and behind it. -/
def C94_full : Prop := ∀ (graphic : Char → Bool) (d : Doc) (c sep suf : Str), d.Wf → doubled c = true → Blank sep → sep ≠ [] → Clean graphic suf →
  Clean graphic (d.text ++ Item.text (.quoted c) ++ sep ++ suf) → ∃ ts, tokensOfFile graphic 1 suf = some ts ∧
    tokensOfFile graphic 1 (d.text ++ Item.text (.quoted c) ++ sep ++ suf) = some (d.tokens ++ [Item.text (.quoted c)] ++ ts)

/-- C94, exactly: the token of a string is the string itself just if it contains no white space but single spaces. -/
theorem C94_iff (graphic : Char → Bool) (d : Doc) (c sep suf : Str) (hd : d.Wf) (hc : doubled c = true)
    (hs : Blank sep) (hne : sep ≠ []) (h1 : Clean graphic suf)
    (h2 : Clean graphic (d.text ++ Item.text (.quoted c) ++ sep ++ suf)) :
    (∃ ts, tokensOfFile graphic 1 suf = some ts ∧
      tokensOfFile graphic 1 (d.text ++ Item.text (.quoted c) ++ sep ++ suf) = some (d.tokens ++ ['"' :: c ++ ['"']] ++ ts)) ↔
      SingleSpaced c := by
  obtain ⟨ts, e1, e2⟩ := C26_partial graphic d c sep suf hd hc hs hne h1 h2
  have hq : ∀ i : Nat, ('"' :: c ++ ['"'])[i]? = some ' ' → ∃ j, i = j + 1 ∧ c[j]? = some ' ' := by
    intro i h
    cases i with
    | zero => simp at h
    | succ j =>
      refine ⟨j, rfl, ?_⟩
      rw [List.cons_append, List.getElem?_cons_succ] at h
      by_cases hj : j < c.length
      · rwa [List.getElem?_append_left hj] at h
      · rw [List.getElem?_append_right (by omega)] at h
        cases hk : j - c.length with
        | zero => rw [hk] at h; simp at h
        | succ k => rw [hk] at h; simp at h
  have hback : ∀ j : Nat, c[j]? = some ' ' → ('"' :: c ++ ['"'])[j + 1]? = some ' ' := by
    intro j h
    rw [List.cons_append, List.getElem?_cons_succ, List.getElem?_append_left (List.getElem?_eq_some_iff.1 h).1]
    exact h
  have hsingle : SingleSpaced ('"' :: c ++ ['"']) ↔ SingleSpaced c := by
    constructor
    · intro h
      refine ⟨fun x hx => h.1 x (by simp [hx]), fun i hi he => ?_⟩
      exact h.2 (i + 1) (hback i hi) (hback (i + 1) he)
    · intro h
      refine ⟨fun x hx hwh => ?_, fun i hi he => ?_⟩
      · have hn : ¬ White '"' := by decide
        have : x = '"' ∨ x ∈ c := by
          simp only [List.cons_append, List.mem_cons, List.mem_append, List.not_mem_nil, or_false] at hx
          rcases hx with h | h | h
          · exact .inl h
          · exact .inr h
          · exact .inl h
        rcases this with rfl | hx
        · exact absurd hwh hn
        · exact h.1 x hx hwh
      · obtain ⟨j, rfl, hj⟩ := hq i hi
        obtain ⟨k, hk, hk'⟩ := hq _ he
        obtain rfl : k = j + 1 := by omega
        exact h.2 j hj hk'
  rw [← hsingle]
  constructor
  · rintro ⟨ts', e1', e2'⟩
    rw [e1] at e1'; cases e1'
    rw [e2] at e2'
    have h3 := List.append_cancel_left (List.append_cancel_right (Option.some.inj e2'))
    have h4 : unwords (fields ('"' :: c ++ ['"'])) = '"' :: c ++ ['"'] := (List.cons.inj h3).1
    rw [← h4]
    exact (single_unwords _ fun w hw => ⟨fields_ne_nil hw, fun x hx => white_false.1 (fields_no_space hw x hx)⟩).1
  · intro h
    refine ⟨ts, e1, ?_⟩
    rw [e2]
    have : unwords (fields ('"' :: c ++ ['"'])) = '"' :: c ++ ['"'] := unwords_fieldsAux [] _ h (fun _ => by simp) (by rw [List.getLast?_append]; simp)
    show some (d.tokens ++ [unwords (fields ('"' :: c ++ ['"']))] ++ ts) = _
    rw [this]

/-- Every run of white space in a string has become one space: C94 is false. -/
theorem C94_false : ¬ C94_full := by
  intro h
  have hb : Blank " ".toList := by
    intro c hc
    have : c = ' ' := by simpa using hc
    subst this; decide
  have hk : Clean (fun _ => true) [] := clean_of (by decide +kernel)
  obtain ⟨ts, h1, h2⟩ := h (fun _ => true) [] "a  b".toList " ".toList [] (by intro p hp; simp at hp) (by decide +kernel) hb (by decide) hk
    (clean_of (by decide +kernel))
  exact absurd ((C94_iff (fun _ => true) [] "a  b".toList " ".toList [] (by intro p hp; simp at hp) (by decide +kernel) hb (by decide) hk
    (clean_of (by decide +kernel))).1 ⟨ts, h1, h2⟩).2 (fun h => h 1 (by decide) (by decide))

/-- A string that is delivered as it is, with doubled quotation marks and comment marks. -/
example : ∃ ts, tokensOfFile (fun _ => true) 1 "B".toList = some ts ∧
    tokensOfFile (fun _ => true) 1 "A \" a //b /* \"\"c\"\" \" B".toList = some (["A".toList] ++ ["\" a //b /* \"\"c\"\" \"".toList] ++ ts) := by
  refine (C94_iff (fun _ => true) [(.word "A".toList, " ".toList)] " a //b /* \"\"c\"\" ".toList " ".toList "B".toList ?_ (by decide +kernel) ?_ (by decide)
    (clean_of (by decide +kernel)) (clean_of (by decide +kernel))).2 ⟨by decide +kernel, ?_⟩
  · intro p hp
    obtain rfl : p = (.word "A".toList, " ".toList) := by simpa using hp
    refine ⟨⟨by decide, by decide⟩, ?_, by decide, fun ⟨c, h⟩ => by cases h⟩
    intro c hc
    have : c = ' ' := by simpa using hc
    subst this; decide
  · intro c hc
    have : c = ' ' := by simpa using hc
    subst this; decide
  · intro i hi he
    have hlt : i < 16 := (List.getElem?_eq_some_iff.1 hi).1
    have key : ∀ i < 16, " a //b /* \"\"c\"\" ".toList[i]? = some ' ' → " a //b /* \"\"c\"\" ".toList[i + 1]? ≠ some ' ' := by decide +kernel
    exact key i hlt hi he

end Verif.A2l.Props
