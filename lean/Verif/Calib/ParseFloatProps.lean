import Verif.Calib.ParseFloat
import Verif.Calib.Float64Claims

/-! # C88: the numbers of an A2L file are read as the nearest `float64` -/

namespace Verif.Calib.Spec
open Verif.Go

/-- `c` is the digit `d`. -/
def Digit (hex : Bool) (c : Char) (d : Nat) : Prop :=
  (str! "0123456789")[d]? = some c ∨
  (hex = true ∧ 10 ≤ d ∧ ((str! "abcdef")[d - 10]? = some c ∨ (str! "ABCDEF")[d - 10]? = some c))

/-- Digits, at least one, with single underscores between them. -/
inductive Digits (hex : Bool) : Str → List Nat → Prop
  | one {c d} (h : Digit hex c d) : Digits hex [c] [d]
  | cons {c d t ds} (h : Digit hex c d) (r : Digits hex t ds) : Digits hex (c :: t) (d :: ds)
  | sep {c d t ds} (h : Digit hex c d) (r : Digits hex t ds) : Digits hex (c :: '_' :: t) (d :: ds)

/-- Digits with a point: the digits before and behind it. -/
inductive Mantissa (hex : Bool) : Str → List Nat → List Nat → Prop
  | int {t ds} (h : Digits hex t ds) : Mantissa hex t ds []
  | intDot {t ds} (h : Digits hex t ds) : Mantissa hex (t ++ ['.']) ds []
  | both {t ds u fs} (h : Digits hex t ds) (h' : Digits hex u fs) : Mantissa hex (t ++ '.' :: u) ds fs
  | frac {u fs} (h : Digits hex u fs) : Mantissa hex ('.' :: u) [] fs

inductive Sign : Str → Bool → Prop
  | none : Sign [] false
  | plus : Sign ['+'] false
  | minus : Sign ['-'] true

/-- The number with the given digits. -/
def digitsNum (base : Nat) (ds : List Nat) : Nat := ds.foldl (fun n d => n * base + d) 0

/-- `E+5`, with the letter in lower or upper case. -/
inductive Exponent (lo up : Char) : Str → Int → Prop
  | mk {c s t neg ds} (hc : c = lo ∨ c = up) (hs : Sign s neg) (ht : Digits false t ds) :
      Exponent lo up (c :: (s ++ t)) (if neg then -(digitsNum 10 ds : Int) else digitsNum 10 ds)

/-- The numbers of the Go language with a sign: sign, base, digits before and behind the point, exponent. -/
inductive Number : Str → Bool → Bool → List Nat → List Nat → Int → Prop
  | dec {s m neg ds fs} (hs : Sign s neg) (hm : Mantissa false m ds fs) : Number (s ++ m) neg false ds fs 0
  | decExp {s m x neg ds fs e} (hs : Sign s neg) (hm : Mantissa false m ds fs) (hx : Exponent 'e' 'E' x e) :
      Number (s ++ (m ++ x)) neg false ds fs e
  | hex {s p m x neg ds fs e} (hs : Sign s neg) (hp : p = str! "0x" ∨ p = str! "0X" ∨ (p = str! "0x_" ∨ p = str! "0X_") ∧ ds ≠ [])
      (hm : Mantissa true m ds fs) (hx : Exponent 'p' 'P' x e) : Number (s ++ (p ++ (m ++ x))) neg true ds fs e

/-- An ordinary decimal number, as the ASAM standard has it: no underscores, not hexadecimal. -/
def Ordinary (t : Str) : Prop := '_' ∉ t ∧ ∃ neg ds fs e, Number t neg false ds fs e

/-- A power with an exponent of either sign. -/
def power (b : Rat) (e : Int) : Rat := if 0 ≤ e then b ^ e.toNat else 1 / b ^ (-e).toNat

/-- The number that is written. -/
def written (neg hex : Bool) (ds fs : List Nat) (e : Int) : Rat :=
  (if neg then -1 else 1) * ((digitsNum (if hex then 16 else 10) (ds ++ fs) : Rat) / (if hex then 16 else 10) ^ fs.length *
    power (if hex then 2 else 10) e)

/-- The exponent has at most five digits, or there are fewer than 2000 digits before it. -/
def Moderate (ds fs : List Nat) (e : Int) : Prop := e.natAbs < 100000 ∨ ds.length + fs.length < 2000

/-- `t` is `name`, in upper or lower case. -/
def SameLetters (t name : Str) : Prop := t.map Char.toLower = name

/-- The names of the special values. -/
inductive Named : Str → F64 → Prop
  | nan {t} (h : SameLetters t (str! "nan")) : Named t .nan
  | inf {s t neg} (hs : Sign s neg) (h : SameLetters t (str! "inf") ∨ SameLetters t (str! "infinity")) : Named (s ++ t) (.inf neg)

end Verif.Calib.Spec

namespace Verif.Calib.Props
open Verif.Go Spec F64 ParseFloat

seal F64.ofQuot

/-! ### Characters -/

theorem char_eq {c d : Char} (h : c.toNat = d.toNat) : c = d := Char.toNat_inj.1 h

theorem ofNat_toNat {n : Nat} (h : n < 128) : (Char.ofNat n).toNat = n := by
  have : ∀ n < 128, (Char.ofNat n).toNat = n := by decide
  exact this n h

theorem small_char {c : Char} (h : c.toNat < 128) : c = Char.ofNat c.toNat := char_eq (ofNat_toNat h).symm

theorem lower_toLower (c : Char) : lower c = c.toLower := by
  unfold lower Char.toLower
  by_cases h : 65 ≤ c.toNat ∧ c.toNat ≤ 90
  · have : ∀ n < 128, 65 ≤ n ∧ n ≤ 90 → Char.ofNat (n + 32) = (Char.ofNat n).toLower := by decide
    rw [if_pos h]
    have h2 := this c.toNat (by omega) h
    rw [← small_char (by omega)] at h2
    rw [h2]
    rfl
  · rw [if_neg h, dif_neg]
    intro h2
    apply h
    have h3 : c.val.toNat = c.toNat := rfl
    simp only [ge_iff_le, UInt32.le_iff_toNat_le] at h2
    have e1 : 'A'.val.toNat = 65 := rfl
    have e2 : 'Z'.val.toNat = 90 := rfl
    omega

/-- The digits of the specification are those of the code. -/
theorem digit_iff (hex : Bool) (c : Char) (d : Nat) : digit? hex c = some d ↔ Digit hex c d := by
  have key : ∀ hex : Bool, ∀ n < 128, ∀ d < 16, (digit? hex (Char.ofNat n) = some d ↔
      ((str! "0123456789")[d]? = some (Char.ofNat n) ∨
        (hex = true ∧ 10 ≤ d ∧ ((str! "abcdef")[d - 10]? = some (Char.ofNat n) ∨ (str! "ABCDEF")[d - 10]? = some (Char.ofNat n))))) := by
    decide +kernel
  constructor
  · intro h
    have hn : c.toNat < 128 ∧ d < 16 := by
      unfold digit? at h
      split at h
      · injection h with h; omega
      · split at h
        · injection h with h
          next h2 =>
          unfold lower at h h2
          split at h2
          · next h3 => rw [if_pos h3] at h; rw [ofNat_toNat (by omega)] at h h2; omega
          · next h3 => rw [if_neg h3] at h; omega
        · cases h
    have := (key hex c.toNat hn.1 d hn.2).1
    rw [← small_char hn.1] at this
    exact this h
  · intro h
    have hn : c.toNat < 128 ∧ d < 16 := by
      have hd : d < 16 := by
        rcases h with h | ⟨_, h1, h | h⟩
        · have := (List.getElem?_eq_some_iff.1 h).1; simp at this; omega
        · have := (List.getElem?_eq_some_iff.1 h).1; simp at this; omega
        · have := (List.getElem?_eq_some_iff.1 h).1; simp at this; omega
      refine ⟨?_, hd⟩
      have hall : ∀ c ∈ (str! "0123456789abcdefABCDEF"), c.toNat < 128 := by decide
      apply hall
      have e : (str! "0123456789abcdefABCDEF") = (str! "0123456789") ++ ((str! "abcdef") ++ (str! "ABCDEF")) := by decide
      rw [e]
      rcases h with h | ⟨_, _, h | h⟩
      · exact List.mem_append_left _ (List.mem_of_getElem? h)
      · exact List.mem_append_right _ (List.mem_append_left _ (List.mem_of_getElem? h))
      · exact List.mem_append_right _ (List.mem_append_right _ (List.mem_of_getElem? h))
    have := (key hex c.toNat hn.1 d hn.2).2
    rw [← small_char hn.1] at this
    exact this h

theorem digit_special {hex : Bool} {c : Char} {d : Nat} (h : digit? hex c = some d) : c ≠ '_' ∧ c ≠ '.' ∧ c ≠ '+' ∧ c ≠ '-' := by
  refine ⟨?_, ?_, ?_, ?_⟩ <;> (rintro rfl; cases hex <;> exact absurd h (by decide +revert))

/-! ### From the grammar to the result -/

def base (hex : Bool) : Nat := if hex then 16 else 10

theorem scan_digits {hex : Bool} {t : Str} {ds : List Nat} (h : Digits hex t ds) (r : Str) (mant frac : Nat) (dot seen : Bool) :
    scan hex (t ++ r) mant frac dot seen =
      scan hex r (ds.foldl (fun n d => n * base hex + d) mant) (if dot then frac + ds.length else frac) dot true := by
  induction h generalizing mant frac seen with
  | one hd =>
    have hd := (digit_iff _ _ _).2 hd
    obtain ⟨h1, h2, _⟩ := digit_special hd
    rw [List.singleton_append, scan, if_neg h1, if_neg h2, hd]
    rfl
  | cons hd _ ih =>
    have hd := (digit_iff _ _ _).2 hd
    obtain ⟨h1, h2, _⟩ := digit_special hd
    rw [List.cons_append, scan, if_neg h1, if_neg h2, hd]
    simp only [ih, List.foldl_cons, List.length_cons, base]
    cases dot <;> simp <;> congr 1 <;> omega
  | sep hd _ ih =>
    have hd := (digit_iff _ _ _).2 hd
    obtain ⟨h1, h2, _⟩ := digit_special hd
    rw [List.cons_append, scan, if_neg h1, if_neg h2, hd]
    dsimp only
    rw [List.cons_append, scan, if_pos rfl, ih]
    simp only [List.foldl_cons, List.length_cons, base]
    cases dot <;> simp <;> congr 1 <;> omega

/-- The text does not go on with a digit, a point or an underscore. -/
def Stops (hex : Bool) (r : Str) : Prop := ∀ c cs, r = c :: cs → c ≠ '_' ∧ c ≠ '.' ∧ digit? hex c = none

theorem scan_stops {hex : Bool} {r : Str} (h : Stops hex r) (mant frac : Nat) (dot seen : Bool) :
    scan hex r mant frac dot seen = (mant, frac, seen, r) := by
  cases r with
  | nil => rfl
  | cons c cs =>
    obtain ⟨h1, h2, h3⟩ := h c cs rfl
    rw [scan, if_neg h1, if_neg h2, h3]

theorem scan_mantissa {hex : Bool} {m : Str} {ds fs : List Nat} (h : Mantissa hex m ds fs) {r : Str} (hr : Stops hex r) :
    scan hex (m ++ r) 0 0 false false = (digitsNum (base hex) (ds ++ fs), fs.length, true, r) := by
  have dot : ∀ (r : Str) (mant : Nat) (seen : Bool), scan hex ('.' :: r) mant 0 false seen = scan hex r mant 0 true seen := by
    intro r mant seen
    rw [scan, if_neg (by decide), if_pos rfl]
    rfl
  cases h with
  | int h =>
    rw [scan_digits h, scan_stops hr]
    simp [digitsNum]
  | intDot h =>
    rw [List.append_assoc, scan_digits h, List.singleton_append]
    simp only [Bool.false_eq_true, if_false]
    rw [dot, scan_stops hr]
    simp [digitsNum]
  | both h h' =>
    rw [List.append_assoc, scan_digits h, List.cons_append]
    simp only [Bool.false_eq_true, if_false]
    rw [dot, scan_digits h', scan_stops hr]
    simp [digitsNum, List.foldl_append]
  | frac h =>
    rw [List.cons_append, dot, scan_digits h, scan_stops hr]
    simp [digitsNum]

/-- The exponent as it is read: digits are ignored from 10000 on. -/
def satNum (e : Nat) (ds : List Nat) : Nat := ds.foldl (fun e d => if e < 10000 then e * 10 + d else e) e

theorem expLoop_digits {t : Str} {ds : List Nat} (h : Digits false t ds) (e : Nat) : expLoop t e = (satNum e ds, []) := by
  induction h generalizing e with
  | one hd =>
    have hd := (digit_iff _ _ _).2 hd
    rw [expLoop, if_neg (digit_special hd).1, hd]
    rfl
  | cons hd _ ih =>
    have hd := (digit_iff _ _ _).2 hd
    rw [expLoop, if_neg (digit_special hd).1, hd]
    exact ih _
  | sep hd _ ih =>
    have hd := (digit_iff _ _ _).2 hd
    rw [expLoop, if_neg (digit_special hd).1, hd]
    dsimp only
    rw [expLoop, if_pos rfl]
    exact ih _

theorem fold_grows (ds : List Nat) (e : Nat) : e ≤ ds.foldl (fun n d => n * 10 + d) e := by
  induction ds generalizing e with
  | nil => exact Nat.le_refl _
  | cons d ds ih => exact Nat.le_trans (show e ≤ e * 10 + d by omega) (ih _)

theorem satNum_eq {ds : List Nat} {e : Nat} (h : ds.foldl (fun n d => n * 10 + d) e < 100000) :
    satNum e ds = ds.foldl (fun n d => n * 10 + d) e := by
  induction ds generalizing e with
  | nil => rfl
  | cons d ds ih =>
    rw [List.foldl_cons] at h
    have := fold_grows ds (e * 10 + d)
    unfold satNum
    rw [List.foldl_cons, List.foldl_cons, if_pos (by omega)]
    exact ih h

theorem digit_lt {hex : Bool} {c : Char} {d : Nat} (h : Digit hex c d) : d < base hex := by
  rcases h with h | ⟨rfl, _, h | h⟩
  · have := List.getElem?_eq_some_iff.1 h
    obtain ⟨this, _⟩ := this
    have : d < 10 := this
    cases hex
    · exact this
    · show d < 16; omega
  · obtain ⟨this, _⟩ := List.getElem?_eq_some_iff.1 h
    have : d - 10 < 6 := this
    show d < 16; omega
  · obtain ⟨this, _⟩ := List.getElem?_eq_some_iff.1 h
    have : d - 10 < 6 := this
    show d < 16; omega

theorem digits_lt {hex : Bool} {t : Str} {ds : List Nat} (h : Digits hex t ds) : ∀ d ∈ ds, d < base hex := by
  induction h with
  | one h => simp [digit_lt h]
  | cons h _ ih | sep h _ ih => intro d hd; rcases List.mem_cons.1 hd with rfl | hd; exact digit_lt h; exact ih d hd

theorem satNum_lt {ds : List Nat} (h : ∀ d ∈ ds, d < 10) {e : Nat} (he : e < 100000) : satNum e ds < 100000 := by
  induction ds generalizing e with
  | nil => exact he
  | cons d ds ih =>
    unfold satNum
    rw [List.foldl_cons]
    have := h d List.mem_cons_self
    exact ih (fun d hd => h d (List.mem_cons_of_mem _ hd)) (by split <;> omega)

/-- A long exponent is cut, but not below 10000. -/
theorem satNum_ge {ds : List Nat} {e : Nat} (h : 10000 ≤ ds.foldl (fun n d => n * 10 + d) e) : 10000 ≤ satNum e ds := by
  have keep : ∀ (ds : List Nat) (e : Nat), 10000 ≤ e → satNum e ds = e := by
    intro ds
    induction ds with
    | nil => intro e _; rfl
    | cons d ds ih =>
      intro e he
      unfold satNum
      rw [List.foldl_cons, if_neg (by omega)]
      exact ih e he
  induction ds generalizing e with
  | nil => exact h
  | cons d ds ih =>
    by_cases he : e < 10000
    · unfold satNum
      rw [List.foldl_cons, if_pos he]
      exact ih h
    · rw [keep _ _ (by omega)]
      omega

theorem digits_head {hex : Bool} {t : Str} {ds : List Nat} (h : Digits hex t ds) : ∃ c d cs ds', t = c :: cs ∧ ds = d :: ds' ∧ digit? hex c = some d := by
  cases h with
  | one hd => exact ⟨_, _, _, _, rfl, rfl, (digit_iff _ _ _).2 hd⟩
  | cons hd _ => exact ⟨_, _, _, _, rfl, rfl, (digit_iff _ _ _).2 hd⟩
  | sep hd _ => exact ⟨_, _, _, _, rfl, rfl, (digit_iff _ _ _).2 hd⟩

theorem sign_append {s : Str} {neg : Bool} (h : Sign s neg) {c : Char} {cs : Str} (h1 : c ≠ '+') (h2 : c ≠ '-') :
    sign (s ++ c :: cs) = (neg, c :: cs) := by
  cases h with
  | plus => rfl
  | minus => rfl
  | none =>
    simp only [List.nil_append]
    unfold sign
    split
    · next he => cases he; exact absurd rfl h1
    · next he => cases he; exact absurd rfl h2
    · rfl

theorem exponent_read {lo up : Char} {x : Str} {e : Int} (h : Exponent lo up x e) (he : e.natAbs < 100000) :
    ∃ c cs, x = c :: cs ∧ (c = lo ∨ c = up) ∧ exponent cs = some e := by
  cases h with
  | @mk c s t neg ds hc hs ht =>
    refine ⟨_, _, rfl, hc, ?_⟩
    obtain ⟨c', d', cs, ds', rfl, rfl, hd⟩ := digits_head ht
    have hsp := digit_special hd
    unfold exponent
    rw [sign_append hs hsp.2.2.1 hsp.2.2.2]
    have hlt : digitsNum 10 (d' :: ds') < 100000 := by cases neg <;> simp at he <;> omega
    simp only [hd, Option.isSome_some, if_true, expLoop_digits ht, satNum_eq (e := 0) hlt]
    rfl

theorem exponent_some {lo up : Char} {x : Str} {e : Int} (h : Exponent lo up x e) :
    ∃ c cs e', x = c :: cs ∧ (c = lo ∨ c = up) ∧ exponent cs = some e' ∧ (10000 ≤ e → 10000 ≤ e') ∧ (e ≤ -10000 → e' ≤ -10000) ∧ e'.natAbs < 100000 := by
  cases h with
  | @mk c s t neg ds hc hs ht =>
    have hge : 10000 ≤ digitsNum 10 ds → 10000 ≤ satNum 0 ds := satNum_ge
    refine ⟨_, _, (if neg then -((satNum 0 ds : Nat) : Int) else (satNum 0 ds : Nat)), rfl, hc, ?_,
      fun h => by cases neg <;> simp at h ⊢ <;> omega, fun h => by cases neg <;> simp at h ⊢ <;> omega, by
        have := satNum_lt (digits_lt ht) (e := 0) (by decide)
        cases neg <;> simp <;> omega⟩
    obtain ⟨c', d', cs, ds', rfl, rfl, hd⟩ := digits_head ht
    have hsp := digit_special hd
    unfold exponent
    rw [sign_append hs hsp.2.2.1 hsp.2.2.2]
    simp only [hd, Option.isSome_some, if_true, expLoop_digits ht]

theorem digit_mono {c : Char} {d : Nat} (hex : Bool) (h : digit? false c = some d) : digit? hex c = some d := by
  have := (digit_iff _ _ _).1 h
  rw [digit_iff]
  rcases this with h | h
  · exact Or.inl h
  · cases h.1

theorem under_digits {h hex : Bool} (hh : h = true → hex = true) {t : Str} {ds : List Nat} (hd : Digits h t ds) (saw : Saw) (r : Str) :
    underscoreLoop hex saw (t ++ r) = underscoreLoop hex .digit r := by
  have up : ∀ {c d}, Digit h c d → digit? hex c = some d := by
    intro c d hd
    have hd := (digit_iff _ _ _).2 hd
    cases h with
    | false => exact digit_mono hex hd
    | true => rw [hh rfl]; exact hd
  induction hd generalizing saw with
  | one hd => rw [List.singleton_append, underscoreLoop, up hd, Option.isSome_some, if_pos rfl]
  | cons hd _ ih => rw [List.cons_append, underscoreLoop, up hd, Option.isSome_some, if_pos rfl, ih]
  | sep hd _ ih =>
    rw [List.cons_append, underscoreLoop, up hd, Option.isSome_some, if_pos rfl, List.cons_append, underscoreLoop, if_neg (by cases hex <;> decide), if_pos rfl,
      if_pos rfl, ih]

theorem under_other {hex : Bool} {saw : Saw} (hs : saw ≠ .underscore) {c : Char} (h1 : digit? hex c = none) (h2 : c ≠ '_') (r : Str) :
    underscoreLoop hex saw (c :: r) = underscoreLoop hex .other r := by
  rw [underscoreLoop, h1, if_neg (by simp), if_neg h2, if_neg hs]

theorem under_mantissa {hex : Bool} {m : Str} {ds fs : List Nat} (h : Mantissa hex m ds fs) (saw : Saw) (hs : saw ≠ .underscore ∨ ds ≠ []) :
    ∃ saw', saw' ≠ .underscore ∧ ∀ r, underscoreLoop hex saw (m ++ r) = underscoreLoop hex saw' r := by
  have hdot : digit? hex '.' = none := by cases hex <;> decide
  cases h with
  | int h => exact ⟨.digit, by decide, fun r => under_digits (fun h => h) h _ _⟩
  | intDot h =>
    refine ⟨.other, by decide, fun r => ?_⟩
    rw [List.append_assoc, under_digits (fun h => h) h, List.singleton_append, under_other (by decide) hdot (by decide)]
  | both h h' =>
    refine ⟨.digit, by decide, fun r => ?_⟩
    rw [List.append_assoc, under_digits (fun h => h) h, List.cons_append, under_other (by decide) hdot (by decide), under_digits (fun h => h) h']
  | frac h =>
    refine ⟨.digit, by decide, fun r => ?_⟩
    rw [List.cons_append, under_other (hs.resolve_right (by simp)) hdot (by decide), under_digits (fun h => h) h]

theorem under_exponent {hex : Bool} {lo up : Char} (hl : digit? hex lo = none ∧ lo ≠ '_') (hu : digit? hex up = none ∧ up ≠ '_')
    {x : Str} {e : Int} (h : Exponent lo up x e) {saw : Saw} (hs : saw ≠ .underscore) : underscoreLoop hex saw x = true := by
  cases h with
  | @mk c s t neg ds hc hsg ht =>
    have hc' : digit? hex c = none ∧ c ≠ '_' := by rcases hc with rfl | rfl <;> assumption
    rw [under_other hs hc'.1 hc'.2]
    have key : ∀ saw, underscoreLoop hex saw t = true := by
      intro saw
      have := under_digits (hex := hex) (fun h => by cases h) ht saw []
      rw [List.append_nil] at this
      rw [this]
      rfl
    cases hsg with
    | none => exact key _
    | plus => rw [List.singleton_append, under_other (by decide) (by cases hex <;> decide) (by decide)]; exact key _
    | minus => rw [List.singleton_append, under_other (by decide) (by cases hex <;> decide) (by decide)]; exact key _

theorem mantissa_head {hex : Bool} {m : Str} {ds fs : List Nat} (h : Mantissa hex m ds fs) :
    ∃ c cs, m = c :: cs ∧ (c = '.' ∨ (digit? hex c).isSome = true) := by
  cases h with
  | int h => obtain ⟨c, d, cs, _, rfl, _, hd⟩ := digits_head h; exact ⟨c, cs, rfl, Or.inr (by rw [hd]; rfl)⟩
  | intDot h => obtain ⟨c, d, cs, _, rfl, _, hd⟩ := digits_head h; exact ⟨c, _, rfl, Or.inr (by rw [hd]; rfl)⟩
  | both h h' => obtain ⟨c, d, cs, _, rfl, _, hd⟩ := digits_head h; exact ⟨c, _, rfl, Or.inr (by rw [hd]; rfl)⟩
  | frac h => exact ⟨_, _, rfl, Or.inl rfl⟩

theorem digits_chars {hex : Bool} {t : Str} {ds : List Nat} (h : Digits hex t ds) : ∀ c ∈ t, c = '_' ∨ (digit? hex c).isSome = true := by
  induction h with
  | one hd => intro c hc; rw [List.mem_singleton] at hc; rw [hc, (digit_iff _ _ _).2 hd]; exact Or.inr rfl
  | cons hd _ ih =>
    intro c hc
    rcases List.mem_cons.1 hc with rfl | hc
    · rw [(digit_iff _ _ _).2 hd]; exact Or.inr rfl
    · exact ih c hc
  | sep hd _ ih =>
    intro c hc
    rcases List.mem_cons.1 hc with rfl | hc
    · rw [(digit_iff _ _ _).2 hd]; exact Or.inr rfl
    · rcases List.mem_cons.1 hc with rfl | hc
      · exact Or.inl rfl
      · exact ih c hc

theorem mantissa_chars {hex : Bool} {m : Str} {ds fs : List Nat} (h : Mantissa hex m ds fs) :
    ∀ c ∈ m, c = '.' ∨ c = '_' ∨ (digit? hex c).isSome = true := by
  intro c hc
  cases h with
  | int h => exact Or.inr (digits_chars h c hc)
  | intDot h =>
    rcases List.mem_append.1 hc with hc | hc
    · exact Or.inr (digits_chars h c hc)
    · exact Or.inl (by simpa using hc)
  | both h h' =>
    rcases List.mem_append.1 hc with hc | hc
    · exact Or.inr (digits_chars h c hc)
    · rcases List.mem_cons.1 hc with rfl | hc
      · exact Or.inl rfl
      · exact Or.inr (digits_chars h' c hc)
  | frac h =>
    rcases List.mem_cons.1 hc with rfl | hc
    · exact Or.inl rfl
    · exact Or.inr (digits_chars h c hc)

theorem digit_not_x {c : Char} (h : (digit? false c).isSome = true) : lower c ≠ 'x' ∧ lower c ≠ 'n' ∧ lower c ≠ 'i' := by
  obtain ⟨d, hd⟩ := Option.isSome_iff_exists.1 h
  rw [digit_iff] at hd
  rcases hd with hd | hd
  · have : ∀ c ∈ (str! "0123456789"), lower c ≠ 'x' ∧ lower c ≠ 'n' ∧ lower c ≠ 'i' := by decide
    exact this c (List.mem_of_getElem? hd)
  · cases hd.1

/-- A decimal number is not taken for a hexadecimal one. -/
theorem dec_not_hex {m : Str} {ds fs : List Nat} (h : Mantissa false m ds fs) (r : Str) (hr : ∀ c cs, r = c :: cs → lower c ≠ 'x') :
    isHex (m ++ r) = false := by
  obtain ⟨c, cs, rfl, _⟩ := mantissa_head h
  have hch := mantissa_chars h
  cases cs with
  | nil =>
    match r, hr with
    | [], _ => rfl
    | [_], _ => rfl
    | d :: e :: rs, hr =>
      show (decide (c = '0') && decide (lower d = 'x')) = false
      rw [decide_eq_false (hr d _ rfl), Bool.and_false]
  | cons d cs =>
    have hd : lower d ≠ 'x' := by
      rcases hch d (by simp) with rfl | rfl | h
      · decide
      · decide
      · exact (digit_not_x h).1
    show isHex (c :: d :: (cs ++ r)) = false
    cases cs ++ r with
    | nil => rfl
    | cons e rs =>
      show (decide (c = '0') && decide (lower d = 'x')) = false
      rw [decide_eq_false hd, Bool.and_false]

theorem letter_stops {hex : Bool} {c : Char} {cs : Str} (h : c ≠ '_' ∧ c ≠ '.' ∧ digit? hex c = none) : Stops hex (c :: cs) := by
  intro c' cs' he
  cases he
  exact h

/-- The text of a number behind the sign is read; the exponent is exact if it is below 100000, otherwise it is large. -/
theorem number_read {t : Str} {neg hex : Bool} {ds fs : List Nat} {e : Int} (h : Number t neg hex ds fs e) :
    ∃ c r e', sign t = (neg, c :: r) ∧ (c = '.' ∨ (digit? false c).isSome = true) ∧
      readFloat (c :: r) = some (digitsNum (base hex) (ds ++ fs), fs.length, e', hex) ∧ (e.natAbs < 100000 → e' = e) ∧
      (10000 ≤ e → 10000 ≤ e') ∧ (e ≤ -10000 → e' ≤ -10000) ∧ e'.natAbs < 100000 := by
  cases h with
  | @dec s m _ _ _ hs hm =>
    obtain ⟨c, cs, rfl, hc⟩ := mantissa_head hm
    have hc1 : c ≠ '+' ∧ c ≠ '-' := by
      rcases hc with rfl | h
      · decide
      · obtain ⟨d, hd⟩ := Option.isSome_iff_exists.1 h
        exact (digit_special hd).2.2
    refine ⟨c, cs, 0, sign_append hs hc1.1 hc1.2, hc, ?_, fun _ => rfl, id, id, by decide⟩
    have hx := dec_not_hex hm [] (fun c cs h => by cases h)
    rw [List.append_nil] at hx
    have hsc := scan_mantissa hm (r := []) (fun c cs h => by cases h)
    rw [List.append_nil] at hsc
    obtain ⟨saw, hsaw, hu⟩ := under_mantissa hm .start (Or.inl (by decide))
    have hu := hu []
    rw [List.append_nil] at hu
    have huo : underscoreOK (c :: cs) = true := by
      unfold underscoreOK
      rw [hx, if_neg (by decide), hu]
      simp [underscoreLoop, hsaw]
    unfold readFloat
    simp only [hx, Bool.false_eq_true, if_false, hsc, Bool.not_true, huo, if_true]
  | @decExp s m x _ _ _ e hs hm hx =>
    obtain ⟨c, cs, rfl, hc⟩ := mantissa_head hm
    have hc1 : c ≠ '+' ∧ c ≠ '-' := by
      rcases hc with rfl | h
      · decide
      · obtain ⟨d, hd⟩ := Option.isSome_iff_exists.1 h
        exact (digit_special hd).2.2
    obtain ⟨l, xs, e', rfl, hl, he', hlong⟩ := exponent_some hx
    refine ⟨c, cs ++ l :: xs, e', sign_append hs hc1.1 hc1.2, hc, ?_, fun he => ?_, hlong⟩
    · have hlow : lower l = 'e' ∧ l ≠ '_' ∧ l ≠ '.' ∧ digit? false l = none := by rcases hl with rfl | rfl <;> decide
      have hxx := dec_not_hex hm (l :: xs) (fun c cs h => by cases h; rw [hlow.1]; decide)
      have hsc := scan_mantissa hm (letter_stops (cs := xs) hlow.2)
      obtain ⟨saw, hsaw, hu⟩ := under_mantissa hm .start (Or.inl (by decide))
      rw [List.cons_append] at hxx hsc
      have huo : underscoreOK (c :: (cs ++ l :: xs)) = true := by
        unfold underscoreOK
        rw [hxx, if_neg (by decide), ← List.cons_append, hu]
        exact under_exponent (by decide) (by decide) hx hsaw
      unfold readFloat
      simp only [hxx, Bool.false_eq_true, if_false, hsc, Bool.not_true, hlow.1, if_true, he', Option.bind_some, huo]
    · obtain ⟨_, _, heq, _, h2⟩ := exponent_read hx he
      cases heq
      rw [h2] at he'
      exact (Option.some.inj he').symm
  | @hex s p m x _ _ _ e hs hp hm hx =>
    obtain ⟨l, xs, e', rfl, hl, he', hlong⟩ := exponent_some hx
    obtain ⟨c, cs, hmc, _⟩ := mantissa_head hm
    have hp' : ∃ u q, p = '0' :: u :: q ∧ lower u = 'x' ∧ (q = [] ∨ q = ['_'] ∧ ds ≠ []) := by
      rcases hp with rfl | rfl | ⟨rfl | rfl, h⟩
      · exact ⟨'x', [], rfl, by decide, Or.inl rfl⟩
      · exact ⟨'X', [], rfl, by decide, Or.inl rfl⟩
      · exact ⟨'x', ['_'], rfl, by decide, Or.inr ⟨rfl, h⟩⟩
      · exact ⟨'X', ['_'], rfl, by decide, Or.inr ⟨rfl, h⟩⟩
    obtain ⟨u, q, rfl, hu, hq⟩ := hp'
    refine ⟨'0', u :: (q ++ (m ++ l :: xs)), e', sign_append hs (by decide) (by decide), Or.inr (by decide), ?_, fun he => ?_, hlong⟩
    · have hlow : lower l = 'p' ∧ l ≠ '_' ∧ l ≠ '.' ∧ digit? true l = none := by rcases hl with rfl | rfl <;> decide
      have hxx : isHex ('0' :: u :: (q ++ (m ++ l :: xs))) = true := by
        rcases hq with rfl | ⟨rfl, _⟩
        · rw [hmc]; show (decide (('0' : Char) = '0') && decide (lower u = 'x')) = true; simp [hu]
        · show (decide (('0' : Char) = '0') && decide (lower u = 'x')) = true; simp [hu]
      have hsc : scan true (q ++ (m ++ l :: xs)) 0 0 false false = (digitsNum (base true) (ds ++ fs), fs.length, true, l :: xs) := by
        rcases hq with rfl | ⟨rfl, _⟩
        · exact scan_mantissa hm (letter_stops (cs := xs) hlow.2)
        · rw [List.singleton_append, scan, if_pos rfl]
          exact scan_mantissa hm (letter_stops (cs := xs) hlow.2)
      have huo : underscoreOK ('0' :: u :: (q ++ (m ++ l :: xs))) = true := by
        unfold underscoreOK
        rw [hxx, if_pos rfl]
        show underscoreLoop true .digit (q ++ (m ++ l :: xs)) = true
        rcases hq with rfl | ⟨rfl, hne⟩
        · obtain ⟨saw, hsaw, hu⟩ := under_mantissa hm .digit (Or.inl (by decide))
          rw [List.nil_append, hu]
          exact under_exponent (by decide) (by decide) hx hsaw
        · obtain ⟨saw, hsaw, hu⟩ := under_mantissa hm .underscore (Or.inr hne)
          rw [List.singleton_append, underscoreLoop, if_neg (by decide), if_pos rfl, if_pos rfl, hu]
          exact under_exponent (by decide) (by decide) hx hsaw
      unfold readFloat
      simp only [hxx, if_true, List.drop_succ_cons, List.drop_zero, hsc, Bool.not_true, Bool.false_eq_true, if_false, hlow.1, he', Option.bind_some, huo]
    · obtain ⟨_, _, heq, _, h2⟩ := exponent_read hx he
      cases heq
      rw [h2] at he'
      exact (Option.some.inj he').symm

theorem special_none {t : Str} {neg : Bool} {c : Char} {r : Str} (hs : sign t = (neg, c :: r)) (hc : c = '.' ∨ (digit? false c).isSome = true) :
    special t = none := by
  have hl : lower c ≠ 'n' ∧ lower c ≠ 'i' := by
    rcases hc with rfl | h
    · decide
    · exact (digit_not_x h).2
  unfold special
  rw [if_neg, hs]
  · dsimp only
    rw [if_neg]
    rintro (h | h)
    · injection h with h _; exact hl.2 h
    · injection h with h _; exact hl.2 h
  · intro h
    cases t with
    | nil => cases h
    | cons d ts =>
      simp only [List.map_cons, List.cons.injEq] at h
      unfold sign at hs
      split at hs
      · next he => cases he; exact absurd h.1 (by decide)
      · next he => cases he; exact absurd h.1 (by decide)
      · injection hs with _ hs
        cases hs
        exact hl.1 h.1

theorem base_pos (hex : Bool) : 0 < base hex := by cases hex <;> decide

theorem cast_pow' (b n : Nat) : ((b ^ n : Nat) : Rat) = (b : Rat) ^ n := Rat.natCast_pow _ _

theorem written_units (neg hex : Bool) (ds fs : List Nat) (e : Int) (U : Nat) :
    written neg hex ds fs e * ((((if hex then 16 else 10) ^ fs.length * (if hex then 2 else 10) ^ (-e).toNat : Nat) : Rat) * (U : Rat)) =
      (signed neg (digitsNum (base hex) (ds ++ fs) * (if hex then 2 else 10) ^ e.toNat * U) : Int) := by
  have hb : ∀ n : Nat, (0 : Nat) < (if hex then 2 else 10) ^ n := fun n => Nat.pow_pos (by cases hex <;> decide)
  have hB : ∀ n : Nat, (0 : Nat) < (base hex) ^ n := fun n => Nat.pow_pos (base_pos hex)
  unfold written power
  have e1 : (if hex = true then (16 : Nat) else 10) = base hex := rfl
  rw [e1]
  have e2 : ((if hex = true then (16 : Rat) else 10)) = (base hex : Nat) := by cases hex <;> rfl
  have e3 : ((if hex = true then (2 : Rat) else 10)) = ((if hex then 2 else 10 : Nat) : Rat) := by cases hex <;> rfl
  rw [e2, e3]
  have hsg : ∀ n : Nat, ((signed neg (n * U) : Int) : Rat) = (if neg then -1 else 1) * (n : Rat) * U := by
    intro n
    cases neg
    · show (((n * U : Nat) : Int) : Rat) = _
      rw [int_nat, Rat.natCast_mul]
      simp
    · show ((-((n * U : Nat) : Int) : Int) : Rat) = _
      rw [Rat.intCast_neg, int_nat, Rat.natCast_mul]
      simp only [if_true]
      generalize (n : Rat) = a
      generalize (U : Rat) = b
      grind
  rw [hsg]
  generalize digitsNum (base hex) (ds ++ fs) = M
  have hc1 : ((base hex ^ fs.length : Nat) : Rat) ≠ 0 := by
    intro h
    have h : base hex ^ fs.length = 0 := by exact_mod_cast h
    have := hB fs.length
    omega
  have hQ : ∀ k : Nat, (((if hex then 2 else 10 : Nat) : Rat)) ^ k ≠ 0 := by
    intro k h
    rw [← cast_pow'] at h
    have h : (if hex then 2 else 10) ^ k = 0 := by exact_mod_cast h
    have := hb k
    omega
  rw [Rat.natCast_mul, Rat.natCast_mul, cast_pow', cast_pow', cast_pow']
  rw [cast_pow'] at hc1
  generalize ((base hex : Nat) : Rat) ^ fs.length = D at hc1
  generalize (((if hex then 2 else 10 : Nat) : Rat)) = Q at hQ
  generalize (U : Rat) = U'
  generalize (if neg then (-1 : Rat) else 1) = S
  generalize (M : Rat) = M'
  split
  · rw [show (-e).toNat = 0 by omega, Rat.pow_zero]
    generalize Q ^ e.toNat = P
    grind
  · rw [show e.toNat = 0 by omega, Rat.pow_zero]
    have := hQ (-e).toNat
    generalize Q ^ (-e).toNat = P at this
    grind

theorem value_rounds (neg hex : Bool) (ds fs : List Nat) (e : Int) :
    Rounds (written neg hex ds fs e) (value neg (digitsNum (base hex) (ds ++ fs)) fs.length e hex) := by
  have hU : (((2 : Nat) ^ 1074 : Nat) : Rat) = 2 ^ 1074 := by rw [Rat.natCast_pow]; rfl
  have h := written_units neg hex ds fs e (2 ^ 1074)
  rw [hU] at h
  exact ofQuot_rounds neg _ (Nat.mul_pos (Nat.pow_pos (by cases hex <;> decide)) (Nat.pow_pos (by cases hex <;> decide))) h

theorem value_form (neg : Bool) (mant frac : Nat) (e : Int) (hex : Bool) :
    (∃ n, value neg mant frac e hex = .fin neg n) ∨ value neg mant frac e hex = .inf neg := by
  unfold value
  dsimp only
  rcases ofQuot_cases neg (mant * (if hex then 2 else 10) ^ e.toNat * 2 ^ 1074) ((if hex then 16 else 10) ^ frac * (if hex then 2 else 10) ^ (-e).toNat) with
    ⟨_, h⟩ | ⟨_, h⟩
  · exact Or.inl ⟨_, h⟩
  · exact Or.inr h

theorem parse_with (v : Bool → Nat → Nat → Int → Bool → F64) {t : Str} {neg : Bool} {c : Char} {r : Str} {m f : Nat} {e : Int} {hex : Bool} (h1 : sign t = (neg, c :: r))
    (h2 : c = '.' ∨ (digit? false c).isSome = true) (h3 : readFloat (c :: r) = some (m, f, e, hex))
    (hv : (∃ n, v neg m f e hex = .fin neg n) ∨ v neg m f e hex = .inf neg) :
    (∃ n, parseWith v t = .ok (.fin neg n) ∧ v neg m f e hex = .fin neg n) ∨ (parseWith v t = .rangeErr neg ∧ v neg m f e hex = .inf neg) := by
  unfold parseWith
  rw [special_none h1 h2, h1]
  dsimp only
  simp only [h3]
  rcases hv with ⟨n, h⟩ | h
  · exact Or.inl ⟨n, by rw [h], h⟩
  · exact Or.inr ⟨by rw [h], h⟩

theorem parse_value {t : Str} {neg : Bool} {c : Char} {r : Str} {m f : Nat} {e : Int} {hex : Bool} (h1 : sign t = (neg, c :: r))
    (h2 : c = '.' ∨ (digit? false c).isSome = true) (h3 : readFloat (c :: r) = some (m, f, e, hex)) :
    (∃ n, parseFloat t = .ok (.fin neg n) ∧ value neg m f e hex = .fin neg n) ∨ (parseFloat t = .rangeErr neg ∧ value neg m f e hex = .inf neg) :=
  parse_with value h1 h2 h3 (value_form neg m f e hex)

theorem rnd_small {p q : Nat} (h : 2 * p < q) : rnd p q = 0 := by
  have h0 : p / q = 0 := Nat.div_eq_of_lt (by omega)
  have hl : (0 : Nat).log2 + 1 - 53 = 0 := by decide
  unfold rnd
  rw [h0, hl]
  simp only [Nat.pow_zero, Nat.mul_one, h0, Nat.mod_eq_of_lt (show p < q by omega)]
  rw [if_neg]
  simp
  omega

theorem digitsNum_lt {b : Nat} {ds : List Nat} (h : ∀ d ∈ ds, d < b) : digitsNum b ds < b ^ ds.length := by
  have : ∀ (ds : List Nat), (∀ d ∈ ds, d < b) → ∀ n k, n < b ^ k → ds.foldl (fun n d => n * b + d) n < b ^ (k + ds.length) := by
    intro ds
    induction ds with
    | nil => intro _ n k h; exact h
    | cons d ds ih =>
      intro hd n k hn
      have h1 : n * b + d < b ^ (k + 1) := by
        rw [Nat.pow_succ]
        have h2 := hd d List.mem_cons_self
        have h3 : (n + 1) * b ≤ b ^ k * b := Nat.mul_le_mul_right _ hn
        rw [Nat.succ_mul] at h3
        omega
      have := ih (fun d h => hd d (List.mem_cons_of_mem _ h)) _ _ h1
      rwa [List.foldl_cons, List.length_cons, show k + (ds.length + 1) = k + 1 + ds.length by omega]
  have := this ds h 0 0 (by simp)
  rwa [Nat.zero_add] at this

theorem mantissa_lt {hex : Bool} {t : Str} {ds fs : List Nat} (h : Mantissa hex t ds fs) : ∀ d ∈ ds ++ fs, d < base hex := by
  intro d hd
  cases h with
  | int h | intDot h => rw [List.append_nil] at hd; exact digits_lt h d hd
  | both h h' => rcases List.mem_append.1 hd with hd | hd; exact digits_lt h d hd; exact digits_lt h' d hd
  | frac h => exact digits_lt h d hd

theorem number_digits {t : Str} {neg hex : Bool} {ds fs : List Nat} {e : Int} (h : Number t neg hex ds fs e) : ∀ d ∈ ds ++ fs, d < base hex := by
  cases h with
  | dec _ hm => exact mantissa_lt hm
  | decExp _ hm _ => exact mantissa_lt hm
  | hex _ _ hm _ => exact mantissa_lt hm

/-- The base of the digits, as a power of two and otherwise at most as large as the base of the exponent. -/
theorem base_le (hex : Bool) : base hex ^ 2000 ≤ (if hex then 2 else 10) ^ 8000 := by cases hex <;> decide +kernel

theorem expBase_two (hex : Bool) (n : Nat) : 2 ^ n ≤ (if hex then 2 else 10) ^ n := Nat.pow_le_pow_left (by cases hex <;> decide) n

/-- With fewer than 2000 digits and a large exponent the number is too large. -/
theorem value_huge (neg : Bool) {m f : Nat} {e : Int} (hex : Bool) (hm : 0 < m) (hf : f < 2000) (he : 10000 ≤ e) : value neg m f e hex = .inf neg := by
  unfold value
  dsimp only
  have hq : 0 < (if hex then 16 else 10) ^ f * (if hex then 2 else 10) ^ (-e).toNat :=
    Nat.mul_pos (Nat.pow_pos (by cases hex <;> decide)) (Nat.pow_pos (by cases hex <;> decide))
  rcases ofQuot_cases neg (m * (if hex then 2 else 10) ^ e.toNat * 2 ^ 1074) ((if hex then 16 else 10) ^ f * (if hex then 2 else 10) ^ (-e).toNat) with
    ⟨h, _⟩ | ⟨_, h⟩
  · exfalso
    rw [rnd_lt _ hq, show (-e).toNat = 0 by omega, Nat.pow_zero, Nat.mul_one] at h
    have h1 : (if hex then 16 else 10) ^ f ≤ base hex ^ 2000 := Nat.pow_le_pow_right (base_pos hex) (by omega)
    have h2 := base_le hex
    have h3 := expBase_two hex 2000
    have h4 : (if hex then 2 else 10) ^ 10000 ≤ (if hex then 2 else 10) ^ e.toNat := Nat.pow_le_pow_right (by cases hex <;> decide) (by omega)
    have h5 : (if hex then 2 else 10) ^ 10000 = (if hex then 2 else 10) ^ 8000 * (if hex then 2 else 10) ^ 2000 := by rw [← Nat.pow_add]
    have h6 : (2 ^ 54 - 1) * 2 ^ 2044 ≤ 2 ^ 2000 * 2 ^ 1074 := by decide +kernel
    generalize (2 ^ 54 - 1) * 2 ^ 2044 = T at h h6
    generalize (2 : Nat) ^ 1074 = U at h h6
    have h7 : T * (if hex then 16 else 10) ^ f ≤ m * (if hex then 2 else 10) ^ e.toNat * U :=
      calc T * (if hex then 16 else 10) ^ f ≤ (2 ^ 2000 * U) * (if hex then 2 else 10) ^ 8000 := Nat.mul_le_mul h6 (Nat.le_trans h1 h2)
        _ ≤ ((if hex then 2 else 10) ^ 2000 * U) * (if hex then 2 else 10) ^ 8000 := Nat.mul_le_mul_right _ (Nat.mul_le_mul_right _ h3)
        _ = (if hex then 2 else 10) ^ 10000 * U := by rw [h5, Nat.mul_comm (_ * U), Nat.mul_assoc]
        _ ≤ m * (if hex then 2 else 10) ^ e.toNat * U := Nat.mul_le_mul_right _ (Nat.le_trans h4 (Nat.le_mul_of_pos_left _ hm))
    exact absurd h (Nat.not_lt.2 h7)
  · exact h

/-- With fewer than 2000 digits and a large negative exponent the number is nearest to 0. -/
theorem value_tiny (neg : Bool) {m f : Nat} {e : Int} (hex : Bool) (hm : m < base hex ^ 2000) (he : e ≤ -10000) : value neg m f e hex = .fin neg 0 := by
  unfold value
  dsimp only
  have hr : rnd (m * (if hex then 2 else 10) ^ e.toNat * 2 ^ 1074) ((if hex then 16 else 10) ^ f * (if hex then 2 else 10) ^ (-e).toNat) = 0 := by
    apply rnd_small
    rw [show e.toNat = 0 by omega, Nat.pow_zero, Nat.mul_one]
    have h1 : 0 < (if hex then 16 else 10) ^ f := Nat.pow_pos (by cases hex <;> decide)
    have h2 := base_le hex
    have h3 := expBase_two hex 2000
    have h4 : (if hex then 2 else 10) ^ 10000 ≤ (if hex then 2 else 10) ^ (-e).toNat := Nat.pow_le_pow_right (by cases hex <;> decide) (by omega)
    have h5 : (if hex then 2 else 10) ^ 10000 = (if hex then 2 else 10) ^ 8000 * (if hex then 2 else 10) ^ 2000 := by rw [← Nat.pow_add]
    have h6 : 2 * 2 ^ 1074 ≤ 2 ^ 2000 := by decide +kernel
    have hU : 0 < 2 * 2 ^ 1074 := by decide +kernel
    calc 2 * (m * 2 ^ 1074) = m * (2 * 2 ^ 1074) := by simp only [Nat.mul_left_comm]
      _ < base hex ^ 2000 * (2 * 2 ^ 1074) := Nat.mul_lt_mul_of_pos_right hm hU
      _ ≤ (if hex then 2 else 10) ^ 8000 * (if hex then 2 else 10) ^ 2000 := Nat.mul_le_mul h2 (Nat.le_trans h6 h3)
      _ ≤ (if hex then 2 else 10) ^ (-e).toNat := by rw [← h5]; exact h4
      _ ≤ _ := Nat.le_mul_of_pos_left _ h1
  rcases ofQuot_cases neg (m * (if hex then 2 else 10) ^ e.toNat * 2 ^ 1074) ((if hex then 16 else 10) ^ f * (if hex then 2 else 10) ^ (-e).toNat) with
    ⟨_, h⟩ | ⟨h, _⟩
  · rw [h, hr]
  · rw [hr] at h; exact absurd (Nat.pow_pos (by decide)) h

theorem value_zero (neg : Bool) (f : Nat) (e : Int) (hex : Bool) : value neg 0 f e hex = .fin neg 0 := by
  unfold value
  dsimp only
  rw [Nat.zero_mul, Nat.zero_mul]
  exact ofQuot_zero _ _

/-- The cut of the exponent makes no difference. -/
theorem value_same (neg : Bool) {m f : Nat} {e e' : Int} (hex : Bool) (hm : m < base hex ^ 2000) (hf : f < 2000)
    (h : 10000 ≤ e ∧ 10000 ≤ e' ∨ e ≤ -10000 ∧ e' ≤ -10000) : value neg m f e hex = value neg m f e' hex := by
  rcases h with ⟨h1, h2⟩ | ⟨h1, h2⟩
  · rcases Nat.eq_zero_or_pos m with rfl | h0
    · rw [value_zero, value_zero]
    · rw [value_huge neg hex h0 hf h1, value_huge neg hex h0 hf h2]
  · rw [value_tiny neg hex hm h1, value_tiny neg hex hm h2]

/-- C88: a number that is written in a file is read as the nearest `float64`, halves to even, with its sign (also of a zero); a number
beyond the largest `float64` is refused. This holds for any number of digits if the exponent has at most five, and for any exponent if there are fewer
than 2000 other digits (otherwise `C88_exponent_false`). -/
theorem C88_nearest {t : Str} {neg hex : Bool} {ds fs : List Nat} {e : Int} (h : Number t neg hex ds fs e) (he : Moderate ds fs e) :
    (∃ n, parseFloat t = .ok (.fin neg n) ∧ Rounds (written neg hex ds fs e) (.fin neg n)) ∨
    (parseFloat t = .rangeErr neg ∧ overflow ≤ (written neg hex ds fs e).abs) := by
  obtain ⟨c, r, e', h1, h2, h3, h4, h5, h6, _⟩ := number_read h
  have hv := value_rounds neg hex ds fs e
  have hsame : value neg (digitsNum (base hex) (ds ++ fs)) fs.length e hex = value neg (digitsNum (base hex) (ds ++ fs)) fs.length e' hex := by
    by_cases hs : e.natAbs < 100000
    · rw [h4 hs]
    · rcases he with he | he
      · exact absurd he hs
      · refine value_same neg hex (Nat.lt_of_lt_of_le (digitsNum_lt (number_digits h)) (Nat.pow_le_pow_right (base_pos hex) ?_)) (by omega) ?_
        · rw [List.length_append]; omega
        · rcases Int.le_total 0 e with h0 | h0
          · exact Or.inl ⟨by omega, h5 (by omega)⟩
          · exact Or.inr ⟨by omega, h6 (by omega)⟩
  rw [hsame] at hv
  rcases parse_value h1 h2 h3 with ⟨n, hp, hn⟩ | ⟨hp, hn⟩
  · rw [hn] at hv
    exact Or.inl ⟨n, hp, hv⟩
  · rw [hn] at hv
    exact Or.inr ⟨hp, hv.1⟩

/-- A number is never refused because of its form, whatever its exponent. -/
theorem number_accepted {t : Str} {neg hex : Bool} {ds fs : List Nat} {e : Int} (h : Number t neg hex ds fs e) : parseFloat t ≠ .syntaxErr := by
  obtain ⟨c, r, e', h1, h2, h3, _⟩ := number_read h
  rcases parse_value h1 h2 h3 with ⟨n, hp, _⟩ | ⟨hp, _⟩ <;> rw [hp] <;> simp

theorem parse_special (v : Bool → Nat → Nat → Int → Bool → F64) {t : Str} {x : F64} (h : special t = some x) : parseWith v t = .ok x := by
  unfold parseWith
  rw [h]

theorem map_lower (t : Str) : t.map lower = t.map Char.toLower := List.map_congr_left fun c _ => lower_toLower c

/-- C88: the names of the special values are read as these values. -/
theorem C88_named {t : Str} {x : F64} (h : Named t x) : parseFloat t = .ok x := by
  have : special t = some x := by
    cases h with
    | nan h =>
      unfold special
      rw [map_lower, if_pos (show t.map Char.toLower = _ from h)]
    | @inf s t neg hs h =>
      have hl : t.map lower = str! "inf" ∨ t.map lower = str! "infinity" := by rw [map_lower]; exact h
      obtain ⟨c, cs, rfl⟩ : ∃ c cs, t = c :: cs := by
        cases t with
        | nil => rcases hl with h | h <;> cases h
        | cons c cs => exact ⟨c, cs, rfl⟩
      have hi : lower c = 'i' := by rcases hl with h | h <;> (injection h)
      have h1 : sign (s ++ c :: cs) = (neg, c :: cs) :=
        sign_append hs (by rintro rfl; exact absurd hi (by decide)) (by rintro rfl; exact absurd hi (by decide))
      unfold special
      rw [if_neg, h1]
      · dsimp only
        rw [if_pos hl]
      · intro h
        cases hs with
        | none => injection h with h _; rw [hi] at h; exact absurd h (by decide)
        | plus => injection h with h _; exact absurd h (by decide)
        | minus => injection h with h _; exact absurd h (by decide)
  exact parse_special value this

/-! ### From the result to the grammar -/

/-- A stretch of digits and underscores. -/
def Block (h : Bool) (A : Str) : Prop := ∀ c ∈ A, c = '_' ∨ (digit? h c).isSome = true

/-- Behind a stretch: the end, or something else. -/
def Ends (hex : Bool) (r : Str) : Prop := ∀ c cs, r = c :: cs → c ≠ '_' ∧ (digit? hex c).isSome = false

theorem us_not_digit (h : Bool) : (digit? h '_').isSome = false := by cases h <;> decide

/-- What `underscoreOK` says about one stretch. -/
theorem block_read {h hex : Bool} (hh : h = true → hex = true) {A r : Str} (hA : Block h A) (hr : Ends hex r) (saw : Saw)
    (hu : underscoreLoop hex saw (A ++ r) = true) :
    (A = [] ∧ saw ≠ .underscore ∧ underscoreLoop hex saw r = true) ∨
    ((∃ ds, Digits h A ds) ∧ underscoreLoop hex .digit r = true) ∨
    (saw = .digit ∧ (∃ A' ds, A = '_' :: A' ∧ Digits h A' ds) ∧ underscoreLoop hex .digit r = true) := by
  induction A generalizing saw with
  | nil =>
    refine Or.inl ⟨rfl, ?_, hu⟩
    rintro rfl
    cases r with
    | nil => cases hu
    | cons c cs =>
      obtain ⟨h1, h2⟩ := hr c cs rfl
      rw [List.nil_append, underscoreLoop, h2, if_neg (by decide), if_neg h1, if_pos rfl] at hu
      cases hu
  | cons c A ih =>
    have hA' : Block h A := fun c hc => hA c (List.mem_cons_of_mem _ hc)
    rw [List.cons_append, underscoreLoop] at hu
    rcases hA c List.mem_cons_self with rfl | hc
    · rw [us_not_digit, if_neg (by decide), if_pos rfl] at hu
      split at hu
      · next hs =>
        right; right
        rcases ih hA' .underscore hu with ⟨_, h2, _⟩ | ⟨⟨ds, h1⟩, h2⟩ | ⟨h1, _⟩
        · exact absurd rfl h2
        · exact ⟨hs, ⟨A, ds, rfl, h1⟩, h2⟩
        · cases h1
      · cases hu
    · obtain ⟨d, hd⟩ := Option.isSome_iff_exists.1 hc
      have hd' : digit? hex c = some d := by
        cases h with
        | false => exact digit_mono hex hd
        | true => rw [hh rfl]; exact hd
      rw [hd', Option.isSome_some, if_pos rfl] at hu
      have hD := (digit_iff _ _ _).1 hd
      right; left
      rcases ih hA' .digit hu with ⟨rfl, _, h3⟩ | ⟨⟨ds, h1⟩, h2⟩ | ⟨_, ⟨A', ds, rfl, h1⟩, h2⟩
      · exact ⟨⟨_, .one hD⟩, h3⟩
      · exact ⟨⟨_, .cons hD h1⟩, h2⟩
      · exact ⟨⟨_, .sep hD h1⟩, h2⟩

/-- What the digit loop has read, behind the point. -/
theorem scan_dot {hex : Bool} {t : Str} {mant frac : Nat} {seen : Bool} {m f : Nat} {seen' : Bool} {rest : Str}
    (h : scan hex t mant frac true seen = (m, f, seen', rest)) :
    ∃ B, t = B ++ rest ∧ Block hex B ∧ (∀ c cs, rest = c :: cs → c ≠ '_' ∧ digit? hex c = none) ∧ (seen' = true → seen = true ∨ ∃ c ∈ B, c ≠ '_') := by
  induction t generalizing mant frac seen with
  | nil =>
    simp only [scan, Prod.mk.injEq] at h
    obtain ⟨_, _, rfl, rfl⟩ := h
    exact ⟨[], rfl, (fun c hc => by cases hc), (fun c cs hc => by cases hc), fun h => Or.inl h⟩
  | cons c cs ih =>
    rw [scan] at h
    split at h
    · next hc =>
      obtain ⟨B, h1, h2, h3, h4⟩ := ih h
      refine ⟨c :: B, by rw [h1]; rfl, fun d hd => ?_, h3, fun hs => (h4 hs).imp id fun ⟨d, hd, hd'⟩ => ⟨d, List.mem_cons_of_mem _ hd, hd'⟩⟩
      rcases List.mem_cons.1 hd with rfl | hd
      · exact Or.inl hc
      · exact h2 d hd
    · next hc =>
      split at h
      · next hp =>
        simp only [if_true, Prod.mk.injEq] at h
        obtain ⟨_, _, rfl, rfl⟩ := h
        refine ⟨[], rfl, (fun c hc => by cases hc), fun c' cs' he => ?_, fun h => Or.inl h⟩
        cases he
        exact ⟨hc, by rw [hp]; cases hex <;> decide⟩
      · split at h
        · next d hd =>
          obtain ⟨B, h1, h2, h3, h4⟩ := ih h
          refine ⟨c :: B, by rw [h1]; rfl, fun d' hd' => ?_, h3, fun _ => Or.inr ⟨c, List.mem_cons_self, hc⟩⟩
          rcases List.mem_cons.1 hd' with rfl | hd'
          · exact Or.inr (by rw [hd]; rfl)
          · exact h2 d' hd'
        · next hd =>
          simp only [Prod.mk.injEq] at h
          obtain ⟨_, _, rfl, rfl⟩ := h
          exact ⟨[], rfl, (fun c hc => by cases hc), (fun c' cs' he => by cases he; exact ⟨hc, hd⟩), fun h => Or.inl h⟩

/-- What the digit loop has read. -/
theorem scan_split {hex : Bool} {t : Str} {mant frac : Nat} {seen : Bool} {m f : Nat} {seen' : Bool} {rest : Str}
    (h : scan hex t mant frac false seen = (m, f, seen', rest)) :
    ∃ A B, (t = A ++ rest ∧ B = [] ∨ t = A ++ '.' :: (B ++ rest)) ∧ Block hex A ∧ Block hex B ∧
      (∀ c cs, rest = c :: cs → c ≠ '_' ∧ digit? hex c = none) ∧ (seen' = true → seen = true ∨ ∃ c ∈ A ++ B, c ≠ '_') := by
  induction t generalizing mant frac seen with
  | nil =>
    simp only [scan, Prod.mk.injEq] at h
    obtain ⟨_, _, rfl, rfl⟩ := h
    exact ⟨[], [], Or.inl ⟨rfl, rfl⟩, (fun c hc => by cases hc), (fun c hc => by cases hc), (fun c cs hc => by cases hc), fun h => Or.inl h⟩
  | cons c cs ih =>
    rw [scan] at h
    split at h
    · next hc =>
      obtain ⟨A, B, h1, h2, h2', h3, h4⟩ := ih h
      refine ⟨c :: A, B, ?_, fun d hd => ?_, h2', h3, fun hs => (h4 hs).imp id fun ⟨d, hd, hd'⟩ => ⟨d, List.mem_cons_of_mem _ hd, hd'⟩⟩
      · rcases h1 with ⟨rfl, rfl⟩ | rfl
        · exact Or.inl ⟨rfl, rfl⟩
        · exact Or.inr rfl
      rcases List.mem_cons.1 hd with rfl | hd
      · exact Or.inl hc
      · exact h2 d hd
    · next hc =>
      split at h
      · next hp =>
        simp only [Bool.false_eq_true, if_false] at h
        obtain ⟨B, h1, h2, h3, h4⟩ := scan_dot h
        exact ⟨[], B, Or.inr (by rw [h1, hp]; rfl), (fun c hc => by cases hc), h2, h3, h4⟩
      · split at h
        · next d hd =>
          obtain ⟨A, B, h1, h2, h2', h3, h4⟩ := ih h
          refine ⟨c :: A, B, ?_, fun d' hd' => ?_, h2', h3, fun _ => Or.inr ⟨c, List.mem_cons_self, hc⟩⟩
          · rcases h1 with ⟨rfl, rfl⟩ | rfl
            · exact Or.inl ⟨rfl, rfl⟩
            · exact Or.inr rfl
          rcases List.mem_cons.1 hd' with rfl | hd'
          · exact Or.inr (by rw [hd]; rfl)
          · exact h2 d' hd'
        · next hd =>
          simp only [Prod.mk.injEq] at h
          obtain ⟨_, _, rfl, rfl⟩ := h
          exact ⟨[], [], Or.inl ⟨rfl, rfl⟩, (fun c hc => by cases hc), (fun c hc => by cases hc),
            (fun c' cs' he => by cases he; exact ⟨hc, hd⟩), fun h => Or.inl h⟩

theorem sign_split (s : Str) : ∃ p, Sign p (sign s).1 ∧ s = p ++ (sign s).2 := by
  unfold sign
  split
  · exact ⟨['+'], .plus, rfl⟩
  · exact ⟨['-'], .minus, rfl⟩
  · exact ⟨[], .none, rfl⟩

theorem expLoop_block {t : Str} {e n : Nat} (h : expLoop t e = (n, [])) : Block false t := by
  induction t generalizing e with
  | nil => intro c hc; cases hc
  | cons c cs ih =>
    rw [expLoop] at h
    have step : ∀ e', expLoop cs e' = (n, []) → c = '_' ∨ (digit? false c).isSome = true → Block false (c :: cs) := by
      intro e' h hc d hd
      rcases List.mem_cons.1 hd with rfl | hd
      · exact hc
      · exact ih h d hd
    split at h
    · next hc => exact step _ h (Or.inl hc)
    · split at h
      · next d hd => exact step _ h (Or.inr (by rw [hd]; rfl))
      · cases h

theorem lower_inv {c lo up : Char} (h : lower c = lo) (hu : up.toNat + 32 = lo.toNat) : c = lo ∨ c = up := by
  unfold lower at h
  split at h
  · next hc =>
    right
    have := congrArg Char.toNat h
    rw [ofNat_toNat (by omega)] at this
    exact char_eq (by omega)
  · exact Or.inl h

theorem ends_nil (hex : Bool) : Ends hex [] := fun _ _ h => by cases h

theorem ends_cons {hex : Bool} {c : Char} {cs : Str} (h : c ≠ '_' ∧ digit? hex c = none) : Ends hex (c :: cs) := by
  intro c' cs' he
  cases he
  exact ⟨h.1, by rw [h.2]; rfl⟩

/-- What the digit loop has read is a mantissa, possibly behind an underscore that follows the prefix. -/
theorem mantissa_of {hex : Bool} {t : Str} {m f : Nat} {rest : Str} (h : scan hex t 0 0 false false = (m, f, true, rest)) {saw : Saw}
    (hs : saw ≠ .underscore) (hu : underscoreLoop hex saw t = true) :
    ∃ q m' ds fs saw', t = q ++ (m' ++ rest) ∧ (q = [] ∨ q = ['_'] ∧ ds ≠ [] ∧ saw = .digit) ∧ Mantissa hex m' ds fs ∧ saw' ≠ .underscore ∧
      underscoreLoop hex saw' rest = true := by
  obtain ⟨A, B, h1, hA, hB, hr, hseen⟩ := scan_split h
  have hseen := (hseen rfl).resolve_left (by simp)
  have hends : Ends hex rest := fun c cs he => ⟨(hr c cs he).1, by rw [(hr c cs he).2]; rfl⟩
  have hdot : digit? hex '.' = none := by cases hex <;> decide
  rcases h1 with ⟨rfl, rfl⟩ | rfl
  · rcases block_read (fun h => h) hA hends saw hu with ⟨rfl, _⟩ | ⟨⟨ds, hd⟩, h2⟩ | ⟨hsd, ⟨A', ds, rfl, hd⟩, h2⟩
    · obtain ⟨c, hc, _⟩ := hseen; cases hc
    · exact ⟨[], A, ds, [], .digit, rfl, Or.inl rfl, .int hd, by decide, h2⟩
    · refine ⟨['_'], A', ds, [], .digit, rfl, Or.inr ⟨rfl, ?_, hsd⟩, .int hd, by decide, h2⟩
      obtain ⟨_, _, _, _, _, rfl, _⟩ := digits_head hd
      simp
  · have hB' : ∀ saw, saw ≠ Saw.underscore → underscoreLoop hex saw ('.' :: (B ++ rest)) = true →
        (B = [] ∧ underscoreLoop hex .other rest = true) ∨ (∃ fs, Digits hex B fs) ∧ underscoreLoop hex .digit rest = true := by
      intro saw hs hu
      rw [under_other hs hdot (by decide)] at hu
      rcases block_read (fun h => h) hB hends .other hu with ⟨rfl, _, h2⟩ | h2 | ⟨hsd, _⟩
      · exact Or.inl ⟨rfl, h2⟩
      · exact Or.inr h2
      · cases hsd
    rcases block_read (fun h => h) hA (ends_cons ⟨by decide, hdot⟩) saw hu with ⟨rfl, hs, h2⟩ | ⟨⟨ds, hd⟩, h2⟩ | ⟨hsd, ⟨A', ds, rfl, hd⟩, h2⟩
    · rcases hB' saw hs h2 with ⟨rfl, _⟩ | ⟨⟨fs, hf⟩, h3⟩
      · obtain ⟨c, hc, _⟩ := hseen; cases hc
      · exact ⟨[], '.' :: B, [], fs, .digit, rfl, Or.inl rfl, .frac hf, by decide, h3⟩
    · rcases hB' .digit (by decide) h2 with ⟨rfl, h3⟩ | ⟨⟨fs, hf⟩, h3⟩
      · exact ⟨[], A ++ ['.'], ds, [], .other, by simp, Or.inl rfl, .intDot hd, by decide, h3⟩
      · exact ⟨[], A ++ '.' :: B, ds, fs, .digit, by simp, Or.inl rfl, .both hd hf, by decide, h3⟩
    · have hne : ds ≠ [] := by
        obtain ⟨_, _, _, _, _, rfl, _⟩ := digits_head hd
        simp
      rcases hB' .digit (by decide) h2 with ⟨rfl, h3⟩ | ⟨⟨fs, hf⟩, h3⟩
      · exact ⟨['_'], A' ++ ['.'], ds, [], .other, by simp, Or.inr ⟨rfl, hne, hsd⟩, .intDot hd, by decide, h3⟩
      · exact ⟨['_'], A' ++ '.' :: B, ds, fs, .digit, by simp, Or.inr ⟨rfl, hne, hsd⟩, .both hd hf, by decide, h3⟩

theorem exponent_of {hex : Bool} {lo up c : Char} {cs : Str} {e : Int} (h : exponent cs = some e) (hc : c = lo ∨ c = up)
    (hd : digit? hex c = none ∧ c ≠ '_') {saw : Saw} (hs : saw ≠ .underscore) (hu : underscoreLoop hex saw (c :: cs) = true) :
    ∃ e', Exponent lo up (c :: cs) e' := by
  rw [under_other hs hd.1 hd.2] at hu
  obtain ⟨p, h1, h2⟩ := sign_split cs
  unfold exponent at h
  rw [← (show ((sign cs).1, (sign cs).2) = sign cs from rfl)] at h
  dsimp only at h
  generalize (sign cs).1 = neg at h h1
  generalize (sign cs).2 = r at h h2
  subst h2
  cases r with
  | nil => cases h
  | cons d r =>
    dsimp only at h
    split at h
    · split at h
      · next e' he =>
        have hu' : underscoreLoop hex .other (d :: r) = true := by
          cases h1 with
          | none => exact hu
          | plus => rw [List.singleton_append, under_other (by decide) (by cases hex <;> decide) (by decide)] at hu; exact hu
          | minus => rw [List.singleton_append, under_other (by decide) (by cases hex <;> decide) (by decide)] at hu; exact hu
        rw [← List.append_nil (d :: r)] at hu'
        rcases block_read (h := false) (fun h => by cases h) (expLoop_block he) (ends_nil hex) .other hu' with ⟨h, _⟩ | ⟨⟨ds, hd⟩, _⟩ | ⟨h, _⟩
        · cases h
        · exact ⟨_, .mk hc h1 hd⟩
        · cases h
      · cases h
    · cases h

theorem read_number {s : Str} {x : Nat × Nat × Int × Bool} (h : readFloat s = some x) {p : Str} {neg : Bool} (hp : Sign p neg) :
    ∃ hex ds fs e, Number (p ++ s) neg hex ds fs e := by
  unfold readFloat at h
  dsimp only at h
  cases hsc : scan (isHex s) (if isHex s then s.drop 2 else s) 0 0 false false with
  | mk m r1 =>
    obtain ⟨f, seen, rest⟩ := r1
    rw [hsc] at h
    dsimp only at h
    cases seen with
    | false => cases h
    | true =>
      simp only [Bool.not_true, Bool.false_eq_true, if_false] at h
      cases hx : isHex s with
      | false =>
        rw [hx] at hsc h
        simp only [Bool.false_eq_true, if_false] at hsc h
        have huo : underscoreOK s = true → underscoreLoop false .start s = true := by
          unfold underscoreOK
          rw [hx, if_neg (by decide)]
          exact fun h => h
        cases rest with
        | nil =>
          dsimp only at h
          split at h
          · next hu =>
            obtain ⟨q, m', ds, fs, saw', h1, h2, h3, _⟩ := mantissa_of hsc (by decide) (huo hu)
            rcases h2 with rfl | ⟨_, _, h2⟩
            · rw [List.nil_append, List.append_nil] at h1
              subst h1
              exact ⟨_, _, _, _, .dec hp h3⟩
            · cases h2
          · cases h
        | cons c cs =>
          dsimp only at h
          split at h
          · next hc =>
            obtain ⟨e, he, h⟩ := Option.bind_eq_some_iff.1 h
            split at h
            · next hu =>
              obtain ⟨q, m', ds, fs, saw', h1, h2, h3, h4, h5⟩ := mantissa_of hsc (by decide) (huo hu)
              rcases h2 with rfl | ⟨_, _, h2⟩
              · rw [List.nil_append] at h1
                subst h1
                have hce := lower_inv (up := 'E') hc (by decide)
                obtain ⟨e', hx⟩ := exponent_of he hce (by rcases hce with rfl | rfl <;> decide) h4 h5
                exact ⟨_, _, _, _, .decExp hp h3 hx⟩
              · cases h2
            · cases h
          · cases h
      | true =>
        rw [hx] at hsc h
        simp only [if_true] at hsc h
        obtain ⟨u, t, hs, hu0⟩ : ∃ u t, s = '0' :: u :: t ∧ lower u = 'x' := by
          unfold isHex at hx
          split at hx
          · next c d y ys =>
            simp only [Bool.and_eq_true, decide_eq_true_eq] at hx
            exact ⟨d, y :: ys, by rw [hx.1], hx.2⟩
          · cases hx
        have huo : underscoreOK s = true → underscoreLoop true .digit (s.drop 2) = true := by
          unfold underscoreOK
          rw [hx, if_pos rfl]
          exact fun h => h
        cases rest with
        | nil => simp at h
        | cons c cs =>
          dsimp only at h
          split at h
          · next hc =>
            obtain ⟨e, he, h⟩ := Option.bind_eq_some_iff.1 h
            split at h
            · next hu =>
              obtain ⟨q, m', ds, fs, saw', h1, h2, h3, h4, h5⟩ := mantissa_of hsc (by decide) (huo hu)
              have hce := lower_inv (up := 'P') hc (by decide)
              obtain ⟨e', hxe⟩ := exponent_of he hce (by rcases hce with rfl | rfl <;> decide) h4 h5
              have hux := lower_inv (up := 'X') hu0 (by decide)
              rw [hs] at h1
              simp only [List.drop_succ_cons, List.drop_zero] at h1
              subst h1
              subst hs
              rw [show '0' :: u :: (q ++ (m' ++ c :: cs)) = ('0' :: u :: q) ++ (m' ++ c :: cs) from rfl]
              refine ⟨true, ds, fs, e', .hex hp ?_ h3 hxe⟩
              rcases h2 with rfl | ⟨rfl, h2, _⟩
              · rcases hux with rfl | rfl
                · exact Or.inl rfl
                · exact Or.inr (Or.inl rfl)
              · rcases hux with rfl | rfl
                · exact Or.inr (Or.inr ⟨Or.inl rfl, h2⟩)
                · exact Or.inr (Or.inr ⟨Or.inr rfl, h2⟩)
            · cases h
          · cases h

theorem special_named {t : Str} {x : F64} (h : special t = some x) : Named t x := by
  unfold special at h
  rw [← (show ((sign t).1, (sign t).2) = sign t from rfl)] at h
  dsimp only at h
  split at h
  · next hn =>
    cases h
    rw [map_lower] at hn
    exact .nan hn
  · split at h
    · next hn =>
      cases h
      obtain ⟨p, h1, h2⟩ := sign_split t
      rw [map_lower] at hn
      generalize (sign t).1 = neg at *
      generalize (sign t).2 = r at *
      subst h2
      exact .inf h1 hn
    · cases h

theorem parse_refused (v : Bool → Nat → Nat → Int → Bool → F64) {t : Str} (h1 : special t = none) (h2 : readFloat (sign t).2 = none) :
    parseWith v t = .syntaxErr := by
  unfold parseWith
  rw [h1]
  dsimp only
  rw [h2]

/-- C88: what is refused because of its form is exactly what is neither a number nor a name. -/
theorem C88_syntax (t : Str) : parseFloat t = .syntaxErr ↔ (∀ neg hex ds fs e, ¬ Number t neg hex ds fs e) ∧ ∀ x, ¬ Named t x := by
  constructor
  · intro h
    refine ⟨fun neg hex ds fs e hn => number_accepted hn h, fun x hn => ?_⟩
    rw [C88_named hn] at h
    cases h
  · rintro ⟨h1, h2⟩
    cases hs : special t with
    | some x => exact absurd (special_named hs) (h2 x)
    | none =>
      cases hr : readFloat (sign t).2 with
      | none => exact parse_refused value hs hr
      | some x =>
        obtain ⟨p, h3, h4⟩ := sign_split t
        obtain ⟨hex, ds, fs, e, hn⟩ := read_number hr h3
        rw [← h4] at hn
        exact absurd hn (h1 _ _ _ _ _)

/-- C88 as demanded: exactly the ordinary decimal numbers within the range are accepted, and they are read as the nearest `float64`. -/
def C88_full : Prop := ∀ t : Str, (∀ x, parseFloat t = .ok x → Ordinary t) ∧
  ∀ neg ds fs e, '_' ∉ t → Number t neg false ds fs e → (written neg false ds fs e).abs < overflow →
    ∃ n, parseFloat t = .ok (.fin neg n) ∧ Rounds (written neg false ds fs e) (.fin neg n)

/-- The first character of an ordinary number. -/
theorem ordinary_head {t : Str} (h : Ordinary t) : ∃ c r neg, sign t = (neg, c :: r) ∧ (c = '.' ∨ (digit? false c).isSome = true) := by
  obtain ⟨_, neg, ds, fs, e, hn⟩ := h
  obtain ⟨c, r, _, h1, h2, _⟩ := number_read hn
  exact ⟨c, r, neg, h1, h2⟩

/-- C88 is false: a coefficient may be called NaN. -/
theorem C88_false : ¬ C88_full := by
  intro h
  obtain ⟨c, r, neg, h1, h2⟩ := ordinary_head ((h (str! "NaN")).1 .nan (C88_named (.nan (by unfold SameLetters; decide))))
  cases h1
  exact absurd h2 (by decide)

/-- C88 for the decimal numbers, those with 2000 or more digits and an exponent of more than five digits excepted: they are read as demanded. Missing: other
texts are accepted as well (`C88_syntax` says which), and the exception (`C88_exponent_false`). -/
theorem C88_partial {t : Str} {neg : Bool} {ds fs : List Nat} {e : Int} (h : Number t neg false ds fs e) (he : Moderate ds fs e)
    (ho : (written neg false ds fs e).abs < overflow) :
    ∃ n, parseFloat t = .ok (.fin neg n) ∧ Rounds (written neg false ds fs e) (.fin neg n) := by
  rcases C88_nearest h he with h | ⟨_, h⟩
  · exact h
  · grind

/-- C88: numbers that a `float64` can have are read exactly. -/
theorem C88_exact {t : Str} {neg hex : Bool} {ds fs : List Nat} {e : Int} (h : Number t neg hex ds fs e) (he : Moderate ds fs e)
    (hx : IsF64 (written neg hex ds fs e)) (ho : (written neg hex ds fs e).abs < overflow) :
    ∃ x, parseFloat t = .ok x ∧ number x = some (written neg hex ds fs e) := by
  rcases C88_nearest h he with ⟨n, h1, h2⟩ | ⟨_, h⟩
  · exact ⟨_, h1, rounds_exact h2 hx⟩
  · grind

theorem digits_zeros {t : Str} {ds : List Nat} (h : Digits false t ds) (n : Nat) : Digits false (List.replicate n '0' ++ t) (List.replicate n 0 ++ ds) := by
  induction n with
  | zero => exact h
  | succ n ih => exact .cons (Or.inl rfl) ih

theorem digitsNum_zeros (b n : Nat) (ds : List Nat) : digitsNum b (List.replicate n 0 ++ ds) = digitsNum b ds := by
  induction n with
  | zero => rfl
  | succ n ih => rw [← ih]; simp [digitsNum, List.replicate_succ]

/-- The number 1 with 200000 digits behind the point. -/
def longOne : Str := ['0'] ++ '.' :: (List.replicate 199999 '0' ++ ['1']) ++ str! "e200000"

theorem longOne_number : Number longOne false false [0] (List.replicate 199999 0 ++ [1]) 200000 := by
  have h1 : Digits false ['1'] [1] := .one (Or.inl rfl)
  have h0 : Digits false ['0'] [0] := .one (Or.inl rfl)
  have h := Number.decExp (s := []) (neg := false) (m := ['0'] ++ '.' :: (List.replicate 199999 '0' ++ ['1'])) (x := str! "e200000") (e := 200000) .none
    (.both h0 (digits_zeros h1 199999))
    (.mk (s := []) (t := str! "200000") (neg := false) (ds := [2, 0, 0, 0, 0, 0]) (Or.inl rfl) .none
      (.cons (Or.inl rfl) (.cons (Or.inl rfl) (.cons (Or.inl rfl) (.cons (Or.inl rfl) (.cons (Or.inl rfl) (.one (Or.inl rfl))))))))
  exact h

theorem longOne_digits (b : Nat) : digitsNum b ([0] ++ (List.replicate 199999 0 ++ [1])) = 1 := by
  rw [show [0] = List.replicate 1 0 from rfl, digitsNum_zeros, digitsNum_zeros]
  simp [digitsNum]

theorem longOne_written : written false false [0] (List.replicate 199999 0 ++ [1]) 200000 = 1 := by
  unfold written power
  rw [longOne_digits, List.length_append, List.length_replicate]
  simp only [Bool.false_eq_true, if_false, List.length_singleton]
  rw [if_pos (by decide), show Int.toNat 200000 = 199999 + 1 from rfl]
  have : (10 : Rat) ^ (199999 + 1) ≠ 0 := Rat.ne_of_gt (Rat.pow_pos (by decide))
  generalize (10 : Rat) ^ (199999 + 1) = P at this
  grind

/-- The digits of an exponent are ignored from the sixth on: the number 1, written with 200000 digits behind the point, is read as 0. -/
theorem C88_exponent_false : ∃ t ds fs e, Number t false false ds fs e ∧ written false false ds fs e = 1 ∧ parseFloat t = .ok (.fin false 0) := by
  refine ⟨_, _, _, _, longOne_number, longOne_written, ?_⟩
  obtain ⟨c, r, e', h1, h2, h3, _, h5, _, h7⟩ := number_read longOne_number
  have h0 : 0 ≤ e' := by have := h5 (by decide); omega
  have hz : value false (digitsNum (base false) ([0] ++ (List.replicate 199999 0 ++ [1]))) (List.replicate 199999 0 ++ [1]).length e' false = .fin false 0 := by
    rw [longOne_digits, List.length_append, List.length_replicate, List.length_singleton]
    unfold value
    dsimp only
    rw [show (-e').toNat = 0 by omega]
    simp only [Bool.false_eq_true, if_false, Nat.pow_zero, Nat.mul_one, Nat.one_mul]
    have hr : rnd (10 ^ e'.toNat * 2 ^ 1074) (10 ^ (199999 + 1)) = 0 := by
      apply rnd_small
      have e1 : 10 ^ e'.toNat ≤ 10 ^ 100000 := Nat.pow_le_pow_right (by decide) (by omega)
      have e2 : 10 ^ (199999 + 1) = 10 ^ 100000 * 10 ^ 100000 := by rw [← Nat.pow_add]
      have e3 : 2 * 2 ^ 1074 < 10 ^ 1075 := by decide +kernel
      have e4 : (10 : Nat) ^ 1075 ≤ 10 ^ 100000 := Nat.pow_le_pow_right (by decide) (by omega)
      have e5 : 0 < 10 ^ 100000 := Nat.pow_pos (by decide)
      rw [e2]
      generalize 10 ^ e'.toNat = x at *
      generalize 10 ^ 100000 = y at *
      generalize 10 ^ 1075 = z at *
      generalize 2 ^ 1074 = u at *
      have e6 : x * (2 * u) < y * y := Nat.lt_of_le_of_lt (Nat.mul_le_mul_right _ e1) (Nat.mul_lt_mul_of_pos_left (by omega) e5)
      rwa [Nat.mul_left_comm]
    rcases ofQuot_cases false (10 ^ e'.toNat * 2 ^ 1074) (10 ^ (199999 + 1)) with ⟨_, h⟩ | ⟨h, _⟩
    · rw [h, hr]
    · rw [hr] at h; exact absurd (Nat.pow_pos (by decide)) h
  rcases parse_value h1 h2 h3 with ⟨n, hp, hn⟩ | ⟨_, hn⟩
  · rw [hp, ← hn, hz]
  · rw [hz] at hn; cases hn

-- with fewer digits a long exponent makes no difference: too large, or 0
example : Moderate [1] [] 1000000 := Or.inr (by decide)
example : parseFloat (str! "1e1000000") = .rangeErr false := by
  have h : Number (str! "1e1000000") false false [1] [] 1000000 :=
    .decExp (s := []) (m := ['1']) (x := str! "e1000000") .none (.int (.one (Or.inl rfl)))
      (.mk (s := []) (t := str! "1000000") (neg := false) (ds := [1, 0, 0, 0, 0, 0, 0]) (Or.inl rfl) .none
        (.cons (Or.inl rfl) (.cons (Or.inl rfl) (.cons (Or.inl rfl) (.cons (Or.inl rfl) (.cons (Or.inl rfl) (.cons (Or.inl rfl) (.one (Or.inl rfl)))))))))
  obtain ⟨c, r, e', h1, h2, h3, _, h5, _⟩ := number_read h
  rcases parse_value h1 h2 h3 with ⟨n, _, hn⟩ | ⟨hp, _⟩
  · rw [value_huge false false (by decide) (by decide) (h5 (by decide))] at hn; cases hn
  · exact hp

-- -12.5e-1 is a number: -1.25
example : Number (str! "-12.5e-1") true false [1, 2] [5] (-1) :=
  .decExp (s := ['-']) (m := (str! "12.5")) (x := (str! "e-1")) .minus
    (.both (t := ['1', '2']) (u := ['5']) (.cons (Or.inl rfl) (.one (Or.inl rfl))) (.one (Or.inl rfl)))
    (.mk (s := ['-']) (t := ['1']) (neg := true) (ds := [1]) (Or.inl rfl) .minus (.one (Or.inl rfl)))

example : written true false [1, 2] [5] (-1) = -5 / 4 := by decide +kernel

-- so it is read exactly, as -1.25 is a number of the machine
example : parseFloat (str! "-12.5e-1") = .ok (F64.neg (F64.div (F64.ofInt 5) (F64.ofInt 4))) := by decide +kernel

-- infinity is a name, 0x1_0p4 a number (256), 0xFF neither
example : Named (str! "-Infinity") (.inf true) := .inf (s := ['-']) (t := (str! "Infinity")) .minus (Or.inr (by unfold SameLetters; decide))

example : Number (str! "0x1_0p4") false true [1, 0] [] 4 :=
  .hex (s := []) (p := (str! "0x")) (m := (str! "1_0")) (x := (str! "p4")) .none (Or.inl rfl) (.int (.sep (Or.inl rfl) (.one (Or.inl rfl))))
    (.mk (s := []) (t := ['4']) (neg := false) (ds := [4]) (Or.inl rfl) .none (.one (Or.inl rfl)))

example : written false true [1, 0] [] 4 = 256 := by decide +kernel

example : (∀ neg hex ds fs e, ¬ Number (str! "0xFF") neg hex ds fs e) ∧ ∀ x, ¬ Named (str! "0xFF") x :=
  (C88_syntax _).1 (by decide +kernel)

end Verif.Calib.Props
