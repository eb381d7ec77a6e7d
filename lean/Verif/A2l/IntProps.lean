import Verif.A2l.ObjProps2

/-!
C33: integer parameters of A2L objects.
-/

namespace Verif.A2l.Props
open Verif.Go Verif.A2l Lang Decl Analysis Template

/-- The token `t` is an integer parameter of the width of `c` and stands for the number `z`. -/
def IntTok (c : Conv) (t : Str) (z : Int) : Prop :=
  match c with
  | .uint b => ∃ n : Nat, IsNat t n ∧ n < 2 ^ b ∧ z = n
  | .int b => IsInt t z ∧ -(2 ^ (b - 1) : Nat) ≤ z ∧ z < (2 ^ (b - 1) : Nat)
  | .float => False

/-- `a` occurs in `s` as a statement. -/
inductive Occurs (a : Stmt) : Stmt → Prop
  | self : Occurs a a
  | seqL {s t} : Occurs a s → Occurs a (.seq s t)
  | seqR {s t} : Occurs a t → Occurs a (.seq s t)
  | iteL {c s t} : Occurs a s → Occurs a (.ite c s t)
  | iteR {c s t} : Occurs a t → Occurs a (.ite c s t)
  | loop {s} : Occurs a s → Occurs a (.loop s)

/-- Where a value is put: into a field, or at the end of a list. -/
def put (app : Bool) (f : String) (v : Val) (o : Obj) : Obj :=
  if app then o.set f (.list (o.list f ++ [v])) else o.set f v

/-- Conversion and cast have the same width. -/
def sameWidth : Conv → Cast → Bool
  | .uint b, .uint b' => b = b' && 0 < b
  | .int b, .int b' => b = b' && 0 < b
  | .float, .same => true
  | _, _ => false

/-- What follows a conversion: leave the loop on error, then store the buffer. -/
def siteOk (c : Conv) : Stmt → Bool
  | .seq (.ite .errNe a .skip) (.seq (.store _ k) _) => sameWidth c k && (a = .skip || a = .seq .brk .skip)
  | .seq (.ite .errNe a .skip) (.seq (.append _ k) _) => sameWidth c k && (a = .skip || a = .seq .brk .skip)
  | _ => false

/-- Every conversion in a statement is followed by storing the buffer in the same width. -/
def convOk : Stmt → Bool
  | .seq a b => (match a with
      | .conv c => siteOk c b
      | .convRet c => siteOk c b
      | a => convOk a) && convOk b
  | .ite _ a b => convOk a && convOk b
  | .loop a => convOk a
  | .conv _ => false
  | .convRet _ => false
  | _ => true

theorem convOk_all (p : PName) : convOk (body p) = true := by
  cases p <;> decide +kernel

theorem convOk_right {a b : Stmt} (h : convOk (.seq a b) = true) : convOk b = true := by
  cases a <;> simp only [convOk, Bool.and_eq_true] at h <;> exact h.2

theorem convOk_left {a b : Stmt} (h : convOk (.seq a b) = true) (h1 : ∀ c, a ≠ .conv c) (h2 : ∀ c, a ≠ .convRet c) :
    convOk a = true := by
  cases a <;> first
    | exact absurd rfl (h1 _)
    | exact absurd rfl (h2 _)
    | (simp only [convOk, Bool.and_eq_true] at h ⊢ <;> first | exact h.1 | exact trivial | skip)

theorem occurs_site {c : Conv} {r S : Stmt} (ho : Occurs (.seq (.conv c) r) S) (h : convOk S = true) :
    siteOk c r = true := by
  induction ho with
  | self => simp only [convOk, Bool.and_eq_true] at h; exact h.1
  | seqL ho ih => exact ih (convOk_left h (by rintro c' rfl; cases ho) (by rintro c' rfl; cases ho))
  | seqR _ ih => exact ih (convOk_right h)
  | iteL _ ih => rw [convOk] at h; simp only [Bool.and_eq_true] at h; exact ih h.1
  | iteR _ ih => rw [convOk] at h; simp only [Bool.and_eq_true] at h; exact ih h.2
  | loop _ ih => rw [convOk] at h; exact ih h

theorem convert_int {E : Env} {c : Conv} (hc : c ≠ .float) (t : Str) (z : Int) :
    convert E c t = (.int z, true) ↔ IntTok c t z := by
  cases c with
  | uint b =>
    simp only [convert, IntTok, Prod.mk.injEq, Val.int.injEq]
    constructor
    · rintro ⟨h1, h2⟩
      refine ⟨(parseUint t b).1, ?_, ?_, h1.symm⟩
      · exact ((parseUint_ok t b _).1 (Prod.ext rfl h2)).1
      · exact ((parseUint_ok t b _).1 (Prod.ext rfl h2)).2
    · rintro ⟨n, h1, h2, rfl⟩
      rw [(parseUint_ok t b n).2 ⟨h1, h2⟩]
      exact ⟨rfl, rfl⟩
  | int b =>
    simp only [convert, IntTok, Prod.mk.injEq, Val.int.injEq]
    rw [← parseInt_ok, Prod.ext_iff]
  | float => exact absurd rfl hc

theorem convert_bad {E : Env} {c : Conv} (hc : c ≠ .float) (t : Str) (h : ∀ z, ¬ IntTok c t z) :
    (convert E c t).2 = false := by
  cases hb : (convert E c t).2 with
  | false => rfl
  | true =>
    exfalso
    cases c with
    | uint b => exact h _ ((convert_int (E := E) hc t (parseUint t b).1).1 (Prod.ext rfl hb))
    | int b => exact h _ ((convert_int (E := E) hc t (parseInt t b).1).1 (Prod.ext rfl hb))
    | float => exact hc rfl

theorem cast_same {c : Conv} {k : Cast} {t : Str} {z : Int} (hk : sameWidth c k = true) (h : IntTok c t z) :
    castVal k (.int z) = .int z := by
  cases c with
  | uint b =>
    cases k with
    | uint b' =>
      simp only [sameWidth, Bool.and_eq_true, decide_eq_true_eq] at hk
      obtain ⟨rfl, _⟩ := hk
      obtain ⟨n, _, h2, rfl⟩ := h
      simp only [castVal, castInt_uint h2]
    | _ => simp [sameWidth] at hk
  | int b =>
    cases k with
    | int b' =>
      simp only [sameWidth, Bool.and_eq_true, decide_eq_true_eq] at hk
      obtain ⟨rfl, h0⟩ := hk
      obtain ⟨_, h1, h2⟩ := h
      simp only [castVal, castInt_int h0 h1 h2]
    | _ => simp [sameWidth] at hk
  | float => exact h.elim

/-- C33, at every place of every parse function where an integer is converted (`c` is the
conversion, with its width, `r` what the function does next): if the current token is a decimal
number in the range of the width, exactly this number is put into a field `f` (or at the end of
the list `f`) and the function goes on; otherwise the function goes on with the error set, and
leaves its loop if it is in one. -/
theorem C33_integers (p : PName) (c : Conv) (hc : c ≠ .float) (r : Stmt)
    (ho : Occurs (.seq (.conv c) r) (body p)) : ∃ app f r', ∀ (E : Env) (K : PName → Nat → PRes) (n : Nat) (s : St),
      (∀ z, IntTok c (E.current s.idx) z → exec E K n (.seq (.conv c) r) s =
        exec E K n r' { s with buf := .int z, err := false, obj := put app f (.int z) s.obj }) ∧
      ((∀ z, ¬ IntTok c (E.current s.idx) z) → ∃ s', s'.err = true ∧
        (exec E K n (.seq (.conv c) r) s = .ok s' .brk ∨ exec E K n (.seq (.conv c) r) s = exec E K n r' s')) := by
  have hs := occurs_site ho (convOk_all p)
  unfold siteOk at hs
  split at hs
  · rename_i a f k r'
    simp only [Bool.and_eq_true, Bool.or_eq_true, decide_eq_true_eq] at hs
    obtain ⟨hk, ha⟩ := hs
    refine ⟨false, f, r', fun E K n s => ⟨fun z hz => ?_, fun hz => ?_⟩⟩
    · have h1 := (convert_int (E := E) hc _ z).2 hz
      have h2 := cast_same hk hz
      rcases ha with rfl | rfl <;> simp [exec, h1, holds, h2, put]
    · have h1 := convert_bad (E := E) hc _ hz
      rcases ha with rfl | rfl
      · refine ⟨{ s with buf := (convert E c (E.current s.idx)).1, err := true,
                         obj := s.obj.set f (castVal k (convert E c (E.current s.idx)).1) }, rfl, Or.inr ?_⟩
        simp [exec, h1, holds]
      · refine ⟨{ s with buf := (convert E c (E.current s.idx)).1, err := true }, rfl, Or.inl ?_⟩
        simp [exec, h1, holds]
  · rename_i a f k r'
    simp only [Bool.and_eq_true, Bool.or_eq_true, decide_eq_true_eq] at hs
    obtain ⟨hk, ha⟩ := hs
    refine ⟨true, f, r', fun E K n s => ⟨fun z hz => ?_, fun hz => ?_⟩⟩
    · have h1 := (convert_int (E := E) hc _ z).2 hz
      have h2 := cast_same hk hz
      rcases ha with rfl | rfl <;> simp [exec, h1, holds, h2, put]
    · have h1 := convert_bad (E := E) hc _ hz
      rcases ha with rfl | rfl
      · refine ⟨{ s with buf := (convert E c (E.current s.idx)).1, err := true,
                         obj := s.obj.set f (.list (s.obj.list f ++ [castVal k (convert E c (E.current s.idx)).1])) }, rfl, Or.inr ?_⟩
        simp [exec, h1, holds]
      · refine ⟨{ s with buf := (convert E c (E.current s.idx)).1, err := true }, rfl, Or.inl ?_⟩
        simp [exec, h1, holds]
  · cases hs

/-- C33 for a keyword with one integer parameter, as a call: the function succeeds iff the token
is a decimal number in the range of the declared width, and then the field holds this number. -/
theorem C33_one {E : Env} (hw : Wf E) {p : PName} (hp : p ∉ irregular) {f fl : String} {b : Nat}
    (hsh : shape p = .one ⟨f, fl, .uint b⟩) {i : Nat} {t : Str} (ht : TokAfter E i t) (hkw : t ∉ keywords)
    (z : Int) : (∃ o, Returns E p i (.ok (i + 1) (.obj o) false) ∧ o f = .int z) ↔ IntTok (.uint b) t z := by
  constructor
  · rintro ⟨o, h, hz⟩
    obtain ⟨o1, o', h1, h2, h3⟩ := accepts_only_text hw hp h
    obtain rfl : o = o' := by simpa using h1
    obtain ⟨_, n2⟩ := fields_nodup p hp
    rw [hsh] at h2 h3 n2
    obtain ⟨hpar, _⟩ := h2
    cases hpar with
    | cons ht' hne hkw' hv hnil =>
      cases hnil
      have : some t = some _ := ht.symm.trans ht'
      simp only [Option.some.injEq] at this
      subst this
      obtain ⟨n, a1, a2, rfl⟩ := hv
      rw [h3 f (n2 _ (List.mem_singleton.2 rfl))] at hz
      simp only [Obj.set, if_true, Val.int.injEq] at hz
      exact ⟨n, a1, a2, hz.symm⟩
  · rintro ⟨n, h1, h2, rfl⟩
    have hne : t ≠ [] := h1.1
    obtain ⟨o, g1, g2⟩ := C32_seq_partial hw hp (ps := [⟨f, fl, .uint b⟩]) (Or.inr ⟨_, hsh, rfl⟩) (i := i) (ws := [t])
      (vs := [.int n]) rfl rfl (fun j w hj => by
        match j with
        | 0 => cases hj; exact ht
        | j + 1 => simp at hj)
      (fun w hw' => by rw [List.mem_singleton] at hw'; subst hw'; exact ⟨hne, hkw⟩)
      (fun j q w v a1 a2 a3 => by
        match j with
        | 0 => cases a1; cases a2; cases a3; exact ⟨n, h1, h2, rfl⟩
        | j + 1 => simp at a1)
    exact ⟨o, g1, g2 0 _ _ rfl rfl⟩

/-- `ALIGNMENT_BYTE 4`: accepted with the value 4. -/
example : ∃ o, Returns (mkEnv [(str! "ALIGNMENT_BYTE"), (str! "4")]) .parseAlignmentByte 0 (.ok 1 (.obj o) false) ∧
    o "AlignmentBorder" = .int 4 :=
  (C33_one (E := mkEnv [(str! "ALIGNMENT_BYTE"), (str! "4")]) (i := 0) (t := (str! "4")) (mkEnv_wf (by decide)) (by decide) (b := 16) (fl := "AlignmentBorderSet") rfl rfl (by decide +kernel) 4).2
    ⟨4, ⟨by decide, by unfold IsDigit; decide, by decide⟩, by decide, rfl⟩

/-- `ALIGNMENT_BYTE 65536`: not accepted with any value. -/
example (z : Int) : ¬ ∃ o, Returns (mkEnv [(str! "ALIGNMENT_BYTE"), (str! "65536")]) .parseAlignmentByte 0
    (.ok 1 (.obj o) false) ∧ o "AlignmentBorder" = .int z := by
  have := C33_one (p := .parseAlignmentByte) (i := 0) (t := (str! "65536")) (E := mkEnv [(str! "ALIGNMENT_BYTE"), (str! "65536")])
    (mkEnv_wf (by decide)) (by decide) (f := "AlignmentBorder") (b := 16) (fl := "AlignmentBorderSet") rfl rfl (by decide +kernel) z
  rw [this]
  rintro ⟨n, h1, h2, _⟩
  have := h1.2.2
  simp [decVal] at this
  omega

/-- An integer conversion that occurs: in ALIGNMENT_BYTE. -/
example : ∃ r, Occurs (.seq (.conv (.uint 16)) r) (body .parseAlignmentByte) :=
  ⟨_, .seqR (.seqL (.iteR (.seqL (.iteR (.seqL (.iteL .self))))))⟩

end Verif.A2l.Props
