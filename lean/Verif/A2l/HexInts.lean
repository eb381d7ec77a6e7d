import Verif.A2l.Missing

/-!
C97: integers in hexadecimal notation.
-/

namespace Verif.A2l.Props

open Verif.Go Verif.A2l Lang Decl Analysis Template

/-- The value of a hexadecimal digit. -/
def hexDigit (c : Char) : Option Nat :=
  if '0' ≤ c ∧ c ≤ '9' then some (c.toNat - 48)
  else if 'A' ≤ c ∧ c ≤ 'F' then some (c.toNat - 55)
  else if 'a' ≤ c ∧ c ≤ 'f' then some (c.toNat - 87)
  else none

/-- `t` is the number `n` in the hexadecimal notation of ASAP2: `0x` and at least one digit. -/
def IsHex (t : Str) (n : Nat) : Prop :=
  ∃ (x : Char) (ds : Str) (vs : List Nat), t = '0' :: x :: ds ∧ (x = 'x' ∨ x = 'X') ∧ ds ≠ [] ∧ ds.map hexDigit = vs.map some ∧ vs.foldl (fun a d => 16 * a + d) 0 = n

/-- C97 as stated, for the keywords with one parameter: a hexadecimal number in the range of the parameter is accepted with its value. -/
def C97_full : Prop := ∀ (E : Env), Wf E → ∀ p ∉ irregular, ∀ f fl b, shape p = .one ⟨f, fl, .uint b⟩ →
  ∀ (i : Nat) (t : Str) (n : Nat), TokAfter E i t → IsHex t n → n < 2 ^ b → ∃ o : Obj, Returns E p i (.ok (i + 1) (.obj o) false) ∧ o f = .int n

theorem hex_no_nat {t : Str} {n k : Nat} (h : IsHex t n) : ¬ IsNat t k := by
  obtain ⟨x, ds, vs, rfl, hx, _⟩ := h
  rintro ⟨_, h, _⟩
  have := h x (by simp)
  unfold IsDigit at this
  rcases hx with rfl | rfl <;> exact absurd this (by decide)

theorem hex_no_int {t : Str} {n : Nat} {z : Int} (h : IsHex t n) : ¬ IsInt t z := by
  rintro (⟨k, h', _⟩ | ⟨k, u, e, _⟩ | ⟨k, u, e, _⟩)
  · exact hex_no_nat h h'
  · obtain ⟨x, ds, vs, rfl, _⟩ := h; cases e
  · obtain ⟨x, ds, vs, rfl, _⟩ := h; cases e

/-- An integer parameter. -/
def Kind.isInt : Kind → Bool
  | .uint _ => true
  | .int _ => true
  | _ => false

theorem hex_denotes {E : Env} {k : Kind} (hk : Kind.isInt k = true) {t : Str} {n : Nat} (h : IsHex t n) (v : Val) : ¬ Denotes E k t v := by
  cases k with
  | uint b => rintro ⟨m, h', _⟩; exact hex_no_nat h h'
  | int b => rintro ⟨m, h', _⟩; exact hex_no_int h h'
  | _ => cases hk

theorem hex_intTok {c : Conv} {t : Str} {n : Nat} (h : IsHex t n) (z : Int) : ¬ IntTok c t z := by
  cases c with
  | uint b => rintro ⟨m, h', _⟩; exact hex_no_nat h h'
  | int b => rintro ⟨h', _⟩; exact hex_no_int h h'
  | float => exact id

/-- C97 is false at every place of every parse function where an integer is read: a hexadecimal number sets the error. `c`: the conversion,
`r`: what the function does next. -/
theorem C97_sites (p : PName) (c : Conv) (hc : c ≠ .float) (r : Stmt) (ho : Occurs (.seq (.conv c) r) (body p)) :
    ∃ r', ∀ (E : Env) (K : PName → Nat → PRes) (n : Nat) (s : St) (k : Nat), IsHex (E.current s.idx) k → ∃ s', s'.err = true ∧
      (exec E K n (.seq (.conv c) r) s = .ok s' .brk ∨ exec E K n (.seq (.conv c) r) s = exec E K n r' s') := by
  obtain ⟨app, f, r', h⟩ := C33_integers p c hc r ho
  exact ⟨r', fun E K n s k hk => (h E K n s).2 (fun z => hex_intTok hk z)⟩

/-- A hexadecimal number is no keyword, and no first or last word of an object. -/
theorem hex_plain {p : PName} (hp : p ∉ irregular) {raw : Bool} {ps : List Param} {rest : Rest} {subs : List (Str × Sub)} {maps : List String}
    (hsh : shape p = .block raw ps rest subs maps) {t : Str} {n : Nat} (h : IsHex t n) : Plain raw (fin p) subs t := by
  have h0 : t.head? = some '0' := by obtain ⟨x, ds, vs, rfl, _⟩ := h; rfl
  have hall : ∀ p ∉ irregular, ∀ raw ps rest subs maps, shape p = .block raw ps rest subs maps →
      (fin p).head? ≠ some '0' ∧ ∀ w ∈ subs.map (·.1), w.head? ≠ some '0' := by
    intro p hp raw ps rest subs maps hs
    cases p <;> first | exact absurd (by decide) hp | (cases hs; done) | (cases hs; decide +kernel)
  have hkw : ∀ w ∈ keywords, w.head? ≠ some '0' := by decide +kernel
  obtain ⟨h1, h2⟩ := hall p hp _ _ _ _ _ hsh
  exact ⟨(by intro e; rw [e] at h0; cases h0), (by intro e; rw [e] at h0; exact h1 h0), fun hh => h2 t hh h0, .inr (fun hh => hkw t hh h0)⟩

theorem items_bad {E : Env} {R : PName → Nat → Nat → Val → Prop} {raw : Bool} {fin : Str} {ps : List Param} {rest : Rest}
    {subs : List (Str × Sub)} {n : Nat} {x y : Decl.Pos} (h : Items E R raw fin ps rest subs n x y) :
    ∀ (ws : List Str) (t : Str) (q : Param), Words E x.i (ws ++ [t]) → (∀ w ∈ ws, Plain raw fin subs w) → Plain raw fin subs t →
      ps[x.m + ws.length]? = some q → (∀ v, ¬ Denotes E q.kind t v) → ¬ TokAfter E y.i fin := by
  induction h with
  | @nil x =>
    intro ws t q hws hpl ht _ _ hy
    cases ws with
    | nil => exact ht.2.1 (Option.some.inj ((hws 0 t rfl).symm.trans hy))
    | cons w ws => exact (hpl w (by simp)).2.1 (Option.some.inj ((hws 0 w rfl).symm.trans hy))
  | @cons n x y z hit hs ih =>
    intro ws t q hws hpl ht hq hbad
    have hlt : x.m + ws.length < ps.length := (List.getElem?_eq_some_iff.1 hq).1
    cases ws with
    | nil =>
      have h0 : TokAfter E x.i t := hws 0 t rfl
      simp only [List.length_nil, Nat.add_zero] at hq hlt
      cases hit with
      | @param m o i t' v p hp ht' hpl' hv =>
        obtain rfl : t = t' := Option.some.inj (h0.symm.trans ht')
        simp only at hq
        rw [hq] at hp
        cases hp
        exact absurd hv (hbad v)
      | member hm => simp only at hlt hm; omega
      | word hm => simp only at hlt hm; omega
      | surplus hm => simp only at hlt hm; omega
      | sub hsub ht' => obtain rfl := Option.some.inj (h0.symm.trans ht'); exact absurd (List.mem_map.2 ⟨_, hsub, rfl⟩) ht.2.2.1
      | enum hsub ht' => obtain rfl := Option.some.inj (h0.symm.trans ht'); exact absurd (List.mem_map.2 ⟨_, hsub, rfl⟩) ht.2.2.1
    | cons w ws =>
      have h0 : TokAfter E x.i w := hws 0 w rfl
      have hw := hpl w (by simp)
      simp only [List.length_cons] at hq hlt
      cases hit with
      | @param m o i t' v p hp ht' hpl' hv =>
        exact ih ws t q hws.tail (fun w hw => hpl w (by simp [hw])) ht (by rw [← hq]; simp only; congr 1; omega) hbad
      | member hm => simp only at hlt hm; omega
      | word hm => simp only at hlt hm; omega
      | surplus hm => simp only at hlt hm; omega
      | sub hsub ht' => obtain rfl := Option.some.inj (h0.symm.trans ht'); exact absurd (List.mem_map.2 ⟨_, hsub, rfl⟩) hw.2.2.1
      | enum hsub ht' => obtain rfl := Option.some.inj (h0.symm.trans ht'); exact absurd (List.mem_map.2 ⟨_, hsub, rfl⟩) hw.2.2.1

/-- C97 is false of every block with an integer parameter: if the word at its place is a hexadecimal number, the block is not accepted,
whatever the other words are. -/
theorem C97_block {E : Env} (hw : Wf E) {p : PName} (hp : p ∉ irregular) {raw : Bool} {ps : List Param} {rest : Rest} {subs : List (Str × Sub)}
    {maps : List String} (hsh : shape p = .block raw ps rest subs maps) {i : Nat} {ws : List Str} {t : Str} (htx : Words E i (ws ++ [t]))
    (hpl : ∀ w ∈ ws, Plain raw (fin p) subs w) {q : Param} (hq : ps[ws.length]? = some q) (hk : Kind.isInt q.kind = true) {n : Nat} (ht : IsHex t n) :
    ¬ ∃ i' v, Returns E p i (.ok i' v false) := by
  rintro ⟨i', v, h⟩
  obtain ⟨r, o, m, rfl, h1, _⟩ := C64_marks_partial hw hp h
  rw [hsh] at h1
  obtain ⟨n', j, hi, hf, _⟩ := h1
  exact items_bad hi ws t q htx hpl (hex_plain hp hsh ht) (by simpa using hq) (fun v => hex_denotes hk ht v) hf

theorem params_bad {E : Env} {i : Nat} {ps : List Param} {o o' : Obj} (h : Params E i ps o o') : ∀ (k : Nat) (q : Param) (t : Str),
    ps[k]? = some q → TokAfter E (i + k) t → ∃ v, Denotes E q.kind t v := by
  induction h with
  | nil => intro k q t hq; simp at hq
  | @cons i o o' t' v p ps ht' hne hkw hv hs ih =>
    intro k q t hq ht
    cases k with
    | zero =>
      cases hq
      obtain rfl : t = t' := Option.some.inj (ht.symm.trans ht')
      exact ⟨v, hv⟩
    | succ k => exact ih k q t (by simpa using hq) (by rw [show i + 1 + k = i + (k + 1) by omega]; exact ht)

/-- C97 is false of every object without `/begin` and `/end` that has an integer parameter. -/
theorem C97_seq {E : Env} (hw : Wf E) {p : PName} (hp : p ∉ irregular) {ps : List Param}
    (hsh : shape p = .seq ps ∨ ∃ q, shape p = .one q ∧ ps = [q]) {i k : Nat} {q : Param} (hq : ps[k]? = some q) (hk : Kind.isInt q.kind = true)
    {t : Str} {n : Nat} (htx : TokAfter E (i + k) t) (ht : IsHex t n) : ¬ ∃ i' v, Returns E p i (.ok i' v false) := by
  rintro ⟨i', v, h⟩
  obtain ⟨o1, o', _, h2, _⟩ := accepts_only_text hw hp h
  have h2 : Params E i ps Obj.empty o1 := by
    rcases hsh with hs | ⟨q', hs, rfl⟩ <;> rw [hs] at h2 <;> exact h2.1
  obtain ⟨v, hv⟩ := params_bad h2 k q t hq htx
  exact hex_denotes hk ht v hv

/-- The word 0x4. -/
theorem hex_four : IsHex (str! "0x4") 4 := ⟨'x', ['4'], [4], rfl, .inl rfl, by decide, by decide, rfl⟩

/-- `ALIGNMENT_BYTE 0x4`. -/
theorem C97_false : ¬ C97_full := by
  intro h
  have hw : Wf (mkEnv [(str! "ALIGNMENT_BYTE"), (str! "0x4")]) := mkEnv_wf (by decide)
  obtain ⟨o, ho, _⟩ := h (mkEnv [(str! "ALIGNMENT_BYTE"), (str! "0x4")]) hw .parseAlignmentByte (by decide) "AlignmentBorder" "AlignmentBorderSet" 16 rfl
    0 (str! "0x4") 4 rfl hex_four (by decide)
  exact C97_seq hw (p := .parseAlignmentByte) (by decide) (.inr ⟨_, rfl, rfl⟩) (i := 0) (k := 0) rfl rfl (t := (str! "0x4")) rfl hex_four ⟨_, _, ho⟩

/-- An AXIS_DESCR whose number of axis points is hexadecimal is not accepted, whatever follows. -/
example (ts : List Str) (hts : ([] : Str) ∉ ts) (i' : Nat) (v : Val) :
    ¬ Returns (mkEnv ((str! "/begin AXIS_DESCR") :: (str! "STD_AXIS") :: (str! "q") :: (str! "m") :: (str! "0x8") :: ts)) .parseAxisDescr 0
      (.ok i' v false) := by
  intro h
  refine C97_block (mkEnv_wf ?_) (p := .parseAxisDescr) (by decide) rfl (ws := [(str! "STD_AXIS"), (str! "q"), (str! "m")])
    (t := (str! "0x8")) ?_ ?_ rfl rfl (n := 8) ⟨'x', ['8'], [8], rfl, .inl rfl, by decide, by decide, rfl⟩ ⟨i', v, h⟩
  · simp [hts]
  · intro j w hj
    match j with
    | 0 => exact hj
    | 1 => exact hj
    | 2 => exact hj
    | 3 => exact hj
    | j + 4 => simp at hj
  · intro w hw
    simp only [List.mem_cons, List.not_mem_nil, or_false] at hw
    rcases hw with rfl | rfl | rfl <;> exact ⟨by decide, by decide +kernel, by decide +kernel, .inr (by decide +kernel)⟩

/-- A place where an integer is read: ALIGNMENT_BYTE. -/
example : ∃ r r', Occurs (.seq (.conv (.uint 16)) r) (body .parseAlignmentByte) ∧ ∀ (E : Env) (K : PName → Nat → PRes) (n : Nat) (s : St) (k : Nat),
    IsHex (E.current s.idx) k → ∃ s', s'.err = true ∧
      (exec E K n (.seq (.conv (.uint 16)) r) s = .ok s' .brk ∨ exec E K n (.seq (.conv (.uint 16)) r) s = exec E K n r' s') := by
  obtain ⟨r, hr⟩ : ∃ r, Occurs (.seq (.conv (.uint 16)) r) (body .parseAlignmentByte) := ⟨_, .seqR (.seqL (.iteR (.seqL (.iteR (.seqL (.iteL .self))))))⟩
  obtain ⟨r', h⟩ := C97_sites _ _ (by decide) r hr
  exact ⟨r, r', hr, h⟩

/-- C97 where a number is kept as text, as the addresses are: the word is stored as it stands. Missing: every integer parameter, for which it is
false. -/
theorem C97_text_partial {E : Env} (hw : Wf E) {p : PName} (hp : p ∉ irregular) {f fl : String} (hsh : shape p = .one ⟨f, fl, .str⟩) {i : Nat}
    {t : Str} {n : Nat} (htx : TokAfter E i t) (ht : IsHex t n) : ∃ o : Obj, Returns E p i (.ok (i + 1) (.obj o) false) ∧ o f = .str t := by
  have hkw : ∀ w ∈ keywords, w.head? ≠ some '0' := by decide +kernel
  have h0 : t.head? = some '0' := by obtain ⟨x, ds, vs, rfl, _⟩ := ht; rfl
  obtain ⟨o, g1, g2⟩ := C32_seq_partial hw hp (ps := [⟨f, fl, .str⟩]) (Or.inr ⟨_, hsh, rfl⟩) (i := i) (ws := [t])
    (vs := [.str t]) rfl rfl (fun j w hj => by
      match j with
      | 0 => cases hj; exact htx
      | j + 1 => simp at hj)
    (fun w hw' => by
      rw [List.mem_singleton] at hw'; subst hw'
      exact ⟨(by intro e; rw [e] at h0; cases h0), fun hh => hkw _ hh h0⟩)
    (fun j q w v a1 a2 a3 => by
      match j with
      | 0 => cases a1; cases a2; cases a3; rfl
      | j + 1 => simp at a1)
  exact ⟨o, g1, g2 0 _ _ rfl rfl⟩

/-- `ECU_ADDRESS 0x12345678`. -/
example : ∃ o : Obj, Returns (mkEnv [(str! "ECU_ADDRESS"), (str! "0x12345678")]) .parseEcuAddress 0 (.ok 1 (.obj o) false) ∧
    o "address" = .str (str! "0x12345678") :=
  C97_text_partial (mkEnv_wf (by decide)) (p := .parseEcuAddress) (by decide) rfl (i := 0) rfl
    ⟨'x', _, [1, 2, 3, 4, 5, 6, 7, 8], rfl, .inl rfl, by decide, by decide, rfl⟩

end Verif.A2l.Props
