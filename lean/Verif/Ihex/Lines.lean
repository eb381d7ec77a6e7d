import Verif.Ihex.Total
import Verif.Ihex.Offsets
import Verif.Ihex.Spec

/-!
Helper lemmas connecting the line parser with the line specification.
-/

namespace Verif.Ihex

open Verif.Go Verif.Hex Verif.Hex.Spec Verif.Ihex.Spec

/-! ### Any line -/

/-- The record made from a line. -/
def recOfLine (l : Str) : Record where
  byteCount := (l.drop 1).take 2
  addressField := (l.drop 3).take 4
  recordType := (l.drop 7).take 2
  data := payloadPairs (l.drop 9)
  checksum := l.drop (l.length - 2)
  offset := if (l.drop 7).take 2 = ['0', '4'] then (l.drop 9).take 4 else zeroOffset

theorem payloadPairs_short {s : Str} (h : s.length < 4) : payloadPairs s = [] := by
  match s, h with
  | [], _ => rfl
  | [_], _ => rfl
  | [_, _], _ => rfl
  | [_, _, _], _ => rfl
  | _ :: _ :: _ :: _ :: _, h => simp at h; omega

theorem payloadPairs_long {s : Str} (h : 4 ≤ s.length) :
    payloadPairs s = s.take 2 :: payloadPairs (s.drop 2) := by
  match s, h with
  | _ :: _ :: _ :: _ :: _, _ => rfl

theorem dataLoop_eq (l : Str) : ∀ fuel i, l.length ≤ i + 2 * fuel →
    dataLoop l fuel i = some (payloadPairs (l.drop i)) := by
  intro fuel
  induction fuel with
  | zero =>
    intro i h
    rw [payloadPairs_short (by simp; omega)]; rfl
  | succ fuel ih =>
    intro i h
    unfold dataLoop
    split
    · next hlt =>
      rw [slice?_eq_some (by omega) (by omega), ih (i + 2) (by omega),
        payloadPairs_long (s := l.drop i) (by simp; omega)]
      simp
    · rw [payloadPairs_short (by simp; omega)]

theorem parseRecord_eq {l : Str} (h : 11 ≤ l.length) :
    (Malformed l ∧ ∃ e, parseRecord l = some (.error e)) ∨
    (¬ Malformed l ∧ parseRecord l = some (.ok (recOfLine l))) := by
  have h0 : index? l 0 = some (l[0]'(by omega)) := by simp [index?]
  have hhead : l.head? = some (l[0]'(by omega)) := by
    rw [List.head?_eq_getElem?]; simp
  unfold parseRecord
  rw [h0]
  simp only [Option.bind_eq_bind, Option.bind_some]
  by_cases hc : l[0]'(by omega) = beginLineToken
  · rw [if_pos ⟨hc, h⟩, slice?_eq_some (by omega) (by omega), slice?_eq_some (by omega) (by omega),
      slice?_eq_some (by omega) (by omega), dataLoop_eq l l.length 9 (by omega),
      slice?_eq_some (i := l.length - 2) (by omega) (by omega)]
    simp only [Option.bind_some, Nat.reduceSub]
    have hck : List.take (l.length - (l.length - 2)) (List.drop (l.length - 2) l) = l.drop (l.length - 2) := by
      rw [List.take_of_length_le]; simp
    by_cases ht : (l.drop 7).take 2 = extendedLinearAddressRecordToken
    · rw [if_pos ht]
      by_cases h13 : 13 ≤ l.length
      · right
        refine ⟨?_, ?_⟩
        · rintro ⟨_, hm | ⟨_, hm⟩⟩
          · exact hm (by rw [hhead, hc]; rfl)
          · omega
        · have ht' : (l.drop 7).take 2 = ['0', '4'] := ht
          rw [if_pos h13, slice?_eq_some (by omega) (by omega)]
          simp only [Option.bind_some, Nat.reduceSub, hck, recOfLine, if_pos ht']
          rfl
      · left
        refine ⟨⟨h, Or.inr ⟨ht, by omega⟩⟩, ?_⟩
        rw [if_neg h13]
        exact ⟨_, rfl⟩
    · right
      refine ⟨?_, ?_⟩
      · rintro ⟨_, hm | ⟨hm, _⟩⟩
        · exact hm (by rw [hhead, hc]; rfl)
        · exact ht hm
      · have ht' : ¬ (l.drop 7).take 2 = ['0', '4'] := ht
        rw [if_neg ht]
        simp only [hck, recOfLine, if_neg ht']
        rfl
  · left
    refine ⟨⟨h, Or.inl ?_⟩, ?_⟩
    · rw [hhead]; simpa [beginLineToken] using hc
    · rw [if_neg (fun hh => hc hh.1)]
      exact ⟨_, rfl⟩

theorem parseShare_eq (ls : List Str) :
    parseShare ls = (significant (ls.takeWhile fun l => ¬ Malformed l)).map recOfLine := by
  induction ls with
  | nil => rfl
  | cons l ls ih =>
    unfold parseShare
    by_cases h : 11 ≤ l.length
    · rw [if_pos h]
      rcases parseRecord_eq h with ⟨hm, e, he⟩ | ⟨hm, he⟩
      · rw [he]
        simp [hm, significant]
      · rw [he]
        simp only [List.takeWhile_cons, hm, not_false_eq_true, decide_true, if_true, significant,
          List.filter_cons, h, List.map_cons, ih]
    · rw [if_neg h, ih]
      have hm : ¬ Malformed l := fun hh => h hh.1
      simp only [List.takeWhile_cons, hm, not_false_eq_true, decide_true, if_true, significant,
        List.filter_cons, h, decide_false, Bool.false_eq_true, if_false]

theorem workerLines_eq (n : Nat) (lines : List Str) (i : Nat) :
    share lines n i = workerLines n lines i := by
  unfold share workerLines shareStart shareEnd
  by_cases h : i + 1 = n
  · simp only [h, if_true]
    rw [List.take_of_length_le]; simp
  · simp only [h, if_false, shareStart]
    rw [Nat.add_sub_cancel_left]

theorem recordsOf_eq (n : Nat) (lines : List Str) :
    recordsOf n lines = (recognised n lines).map recOfLine := by
  unfold recordsOf recognised
  rw [List.map_flatMap]
  rw [List.flatMap_def]
  congr 1
  apply List.map_congr_left
  intro i _
  rw [parseShare_eq, workerLines_eq]

theorem mem_significant {ls : List Str} {l : Str} (h : l ∈ significant ls) : l ∈ ls ∧ 11 ≤ l.length := by
  simpa [significant] using h

theorem mem_recognised {n : Nat} {lines : List Str} {l : Str} (h : l ∈ recognised n lines) :
    l ∈ lines ∧ 11 ≤ l.length ∧ ¬ Malformed l := by
  simp only [recognised, List.mem_flatMap] at h
  obtain ⟨i, _, hl⟩ := h
  obtain ⟨h1, h2⟩ := mem_significant hl
  have h3 : ∀ (ls : List Str), l ∈ ls.takeWhile (fun l => ¬ Malformed l) → l ∈ ls ∧ ¬ Malformed l := by
    intro ls
    induction ls with
    | nil => simp
    | cons a ls ih =>
      intro hl
      rw [List.takeWhile_cons] at hl
      split at hl
      · next ha =>
        rcases List.mem_cons.mp hl with rfl | hl
        · exact ⟨by simp, by simpa using ha⟩
        · exact ⟨by simp [(ih hl).1], (ih hl).2⟩
      · simp at hl
  obtain ⟨h4, h5⟩ := h3 _ h1
  rw [← workerLines_eq] at h4
  exact ⟨mem_share h4, h2, h5⟩

theorem recognised_shape {n : Nat} {lines : List Str} : ∀ r ∈ (recognised n lines).map recOfLine, Shape r := by
  rw [← recordsOf_eq]; exact recordsOf_shape n lines

/-- Without malformed lines, everything significant is recognised, for any worker count. -/
theorem recognised_eq {n : Nat} (hn : 0 < n) {lines : List Str} (h : ∀ l ∈ lines, ¬ Malformed l) :
    recognised n lines = significant lines := by
  unfold recognised
  have : ∀ i, (workerLines n lines i).takeWhile (fun l => ¬ Malformed l) = workerLines n lines i := by
    intro i
    have hm : ∀ l ∈ workerLines n lines i, ¬ Malformed l := by
      intro l hl
      rw [← workerLines_eq] at hl
      exact h l (mem_share hl)
    generalize workerLines n lines i = ls at hm
    induction ls with
    | nil => rfl
    | cons a ls ih =>
      rw [List.takeWhile_cons, if_pos (by simpa using hm a (by simp)),
        ih (fun l hl => hm l (by simp [hl]))]
  simp only [this]
  have hw : ∀ i, workerLines n lines i = share lines n i := fun i => (workerLines_eq n lines i).symm
  simp only [hw]
  conv => rhs; rw [← flatten_shares lines n hn]
  simp [significant, List.flatMap_def, List.filter_flatten, Function.comp_def]

/-! ### Checksums -/

theorem sumFields_eq : ∀ (fs : List Str) (s : Nat), s < 256 →
    sumFields fs s = (fs.mapM specByte).map (fun bs => (s + bs.sum) % 256) := by
  intro fs
  induction fs with
  | nil => intro s hs; simp [sumFields, Nat.mod_eq_of_lt hs]
  | cons f fs ih =>
    intro s hs
    unfold sumFields
    rw [hexToByte_eq, List.mapM_cons]
    cases specByte f with
    | none => rfl
    | some b =>
      simp only [Option.bind_eq_bind, Option.bind_some]
      rw [ih _ (Nat.mod_lt _ (by omega))]
      cases hm : List.mapM specByte fs with
      | none => rfl
      | some bs =>
        simp only [Option.map_some, Option.bind_some, Option.pure_def, List.sum_cons, Option.some.injEq]
        omega

theorem checksumOk_recOfLine (l : Str) : checksumOk (recOfLine l) = true ↔ LineSumOk l := by
  unfold checksumOk
  have : ([(recOfLine l).byteCount, (recOfLine l).addressField.take 2,
      ((recOfLine l).addressField.drop 2).take 2, (recOfLine l).recordType]
      ++ (recOfLine l).data ++ [(recOfLine l).checksum]) = fields l := by
    simp [recOfLine, fields, List.take_take, List.drop_take]
  rw [this, sumFields_eq _ _ (by omega)]
  unfold LineSumOk
  cases (fields l).mapM specByte with
  | none => simp
  | some bs => simp

/-! ### Well-formed lines -/

theorem pairBytes_cons2 {a b : Char} {rest : Str} {bs : List Nat} (h : pairBytes (a :: b :: rest) = some bs) :
    ∃ x xs, bs = x :: xs ∧ specByte [a, b] = some x ∧ pairBytes rest = some xs := by
  unfold pairBytes at h
  split at h
  · next x xs hx hxs => exact ⟨x, xs, by simpa using h.symm, hx, hxs⟩
  · simp at h

theorem pairBytes_nonempty {s : Str} {x : Nat} {xs : List Nat} (h : pairBytes s = some (x :: xs)) :
    ∃ a b rest, s = a :: b :: rest ∧ specByte [a, b] = some x ∧ pairBytes rest = some xs := by
  match s, h with
  | [], h => simp [pairBytes] at h
  | [_], h => simp [pairBytes] at h
  | a :: b :: rest, h =>
    obtain ⟨y, ys, he, h1, h2⟩ := pairBytes_cons2 h
    simp at he
    obtain ⟨rfl, rfl⟩ := he
    exact ⟨a, b, rest, rfl, h1, h2⟩

theorem pairBytes_length : ∀ (bs : List Nat) (s : Str), pairBytes s = some bs → s.length = 2 * bs.length := by
  intro bs
  induction bs with
  | nil =>
    intro s h
    match s, h with
    | [], _ => rfl
    | [_], h => simp [pairBytes] at h
    | a :: b :: rest, h => obtain ⟨y, ys, he, _⟩ := pairBytes_cons2 h; simp at he
  | cons x xs ih =>
    intro s h
    obtain ⟨a, b, rest, rfl, _, h2⟩ := pairBytes_nonempty h
    have := ih rest h2
    simp; omega

theorem pairBytes_payload : ∀ (ds : List Nat) (d : Nat) (s : Str), pairBytes s = some (d :: ds) →
    (payloadPairs s).mapM specByte = some ((d :: ds).dropLast) ∧
    specByte (s.drop (s.length - 2)) = some ((d :: ds).getLast (by simp)) := by
  intro ds
  induction ds with
  | nil =>
    intro d s h
    obtain ⟨a, b, rest, rfl, h1, h2⟩ := pairBytes_nonempty h
    have := pairBytes_length [] rest h2
    have hr : rest = [] := List.length_eq_zero_iff.mp (by simpa using this)
    subst hr
    exact ⟨rfl, h1⟩
  | cons x xs ih =>
    intro d s h
    obtain ⟨a, b, rest, rfl, h1, h2⟩ := pairBytes_nonempty h
    obtain ⟨i1, i2⟩ := ih x rest h2
    have hl := pairBytes_length _ rest h2
    simp only [List.length_cons] at hl
    rw [payloadPairs_long (by simp; omega)]
    constructor
    · simp only [List.take_succ_cons, List.take_zero, List.drop_succ_cons, List.drop_zero,
        List.mapM_cons, h1, Option.bind_eq_bind, Option.bind_some, i1]
      simp
    · have : (a :: b :: rest).drop ((a :: b :: rest).length - 2) = rest.drop (rest.length - 2) := by
        simp only [List.length_cons]
        rw [show rest.length + 1 + 1 - 2 = (rest.length - 2) + 2 by omega]
        rfl
      rw [this, i2]
      simp

/-- What `recOfLine` contains for a line that decodes. -/
structure Decoded (r : Record) (rc : Rec) : Prop where
  typ : specByte r.recordType = some rc.typ
  addr : ∃ ah al, decodeString r.addressField = some [ah, al] ∧ rc.addr = ah * 256 + al ∧ ah < 256 ∧ al < 256
  data : r.data.mapM specByte = some rc.data
  offset : r.recordType = extendedLinearAddressRecordToken → 2 ≤ rc.data.length →
    ∃ s0 s1, r.offset = s0 ++ s1 ∧ specByte s0 = some (rc.data.getD 0 0) ∧
      specByte s1 = some (rc.data.getD 1 0)
  fresh : r.recordType ≠ extendedLinearAddressRecordToken → r.offset = zeroOffset
  sum : checksumOk r = true ↔ rc.SumOk

theorem specByte_lt {s : Str} {v : Nat} (h : specByte s = some v) : v < 256 := by
  rw [← hexToByte_eq] at h
  obtain ⟨_, _, _, _, _, _, _, _, h⟩ := hexToByte_pair h
  exact h

theorem decodeString_two {s t : Str} {x y : Nat} (h1 : specByte s = some x) (h2 : specByte t = some y) :
    decodeString (s ++ t) = some [x, y] := by
  rw [← hexToByte_eq] at h1 h2
  rw [decodeString_append_pair h1]
  have : decodeString t = some [y] := by
    have := decodeString_append_pair (t := []) h2
    rw [List.append_nil] at this
    rw [this]; rfl
  rw [this]; rfl

theorem decodeLine_some {l : Str} {rc : Rec} (h : decodeLine l = some rc) :
    11 ≤ l.length ∧ l.head? = some ':' ∧ l.length = 2 * rc.data.length + 11 ∧
      Decoded (recOfLine l) rc ∧
      ∃ c a0 a1, (fields l).mapM specByte = some ([c, a0, a1, rc.typ] ++ rc.data ++ [rc.ck]) ∧
        c = rc.count ∧ a0 * 256 + a1 = rc.addr ∧ a0 < 256 ∧ a1 < 256 := by
  unfold decodeLine at h
  split at h
  · next body =>
    split at h
    · next cnt ah al ty d rest hp =>
      simp only [Option.some.injEq] at h
      subst h
      obtain ⟨c0, c1, s1, rfl, hc, hp⟩ := pairBytes_nonempty hp
      obtain ⟨a0, a1, s2, rfl, ha, hp⟩ := pairBytes_nonempty hp
      obtain ⟨b0, b1, s3, rfl, hb, hp⟩ := pairBytes_nonempty hp
      obtain ⟨t0, t1, s4, rfl, ht, hp⟩ := pairBytes_nonempty hp
      have hl := pairBytes_length _ _ hp
      obtain ⟨hpay, hck⟩ := pairBytes_payload _ _ _ hp
      have hlen : (':' :: c0 :: c1 :: a0 :: a1 :: b0 :: b1 :: t0 :: t1 :: s4).length = s4.length + 9 := by simp
      have hcklast : List.drop (s4.length + 9 - 2) (':' :: c0 :: c1 :: a0 :: a1 :: b0 :: b1 :: t0 :: t1 :: s4)
          = s4.drop (s4.length - 2) := by
        simp only [List.length_cons] at hl
        rw [show s4.length + 9 - 2 = (s4.length - 2) + 9 by omega]
        rfl
      have hfields : (fields (':' :: c0 :: c1 :: a0 :: a1 :: b0 :: b1 :: t0 :: t1 :: s4)).mapM specByte
          = some ([cnt, ah, al, ty] ++ (d :: rest).dropLast ++ [(d :: rest).getLast (by simp)]) := by
        unfold fields
        rw [hlen, hcklast]
        simp only [List.drop_succ_cons, List.drop_zero, List.take_succ_cons, List.take_zero,
          List.mapM_append, List.mapM_cons, List.mapM_nil, hc, ha, hb, ht, hpay, hck,
          Option.bind_eq_bind, Option.bind_some, Option.pure_def]
      refine ⟨?_, rfl, ?_, ?_, ?_⟩
      · simp only [List.length_cons] at hl ⊢; omega
      · simp only [List.length_cons, List.length_dropLast] at hl ⊢; omega
      · refine ⟨?_, ?_, ?_, ?_, ?_, ?_⟩
        · simpa [recOfLine] using ht
        · refine ⟨ah, al, ?_, rfl, specByte_lt ha, specByte_lt hb⟩
          have := decodeString_two ha hb
          simpa [recOfLine] using this
        · simpa [recOfLine] using hpay
        · intro hela h2
          have hela' : [t0, t1] = ['0', '4'] := hela
          simp only [List.length_dropLast, List.length_cons] at h2
          match rest, h2, hp with
          | e :: f :: rest, _, hp =>
            obtain ⟨d0, d1, s5, rfl, hd, hp⟩ := pairBytes_nonempty hp
            obtain ⟨e0, e1, s6, rfl, he, hp⟩ := pairBytes_nonempty hp
            refine ⟨[d0, d1], [e0, e1], ?_, ?_, ?_⟩
            · simp only [recOfLine, List.drop_succ_cons, List.drop_zero, List.take_succ_cons,
                List.take_zero, hela', if_true]
              rfl
            · simpa using hd
            · simpa using he
          | [e], h2, _ => simp at h2
          | [], h2, _ => simp at h2
        · intro hne
          have hne' : ¬ [t0, t1] = ['0', '4'] := by
            intro hh; exact hne (by simp only [recOfLine]; exact hh)
          simp only [recOfLine, List.drop_succ_cons, List.drop_zero, List.take_succ_cons,
            List.take_zero, hne', if_false]
        · rw [checksumOk_recOfLine]
          unfold LineSumOk
          rw [hfields]
          have ha' := specByte_lt ha
          have hb' := specByte_lt hb
          simp only [Option.some.injEq, exists_eq_left', Rec.SumOk]
          simp only [List.sum_append, List.sum_cons, List.sum_nil]
          have h1 : (ah * 256 + al) / 256 = ah := by omega
          have h2 : (ah * 256 + al) % 256 = al := by omega
          rw [h1, h2]
          constructor <;> intro h <;> omega
      · exact ⟨cnt, ah, al, hfields, rfl, rfl, specByte_lt ha, specByte_lt hb⟩
    · simp at h
  · simp at h

theorem specByte_zero : ∀ {s : Str}, specByte s = some 0 ↔ s = ['0', '0'] := by
  intro s
  constructor
  · intro h
    obtain ⟨a, ha, b, hb, rfl⟩ := specByte_mem h
    have : ∀ a ∈ digitChars, ∀ b ∈ digitChars, specByte [a, b] = some 0 → [a, b] = ['0', '0'] := by
      decide +kernel
    exact this a ha b hb h
  · rintro rfl; decide

theorem specByte_four : ∀ {s : Str}, specByte s = some 4 ↔ s = ['0', '4'] := by
  intro s
  constructor
  · intro h
    obtain ⟨a, ha, b, hb, rfl⟩ := specByte_mem h
    have : ∀ a ∈ digitChars, ∀ b ∈ digitChars, specByte [a, b] = some 4 → [a, b] = ['0', '4'] := by
      decide +kernel
    exact this a ha b hb h
  · rintro rfl; decide

theorem Decoded.isData {r : Record} {rc : Rec} (h : Decoded r rc) : IsData r ↔ rc.typ = 0 := by
  constructor
  · intro hd
    have := h.typ
    rw [hd] at this
    exact (Option.some.inj ((specByte_zero (s := dataRecordToken)).mpr rfl ▸ this)).symm
  · intro hd
    have := h.typ
    rw [hd] at this
    exact specByte_zero.mp this

theorem Decoded.isEla {r : Record} {rc : Rec} (h : Decoded r rc) : IsEla r ↔ rc.typ = 4 := by
  constructor
  · intro hd
    have := h.typ
    rw [hd] at this
    exact (Option.some.inj ((specByte_four (s := extendedLinearAddressRecordToken)).mpr rfl ▸ this)).symm
  · intro hd
    have := h.typ
    rw [hd] at this
    exact specByte_four.mp this

theorem wellFormed_not_malformed {l : Str} (h : WellFormedLine l) : ¬ Malformed l := by
  obtain ⟨rc, hd, hela⟩ := h
  obtain ⟨h11, hhead, hlen, hdec, _⟩ := decodeLine_some hd
  rintro ⟨_, hm | ⟨ht, hlt⟩⟩
  · exact hm hhead
  · have : rc.typ = 4 := hdec.isEla.mp ht
    have := hela this
    omega

theorem wellFormed_recognised {n : Nat} (hn : 0 < n) {lines : List Str} (h : WellFormed lines) :
    recognised n lines = significant lines := by
  apply recognised_eq hn
  intro l hl hm
  exact wellFormed_not_malformed (h l (by simp [significant, hl, hm.1])) hm

/-- Model records and decoded lines side by side. -/
inductive AllDecoded : List Record → List Rec → Prop
  | nil : AllDecoded [] []
  | cons {r rc rs rcs} : Decoded r rc → (rc.typ = 4 → 2 ≤ rc.data.length) → AllDecoded rs rcs →
      AllDecoded (r :: rs) (rc :: rcs)

theorem allDecoded_of_wf : ∀ (ls : List Str), (∀ l ∈ ls, WellFormedLine l) →
    AllDecoded (ls.map recOfLine) (ls.filterMap decodeLine) := by
  intro ls
  induction ls with
  | nil => intro _; exact .nil
  | cons l ls ih =>
    intro h
    obtain ⟨rc, hd, hela⟩ := h l (by simp)
    obtain ⟨_, _, _, hdec, _⟩ := decodeLine_some hd
    rw [List.map_cons, List.filterMap_cons_some hd]
    exact .cons hdec hela (ih (fun l hl => h l (by simp [hl])))

theorem AllDecoded.any_bad {rs : List Record} {rcs : List Rec} (h : AllDecoded rs rcs) :
    rs.any (fun r => !checksumOk r) = true ↔ ¬ ∀ rc ∈ rcs, rc.SumOk := by
  induction h with
  | nil => simp
  | @cons r rc rs rcs hd _ _ ih =>
    have := hd.sum
    rw [List.any_cons, Bool.or_eq_true, ih]
    simp only [List.forall_mem_cons, Classical.not_and_iff_not_or_not, Bool.not_eq_true']
    by_cases hs : rc.SumOk
    · simp [hs, this.mpr hs]
    · have : checksumOk r = false := by
        cases hc : checksumOk r with
        | false => rfl
        | true => exact absurd (this.mp hc) hs
      simp [hs, this]

theorem AllDecoded.fresh {rs : List Record} {rcs : List Rec} (h : AllDecoded rs rcs) : Fresh rs := by
  induction h with
  | nil => intro r hr; simp at hr
  | cons hd _ _ ih =>
    intro r' hr' hdata
    rcases List.mem_cons.mp hr' with rfl | hr'
    · exact hd.fresh (fun he => not_data_of_ela he hdata)
    · exact ih r' hr' hdata

/-! ### Segments of data records -/

/-- Upper half in force at each data record, as strings. -/
def recSegs : Option Str → List Record → List (Option Str)
  | _, [] => []
  | o, r :: rs =>
    if IsEla r then recSegs (some r.offset) rs
    else if IsData r then o :: recSegs o rs
    else recSegs o rs

theorem segOf_cons_succ (r : Record) (rs : List Record) (i : Nat) :
    segOf (r :: rs) (i + 1) = if IsEla r then some ((segOf rs i).getD r.offset) else segOf rs i := by
  unfold segOf
  simp only [List.take_succ_cons]
  by_cases he : IsEla r
  · rw [List.filter_cons_of_pos (by simpa using he), if_pos he, List.getLast?_cons]
    simp only [Option.map_some]
    cases hgl : (List.filter (fun r => decide (r.recordType = extendedLinearAddressRecordToken))
      (List.take i rs)).getLast? <;> simp
  · rw [List.filter_cons_of_neg (by simpa using he), if_neg he]

theorem segOf_mem (rs : List Record) : ∀ (o : Option Str) (i : Nat) (r : Record), rs[i]? = some r → IsData r →
    (segOf rs i).or o ∈ recSegs o rs := by
  induction rs with
  | nil => intro o i r h; simp at h
  | cons r rs ih =>
    intro o i ri hi hd
    unfold recSegs
    cases i with
    | zero =>
      simp at hi; subst hi
      rw [if_neg (fun he => not_data_of_ela he hd), if_pos hd]
      simp [segOf]
    | succ i =>
      simp at hi
      rw [segOf_cons_succ]
      by_cases he : IsEla r
      · rw [if_pos he, if_pos he]
        have := ih (some r.offset) i ri hi hd
        cases hs : segOf rs i <;> simpa [hs] using this
      · rw [if_neg he, if_neg he]
        split
        · exact List.mem_cons_of_mem _ (ih o i ri hi hd)
        · exact ih o i ri hi hd

theorem recSegs_pairwise (P : Option Str → Option Str → Prop) (rs : List Record) :
    ∀ (o : Option Str), (recSegs o rs).Pairwise P → ∀ (b i : Nat) (rb ri : Record), b < i →
      rs[b]? = some rb → rs[i]? = some ri → IsData rb → IsData ri →
      P ((segOf rs b).or o) ((segOf rs i).or o) := by
  induction rs with
  | nil => intro o _ b i rb ri _ h; simp at h
  | cons r rs ih =>
    intro o hp b i rb ri hlt hb hi hdb hdi
    cases i with
    | zero => omega
    | succ i =>
      simp at hi
      cases b with
      | zero =>
        simp at hb; subst hb
        have hne : ¬ IsEla r := fun he => not_data_of_ela he hdb
        unfold recSegs at hp
        rw [if_neg hne, if_pos hdb, List.pairwise_cons] at hp
        have := hp.1 _ (segOf_mem rs o i ri hi hdi)
        rw [segOf_cons_succ, if_neg hne]
        simpa [segOf] using this
      | succ b =>
        simp at hb
        rw [segOf_cons_succ, segOf_cons_succ]
        unfold recSegs at hp
        by_cases he : IsEla r
        · rw [if_pos he] at hp
          have := ih _ hp b i rb ri (by omega) hb hi hdb hdi
          rw [if_pos he, if_pos he]
          cases hs : segOf rs b <;> cases ht : segOf rs i <;> simpa [hs, ht] using this
        · rw [if_neg he] at hp
          rw [if_neg he, if_neg he]
          by_cases hd : IsData r
          · rw [if_pos hd, List.pairwise_cons] at hp
            exact ih _ hp.2 b i rb ri (by omega) hb hi hdb hdi
          · rw [if_neg hd] at hp
            exact ih _ hp b i rb ri (by omega) hb hi hdb hdi

/-- The upper halves as strings and as numbers: "0000" iff zero. -/
def SegRel (a : Option Str) (x : Option Nat) : Prop := (a = some zeroOffset ↔ x = some 0)

theorem AllDecoded.segs {rs : List Record} {rcs : List Rec} (h : AllDecoded rs rcs) :
    ∀ (a : Option Str) (x : Option Nat), SegRel a x →
      (dataSegs x rcs).Pairwise (fun a b => a = some 0 → b = some 0) →
      (recSegs a rs).Pairwise (fun a b => a = some zeroOffset → b = some zeroOffset) ∧
      ((∀ y ∈ dataSegs x rcs, y = some 0) → ∀ y ∈ recSegs a rs, y = some zeroOffset) := by
  induction h with
  | nil => intro a x _ _; simp [recSegs]
  | @cons r rc rs rcs hd hela _ ih =>
    intro a x hrel hp
    unfold dataSegs at hp ⊢
    unfold recSegs
    by_cases he : IsEla r
    · have ht := hd.isEla.mp he
      rw [if_pos ht] at hp ⊢
      rw [if_pos he]
      refine ih _ _ ?_ hp
      obtain ⟨s0, s1, hoff, h0, h1⟩ := hd.offset he (hela ht)
      unfold SegRel
      rw [hoff]
      simp only [Option.some.injEq]
      have l0 : s0.length = 2 := by rw [← hexToByte_eq] at h0; exact hexToByte_length h0
      constructor
      · intro h
        have e0 : s0 = ['0', '0'] := by
          have := congrArg (List.take 2) h
          rwa [List.take_append_of_le_length (by omega), List.take_of_length_le (by omega)] at this
        have e1 : s1 = ['0', '0'] := by
          have := congrArg (List.drop 2) h
          rwa [List.drop_append_of_le_length (by omega), List.drop_of_length_le (by omega),
            List.nil_append] at this
        rw [specByte_zero.mpr e0] at h0
        rw [specByte_zero.mpr e1] at h1
        have h0' := Option.some.inj h0
        have h1' := Option.some.inj h1
        rw [← h0', ← h1']
      · intro h
        have z0 : rc.data.getD 0 0 = 0 := by omega
        have z1 : rc.data.getD 1 0 = 0 := by omega
        rw [z0] at h0
        rw [z1] at h1
        rw [specByte_zero.mp h0, specByte_zero.mp h1]
        rfl
    · have ht : ¬ rc.typ = 4 := fun h => he (hd.isEla.mpr h)
      rw [if_neg ht] at hp ⊢
      rw [if_neg he]
      by_cases hdt : IsData r
      · have ht0 := hd.isData.mp hdt
        rw [if_pos ht0] at hp ⊢
        rw [if_pos hdt]
        rw [List.pairwise_cons] at hp ⊢
        obtain ⟨h1, h2⟩ := ih a x hrel hp.2
        refine ⟨⟨?_, h1⟩, ?_⟩
        · intro y hy hz
          exact h2 (fun z hz' => hp.1 z hz' (hrel.mp hz)) y hy
        · intro hall y hy
          rcases List.mem_cons.mp hy with rfl | hy
          · exact hrel.mpr (hall x (by simp))
          · exact h2 (fun z hz => hall z (by simp [hz])) y hy
      · have ht0 : ¬ rc.typ = 0 := fun h => hdt (hd.isData.mpr h)
        rw [if_neg ht0] at hp ⊢
        rw [if_neg hdt]
        exact ih a x hrel hp

theorem AllDecoded.zeroLast {rs : List Record} {rcs : List Rec} (h : AllDecoded rs rcs)
    (hz : Spec.ZeroSegmentLast rcs) : ZeroSegmentLast rs := by
  have hp := (h.segs none none (by simp [SegRel]) hz).1
  intro b i rb ri hlt hb hi hdb hdi hseg
  have := recSegs_pairwise _ rs none hp b i rb ri hlt hb hi hdb hdi
  simp only [Option.or_none] at this
  exact this hseg

/-! ### Data bytes -/

theorem zipIdx_map_succ (ds : List Nat) (f : Nat × Nat → DataByte) (k : Nat) :
    (ds.zipIdx (k + 1)).map f = (ds.zipIdx k).map (fun p => f (p.1, p.2 + 1)) := by
  induction ds generalizing k with
  | nil => rfl
  | cons d ds ih => simp [List.zipIdx_cons, ih]

theorem calcDataLoop_eq {r : Record} {ah al oh ol : Nat}
    (ha : decodeString r.addressField = some [ah, al]) (ho : decodeString r.offset = some [oh, ol]) :
    ∀ (ss : List Str) (ds : List Nat) (k : Nat), ss.mapM specByte = some ds →
      calcDataLoop r k ss = some ⟨(ds.zipIdx k).map fun (b, i) =>
        ⟨(oh * 256 + ol) * 65536 + (ah * 256 + al + i) % 65536, b⟩, false⟩ := by
  intro ss
  induction ss with
  | nil => intro ds k h; simp at h; subst h; rfl
  | cons s ss ih =>
    intro ds k h
    rw [List.mapM_cons] at h
    cases hs : specByte s with
    | none => rw [hs] at h; simp at h
    | some b =>
      cases hss : ss.mapM specByte with
      | none => rw [hs, hss] at h; simp at h
      | some bs =>
        rw [hs, hss] at h
        simp only [Option.bind_eq_bind, Option.bind_some, Option.pure_def, Option.some.injEq] at h
        subst h
        unfold calcDataLoop
        rw [ha]
        simp only [uint16BE?, Option.bind_eq_bind, Option.bind_some]
        rw [ho]
        simp only
        rw [hexToByte_eq, hs]
        simp only [putUint16BE, List.cons_append, List.nil_append, uint32BE?, Option.bind_some]
        rw [ih bs (k + 1) hss]
        simp only [Option.bind_some, Option.pure_def, List.zipIdx_cons, List.map_cons]
        have haddr : ((oh * 256 + ol) * 256 + (ah * 256 + al + k % 65536) % 65536 / 256 % 256) * 256 +
            (ah * 256 + al + k % 65536) % 65536 % 256 =
            (oh * 256 + ol) * 65536 + (ah * 256 + al + k) % 65536 := by omega
        rw [haddr]

theorem AllDecoded.dataBytes {rs : List Record} {rcs : List Rec} (h : AllDecoded rs rcs) :
    ∀ (o : Str) (oh ol : Nat), decodeString o = some [oh, ol] →
      dataBytes (applySegments o rs) =
        (bytesFrom (oh * 256 + ol) rcs).map (fun p => ⟨p.1, p.2⟩) := by
  induction h with
  | nil => intro o oh ol _; rfl
  | @cons r rc rs rcs hd hela _ ih =>
    intro o oh ol ho
    unfold applySegments bytesFrom
    by_cases he : IsEla r
    · have ht := hd.isEla.mp he
      rw [if_pos he, if_pos ht]
      obtain ⟨s0, s1, hoff, h0, h1⟩ := hd.offset he (hela ht)
      have hdec : decodeString r.offset = some [rc.data.getD 0 0, rc.data.getD 1 0] := by
        rw [hoff]; exact decodeString_two h0 h1
      rw [← ih _ _ _ hdec]
      simp [Verif.Ihex.dataBytes, not_data_of_ela he]
    · have ht : ¬ rc.typ = 4 := fun h => he (hd.isEla.mpr h)
      rw [if_neg he, if_neg ht]
      by_cases hdt : IsData r
      · have ht0 := hd.isData.mp hdt
        rw [if_pos hdt, if_pos ht0, List.map_append, ← ih _ _ _ ho]
        obtain ⟨ah, al, ha, hadr, _, _⟩ := hd.addr
        have he' : entriesOf { r with offset := o } = ⟨(rc.data.zipIdx 0).map fun (b, i) =>
            ⟨(oh * 256 + ol) * 65536 + (ah * 256 + al + i) % 65536, b⟩, false⟩ := by
          unfold entriesOf calcDataEntries
          rw [calcDataLoop_eq (r := { r with offset := o }) ha ho r.data rc.data 0 hd.data]
          rfl
        have hdt' : ({ r with offset := o } : Record).recordType = dataRecordToken := hdt
        unfold Verif.Ihex.dataBytes
        rw [List.filter_cons_of_pos (by simpa using hdt'), List.map_cons, List.flatten_cons, he']
        simp [hadr, Function.comp_def]
      · have ht0 : ¬ rc.typ = 0 := fun h => hdt (hd.isData.mpr h)
        rw [if_neg hdt, if_neg ht0, ← ih _ _ _ ho]
        simp [Verif.Ihex.dataBytes, hdt]

/-! ### Inserting bytes -/

/-- Characterisation of the insertion loop: it succeeds iff all addresses are new and
distinct, and then the map is extended by exactly the given pairs. -/
theorem insertBytes_ok : ∀ (ds : List DataByte) (m : Mem),
    ((insertBytes m ds).err = none ↔
      (ds.map (·.address)).Nodup ∧ ∀ d ∈ ds, m d.address = none) ∧
    ((insertBytes m ds).err = none → ∀ a v, (insertBytes m ds).map a = some v ↔
      m a = some v ∨ (⟨a, v⟩ : DataByte) ∈ ds) := by
  intro ds
  induction ds with
  | nil => intro m; simp [insertBytes]
  | cons d ds ih =>
    intro m
    unfold insertBytes
    cases hm : m d.address with
    | some v => simp [hm]
    | none =>
      simp only
      obtain ⟨h1, h2⟩ := ih (m.insert d.address d.value)
      have key : (insertBytes (m.insert d.address d.value) ds).err = none ↔
          ((d :: ds).map (·.address)).Nodup ∧ ∀ d' ∈ d :: ds, m d'.address = none := by
        rw [h1]
        simp only [List.map_cons, List.nodup_cons, List.mem_map, List.forall_mem_cons, hm, true_and]
        constructor
        · rintro ⟨hn, hall⟩
          refine ⟨⟨?_, hn⟩, ?_⟩
          · rintro ⟨d', hd', heq⟩
            have := hall d' hd'
            simp [Mem.insert, heq] at this
          · intro d' hd'
            have := hall d' hd'
            simp only [Mem.insert] at this
            split at this
            · simp at this
            · exact this
        · rintro ⟨⟨hn1, hn⟩, hall⟩
          refine ⟨hn, ?_⟩
          intro d' hd'
          simp only [Mem.insert]
          split
          · next heq => exact absurd ⟨d', hd', heq⟩ hn1
          · exact hall d' hd'
      refine ⟨key, ?_⟩
      intro herr a v
      rw [h2 herr]
      obtain ⟨hnodup, _⟩ := key.mp herr
      simp only [List.map_cons, List.nodup_cons, List.mem_map] at hnodup
      simp only [Mem.insert, List.mem_cons]
      by_cases ha : a = d.address
      · subst ha
        simp only [if_true, Option.some.injEq]
        constructor
        · rintro (rfl | h)
          · right; left; rfl
          · right; right; exact h
        · rintro (h | h | h)
          · rw [hm] at h; simp at h
          · left; rw [← h]
          · exact absurd ⟨_, h, rfl⟩ hnodup.1
      · rw [if_neg ha]
        constructor
        · rintro (h | h)
          · exact Or.inl h
          · exact Or.inr (Or.inr h)
        · rintro (h | h | h)
          · exact Or.inl h
          · exact absurd (by rw [← h]) ha
          · exact Or.inr h

/-- Errors of the insertion loop are collisions. -/
theorem insertBytes_err : ∀ (ds : List DataByte) (m : Mem) (e : ParseError),
    (insertBytes m ds).err = some e → ∃ a v w, e = .collision a v w := by
  intro ds
  induction ds with
  | nil => intro m e h; simp [insertBytes] at h
  | cons d ds ih =>
    intro m e h
    unfold insertBytes at h
    split at h
    · next v _ => simp at h; exact ⟨_, _, _, h.symm⟩
    · exact ih _ _ h

/-! ### The whole file -/

/-- Well-formed file: the parser computes the specified meaning. -/
theorem parse_wf {n : Nat} (hn : 0 < n) {lines : List Str} (hwf : WellFormed lines)
    (hz : Spec.ZeroSegmentLast (Spec.recs lines)) (sched : List Nat) :
    ∃ oo, parseHex n sched lines = some oo ∧ (∀ o, oo = some o →
      (o.err = none ↔ Consistent lines) ∧
      (o.err = none → ∀ a v, o.map a = some v ↔ (a, v) ∈ fileBytes lines)) := by
  rw [parseHex_eq hn, recordsOf_eq, wellFormed_recognised hn hwf]
  have had := allDecoded_of_wf (significant lines) hwf
  have hbad := had.any_bad
  refine ⟨_, rfl, ?_⟩
  split
  · next hany =>
    intro o ho
    simp only [Option.some.injEq] at ho
    subst ho
    have := hbad.mp hany
    refine ⟨⟨by simp, ?_⟩, by simp⟩
    intro hc
    exact absurd hc.1 this
  · next hany =>
    split
    · next hdone =>
      intro o ho
      simp only [Option.some.injEq] at ho
      subst ho
      have hfin := runOffsets_final (zero_mem_starts hn _) had.fresh (had.zeroLast hz) sched hdone
      have hrecs : (runOffsets (initOffsets n ((significant lines).map recOfLine)) sched).recs
          = applySegments zeroOffset ((significant lines).map recOfLine) := hfin
      rw [hrecs, had.dataBytes zeroOffset 0 0 (by decide)]
      have hsum : ∀ rc ∈ Spec.recs lines, rc.SumOk := by
        apply Classical.byContradiction
        intro hh
        exact hany (hbad.mpr hh)
      obtain ⟨h1, h2⟩ := insertBytes_ok
        ((bytesFrom (0 * 256 + 0) (List.filterMap decodeLine (significant lines))).map (fun p => (⟨p.1, p.2⟩ : DataByte)))
        Mem.empty
      constructor
      · rw [h1]
        simp only [List.map_map, Function.comp_def, Mem.empty, implies_true, and_true, Consistent,
          fileBytes, Spec.recs]
        constructor
        · intro h; exact ⟨hsum, h⟩
        · intro h; exact h.2
      · intro herr a v
        rw [h2 herr]
        simp only [Mem.empty, List.mem_map, fileBytes, Spec.recs]
        constructor
        · rintro (h | ⟨⟨x, y⟩, hp, h⟩)
          · simp at h
          · simp at h; obtain ⟨rfl, rfl⟩ := h; exact hp
        · intro h
          exact Or.inr ⟨(a, v), h, rfl⟩
    · intro o ho; simp at ho

end Verif.Ihex
