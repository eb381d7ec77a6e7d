import Verif.Ihex.Lines

/-!
Helper lemmas: the encoder of the specification produces well-formed lines with the
intended meaning.
-/

namespace Verif.Ihex

open Verif.Go Verif.Hex Verif.Hex.Spec Verif.Ihex.Spec

theorem specByte_printByte (c : Case) {b : Nat} (hb : b < 256) : specByte (printByte c b) = some b := by
  rw [← hexToByte_eq]; exact hexToByte_printByte c b hb

theorem pairBytes_print (c : Case) : ∀ (bs : List Nat), (∀ b ∈ bs, b < 256) →
    pairBytes ((bs.map (printByte c)).flatten) = some bs := by
  intro bs
  induction bs with
  | nil => intro _; rfl
  | cons b bs ih =>
    intro h
    have hb := specByte_printByte c (h b (by simp))
    have ih' := ih (fun x hx => h x (by simp [hx]))
    simp only [List.map_cons, List.flatten_cons, printByte, List.cons_append, List.nil_append]
    unfold pairBytes
    simp only [printByte] at hb
    rw [hb]
    rw [show (bs.map (printByte c)).flatten = (List.map (fun b => [c.digits.getD (b / 16) '?', c.digits.getD (b % 16) '?']) bs).flatten from rfl] at ih'
    have : (List.map (printByte c) bs).flatten = (List.map (fun b => [c.digits.getD (b / 16) '?', c.digits.getD (b % 16) '?']) bs).flatten := rfl
    rw [this, ih']

theorem length_print (c : Case) (bs : List Nat) : ((bs.map (printByte c)).flatten).length = 2 * bs.length := by
  induction bs with
  | nil => rfl
  | cons b bs ih => simp only [List.map_cons, List.flatten_cons, List.length_append, printByte_length, ih, List.length_cons]; omega

/-- The checksum byte of a printed line. -/
def cksum (bytes : List Nat) : Nat := (256 - bytes.sum % 256) % 256

theorem decodeLine_printLine (c : Case) {cnt ah al ty : Nat} {data : List Nat}
    (h : ∀ b ∈ [cnt, ah, al, ty] ++ data, b < 256) :
    decodeLine (printLine c ([cnt, ah, al, ty] ++ data)) =
      some ⟨cnt, ah * 256 + al, ty, data, cksum ([cnt, ah, al, ty] ++ data)⟩ := by
  unfold printLine decodeLine
  have hp := pairBytes_print c ([cnt, ah, al, ty] ++ data ++ [(256 - ([cnt, ah, al, ty] ++ data).sum % 256) % 256]) (by
    intro b hb
    rcases List.mem_append.mp hb with hb | hb
    · exact h b hb
    · simp at hb; omega)
  simp only
  rw [hp]
  cases data with
  | nil => rfl
  | cons d ds =>
    simp only [List.cons_append, List.nil_append]
    congr 2
    · rw [← List.cons_append, List.dropLast_concat]
    · simp only [← List.cons_append, List.getLast_concat, cksum]

theorem length_printLine (c : Case) (bs : List Nat) : (printLine c bs).length = 2 * bs.length + 3 := by
  unfold printLine
  rw [List.length_cons, length_print]
  simp; omega

theorem sumOk_cksum {cnt ah al ty : Nat} {data : List Nat} (_hah : ah < 256) (hal : al < 256) :
    (⟨cnt, ah * 256 + al, ty, data, cksum ([cnt, ah, al, ty] ++ data)⟩ : Rec).SumOk := by
  unfold Rec.SumOk cksum
  simp only [List.sum_append, List.sum_cons, List.sum_nil]
  have h1 : (ah * 256 + al) / 256 = ah := by omega
  have h2 : (ah * 256 + al) % 256 = al := by omega
  rw [h1, h2]
  omega

/-- The decoded lines of the blocks. -/
def blockRecs : (cur : Nat) → List Block → List Rec
  | _, [] => []
  | cur, b :: bs =>
    (if b.sel ∨ b.seg ≠ cur then
      [⟨2, 0, 4, [b.seg / 256, b.seg % 256], cksum [2, 0, 0, 4, b.seg / 256, b.seg % 256]⟩] else []) ++
    ⟨b.bytes.length, b.addr / 256 * 256 + b.addr % 256, 0, b.bytes,
      cksum ([b.bytes.length, b.addr / 256, b.addr % 256, 0] ++ b.bytes)⟩ :: blockRecs b.seg bs

theorem decode_segLine (c : Case) {seg : Nat} (h : seg < 65536) :
    decodeLine (segLine c seg) =
      some ⟨2, 0, 4, [seg / 256, seg % 256], cksum [2, 0, 0, 4, seg / 256, seg % 256]⟩ := by
  have := decodeLine_printLine c (cnt := 2) (ah := 0) (al := 0) (ty := 4) (data := [seg / 256, seg % 256])
    (by intro b hb; simp at hb; omega)
  simpa [segLine] using this

theorem decode_dataLine (c : Case) {b : Block} (h : b.Fits) :
    decodeLine (dataLine c b) =
      some ⟨b.bytes.length, b.addr / 256 * 256 + b.addr % 256, 0, b.bytes,
      cksum ([b.bytes.length, b.addr / 256, b.addr % 256, 0] ++ b.bytes)⟩ := by
  obtain ⟨_, h2, h3, h4, _⟩ := h
  unfold dataLine
  apply decodeLine_printLine
  intro x hx
  rcases List.mem_append.mp hx with hx | hx
  · simp at hx; omega
  · exact h2 x hx

theorem significant_append (a b : List Str) : significant (a ++ b) = significant a ++ significant b := by
  simp [significant]

theorem encodeBlocks_recs (c : Case) : ∀ (bs : List Block) (cur : Nat),
    (∀ b ∈ bs, b.Fits) →
    (∀ l ∈ encodeBlocks c cur bs, 11 ≤ l.length ∧ WellFormedLine l) ∧
    (encodeBlocks c cur bs).filterMap decodeLine = blockRecs cur bs := by
  intro bs
  induction bs with
  | nil => intro cur _; simp [encodeBlocks, blockRecs]
  | cons b bs ih =>
    intro cur h
    have hfit := h b (by simp)
    obtain ⟨i1, i2⟩ := ih b.seg (fun b' hb' => h b' (by simp [hb']))
    have hd := decode_dataLine c hfit
    have hs := decode_segLine c hfit.1
    have hdl : 11 ≤ (dataLine c b).length ∧ WellFormedLine (dataLine c b) := by
      refine ⟨?_, _, hd, by simp⟩
      unfold dataLine; rw [length_printLine]; simp; omega
    have hsl : 11 ≤ (segLine c b.seg).length ∧ WellFormedLine (segLine c b.seg) := by
      refine ⟨?_, _, hs, by simp⟩
      unfold segLine; rw [length_printLine]; simp
    unfold encodeBlocks blockRecs
    by_cases hsel : b.sel = true ∨ b.seg ≠ cur
    · simp only [hsel, if_true]
      constructor
      · intro l hl
        simp only [List.cons_append, List.nil_append, List.mem_cons] at hl
        rcases hl with rfl | rfl | hl
        · exact hsl
        · exact hdl
        · exact i1 l hl
      · simp only [List.cons_append, List.nil_append, List.filterMap_cons, hs, hd, i2]
    · simp only [hsel, if_false]
      constructor
      · intro l hl
        simp only [List.nil_append, List.mem_cons] at hl
        rcases hl with rfl | hl
        · exact hdl
        · exact i1 l hl
      · simp only [List.nil_append, List.filterMap_cons, hd, i2]

theorem decode_eofLine (c : Case) : decodeLine (eofLine c) = some ⟨0, 0, 1, [], 255⟩ := by
  have := decodeLine_printLine c (cnt := 0) (ah := 0) (al := 0) (ty := 1) (data := [])
    (by intro b hb; simp at hb; omega)
  simpa [eofLine, cksum] using this

theorem encode_wf (c : Case) {bs : List Block} (h : ∀ b ∈ bs, b.Fits) :
    WellFormed (encode c bs) ∧ Spec.recs (encode c bs) = blockRecs 0 bs ++ [⟨0, 0, 1, [], 255⟩] := by
  obtain ⟨i1, i2⟩ := encodeBlocks_recs c bs 0 h
  have heof : 11 ≤ (eofLine c).length ∧ WellFormedLine (eofLine c) :=
    ⟨by unfold eofLine; rw [length_printLine]; simp, _, decode_eofLine c, by simp⟩
  have hsig : significant (encode c bs) = encode c bs := by
    unfold significant encode
    apply List.filter_eq_self.mpr
    intro l hl
    rcases List.mem_append.mp hl with hl | hl
    · simpa using (i1 l hl).1
    · simp at hl; subst hl; simpa using heof.1
  constructor
  · intro l hl
    rw [hsig] at hl
    rcases List.mem_append.mp hl with hl | hl
    · exact (i1 l hl).2
    · simp at hl; subst hl; exact heof.2
  · unfold Spec.recs
    rw [hsig]
    unfold encode
    rw [List.filterMap_append, i2, List.filterMap_cons_some (decode_eofLine c)]
    rfl

theorem blockRecs_sumOk : ∀ (bs : List Block) (cur : Nat), (∀ b ∈ bs, b.Fits) →
    ∀ r ∈ blockRecs cur bs, r.SumOk := by
  intro bs
  induction bs with
  | nil => intro cur _ r hr; simp [blockRecs] at hr
  | cons b bs ih =>
    intro cur h r hr
    obtain ⟨h1, _, _, h4, _⟩ := h b (by simp)
    unfold blockRecs at hr
    rcases List.mem_append.mp hr with hr | hr
    · split at hr
      · simp only [List.mem_singleton] at hr
        subst hr
        have := sumOk_cksum (cnt := 2) (ah := 0) (al := 0) (ty := 4) (data := [b.seg / 256, b.seg % 256])
          (by omega) (by omega)
        simpa using this
      · simp at hr
    · rcases List.mem_cons.mp hr with rfl | hr
      · exact sumOk_cksum (by omega) (by omega)
      · exact ih b.seg (fun b' hb' => h b' (by simp [hb'])) r hr

theorem zipIdx_map_congr {α : Type _} (l : List Nat) (f g : Nat × Nat → α)
    (h : ∀ i x, i < l.length → f (x, i) = g (x, i)) : l.zipIdx.map f = l.zipIdx.map g := by
  apply List.map_congr_left
  rintro ⟨x, i⟩ hmem
  have := List.mem_zipIdx hmem
  exact h i x (by omega)

theorem bytesFrom_blockRecs : ∀ (bs : List Block) (cur : Nat) (tail : List Rec),
    (∀ b ∈ bs, b.Fits) → (∀ seg, bytesFrom seg tail = []) →
    bytesFrom cur (blockRecs cur bs ++ tail) = imageBytes bs := by
  intro bs
  induction bs with
  | nil => intro cur tail _ ht; simpa [blockRecs, imageBytes] using ht cur
  | cons b bs ih =>
    intro cur tail h ht
    obtain ⟨h1, _, _, _, h4⟩ := h b (by simp)
    have ih' := ih b.seg tail (fun b' hb' => h b' (by simp [hb'])) ht
    have hseg : b.seg / 256 * 256 + b.seg % 256 = b.seg := by omega
    have hdata : bytesFrom b.seg (⟨b.bytes.length, b.addr / 256 * 256 + b.addr % 256, 0, b.bytes,
        cksum ([b.bytes.length, b.addr / 256, b.addr % 256, 0] ++ b.bytes)⟩ :: (blockRecs b.seg bs ++ tail))
        = imageBytes (b :: bs) := by
      unfold bytesFrom
      simp only [show ¬ (0 = 4) by decide, if_false, if_true, ih']
      unfold imageBytes
      simp only [List.map_cons, List.flatten_cons]
      refine congrArg (· ++ _) ?_
      apply zipIdx_map_congr
      intro i x hi
      have : (b.addr / 256 * 256 + b.addr % 256 + i) % 65536 = b.addr + i := by omega
      rw [this, Nat.add_assoc]
    unfold blockRecs
    by_cases hsel : b.sel = true ∨ b.seg ≠ cur
    · simp only [hsel, if_true, List.cons_append, List.nil_append]
      rw [bytesFrom]
      simp only [if_true, List.getD_cons_zero, List.getD_cons_succ, hseg]
      exact hdata
    · simp only [hsel, if_false, List.cons_append, List.nil_append]
      have : b.seg = cur := by
        apply Classical.byContradiction
        intro hh; exact hsel (Or.inr hh)
      rw [← this]
      exact hdata

theorem dataSegs_blockRecs : ∀ (bs : List Block) (cur : Option Nat) (tail : List Rec),
    (∀ b ∈ bs, b.Fits) → (∀ seg, dataSegs seg tail = []) →
    dataSegs cur (blockRecs (cur.getD 0) bs ++ tail) = blockSegs cur bs := by
  intro bs
  induction bs with
  | nil => intro cur tail _ ht; simpa [blockRecs, blockSegs] using ht cur
  | cons b bs ih =>
    intro cur tail h ht
    obtain ⟨h1, _⟩ := h b (by simp)
    have ih' := fun cur => ih cur tail (fun b' hb' => h b' (by simp [hb'])) ht
    have hseg : b.seg / 256 * 256 + b.seg % 256 = b.seg := by omega
    unfold blockRecs blockSegs
    by_cases hsel : b.sel = true ∨ b.seg ≠ cur.getD 0
    · simp only [hsel, if_true, List.cons_append, List.nil_append]
      rw [dataSegs]
      simp only [if_true, List.getD_cons_zero, List.getD_cons_succ, hseg]
      rw [dataSegs]
      simp only [show ¬ (0 = 4) by decide, if_false, if_true]
      rw [← ih' (some b.seg)]
      rfl
    · simp only [hsel, if_false, List.cons_append, List.nil_append]
      have : b.seg = cur.getD 0 := by
        apply Classical.byContradiction
        intro hh; exact hsel (Or.inr hh)
      rw [dataSegs]
      simp only [show ¬ (0 = 4) by decide, if_false, if_true]
      rw [this, ← ih' cur]

theorem encode_meaning (c : Case) {bs : List Block} (h : ∀ b ∈ bs, b.Fits) :
    WellFormed (encode c bs) ∧ (∀ r ∈ Spec.recs (encode c bs), r.SumOk) ∧
    fileBytes (encode c bs) = imageBytes bs ∧
    (Spec.ZeroSegmentLast (Spec.recs (encode c bs)) ↔ ZeroBlocksLast bs) := by
  obtain ⟨h1, h2⟩ := encode_wf c h
  refine ⟨h1, ?_, ?_, ?_⟩
  · rw [h2]
    intro r hr
    rcases List.mem_append.mp hr with hr | hr
    · exact blockRecs_sumOk bs 0 h r hr
    · simp at hr; subst hr; decide
  · unfold fileBytes
    rw [h2]
    exact bytesFrom_blockRecs bs 0 _ h (by intro seg; rfl)
  · unfold Spec.ZeroSegmentLast ZeroBlocksLast
    rw [h2]
    have := dataSegs_blockRecs bs none [⟨0, 0, 1, [], 255⟩] h (by intro seg; rfl)
    rw [show blockRecs ((none : Option Nat).getD 0) bs = blockRecs 0 bs from rfl] at this
    rw [this]

end Verif.Ihex
