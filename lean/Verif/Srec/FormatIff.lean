import Verif.Ihex.IffProps
import Verif.Srec.Props

/-!
Property C18, exactly: for which memory images the two formats give the same result.
-/

namespace Verif.Srec
open Verif.Go Spec
open Verif.Hex.Spec (Case)
open Verif.Ihex (Outcome)

/-- **C18 exactly:** the Intel HEX file and the S19 file of an image, read on any numbers of CPUs, give the same memory without an error
just if every line with data of the Intel HEX file is stored where it belongs (C05). -/
theorem C18_iff {n m : Nat} (hn : 0 < n) (hm : 0 < m) (c c' : Case)
    {bs : List Ihex.Spec.Block} {cs : List Block} (hb : ∀ b ∈ bs, b.Fits) (hc : ∀ b ∈ cs, b.Fits)
    (hbn : ((Ihex.Spec.imageBytes bs).map Prod.fst).Nodup) (hcn : ((imageBytes cs).map Prod.fst).Nodup)
    (hsame : ∀ p, p ∈ Ihex.Spec.imageBytes bs ↔ p ∈ imageBytes cs) {sched : List Nat} {o o' : Outcome}
    (h : Ihex.parseHex n sched (Ihex.Spec.encode c bs) = some (some o)) (h' : parseHex m (encode c' cs) = some o') :
    (o.err = none ∧ o'.err = none ∧ o.map = o'.map) ↔
      ∀ i r, (Ihex.Spec.recs (Ihex.Spec.encode c bs))[i]? = some r → r.typ = 0 → r.data ≠ [] →
        Ihex.StoredRight (Ihex.Spec.startsOf n (Ihex.Spec.recs (Ihex.Spec.encode c bs)).length) (Ihex.Spec.recs (Ihex.Spec.encode c bs)) i := by
  obtain ⟨o2, ho2, b1, b2⟩ := C13_roundtrip hm c' hc hcn
  rw [h'] at ho2
  cases ho2
  rw [← Ihex.C02_iff hn c hb hbn h]
  constructor
  · rintro ⟨h1, _, h3⟩
    exact ⟨h1, fun a v => by rw [h3, b2 a v, hsame]⟩
  · rintro ⟨h1, h2⟩
    refine ⟨h1, b1, ?_⟩
    funext a
    apply Option.ext
    intro v
    rw [h2, b2, hsame]

-- an image whose data of segment 0 comes first: one CPU does not store its second line where it belongs
example : (∀ b ∈ [(⟨true, 0, 0, [7]⟩ : Ihex.Spec.Block), ⟨false, 1, 1, [9]⟩], b.Fits) ∧
    ¬ Ihex.StoredRight (Ihex.Spec.startsOf 1 5) (Ihex.Spec.recs (Ihex.Spec.encode .upper [⟨true, 0, 0, [7]⟩, ⟨false, 1, 1, [9]⟩])) 3 := by
  decide +kernel

end Verif.Srec
