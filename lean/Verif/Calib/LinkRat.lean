import Verif.Calib.LinkConv
import Verif.Calib.RatExact

/-!
C68 for rational functions: from the text of the conversion method to the exact criterion of C45.
-/

namespace Verif.Link

open Verif.Go Verif.A2l Lang ModSpec FileSpec Analysis Decl Template

/-- C68 for RAT_FUNC: with the six numbers after the last COEFFS of the text, the conversion of a value that the function
can take gives a solution exactly if these numbers meet `C45_right`; without COEFFS, and if the equation is not quadratic,
it gives an error. Missing: all other rational functions, which are converted wrongly. -/
theorem C68_rat_func_partial {E : Env} (hw : Wf E) (hs : E.multi = false) {s j : Nat} {os : List ModSpec.Found} (hsc : Scan E s os j)
    {fv : Str → Rat} {cd : Calib.CalData Val} (hu : Uses fv cd os) {f : ModSpec.Found} (hf : f ∈ os) (hkind : f.kind = 4)
    {name long format unit : Str} (ht : MethodText E f.pos name long (str! "RAT_FUNC") format unit)
    (hlast : lastNamed os 4 name = some f.val) :
    ∃ fs cm, MethodParts E f.pos f.stop fs ∧ MethodInUse cd name cm ∧ ∀ (sqrt : Rat → Option Rat), Calib.Spec.IsSqrt sqrt → ∀ x : Rat,
      match lastPart fs (str! "COEFFS") with
      | none => Calib.convDecToPhy sqrt x cm cd = .err
      | some k =>
        ((∃ p, Calib.Spec.RatSolution (num E fv (k + 1)) (num E fv (k + 2)) (num E fv (k + 3)) (num E fv (k + 4))
            (num E fv (k + 5)) (num E fv (k + 6)) x p) →
          ((∃ p, Calib.convDecToPhy sqrt x cm cd = .ok (some p) ∧
              Calib.Spec.RatSolution (num E fv (k + 1)) (num E fv (k + 2)) (num E fv (k + 3)) (num E fv (k + 4))
                (num E fv (k + 5)) (num E fv (k + 6)) x p) ↔
            Calib.Props.C45_right (num E fv (k + 1)) (num E fv (k + 2)) (num E fv (k + 3)) (num E fv (k + 4))
              (num E fv (k + 5)) (num E fv (k + 6)) x)) ∧
        (num E fv (k + 1) = num E fv (k + 4) * x → Calib.convDecToPhy sqrt x cm cd = .err) := by
  obtain ⟨fs, cm, h1, h2, h3⟩ := C68_partial hw hs hsc hu hf hkind ht hlast
  refine ⟨fs, cm, h1, h2, fun sqrt hsq x => ?_⟩
  have h4 := (h3 sqrt x).2.1 rfl
  cases hl : lastPart fs (str! "COEFFS") with
  | none => rw [hl] at h4; exact h4
  | some k =>
    rw [hl] at h4
    simp only at h4 ⊢
    rw [h4]
    refine ⟨fun hp => Calib.Props.C45_exact hsq hp, fun h => ?_⟩
    unfold Calib.calcRatFunc
    simp only
    rw [if_pos (by grind)]

/-- The method `rat` of the example file says `x = 2 p + 1`: 3 has the solution 1, the criterion is not met, and converting 3
is an error. -/
example : ∃ cm, MethodInUse demoCd (str! "rat") cm ∧ ∀ sqrt, Calib.Spec.IsSqrt sqrt →
    Calib.convDecToPhy sqrt 3 cm demoCd = .err := by
  obtain ⟨fs, cm, h1, h2, h3⟩ := C68_rat_func_partial demo_wf demo_seq demo_scan demo_uses (f := found 32 45 4) (by simp [demoOs]) rfl
    demo_rat rat_last
  refine ⟨cm, h2, fun sqrt hs => ?_⟩
  have h4 := h3 sqrt hs 3
  rw [rat_part h1] at h4
  exact h4.2 (by decide +kernel)

end Verif.Link
