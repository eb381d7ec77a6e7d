import Verif.Conc.A2lBound
import Verif.Conc.WholeExact

/-!
C100: the number of steps of a whole call of `ReadCalibration`.
-/

namespace Verif.Conc.Whole
open Verif.Go Verif.A2l EndToEnd ReadCal
open Verif.Ihex (Mem splitLines splitOn1 splitOn2)

theorem Sys.run_snoc {Out : Type} {M : Sys Out} : ∀ {os : List M.O} {s s' s'' : M.S} {o : M.O}, M.run s os = some s' → M.step s' o = some s'' →
    M.run s (os ++ [o]) = some s''
  | [], s, s', s'', o, h, ho => by cases h; simp [Sys.run, ho]
  | p :: os, s, s', s'', o, h, ho => by
    obtain ⟨s1, h1, h2⟩ := Option.bind_eq_some_iff.1 h
    simp only [List.cons_append, Sys.run, h1, Option.bind_some]
    exact Sys.run_snoc h2 ho

/-- No run of the reader has more than `B` steps. -/
def Bounded {Out : Type} (M : Sys Out) (B : Nat) : Prop := ∀ os s, M.run M.start os = some s → os.length ≤ B

theorem fixed_bounded {Out : Type} (r : Out) (B : Nat) : Bounded (fixed r) B
  | [], _, _ => by simp
  | o :: _, _, _ => nomatch o

theorem a2l_bounded {I : A2lRun.Input} (hn : 0 < I.np) (hc : I.text.length + 1 < 2 ^ 32) :
    Bounded (a2lSys I) (3 * I.text.length + 5 * I.np + 61) := by
  intro os s h
  have key : ∀ (os : List A2lRun.Op) (s0 s : A2lRun.State), (a2lSys I).run s0 os = some s → A2lRun.run I s0 os = some s := by
    intro os
    induction os with
    | nil => exact fun _ _ h => h
    | cons o os ih =>
      intro s0 s h
      obtain ⟨s1, h1, h2⟩ := Option.bind_eq_some_iff.1 h
      exact Option.bind_eq_some_iff.2 ⟨s1, h1, ih _ _ h2⟩
  exact A2lRun.C100_a2l_text hn hc (key os _ s h)

theorem hex_run {R : Type} {P : HexRun.Prog R} {n : Nat} {lines : List Str} : ∀ (os : List HexRun.Op) (s0 s : HexRun.State P),
    (hexSys P n lines).run s0 os = some s → HexRun.run P n s0 os = some s
  | [], _, _, h => h
  | o :: os, s0, s, h => by
    obtain ⟨s1, h1, h2⟩ := Option.bind_eq_some_iff.1 h
    exact Option.bind_eq_some_iff.2 ⟨s1, h1, hex_run os _ _ h2⟩

theorem splitOn1_length (c : Char) : ∀ s : Str, (splitOn1 c s).length ≤ s.length + 1
  | [] => by simp [splitOn1]
  | x :: xs => by
    have ih := splitOn1_length c xs
    simp only [splitOn1]
    split
    · simp only [List.length_cons]; omega
    · split
      · simp
      · next h => rw [h] at ih; simp only [List.length_cons] at ih ⊢; omega

theorem splitOn2_length (c d : Char) : ∀ s : Str, (splitOn2 c d s).length ≤ s.length + 1
  | [] => by simp [splitOn2]
  | [x] => by simp [splitOn2]
  | x :: y :: xs => by
    have ih := splitOn2_length c d xs
    have ih' := splitOn2_length c d (y :: xs)
    simp only [splitOn2]
    split
    · simp only [List.length_cons]; omega
    · split
      · simp
      · next h => rw [h] at ih'; simp only [List.length_cons] at ih' ⊢; omega

theorem splitLines_length (s : Str) : (splitLines s).length ≤ s.length + 1 := by
  unfold splitLines
  dsimp only
  split
  · exact splitOn1_length _ _
  · exact splitOn2_length _ _ _

section
variable {A H E : Type} {MA : Sys (Except E A)} {MH : Sys (Except E H)} {IA : MA.S → Prop} {IH : MH.S → Prop} {PA : Except E A → Prop}
  {PH : Except E H → Prop}

theorem call_steps [Nonempty E] (la : Law MA IA PA) (lh : Law MH IH PH) {BA BH : Nat} (ha : Bounded MA BA) (hh : Bounded MH BH)
    {os : List (Op MA MH)} {s : State MA MH} (h : run (start MA MH) os = some s) : os.length ≤ BA + BH + 12 := by
  haveI : Nonempty (Except E A) := ⟨.error (Classical.choice inferInstance)⟩
  haveI : Nonempty (Except E H) := ⟨.error (Classical.choice inferInstance)⟩
  have key : ∀ (os : List (Op MA MH)) (t : State MA MH) (oa : List MA.O) (oh : List MH.O), Inv IA IH t → MA.run MA.start oa = some t.a →
      MH.run MH.start oh = some t.h → run t os = some s → oa.length + oh.length + os.length ≤ BA + BH + t.m.work := by
    intro os
    induction os with
    | nil =>
      intro t oa oh _ g1 g2 _
      have := ha _ _ g1
      have := hh _ _ g2
      simp only [List.length_nil]; omega
    | cons o os ih =>
      intro t oa oh hi ja jh hr
      obtain ⟨t1, hs, hr⟩ := Option.bind_eq_some_iff.1 hr
      have hi1 := step_inv la lh hi hs
      have hwork : ∀ ra rh w m, Agrees (MA.out t.a) ra → Agrees (MH.out t.h) rh → ReadCal.step ra rh t.m w = some m → m.work < t.m.work := by
        intro ra rh w m ga gh hm
        obtain ⟨ws, hw⟩ := hi.m ra rh ga gh
        exact ReadCal.step_work (ReadCal.inv_run (ReadCal.inv_init ra rh) hw) hm
      cases o with
      | a2l o =>
        obtain ⟨a, g1, rfl⟩ := Option.map_eq_some_iff.1 hs
        have := ih _ (oa ++ [o]) oh hi1 (Sys.run_snoc ja g1) jh hr
        simp only [List.length_cons, List.length_append, List.length_nil] at this ⊢; omega
      | hex o =>
        obtain ⟨x, g1, rfl⟩ := Option.map_eq_some_iff.1 hs
        have := ih _ oa (oh ++ [o]) hi1 ja (Sys.run_snoc jh g1) hr
        simp only [List.length_cons, List.length_append, List.length_nil] at this ⊢; omega
      | readA2L =>
        obtain ⟨r, hr', h0⟩ := Option.bind_eq_some_iff.1 hs
        obtain ⟨m, g1, rfl⟩ := Option.map_eq_some_iff.1 h0
        obtain ⟨rh, gh⟩ := agrees_some (MH.out t.h)
        have g2 := hwork r rh .a m (fun _ h => Option.some.inj (hr'.symm.trans h)) gh g1
        have := ih _ oa oh hi1 ja jh hr
        simp only [List.length_cons] at this ⊢; omega
      | readHex =>
        obtain ⟨r, hr', h0⟩ := Option.bind_eq_some_iff.1 hs
        obtain ⟨m, g1, rfl⟩ := Option.map_eq_some_iff.1 h0
        obtain ⟨ra, ga⟩ := agrees_some (MA.out t.a)
        have g2 := hwork ra r .h m ga (fun _ h => Option.some.inj (hr'.symm.trans h)) g1
        have := ih _ oa oh hi1 ja jh hr
        simp only [List.length_cons] at this ⊢; omega
      | main =>
        obtain ⟨m, g1, rfl⟩ := Option.map_eq_some_iff.1 hs
        obtain ⟨ra, ga⟩ := agrees_some (MA.out t.a)
        obtain ⟨rh, gh⟩ := agrees_some (MH.out t.h)
        have g2 := hwork ra rh .m m ga gh g1
        have := ih _ oa oh hi1 ja jh hr
        simp only [List.length_cons] at this ⊢; omega
  have := key os _ [] [] (start_inv la lh) rfl rfl h
  have hw : (start MA MH).m.work = 12 := rfl
  simp only [List.length_nil] at this
  omega

end

theorem hex_bounded {F : Files} (hn : 0 < F.cpus) :
    Bounded F.readHex (4 * (F.cpus + 1) * ((F.hex.getD []).length + 1) + 10 * F.cpus + 5) := by
  unfold Files.readHex
  split
  · exact fixed_bounded _ _
  · exact fixed_bounded _ _
  · next t _ ht =>
    intro os s h
    have h1 := HexRun.C99_ihex hn _ (hex_run os _ s h)
    have h2 := Nat.mul_le_mul_left (4 * (F.cpus + 1)) (splitLines_length t)
    refine Nat.le_trans h1 ?_
    rw [ht, Option.getD_some]
    omega
  · next t _ ht =>
    intro os s h
    have h1 := HexRun.C99_srec hn _ (hex_run os _ s h)
    have h2 := splitLines_length t
    have h3 : 4 * (t.length + 1) ≤ 4 * (F.cpus + 1) * (t.length + 1) := Nat.mul_le_mul_right _ (by omega)
    refine Nat.le_trans h1 ?_
    rw [ht, Option.getD_some]
    omega

theorem a2l_bounds {F : Files} (hn : 0 < F.cpus) (hc : (F.a2l.getD []).length + 1 < 2 ^ 32) :
    Bounded F.readA2L (3 * (F.a2l.getD []).length + 10 * F.cpus + 61) := by
  unfold Files.readA2L
  cases ht : F.a2l with
  | none => exact fixed_bounded _ _
  | some t =>
    rw [ht] at hc
    have := a2l_bounded (I := F.input t) (by unfold Files.input; dsimp only; omega) hc
    intro os s h
    refine Nat.le_trans (this os s h) ?_
    unfold Files.input
    dsimp only [Option.getD_some]
    omega

/-- C100: a call of `ReadCalibration` with an A2L file of `A` characters (fewer than `2 ^ 32 - 1`), a hex file of `H` characters and `n` CPUs makes
at most `3 A + 4 (n + 1) (H + 1) + 20 n + 78` steps, those of all goroutines of all parsers included, whatever the scheduler does. A file that
cannot be read counts as empty. -/
theorem C100_call {F : Files} (hn : 0 < F.cpus) (hc : (F.a2l.getD []).length + 1 < 2 ^ 32) {os : List (Op F.readA2L F.readHex)}
    {s : State F.readA2L F.readHex} (h : run (start F.readA2L F.readHex) os = some s) :
    os.length ≤ 3 * (F.a2l.getD []).length + 4 * (F.cpus + 1) * ((F.hex.getD []).length + 1) + 20 * F.cpus + 78 := by
  obtain ⟨IA, la⟩ := a2l_laws hn
  obtain ⟨IH, lh⟩ := hex_laws hn
  have := call_steps la lh (a2l_bounds hn hc) (hex_bounded hn) h
  omega

-- C100 on the files of C85: there are runs that end, and none has more than 2000 steps
example : (∃ os s r, run (start exampleFiles.readA2L exampleFiles.readHex) os = some s ∧ s.m.main = .ret r) ∧
    ∀ os s, run (start exampleFiles.readA2L exampleFiles.readHex) os = some s → os.length ≤ 2000 :=
  ⟨C85_completes (F := exampleFiles) (by decide) ⟨[], rfl⟩, fun _ _ h => Nat.le_trans (C100_call (by decide) (by decide +kernel) h) (by decide +kernel)⟩

end Verif.Conc.Whole
