import Verif.A2l.ParseProps

/-!
C98: the number of statements a parse function executes. A statement of the model is one statement of the Go function (an assignment, a test of a
condition, a call of `tok.next()` or `strconv`, and so on).
-/

namespace Verif.A2l.Props

open Verif.Go Verif.A2l Lang Analysis

/-- Statements executed by a loop of at most `n` rounds; `c`: those of one round. -/
def iterCost (f : St → Out) (c : St → Nat) : Nat → St → Nat
  | 0, _ => 0
  | n + 1, s => c s + match f s with
    | .ok s' .cont => iterCost f c n s'
    | _ => 0

/-- Statements executed by a statement, those of the functions it calls included; `K` gives the results of calls and `C` the statements they execute. -/
def cost (E : Env) (K : PName → Nat → PRes) (C : PName → Nat → Nat) (n : Nat) : Stmt → St → Nat
  | .seq a b, s => cost E K C n a s + match exec E K n a s with
    | .ok s' .cont => cost E K C n b s'
    | _ => 0
  | .callBuf p, s => 1 + C p s.idx
  | .callField _ p, s => 1 + C p s.idx
  | .ite c a b, s => 1 + if holds E s c then cost E K C n a s else cost E K C n b s
  | .loop b, s => 1 + iterCost (exec E K n b) (cost E K C n b) n s
  | _, _ => 1

/-- Statements executed by a call of `p` at position `i` (rounds of each loop bounded by `n`, depth of calls by `d`, as in `run`). -/
def runCost (E : Env) (n : Nat) : Nat → PName → Nat → Nat
  | 0, _, _ => 0
  | d + 1, p, i =>
    if p = .parseModuleMultithreaded then 0
    else cost E (run E n d) (runCost E n d) n (body p) (St.init i)

/-- The price of a token inside a statement, if one token inside the functions it calls costs at most `B`, and what a call costs besides is `A`. -/
def need (A B : Nat) : Stmt → Nat × (Nat → Nat)
  | .seq a b => (max (need A B a).1 (need A B b).1, fun β => (need A B a).2 β + (need A B b).2 β)
  | .prev => (0, fun β => 1 + β)
  | .callBuf _ => (B, fun _ => 1 + A)
  | .callField _ _ => (B, fun _ => 1 + A)
  | .ite _ a b => (max (need A B a).1 (need A B b).1, fun β => 1 + max ((need A B a).2 β) ((need A B b).2 β))
  | .loop b => ((need A B b).1 + (need A B b).2 (need A B b).1, fun _ => 1 + (need A B b).2 (need A B b).1)
  | _ => (0, fun _ => 1)

/-- Bounds by the height of the call graph below a function: what a call costs besides the tokens it reads, and per token. -/
def fixedPart (r : Nat) : Nat := [0, 29, 93, 157, 221, 285, 349, 413].getD r 413
def perToken (r : Nat) : Nat := [0, 27, 118, 273, 492, 775, 1122, 1533].getD r 1533

theorem need_all (p : PName) (hp : p ≠ .parseModuleMultithreaded) :
    (need (fixedPart (rank p - 1)) (perToken (rank p - 1)) (body p)).1 ≤ perToken (rank p) ∧
    (need (fixedPart (rank p - 1)) (perToken (rank p - 1)) (body p)).2 (perToken (rank p)) ≤ fixedPart (rank p) := by
  cases p <;> first | exact absurd rfl hp | decide +kernel

theorem mono_tables : ∀ r < 8, ∀ q ≤ r, fixedPart q ≤ fixedPart r ∧ perToken q ≤ perToken r := by decide +kernel

theorem mul_up {c A B β i j : Nat} (hB : B ≤ β) (hij : i ≤ j) (h : c + B * i ≤ A + B * j) : c + β * i ≤ A + β * j := by
  obtain ⟨d, rfl⟩ : ∃ d, j = i + d := ⟨j - i, by omega⟩
  have h1 : B * d ≤ β * d := Nat.mul_le_mul_right d hB
  rw [Nat.mul_add] at h ⊢
  omega

theorem mul_le {β i j : Nat} (h : i ≤ j) : β * i ≤ β * j := Nat.mul_le_mul_left β h

/-- The rounds of a loop. -/
theorem iter_cost {E : Env} {f : St → Out} {c : St → Nat} {Inv : St → Prop} {α βb β : Nat}
    (hβ : βb + α ≤ β)
    (hstep : ∀ s, Inv s → ∃ s' k, f s = .ok s' k ∧ c s + βb * s.idx ≤ α + βb * s'.idx ∧
      match k with
      | .cont => Inv s' ∧ s.idx < s'.idx
      | .brk => s.idx ≤ s'.idx) :
    ∀ n s s' k, Inv s → iter f n s = .ok s' k → iterCost f c n s + β * s.idx ≤ α + β * s'.idx := by
  intro n
  induction n with
  | zero => intro s s' k _ h; cases h
  | succ n ih =>
    intro s s' k hs h
    obtain ⟨s1, k1, h1, h2, h3⟩ := hstep s hs
    simp only [iter, h1] at h
    simp only [iterCost, h1]
    cases k1 with
    | brk =>
      cases h
      have := mul_up (β := β) (by omega) h3 h2
      simpa using this
    | cont =>
      have h4 := ih s1 s' k h3.1 h
      obtain ⟨d, hd⟩ : ∃ d, s1.idx = s.idx + d + 1 := ⟨s1.idx - s.idx - 1, by have := h3.2; omega⟩
      have h5 : (βb + α) * (d + 1) ≤ β * (d + 1) := Nat.mul_le_mul_right _ hβ
      rw [hd] at h2 h4
      have e1 : βb * (s.idx + d + 1) = βb * s.idx + βb * (d + 1) := by rw [Nat.add_assoc, Nat.mul_add]
      have e2 : β * (s.idx + d + 1) = β * s.idx + β * (d + 1) := by rw [Nat.add_assoc, Nat.mul_add]
      have e3 : (βb + α) * (d + 1) = βb * (d + 1) + (α * d + α) := by rw [Nat.add_mul, Nat.mul_add α]; simp
      simp only
      omega

theorem cost_bound {E : Env} {K : PName → Nat → PRes} {C : PName → Nat → Nat} {n : Nat} {ok : PName → Bool}
    {adv : PName → Nat} {A B : Nat} (hw : Wf E) (hn : E.toks.length < n) (hm : E.multi = false)
    (hK : ∀ p i, i < E.toks.length → ok p = true → Good E (K p i) i (adv p))
    (hC : ∀ p i, i < E.toks.length → ok p = true → ∀ i' v e, K p i = .ok i' v e → C p i + B * i ≤ A + B * i')
    (st : Stmt) :
    ∀ (β : Nat), (need A B st).1 ≤ β →
    ∀ (a : Abs) (outs : List (Abs × Ctl)), absexec ok adv st a = some outs →
    ∀ (i : Nat) (s : St), Agrees E i a s → ∀ s' c, exec E K n st s = .ok s' c →
    cost E K C n st s + β * s.idx ≤ (need A B st).2 β + β * s'.idx := by
  have hK' : ∀ p i, i < E.toks.length → (ok p = true ∨ (E.multi = true ∧ p = .parseModuleMultithreaded)) →
      Good E (K p i) i (adv p) := fun p i hi h => hK p i hi (h.resolve_right fun hh => by rw [hm] at hh; cases hh.1)
  have hnext : ∀ s : St, s.idx ≤ (doNext E s).idx := fun s => by unfold doNext; split <;> simp
  induction st with
  | seq x y hx hy =>
    intro β hβ a outs h i s hs s' c he
    simp only [need] at hβ ⊢
    simp only [absexec] at h
    split at h
    · cases h
    · rename_i o1 h1
      obtain ⟨s1, c1, a1, e1, m1, g1⟩ := absexec_sound hw hn hK' x a o1 h1 i s hs
      obtain ⟨u, hu, hsub⟩ := collect_sound h m1
      have b1 := hx β (by omega) a o1 h1 i s hs s1 c1 e1
      simp only [exec, e1] at he
      simp only [cost, e1]
      cases c1 with
      | cont =>
        have b2 := hy β (by omega) a1 u hu i s1 g1 s' c he
        simp only
        omega
      | brk =>
        cases he
        simp only
        omega
  | next =>
    intro β hβ a outs h i s hs s' c he
    cases he
    have := mul_le (β := β) (hnext s)
    simp only [cost, need]; omega
  | prev =>
    intro β hβ a outs h i s hs s' c he
    simp only [exec] at he
    split at he
    · cases he
    · rename_i h0
      cases he
      obtain ⟨d, hd⟩ : ∃ d, s.idx = d + 1 := ⟨s.idx - 1, by omega⟩
      simp only [cost, need, hd, Nat.mul_add]
      simp
      omega
  | mapInsert f key =>
    intro β hβ a outs h i s hs s' c he
    simp only [exec] at he
    split at he
    · cases he; simp only [cost, need]; omega
    · cases he
  | enumField f e =>
    intro β hβ a outs h i s hs s' c he
    have h1 : s.idx ≤ s'.idx := by
      have h2 : s.idx ≤ (if e.usesNext then doNext E s else s).idx := by
        split
        · exact hnext s
        · exact Nat.le_refl _
      simp only [exec] at he
      split at he <;> (cases he; exact h2)
    have := mul_le (β := β) h1
    simp only [cost, need]; omega
  | callBuf p =>
    intro β hβ a outs h i s hs s' c he
    simp only [absexec] at h
    split at h
    · rename_i hp
      have hp' : ok p = true := by
        simp only [Bool.or_eq_true, Bool.and_eq_true, decide_eq_true_eq] at hp
        exact hp.resolve_right fun hh => by have := hs.mt hh.1; rw [hm] at this; cases this
      obtain ⟨i', v, e, hk, h1, h2, h3⟩ := hK p s.idx hs.lt hp'
      have h4 := hC p s.idx hs.lt hp' i' v e hk
      simp only [exec, hk] at he
      cases he
      simp only [need] at hβ
      have := mul_up hβ h1 h4
      simp only [cost, need]; omega
    · cases h
  | callField f p =>
    intro β hβ a outs h i s hs s' c he
    simp only [absexec] at h
    split at h
    · rename_i hp
      have hp' : ok p = true := by
        simp only [Bool.or_eq_true, Bool.and_eq_true, decide_eq_true_eq] at hp
        exact hp.resolve_right fun hh => by have := hs.mt hh.1; rw [hm] at this; cases this
      obtain ⟨i', v, e, hk, h1, h2, h3⟩ := hK p s.idx hs.lt hp'
      have h4 := hC p s.idx hs.lt hp' i' v e hk
      simp only [exec, hk] at he
      cases he
      simp only [need] at hβ
      have := mul_up hβ h1 h4
      simp only [cost, need]; omega
    · cases h
  | ite c x y hx hy =>
    intro β hβ a outs h i s hs s' k he
    simp only [need] at hβ ⊢
    simp only [absexec] at h
    split at h
    · rename_i u v hu hv
      simp only [exec] at he
      simp only [cost]
      by_cases hc : holds E s c = true
      · rw [if_pos hc] at he ⊢
        obtain ⟨a1, m1, g1⟩ := (cond_sound c hs).1 hc
        obtain ⟨w, hw', hsub⟩ := collect_sound hu m1
        have := hx β (by omega) a1 w hw' i s g1 s' k he
        omega
      · rw [if_neg hc] at he ⊢
        obtain ⟨a1, m1, g1⟩ := (cond_sound c hs).2 (by simpa using hc)
        obtain ⟨w, hw', hsub⟩ := collect_sound hv m1
        have := hy β (by omega) a1 w hw' i s g1 s' k he
        omega
    · cases h
  | loop b hb =>
    intro β hβ a outs h i s hs s' k he
    simp only [need] at hβ ⊢
    simp only [absexec] at h
    split at h
    · cases h
    · rename_i o1 h1
      split at h
      · rename_i hall
        have hfresh : ∀ s1 : St, s1.idx < E.toks.length → (∀ f ∈ a.maps, ∃ m, s1.obj f = .map m) →
            Agrees E s1.idx ⟨0, 0, false, none, none, a.maps, a.mt, false, 0⟩ s1 := fun s1 hl hm =>
          { lt := hl, lo := Nat.le_refl _, pend := Or.inl (Nat.le_refl _)
            retCur := fun hh => by simp at hh, cur := fun t hh => by simp at hh
            err := fun t hh => by simp at hh, maps := hm, mt := hs.mt
            ne := fun hh => by simp at hh, succ := fun _ => Nat.le_refl _ }
        have := iter_cost (E := E) (f := exec E K n b) (c := cost E K C n b)
          (Inv := fun s1 => s1.idx < E.toks.length ∧ ∀ f ∈ a.maps, ∃ m, s1.obj f = .map m) (β := β) hβ
          (fun s1 h => by
            obtain ⟨s2, c2, a2, e2, m2, g2⟩ := absexec_sound hw hn hK' b _ _ h1 s1.idx s1 (hfresh s1 h.1 h.2)
            refine ⟨s2, c2, e2, hb _ (Nat.le_refl _) _ _ h1 s1.idx s1 (hfresh s1 h.1 h.2) s2 c2 e2, ?_⟩
            have hr := List.all_eq_true.1 hall _ m2
            have hlo := g2.lo
            cases c2 with
            | cont =>
              simp only [roundOk, Bool.and_eq_true, decide_eq_true_eq, List.all_eq_true] at hr
              refine ⟨⟨g2.lt, fun f hf => g2.maps f (by simpa using hr.2 f hf)⟩, ?_⟩
              have := hr.1
              omega
            | brk => show s1.idx ≤ s2.idx; omega)
          n s s' k ⟨hs.lt, hs.maps⟩ he
        simp only [cost]
        omega
      · cases h
  | _ =>
    intro β hβ a outs h i s hs s' c he
    cases he
    simp only [cost, need]; omega

theorem run_cost {E : Env} (hw : Wf E) (hm : E.multi = false) {n : Nat} (hn : E.toks.length < n) :
    ∀ d p i, rank p < d → p ≠ .parseModuleMultithreaded → i < E.toks.length →
    ∀ i' v e, run E n d p i = .ok i' v e →
    runCost E n d p i + perToken (rank p) * i ≤ fixedPart (rank p) + perToken (rank p) * i' := by
  have hmt : MtGood E := fun h => by rw [hm] at h; cases h
  intro d
  induction d with
  | zero => intro p i h; omega
  | succ d ih =>
    intro p i hd hp hi i' v e hr
    have hpos := rank_pos p hp
    have hlt := rank_lt p
    have hc := checked_all p hp
    have hnd := need_all p hp
    unfold checked at hc
    split at hc
    · rename_i outs ho
      simp only [run, if_neg hp] at hr
      simp only [runCost, if_neg hp]
      cases hx : exec E (run E n d) n (body p) (St.init i) with
      | ok s' c =>
        rw [hx] at hr
        cases hr
        have := cost_bound (C := runCost E n d) (A := fixedPart (rank p - 1)) (B := perToken (rank p - 1)) hw hn hm
          (fun q j hj hq => by
            simp only [okFor, Bool.and_eq_true, decide_eq_true_eq] at hq
            obtain ⟨j', v, e, h1, h2, h3, h4⟩ := run_ok hw hmt hn d q j (by omega) hq.2 hj
            exact ⟨j', v, e, h1, h2, h3, fun hh => (h4 hh).1⟩)
          (fun q j hj hq j' v e hk => by
            simp only [okFor, Bool.and_eq_true, decide_eq_true_eq] at hq
            obtain ⟨j'', v', e', h1, h2, _, _⟩ := run_ok hw hmt hn d q j (by omega) hq.2 hj
            rw [hk] at h1
            cases h1
            have ht := mono_tables (rank p - 1) (by unfold maxDepth at hlt; omega) (rank q) (by omega)
            have := mul_up ht.2 h2 (ih q j (by omega) hq.2 hj j' v e hk)
            omega)
          (body p) (perToken (rank p)) hnd.1 Abs.init outs ho i (St.init i)
          { lt := hi, lo := Nat.le_refl _, pend := Or.inl (Nat.le_refl _)
            retCur := fun hh => by simp [Abs.init] at hh, cur := fun t hh => by simp [Abs.init] at hh
            err := fun b hb => by simp [Abs.init] at hb; simp [St.init, hb]
            maps := fun f hf => by simp [Abs.init] at hf, mt := fun hh => by simp [Abs.init] at hh
            ne := fun hh => by simp [Abs.init] at hh, succ := fun _ => Nat.le_refl _ } s' c hx
        have h0 : (St.init i).idx = i := rfl
        rw [h0] at this
        omega
      | panic => rw [hx] at hr; cases hr
      | timeout => rw [hx] at hr; cases hr
    · cases hc

/-- C98: a call of a parse function that reads `k` tokens executes at most 413 + 1533 · k statements, the statements of all
functions it calls included; whatever the tokens are, and whether it succeeds or not. -/
theorem C98_call {E : Env} (hw : Wf E) (hm : E.multi = false) (p : PName) (hp : p ≠ .parseModuleMultithreaded)
    (i : Nat) (hi : i < E.toks.length) :
    ∃ k v e, Returns E p i (.ok (i + k) v e) ∧ i + k < E.toks.length ∧
      ∀ n d, E.toks.length < n → rank p < d → runCost E n d p i ≤ 413 + 1533 * k := by
  have hmt : MtGood E := fun h => by rw [hm] at h; cases h
  obtain ⟨i', v, e, h1, h2, h3, h4, h5⟩ := parse_ok hw hmt p hp i hi
  obtain ⟨k, rfl⟩ : ∃ k, i' = i + k := ⟨i' - i, by omega⟩
  refine ⟨k, v, e, h2, h4, fun n d hn hd => ?_⟩
  obtain ⟨j, v', e', r1, r2, r3, _⟩ := run_ok hw hmt hn d p i hd hp hi
  have hu := (returns_of_run r1 (by simp)).unique h2
  cases hu
  have hlt := rank_lt p
  have ht := mono_tables 7 (by decide) (rank p) (by unfold maxDepth at hlt; omega)
  have := mul_up ht.2 r2 (run_cost hw hm hn d p i hd hp hi _ _ _ r1)
  have e1 : fixedPart 7 = 413 := rfl
  have e2 : perToken 7 = 1533 := rfl
  rw [e2, Nat.mul_add] at this
  omega

/-- C98 for files: `parseA2l` executes at most 413 + 1533 statements per token. -/
theorem C98_file {E : Env} (hw : Wf E) (hm : E.multi = false) (n d : Nat) (hn : E.toks.length < n) (hd : 7 < d) :
    runCost E n d .parseA2l 0 ≤ 413 + 1533 * E.toks.length := by
  obtain ⟨k, v, e, _, h2, h3⟩ := C98_call hw hm .parseA2l (by decide) 0 hw.pos
  have := h3 n d hn hd
  omega

theorem lexStep_one (m : Mode) (w : Str) : (lexStep m (.word w)).2.length ≤ 1 := by
  cases m <;> simp only [lexStep] <;> first | (unfold lexWord; repeat' split) | split | skip
  all_goals simp

theorem lexStep_nl (m : Mode) : (lexStep m .nl).2.length = 0 := by cases m <;> rfl

theorem lex_length (m : Mode) (es : List Ev) : (lex m es).length ≤ (evWords es).length := by
  induction es generalizing m with
  | nil => exact Nat.le_refl _
  | cons e es ih =>
    simp only [lex, List.length_append]
    have := ih (lexStep m e).1
    cases e with
    | nl => have := lexStep_nl m; simp only [evWords]; omega
    | word w => have := lexStep_one m w; simp only [evWords, List.length_cons]; omega

theorem fieldsAux_length (p s : Str) : (fieldsAux p s).length ≤ s.length + if p.isEmpty then 0 else 1 := by
  induction s generalizing p with
  | nil => unfold fieldsAux; split <;> simp
  | cons c cs ih =>
    unfold fieldsAux
    have h0 := ih []
    have h1 := ih (c :: p)
    simp only [List.isEmpty_nil, List.isEmpty_cons, if_true, Bool.false_eq_true, if_false] at h0 h1
    split
    · split <;> simp_all <;> omega
    · simp only [List.length_cons]; omega

theorem replaceEscapedQuotes_length (s : Str) : (replaceEscapedQuotes s).length ≤ s.length := by
  fun_induction replaceEscapedQuotes s <;> simp_all <;> omega

theorem deleteEscapes_length (s : Str) : (deleteEscapes s).length ≤ s.length := by
  fun_induction deleteEscapes s <;> simp_all <;> omega

theorem dropWhile_length (f : Char → Bool) (s : Str) : (s.dropWhile f).length ≤ s.length := by
  induction s with
  | nil => exact Nat.le_refl _
  | cons c cs ih => simp only [List.dropWhile_cons]; split <;> simp <;> omega

theorem cleanString_length (graphic : Char → Bool) (s : Str) : (cleanString graphic s).length ≤ s.length := by
  unfold cleanString trimFunc
  have h1 := deleteEscapes_length s
  have h2 := dropWhile_length (fun c => !graphic c) (deleteEscapes s)
  have h3 := dropWhile_length (fun c => !graphic c) ((deleteEscapes s).dropWhile fun c => !graphic c).reverse
  simp only [List.length_reverse] at h3 ⊢
  omega

theorem length_flatten_le {α β : Type _} (l : List α) (f g : α → List β) (h : ∀ a ∈ l, (f a).length ≤ (g a).length) :
    (l.map f).flatten.length ≤ (l.map g).flatten.length := by
  induction l with
  | nil => exact Nat.le_refl _
  | cons a l ih =>
    simp only [List.map_cons, List.flatten_cons, List.length_append]
    have h1 := h a (by simp)
    have h2 := ih fun b hb => h b (by simp [hb])
    omega

theorem tokens_length (graphic : Char → Bool) (n : Nat) (s : Str) (ts : List Str) (h : tokensOfFile graphic n s = some ts) :
    ts.length ≤ s.length + 1 := by
  unfold tokensOfFile at h
  rw [tokensFromString_eq] at h
  cases h
  simp only [List.length_append, List.length_cons, List.length_nil]
  cases n with
  | zero => simp
  | succ n =>
    have h1 := length_flatten_le (List.range (n + 1))
      (fun i => lex .normal (textStream (share (splitChar '\n' (replaceEscapedQuotes (cleanString graphic s))) (n + 1) i)))
      (fun i => evWords (textStream (share (splitChar '\n' (replaceEscapedQuotes (cleanString graphic s))) (n + 1) i)))
      (fun i _ => lex_length _ _)
    rw [evWords_shares (by omega)] at h1
    have h2 := fieldsAux_length [] (replaceEscapedQuotes (cleanString graphic s))
    have h3 := replaceEscapedQuotes_length (cleanString graphic s)
    have h4 := cleanString_length graphic s
    simp only [List.isEmpty_nil, if_true] at h2
    unfold fields at h1
    omega

/-- C98 from the text: a file of `k` characters, cut into tokens by any number of workers, gives at most `k + 1` tokens, and parsing
them executes at most 1946 + 1533 · k statements. -/
theorem C98_text (graphic : Char → Bool) (w : Nat) (s : Str) (floatOk : Str → Bool) (mt : Nat → PRes) :
    ∃ ts, tokensOfFile graphic w s = some ts ∧ ts.length ≤ s.length + 1 ∧
      ∀ n d, ts.length < n → 7 < d → runCost ⟨ts, floatOk, false, mt⟩ n d .parseA2l 0 ≤ 1946 + 1533 * s.length := by
  obtain ⟨ts, h1, h2⟩ := C27_tokenizer_total graphic w s
  have h3 := tokens_length graphic w s _ h1
  refine ⟨_, h1, h3, fun n d hn hd => ?_⟩
  have := C98_file (E := ⟨ts ++ [[]], floatOk, false, mt⟩) ⟨ts, rfl, fun hh => h2 _ hh rfl⟩ rfl n d hn hd
  simp only at this
  omega

/-- C98 on a text of 12 characters, four tokens. -/
example : ∃ ts, tokensOfFile (fun _ => true) 2 "a b // c\nd e".toList = some ts ∧ ts.length = 5 ∧
    runCost ⟨ts, fun _ => true, false, fun _ => .panic⟩ 6 8 .parseA2l 0 ≤ 1946 + 1533 * 12 := by
  obtain ⟨ts, h1, _, h3⟩ := C98_text (fun _ => true) 2 "a b // c\nd e".toList (fun _ => true) (fun _ => .panic)
  have h4 : tokensOfFile (fun _ => true) 2 "a b // c\nd e".toList =
      some ["a".toList, "b".toList, "d".toList, "e".toList, []] := by decide +kernel
  have h5 : ts = ["a".toList, "b".toList, "d".toList, "e".toList, []] := by rw [h1] at h4; exact Option.some.inj h4
  exact ⟨ts, h1, by rw [h5]; rfl, h3 6 8 (by rw [h5]; decide) (by decide)⟩

/-- Calls never nest deeper than eight functions, whatever blocks the file contains: with room for eight nested calls the result
is the one with room for any larger number. -/
theorem C98_depth {E : Env} (hw : Wf E) (hm : E.multi = false) (p : PName) (hp : p ≠ .parseModuleMultithreaded)
    (i : Nat) (hi : i < E.toks.length) (n d : Nat) (hn : E.toks.length < n) (hd : 8 ≤ d) :
    run E n d p i = run E n 8 p i ∧ run E n 8 p i ≠ .timeout := by
  have hmt : MtGood E := fun h => by rw [hm] at h; cases h
  have hlt : rank p < 8 := rank_lt p
  obtain ⟨_, _, _, h1, _⟩ := run_ok hw hmt hn d p i (by omega) hp hi
  obtain ⟨_, _, _, h2, _⟩ := run_ok hw hmt hn 8 p i hlt hp hi
  have := (returns_of_run h1 (by simp)).unique (returns_of_run h2 (by simp))
  rw [h1, h2]
  exact ⟨this, by simp⟩

/-- C98 on the example: the call reads three tokens and executes 43 statements. -/
example : (∃ v, Returns sampleEnv .parseUnit 0 (.ok 3 v false)) ∧ runCost sampleEnv 6 8 .parseUnit 0 = 43 := by
  refine ⟨?_, by decide +kernel⟩
  have : (match parse sampleEnv .parseUnit 0 with | .ok i _ e => some (i, e) | _ => none) = some (3, false) := by
    decide +kernel
  split at this
  · rename_i i v e hh
    simp only [Option.some.injEq, Prod.mk.injEq] at this
    obtain ⟨rfl, rfl⟩ := this
    exact ⟨v, returns_of_run hh (by simp)⟩
  · cases this

example : runCost sampleEnv 6 8 .parseA2l 0 ≤ 413 + 1533 * 5 :=
  C98_file sampleEnv_wf rfl 6 8 (by decide) (by decide)

end Verif.A2l.Props
