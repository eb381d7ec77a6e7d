import Verif.A2l.ParseProps

/-!
How a parse depends on the answers of `parseModuleMultithreaded`: the parse functions run on their own until they call it; what
they do before the first call that is not answered yet is the same whatever the answer will be.
-/

namespace Verif.A2l.Oracle
open Verif.Go Lang

/-- `E` with the answers `f`. -/
def withMt (E : Env) (f : Nat → PRes) : Env := { E with mtModule := f }

/-- `g` answers everything that `f` answers; `timeout` is "no answer yet". -/
def Extends (g f : Nat → PRes) : Prop := ∀ j, f j ≠ .timeout → g j = f j

theorem Extends.refl (f : Nat → PRes) : Extends f f := fun _ _ => rfl

/-- What a computation that depends on the answers does, given the answers `f`: it ends without a further call, or it calls
next at a certain index. `panic` and `timeout` are the outcomes that stand for
these two. -/
inductive Tri {O : Type} (panic timeout : O) (f : Nat → PRes) (F : (Nat → PRes) → O) : Prop
  | ends (r : O) (h : ∀ g, Extends g f → F g = r)
  | calls (j : Nat) (hj : f j = .timeout)
      (h : ∀ g, Extends g f → (g j = .panic → F g = panic) ∧ (g j = .timeout → F g = timeout))

/-- A computation that does not depend on the answers. -/
theorem Tri.const {O : Type} {p t : O} {f : Nat → PRes} (r : O) : Tri p t f (fun _ => r) := .ends r fun _ _ => rfl

/-- A computation followed by another one that hands on panics and missing answers. -/
theorem Tri.bind {O O' : Type} {p t : O} {p' t' : O'} {f : Nat → PRes} {F : (Nat → PRes) → O} (G : (Nat → PRes) → O → O')
    (h : Tri p t f F) (hp : ∀ g, G g p = p') (ht : ∀ g, G g t = t') (hG : ∀ r, Tri p' t' f (fun g => G g r)) :
    Tri p' t' f (fun g => G g (F g)) := by
  cases h with
  | ends r h =>
    cases hG r with
    | ends r' h' => exact .ends r' fun g hg => by rw [h g hg]; exact h' g hg
    | calls j hj h' => exact .calls j hj fun g hg => by rw [h g hg]; exact h' g hg
  | calls j hj h =>
    refine .calls j hj fun g hg => ?_
    obtain ⟨h1, h2⟩ := h g hg
    exact ⟨fun hh => by rw [h1 hh, hp], fun hh => by rw [h2 hh, ht]⟩

theorem Tri.congr {O : Type} {p t : O} {f : Nat → PRes} {F G : (Nat → PRes) → O} (h : Tri p t f F) (he : ∀ g, G g = F g) :
    Tri p t f G := by rw [funext he]; exact h

theorem iter_tri {f : Nat → PRes} {F : (Nat → PRes) → St → Out} (h : ∀ s, Tri .panic .timeout f (fun g => F g s)) :
    ∀ n s, Tri .panic .timeout f (fun g => iter (F g) n s)
  | 0, _ => .const _
  | n + 1, s => by
    refine (Tri.bind (fun g r => match r with
      | .ok s' .cont => iter (F g) n s'
      | .ok s' .brk => .ok s' .cont
      | .panic => .panic
      | .timeout => .timeout) (h s) (fun _ => rfl) (fun _ => rfl) ?_).congr fun g => by
        rw [iter]; rcases F g s with ⟨s', _ | _⟩ | _ | _ <;> rfl
    intro r
    cases r with
    | ok s' c =>
      cases c with
      | cont => exact iter_tri h n s'
      | brk => exact .const _
    | panic => exact .const _
    | timeout => exact .const _

theorem current_withMt (E : Env) (g : Nat → PRes) (i : Nat) : (withMt E g).current i = E.current i := rfl

theorem doNext_withMt (E : Env) (g : Nat → PRes) (s : St) : doNext (withMt E g) s = doNext E s := rfl

theorem exec_tri (E : Env) {f : Nat → PRes} {K : (Nat → PRes) → PName → Nat → PRes} (n : Nat)
    (hK : ∀ p i, Tri .panic .timeout f (fun g => K g p i)) :
    ∀ (b : Stmt) (s : St), Tri .panic .timeout f (fun g => exec (withMt E g) (K g) n b s) := by
  intro b
  induction b with
  | seq a b iha ihb =>
    intro s
    refine (Tri.bind (fun g r => match r with
      | .ok s' .cont => exec (withMt E g) (K g) n b s'
      | r => r) (iha s) (fun _ => rfl) (fun _ => rfl) ?_).congr fun g => by
        rw [exec]; rcases exec (withMt E g) (K g) n a s with ⟨s', _ | _⟩ | _ | _ <;> rfl
    intro r
    cases r with
    | ok s' c =>
      cases c with
      | cont => exact ihb s'
      | brk => exact .const _
    | panic => exact .const _
    | timeout => exact .const _
  | callBuf p =>
    intro s
    refine (Tri.bind (fun g r => match r with
      | .ok i v e => Out.ok { s with idx := i, buf := v, err := e } .cont
      | .panic => .panic
      | .timeout => .timeout) (hK p s.idx) (fun _ => rfl) (fun _ => rfl) ?_).congr fun g => by
        rw [exec]; rcases K g p s.idx with _ | _ | _ <;> rfl
    intro r
    exact .const _
  | callField f' p =>
    intro s
    refine (Tri.bind (fun g r => match r with
      | .ok i v e => Out.ok { s with idx := i, obj := s.obj.set f' v, err := e } .cont
      | .panic => .panic
      | .timeout => .timeout) (hK p s.idx) (fun _ => rfl) (fun _ => rfl) ?_).congr fun g => by
        rw [exec]; rcases K g p s.idx with _ | _ | _ <;> rfl
    intro r
    exact .const _
  | ite c a b iha ihb =>
    intro s
    have hh : ∀ g, holds (withMt E g) s c = holds E s c := by
      intro g
      induction c with
      | or a b iha ihb => simp only [holds, iha, ihb]
      | _ => rfl
    cases hc : holds E s c with
    | true => exact (iha s).congr fun g => by rw [exec, hh, hc, if_pos rfl]
    | false => exact (ihb s).congr fun g => by rw [exec, hh, hc, if_neg (by decide)]
  | loop b ih =>
    intro s
    exact (iter_tri ih n s).congr fun g => by rw [exec]
  | enumField f' e =>
    intro s
    refine (Tri.const (exec E (K f) n (.enumField f' e) s)).congr fun g => ?_
    rfl
  | conv c =>
    intro s
    refine (Tri.const (exec E (K f) n (.conv c) s)).congr fun g => ?_
    cases c <;> rfl
  | convRet c =>
    intro s
    refine (Tri.const (exec E (K f) n (.convRet c) s)).congr fun g => ?_
    cases c <;> rfl
  | _ =>
    intro s
    simp only [exec, current_withMt, doNext_withMt]
    exact .const _

theorem run_tri (E : Env) (f : Nat → PRes) (n : Nat) : ∀ d p i, Tri .panic .timeout f (fun g => run (withMt E g) n d p i)
  | 0, _, _ => .const _
  | d + 1, p, i => by
    by_cases hp : p = .parseModuleMultithreaded
    · refine Tri.congr (F := fun g => g i) ?_ fun g => by rw [run, if_pos hp]; rfl
      cases hf : f i with
      | timeout => exact .calls i hf fun g _ => ⟨id, id⟩
      | ok j v e => exact .ends (.ok j v e) fun g hg => by rw [hg i (by simp [hf]), hf]
      | panic => exact .ends .panic fun g hg => by rw [hg i (by simp [hf]), hf]
    · refine (Tri.bind (fun _ r => finish r) (exec_tri E n (run_tri E f n d) (body p) (St.init i)) (fun _ => rfl) (fun _ => rfl)
        fun r => .const _).congr fun g => by rw [run, if_neg hp]

/-- The parse of a file, given the answers `f`. -/
theorem parse_tri (E : Env) (f : Nat → PRes) (p : PName) (i : Nat) :
    Tri .panic .timeout f (fun g => parse (withMt E g) p i) := run_tri E f (E.toks.length + 1) maxDepth p i

end Verif.A2l.Oracle
