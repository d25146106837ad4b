import Verif.Wrapper.ForwardFlow
import Verif.Wrapper.Reverse
import Verif.Utils.Model

/-!
# C72: a wrapper whose types cannot be converted can be skipped

`NotImplementedError` raised by a type handler, base.py:873-878, 935-940, together with
`call_with_error_handling` (utils.py:178-197).
-/
namespace Verif.Wrap
open Verif Verif.Flow Verif.Params Verif.DeclScope Verif.Utils

/-- The exceptions by which a type handler tells that it cannot convert. -/
def Unsupported : PyErr → Prop
  | .notImplementedError | .notSupportedError | .codeGenerationError | .typeConfigurationError => True
  | _ => False

/-- What the user sees of such an exception. -/
def reported : PyErr → PyErr
  | .notImplementedError => .codeGenerationError
  | e => e

theorem guardNI_error {r : PyRes W} {e : PyErr} (h : r = .error e) : guardNI r = .error (reported e) := by
  subst h; cases e <;> rfl

theorem convertParams_fails {p : Gen1} {e : PyErr} : ∀ (before after : List Gen1) {w w1 : W},
    convertParams before w = .ok w1 → p w1 = .error e →
    convertParams (before ++ p :: after) w = .error (reported e)
  | [], after, w, w1, h, hp => by
    cases h
    simp only [List.nil_append, convertParams, guardNI_error hp]
    rfl
  | q :: before, after, w, w1, h, hp => by
    simp only [convertParams, List.cons_append] at h ⊢
    obtain ⟨w2, h1, h2⟩ := bind_ok.mp h
    rw [h1]
    exact convertParams_fails before after h2 hp

/-- C72 (parameters): if the handler of a parameter gives up, whatever was generated before, the
generation of the wrapper fails; the exception is the handler's own, or `CodeGenerationError` in place
of `NotImplementedError`. -/
theorem C72_parameter (c : Config) (before after : List Gen1) (p : Gen1) (hc : c.params = before ++ p :: after)
    (w0 wa wb : W) (ts : Str) (h1 : startStep c.unblock w0 = .ok (wa, ts))
    (h2 : convertParams before wa = .ok wb) (e : PyErr) (hp : p wb = .error e) :
    generateBody c w0 = .error (reported e) := by
  unfold generateBody
  rw [h1]
  show (convertParams c.params wa >>= _) = _
  rw [hc, convertParams_fails before after h2 hp]
  rfl

/-- C72 (return value): likewise for the handler of the return value. -/
theorem C72_return (c : Config) (r : Gen1) (hc : c.ret = some r) (w0 wa wb wcc wd we : W) (ts : Str)
    (h1 : startStep c.unblock w0 = .ok (wa, ts)) (h2 : convertParams c.params wa = .ok wb)
    (h3 : c.pre (depStep c.deprecated wb) = .ok wcc) (h4 : c.call (saveStep c.unblock ts wcc) = .ok wd)
    (h5 : parseStep c.force wd = .ok we) (e : PyErr) (hr : r we = .error e) :
    generateBody c w0 = .error (reported e) := by
  unfold generateBody
  rw [h1]
  show (convertParams c.params wa >>= _) = _
  rw [h2]
  show (c.pre (depStep c.deprecated wb) >>= _) = _
  rw [h3]
  show (c.call (saveStep c.unblock ts wcc) >>= _) = _
  rw [h4]
  show (parseStep c.force wd >>= _) = _
  rw [h5]
  show (retStep c we >>= _) = _
  have : retStep c we = .error (reported e) := by
    unfold retStep
    rw [hc]
    exact guardNI_error hr
  rw [this]
  rfl

/-- C72 (skipping): an error handler that accepts every error thus gets to see every such failure, and
the wrapper is skipped. -/
theorem C72_skipped {X : Type} (x : X) (c : Config) (before after : List Gen1) (p : Gen1)
    (hc : c.params = before ++ p :: after)
    (w0 wa wb : W) (ts : Str) (h1 : startStep c.unblock w0 = .ok (wa, ts))
    (h2 : convertParams before wa = .ok wb) (e : PyErr) (he : Unsupported e) (hp : p wb = .error e)
    (handler : X → PyErr → Bool) (ha : ∀ x e, handler x e = true) :
    callWithErrorHandling (some handler) defaultHandled x (generateBody c w0) = .error .skipWrapper := by
  rw [C72_parameter c before after p hc w0 wa wb ts h1 h2 e hp]
  cases e <;> simp_all [Unsupported, reported, callWithErrorHandling, defaultHandled]

theorem C72_skipped_return {X : Type} (x : X) (c : Config) (r : Gen1) (hc : c.ret = some r)
    (w0 wa wb wcc wd we : W) (ts : Str)
    (h1 : startStep c.unblock w0 = .ok (wa, ts)) (h2 : convertParams c.params wa = .ok wb)
    (h3 : c.pre (depStep c.deprecated wb) = .ok wcc) (h4 : c.call (saveStep c.unblock ts wcc) = .ok wd)
    (h5 : parseStep c.force wd = .ok we) (e : PyErr) (he : Unsupported e) (hr : r we = .error e)
    (handler : X → PyErr → Bool) (ha : ∀ x e, handler x e = true) :
    callWithErrorHandling (some handler) defaultHandled x (generateBody c w0) = .error .skipWrapper := by
  rw [C72_return c r hc w0 wa wb wcc wd we ts h1 h2 h3 h4 h5 e hr]
  cases e <;> simp_all [Unsupported, reported, callWithErrorHandling, defaultHandled]

theorem runAll_fails {p : Gen1} {e : PyErr} : ∀ (before after : List Gen1) {w w1 : W},
    runAll before w = .ok w1 → p w1 = .error e → runAll (before ++ p :: after) w = .error e
  | [], after, w, w1, h, hp => by
    cases h
    simp only [List.nil_append, runAll, hp]
    rfl
  | q :: before, after, w, w1, h, hp => by
    simp only [runAll, List.cons_append] at h ⊢
    obtain ⟨w2, h1, h2⟩ := bind_ok.mp h
    rw [h1]
    exact runAll_fails before after h2 hp

/-- For virtual method proxies the claim is false: a `NotImplementedError` (which is what a handler
without a conversion in that direction raises, base.py:1019, 1031, 1191, 1198) stops the whole
generation whatever the error handler says. -/
theorem C72_reverse_counterexample {X : Type} (x : X) (c : RConfig) (before after : List Gen1) (p : Gen1)
    (hc : c.params = before ++ p :: after) (w0 w1 w2 w3 w4 wb : W)
    (h1 : gilCode c.noGil w0 = .ok w1) (h2 : c.prologue w1 = .ok w2) (h3 : declRetval w2 = .ok w3)
    (h4 : declCRetval c.retDecl w3 = .ok w4) (h5 : runAll before w4 = .ok wb)
    (hp : p wb = .error .notImplementedError) (handler : X → PyErr → Bool) :
    callWithErrorHandling (some handler) defaultHandled x (reverseGenerate c w0) = .error .notImplementedError := by
  have : reverseGenerate c w0 = .error .notImplementedError := by
    unfold reverseGenerate
    rw [h1]
    show (c.prologue w1 >>= _) = _
    rw [h2]
    show (declRetval w2 >>= _) = _
    rw [h3]
    show (declCRetval c.retDecl w3 >>= _) = _
    rw [h4]
    show (runAll c.params w4 >>= _) = _
    rw [hc, runAll_fails before after h5 hp]
    rfl
  rw [this]
  rfl

/-! Non-vacuity: `void f(int, T)` where the handler of `T` gives up. -/

example : (generateBody { call := .ok, params := [(byValue "i".toList "int".toList "a".toList none).convert,
    fun _ => .error .notImplementedError], ret := some voidReturn } {}).isOk = false ∧
    ∃ w, convertParams [(byValue "i".toList "int".toList "a".toList none).convert] {} = .ok w := by
  constructor
  · decide +kernel
  · exact ⟨_, rfl⟩

end Verif.Wrap
