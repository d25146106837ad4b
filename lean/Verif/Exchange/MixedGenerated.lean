import Verif.Exchange.C103

/-!
# C103: which overrides are generated for container return values
-/
namespace Verif.Exchange
open Verif Verif.Wrap

/-- C103 (references to containers): for a method that returns a reference to a container no body is generated at all,
whatever its parameters are. -/
theorem C103_reference_refused (p : Proxy) (retDecl : Option Str) (ps : List Gen1) (c : Cont) (ctype : Str)
    (hr : '&' ∈ ctype) (w0 w : W) : reverseGenerate (p.config retDecl ps (R.v (.cont c ctype)).convert) w0 ≠ .ok w := by
  intro h
  simp only [reverseGenerate, bind_ok, Proxy.config] at h
  obtain ⟨w1, e1, w2, e2, w3, e3, w4, e4, w5, e5, w6, e6, w7, e7, h⟩ := h
  simp only [R.convert, VR.convert, if_pos hr] at e7
  cases e7

/-- `std::vector<int>`. -/
def sampleVec : Cont :=
  ⟨"V".toList, "PyV".toList, "PyV_Type".toList, "std::vector<int>".toList, "_wrap_convert_py2c__V".toList⟩

/-- `virtual std::vector<int> f();`. -/
def sampleProxy : Proxy :=
  { cls := "Foo".toList, pystruct := "PyFoo".toList, method := "f".toList, params := [], isVoid := false, noParent := false,
    errorReturn := "return std::vector<int>();".toList }

/-- A body is generated for a method that returns a container by value; the variable is declared by the handler. -/
example : ∃ w, reverseGenerate (sampleProxy.config none [] (R.v (.cont sampleVec sampleVec.full)).convert) {} = .ok w := ⟨_, rfl⟩

/-- If the wrapper has declared `retval` itself, the handler's assertion fails. -/
example : (match reverseGenerate (sampleProxy.config (some sampleVec.full) [] (R.v (.cont sampleVec sampleVec.full)).convert) {} with
    | .error .assertionError => True | _ => False) := trivial

end Verif.Exchange
