import Verif.Wrapper.IntRange
import Mathlib.Tactic.NormNum.Basic
import Mathlib.Tactic.SplitIfs

/-!
# C39: range checks of integer handlers
-/
namespace Verif.IntRange

/-- C conversion does nothing to a representable value. -/
theorem wrap_of_fits {t : CInt} (hb : 0 < t.bits) {n : Int} (h1 : t.lo ≤ n) (h2 : n ≤ t.hi) :
    t.wrap n = n := by
  have hp : (2 : Int) ^ t.bits = 2 * 2 ^ (t.bits - 1) := by
    conv_lhs => rw [show t.bits = (t.bits - 1) + 1 by omega]
    rw [Int.pow_succ]; omega
  have hpos : (0 : Int) < 2 ^ (t.bits - 1) := Int.pow_pos (by decide)
  unfold CInt.lo CInt.hi at *
  unfold CInt.wrap
  split
  · next hs =>
    simp only [hs, if_true] at h1 h2
    rw [hp, Int.emod_eq_of_lt (by omega) (by omega)]; omega
  · next hs =>
    simp only [hs] at h1 h2
    rw [hp] at *
    exact Int.emod_eq_of_lt (by simpa using h1) (by simp at h2; omega)

/-- The result of a C conversion is a value of the type. -/
theorem wrap_fits {t : CInt} (hb : 0 < t.bits) (n : Int) : t.lo ≤ t.wrap n ∧ t.wrap n ≤ t.hi := by
  have hp : (2 : Int) ^ t.bits = 2 * 2 ^ (t.bits - 1) := by
    conv_lhs => rw [show t.bits = (t.bits - 1) + 1 by omega]
    rw [Int.pow_succ]; omega
  have hpos : (0 : Int) < 2 ^ (t.bits - 1) := Int.pow_pos (by decide)
  unfold CInt.lo CInt.hi CInt.wrap
  have e1 : ∀ m : Int, 0 ≤ m % 2 ^ t.bits := fun m => Int.emod_nonneg m (by omega)
  have e2 : ∀ m : Int, m % 2 ^ t.bits < 2 ^ t.bits := fun m => Int.emod_lt_of_pos m (by omega)
  split
  · next hs =>
    have := e1 (n + 2 ^ (t.bits - 1)); have := e2 (n + 2 ^ (t.bits - 1))
    omega
  · next hs =>
    have := e1 n; have := e2 n
    omega

/-- C conversion changes an unrepresentable value. -/
theorem wrap_eq_iff {t : CInt} (hb : 0 < t.bits) (n : Int) :
    t.wrap n = n ↔ t.lo ≤ n ∧ n ≤ t.hi :=
  ⟨fun h => h ▸ wrap_fits hb n, fun h => wrap_of_fits hb h.1 h.2⟩


/-- A checked unit followed by a check on a 32 bit variable. -/
theorem receive_i (c : Option Cond) (t : CInt) (n : Int) :
    (⟨.i, s32, c, t⟩ : Handler).receive n =
      if -2147483648 ≤ n ∧ n ≤ 2147483647 then
        (match c with
          | some c => if c.holds n then none else some (t.wrap n)
          | none => some (t.wrap n))
      else none := by
  by_cases h : -2147483648 ≤ n ∧ n ≤ 2147483647
  · have hw : s32.wrap n = n := wrap_of_fits (by decide) (by simpa [CInt.lo, s32] using h.1)
      (by simpa [CInt.hi, s32] using h.2)
    have hp : Fmt.parse .i n = some n := by
      simp [Fmt.parse, Fmt.checked, Fmt.ctype, CInt.lo, CInt.hi]; omega
    simp only [Handler.receive, hp, hw, if_pos h]
    cases c <;> rfl
  · have hp : Fmt.parse .i n = none := by
      simp [Fmt.parse, Fmt.checked, Fmt.ctype, CInt.lo, CInt.hi]; omega
    simp only [Handler.receive, hp, if_neg h]

theorem receive_gtOrLt (n k l : Int) (t : CInt) (hk : k ≤ 2147483647) (hl : -2147483648 ≤ l) :
    (⟨.i, s32, some (.gtOrLt k l), t⟩ : Handler).receive n =
      if l ≤ n ∧ n ≤ k then some (t.wrap n) else none := by
  rw [receive_i]
  simp only [Cond.holds, Bool.or_eq_true, decide_eq_true_eq]
  by_cases h : l ≤ n ∧ n ≤ k
  · have h1 : -2147483648 ≤ n ∧ n ≤ 2147483647 := by omega
    have h2 : ¬ (n > k ∨ n < l) := by omega
    rw [if_pos h1, if_neg h2, if_pos h]
  · have h2 : n > k ∨ n < l := by omega
    rw [if_neg h, if_pos h2]
    split <;> rfl

/-- A range checking unit into a variable of its own type. -/
theorem receive_checked (f : Fmt) (hf : f.checked = true) (n : Int) :
    (⟨f, f.ctype, none, f.ctype⟩ : Handler).receive n =
      if f.ctype.lo ≤ n ∧ n ≤ f.ctype.hi then some n else none := by
  have hb : 0 < f.ctype.bits := by cases f <;> decide
  by_cases h : f.ctype.lo ≤ n ∧ n ≤ f.ctype.hi
  · have hp : f.parse n = some n := by simp [Fmt.parse, hf, h]
    simp only [Handler.receive, hp, if_pos h, wrap_of_fits hb h.1 h.2]
  · have hp : f.parse n = none := by simp [Fmt.parse, hf, h]
    simp only [Handler.receive, hp, if_neg h]

/-- A masking unit into a variable of its own type. -/
theorem receive_masked (f : Fmt) (hf : f.checked = false) (n : Int) :
    (⟨f, f.ctype, none, f.ctype⟩ : Handler).receive n = some (f.ctype.wrap n) := by
  have hb : 0 < f.ctype.bits := by cases f <;> decide
  have hp : f.parse n = some (f.ctype.wrap n) := by simp [Fmt.parse, hf]
  have hw := wrap_fits (t := f.ctype) hb n
  simp only [Handler.receive, hp]
  rw [wrap_of_fits hb hw.1 hw.2, wrap_of_fits hb hw.1 hw.2]

/-- The property holds of these handlers: `int16_t` returned from Python, `int16_t&`, every `int`,
`long` and `long long` handler. -/
theorem C39_exact_partial :
    Exact int16Return ∧ Exact int16Ref ∧ Exact intAll ∧ Exact longAll ∧ Exact longlongAll := by
  refine ⟨?_, fun n => receive_checked .h rfl n, fun n => receive_checked .i rfl n,
    fun n => receive_checked .l rfl n, fun n => receive_checked .L rfl n⟩
  intro n
  rw [int16Return, receive_gtOrLt n _ _ _ (by decide) (by decide)]
  have e1 : s16.lo = -32768 := by decide
  have e2 : s16.hi = 32767 := by decide
  rw [e1, e2]
  by_cases h : -32768 ≤ n ∧ n ≤ 32767
  · rw [if_pos h, if_pos h, wrap_of_fits (by decide) (by rw [e1]; exact h.1) (by rw [e2]; exact h.2)]
  · rw [if_neg h, if_neg h]

/-- Every other handler whose property fails, and how: the exact set of integers accepted and what
arrives.  Parameters of 8 and 16 bits and unsigned returns check the upper bound only, so every
negative 32 bit integer is accepted and arrives reduced modulo the size of the type; `int8_t`
returns reject -128 and let 128 arrive as -128. -/
theorem C39_accepted (n : Int) :
    int8Param.receive n = (if -2147483648 ≤ n ∧ n ≤ 127 then some (s8.wrap n) else none) ∧
    uint8Param.receive n = (if -2147483648 ≤ n ∧ n ≤ 255 then some (u8.wrap n) else none) ∧
    int16Param.receive n = (if -2147483648 ≤ n ∧ n ≤ 32767 then some (s16.wrap n) else none) ∧
    uint16Param.receive n = (if -2147483648 ≤ n ∧ n ≤ 65535 then some (u16.wrap n) else none) ∧
    uint8Return.receive n = (if -2147483648 ≤ n ∧ n ≤ 255 then some (u8.wrap n) else none) ∧
    uint16Return.receive n = (if -2147483648 ≤ n ∧ n ≤ 65535 then some (u16.wrap n) else none) ∧
    int8Return.receive n = (if -127 ≤ n ∧ n ≤ 128 then some (s8.wrap n) else none) := by
  have key : ∀ (k : Int) (t : CInt), k ≤ 2147483647 →
      (⟨.i, s32, some (.gt k), t⟩ : Handler).receive n =
        if -2147483648 ≤ n ∧ n ≤ k then some (t.wrap n) else none := by
    intro k t hk
    rw [receive_i]
    simp only [Cond.holds, decide_eq_true_eq]
    by_cases h1 : n > k
    · simp only [if_pos h1]; rw [if_neg (by omega : ¬ (-2147483648 ≤ n ∧ n ≤ k))]; split <;> rfl
    · simp only [if_neg h1]
      by_cases h2 : -2147483648 ≤ n
      · rw [if_pos ⟨h2, by omega⟩, if_pos ⟨h2, by omega⟩]
      · rw [if_neg (by omega), if_neg (by omega)]
  refine ⟨key _ _ (by decide), key _ _ (by decide), key _ _ (by decide), key _ _ (by decide),
    key _ _ (by decide), key _ _ (by decide), ?_⟩
  exact receive_gtOrLt _ _ _ _ (by decide) (by decide)

/-- The unchecked format units: every integer whatsoever is accepted and arrives reduced, except
`int8_t&`/`int8_t*`, whose unit `b` is that of `unsigned char`: negative numbers are rejected and
128..255 arrive as negative numbers. -/
theorem C39_unchecked (n : Int) :
    uint8Ref.receive n = some (u8.wrap n) ∧ uint16Ref.receive n = some (u16.wrap n) ∧
    uintAll.receive n = some (u32.wrap n) ∧ ulongAll.receive n = some (u64.wrap n) ∧
    ulonglongAll.receive n = some (u64.wrap n) ∧
    int8Ref.receive n = (if 0 ≤ n ∧ n ≤ 255 then some (s8.wrap n) else none) := by
  refine ⟨receive_masked .B rfl n, receive_masked .H rfl n, receive_masked .I rfl n,
    receive_masked .k rfl n, receive_masked .K rfl n, ?_⟩
  by_cases h : 0 ≤ n ∧ n ≤ 255
  · have hp : Fmt.parse .b n = some n := by
      simp [Fmt.parse, Fmt.checked, Fmt.ctype, CInt.lo, CInt.hi]; omega
    have hw := wrap_fits (t := s8) (by decide) n
    simp only [int8Ref, Handler.receive, hp, if_pos h]
    rw [wrap_of_fits (by decide) hw.1 hw.2]
  · have hp : Fmt.parse .b n = none := by
      simp [Fmt.parse, Fmt.checked, Fmt.ctype, CInt.lo, CInt.hi]; omega
    simp only [int8Ref, Handler.receive, hp, if_neg h]

/-- What holds of all of them but the `int8_t` ones with a wrong bound: every representable integer
is accepted and arrives unchanged. -/
theorem C39_complete_partial :
    ∀ h ∈ [int8Param, uint8Param, int16Param, uint16Param, uint8Return, int16Return, uint16Return,
      uint8Ref, int16Ref, uint16Ref, intAll, uintAll, longAll, ulongAll, longlongAll, ulonglongAll],
      Complete h := by
  intro h hh
  simp only [List.mem_cons, List.not_mem_nil, or_false] at hh
  obtain ⟨e1, e2, e3, e4, e5⟩ := C39_exact_partial
  rcases hh with rfl | rfl | rfl | rfl | rfl | rfl | rfl | rfl | rfl | rfl | rfl | rfl | rfl | rfl |
      rfl | rfl <;> intro n h1 h2
  · rw [(C39_accepted n).1, if_pos (by simp [int8Param, s8, CInt.lo, CInt.hi] at *; omega),
      show s8.wrap n = n from wrap_of_fits (by decide) h1 h2]
  · rw [(C39_accepted n).2.1, if_pos (by simp [uint8Param, u8, CInt.lo, CInt.hi] at *; omega),
      show u8.wrap n = n from wrap_of_fits (by decide) h1 h2]
  · rw [(C39_accepted n).2.2.1, if_pos (by simp [int16Param, s16, CInt.lo, CInt.hi] at *; omega),
      show s16.wrap n = n from wrap_of_fits (by decide) h1 h2]
  · rw [(C39_accepted n).2.2.2.1, if_pos (by simp [uint16Param, u16, CInt.lo, CInt.hi] at *; omega),
      show u16.wrap n = n from wrap_of_fits (by decide) h1 h2]
  · rw [(C39_accepted n).2.2.2.2.1, if_pos (by simp [uint8Return, u8, CInt.lo, CInt.hi] at *; omega),
      show u8.wrap n = n from wrap_of_fits (by decide) h1 h2]
  · rw [e1 n, if_pos ⟨h1, h2⟩]
  · rw [(C39_accepted n).2.2.2.2.2.1,
      if_pos (by simp [uint16Return, u16, CInt.lo, CInt.hi] at *; omega),
      show u16.wrap n = n from wrap_of_fits (by decide) h1 h2]
  · rw [(C39_unchecked n).1, show u8.wrap n = n from wrap_of_fits (by decide) h1 h2]
  · rw [e2 n, if_pos ⟨h1, h2⟩]
  · rw [(C39_unchecked n).2.1, show u16.wrap n = n from wrap_of_fits (by decide) h1 h2]
  · rw [e3 n, if_pos ⟨h1, h2⟩]
  · rw [(C39_unchecked n).2.2.1, show u32.wrap n = n from wrap_of_fits (by decide) h1 h2]
  · rw [e4 n, if_pos ⟨h1, h2⟩]
  · rw [(C39_unchecked n).2.2.2.1, show u64.wrap n = n from wrap_of_fits (by decide) h1 h2]
  · rw [e5 n, if_pos ⟨h1, h2⟩]
  · rw [(C39_unchecked n).2.2.2.2.1, show u64.wrap n = n from wrap_of_fits (by decide) h1 h2]

/-- Python's -1 is accepted by every 8/16 bit unsigned handler and by `int8_t`/`int16_t` parameters
any large negative number is; the other side sees another number. -/
theorem C39_negative_counterexample :
    uint8Param.receive (-1) = some 255 ∧ uint16Param.receive (-1) = some 65535 ∧
    uint8Return.receive (-1) = some 255 ∧ uint16Return.receive (-1) = some 65535 ∧
    int8Param.receive (-129) = some 127 ∧ int16Param.receive (-32769) = some 32767 ∧
    uint8Ref.receive 256 = some 0 ∧ uint16Ref.receive 65536 = some 0 ∧
    uintAll.receive (-1) = some 4294967295 ∧
    int8Return.receive 128 = some (-128) ∧ int8Return.receive (-128) = none ∧
    int8Ref.receive (-1) = none ∧ int8Ref.receive 255 = some (-1) := by decide

/-- So none of them has the property, nor is any of them faithful. -/
theorem C39_not_exact :
    ∀ h ∈ [int8Param, uint8Param, int16Param, uint16Param, uint8Return, uint16Return, int8Return,
      int8Ref, uint8Ref, uint16Ref, uintAll, ulongAll, ulonglongAll], ¬ Faithful h ∧ ¬ Exact h := by
  have main : ∀ (h : Handler) (n m : Int), h.receive n = some m → m ≠ n → ¬ Faithful h ∧ ¬ Exact h := by
    intro h n m hr hne
    refine ⟨fun hf => hne (hf n m hr), fun he => ?_⟩
    rw [he n] at hr
    split at hr
    · exact hne (Option.some.inj hr).symm
    · cases hr
  intro h hh
  simp only [List.mem_cons, List.not_mem_nil, or_false] at hh
  rcases hh with rfl | rfl | rfl | rfl | rfl | rfl | rfl | rfl | rfl | rfl | rfl | rfl | rfl
  · exact main _ (-129) 127 (by decide) (by decide)
  · exact main _ (-1) 255 (by decide) (by decide)
  · exact main _ (-32769) 32767 (by decide) (by decide)
  · exact main _ (-1) 65535 (by decide) (by decide)
  · exact main _ (-1) 255 (by decide) (by decide)
  · exact main _ (-1) 65535 (by decide) (by decide)
  · exact main _ 128 (-128) (by decide) (by decide)
  · exact main _ 255 (-1) (by decide) (by decide)
  · exact main _ 256 0 (by decide) (by decide)
  · exact main _ 65536 0 (by decide) (by decide)
  · exact main _ (-1) 4294967295 (by decide) (by decide)
  · exact main _ (-1) 18446744073709551615 (by decide) (by decide)
  · exact main _ (-1) 18446744073709551615 (by decide) (by decide)

/-- What arrives is always a value of the C type, whatever the handler and its check. -/
theorem C39_in_type (h : Handler) (hb : 0 < h.target.bits) (n m : Int) (hr : h.receive n = some m) :
    h.target.lo ≤ m ∧ m ≤ h.target.hi := by
  unfold Handler.receive at hr
  split at hr
  · cases hr
  · split at hr
    · dsimp only at hr
      split at hr
      · cases hr
      · exact Option.some.inj hr ▸ wrap_fits hb _
    · exact Option.some.inj hr ▸ wrap_fits hb _

/-- Non-vacuity: values at both ends of `int16_t` through the exact handlers. -/
example : int16Return.receive 32767 = some 32767 ∧ int16Return.receive (-32768) = some (-32768) ∧
    int16Return.receive 32768 = none ∧ int16Return.receive (-32769) = none ∧
    int8Param.receive 128 = none ∧ uint16Param.receive 65536 = none := by decide

end Verif.IntRange
