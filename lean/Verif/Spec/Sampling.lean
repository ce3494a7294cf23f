import Verif.Spec.Oracle

/-! # Specification for C64: a generator with given outputs -/
set_option autoImplicit false

namespace Triptych.Spec

/-- A generator whose `next_u64` returns the given word and whose `fill_bytes` returns the given blocks one after the other. -/
def scripted : Rng (UInt64 × List Bytes) where
  fill s _ := (s.2.headD [], s.1, s.2.tail)
  nextU64 s := (s.1, s)

end Triptych.Spec
