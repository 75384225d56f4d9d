import Verif.Model.Node

/-!
# Integer parameters (src/ndt_mapper.cpp:63-91, src/scan_matcher_ndt.cpp:44)

A parameter is a 64-bit integer; `declare_parameter<int>` returns it as `int`, and the members are `size_t`.
-/

namespace Ndt

noncomputable section

/-- The integer parameters as given (src/ndt_mapper.cpp:63, 69, 70, 82, 83). -/
structure IntParams where
  rollingDepth : ℤ
  searchLimit : ℤ
  nodeLimit : ℤ
  minParticles : ℤ
  maxParticles : ℤ

namespace Parameters

/-- `int64_t → int`, modulo 2^32 (src/ndt_mapper.cpp:63). -/
def toInt (v : ℤ) : ℤ := if v % 2 ^ 32 < 2 ^ 31 then v % 2 ^ 32 else v % 2 ^ 32 - 2 ^ 32

/-- `int → size_t`, modulo 2^64 (src/ndt_mapper.cpp:63). -/
def toSize (v : ℤ) : ℕ := (toInt v % 2 ^ 64).toNat

/-- src/ndt_mapper.cpp:59-70: the mapper's parameters, with the integers as given. -/
def mapper (p : Params) (i : IntParams) : Params :=
  { p with rollingDepth := toSize i.rollingDepth, searchLimit := toSize i.searchLimit, nodeLimit := toSize i.nodeLimit }

/-- `std::vector::reserve` and `assign` throw beyond `max_size()`, which is 2^63 - 1 bytes; a particle has 24
(src/particle_filter.cpp:46-49). -/
def filter (m : MotionModel) (i : IntParams) : Res Filter :=
  if 2 ^ 63 ≤ 24 * toSize i.maxParticles ∨ 2 ^ 63 ≤ 24 * toSize i.minParticles then .error .exception
  else Filter.new m (toSize i.minParticles) (toSize i.maxParticles)

end Parameters

end

end Ndt
