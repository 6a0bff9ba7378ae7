import Verif.Model.Dense
import Verif.Model.Avx2
import Verif.Model.Neon
import Verif.Model.Sparse
import Verif.Model.Conv

/-! # What a fresh block starts with -/

namespace GT.Spec

/-- A literal's first state as `uniform_int_distribution(-1, 0)` makes it from a draw: excluded below one half, else just
included. -/
def coinState (u : Rat) : Int := if u < 1 / 2 then -1 else 0

/-- A literal's first state as the AVX2 backend makes it: just included above one half, else excluded. -/
def coinStateHigh (u : Rat) : Int := if 1 / 2 < u then 0 else -1

/-- A first weight: plus one above one half, else minus one. -/
def coinWeightHigh (u : Rat) : Int := if 1 / 2 < u then 1 else -1

/-- A first weight of the NEON backend (`bernoulli_distribution(0.5)`): plus one below one half, else minus one. -/
def coinWeight (u : Rat) : Int := if u < 1 / 2 then 1 else -1

end GT.Spec
