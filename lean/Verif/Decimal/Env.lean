import Verif.Decimal.FormatLemmas

namespace Verif.Decimal

/-- The platform: IEEE 754 single and double precision, their epsilons, and reading as the C++ standard says. -/
def ieee : Measurement.NumEnv where
  single := single.rounding (by decide) (by norm_num [Format.max, single])
  double := double.rounding (by decide) (by norm_num [Format.max, double])
  epsSingle := 1 / 2 ^ 23
  epsDouble := 1 / 2 ^ 52
  readSingle := single.read
  readDouble := double.read

end Verif.Decimal
