import Verif.Model.Scalar

/-!
# Ionisation potentials (`/repo/include/catima/data_ionisation_potential.h`)

Transcribed by `tools/gen_tables.py`; an entry `⟨m, e⟩` is the decimal `m * 10^(-e)`.
-/

namespace Catima

/-- include/catima/data_ionisation_potential.h:23-145 -/
def ionisation_potentials_z : List Dec := [
  ⟨9999999, 0⟩, ⟨192, 1⟩, ⟨418, 1⟩, ⟨400, 1⟩, ⟨637, 1⟩, ⟨760, 1⟩, ⟨810, 1⟩, ⟨820, 1⟩, ⟨950, 1⟩,
  ⟨1150, 1⟩, ⟨1370, 1⟩, ⟨1490, 1⟩, ⟨1560, 1⟩, ⟨1660, 1⟩, ⟨1730, 1⟩, ⟨1730, 1⟩, ⟨1800, 1⟩,
  ⟨1740, 1⟩, ⟨1880, 1⟩, ⟨1900, 1⟩, ⟨1910, 1⟩, ⟨2160, 1⟩, ⟨2330, 1⟩, ⟨2450, 1⟩, ⟨2570, 1⟩,
  ⟨2720, 1⟩, ⟨2860, 1⟩, ⟨2970, 1⟩, ⟨3110, 1⟩, ⟨3220, 1⟩, ⟨3300, 1⟩, ⟨3340, 1⟩, ⟨3500, 1⟩,
  ⟨3470, 1⟩, ⟨3480, 1⟩, ⟨3430, 1⟩, ⟨3520, 1⟩, ⟨3630, 1⟩, ⟨3660, 1⟩, ⟨3790, 1⟩, ⟨3930, 1⟩,
  ⟨4170, 1⟩, ⟨4240, 1⟩, ⟨4280, 1⟩, ⟨4410, 1⟩, ⟨4490, 1⟩, ⟨4700, 1⟩, ⟨4700, 1⟩, ⟨4690, 1⟩,
  ⟨4880, 1⟩, ⟨4880, 1⟩, ⟨4870, 1⟩, ⟨4850, 1⟩, ⟨4910, 1⟩, ⟨4820, 1⟩, ⟨4880, 1⟩, ⟨4910, 1⟩,
  ⟨5010, 1⟩, ⟨5230, 1⟩, ⟨5350, 1⟩, ⟨5460, 1⟩, ⟨5600, 1⟩, ⟨5740, 1⟩, ⟨5800, 1⟩, ⟨5910, 1⟩,
  ⟨6140, 1⟩, ⟨6280, 1⟩, ⟨6500, 1⟩, ⟨6580, 1⟩, ⟨6740, 1⟩, ⟨6840, 1⟩, ⟨6940, 1⟩, ⟨7050, 1⟩,
  ⟨7180, 1⟩, ⟨7270, 1⟩, ⟨7360, 1⟩, ⟨7460, 1⟩, ⟨7570, 1⟩, ⟨7900, 1⟩, ⟨7900, 1⟩, ⟨8000, 1⟩,
  ⟨8100, 1⟩, ⟨8230, 1⟩, ⟨8230, 1⟩, ⟨8300, 1⟩, ⟨8250, 1⟩, ⟨7940, 1⟩, ⟨8270, 1⟩, ⟨8260, 1⟩,
  ⟨8410, 1⟩, ⟨8470, 1⟩, ⟨8780, 1⟩, ⟨8900, 1⟩, ⟨9000, 1⟩, ⟨9100, 1⟩, ⟨9200, 1⟩, ⟨9300, 1⟩,
  ⟨9400, 1⟩, ⟨9500, 1⟩, ⟨9600, 1⟩, ⟨9700, 1⟩, ⟨9800, 1⟩, ⟨9900, 1⟩, ⟨10000, 1⟩, ⟨10100, 1⟩,
  ⟨10200, 1⟩, ⟨10300, 1⟩, ⟨10400, 1⟩, ⟨10500, 1⟩, ⟨10600, 1⟩, ⟨10700, 1⟩, ⟨10800, 1⟩,
  ⟨10900, 1⟩, ⟨11000, 1⟩, ⟨11100, 1⟩, ⟨11200, 1⟩, ⟨11300, 1⟩, ⟨11400, 1⟩, ⟨11500, 1⟩,
  ⟨11600, 1⟩, ⟨11700, 1⟩]

end Catima
