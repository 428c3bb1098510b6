import Verif.Model.Scalar

/-!
# Element data (`/repo/src/nucdata.cpp`)

Transcribed by `tools/gen_tables.py`; an entry `⟨m, e⟩` is the decimal `m * 10^(-e)`.
-/

namespace Catima

/-- src/nucdata.cpp:4-115 -/
def element_atomic_weights : List Dec := [
  ⟨0, 1⟩, ⟨100794, 5⟩, ⟨40026, 4⟩, ⟨6941, 3⟩, ⟨901218, 5⟩, ⟨10811, 3⟩, ⟨120107, 4⟩,
  ⟨140067, 4⟩, ⟨159994, 4⟩, ⟨189984, 4⟩, ⟨201797, 4⟩, ⟨229898, 4⟩, ⟨24305, 3⟩, ⟨269815, 4⟩,
  ⟨280855, 4⟩, ⟨309738, 4⟩, ⟨32065, 3⟩, ⟨35453, 3⟩, ⟨39948, 3⟩, ⟨390983, 4⟩, ⟨40078, 3⟩,
  ⟨449559, 4⟩, ⟨47867, 3⟩, ⟨509415, 4⟩, ⟨519961, 4⟩, ⟨54938, 3⟩, ⟨55845, 3⟩, ⟨589332, 4⟩,
  ⟨586934, 4⟩, ⟨63546, 3⟩, ⟨65409, 3⟩, ⟨69723, 3⟩, ⟨7264, 2⟩, ⟨749216, 4⟩, ⟨7896, 2⟩,
  ⟨79904, 3⟩, ⟨83798, 3⟩, ⟨854678, 4⟩, ⟨8762, 2⟩, ⟨889059, 4⟩, ⟨91224, 3⟩, ⟨929064, 4⟩,
  ⟨9594, 2⟩, ⟨979072, 4⟩, ⟨10107, 2⟩, ⟨102906, 3⟩, ⟨10642, 2⟩, ⟨107868, 3⟩, ⟨112411, 3⟩,
  ⟨114818, 3⟩, ⟨11871, 2⟩, ⟨12176, 2⟩, ⟨1276, 1⟩, ⟨126904, 3⟩, ⟨131293, 3⟩, ⟨132905, 3⟩,
  ⟨137327, 3⟩, ⟨138905, 3⟩, ⟨140116, 3⟩, ⟨140908, 3⟩, ⟨14424, 2⟩, ⟨144913, 3⟩, ⟨15036, 2⟩,
  ⟨151964, 3⟩, ⟨15725, 2⟩, ⟨158925, 3⟩, ⟨1625, 1⟩, ⟨16493, 2⟩, ⟨167259, 3⟩, ⟨168934, 3⟩,
  ⟨17304, 2⟩, ⟨174967, 3⟩, ⟨17849, 2⟩, ⟨180948, 3⟩, ⟨18384, 2⟩, ⟨186207, 3⟩, ⟨19023, 2⟩,
  ⟨192217, 3⟩, ⟨195078, 3⟩, ⟨196967, 3⟩, ⟨20059, 2⟩, ⟨204383, 3⟩, ⟨2072, 1⟩, ⟨20898, 2⟩,
  ⟨208982, 3⟩, ⟨209987, 3⟩, ⟨222018, 3⟩, ⟨22302, 2⟩, ⟨226025, 3⟩, ⟨227028, 3⟩, ⟨232038, 3⟩,
  ⟨231036, 3⟩, ⟨238029, 3⟩, ⟨237048, 3⟩, ⟨244064, 3⟩, ⟨243061, 3⟩, ⟨24707, 2⟩, ⟨24707, 2⟩,
  ⟨25108, 2⟩, ⟨252083, 3⟩, ⟨257095, 3⟩, ⟨258098, 3⟩, ⟨259101, 3⟩, ⟨26211, 2⟩, ⟨261109, 3⟩,
  ⟨262114, 3⟩, ⟨266122, 3⟩, ⟨264125, 3⟩, ⟨269134, 3⟩, ⟨268139, 3⟩]

/-- src/nucdata.cpp:117-217 -/
def element_densities : List Dec := [
  ⟨0, 1⟩, ⟨837480, 10⟩, ⟨166322, 9⟩, ⟨534, 3⟩, ⟨1848, 3⟩, ⟨237, 2⟩, ⟨20, 1⟩, ⟨116520, 8⟩,
  ⟨133151, 8⟩, ⟨158029, 8⟩, ⟨838505, 9⟩, ⟨971, 3⟩, ⟨174, 2⟩, ⟨2699, 3⟩, ⟨233, 2⟩, ⟨22, 1⟩,
  ⟨20, 1⟩, ⟨299473, 8⟩, ⟨166201, 8⟩, ⟨862, 3⟩, ⟨155, 2⟩, ⟨2989, 3⟩, ⟨454, 2⟩, ⟨611, 2⟩,
  ⟨718, 2⟩, ⟨744, 2⟩, ⟨7874, 3⟩, ⟨89, 1⟩, ⟨8902, 3⟩, ⟨896, 2⟩, ⟨7133, 3⟩, ⟨5904, 3⟩, ⟨5323, 3⟩,
  ⟨573, 2⟩, ⟨45, 1⟩, ⟨31028, 4⟩, ⟨347832, 8⟩, ⟨1532, 3⟩, ⟨254, 2⟩, ⟨4469, 3⟩, ⟨6506, 3⟩,
  ⟨857, 2⟩, ⟨1022, 2⟩, ⟨1150, 2⟩, ⟨1241, 2⟩, ⟨1241, 2⟩, ⟨1202, 2⟩, ⟨105, 1⟩, ⟨865, 2⟩,
  ⟨731, 2⟩, ⟨731, 2⟩, ⟨6691, 3⟩, ⟨624, 2⟩, ⟨493, 2⟩, ⟨548536, 8⟩, ⟨1873, 3⟩, ⟨35, 1⟩,
  ⟨6154, 3⟩, ⟨6657, 3⟩, ⟨671, 2⟩, ⟨69, 1⟩, ⟨722, 2⟩, ⟨746, 2⟩, ⟨5243, 3⟩, ⟨79004, 4⟩,
  ⟨8229, 3⟩, ⟨855, 2⟩, ⟨8795, 3⟩, ⟨9066, 3⟩, ⟨9321, 3⟩, ⟨673, 2⟩, ⟨984, 2⟩, ⟨1331, 2⟩,
  ⟨16654, 3⟩, ⟨1930, 2⟩, ⟨2102, 2⟩, ⟨2257, 2⟩, ⟨2242, 2⟩, ⟨2145, 2⟩, ⟨1932, 2⟩, ⟨13546, 3⟩,
  ⟨1172, 2⟩, ⟨1135, 2⟩, ⟨9747, 3⟩, ⟨932, 2⟩, ⟨932, 2⟩, ⟨900662, 8⟩, ⟨100, 2⟩, ⟨500, 2⟩,
  ⟨1007, 2⟩, ⟨1172, 2⟩, ⟨1537, 2⟩, ⟨1895, 2⟩, ⟨2025, 2⟩, ⟨1984, 2⟩, ⟨1367, 2⟩, ⟨1351, 2⟩,
  ⟨1400, 2⟩, ⟨1000, 2⟩]

end Catima
