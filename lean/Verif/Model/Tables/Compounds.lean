import Verif.Model.Scalar

/-!
# Compound database (`/repo/src/material_database.cpp`, `/repo/include/catima/material_database.h`)

Transcribed by `tools/gen_tables.py`; an entry `⟨m, e⟩` is the decimal `m * 10^(-e)`.
-/

namespace Catima

/-- One `case material::name: return Material({{a,z,stn},...},density);` -/
structure CompoundRow where
  id : Int
  name : String
  atoms : List (Dec × Int × Dec)
  density : Dec

/-- src/material_database.cpp:14-164, ids from include/catima/material_database.h:7-160 -/
def compound_rows : List CompoundRow := [
  ⟨201, "Plastics", [(⟨0, 0⟩, 1, ⟨10, 0⟩), (⟨0, 0⟩, 6, ⟨9, 0⟩)], ⟨1032, 3⟩⟩,
  ⟨202, "Air", [(⟨0, 0⟩, 7, ⟨755267, 6⟩), (⟨0, 0⟩, 8, ⟨231781, 6⟩), (⟨0, 0⟩, 18, ⟨12827, 6⟩), (⟨0, 0⟩, 6, ⟨124, 6⟩)], ⟨1205, 6⟩⟩,
  ⟨203, "CH2", [(⟨0, 0⟩, 6, ⟨1, 0⟩), (⟨0, 0⟩, 1, ⟨2, 0⟩)], ⟨94, 2⟩⟩,
  ⟨204, "lH2", [(⟨0, 0⟩, 1, ⟨1, 0⟩)], ⟨708, 4⟩⟩,
  ⟨205, "lD2", [(⟨20141, 4⟩, 1, ⟨1, 0⟩)], ⟨162, 3⟩⟩,
  ⟨206, "Water", [(⟨0, 0⟩, 1, ⟨2, 0⟩), (⟨0, 0⟩, 8, ⟨1, 0⟩)], ⟨1, 0⟩⟩,
  ⟨207, "Diamond", [(⟨0, 0⟩, 6, ⟨1, 0⟩)], ⟨352, 2⟩⟩,
  ⟨208, "Glass", [(⟨0, 0⟩, 14, ⟨37722, 5⟩), (⟨0, 0⟩, 8, ⟨539562, 6⟩), (⟨0, 0⟩, 5, ⟨40064, 6⟩), (⟨0, 0⟩, 11, ⟨28191, 6⟩), (⟨0, 0⟩, 13, ⟨11644, 6⟩), (⟨0, 0⟩, 19, ⟨3321, 6⟩)], ⟨24, 1⟩⟩,
  ⟨209, "ALMG3", [(⟨0, 0⟩, 13, ⟨97, 2⟩), (⟨0, 0⟩, 12, ⟨3, 2⟩)], ⟨267, 2⟩⟩,
  ⟨210, "ArCO2_30", [(⟨0, 0⟩, 18, ⟨679, 3⟩), (⟨0, 0⟩, 8, ⟨2321, 4⟩), (⟨0, 0⟩, 6, ⟨889, 4⟩)], ⟨171, 5⟩⟩,
  ⟨211, "CF4", [(⟨0, 0⟩, 6, ⟨1, 0⟩), (⟨0, 0⟩, 9, ⟨4, 0⟩)], ⟨372, 5⟩⟩,
  ⟨212, "Isobutane", [(⟨0, 0⟩, 6, ⟨4, 0⟩), (⟨0, 0⟩, 1, ⟨10, 0⟩)], ⟨251, 5⟩⟩,
  ⟨213, "Kapton", [(⟨0, 0⟩, 1, ⟨26362, 6⟩), (⟨0, 0⟩, 6, ⟨691133, 6⟩), (⟨0, 0⟩, 7, ⟨7327, 5⟩), (⟨0, 0⟩, 8, ⟨209235, 6⟩)], ⟨142, 2⟩⟩,
  ⟨214, "Mylar", [(⟨0, 0⟩, 6, ⟨10, 0⟩), (⟨0, 0⟩, 1, ⟨8, 0⟩), (⟨0, 0⟩, 8, ⟨4, 0⟩)], ⟨138, 2⟩⟩,
  ⟨215, "NaF", [(⟨0, 0⟩, 11, ⟨1, 0⟩), (⟨0, 0⟩, 9, ⟨1, 0⟩)], ⟨256, 2⟩⟩,
  ⟨216, "P10", [(⟨0, 0⟩, 18, ⟨9, 0⟩), (⟨0, 0⟩, 6, ⟨1, 0⟩), (⟨0, 0⟩, 1, ⟨4, 0⟩)], ⟨166, 5⟩⟩,
  ⟨217, "Polyolefin", [(⟨0, 0⟩, 8, ⟨8, 0⟩), (⟨0, 0⟩, 1, ⟨16, 0⟩)], ⟨9, 1⟩⟩,
  ⟨218, "CmO2", [(⟨0, 0⟩, 96, ⟨1, 0⟩), (⟨0, 0⟩, 8, ⟨2, 0⟩)], ⟨12, 0⟩⟩,
  ⟨219, "Suprasil", [(⟨0, 0⟩, 14, ⟨37722, 5⟩), (⟨0, 0⟩, 8, ⟨539562, 6⟩), (⟨0, 0⟩, 5, ⟨40064, 6⟩), (⟨0, 0⟩, 11, ⟨28191, 6⟩), (⟨0, 0⟩, 13, ⟨11644, 6⟩), (⟨0, 0⟩, 19, ⟨3321, 6⟩)], ⟨22, 1⟩⟩,
  ⟨220, "HAVAR", [(⟨0, 0⟩, 27, ⟨403228, 6⟩), (⟨0, 0⟩, 24, ⟨169412, 6⟩), (⟨0, 0⟩, 28, ⟨124301, 6⟩), (⟨0, 0⟩, 74, ⟨89847, 6⟩), (⟨0, 0⟩, 42, ⟨31259, 6⟩), (⟨0, 0⟩, 26, ⟨181952, 6⟩)], ⟨83, 1⟩⟩,
  ⟨221, "Steel", [(⟨0, 0⟩, 26, ⟨74621, 5⟩), (⟨0, 0⟩, 24, ⟨169, 3⟩), (⟨0, 0⟩, 28, ⟨8479, 5⟩)], ⟨8, 0⟩⟩,
  ⟨222, "CO2", [(⟨0, 0⟩, 6, ⟨1, 0⟩), (⟨0, 0⟩, 8, ⟨2, 0⟩)], ⟨1842, 6⟩⟩,
  ⟨223, "Methane", [(⟨0, 0⟩, 1, ⟨4, 0⟩), (⟨0, 0⟩, 6, ⟨1, 0⟩)], ⟨6, 4⟩⟩,
  ⟨224, "Methanol", [(⟨0, 0⟩, 1, ⟨4, 0⟩), (⟨0, 0⟩, 6, ⟨1, 0⟩), (⟨0, 0⟩, 8, ⟨1, 0⟩)], ⟨792, 3⟩⟩,
  ⟨225, "Acetone", [(⟨0, 0⟩, 1, ⟨6, 0⟩), (⟨0, 0⟩, 6, ⟨3, 0⟩), (⟨0, 0⟩, 8, ⟨1, 0⟩)], ⟨7899, 4⟩⟩,
  ⟨226, "Acetylene", [(⟨0, 0⟩, 1, ⟨2, 0⟩), (⟨0, 0⟩, 6, ⟨2, 0⟩)], ⟨10967, 7⟩⟩,
  ⟨227, "Adenine", [(⟨0, 0⟩, 1, ⟨5, 0⟩), (⟨0, 0⟩, 6, ⟨5, 0⟩), (⟨0, 0⟩, 7, ⟨5, 0⟩)], ⟨135, 2⟩⟩,
  ⟨228, "Adipose_Tissue", [(⟨0, 0⟩, 1, ⟨119477, 6⟩), (⟨0, 0⟩, 6, ⟨63724, 5⟩), (⟨0, 0⟩, 7, ⟨797, 5⟩), (⟨0, 0⟩, 8, ⟨232333, 6⟩), (⟨0, 0⟩, 11, ⟨5, 4⟩), (⟨0, 0⟩, 12, ⟨2, 5⟩), (⟨0, 0⟩, 15, ⟨16, 5⟩), (⟨0, 0⟩, 16, ⟨73, 5⟩), (⟨0, 0⟩, 17, ⟨119, 5⟩), (⟨0, 0⟩, 19, ⟨32, 5⟩), (⟨0, 0⟩, 20, ⟨2, 5⟩), (⟨0, 0⟩, 26, ⟨2, 5⟩), (⟨0, 0⟩, 30, ⟨2, 5⟩)], ⟨92, 2⟩⟩,
  ⟨229, "Alanine", [(⟨0, 0⟩, 1, ⟨7, 0⟩), (⟨0, 0⟩, 6, ⟨3, 0⟩), (⟨0, 0⟩, 7, ⟨1, 0⟩), (⟨0, 0⟩, 8, ⟨2, 0⟩)], ⟨142, 2⟩⟩,
  ⟨230, "Bakelite", [(⟨0, 0⟩, 1, ⟨57441, 6⟩), (⟨0, 0⟩, 6, ⟨774591, 6⟩), (⟨0, 0⟩, 8, ⟨167968, 6⟩)], ⟨125, 2⟩⟩,
  ⟨231, "AgBr", [(⟨0, 0⟩, 47, ⟨1, 0⟩), (⟨0, 0⟩, 35, ⟨1, 0⟩)], ⟨6473, 3⟩⟩,
  ⟨232, "AgCl", [(⟨0, 0⟩, 47, ⟨1, 0⟩), (⟨0, 0⟩, 17, ⟨1, 0⟩)], ⟨556, 2⟩⟩,
  ⟨233, "AgI", [(⟨0, 0⟩, 47, ⟨1, 0⟩), (⟨0, 0⟩, 53, ⟨1, 0⟩)], ⟨5675, 3⟩⟩,
  ⟨234, "Al2O3", [(⟨0, 0⟩, 8, ⟨3, 0⟩), (⟨0, 0⟩, 13, ⟨2, 0⟩)], ⟨397, 2⟩⟩,
  ⟨235, "Amber", [(⟨0, 0⟩, 1, ⟨10593, 5⟩), (⟨0, 0⟩, 6, ⟨788974, 6⟩), (⟨0, 0⟩, 8, ⟨105096, 6⟩)], ⟨11, 1⟩⟩,
  ⟨236, "Ammonia", [(⟨0, 0⟩, 1, ⟨3, 0⟩), (⟨0, 0⟩, 7, ⟨1, 0⟩)], ⟨826, 6⟩⟩,
  ⟨237, "Aniline", [(⟨0, 0⟩, 1, ⟨7, 0⟩), (⟨0, 0⟩, 6, ⟨6, 0⟩), (⟨0, 0⟩, 7, ⟨1, 0⟩)], ⟨10235, 4⟩⟩,
  ⟨238, "Anthracene", [(⟨0, 0⟩, 1, ⟨10, 0⟩), (⟨0, 0⟩, 6, ⟨14, 0⟩)], ⟨1283, 3⟩⟩,
  ⟨239, "A_150", [(⟨0, 0⟩, 1, ⟨101327, 6⟩), (⟨0, 0⟩, 6, ⟨7755, 4⟩), (⟨0, 0⟩, 7, ⟨35057, 6⟩), (⟨0, 0⟩, 8, ⟨523159, 7⟩), (⟨0, 0⟩, 9, ⟨17422, 6⟩), (⟨0, 0⟩, 20, ⟨18378, 6⟩)], ⟨1127, 3⟩⟩,
  ⟨240, "B_100", [(⟨0, 0⟩, 1, ⟨654709, 7⟩), (⟨0, 0⟩, 6, ⟨536944, 6⟩), (⟨0, 0⟩, 7, ⟨215, 4⟩), (⟨0, 0⟩, 8, ⟨32085, 6⟩), (⟨0, 0⟩, 9, ⟨167411, 6⟩), (⟨0, 0⟩, 20, ⟨176589, 6⟩)], ⟨145, 2⟩⟩,
  ⟨241, "BaF2", [(⟨0, 0⟩, 9, ⟨2, 0⟩), (⟨0, 0⟩, 56, ⟨1, 0⟩)], ⟨489, 2⟩⟩,
  ⟨242, "BaSO4", [(⟨0, 0⟩, 8, ⟨4, 0⟩), (⟨0, 0⟩, 16, ⟨1, 0⟩), (⟨0, 0⟩, 56, ⟨1, 0⟩)], ⟨45, 1⟩⟩,
  ⟨243, "Benzene", [(⟨0, 0⟩, 1, ⟨6, 0⟩), (⟨0, 0⟩, 6, ⟨6, 0⟩)], ⟨87865, 5⟩⟩,
  ⟨244, "BeO", [(⟨0, 0⟩, 4, ⟨1, 0⟩), (⟨0, 0⟩, 8, ⟨1, 0⟩)], ⟨301, 2⟩⟩,
  ⟨245, "BGO", [(⟨0, 0⟩, 8, ⟨12, 0⟩), (⟨0, 0⟩, 32, ⟨3, 0⟩), (⟨0, 0⟩, 83, ⟨4, 0⟩)], ⟨713, 2⟩⟩,
  ⟨246, "Blood_ICRP", [(⟨0, 0⟩, 1, ⟨101866, 6⟩), (⟨0, 0⟩, 6, ⟨10002, 5⟩), (⟨0, 0⟩, 7, ⟨2964, 5⟩), (⟨0, 0⟩, 8, ⟨759414, 6⟩), (⟨0, 0⟩, 11, ⟨185, 5⟩), (⟨0, 0⟩, 12, ⟨4, 5⟩), (⟨0, 0⟩, 14, ⟨3, 5⟩), (⟨0, 0⟩, 15, ⟨35, 5⟩), (⟨0, 0⟩, 16, ⟨185, 5⟩), (⟨0, 0⟩, 17, ⟨278, 5⟩), (⟨0, 0⟩, 19, ⟨163, 5⟩), (⟨0, 0⟩, 20, ⟨6, 5⟩), (⟨0, 0⟩, 26, ⟨46, 5⟩), (⟨0, 0⟩, 30, ⟨1, 5⟩)], ⟨106, 2⟩⟩,
  ⟨247, "Bone_Compact", [(⟨0, 0⟩, 1, ⟨63984, 6⟩), (⟨0, 0⟩, 6, ⟨278, 3⟩), (⟨0, 0⟩, 7, ⟨27, 3⟩), (⟨0, 0⟩, 8, ⟨410016, 6⟩), (⟨0, 0⟩, 12, ⟨2, 3⟩), (⟨0, 0⟩, 15, ⟨7, 2⟩), (⟨0, 0⟩, 16, ⟨2, 3⟩), (⟨0, 0⟩, 20, ⟨147, 3⟩)], ⟨185, 2⟩⟩,
  ⟨248, "Bone_Cortical", [(⟨0, 0⟩, 1, ⟨47234, 6⟩), (⟨0, 0⟩, 6, ⟨14433, 5⟩), (⟨0, 0⟩, 7, ⟨4199, 5⟩), (⟨0, 0⟩, 8, ⟨446096, 6⟩), (⟨0, 0⟩, 12, ⟨22, 4⟩), (⟨0, 0⟩, 15, ⟨10497, 5⟩), (⟨0, 0⟩, 16, ⟨315, 5⟩), (⟨0, 0⟩, 20, ⟨20993, 5⟩), (⟨0, 0⟩, 30, ⟨1, 4⟩)], ⟨185, 2⟩⟩,
  ⟨249, "Brain_ICRP", [(⟨0, 0⟩, 1, ⟨110667, 6⟩), (⟨0, 0⟩, 6, ⟨12542, 5⟩), (⟨0, 0⟩, 7, ⟨1328, 5⟩), (⟨0, 0⟩, 8, ⟨737723, 6⟩), (⟨0, 0⟩, 11, ⟨184, 5⟩), (⟨0, 0⟩, 12, ⟨15, 5⟩), (⟨0, 0⟩, 15, ⟨354, 5⟩), (⟨0, 0⟩, 16, ⟨177, 5⟩), (⟨0, 0⟩, 17, ⟨236, 5⟩), (⟨0, 0⟩, 19, ⟨31, 4⟩), (⟨0, 0⟩, 20, ⟨9, 5⟩), (⟨0, 0⟩, 26, ⟨5, 5⟩), (⟨0, 0⟩, 30, ⟨1, 5⟩)], ⟨103, 2⟩⟩,
  ⟨250, "B4C", [(⟨0, 0⟩, 5, ⟨4, 0⟩), (⟨0, 0⟩, 6, ⟨1, 0⟩)], ⟨252, 2⟩⟩,
  ⟨251, "BC_400", [(⟨0, 0⟩, 1, ⟨10, 0⟩), (⟨0, 0⟩, 6, ⟨9, 0⟩)], ⟨1032, 3⟩⟩,
  ⟨252, "nButanol", [(⟨0, 0⟩, 1, ⟨10, 0⟩), (⟨0, 0⟩, 6, ⟨4, 0⟩), (⟨0, 0⟩, 8, ⟨1, 0⟩)], ⟨81, 2⟩⟩,
  ⟨253, "C_552", [(⟨0, 0⟩, 1, ⟨2468, 5⟩), (⟨0, 0⟩, 6, ⟨50161, 5⟩), (⟨0, 0⟩, 8, ⟨4527, 6⟩), (⟨0, 0⟩, 9, ⟨465209, 6⟩), (⟨0, 0⟩, 14, ⟨3973, 6⟩)], ⟨176, 2⟩⟩,
  ⟨254, "CdTe", [(⟨0, 0⟩, 48, ⟨1, 0⟩), (⟨0, 0⟩, 52, ⟨1, 0⟩)], ⟨62, 1⟩⟩,
  ⟨255, "CdWO4", [(⟨0, 0⟩, 8, ⟨4, 0⟩), (⟨0, 0⟩, 48, ⟨1, 0⟩), (⟨0, 0⟩, 74, ⟨1, 0⟩)], ⟨79, 1⟩⟩,
  ⟨256, "CaCO3", [(⟨0, 0⟩, 6, ⟨1, 0⟩), (⟨0, 0⟩, 8, ⟨3, 0⟩), (⟨0, 0⟩, 20, ⟨1, 0⟩)], ⟨28, 1⟩⟩,
  ⟨257, "CaF2", [(⟨0, 0⟩, 9, ⟨2, 0⟩), (⟨0, 0⟩, 20, ⟨1, 0⟩)], ⟨318, 2⟩⟩,
  ⟨258, "CaO", [(⟨0, 0⟩, 8, ⟨1, 0⟩), (⟨0, 0⟩, 20, ⟨1, 0⟩)], ⟨334, 2⟩⟩,
  ⟨259, "CaWO4", [(⟨0, 0⟩, 8, ⟨4, 0⟩), (⟨0, 0⟩, 20, ⟨1, 0⟩), (⟨0, 0⟩, 74, ⟨1, 0⟩)], ⟨6062, 3⟩⟩,
  ⟨260, "CsF", [(⟨0, 0⟩, 9, ⟨1, 0⟩), (⟨0, 0⟩, 55, ⟨1, 0⟩)], ⟨4115, 3⟩⟩,
  ⟨261, "CsI", [(⟨0, 0⟩, 53, ⟨1, 0⟩), (⟨0, 0⟩, 55, ⟨1, 0⟩)], ⟨451, 2⟩⟩,
  ⟨262, "CCl4", [(⟨0, 0⟩, 6, ⟨1, 0⟩), (⟨0, 0⟩, 17, ⟨4, 0⟩)], ⟨1594, 3⟩⟩,
  ⟨263, "Tetrachloroethylene", [(⟨0, 0⟩, 6, ⟨2, 0⟩), (⟨0, 0⟩, 17, ⟨4, 0⟩)], ⟨1622, 3⟩⟩,
  ⟨264, "Cellophane", [(⟨0, 0⟩, 1, ⟨62162, 6⟩), (⟨0, 0⟩, 6, ⟨444462, 6⟩), (⟨0, 0⟩, 8, ⟨493376, 6⟩)], ⟨142, 2⟩⟩,
  ⟨265, "Chlorobenzene", [(⟨0, 0⟩, 1, ⟨5, 0⟩), (⟨0, 0⟩, 6, ⟨6, 0⟩), (⟨0, 0⟩, 17, ⟨1, 0⟩)], ⟨11058, 4⟩⟩,
  ⟨266, "Chloroform", [(⟨0, 0⟩, 1, ⟨1, 0⟩), (⟨0, 0⟩, 6, ⟨1, 0⟩), (⟨0, 0⟩, 17, ⟨3, 0⟩)], ⟨14832, 4⟩⟩,
  ⟨267, "Cyclohexane", [(⟨0, 0⟩, 1, ⟨12, 0⟩), (⟨0, 0⟩, 6, ⟨6, 0⟩)], ⟨779, 3⟩⟩,
  ⟨268, "Concrete", [(⟨0, 0⟩, 1, ⟨1, 2⟩), (⟨0, 0⟩, 6, ⟨1, 3⟩), (⟨0, 0⟩, 8, ⟨529107, 6⟩), (⟨0, 0⟩, 11, ⟨16, 3⟩), (⟨0, 0⟩, 12, ⟨2, 3⟩), (⟨0, 0⟩, 13, ⟨33872, 6⟩), (⟨0, 0⟩, 14, ⟨337021, 6⟩), (⟨0, 0⟩, 19, ⟨13, 3⟩), (⟨0, 0⟩, 20, ⟨44, 3⟩), (⟨0, 0⟩, 26, ⟨14, 3⟩)], ⟨23, 1⟩⟩,
  ⟨269, "Diethyl_Ether", [(⟨0, 0⟩, 1, ⟨10, 0⟩), (⟨0, 0⟩, 6, ⟨4, 0⟩), (⟨0, 0⟩, 8, ⟨1, 0⟩)], ⟨71378, 5⟩⟩,
  ⟨270, "Ethane", [(⟨0, 0⟩, 1, ⟨6, 0⟩), (⟨0, 0⟩, 6, ⟨2, 0⟩)], ⟨125324, 8⟩⟩,
  ⟨271, "Ethanol", [(⟨0, 0⟩, 1, ⟨6, 0⟩), (⟨0, 0⟩, 6, ⟨2, 0⟩), (⟨0, 0⟩, 8, ⟨1, 0⟩)], ⟨7893, 4⟩⟩,
  ⟨272, "Ethylene", [(⟨0, 0⟩, 1, ⟨4, 0⟩), (⟨0, 0⟩, 6, ⟨2, 0⟩)], ⟨117497, 8⟩⟩,
  ⟨273, "Eye_lens", [(⟨0, 0⟩, 1, ⟨99269, 6⟩), (⟨0, 0⟩, 6, ⟨19371, 5⟩), (⟨0, 0⟩, 7, ⟨5327, 5⟩), (⟨0, 0⟩, 8, ⟨653751, 6⟩)], ⟨11, 1⟩⟩,
  ⟨274, "Fe2O3", [(⟨0, 0⟩, 8, ⟨3, 0⟩), (⟨0, 0⟩, 26, ⟨2, 0⟩)], ⟨5242, 3⟩⟩,
  ⟨275, "FeO", [(⟨0, 0⟩, 8, ⟨1, 0⟩), (⟨0, 0⟩, 26, ⟨1, 0⟩)], ⟨5745, 3⟩⟩,
  ⟨276, "Freon_12", [(⟨0, 0⟩, 6, ⟨1, 0⟩), (⟨0, 0⟩, 9, ⟨2, 0⟩), (⟨0, 0⟩, 17, ⟨2, 0⟩)], ⟨1486, 3⟩⟩,
  ⟨277, "Freon_12B2", [(⟨0, 0⟩, 6, ⟨1, 0⟩), (⟨0, 0⟩, 9, ⟨2, 0⟩), (⟨0, 0⟩, 35, ⟨2, 0⟩)], ⟨227, 2⟩⟩,
  ⟨278, "Freon_13", [(⟨0, 0⟩, 6, ⟨1, 0⟩), (⟨0, 0⟩, 9, ⟨3, 0⟩), (⟨0, 0⟩, 17, ⟨1, 0⟩)], ⟨1526, 3⟩⟩,
  ⟨279, "Freon_13B1", [(⟨0, 0⟩, 6, ⟨1, 0⟩), (⟨0, 0⟩, 9, ⟨3, 0⟩), (⟨0, 0⟩, 35, ⟨1, 0⟩)], ⟨1538, 3⟩⟩,
  ⟨280, "Freon_13I1", [(⟨0, 0⟩, 6, ⟨1, 0⟩), (⟨0, 0⟩, 9, ⟨3, 0⟩), (⟨0, 0⟩, 53, ⟨1, 0⟩)], ⟨1538, 3⟩⟩,
  ⟨281, "Gd2O2S", [(⟨0, 0⟩, 8, ⟨2, 0⟩), (⟨0, 0⟩, 16, ⟨1, 0⟩), (⟨0, 0⟩, 64, ⟨2, 0⟩)], ⟨744, 2⟩⟩,
  ⟨282, "GaAs", [(⟨0, 0⟩, 31, ⟨1, 0⟩), (⟨0, 0⟩, 33, ⟨1, 0⟩)], ⟨53176, 4⟩⟩,
  ⟨283, "Gel_Photo_Emulsion", [(⟨0, 0⟩, 1, ⟨8118, 5⟩), (⟨0, 0⟩, 6, ⟨41606, 5⟩), (⟨0, 0⟩, 7, ⟨11124, 5⟩), (⟨0, 0⟩, 8, ⟨38064, 5⟩), (⟨0, 0⟩, 16, ⟨1088, 5⟩)], ⟨12914, 4⟩⟩,
  ⟨284, "Glass_Pyrex", [(⟨0, 0⟩, 5, ⟨400639, 7⟩), (⟨0, 0⟩, 8, ⟨539561, 6⟩), (⟨0, 0⟩, 11, ⟨281909, 7⟩), (⟨0, 0⟩, 13, ⟨11644, 6⟩), (⟨0, 0⟩, 14, ⟨377219, 6⟩), (⟨0, 0⟩, 19, ⟨332099, 8⟩)], ⟨223, 2⟩⟩,
  ⟨285, "Glass_Lead", [(⟨0, 0⟩, 8, ⟨156453, 6⟩), (⟨0, 0⟩, 14, ⟨80866, 6⟩), (⟨0, 0⟩, 22, ⟨8092, 6⟩), (⟨0, 0⟩, 33, ⟨2651, 6⟩), (⟨0, 0⟩, 82, ⟨751938, 6⟩)], ⟨622, 2⟩⟩,
  ⟨286, "Glucose", [(⟨0, 0⟩, 1, ⟨12, 0⟩), (⟨0, 0⟩, 6, ⟨6, 0⟩), (⟨0, 0⟩, 8, ⟨6, 0⟩)], ⟨154, 2⟩⟩,
  ⟨287, "Glutamine", [(⟨0, 0⟩, 1, ⟨10, 0⟩), (⟨0, 0⟩, 6, ⟨5, 0⟩), (⟨0, 0⟩, 7, ⟨2, 0⟩), (⟨0, 0⟩, 8, ⟨3, 0⟩)], ⟨146, 2⟩⟩,
  ⟨288, "Glycerol", [(⟨0, 0⟩, 1, ⟨8, 0⟩), (⟨0, 0⟩, 6, ⟨3, 0⟩), (⟨0, 0⟩, 8, ⟨3, 0⟩)], ⟨12613, 4⟩⟩,
  ⟨289, "Guanine", [(⟨0, 0⟩, 1, ⟨5, 0⟩), (⟨0, 0⟩, 6, ⟨5, 0⟩), (⟨0, 0⟩, 7, ⟨5, 0⟩), (⟨0, 0⟩, 8, ⟨1, 0⟩)], ⟨158, 2⟩⟩,
  ⟨290, "Gypsum", [(⟨0, 0⟩, 1, ⟨23416, 6⟩), (⟨0, 0⟩, 8, ⟨557572, 6⟩), (⟨0, 0⟩, 16, ⟨186215, 6⟩), (⟨0, 0⟩, 20, ⟨232797, 6⟩)], ⟨232, 2⟩⟩,
  ⟨291, "nHeptane", [(⟨0, 0⟩, 1, ⟨16, 0⟩), (⟨0, 0⟩, 6, ⟨7, 0⟩)], ⟨68376, 5⟩⟩,
  ⟨292, "nHexane", [(⟨0, 0⟩, 1, ⟨14, 0⟩), (⟨0, 0⟩, 6, ⟨6, 0⟩)], ⟨66603, 5⟩⟩,
  ⟨293, "KI", [(⟨0, 0⟩, 19, ⟨1, 0⟩), (⟨0, 0⟩, 53, ⟨1, 0⟩)], ⟨313, 2⟩⟩,
  ⟨294, "K2O", [(⟨0, 0⟩, 8, ⟨1, 0⟩), (⟨0, 0⟩, 19, ⟨2, 0⟩)], ⟨232, 2⟩⟩,
  ⟨295, "LaBr3", [(⟨0, 0⟩, 57, ⟨1, 0⟩), (⟨0, 0⟩, 35, ⟨3, 0⟩)], ⟨506, 2⟩⟩,
  ⟨296, "LaOBr", [(⟨0, 0⟩, 8, ⟨1, 0⟩), (⟨0, 0⟩, 35, ⟨1, 0⟩), (⟨0, 0⟩, 57, ⟨1, 0⟩)], ⟨628, 2⟩⟩,
  ⟨297, "La2O2S", [(⟨0, 0⟩, 8, ⟨2, 0⟩), (⟨0, 0⟩, 16, ⟨1, 0⟩), (⟨0, 0⟩, 57, ⟨2, 0⟩)], ⟨586, 2⟩⟩,
  ⟨298, "Lung", [(⟨0, 0⟩, 1, ⟨101278, 6⟩), (⟨0, 0⟩, 6, ⟨10231, 5⟩), (⟨0, 0⟩, 7, ⟨2865, 5⟩), (⟨0, 0⟩, 8, ⟨757072, 6⟩), (⟨0, 0⟩, 11, ⟨184, 5⟩), (⟨0, 0⟩, 12, ⟨73, 5⟩), (⟨0, 0⟩, 15, ⟨8, 4⟩), (⟨0, 0⟩, 16, ⟨225, 5⟩), (⟨0, 0⟩, 17, ⟨266, 5⟩), (⟨0, 0⟩, 19, ⟨194, 5⟩), (⟨0, 0⟩, 20, ⟨9, 5⟩), (⟨0, 0⟩, 26, ⟨37, 5⟩), (⟨0, 0⟩, 30, ⟨1, 5⟩)], ⟨105, 2⟩⟩,
  ⟨299, "MgCO3", [(⟨0, 0⟩, 12, ⟨1, 0⟩), (⟨0, 0⟩, 6, ⟨1, 0⟩), (⟨0, 0⟩, 8, ⟨3, 0⟩)], ⟨2958, 3⟩⟩,
  ⟨300, "MgF2", [(⟨0, 0⟩, 12, ⟨1, 0⟩), (⟨0, 0⟩, 9, ⟨2, 0⟩)], ⟨3148, 3⟩⟩,
  ⟨301, "MgO", [(⟨0, 0⟩, 12, ⟨1, 0⟩), (⟨0, 0⟩, 8, ⟨1, 0⟩)], ⟨36, 1⟩⟩,
  ⟨302, "MS20_Tissue", [(⟨0, 0⟩, 1, ⟨81192, 6⟩), (⟨0, 0⟩, 6, ⟨583442, 6⟩), (⟨0, 0⟩, 7, ⟨17798, 6⟩), (⟨0, 0⟩, 8, ⟨186381, 6⟩), (⟨0, 0⟩, 12, ⟨130287, 6⟩), (⟨0, 0⟩, 17, ⟨9, 4⟩)], ⟨1, 0⟩⟩,
  ⟨303, "Muscle_skeletal", [(⟨0, 0⟩, 1, ⟨100637, 6⟩), (⟨0, 0⟩, 6, ⟨10783, 5⟩), (⟨0, 0⟩, 7, ⟨2768, 5⟩), (⟨0, 0⟩, 8, ⟨754773, 6⟩), (⟨0, 0⟩, 11, ⟨75, 5⟩), (⟨0, 0⟩, 12, ⟨19, 5⟩), (⟨0, 0⟩, 15, ⟨18, 4⟩), (⟨0, 0⟩, 16, ⟨241, 5⟩), (⟨0, 0⟩, 17, ⟨79, 5⟩), (⟨0, 0⟩, 19, ⟨302, 5⟩), (⟨0, 0⟩, 20, ⟨3, 5⟩), (⟨0, 0⟩, 26, ⟨4, 5⟩), (⟨0, 0⟩, 30, ⟨5, 5⟩)], ⟨104, 2⟩⟩,
  ⟨304, "Muscle_strained", [(⟨0, 0⟩, 1, ⟨101997, 6⟩), (⟨0, 0⟩, 6, ⟨123, 3⟩), (⟨0, 0⟩, 7, ⟨35, 3⟩), (⟨0, 0⟩, 8, ⟨729003, 6⟩), (⟨0, 0⟩, 11, ⟨8, 4⟩), (⟨0, 0⟩, 12, ⟨2, 4⟩), (⟨0, 0⟩, 15, ⟨2, 3⟩), (⟨0, 0⟩, 16, ⟨5, 3⟩), (⟨0, 0⟩, 19, ⟨3, 3⟩)], ⟨104, 2⟩⟩,
  ⟨305, "Muscle_sucrose", [(⟨0, 0⟩, 1, ⟨982341, 7⟩), (⟨0, 0⟩, 6, ⟨156214, 6⟩), (⟨0, 0⟩, 7, ⟨35451, 6⟩), (⟨0, 0⟩, 8, ⟨710101, 6⟩)], ⟨111, 2⟩⟩,
  ⟨306, "Muscle_no_sucrose", [(⟨0, 0⟩, 1, ⟨101969, 6⟩), (⟨0, 0⟩, 6, ⟨120058, 6⟩), (⟨0, 0⟩, 7, ⟨35451, 6⟩), (⟨0, 0⟩, 8, ⟨742522, 6⟩)], ⟨107, 2⟩⟩,
  ⟨307, "Na2CO3", [(⟨0, 0⟩, 6, ⟨1, 0⟩), (⟨0, 0⟩, 8, ⟨3, 0⟩), (⟨0, 0⟩, 11, ⟨1, 0⟩)], ⟨2532, 3⟩⟩,
  ⟨308, "NaI", [(⟨0, 0⟩, 11, ⟨1, 0⟩), (⟨0, 0⟩, 53, ⟨1, 0⟩)], ⟨3667, 3⟩⟩,
  ⟨309, "NaCl", [(⟨0, 0⟩, 11, ⟨1, 0⟩), (⟨0, 0⟩, 17, ⟨1, 0⟩)], ⟨2165, 3⟩⟩,
  ⟨310, "Na2O", [(⟨0, 0⟩, 8, ⟨1, 0⟩), (⟨0, 0⟩, 11, ⟨2, 0⟩)], ⟨227, 2⟩⟩,
  ⟨311, "NaNO3", [(⟨0, 0⟩, 7, ⟨1, 0⟩), (⟨0, 0⟩, 8, ⟨3, 0⟩), (⟨0, 0⟩, 11, ⟨1, 0⟩)], ⟨2261, 3⟩⟩,
  ⟨312, "Naphthalene", [(⟨0, 0⟩, 1, ⟨8, 0⟩), (⟨0, 0⟩, 6, ⟨10, 0⟩)], ⟨1145, 3⟩⟩,
  ⟨313, "Nitrobenzene", [(⟨0, 0⟩, 1, ⟨5, 0⟩), (⟨0, 0⟩, 6, ⟨6, 0⟩), (⟨0, 0⟩, 7, ⟨1, 0⟩), (⟨0, 0⟩, 8, ⟨2, 0⟩)], ⟨1199, 3⟩⟩,
  ⟨314, "N2O", [(⟨0, 0⟩, 7, ⟨2, 0⟩), (⟨0, 0⟩, 8, ⟨1, 0⟩)], ⟨183, 5⟩⟩,
  ⟨315, "Octane", [(⟨0, 0⟩, 1, ⟨18, 0⟩), (⟨0, 0⟩, 6, ⟨8, 0⟩)], ⟨703, 3⟩⟩,
  ⟨316, "Paraffin", [(⟨0, 0⟩, 1, ⟨148605, 6⟩), (⟨0, 0⟩, 6, ⟨851395, 6⟩)], ⟨93, 2⟩⟩,
  ⟨317, "nPentane", [(⟨0, 0⟩, 1, ⟨12, 0⟩), (⟨0, 0⟩, 6, ⟨5, 0⟩)], ⟨626, 3⟩⟩,
  ⟨318, "PhotoEmulsion", [(⟨0, 0⟩, 1, ⟨141, 4⟩), (⟨0, 0⟩, 6, ⟨72261, 6⟩), (⟨0, 0⟩, 7, ⟨1932, 5⟩), (⟨0, 0⟩, 8, ⟨66101, 6⟩), (⟨0, 0⟩, 16, ⟨189, 5⟩), (⟨0, 0⟩, 35, ⟨349103, 6⟩), (⟨0, 0⟩, 47, ⟨474105, 6⟩)], ⟨3815, 3⟩⟩,
  ⟨319, "PuO2", [(⟨0, 0⟩, 8, ⟨2, 0⟩), (⟨0, 0⟩, 94, ⟨1, 0⟩)], ⟨1146, 2⟩⟩,
  ⟨320, "Polyacrylonitrile", [(⟨0, 0⟩, 1, ⟨3, 0⟩), (⟨0, 0⟩, 6, ⟨3, 0⟩), (⟨0, 0⟩, 7, ⟨1, 0⟩)], ⟨1184, 3⟩⟩,
  ⟨321, "Polycarbonate", [(⟨0, 0⟩, 1, ⟨55491, 6⟩), (⟨0, 0⟩, 6, ⟨755751, 6⟩), (⟨0, 0⟩, 8, ⟨188758, 6⟩)], ⟨12, 1⟩⟩,
  ⟨322, "PMMA", [(⟨0, 0⟩, 1, ⟨8, 0⟩), (⟨0, 0⟩, 6, ⟨5, 0⟩), (⟨0, 0⟩, 8, ⟨2, 0⟩)], ⟨118, 2⟩⟩,
  ⟨323, "POM", [(⟨0, 0⟩, 1, ⟨2, 0⟩), (⟨0, 0⟩, 6, ⟨1, 0⟩), (⟨0, 0⟩, 8, ⟨1, 0⟩)], ⟨142, 2⟩⟩,
  ⟨324, "Polypropylene", [(⟨0, 0⟩, 6, ⟨3, 0⟩), (⟨0, 0⟩, 1, ⟨6, 0⟩)], ⟨9, 1⟩⟩,
  ⟨325, "Polystyrene", [(⟨0, 0⟩, 6, ⟨8, 0⟩), (⟨0, 0⟩, 1, ⟨8, 0⟩)], ⟨106, 2⟩⟩,
  ⟨326, "Propane", [(⟨0, 0⟩, 1, ⟨8, 0⟩), (⟨0, 0⟩, 6, ⟨3, 0⟩)], ⟨188, 5⟩⟩,
  ⟨327, "nPropanol", [(⟨0, 0⟩, 1, ⟨8, 0⟩), (⟨0, 0⟩, 6, ⟨3, 0⟩), (⟨0, 0⟩, 8, ⟨1, 0⟩)], ⟨8035, 4⟩⟩,
  ⟨328, "PVC", [(⟨0, 0⟩, 1, ⟨3, 0⟩), (⟨0, 0⟩, 6, ⟨2, 0⟩), (⟨0, 0⟩, 17, ⟨1, 0⟩)], ⟨13, 1⟩⟩,
  ⟨329, "Pyridine", [(⟨0, 0⟩, 1, ⟨5, 0⟩), (⟨0, 0⟩, 6, ⟨5, 0⟩), (⟨0, 0⟩, 7, ⟨1, 0⟩)], ⟨9819, 4⟩⟩,
  ⟨330, "SiO2", [(⟨0, 0⟩, 8, ⟨2, 0⟩), (⟨0, 0⟩, 14, ⟨1, 0⟩)], ⟨232, 2⟩⟩,
  ⟨331, "Skin", [(⟨0, 0⟩, 1, ⟨100588, 6⟩), (⟨0, 0⟩, 6, ⟨22825, 5⟩), (⟨0, 0⟩, 7, ⟨4642, 5⟩), (⟨0, 0⟩, 8, ⟨619002, 6⟩), (⟨0, 0⟩, 11, ⟨7, 5⟩), (⟨0, 0⟩, 12, ⟨6, 5⟩), (⟨0, 0⟩, 15, ⟨33, 5⟩), (⟨0, 0⟩, 16, ⟨159, 5⟩), (⟨0, 0⟩, 17, ⟨267, 5⟩), (⟨0, 0⟩, 19, ⟨85, 5⟩), (⟨0, 0⟩, 20, ⟨15, 5⟩), (⟨0, 0⟩, 26, ⟨1, 5⟩), (⟨0, 0⟩, 30, ⟨1, 5⟩)], ⟨11, 1⟩⟩,
  ⟨332, "Sucrose", [(⟨0, 0⟩, 1, ⟨22, 0⟩), (⟨0, 0⟩, 6, ⟨12, 0⟩), (⟨0, 0⟩, 8, ⟨11, 0⟩)], ⟨1587, 3⟩⟩,
  ⟨333, "Teflon", [(⟨0, 0⟩, 6, ⟨2, 0⟩), (⟨0, 0⟩, 9, ⟨4, 0⟩)], ⟨22, 1⟩⟩,
  ⟨334, "TlCl", [(⟨0, 0⟩, 17, ⟨1, 0⟩), (⟨0, 0⟩, 81, ⟨1, 0⟩)], ⟨7004, 3⟩⟩,
  ⟨335, "Toluene", [(⟨0, 0⟩, 1, ⟨8, 0⟩), (⟨0, 0⟩, 6, ⟨7, 0⟩)], ⟨8669, 4⟩⟩,
  ⟨336, "Trichloroethylene", [(⟨0, 0⟩, 1, ⟨1, 0⟩), (⟨0, 0⟩, 6, ⟨2, 0⟩), (⟨0, 0⟩, 17, ⟨3, 0⟩)], ⟨146, 2⟩⟩,
  ⟨337, "WF6", [(⟨0, 0⟩, 9, ⟨6, 0⟩), (⟨0, 0⟩, 74, ⟨1, 0⟩)], ⟨24, 1⟩⟩,
  ⟨338, "UC2", [(⟨0, 0⟩, 6, ⟨2, 0⟩), (⟨0, 0⟩, 92, ⟨1, 0⟩)], ⟨1128, 2⟩⟩,
  ⟨339, "UC", [(⟨0, 0⟩, 6, ⟨1, 0⟩), (⟨0, 0⟩, 92, ⟨1, 0⟩)], ⟨1363, 2⟩⟩,
  ⟨340, "UO2", [(⟨0, 0⟩, 8, ⟨2, 0⟩), (⟨0, 0⟩, 92, ⟨1, 0⟩)], ⟨1097, 2⟩⟩,
  ⟨341, "Urea", [(⟨0, 0⟩, 1, ⟨67131, 6⟩), (⟨0, 0⟩, 6, ⟨2, 1⟩), (⟨0, 0⟩, 7, ⟨466459, 6⟩), (⟨0, 0⟩, 8, ⟨266411, 6⟩)], ⟨1323, 3⟩⟩,
  ⟨342, "Valine", [(⟨0, 0⟩, 1, ⟨11, 0⟩), (⟨0, 0⟩, 6, ⟨5, 0⟩), (⟨0, 0⟩, 7, ⟨1, 0⟩), (⟨0, 0⟩, 8, ⟨2, 0⟩)], ⟨123, 2⟩⟩,
  ⟨343, "Iodonaphthalene", [(⟨0, 0⟩, 6, ⟨10, 0⟩), (⟨0, 0⟩, 1, ⟨7, 0⟩), (⟨0, 0⟩, 53, ⟨1, 0⟩)], ⟨1738, 3⟩⟩,
  ⟨344, "C21H24O4", [(⟨0, 0⟩, 6, ⟨21, 0⟩), (⟨0, 0⟩, 1, ⟨24, 0⟩), (⟨0, 0⟩, 8, ⟨4, 0⟩)], ⟨118, 2⟩⟩,
  ⟨345, "CoRe_Alloy", [(⟨0, 0⟩, 27, ⟨17, 0⟩), (⟨0, 0⟩, 75, ⟨23, 0⟩), (⟨0, 0⟩, 24, ⟨1, 0⟩)], ⟨115, 1⟩⟩,
  ⟨346, "LLZO_electrolyte", [(⟨0, 0⟩, 3, ⟨7, 0⟩), (⟨0, 0⟩, 57, ⟨3, 0⟩), (⟨0, 0⟩, 40, ⟨2, 0⟩), (⟨0, 0⟩, 8, ⟨12, 0⟩)], ⟨51, 1⟩⟩,
  ⟨347, "Nylon", [(⟨0, 0⟩, 6, ⟨6, 0⟩), (⟨0, 0⟩, 1, ⟨11, 0⟩), (⟨0, 0⟩, 7, ⟨1, 0⟩), (⟨0, 0⟩, 8, ⟨1, 0⟩)], ⟨114, 2⟩⟩,
  ⟨348, "Brass", [(⟨0, 0⟩, 29, ⟨63, 2⟩), (⟨0, 0⟩, 30, ⟨35, 2⟩), (⟨0, 0⟩, 82, ⟨2, 2⟩)], ⟨873, 2⟩⟩,
  ⟨349, "RW3", [(⟨0, 0⟩, 1, ⟨759, 4⟩), (⟨0, 0⟩, 6, ⟨9041, 4⟩), (⟨0, 0⟩, 6, ⟨8, 3⟩), (⟨0, 0⟩, 22, ⟨12, 3⟩)], ⟨1045, 3⟩⟩]

/-- The enumerators of `enum class material` (include/catima/material_database.h:7-160). -/
def material_enum : List (String × Int) := [
  ("Plastics", 201), ("Air", 202), ("CH2", 203), ("lH2", 204), ("lD2", 205), ("Water", 206),
  ("Diamond", 207), ("Glass", 208), ("ALMG3", 209), ("ArCO2_30", 210), ("CF4", 211),
  ("Isobutane", 212), ("Kapton", 213), ("Mylar", 214), ("NaF", 215), ("P10", 216),
  ("Polyolefin", 217), ("CmO2", 218), ("Suprasil", 219), ("HAVAR", 220), ("Steel", 221),
  ("CO2", 222), ("Methane", 223), ("Methanol", 224), ("Acetone", 225), ("Acetylene", 226),
  ("Adenine", 227), ("Adipose_Tissue", 228), ("Alanine", 229), ("Bakelite", 230),
  ("AgBr", 231), ("AgCl", 232), ("AgI", 233), ("Al2O3", 234), ("Amber", 235), ("Ammonia", 236),
  ("Aniline", 237), ("Anthracene", 238), ("A_150", 239), ("B_100", 240), ("BaF2", 241),
  ("BaSO4", 242), ("Benzene", 243), ("BeO", 244), ("BGO", 245), ("Blood_ICRP", 246),
  ("Bone_Compact", 247), ("Bone_Cortical", 248), ("Brain_ICRP", 249), ("B4C", 250),
  ("BC_400", 251), ("nButanol", 252), ("C_552", 253), ("CdTe", 254), ("CdWO4", 255),
  ("CaCO3", 256), ("CaF2", 257), ("CaO", 258), ("CaWO4", 259), ("CsF", 260), ("CsI", 261),
  ("CCl4", 262), ("Tetrachloroethylene", 263), ("Cellophane", 264), ("Chlorobenzene", 265),
  ("Chloroform", 266), ("Cyclohexane", 267), ("Concrete", 268), ("Diethyl_Ether", 269),
  ("Ethane", 270), ("Ethanol", 271), ("Ethylene", 272), ("Eye_lens", 273), ("Fe2O3", 274),
  ("FeO", 275), ("Freon_12", 276), ("Freon_12B2", 277), ("Freon_13", 278), ("Freon_13B1", 279),
  ("Freon_13I1", 280), ("Gd2O2S", 281), ("GaAs", 282), ("Gel_Photo_Emulsion", 283),
  ("Glass_Pyrex", 284), ("Glass_Lead", 285), ("Glucose", 286), ("Glutamine", 287),
  ("Glycerol", 288), ("Guanine", 289), ("Gypsum", 290), ("nHeptane", 291), ("nHexane", 292),
  ("KI", 293), ("K2O", 294), ("LaBr3", 295), ("LaOBr", 296), ("La2O2S", 297), ("Lung", 298),
  ("MgCO3", 299), ("MgF2", 300), ("MgO", 301), ("MS20_Tissue", 302), ("Muscle_skeletal", 303),
  ("Muscle_strained", 304), ("Muscle_sucrose", 305), ("Muscle_no_sucrose", 306),
  ("Na2CO3", 307), ("NaI", 308), ("NaCl", 309), ("Na2O", 310), ("NaNO3", 311),
  ("Naphthalene", 312), ("Nitrobenzene", 313), ("N2O", 314), ("Octane", 315),
  ("Paraffin", 316), ("nPentane", 317), ("PhotoEmulsion", 318), ("PuO2", 319),
  ("Polyacrylonitrile", 320), ("Polycarbonate", 321), ("PMMA", 322), ("POM", 323),
  ("Polypropylene", 324), ("Polystyrene", 325), ("Propane", 326), ("nPropanol", 327),
  ("PVC", 328), ("Pyridine", 329), ("SiO2", 330), ("Skin", 331), ("Sucrose", 332),
  ("Teflon", 333), ("TlCl", 334), ("Toluene", 335), ("Trichloroethylene", 336), ("WF6", 337),
  ("UC2", 338), ("UC", 339), ("UO2", 340), ("Urea", 341), ("Valine", 342),
  ("Iodonaphthalene", 343), ("C21H24O4", 344), ("CoRe_Alloy", 345), ("LLZO_electrolyte", 346),
  ("Nylon", 347), ("Brass", 348), ("RW3", 349)]

end Catima
