import Verif.Model.Scalar

/-!
# Density effect parameters (`/repo/include/catima/data_atima.h`)

Transcribed by `tools/gen_tables.py`; an entry `⟨m, e⟩` is the decimal `m * 10^(-e)`.
-/

namespace Catima

/-- include/catima/data_atima.h:10-20 -/
def density_effect_x0 : List Dec := [
  ⟨18639, 4⟩, ⟨22017, 4⟩, ⟨1304, 4⟩, ⟨592, 4⟩, ⟨305, 4⟩, ⟨-178, 4⟩, ⟨17378, 4⟩, ⟨17541, 4⟩,
  ⟨18433, 4⟩, ⟨20735, 4⟩, ⟨2880, 4⟩, ⟨1499, 4⟩, ⟨1708, 4⟩, ⟨2014, 4⟩, ⟨1696, 4⟩, ⟨1580, 4⟩,
  ⟨15555, 4⟩, ⟨17635, 4⟩, ⟨3851, 4⟩, ⟨3228, 4⟩, ⟨1640, 4⟩, ⟨957, 4⟩, ⟨691, 4⟩, ⟨340, 4⟩,
  ⟨447, 4⟩, ⟨-12, 4⟩, ⟨-187, 4⟩, ⟨-566, 4⟩, ⟨-254, 4⟩, ⟨49, 4⟩, ⟨2267, 4⟩, ⟨3376, 4⟩,
  ⟨1767, 4⟩, ⟨2258, 4⟩, ⟨15262, 4⟩, ⟨17158, 4⟩, ⟨5737, 4⟩, ⟨4585, 4⟩, ⟨3608, 4⟩, ⟨2957, 4⟩,
  ⟨1785, 4⟩, ⟨2267, 4⟩, ⟨949, 4⟩, ⟨599, 4⟩, ⟨576, 4⟩, ⟨563, 4⟩, ⟨657, 4⟩, ⟨1281, 4⟩, ⟨2406, 4⟩,
  ⟨2879, 4⟩, ⟨3189, 4⟩, ⟨3296, 4⟩, ⟨549, 4⟩, ⟨15630, 4⟩, ⟨5473, 4⟩, ⟨4190, 4⟩, ⟨3161, 4⟩,
  ⟨2713, 4⟩, ⟨2333, 4⟩, ⟨1984, 4⟩, ⟨1627, 4⟩, ⟨1520, 4⟩, ⟨1888, 4⟩, ⟨1058, 4⟩, ⟨947, 4⟩,
  ⟨822, 4⟩, ⟨761, 4⟩, ⟨648, 4⟩, ⟨812, 4⟩, ⟨1199, 4⟩, ⟨1560, 4⟩, ⟨1965, 4⟩, ⟨2117, 4⟩,
  ⟨2167, 4⟩, ⟨559, 4⟩, ⟨891, 4⟩, ⟨819, 4⟩, ⟨1484, 4⟩, ⟨2021, 4⟩, ⟨2756, 4⟩, ⟨3491, 4⟩,
  ⟨3776, 4⟩, ⟨4152, 4⟩, ⟨4267, 4⟩, ⟨4300, 4⟩, ⟨15368, 4⟩, ⟨6000, 4⟩, ⟨5991, 4⟩, ⟨4559, 4⟩,
  ⟨4202, 4⟩, ⟨3144, 4⟩, ⟨2260, 4⟩, ⟨1869, 4⟩, ⟨1557, 4⟩, ⟨2274, 4⟩, ⟨2484, 4⟩, ⟨2378, 4⟩]

/-- include/catima/data_atima.h:22-32 -/
def density_effect_x1 : List Dec := [
  ⟨32718, 4⟩, ⟨36122, 4⟩, ⟨16397, 4⟩, ⟨16922, 4⟩, ⟨19688, 4⟩, ⟨23415, 4⟩, ⟨41323, 4⟩,
  ⟨43213, 4⟩, ⟨44096, 4⟩, ⟨46421, 4⟩, ⟨31962, 4⟩, ⟨30668, 4⟩, ⟨30127, 4⟩, ⟨28715, 4⟩,
  ⟨27815, 4⟩, ⟨27159, 4⟩, ⟨42994, 4⟩, ⟨44855, 4⟩, ⟨31724, 4⟩, ⟨31191, 4⟩, ⟨30593, 4⟩,
  ⟨30386, 4⟩, ⟨30322, 4⟩, ⟨30451, 4⟩, ⟨31074, 4⟩, ⟨31531, 4⟩, ⟨31790, 4⟩, ⟨31851, 4⟩,
  ⟨32792, 4⟩, ⟨33668, 4⟩, ⟨35434, 4⟩, ⟨36096, 4⟩, ⟨35702, 4⟩, ⟨36264, 4⟩, ⟨49899, 4⟩,
  ⟨50748, 4⟩, ⟨37995, 4⟩, ⟨36778, 4⟩, ⟨35542, 4⟩, ⟨34890, 4⟩, ⟨32201, 4⟩, ⟨32784, 4⟩,
  ⟨31253, 4⟩, ⟨30834, 4⟩, ⟨31069, 4⟩, ⟨30555, 4⟩, ⟨31074, 4⟩, ⟨31667, 4⟩, ⟨32032, 4⟩,
  ⟨32959, 4⟩, ⟨33489, 4⟩, ⟨34418, 4⟩, ⟨32596, 4⟩, ⟨47371, 4⟩, ⟨35914, 4⟩, ⟨34547, 4⟩,
  ⟨33293, 4⟩, ⟨33432, 4⟩, ⟨32773, 4⟩, ⟨33063, 4⟩, ⟨33199, 4⟩, ⟨33460, 4⟩, ⟨34633, 4⟩,
  ⟨33932, 4⟩, ⟨34224, 4⟩, ⟨34474, 4⟩, ⟨34782, 4⟩, ⟨34922, 4⟩, ⟨35085, 4⟩, ⟨36246, 4⟩,
  ⟨35218, 4⟩, ⟨34337, 4⟩, ⟨34805, 4⟩, ⟨34960, 4⟩, ⟨34845, 4⟩, ⟨35414, 4⟩, ⟨35480, 4⟩,
  ⟨36212, 4⟩, ⟨36979, 4⟩, ⟨37275, 4⟩, ⟨38044, 4⟩, ⟨38073, 4⟩, ⟨38248, 4⟩, ⟨38293, 4⟩,
  ⟨40000, 4⟩, ⟨49889, 4⟩, ⟨40000, 4⟩, ⟨39428, 4⟩, ⟨37966, 4⟩, ⟨37681, 4⟩, ⟨35079, 4⟩,
  ⟨33721, 4⟩, ⟨33690, 4⟩, ⟨33981, 4⟩, ⟨35021, 4⟩, ⟨35160, 4⟩, ⟨35186, 4⟩]

/-- include/catima/data_atima.h:34-44 -/
def density_effect_a : List Dec := [
  ⟨14092, 5⟩, ⟨13443, 5⟩, ⟨95136, 5⟩, ⟨80392, 5⟩, ⟨56224, 5⟩, ⟨26142, 5⟩, ⟨15349, 5⟩,
  ⟨11778, 5⟩, ⟨11083, 5⟩, ⟨8064, 5⟩, ⟨7772, 5⟩, ⟨8163, 5⟩, ⟨8024, 5⟩, ⟨14921, 5⟩, ⟨23610, 5⟩,
  ⟨33992, 5⟩, ⟨19849, 5⟩, ⟨19714, 5⟩, ⟨19827, 5⟩, ⟨15643, 5⟩, ⟨15754, 5⟩, ⟨15662, 5⟩,
  ⟨15436, 5⟩, ⟨15419, 5⟩, ⟨14973, 5⟩, ⟨14680, 5⟩, ⟨14474, 5⟩, ⟨16496, 5⟩, ⟨14339, 5⟩,
  ⟨14714, 5⟩, ⟨9440, 5⟩, ⟨7188, 5⟩, ⟨6633, 5⟩, ⟨6568, 5⟩, ⟨6335, 5⟩, ⟨7446, 5⟩, ⟨7261, 5⟩,
  ⟨7165, 5⟩, ⟨7138, 5⟩, ⟨7177, 5⟩, ⟨13883, 5⟩, ⟨10525, 5⟩, ⟨16572, 5⟩, ⟨19342, 5⟩, ⟨19205, 5⟩,
  ⟨24178, 5⟩, ⟨24585, 5⟩, ⟨24609, 5⟩, ⟨23879, 5⟩, ⟨18689, 5⟩, ⟨16652, 5⟩, ⟨13815, 5⟩,
  ⟨23766, 5⟩, ⟨23314, 5⟩, ⟨18233, 5⟩, ⟨18268, 5⟩, ⟨18591, 5⟩, ⟨18885, 5⟩, ⟨23265, 5⟩,
  ⟨23530, 5⟩, ⟨24280, 5⟩, ⟨24698, 5⟩, ⟨24448, 5⟩, ⟨25109, 5⟩, ⟨24453, 5⟩, ⟨24665, 5⟩,
  ⟨24638, 5⟩, ⟨24823, 5⟩, ⟨24889, 5⟩, ⟨25295, 5⟩, ⟨24033, 5⟩, ⟨22918, 5⟩, ⟨17798, 5⟩,
  ⟨15509, 5⟩, ⟨15184, 5⟩, ⟨12751, 5⟩, ⟨12690, 5⟩, ⟨11128, 5⟩, ⟨9756, 5⟩, ⟨11014, 5⟩, ⟨9455, 5⟩,
  ⟨9359, 5⟩, ⟨9410, 5⟩, ⟨9282, 5⟩, ⟨9000, 5⟩, ⟨20798, 5⟩, ⟨8000, 5⟩, ⟨8804, 5⟩, ⟨8567, 5⟩,
  ⟨8655, 5⟩, ⟨14770, 5⟩, ⟨19677, 5⟩, ⟨19741, 5⟩, ⟨20419, 5⟩, ⟨20308, 5⟩, ⟨20257, 5⟩, ⟨20192, 5⟩]

/-- include/catima/data_atima.h:46-56 -/
def density_effect_c : List Dec := [
  ⟨95835, 4⟩, ⟨111393, 4⟩, ⟨31221, 4⟩, ⟨27847, 4⟩, ⟨28477, 4⟩, ⟨28680, 4⟩, ⟨105400, 4⟩,
  ⟨107004, 4⟩, ⟨109653, 4⟩, ⟨119041, 4⟩, ⟨50526, 4⟩, ⟨45297, 4⟩, ⟨42395, 4⟩, ⟨44351, 4⟩,
  ⟨45214, 4⟩, ⟨46659, 4⟩, ⟨111421, 4⟩, ⟨119480, 4⟩, ⟨56423, 4⟩, ⟨50396, 4⟩, ⟨46949, 4⟩,
  ⟨44450, 4⟩, ⟨42659, 4⟩, ⟨41781, 4⟩, ⟨42702, 4⟩, ⟨42911, 4⟩, ⟨42601, 4⟩, ⟨43115, 4⟩,
  ⟨44190, 4⟩, ⟨46906, 4⟩, ⟨49353, 4⟩, ⟨51411, 4⟩, ⟨50510, 4⟩, ⟨53210, 4⟩, ⟨117307, 4⟩,
  ⟨125115, 4⟩, ⟨64776, 4⟩, ⟨59867, 4⟩, ⟨54801, 4⟩, ⟨51774, 4⟩, ⟨50141, 4⟩, ⟨48793, 4⟩,
  ⟨47769, 4⟩, ⟨47694, 4⟩, ⟨48008, 4⟩, ⟨49358, 4⟩, ⟨50630, 4⟩, ⟨52727, 4⟩, ⟨55211, 4⟩,
  ⟨55340, 4⟩, ⟨56241, 4⟩, ⟨57131, 4⟩, ⟨59488, 4⟩, ⟨127281, 4⟩, ⟨69135, 4⟩, ⟨63153, 4⟩,
  ⟨57850, 4⟩, ⟨57837, 4⟩, ⟨58096, 4⟩, ⟨58290, 4⟩, ⟨58224, 4⟩, ⟨58597, 4⟩, ⟨62278, 4⟩,
  ⟨58738, 4⟩, ⟨59045, 4⟩, ⟨59183, 4⟩, ⟨59587, 4⟩, ⟨59521, 4⟩, ⟨59677, 4⟩, ⟨63325, 4⟩,
  ⟨59785, 4⟩, ⟨57139, 4⟩, ⟨55262, 4⟩, ⟨54059, 4⟩, ⟨53445, 4⟩, ⟨53083, 4⟩, ⟨53418, 4⟩,
  ⟨54732, 4⟩, ⟨55747, 4⟩, ⟨59605, 4⟩, ⟨61365, 4⟩, ⟨62018, 4⟩, ⟨63505, 4⟩, ⟨64003, 4⟩, ⟨64, 1⟩,
  ⟨132839, 4⟩, ⟨7, 0⟩, ⟨70452, 4⟩, ⟨63742, 4⟩, ⟨62473, 4⟩, ⟨60327, 4⟩, ⟨58694, 4⟩, ⟨58149, 4⟩,
  ⟨58748, 4⟩, ⟨62813, 4⟩, ⟨63097, 4⟩, ⟨62912, 4⟩]

/-- include/catima/data_atima.h:58-68 -/
def density_effect_m : List Dec := [
  ⟨57273, 4⟩, ⟨58347, 4⟩, ⟨24993, 4⟩, ⟨24339, 4⟩, ⟨24512, 4⟩, ⟨28697, 4⟩, ⟨32125, 4⟩,
  ⟨32913, 4⟩, ⟨32962, 4⟩, ⟨35771, 4⟩, ⟨36452, 4⟩, ⟨36166, 4⟩, ⟨36345, 4⟩, ⟨32546, 4⟩,
  ⟨29158, 4⟩, ⟨26456, 4⟩, ⟨29702, 4⟩, ⟨29618, 4⟩, ⟨29233, 4⟩, ⟨30745, 4⟩, ⟨30517, 4⟩,
  ⟨30302, 4⟩, ⟨30163, 4⟩, ⟨29896, 4⟩, ⟨29796, 4⟩, ⟨29632, 4⟩, ⟨29502, 4⟩, ⟨28430, 4⟩,
  ⟨29044, 4⟩, ⟨28652, 4⟩, ⟨31314, 4⟩, ⟨33306, 4⟩, ⟨34176, 4⟩, ⟨34317, 4⟩, ⟨34670, 4⟩,
  ⟨34051, 4⟩, ⟨34177, 4⟩, ⟨34435, 4⟩, ⟨34585, 4⟩, ⟨34533, 4⟩, ⟨30930, 4⟩, ⟨32549, 4⟩,
  ⟨29738, 4⟩, ⟨28707, 4⟩, ⟨28633, 4⟩, ⟨27239, 4⟩, ⟨26899, 4⟩, ⟨26772, 4⟩, ⟨27144, 4⟩,
  ⟨28576, 4⟩, ⟨29319, 4⟩, ⟨30354, 4⟩, ⟨27276, 4⟩, ⟨27414, 4⟩, ⟨28866, 4⟩, ⟨28906, 4⟩,
  ⟨28828, 4⟩, ⟨28592, 4⟩, ⟨27331, 4⟩, ⟨27050, 4⟩, ⟨26674, 4⟩, ⟨26403, 4⟩, ⟨26245, 4⟩,
  ⟨25977, 4⟩, ⟨26056, 4⟩, ⟨25849, 4⟩, ⟨25726, 4⟩, ⟨25573, 4⟩, ⟨25469, 4⟩, ⟨25141, 4⟩,
  ⟨25643, 4⟩, ⟨26155, 4⟩, ⟨27623, 4⟩, ⟨28447, 4⟩, ⟨28627, 4⟩, ⟨29608, 4⟩, ⟨29658, 4⟩,
  ⟨30417, 4⟩, ⟨31101, 4⟩, ⟨30519, 4⟩, ⟨31450, 4⟩, ⟨31608, 4⟩, ⟨31671, 4⟩, ⟨31830, 4⟩,
  ⟨11111, 4⟩, ⟨27409, 4⟩, ⟨11111, 4⟩, ⟨32454, 4⟩, ⟨32683, 4⟩, ⟨32610, 4⟩, ⟨29845, 4⟩,
  ⟨28171, 4⟩, ⟨28082, 4⟩, ⟨27679, 4⟩, ⟨27615, 4⟩, ⟨27579, 4⟩, ⟨27560, 4⟩]

/-- include/catima/data_atima.h:70-80 -/
def density_effect_del_0 : List Dec := [
  ⟨0, 1⟩, ⟨0, 2⟩, ⟨14, 2⟩, ⟨14, 2⟩, ⟨14, 2⟩, ⟨12, 2⟩, ⟨0, 2⟩, ⟨0, 2⟩, ⟨0, 2⟩, ⟨0, 2⟩, ⟨8, 2⟩,
  ⟨8, 2⟩, ⟨12, 2⟩, ⟨14, 2⟩, ⟨14, 2⟩, ⟨14, 2⟩, ⟨0, 2⟩, ⟨0, 2⟩, ⟨10, 2⟩, ⟨14, 2⟩, ⟨10, 2⟩,
  ⟨12, 2⟩, ⟨14, 2⟩, ⟨14, 2⟩, ⟨14, 2⟩, ⟨12, 2⟩, ⟨12, 2⟩, ⟨10, 2⟩, ⟨8, 2⟩, ⟨8, 2⟩, ⟨14, 2⟩,
  ⟨14, 2⟩, ⟨8, 2⟩, ⟨10, 2⟩, ⟨0, 2⟩, ⟨0, 2⟩, ⟨14, 2⟩, ⟨14, 2⟩, ⟨14, 2⟩, ⟨14, 2⟩, ⟨14, 2⟩,
  ⟨14, 2⟩, ⟨14, 2⟩, ⟨14, 2⟩, ⟨14, 2⟩, ⟨14, 2⟩, ⟨14, 2⟩, ⟨14, 2⟩, ⟨14, 2⟩, ⟨14, 2⟩, ⟨14, 2⟩,
  ⟨14, 2⟩, ⟨0, 2⟩, ⟨0, 2⟩, ⟨14, 2⟩, ⟨14, 2⟩, ⟨14, 2⟩, ⟨14, 2⟩, ⟨14, 2⟩, ⟨14, 2⟩, ⟨14, 2⟩,
  ⟨14, 2⟩, ⟨14, 2⟩, ⟨14, 2⟩, ⟨14, 2⟩, ⟨14, 2⟩, ⟨14, 2⟩, ⟨14, 2⟩, ⟨14, 2⟩, ⟨14, 2⟩, ⟨14, 2⟩,
  ⟨14, 2⟩, ⟨14, 2⟩, ⟨14, 2⟩, ⟨8, 2⟩, ⟨10, 2⟩, ⟨10, 2⟩, ⟨12, 2⟩, ⟨14, 2⟩, ⟨14, 2⟩, ⟨14, 2⟩,
  ⟨14, 2⟩, ⟨14, 2⟩, ⟨14, 2⟩, ⟨0, 2⟩, ⟨0, 2⟩, ⟨0, 2⟩, ⟨14, 2⟩, ⟨14, 2⟩, ⟨14, 2⟩, ⟨14, 2⟩,
  ⟨14, 2⟩, ⟨14, 2⟩, ⟨14, 2⟩, ⟨14, 2⟩, ⟨14, 2⟩, ⟨14, 2⟩]

end Catima
