import Verif.Model.Scalar

/-!
# Natural isotope tables (`/repo/src/abundance_database.cpp`)

Transcribed by `tools/gen_tables.py`; an entry `⟨m, e⟩` is the decimal `m * 10^(-e)`.
-/

namespace Catima

/-- src/abundance_database.cpp:10-10 -/
def abundance_z_index : List Nat := [
  0, 2, 4, 6, 7, 9, 11, 13, 16, 17, 20, 21, 24, 25, 28, 29, 33, 35, 38, 41, 47, 48, 53, 55, 59,
  60, 64, 65, 70, 72, 77, 79, 84, 85, 91, 93, 99, 101, 105, 106, 111, 112, 119, 120, 127, 128,
  134, 136, 144, 146, 156, 158, 166, 167, 176, 177, 184, 186, 190, 191, 198, 199, 206, 208,
  215, 216, 223, 224, 230, 231, 238, 240, 246, 248, 253, 255, 262, 264, 270, 271, 278, 280,
  284, 285, 286, 287, 288, 289, 290, 291, 292, 293, 296, 297, 298, 299, 300, 301, 302, 303,
  304, 305, 306, 307, 308, 309, 310, 311, 312]

/-- src/abundance_database.cpp:14-14 -/
def isotopes_a : List Nat := [
  1, 2, 4, 3, 7, 6, 9, 11, 10, 12, 13, 14, 15, 16, 18, 17, 19, 20, 22, 21, 23, 24, 26, 25, 27,
  28, 29, 30, 31, 32, 34, 33, 36, 35, 37, 40, 36, 38, 39, 41, 40, 40, 44, 42, 48, 43, 46, 45,
  48, 46, 47, 49, 50, 51, 50, 52, 53, 50, 54, 55, 56, 54, 57, 58, 59, 58, 60, 62, 61, 64, 63,
  65, 64, 66, 68, 67, 70, 69, 71, 74, 72, 70, 73, 76, 75, 80, 78, 76, 82, 77, 74, 79, 81, 84,
  86, 82, 83, 80, 78, 85, 87, 88, 86, 87, 84, 89, 90, 94, 92, 91, 96, 93, 98, 96, 95, 92, 100,
  97, 94, 98, 102, 104, 101, 99, 100, 96, 98, 103, 106, 108, 105, 110, 104, 102, 107, 109, 114,
  112, 111, 110, 113, 116, 106, 108, 115, 113, 120, 118, 116, 119, 117, 124, 122, 112, 114,
  115, 121, 123, 130, 128, 126, 125, 124, 122, 123, 120, 127, 132, 129, 131, 134, 136, 130,
  128, 124, 126, 133, 138, 137, 136, 135, 134, 130, 132, 139, 138, 140, 142, 138, 136, 141,
  142, 144, 146, 143, 145, 148, 150, 145, 152, 154, 147, 149, 148, 150, 144, 153, 151, 158,
  160, 156, 157, 155, 154, 152, 159, 164, 162, 163, 161, 160, 158, 156, 165, 166, 168, 167,
  170, 164, 162, 169, 174, 172, 173, 171, 176, 170, 168, 175, 176, 180, 178, 177, 179, 176,
  174, 181, 180, 184, 186, 182, 183, 180, 187, 185, 192, 190, 189, 188, 187, 186, 184, 193,
  191, 195, 194, 196, 198, 192, 190, 197, 202, 200, 199, 201, 198, 204, 196, 205, 203, 208,
  206, 207, 204, 209, 209, 210, 222, 223, 226, 227, 232, 231, 238, 235, 234, 237, 244, 243,
  247, 247, 251, 252, 257, 258, 259, 262, 261, 262, 266, 264, 269, 268]

/-- src/abundance_database.cpp:16-16 -/
def isotopes_abundance : List Dec := [
  ⟨999885, 6⟩, ⟨115, 6⟩, ⟨99999863, 8⟩, ⟨137, 8⟩, ⟨9241, 4⟩, ⟨759, 4⟩, ⟨10, 1⟩, ⟨801, 3⟩,
  ⟨199, 3⟩, ⟨9893, 4⟩, ⟨107, 4⟩, ⟨99632, 5⟩, ⟨368, 5⟩, ⟨99757, 5⟩, ⟨205, 5⟩, ⟨38, 5⟩, ⟨10, 1⟩,
  ⟨9048, 4⟩, ⟨925, 4⟩, ⟨27, 4⟩, ⟨10, 1⟩, ⟨7899, 4⟩, ⟨1101, 4⟩, ⟨1, 1⟩, ⟨10, 1⟩, ⟨922297, 6⟩,
  ⟨46832, 6⟩, ⟨30871, 6⟩, ⟨10, 1⟩, ⟨9493, 4⟩, ⟨429, 4⟩, ⟨76, 4⟩, ⟨2, 4⟩, ⟨7578, 4⟩, ⟨2422, 4⟩,
  ⟨996003, 6⟩, ⟨3365, 6⟩, ⟨632, 6⟩, ⟨932581, 6⟩, ⟨67302, 6⟩, ⟨117, 6⟩, ⟨96941, 5⟩, ⟨2086, 5⟩,
  ⟨647, 5⟩, ⟨187, 5⟩, ⟨135, 5⟩, ⟨4, 5⟩, ⟨10, 1⟩, ⟨7372, 4⟩, ⟨825, 4⟩, ⟨744, 4⟩, ⟨541, 4⟩,
  ⟨518, 4⟩, ⟨9975, 4⟩, ⟨25, 4⟩, ⟨83789, 5⟩, ⟨9501, 5⟩, ⟨4345, 5⟩, ⟨2365, 5⟩, ⟨10, 1⟩,
  ⟨91754, 5⟩, ⟨5845, 5⟩, ⟨2119, 5⟩, ⟨282, 5⟩, ⟨10, 1⟩, ⟨680769, 6⟩, ⟨262231, 6⟩, ⟨36345, 6⟩,
  ⟨11399, 6⟩, ⟨9256, 6⟩, ⟨6917, 4⟩, ⟨3083, 4⟩, ⟨4863, 4⟩, ⟨279, 3⟩, ⟨1875, 4⟩, ⟨41, 3⟩,
  ⟨62, 4⟩, ⟨60108, 5⟩, ⟨39892, 5⟩, ⟨3628, 4⟩, ⟨2754, 4⟩, ⟨2084, 4⟩, ⟨773, 4⟩, ⟨761, 4⟩,
  ⟨10, 1⟩, ⟨4961, 4⟩, ⟨2377, 4⟩, ⟨937, 4⟩, ⟨873, 4⟩, ⟨763, 4⟩, ⟨89, 4⟩, ⟨5069, 4⟩, ⟨4931, 4⟩,
  ⟨57, 2⟩, ⟨173, 3⟩, ⟨1158, 4⟩, ⟨1149, 4⟩, ⟨228, 4⟩, ⟨35, 4⟩, ⟨7217, 4⟩, ⟨2783, 4⟩, ⟨8258, 4⟩,
  ⟨986, 4⟩, ⟨7, 2⟩, ⟨56, 4⟩, ⟨10, 1⟩, ⟨5145, 4⟩, ⟨1738, 4⟩, ⟨1715, 4⟩, ⟨1122, 4⟩, ⟨28, 3⟩,
  ⟨10, 1⟩, ⟨2413, 4⟩, ⟨1668, 4⟩, ⟨1592, 4⟩, ⟨1484, 4⟩, ⟨963, 4⟩, ⟨955, 4⟩, ⟨925, 4⟩, ⟨10, 1⟩,
  ⟨3155, 4⟩, ⟨1862, 4⟩, ⟨1706, 4⟩, ⟨1276, 4⟩, ⟨126, 3⟩, ⟨554, 4⟩, ⟨187, 4⟩, ⟨10, 1⟩, ⟨2733, 4⟩,
  ⟨2646, 4⟩, ⟨2233, 4⟩, ⟨1172, 4⟩, ⟨1114, 4⟩, ⟨102, 4⟩, ⟨51839, 5⟩, ⟨48161, 5⟩, ⟨2873, 4⟩,
  ⟨2413, 4⟩, ⟨128, 3⟩, ⟨1249, 4⟩, ⟨1222, 4⟩, ⟨749, 4⟩, ⟨125, 4⟩, ⟨89, 4⟩, ⟨9571, 4⟩, ⟨429, 4⟩,
  ⟨3258, 4⟩, ⟨2422, 4⟩, ⟨1454, 4⟩, ⟨859, 4⟩, ⟨768, 4⟩, ⟨579, 4⟩, ⟨463, 4⟩, ⟨97, 4⟩, ⟨66, 4⟩,
  ⟨34, 4⟩, ⟨5721, 4⟩, ⟨4279, 4⟩, ⟨3408, 4⟩, ⟨3174, 4⟩, ⟨1884, 4⟩, ⟨707, 4⟩, ⟨474, 4⟩, ⟨255, 4⟩,
  ⟨89, 4⟩, ⟨9, 4⟩, ⟨10, 1⟩, ⟨2689, 4⟩, ⟨2644, 4⟩, ⟨2118, 4⟩, ⟨1044, 4⟩, ⟨887, 4⟩, ⟨408, 4⟩,
  ⟨192, 4⟩, ⟨9, 4⟩, ⟨9, 4⟩, ⟨10, 1⟩, ⟨71698, 5⟩, ⟨11232, 5⟩, ⟨7854, 5⟩, ⟨6592, 5⟩, ⟨2417, 5⟩,
  ⟨106, 5⟩, ⟨101, 5⟩, ⟨9991, 4⟩, ⟨9, 4⟩, ⟨8845, 4⟩, ⟨11114, 5⟩, ⟨251, 5⟩, ⟨185, 5⟩, ⟨10, 1⟩,
  ⟨272, 3⟩, ⟨238, 3⟩, ⟨172, 3⟩, ⟨122, 3⟩, ⟨83, 3⟩, ⟨57, 3⟩, ⟨56, 3⟩, ⟨10, 1⟩, ⟨2675, 4⟩,
  ⟨2275, 4⟩, ⟨1499, 4⟩, ⟨1382, 4⟩, ⟨1124, 4⟩, ⟨738, 4⟩, ⟨307, 4⟩, ⟨5219, 4⟩, ⟨4781, 4⟩,
  ⟨2484, 4⟩, ⟨2186, 4⟩, ⟨2047, 4⟩, ⟨1565, 4⟩, ⟨148, 3⟩, ⟨218, 4⟩, ⟨2, 3⟩, ⟨10, 1⟩, ⟨2818, 4⟩,
  ⟨2551, 4⟩, ⟨249, 3⟩, ⟨1891, 4⟩, ⟨234, 4⟩, ⟨1, 3⟩, ⟨6, 4⟩, ⟨10, 1⟩, ⟨3361, 4⟩, ⟨2678, 4⟩,
  ⟨2293, 4⟩, ⟨1493, 4⟩, ⟨161, 4⟩, ⟨14, 4⟩, ⟨10, 1⟩, ⟨3183, 4⟩, ⟨2183, 4⟩, ⟨1613, 4⟩, ⟨1428, 4⟩,
  ⟨1276, 4⟩, ⟨304, 4⟩, ⟨13, 4⟩, ⟨9741, 4⟩, ⟨259, 4⟩, ⟨3508, 4⟩, ⟨2728, 4⟩, ⟨186, 3⟩, ⟨1362, 4⟩,
  ⟨526, 4⟩, ⟨16, 4⟩, ⟨99988, 5⟩, ⟨12, 5⟩, ⟨3064, 4⟩, ⟨2843, 4⟩, ⟨265, 3⟩, ⟨1431, 4⟩, ⟨12, 4⟩,
  ⟨626, 3⟩, ⟨374, 3⟩, ⟨4078, 4⟩, ⟨2626, 4⟩, ⟨1615, 4⟩, ⟨1324, 4⟩, ⟨196, 4⟩, ⟨159, 4⟩, ⟨2, 4⟩,
  ⟨627, 3⟩, ⟨373, 3⟩, ⟨33832, 5⟩, ⟨32967, 5⟩, ⟨25242, 5⟩, ⟨7163, 5⟩, ⟨782, 5⟩, ⟨14, 5⟩,
  ⟨10, 1⟩, ⟨2986, 4⟩, ⟨231, 3⟩, ⟨1687, 4⟩, ⟨1318, 4⟩, ⟨997, 4⟩, ⟨687, 4⟩, ⟨15, 4⟩, ⟨70476, 5⟩,
  ⟨29524, 5⟩, ⟨524, 3⟩, ⟨241, 3⟩, ⟨221, 3⟩, ⟨14, 3⟩, ⟨10, 1⟩, ⟨10, 1⟩, ⟨10, 1⟩, ⟨10, 1⟩,
  ⟨10, 1⟩, ⟨10, 1⟩, ⟨10, 1⟩, ⟨10, 1⟩, ⟨10, 1⟩, ⟨992745, 6⟩, ⟨72, 4⟩, ⟨55, 6⟩, ⟨10, 1⟩, ⟨10, 1⟩,
  ⟨10, 1⟩, ⟨10, 1⟩, ⟨10, 1⟩, ⟨10, 1⟩, ⟨10, 1⟩, ⟨10, 1⟩, ⟨10, 1⟩, ⟨10, 1⟩, ⟨10, 1⟩, ⟨10, 1⟩,
  ⟨10, 1⟩, ⟨10, 1⟩, ⟨10, 1⟩, ⟨10, 1⟩, ⟨10, 1⟩]

end Catima
