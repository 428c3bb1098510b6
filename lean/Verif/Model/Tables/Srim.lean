import Verif.Model.Scalar

/-!
# Low-energy stopping tables (`/repo/src/srim.cpp`)

Transcribed by `tools/gen_tables.py`; an entry `⟨m, e⟩` is the decimal `m * 10^(-e)`.
-/

namespace Catima

/-- src/srim.cpp:161-346 -/
def pse_95 : List (List Dec) := [
  [⟨128116, 7⟩, ⟨533047, 8⟩, ⟨651042, 6⟩, ⟨531902, 6⟩, ⟨195901, 2⟩, ⟨11887, 4⟩, ⟨598263, 3⟩, ⟨954514, 8⟩],
  [⟨311787, 6⟩, ⟨499529, 8⟩, ⟨118546, 6⟩, ⟨920917, 6⟩, ⟨984843, 3⟩, ⟨108223, 5⟩, ⟨554388, 3⟩, ⟨505072, 7⟩],
  [⟨644503, 6⟩, ⟨500368, 8⟩, ⟨866544, 6⟩, ⟨567488, 6⟩, ⟨9629, 1⟩, ⟨101566, 5⟩, ⟨162034, 2⟩, ⟨237767, 7⟩],
  [⟨953561, 6⟩, ⟨507406, 8⟩, ⟨13045, 4⟩, ⟨5903, 4⟩, ⟨194512, 2⟩, ⟨105703, 5⟩, ⟨326951, 3⟩, ⟨130441, 7⟩],
  [⟨153151, 5⟩, ⟨48852, 7⟩, ⟨25676, 4⟩, ⟨423246, 6⟩, ⟨173888, 2⟩, ⟨103208, 5⟩, ⟨182942, 2⟩, ⟨200331, 7⟩],
  [⟨240289, 5⟩, ⟨491497, 8⟩, ⟨249101, 5⟩, ⟨414939, 6⟩, ⟨185836, 2⟩, ⟨101581, 5⟩, ⟨250417, 2⟩, ⟨181984, 7⟩],
  [⟨331007, 5⟩, ⟨495744, 8⟩, ⟨540621, 6⟩, ⟨77994, 5⟩, ⟨110415, 2⟩, ⟨967848, 6⟩, ⟨223535, 2⟩, ⟨531612, 7⟩],
  [⟨972706, 6⟩, ⟨50039, 7⟩, ⟨135102, 5⟩, ⟨5498, 4⟩, ⟨125428, 2⟩, ⟨968356, 6⟩, ⟨50932, 1⟩, ⟨536453, 7⟩],
  [⟨690408, 6⟩, ⟨462723, 8⟩, ⟨326749, 6⟩, ⟨11052, 4⟩, ⟨13019, 1⟩, ⟨943525, 6⟩, ⟨470373, 4⟩, ⟨280245, 7⟩],
  [⟨281235, 6⟩, ⟨459698, 8⟩, ⟨52563, 5⟩, ⟨878183, 6⟩, ⟨11583, 1⟩, ⟨938564, 6⟩, ⟨101606, 4⟩, ⟨414147, 7⟩],
  [⟨215352, 5⟩, ⟨440847, 8⟩, ⟨230923, 5⟩, ⟨606001, 6⟩, ⟨133224, 2⟩, ⟨943478, 6⟩, ⟨735116, 3⟩, ⟨577231, 7⟩],
  [⟨342983, 5⟩, ⟨436897, 8⟩, ⟨239377, 5⟩, ⟨554737, 6⟩, ⟨114029, 2⟩, ⟨929844, 6⟩, ⟨210748, 2⟩, ⟨789342, 7⟩],
  [⟨389096, 7⟩, ⟨454168, 8⟩, ⟨427975, 5⟩, ⟨478838, 6⟩, ⟨131642, 2⟩, ⟨934106, 6⟩, ⟨565574, 3⟩, ⟨52722, 6⟩],
  [⟨133101, 5⟩, ⟨443533, 8⟩, ⟨152262, 5⟩, ⟨775843, 6⟩, ⟨122702, 2⟩, ⟨914146, 6⟩, ⟨109117, 2⟩, ⟨444972, 7⟩],
  [⟨578119, 5⟩, ⟨398281, 8⟩, ⟨324072, 6⟩, ⟨122769, 5⟩, ⟨673459, 3⟩, ⟨865731, 6⟩, ⟨123619, 3⟩, ⟨182036, 6⟩],
  [⟨611741, 6⟩, ⟨446376, 8⟩, ⟨338101, 5⟩, ⟨542907, 6⟩, ⟨116067, 2⟩, ⟨912049, 6⟩, ⟨140312, 1⟩, ⟨87705, 6⟩],
  [⟨115307, 5⟩, ⟨447333, 8⟩, ⟨420464, 5⟩, ⟨538231, 6⟩, ⟨130113, 2⟩, ⟨902702, 6⟩, ⟨492301, 2⟩, ⟨525717, 7⟩],
  [⟨170408, 5⟩, ⟨447609, 8⟩, ⟨275072, 5⟩, ⟨583835, 6⟩, ⟨271393, 2⟩, ⟨953183, 6⟩, ⟨203579, 2⟩, ⟨146897, 7⟩],
  [⟨260265, 5⟩, ⟨432185, 8⟩, ⟨156811, 5⟩, ⟨864656, 6⟩, ⟨556393, 3⟩, ⟨84475, 5⟩, ⟨12001, 2⟩, ⟨962648, 6⟩],
  [⟨536555, 6⟩, ⟨440846, 8⟩, ⟨322706, 5⟩, ⟨602927, 6⟩, ⟨500851, 3⟩, ⟨83345, 5⟩, ⟨176639, 2⟩, ⟨202699, 5⟩],
  [⟨17187, 4⟩, ⟨436934, 8⟩, ⟨460285, 5⟩, ⟨516212, 6⟩, ⟨16016, 1⟩, ⟨914664, 6⟩, ⟨634168, 2⟩, ⟨629243, 7⟩],
  [⟨146403, 6⟩, ⟨484558, 8⟩, ⟨554014, 5⟩, ⟨455903, 6⟩, ⟨176346, 2⟩, ⟨919014, 6⟩, ⟨395193, 2⟩, ⟨550341, 7⟩],
  [⟨421238, 5⟩, ⟨40013, 7⟩, ⟨379858, 5⟩, ⟨482892, 6⟩, ⟨241697, 2⟩, ⟨936204, 6⟩, ⟨773596, 2⟩, ⟨289635, 7⟩],
  [⟨697881, 6⟩, ⟨430794, 8⟩, ⟨22863, 4⟩, ⟨784069, 6⟩, ⟨967872, 3⟩, ⟨857874, 6⟩, ⟨178526, 4⟩, ⟨111149, 6⟩],
  [⟨592743, 6⟩, ⟨431334, 8⟩, ⟨140625, 5⟩, ⟨968261, 6⟩, ⟨142642, 2⟩, ⟨881488, 6⟩, ⟨144002, 4⟩, ⟨424183, 7⟩],
  [⟨283155, 7⟩, ⟨354506, 8⟩, ⟨564961, 6⟩, ⟨124111, 5⟩, ⟨152781, 2⟩, ⟨881848, 6⟩, ⟨259497, 4⟩, ⟨354067, 7⟩],
  [⟨269545, 6⟩, ⟨432088, 8⟩, ⟨224249, 5⟩, ⟨764706, 6⟩, ⟨124391, 2⟩, ⟨867051, 6⟩, ⟨234911, 4⟩, ⟨604457, 7⟩],
  [⟨368234, 5⟩, ⟨437139, 8⟩, ⟨152146, 5⟩, ⟨736656, 6⟩, ⟨147086, 2⟩, ⟨874909, 6⟩, ⟨251685, 3⟩, ⟨428115, 7⟩],
  [⟨215403, 5⟩, ⟨432278, 8⟩, ⟨26939, 4⟩, ⟨523003, 6⟩, ⟨171727, 2⟩, ⟨893617, 6⟩, ⟨209938, 2⟩, ⟨525222, 7⟩],
  [⟨531847, 6⟩, ⟨382833, 8⟩, ⟨675606, 6⟩, ⟨106647, 5⟩, ⟨100848, 2⟩, ⟨826099, 6⟩, ⟨358939, 4⟩, ⟨419818, 7⟩],
  [⟨691973, 5⟩, ⟨401198, 8⟩, ⟨522284, 6⟩, ⟨974708, 6⟩, ⟨899033, 3⟩, ⟨821636, 6⟩, ⟨371581, 3⟩, ⟨738361, 7⟩],
  [⟨180976, 5⟩, ⟨448896, 8⟩, ⟨56612, 4⟩, ⟨418493, 6⟩, ⟨155821, 2⟩, ⟨870542, 6⟩, ⟨175605, 2⟩, ⟨605859, 7⟩],
  [⟨164641, 5⟩, ⟨430255, 8⟩, ⟨512108, 5⟩, ⟨516356, 6⟩, ⟨102024, 2⟩, ⟨832723, 6⟩, ⟨220277, 2⟩, ⟨846531, 7⟩],
  [⟨40715, 4⟩, ⟨429051, 8⟩, ⟨333803, 5⟩, ⟨543517, 6⟩, ⟨260626, 2⟩, ⟨903072, 6⟩, ⟨108974, 2⟩, ⟨181133, 7⟩],
  [⟨199798, 5⟩, ⟨429503, 8⟩, ⟨323907, 5⟩, ⟨593111, 6⟩, ⟨464572, 2⟩, ⟨947444, 6⟩, ⟨640841, 3⟩, ⟨96946, 7⟩],
  [⟨508884, 5⟩, ⟨42563, 7⟩, ⟨143, 2⟩, ⟨722156, 6⟩, ⟨708778, 2⟩, ⟨979865, 6⟩, ⟨762818, 3⟩, ⟨604351, 8⟩],
  [⟨62637, 5⟩, ⟨413189, 8⟩, ⟨666229, 7⟩, ⟨265318, 5⟩, ⟨10746, 1⟩, ⟨814706, 6⟩, ⟨869523, 5⟩, ⟨504427, 7⟩],
  [⟨504987, 5⟩, ⟨393427, 8⟩, ⟨495613, 5⟩, ⟨527062, 6⟩, ⟨188617, 2⟩, ⟨868672, 6⟩, ⟨481765, 2⟩, ⟨349423, 7⟩],
  [⟨117376, 5⟩, ⟨421587, 8⟩, ⟨593823, 5⟩, ⟨49052, 5⟩, ⟨155691, 2⟩, ⟨849851, 6⟩, ⟨782193, 2⟩, ⟨434207, 7⟩],
  [⟨726083, 5⟩, ⟨419413, 8⟩, ⟨593121, 5⟩, ⟨447579, 6⟩, ⟨468769, 2⟩, ⟨939722, 6⟩, ⟨244636, 2⟩, ⟨101526, 7⟩],
  [⟨351621, 6⟩, ⟨412551, 8⟩, ⟨133637, 5⟩, ⟨128649, 5⟩, ⟨149535, 2⟩, ⟨850544, 6⟩, ⟨127864, 4⟩, ⟨471084, 7⟩],
  [⟨179112, 7⟩, ⟨417066, 8⟩, ⟨116601, 5⟩, ⟨118837, 5⟩, ⟨126027, 2⟩, ⟨825733, 6⟩, ⟨129721, 4⟩, ⟨482827, 7⟩],
  [⟨372287, 5⟩, ⟨417681, 8⟩, ⟨46286, 4⟩, ⟨567689, 6⟩, ⟨167802, 2⟩, ⟨86202, 5⟩, ⟨309395, 2⟩, ⟨624402, 7⟩],
  [⟨179112, 7⟩, ⟨417066, 8⟩, ⟨116601, 5⟩, ⟨118837, 5⟩, ⟨126027, 2⟩, ⟨825733, 6⟩, ⟨129721, 4⟩, ⟨482827, 7⟩],
  [⟨307959, 6⟩, ⟨414183, 8⟩, ⟨545099, 6⟩, ⟨136766, 5⟩, ⟨149906, 2⟩, ⟨836456, 6⟩, ⟨265156, 4⟩, ⟨382323, 7⟩],
  [⟨813324, 6⟩, ⟨421976, 8⟩, ⟨548878, 5⟩, ⟨621228, 6⟩, ⟨149147, 2⟩, ⟨843298, 6⟩, ⟨170197, 4⟩, ⟨633415, 7⟩],
  [⟨289508, 5⟩, ⟨420494, 8⟩, ⟨530021, 5⟩, ⟨458632, 6⟩, ⟨138077, 2⟩, ⟨835929, 6⟩, ⟨131565, 1⟩, ⟨7682, 5⟩],
  [⟨347169, 5⟩, ⟨41344, 7⟩, ⟨323372, 5⟩, ⟨637885, 6⟩, ⟨111636, 2⟩, ⟨819589, 6⟩, ⟨476603, 2⟩, ⟨117895, 6⟩],
  [⟨228576, 5⟩, ⟨422582, 8⟩, ⟨348478, 5⟩, ⟨625713, 6⟩, ⟨804033, 3⟩, ⟨79599, 5⟩, ⟨895357, 2⟩, ⟨302479, 6⟩],
  [⟨470915, 5⟩, ⟨409414, 8⟩, ⟨388322, 5⟩, ⟨582491, 6⟩, ⟨10314, 1⟩, ⟨815544, 6⟩, ⟨133004, 1⟩, ⟨167355, 6⟩],
  [⟨735883, 5⟩, ⟨438746, 8⟩, ⟨32273, 4⟩, ⟨693616, 6⟩, ⟨136465, 2⟩, ⟨832171, 6⟩, ⟨151236, 2⟩, ⟨787703, 7⟩],
  [⟨120379, 5⟩, ⟨421476, 8⟩, ⟨465732, 5⟩, ⟨615557, 6⟩, ⟨857568, 3⟩, ⟨794208, 6⟩, ⟨581437, 2⟩, ⟨255765, 6⟩],
  [⟨421323, 5⟩, ⟨420978, 8⟩, ⟨467533, 5⟩, ⟨579451, 6⟩, ⟨350393, 2⟩, ⟨892614, 6⟩, ⟨146887, 2⟩, ⟨14359, 6⟩],
  [⟨100615, 4⟩, ⟨391035, 8⟩, ⟨364002, 6⟩, ⟨120347, 5⟩, ⟨153997, 2⟩, ⟨821892, 6⟩, ⟨142428, 2⟩, ⟨402424, 7⟩],
  [⟨373157, 6⟩, ⟨364035, 8⟩, ⟨226519, 5⟩, ⟨1151, 3⟩, ⟨167529, 2⟩, ⟨837764, 6⟩, ⟨130656, 4⟩, ⟨516993, 7⟩],
  [⟨482483, 5⟩, ⟨414578, 8⟩, ⟨609343, 5⟩, ⟨570256, 6⟩, ⟨230011, 2⟩, ⟨863588, 6⟩, ⟨298072, 2⟩, ⟨386788, 7⟩],
  [⟨574872, 6⟩, ⟨410857, 8⟩, ⟨276314, 5⟩, ⟨878406, 6⟩, ⟨654727, 3⟩, ⟨777081, 6⟩, ⟨460584, 3⟩, ⟨963426, 6⟩],
  [⟨327544, 5⟩, ⟨421774, 8⟩, ⟨576803, 5⟩, ⟨54054, 5⟩, ⟨663129, 2⟩, ⟨942817, 6⟩, ⟨744066, 3⟩, ⟨830259, 8⟩],
  [⟨299783, 5⟩, ⟨409014, 8⟩, ⟨452986, 5⟩, ⟨620247, 6⟩, ⟨216115, 2⟩, ⟨856688, 6⟩, ⟨126859, 2⟩, ⟨430305, 7⟩],
  [⟨302248, 5⟩, ⟨410313, 8⟩, ⟨316182, 5⟩, ⟨750444, 6⟩, ⟨687321, 3⟩, ⟨765038, 6⟩, ⟨36338, 2⟩, ⟨389438, 6⟩],
  [⟨35655, 4⟩, ⟨411367, 8⟩, ⟨601196, 5⟩, ⟨521709, 6⟩, ⟨183002, 2⟩, ⟨838996, 6⟩, ⟨366199, 2⟩, ⟨575667, 7⟩],
  [⟨364072, 5⟩, ⟨41782, 7⟩, ⟨487424, 5⟩, ⟨578614, 6⟩, ⟨12677, 1⟩, ⟨822111, 6⟩, ⟨350817, 2⟩, ⟨241737, 6⟩],
  [⟨542525, 6⟩, ⟨412806, 8⟩, ⟨433656, 5⟩, ⟨639323, 6⟩, ⟨110785, 2⟩, ⟨788122, 6⟩, ⟨352321, 3⟩, ⟨946601, 7⟩],
  [⟨754702, 5⟩, ⟨408134, 8⟩, ⟨492913, 5⟩, ⟨507107, 6⟩, ⟨256583, 2⟩, ⟨861877, 6⟩, ⟨329996, 2⟩, ⟨31273, 6⟩],
  [⟨443006, 5⟩, ⟨419028, 8⟩, ⟨53921, 4⟩, ⟨508608, 6⟩, ⟨360527, 2⟩, ⟨885038, 6⟩, ⟨168786, 2⟩, ⟨164866, 7⟩],
  [⟨431706, 5⟩, ⟨406269, 8⟩, ⟨355237, 5⟩, ⟨572971, 6⟩, ⟨213874, 2⟩, ⟨839174, 6⟩, ⟨320435, 2⟩, ⟨29471, 6⟩],
  [⟨273097, 5⟩, ⟨402842, 8⟩, ⟨31059, 4⟩, ⟨645438, 6⟩, ⟨180236, 2⟩, ⟨820889, 6⟩, ⟨691941, 3⟩, ⟨306839, 7⟩],
  [⟨127982, 5⟩, ⟨405535, 8⟩, ⟨463018, 5⟩, ⟨573846, 6⟩, ⟨159512, 2⟩, ⟨816419, 6⟩, ⟨106728, 2⟩, ⟨552321, 7⟩],
  [⟨575613, 5⟩, ⟨404905, 8⟩, ⟨4357, 3⟩, ⟨524956, 6⟩, ⟨220732, 2⟩, ⟨837956, 6⟩, ⟨157951, 2⟩, ⟨27165, 6⟩],
  [⟨92061, 4⟩, ⟨403636, 8⟩, ⟨337689, 5⟩, ⟨572174, 6⟩, ⟨366035, 2⟩, ⟨868034, 6⟩, ⟨119114, 2⟩, ⟨953995, 8⟩],
  [⟨823962, 5⟩, ⟨404348, 8⟩, ⟨383028, 5⟩, ⟨534511, 6⟩, ⟨435771, 2⟩, ⟨882431, 6⟩, ⟨152426, 2⟩, ⟨786437, 8⟩],
  [⟨306189, 5⟩, ⟨405111, 8⟩, ⟨35803, 4⟩, ⟨59082, 5⟩, ⟨23461, 1⟩, ⟨837132, 6⟩, ⟨122199, 2⟩, ⟨200717, 7⟩],
  [⟨799485, 5⟩, ⟨329576, 8⟩, ⟨126335, 5⟩, ⟨777934, 6⟩, ⟨180413, 2⟩, ⟨8124, 4⟩, ⟨12663, 1⟩, ⟨263526, 7⟩],
  [⟨648326, 5⟩, ⟨414609, 8⟩, ⟨776185, 6⟩, ⟨108393, 5⟩, ⟨250557, 3⟩, ⟨643106, 6⟩, ⟨177277, 3⟩, ⟨898821, 6⟩],
  [⟨620494, 6⟩, ⟨403017, 8⟩, ⟨253792, 5⟩, ⟨677642, 6⟩, ⟨727918, 3⟩, ⟨74834, 5⟩, ⟨117069, 3⟩, ⟨201369, 6⟩],
  [⟨551045, 6⟩, ⟨402571, 8⟩, ⟨270928, 5⟩, ⟨68387, 5⟩, ⟨108946, 2⟩, ⟨777755, 6⟩, ⟨10883, 1⟩, ⟨810305, 7⟩],
  [⟨126011, 5⟩, ⟨404797, 8⟩, ⟨357127, 5⟩, ⟨525416, 6⟩, ⟨261309, 2⟩, ⟨853001, 6⟩, ⟨215571, 2⟩, ⟨282139, 7⟩],
  [⟨320857, 5⟩, ⟨405101, 8⟩, ⟨366577, 5⟩, ⟨536178, 6⟩, ⟨309116, 2⟩, ⟨856024, 6⟩, ⟨150812, 2⟩, ⟨154014, 7⟩],
  [⟨104066, 5⟩, ⟨405071, 8⟩, ⟨561035, 5⟩, ⟨439133, 6⟩, ⟨364613, 2⟩, ⟨869259, 6⟩, ⟨28784, 1⟩, ⟨139437, 7⟩],
  [⟨104586, 5⟩, ⟨405038, 8⟩, ⟨538433, 5⟩, ⟨445067, 6⟩, ⟨371715, 2⟩, ⟨87031, 5⟩, ⟨290728, 2⟩, ⟨132933, 7⟩],
  [⟨315124, 5⟩, ⟨405235, 8⟩, ⟨409956, 5⟩, ⟨542499, 6⟩, ⟨324631, 2⟩, ⟨857723, 6⟩, ⟨169177, 2⟩, ⟨150581, 7⟩],
  [⟨306995, 5⟩, ⟨405334, 8⟩, ⟨662045, 5⟩, ⟨452822, 6⟩, ⟨338058, 2⟩, ⟨860267, 6⟩, ⟨263856, 2⟩, ⟨153938, 7⟩],
  [⟨384541, 5⟩, ⟨406028, 8⟩, ⟨87792, 4⟩, ⟨442301, 6⟩, ⟨272199, 2⟩, ⟨843866, 6⟩, ⟨251315, 2⟩, ⟨228962, 7⟩],
  [⟨436117, 5⟩, ⟨405648, 8⟩, ⟨818512, 5⟩, ⟨43626, 5⟩, ⟨311358, 2⟩, ⟨852235, 6⟩, ⟨300179, 2⟩, ⟨172051, 7⟩],
  [⟨436117, 5⟩, ⟨405648, 8⟩, ⟨818512, 5⟩, ⟨43626, 5⟩, ⟨311358, 2⟩, ⟨852235, 6⟩, ⟨300179, 2⟩, ⟨172051, 7⟩],
  [⟨3222, 3⟩, ⟨400409, 8⟩, ⟨590236, 5⟩, ⟨526779, 6⟩, ⟨404015, 2⟩, ⟨868037, 6⟩, ⟨165835, 2⟩, ⟨117469, 7⟩],
  [⟨934124, 5⟩, ⟨396606, 8⟩, ⟨792099, 5⟩, ⟨429769, 6⟩, ⟨51809, 1⟩, ⟨887726, 6⟩, ⟨217316, 2⟩, ⟨92007, 7⟩],
  [⟨628686, 5⟩, ⟨396735, 8⟩, ⟨581778, 5⟩, ⟨535859, 6⟩, ⟨486643, 2⟩, ⟨884427, 6⟩, ⟨225734, 2⟩, ⟨105815, 7⟩],
  [⟨592839, 5⟩, ⟨396948, 8⟩, ⟨640824, 5⟩, ⟨521225, 6⟩, ⟨461951, 2⟩, ⟨880827, 6⟩, ⟨232352, 2⟩, ⟨116274, 7⟩],
  [⟨524536, 5⟩, ⟨39744, 7⟩, ⟨679689, 5⟩, ⟨485424, 6⟩, ⟨458631, 2⟩, ⟨877944, 6⟩, ⟨24815, 1⟩, ⟨112824, 7⟩],
  [⟨277047, 5⟩, ⟨398192, 8⟩, ⟨355107, 5⟩, ⟨638231, 6⟩, ⟨251688, 2⟩, ⟨829309, 6⟩, ⟨215559, 2⟩, ⟨231207, 7⟩],
  [⟨278483, 5⟩, ⟨398116, 8⟩, ⟨332988, 5⟩, ⟨647983, 6⟩, ⟨266277, 2⟩, ⟨83678, 5⟩, ⟨233743, 2⟩, ⟨24074, 6⟩]]

/-- src/srim.cpp:460-553 -/
def proton_stopping_coef : List (List Dec) := [
  [⟨91827, 7⟩, ⟨53496, 7⟩, ⟨69741, 5⟩, ⟨48493, 5⟩, ⟨31607, 2⟩, ⟨10143, 4⟩, ⟨93293, 1⟩, ⟨539890, 7⟩],
  [⟨11393, 5⟩, ⟨51984, 7⟩, ⟨10822, 4⟩, ⟨39252, 5⟩, ⟨10810, 1⟩, ⟨10645, 4⟩, ⟨40685, 1⟩, ⟨176990, 7⟩],
  [⟨85837, 5⟩, ⟨50147, 7⟩, ⟨16044, 4⟩, ⟨38844, 5⟩, ⟨13373, 1⟩, ⟨10470, 4⟩, ⟨26592, 1⟩, ⟨1898, 5⟩],
  [⟨8781, 4⟩, ⟨51049, 7⟩, ⟨54232, 4⟩, ⟨2032, 4⟩, ⟨12006, 1⟩, ⟨10211, 4⟩, ⟨14018, 1⟩, ⟨385290, 7⟩],
  [⟨14608, 4⟩, ⟨48836, 7⟩, ⟨2338, 3⟩, ⟨44249, 5⟩, ⟨18013, 1⟩, ⟨10352, 4⟩, ⟨17841, 1⟩, ⟨2024, 5⟩],
  [⟨32579, 4⟩, ⟨49148, 7⟩, ⟨27156, 4⟩, ⟨36473, 5⟩, ⟨20922, 1⟩, ⟨10291, 4⟩, ⟨26436, 1⟩, ⟨182370, 7⟩],
  [⟨59674, 5⟩, ⟨50837, 7⟩, ⟨42073, 4⟩, ⟨30612, 5⟩, ⟨23942, 1⟩, ⟨10255, 4⟩, ⟨48921, 1⟩, ⟨160060, 7⟩],
  [⟨75253, 5⟩, ⟨50314, 7⟩, ⟨40824, 4⟩, ⟨30067, 5⟩, ⟨24558, 1⟩, ⟨10181, 4⟩, ⟨50697, 1⟩, ⟨174260, 7⟩],
  [⟨1226, 3⟩, ⟨51385, 7⟩, ⟨32246, 4⟩, ⟨32703, 5⟩, ⟨25250, 1⟩, ⟨10142, 4⟩, ⟨75636, 1⟩, ⟨194690, 7⟩],
  [⟨10332, 4⟩, ⟨51645, 7⟩, ⟨3004, 3⟩, ⟨33889, 5⟩, ⟨23386, 1⟩, ⟨99997, 5⟩, ⟨69912, 1⟩, ⟨217990, 7⟩],
  [⟨60972, 4⟩, ⟨44292, 7⟩, ⟨31929, 4⟩, ⟨45763, 5⟩, ⟨13633, 1⟩, ⟨95182, 5⟩, ⟨23806, 1⟩, ⟨818350, 7⟩],
  [⟨14013, 3⟩, ⟨43646, 7⟩, ⟨22641, 4⟩, ⟨36326, 5⟩, ⟨21874, 1⟩, ⟨99098, 5⟩, ⟨62648, 1⟩, ⟨462, 4⟩],
  [⟨39001, 6⟩, ⟨45415, 7⟩, ⟨55463, 4⟩, ⟨39562, 5⟩, ⟨15892, 1⟩, ⟨95316, 5⟩, ⟨81616, 2⟩, ⟨474840, 7⟩],
  [⟨2072, 3⟩, ⟨44516, 7⟩, ⟨35585, 4⟩, ⟨53933, 5⟩, ⟨15152, 1⟩, ⟨93161, 5⟩, ⟨17903, 1⟩, ⟨351980, 7⟩],
  [⟨17575, 3⟩, ⟨38346, 7⟩, ⟨78694, 6⟩, ⟨12388, 4⟩, ⟨28060, 1⟩, ⟨97284, 5⟩, ⟨10376, 1⟩, ⟨128790, 7⟩],
  [⟨16126, 3⟩, ⟨38315, 7⟩, ⟨54164, 6⟩, ⟨13104, 4⟩, ⟨28133, 1⟩, ⟨96587, 5⟩, ⟨12514, 1⟩, ⟨118470, 7⟩],
  [⟨3217, 3⟩, ⟨44579, 7⟩, ⟨36696, 4⟩, ⟨5091, 4⟩, ⟨27346, 1⟩, ⟨96253, 5⟩, ⟨21875, 1⟩, ⟨169070, 7⟩],
  [⟨20379, 4⟩, ⟨44775, 7⟩, ⟨30743, 4⟩, ⟨54773, 5⟩, ⟨35050, 1⟩, ⟨97575, 5⟩, ⟨171400, 2⟩, ⟨117010, 7⟩],
  [⟨74171, 5⟩, ⟨43051, 7⟩, ⟨11515, 4⟩, ⟨95083, 5⟩, ⟨91721, 2⟩, ⟨8782, 4⟩, ⟨38993, 2⟩, ⟨18926, 5⟩],
  [⟨91316, 4⟩, ⟨43809, 7⟩, ⟨54611, 4⟩, ⟨31327, 5⟩, ⟨38918, 1⟩, ⟨97933, 5⟩, ⟨62679, 1⟩, ⟨151960, 7⟩],
  [⟨72247, 4⟩, ⟨43718, 7⟩, ⟨61017, 4⟩, ⟨37511, 5⟩, ⟨28292, 1⟩, ⟨95218, 5⟩, ⟨63761, 1⟩, ⟨203980, 7⟩],
  [⟨147, 3⟩, ⟨48456, 7⟩, ⟨63485, 4⟩, ⟨41057, 5⟩, ⟨21641, 1⟩, ⟨94028, 5⟩, ⟨52926, 1⟩, ⟨502630, 7⟩],
  [⟨50611, 4⟩, ⟨39867, 7⟩, ⟨26174, 4⟩, ⟨57957, 5⟩, ⟨22189, 1⟩, ⟨92361, 5⟩, ⟨632300, 2⟩, ⟨256690, 7⟩],
  [⟨53267, 5⟩, ⟨42968, 7⟩, ⟨39005, 5⟩, ⟨12725, 4⟩, ⟨18727, 1⟩, ⟨90776, 5⟩, ⟨64166, 3⟩, ⟨301070, 7⟩],
  [⟨47697, 5⟩, ⟨43038, 7⟩, ⟨31452, 5⟩, ⟨13289, 4⟩, ⟨19205, 1⟩, ⟨90649, 5⟩, ⟨45576, 3⟩, ⟨274690, 7⟩],
  [⟨27426, 6⟩, ⟨35443, 7⟩, ⟨31563, 6⟩, ⟨21755, 4⟩, ⟨19195, 1⟩, ⟨90099, 5⟩, ⟨23902, 3⟩, ⟨253630, 7⟩],
  [⟨16383, 5⟩, ⟨43042, 7⟩, ⟨73454, 6⟩, ⟨18592, 4⟩, ⟨19184, 1⟩, ⟨89678, 5⟩, ⟨2761, 2⟩, ⟨231840, 7⟩],
  [⟨42562, 4⟩, ⟨43737, 7⟩, ⟨15606, 4⟩, ⟨72067, 5⟩, ⟨15468, 1⟩, ⟨87958, 5⟩, ⟨30202, 2⟩, ⟨409440, 7⟩],
  [⟨23508, 4⟩, ⟨43237, 7⟩, ⟨2882, 3⟩, ⟨50113, 5⟩, ⟨18377, 1⟩, ⟨89992, 5⟩, ⟨237700, 2⟩, ⟨4965, 5⟩],
  [⟨31095, 4⟩, ⟨38455, 7⟩, ⟨11477, 5⟩, ⟨15037, 4⟩, ⟨21847, 1⟩, ⟨89309, 5⟩, ⟨67306, 3⟩, ⟨165880, 7⟩],
  [⟨15322, 3⟩, ⟨40306, 7⟩, ⟨65391, 5⟩, ⟨67668, 5⟩, ⟨30017, 1⟩, ⟨92484, 5⟩, ⟨33442, 1⟩, ⟨163660, 7⟩],
  [⟨36932, 4⟩, ⟨44813, 7⟩, ⟨8608, 3⟩, ⟨27638, 5⟩, ⟨29827, 1⟩, ⟨9276, 4⟩, ⟨31666, 1⟩, ⟨308740, 7⟩],
  [⟨71373, 4⟩, ⟨43134, 7⟩, ⟨94247, 4⟩, ⟨27937, 5⟩, ⟨27258, 1⟩, ⟨91597, 5⟩, ⟨31661, 1⟩, ⟨250080, 7⟩],
  [⟨48979, 4⟩, ⟨42937, 7⟩, ⟨37793, 4⟩, ⟨50004, 5⟩, ⟨28245, 1⟩, ⟨91028, 5⟩, ⟨12824, 1⟩, ⟨170610, 7⟩],
  [⟨13683, 4⟩, ⟨43024, 7⟩, ⟨25679, 4⟩, ⟨60822, 5⟩, ⟨69078, 1⟩, ⟨9817, 4⟩, ⟨62801, 2⟩, ⟨68055, 7⟩],
  [⟨18301, 4⟩, ⟨42983, 7⟩, ⟨29057, 4⟩, ⟨6038, 4⟩, ⟨47446, 1⟩, ⟨94722, 5⟩, ⟨93664, 2⟩, ⟨92242, 7⟩],
  [⟨42056, 5⟩, ⟨41169, 7⟩, ⟨1695, 5⟩, ⟨23616, 4⟩, ⟨22527, 1⟩, ⟨89192, 5⟩, ⟨39752, 3⟩, ⟨277570, 7⟩],
  [⟨3078, 2⟩, ⟨37736, 7⟩, ⟨55813, 5⟩, ⟨76816, 5⟩, ⟨71132, 1⟩, ⟨97697, 5⟩, ⟨16044, 1⟩, ⟨65268, 7⟩],
  [⟨11576, 3⟩, ⟨42119, 7⟩, ⟨70244, 4⟩, ⟨37764, 5⟩, ⟨47135, 1⟩, ⟨94264, 5⟩, ⟨24932, 1⟩, ⟨1127, 5⟩],
  [⟨62406, 4⟩, ⟨41916, 7⟩, ⟨52701, 4⟩, ⟨49453, 5⟩, ⟨42346, 1⟩, ⟨93232, 5⟩, ⟨20639, 1⟩, ⟨118440, 7⟩],
  [⟨33073, 5⟩, ⟨41243, 7⟩, ⟨17246, 4⟩, ⟨11062, 4⟩, ⟨19302, 1⟩, ⟨86907, 5⟩, ⟨27416, 3⟩, ⟨382080, 7⟩],
  [⟨17747, 6⟩, ⟨41715, 7⟩, ⟨14586, 5⟩, ⟨17305, 4⟩, ⟨18036, 1⟩, ⟨86315, 5⟩, ⟨29669, 3⟩, ⟨321230, 7⟩],
  [⟨37229, 4⟩, ⟨41768, 7⟩, ⟨46286, 4⟩, ⟨56769, 5⟩, ⟨16780, 1⟩, ⟨86202, 5⟩, ⟨309400, 2⟩, ⟨6244, 5⟩],
  [⟨13998, 5⟩, ⟨41329, 7⟩, ⟨25573, 5⟩, ⟨14241, 4⟩, ⟨19193, 1⟩, ⟨86326, 5⟩, ⟨72797, 3⟩, ⟨322350, 7⟩],
  [⟨2859, 4⟩, ⟨41386, 7⟩, ⟨31301, 5⟩, ⟨13424, 4⟩, ⟨19548, 1⟩, ⟨86175, 5⟩, ⟨11518, 2⟩, ⟨293420, 7⟩],
  [⟨76, 2⟩, ⟨42179, 7⟩, ⟨3386, 3⟩, ⟨76285, 5⟩, ⟨18674, 1⟩, ⟨85805, 5⟩, ⟨69994, 3⟩, ⟨364480, 7⟩],
  [⟨63957, 4⟩, ⟨41935, 7⟩, ⟨54689, 4⟩, ⟨41378, 5⟩, ⟨17126, 1⟩, ⟨85397, 5⟩, ⟨1849300, 2⟩, ⟨564710, 7⟩],
  [⟨34717, 4⟩, ⟨41344, 7⟩, ⟨32337, 4⟩, ⟨63788, 5⟩, ⟨11164, 1⟩, ⟨81959, 5⟩, ⟨47660, 1⟩, ⟨1179, 4⟩],
  [⟨25265, 4⟩, ⟨42282, 7⟩, ⟨4532, 3⟩, ⟨53562, 5⟩, ⟨10308, 1⟩, ⟨81652, 5⟩, ⟨162520, 1⟩, ⟨19722, 5⟩],
  [⟨73683, 4⟩, ⟨41007, 7⟩, ⟨46791, 4⟩, ⟨51428, 5⟩, ⟨11600, 1⟩, ⟨82454, 5⟩, ⟨179650, 1⟩, ⟨13316, 5⟩],
  [⟨77197, 4⟩, ⟨4388, 6⟩, ⟨3242, 3⟩, ⟨68434, 5⟩, ⟨14281, 1⟩, ⟨83398, 5⟩, ⟨17867, 1⟩, ⟨665120, 7⟩],
  [⟨1678, 2⟩, ⟨41918, 7⟩, ⟨93198, 4⟩, ⟨29568, 5⟩, ⟨33709, 1⟩, ⟨90289, 5⟩, ⟨74317, 1⟩, ⟨2616, 5⟩],
  [⟨42132, 4⟩, ⟨42098, 7⟩, ⟨46753, 4⟩, ⟨57945, 5⟩, ⟨35039, 1⟩, ⟨89261, 5⟩, ⟨14689, 1⟩, ⟨143590, 7⟩],
  [⟨40818, 4⟩, ⟨4214, 6⟩, ⟨44425, 4⟩, ⟨58393, 5⟩, ⟨39453, 1⟩, ⟨90281, 5⟩, ⟨13405, 1⟩, ⟨134140, 7⟩],
  [⟨18517, 5⟩, ⟨36215, 7⟩, ⟨58788, 8⟩, ⟨35315, 4⟩, ⟨29313, 1⟩, ⟨88936, 5⟩, ⟨2618, 2⟩, ⟨263930, 7⟩],
  [⟨48248, 4⟩, ⟨41458, 7⟩, ⟨60934, 4⟩, ⟨57026, 5⟩, ⟨23001, 1⟩, ⟨86359, 5⟩, ⟨29807, 1⟩, ⟨386790, 7⟩],
  [⟨49857, 5⟩, ⟨41054, 7⟩, ⟨19775, 4⟩, ⟨95877, 5⟩, ⟨78655, 2⟩, ⟨78509, 5⟩, ⟨8066, 1⟩, ⟨40882, 5⟩],
  [⟨32754, 4⟩, ⟨42177, 7⟩, ⟨5768, 3⟩, ⟨54054, 5⟩, ⟨66313, 1⟩, ⟨94282, 5⟩, ⟨74407, 2⟩, ⟨83026, 7⟩],
  [⟨29978, 4⟩, ⟨40901, 7⟩, ⟨45299, 4⟩, ⟨62025, 5⟩, ⟨21612, 1⟩, ⟨85669, 5⟩, ⟨12686, 1⟩, ⟨430310, 7⟩],
  [⟨28701, 4⟩, ⟨4096, 6⟩, ⟨42568, 4⟩, ⟨6138, 4⟩, ⟨21304, 1⟩, ⟨85235, 5⟩, ⟨17041, 1⟩, ⟨393850, 7⟩],
  [⟨10853, 3⟩, ⟨41149, 7⟩, ⟨58907, 4⟩, ⟨46834, 5⟩, ⟨28572, 1⟩, ⟨8755, 4⟩, ⟨36542, 1⟩, ⟨299550, 7⟩],
  [⟨36407, 4⟩, ⟨41782, 7⟩, ⟨48742, 4⟩, ⟨57861, 5⟩, ⟨12677, 1⟩, ⟨82211, 5⟩, ⟨35082, 1⟩, ⟨24174, 5⟩],
  [⟨17645, 3⟩, ⟨40992, 7⟩, ⟨65855, 4⟩, ⟨32734, 5⟩, ⟨39313, 1⟩, ⟨90754, 5⟩, ⟨51567, 1⟩, ⟨362780, 7⟩],
  [⟨75309, 4⟩, ⟨40814, 7⟩, ⟨49389, 4⟩, ⟨50679, 5⟩, ⟨25197, 1⟩, ⟨85819, 5⟩, ⟨33146, 1⟩, ⟨305140, 7⟩],
  [⟨54742, 4⟩, ⟨40829, 7⟩, ⟨4897, 3⟩, ⟨51113, 5⟩, ⟨23401, 1⟩, ⟨85296, 5⟩, ⟨23427, 1⟩, ⟨356620, 7⟩],
  [⟨42661, 4⟩, ⟨40667, 7⟩, ⟨45032, 4⟩, ⟨55257, 5⟩, ⟨20764, 1⟩, ⟨84151, 5⟩, ⟨16666, 1⟩, ⟨408010, 7⟩],
  [⟨68313, 4⟩, ⟨40486, 7⟩, ⟨43987, 4⟩, ⟨51675, 5⟩, ⟨20030, 1⟩, ⟨83437, 5⟩, ⟨14104, 1⟩, ⟨3478, 5⟩],
  [⟨12707, 4⟩, ⟨40553, 7⟩, ⟨46295, 4⟩, ⟨57428, 5⟩, ⟨16263, 1⟩, ⟨81858, 5⟩, ⟨99568, 2⟩, ⟨553190, 7⟩],
  [⟨57561, 4⟩, ⟨40491, 7⟩, ⟨4357, 3⟩, ⟨52496, 5⟩, ⟨22073, 1⟩, ⟨83796, 5⟩, ⟨15795, 1⟩, ⟨271650, 7⟩],
  [⟨14127, 3⟩, ⟨40596, 7⟩, ⟨58304, 4⟩, ⟨37755, 5⟩, ⟨36459, 1⟩, ⟨87823, 5⟩, ⟨34118, 1⟩, ⟨163920, 7⟩],
  [⟨66948, 4⟩, ⟨40603, 7⟩, ⟨49361, 4⟩, ⟨47961, 5⟩, ⟨27190, 1⟩, ⟨85249, 5⟩, ⟨18858, 1⟩, ⟨197130, 7⟩],
  [⟨30619, 4⟩, ⟨40511, 7⟩, ⟨35803, 4⟩, ⟨59082, 5⟩, ⟨23461, 1⟩, ⟨83713, 5⟩, ⟨12220, 1⟩, ⟨200720, 7⟩],
  [⟨10811, 3⟩, ⟨33008, 7⟩, ⟨13767, 4⟩, ⟨76512, 5⟩, ⟨20037, 1⟩, ⟨82269, 5⟩, ⟨11106, 1⟩, ⟨249580, 7⟩],
  [⟨27101, 4⟩, ⟨40961, 7⟩, ⟨12289, 4⟩, ⟨98598, 5⟩, ⟨12324, 1⟩, ⟨79066, 5⟩, ⟨15542, 2⟩, ⟨472940, 7⟩],
  [⟨52345, 5⟩, ⟨40244, 7⟩, ⟨14038, 4⟩, ⟨8551, 4⟩, ⟨14614, 1⟩, ⟨79677, 5⟩, ⟨50334, 2⟩, ⟨367890, 7⟩],
  [⟨4616, 4⟩, ⟨40203, 7⟩, ⟨13014, 4⟩, ⟨87043, 5⟩, ⟨14735, 1⟩, ⟨79687, 5⟩, ⟨44309, 2⟩, ⟨363010, 7⟩],
  [⟨97814, 5⟩, ⟨40374, 7⟩, ⟨20127, 4⟩, ⟨7225, 4⟩, ⟨18908, 1⟩, ⟨81747, 5⟩, ⟨9307, 1⟩, ⟨2769, 5⟩],
  [⟨32086, 4⟩, ⟨4051, 6⟩, ⟨36658, 4⟩, ⟨53618, 5⟩, ⟨30912, 1⟩, ⟨85602, 5⟩, ⟨15081, 1⟩, ⟨154010, 7⟩],
  [⟨20035, 4⟩, ⟨40431, 7⟩, ⟨74882, 4⟩, ⟨3561, 4⟩, ⟨44643, 1⟩, ⟨88836, 5⟩, ⟨39665, 1⟩, ⟨128390, 7⟩],
  [⟨1543, 2⟩, ⟨39432, 7⟩, ⟨11237, 4⟩, ⟨70703, 5⟩, ⟨45957, 1⟩, ⟨88437, 5⟩, ⟨15765, 1⟩, ⟨88534, 7⟩],
  [⟨31512, 4⟩, ⟨40524, 7⟩, ⟨40996, 4⟩, ⟨5425, 4⟩, ⟨32463, 1⟩, ⟨85772, 5⟩, ⟨16918, 1⟩, ⟨150580, 7⟩],
  [⟨71896, 4⟩, ⟨40588, 7⟩, ⟨86927, 4⟩, ⟨35842, 5⟩, ⟨47606, 1⟩, ⟨88833, 5⟩, ⟨28883, 1⟩, ⟨110290, 7⟩],
  [⟨93209, 4⟩, ⟨4054, 6⟩, ⟨11543, 3⟩, ⟨32027, 5⟩, ⟨48662, 1⟩, ⟨89124, 5⟩, ⟨32134, 1⟩, ⟨119350, 7⟩],
  [⟨29242, 3⟩, ⟨36195, 7⟩, ⟨16864, 5⟩, ⟨11226, 4⟩, ⟨56880, 1⟩, ⟨89812, 5⟩, ⟨10333, 1⟩, ⟨71303, 7⟩],
  [⟨18522, 4⟩, ⟨39973, 7⟩, ⟨31556, 4⟩, ⟨65096, 5⟩, ⟨37550, 1⟩, ⟨86383, 5⟩, ⟨16020, 1⟩, ⟨120420, 7⟩],
  [⟨3222, 3⟩, ⟨40041, 7⟩, ⟨59024, 4⟩, ⟨52678, 5⟩, ⟨40402, 1⟩, ⟨86804, 5⟩, ⟨16584, 1⟩, ⟨117470, 7⟩],
  [⟨93412, 4⟩, ⟨39661, 7⟩, ⟨7921, 3⟩, ⟨42977, 5⟩, ⟨51809, 1⟩, ⟨88773, 5⟩, ⟨21732, 1⟩, ⟨92007, 7⟩],
  [⟨36183, 3⟩, ⟨36003, 7⟩, ⟨58341, 5⟩, ⟨86747, 5⟩, ⟨69902, 1⟩, ⟨91082, 5⟩, ⟨14171, 1⟩, ⟨62187, 7⟩],
  [⟨59284, 4⟩, ⟨39695, 7⟩, ⟨64082, 4⟩, ⟨52122, 5⟩, ⟨46195, 1⟩, ⟨88083, 5⟩, ⟨23235, 1⟩, ⟨116270, 7⟩],
  [⟨52454, 4⟩, ⟨39744, 7⟩, ⟨67969, 4⟩, ⟨48542, 5⟩, ⟨45863, 1⟩, ⟨87794, 5⟩, ⟨24815, 1⟩, ⟨112820, 7⟩],
  [⟨33702, 3⟩, ⟨36901, 7⟩, ⟨47257, 5⟩, ⟨89235, 5⟩, ⟨52957, 1⟩, ⟨8893, 4⟩, ⟨20533, 1⟩, ⟨91908, 7⟩],
  [⟨27589, 4⟩, ⟨39806, 7⟩, ⟨32092, 4⟩, ⟨66122, 5⟩, ⟨25054, 1⟩, ⟨82863, 5⟩, ⟨20651, 1⟩, ⟨228160, 7⟩]]

/-- src/srim.cpp:364-456 -/
def atima_lambda_screening : List Dec := [
  ⟨100, 2⟩, ⟨100, 2⟩, ⟨110, 2⟩, ⟨106, 2⟩, ⟨101, 2⟩, ⟨103, 2⟩, ⟨104, 2⟩, ⟨99, 2⟩, ⟨95, 2⟩,
  ⟨90, 2⟩, ⟨82, 2⟩, ⟨81, 2⟩, ⟨83, 2⟩, ⟨88, 2⟩, ⟨100, 2⟩, ⟨95, 2⟩, ⟨97, 2⟩, ⟨99, 2⟩, ⟨98, 2⟩,
  ⟨97, 2⟩, ⟨98, 2⟩, ⟨97, 2⟩, ⟨96, 2⟩, ⟨93, 2⟩, ⟨91, 2⟩, ⟨9, 1⟩, ⟨88, 2⟩, ⟨9, 1⟩, ⟨9, 1⟩,
  ⟨9, 1⟩, ⟨9, 1⟩, ⟨85, 2⟩, ⟨9, 1⟩, ⟨9, 1⟩, ⟨91, 2⟩, ⟨92, 2⟩, ⟨9, 1⟩, ⟨9, 1⟩, ⟨9, 1⟩, ⟨9, 1⟩,
  ⟨9, 1⟩, ⟨88, 2⟩, ⟨9, 1⟩, ⟨88, 2⟩, ⟨88, 2⟩, ⟨9, 1⟩, ⟨9, 1⟩, ⟨88, 2⟩, ⟨9, 1⟩, ⟨9, 1⟩, ⟨9, 1⟩,
  ⟨9, 1⟩, ⟨96, 2⟩, ⟨12, 1⟩, ⟨9, 1⟩, ⟨88, 2⟩, ⟨88, 2⟩, ⟨85, 2⟩, ⟨90, 2⟩, ⟨90, 2⟩, ⟨92, 2⟩,
  ⟨95, 2⟩, ⟨99, 2⟩, ⟨103, 2⟩, ⟨105, 2⟩, ⟨107, 2⟩, ⟨108, 2⟩, ⟨110, 2⟩, ⟨108, 2⟩, ⟨108, 2⟩,
  ⟨108, 2⟩, ⟨108, 2⟩, ⟨109, 2⟩, ⟨109, 2⟩, ⟨110, 2⟩, ⟨111, 2⟩, ⟨112, 2⟩, ⟨113, 2⟩, ⟨114, 2⟩,
  ⟨115, 2⟩, ⟨117, 2⟩, ⟨120, 2⟩, ⟨118, 2⟩, ⟨117, 2⟩, ⟨117, 2⟩, ⟨116, 2⟩, ⟨116, 2⟩, ⟨116, 2⟩,
  ⟨116, 2⟩, ⟨116, 2⟩, ⟨116, 2⟩, ⟨116, 2⟩]

/-- src/srim.cpp:555-647 -/
def atima_vfermi : List Dec := [
  ⟨10309, 4⟩, ⟨15976, 5⟩, ⟨59782, 5⟩, ⟨10781, 4⟩, ⟨10486, 4⟩, ⟨100, 2⟩, ⟨1058, 3⟩, ⟨93942, 5⟩,
  ⟨74562, 5⟩, ⟨3424, 4⟩, ⟨45259, 5⟩, ⟨71074, 5⟩, ⟨90519, 5⟩, ⟨97411, 5⟩, ⟨97184, 5⟩,
  ⟨89852, 5⟩, ⟨70827, 5⟩, ⟨39816, 5⟩, ⟨36552, 5⟩, ⟨62712, 5⟩, ⟨81707, 5⟩, ⟨9943, 4⟩,
  ⟨11423, 4⟩, ⟨12381, 4⟩, ⟨11222, 4⟩, ⟨92705, 5⟩, ⟨10047, 4⟩, ⟨12, 1⟩, ⟨10661, 4⟩, ⟨97411, 5⟩,
  ⟨84912, 5⟩, ⟨95, 2⟩, ⟨10903, 4⟩, ⟨10429, 4⟩, ⟨49715, 5⟩, ⟨37755, 5⟩, ⟨35211, 5⟩, ⟨57801, 5⟩,
  ⟨77773, 5⟩, ⟨10207, 4⟩, ⟨1029, 3⟩, ⟨12542, 4⟩, ⟨1122, 3⟩, ⟨11241, 4⟩, ⟨10882, 4⟩, ⟨12709, 4⟩,
  ⟨12542, 4⟩, ⟨90094, 5⟩, ⟨74093, 5⟩, ⟨86054, 5⟩, ⟨93155, 5⟩, ⟨10047, 4⟩, ⟨55379, 5⟩,
  ⟨43289, 5⟩, ⟨32636, 5⟩, ⟨5131, 4⟩, ⟨6950, 4⟩, ⟨72591, 5⟩, ⟨71202, 5⟩, ⟨67413, 5⟩, ⟨71418, 5⟩,
  ⟨71453, 5⟩, ⟨5911, 4⟩, ⟨70263, 5⟩, ⟨68049, 5⟩, ⟨68203, 5⟩, ⟨68121, 5⟩, ⟨68532, 5⟩,
  ⟨68715, 5⟩, ⟨61884, 5⟩, ⟨71801, 5⟩, ⟨83048, 5⟩, ⟨11222, 4⟩, ⟨12381, 4⟩, ⟨1045, 3⟩,
  ⟨10733, 4⟩, ⟨10953, 4⟩, ⟨12381, 4⟩, ⟨12879, 4⟩, ⟨78654, 5⟩, ⟨66401, 5⟩, ⟨84912, 5⟩,
  ⟨88433, 5⟩, ⟨80746, 5⟩, ⟨43357, 5⟩, ⟨41923, 5⟩, ⟨43638, 5⟩, ⟨51464, 5⟩, ⟨73087, 5⟩,
  ⟨81065, 5⟩, ⟨19578, 4⟩, ⟨10257, 4⟩]

end Catima
