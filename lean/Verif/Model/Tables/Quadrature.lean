import Verif.Model.Scalar

/-!
# Quadrature nodes and weights

Transcribed by `tools/gen_tables.py`; an entry `⟨m, e⟩` is the decimal `m * 10^(-e)`.
-/

namespace Catima

/-- `GL_data<order>`: positive abscissas and weights (glq_integrator.h:21-23). For odd
orders the first abscissa is 0. -/
structure GLData where
  order : Nat
  x : List Dec
  w : List Dec

/-- `GK_data<order>`: Kronrod abscissas and weights and the weights of the embedded
Gauss rule (gkq_integrator.h:26-28). -/
structure GKData where
  order : Nat
  x : List Dec
  w : List Dec
  wg : List Dec


/-- include/catima/glq_integrator.h:138-150 -/
def GL_data3 : GLData where
  order := 3
  x := [⟨0, 1⟩, ⟨7745966692414833770359, 22⟩]
  w := [⟨8888888888888888888889, 22⟩, ⟨555555555555555555556, 21⟩]

/-- include/catima/glq_integrator.h:152-166 -/
def GL_data4 : GLData where
  order := 4
  x := [⟨3399810435848562648026658, 25⟩, ⟨8611363115940525752239465, 25⟩]
  w := [⟨6521451548625461426269361, 25⟩, ⟨3478548451374538573730639, 25⟩]

/-- include/catima/glq_integrator.h:168-182 -/
def GL_data5 : GLData where
  order := 5
  x := [⟨0, 1⟩, ⟨5384693101056830910363, 22⟩, ⟨9061798459386639927976, 22⟩]
  w := [⟨568888888888888888888, 21⟩, ⟨4786286704993664680413, 22⟩, ⟨2369268850561890875143, 22⟩]

/-- include/catima/glq_integrator.h:184-197 -/
def GL_data6 : GLData where
  order := 6
  x := [⟨2386191860831969086305017, 25⟩, ⟨6612093864662645136613996, 25⟩, ⟨9324695142031520278123016, 25⟩]
  w := [⟨4679139345726910473898703, 25⟩, ⟨3607615730481386075698335, 25⟩, ⟨1713244923791703450402961, 25⟩]

/-- include/catima/glq_integrator.h:199-212 -/
def GL_data7 : GLData where
  order := 7
  x := [⟨0, 1⟩, ⟨4058451513773971669066, 22⟩, ⟨7415311855993944398639, 22⟩, ⟨9491079123427585245262, 22⟩]
  w := [⟨417959183673469387755, 21⟩, ⟨38183005050511894495, 20⟩, ⟨279705391489276667901, 21⟩, ⟨129484966168869693271, 21⟩]

/-- include/catima/glq_integrator.h:214-227 -/
def GL_data8 : GLData where
  order := 8
  x := [⟨1834346424956498049394761, 25⟩, ⟨5255324099163289858177390, 25⟩, ⟨7966664774136267395915539, 25⟩, ⟨9602898564975362316835609, 25⟩]
  w := [⟨3626837833783619829651504, 25⟩, ⟨3137066458778872873379622, 25⟩, ⟨2223810344533744705443560, 25⟩, ⟨1012285362903762591525314, 25⟩]

/-- include/catima/glq_integrator.h:229-242 -/
def GL_data10 : GLData where
  order := 10
  x := [⟨1488743389816312108848260, 25⟩, ⟨4333953941292471907992659, 25⟩, ⟨6794095682990244062343274, 25⟩, ⟨8650633666889845107320967, 25⟩, ⟨9739065285171717200779640, 25⟩]
  w := [⟨2955242247147528701738930, 25⟩, ⟨2692667193099963550912269, 25⟩, ⟨2190863625159820439955349, 25⟩, ⟨1494513491505805931457763, 25⟩, ⟨666713443086881375935688, 25⟩]

/-- include/catima/glq_integrator.h:244-258 -/
def GL_data12 : GLData where
  order := 12
  x := [⟨1252334085114689154724414, 25⟩, ⟨3678314989981801937526915, 25⟩, ⟨5873179542866174472967024, 25⟩, ⟨7699026741943046870368938, 25⟩, ⟨9041172563704748566784659, 25⟩, ⟨9815606342467192506905491, 25⟩]
  w := [⟨2491470458134027850005624, 25⟩, ⟨2334925365383548087608499, 25⟩, ⟨2031674267230659217490645, 25⟩, ⟨1600783285433462263346525, 25⟩, ⟨1069393259953184309602547, 25⟩, ⟨471753363865118271946160, 25⟩]

/-- include/catima/glq_integrator.h:260-274 -/
def GL_data14 : GLData where
  order := 14
  x := [⟨1080549487073436620662447, 25⟩, ⟨3191123689278897604356718, 25⟩, ⟨5152486363581540919652907, 25⟩, ⟨6872929048116854701480198, 25⟩, ⟨8272013150697649931897947, 25⟩, ⟨9284348836635735173363911, 25⟩, ⟨9862838086968123388415973, 25⟩]
  w := [⟨2152638534631577901958764, 25⟩, ⟨2051984637212956039659241, 25⟩, ⟨1855383974779378137417166, 25⟩, ⟨1572031671581935345696019, 25⟩, ⟨1215185706879031846894148, 25⟩, ⟨801580871597602098056333, 25⟩, ⟨351194603317518630318329, 25⟩]

/-- include/catima/glq_integrator.h:276-290 -/
def GL_data16 : GLData where
  order := 16
  x := [⟨950125098376374401853193, 25⟩, ⟨2816035507792589132304605, 25⟩, ⟨4580167776572273863424194, 25⟩, ⟨6178762444026437484466718, 25⟩, ⟨7554044083550030338951012, 25⟩, ⟨8656312023878317438804679, 25⟩, ⟨9445750230732325760779884, 25⟩, ⟨9894009349916499325961542, 25⟩]
  w := [⟨1894506104550684962853967, 25⟩, ⟨1826034150449235888667637, 25⟩, ⟨1691565193950025381893121, 25⟩, ⟨1495959888165767320815017, 25⟩, ⟨1246289712555338720524763, 25⟩, ⟨951585116824927848099251, 25⟩, ⟨622535239386478928628438, 25⟩, ⟨271524594117540948517806, 25⟩]

/-- include/catima/glq_integrator.h:292-306 -/
def GL_data20 : GLData where
  order := 20
  x := [⟨765265211334973337546404, 25⟩, ⟨2277858511416450780804962, 25⟩, ⟨3737060887154195606725482, 25⟩, ⟨5108670019508270980043641, 25⟩, ⟨6360536807265150254528367, 25⟩, ⟨7463319064601507926143051, 25⟩, ⟨8391169718222188233945291, 25⟩, ⟨9122344282513259058677524, 25⟩, ⟨9639719272779137912676661, 25⟩, ⟨9931285991850949247861224, 25⟩]
  w := [⟨1527533871307258506980843, 25⟩, ⟨1491729864726037467878287, 25⟩, ⟨1420961093183820513292983, 25⟩, ⟨1316886384491766268984945, 25⟩, ⟨1181945319615184173123774, 25⟩, ⟨1019301198172404350367501, 25⟩, ⟨832767415767047487247581, 25⟩, ⟨626720483341090635695065, 25⟩, ⟨406014298003869413310400, 25⟩, ⟨176140071391521183118620, 25⟩]

/-- include/catima/glq_integrator.h:308-322 -/
def GL_data32 : GLData where
  order := 32
  x := [⟨483076656877383162348126, 25⟩, ⟨1444719615827964934851864, 25⟩, ⟨2392873622521370745446032, 25⟩, ⟨3318686022821276497799168, 25⟩, ⟨4213512761306353453641194, 25⟩, ⟨5068999089322293900237475, 25⟩, ⟨5877157572407623290407455, 25⟩, ⟨6630442669302152009751152, 25⟩, ⟨7321821187402896803874267, 25⟩, ⟨7944837959679424069630973, 25⟩, ⟨8493676137325699701336930, 25⟩, ⟨8963211557660521239653072, 25⟩, ⟨9349060759377396891709191, 25⟩, ⟨9647622555875064307738119, 25⟩, ⟨9856115115452683354001750, 25⟩, ⟨9972638618494815635449811, 25⟩]
  w := [⟨965400885147278005667648, 25⟩, ⟨956387200792748594190820, 25⟩, ⟨938443990808045656391802, 25⟩, ⟨911738786957638847128686, 25⟩, ⟨876520930044038111427715, 25⟩, ⟨833119242269467552221991, 25⟩, ⟨781938957870703064717409, 25⟩, ⟨723457941088485062253994, 25⟩, ⟨658222227763618468376501, 25⟩, ⟨586840934785355471452836, 25⟩, ⟨509980592623761761961632, 25⟩, ⟨428358980222266806568786, 25⟩, ⟨342738629130214331026877, 25⟩, ⟨253920653092620594557526, 25⟩, ⟨162743947309056706051706, 25⟩, ⟨70186100094700966004071, 25⟩]

/-- include/catima/glq_integrator.h:324-339 -/
def GL_data64 : GLData where
  order := 64
  x := [⟨243502926634244325089558, 25⟩, ⟨729931217877990394495429, 25⟩, ⟨1214628192961205544703765, 25⟩, ⟨1696444204239928180373136, 25⟩, ⟨2174236437400070841496487, 25⟩, ⟨2646871622087674163739642, 25⟩, ⟨3113228719902109561575127, 25⟩, ⟨3572201583376681159504426, 25⟩, ⟨4022701579639916036957668, 25⟩, ⟨4463660172534640879849477, 25⟩, ⟨4894031457070529574785263, 25⟩, ⟨5312794640198945456580139, 25⟩, ⟨5718956462026340342838781, 25⟩, ⟨6111553551723932502488530, 25⟩, ⟨6489654712546573398577612, 25⟩, ⟨6852363130542332425635584, 25⟩, ⟨7198818501716108268489402, 25⟩, ⟨7528199072605318966118638, 25⟩, ⟨7839723589433414076102205, 25⟩, ⟨8132653151227975597419233, 25⟩, ⟨8406292962525803627516915, 25⟩, ⟨8659993981540928197607834, 25⟩, ⟨8893154459951141058534040, 25⟩, ⟨9105221370785028057563807, 25⟩, ⟨9295691721319395758214902, 25⟩, ⟨9464113748584028160624815, 25⟩, ⟨9610087996520537189186141, 25⟩, ⟨9733268277899109637418535, 25⟩, ⟨9833362538846259569312993, 25⟩, ⟨9910133714767443207393824, 25⟩, ⟨9963401167719552793469245, 25⟩, ⟨9993050417357721394569056, 25⟩]
  w := [⟨486909570091397203833654, 25⟩, ⟨485754674415034269347991, 25⟩, ⟨483447622348029571697695, 25⟩, ⟨479993885964583077281262, 25⟩, ⟨475401657148303086622822, 25⟩, ⟨469681828162100173253263, 25⟩, ⟨462847965813144172959532, 25⟩, ⟨454916279274181444797710, 25⟩, ⟨445905581637565630601347, 25⟩, ⟨435837245293234533768279, 25⟩, ⟨424735151236535890073398, 25⟩, ⟨412625632426235286101563, 25⟩, ⟨399537411327203413866569, 25⟩, ⟨385501531786156291289625, 25⟩, ⟨370551285402400460404151, 25⟩, ⟨354722132568823838106931, 25⟩, ⟨338051618371416093915655, 25⟩, ⟨320579283548515535854675, 25⟩, ⟨302346570724024788679741, 25⟩, ⟨283396726142594832275113, 25⟩, ⟨263774697150546586716918, 25⟩, ⟨243527025687108733381776, 25⟩, ⟨222701738083832541592983, 25⟩, ⟨201348231535302093723403, 25⟩, ⟨179517157756973430850453, 25⟩, ⟨157260304760247193219660, 25⟩, ⟨134630478967186425980608, 25⟩, ⟨111681394601311288185905, 25⟩, ⟨88467598263639477230309, 25⟩, ⟨65044579689783628561174, 25⟩, ⟨41470332605624676352875, 25⟩, ⟨17832807216964329472961, 25⟩]

/-- include/catima/glq_integrator.h:341-356 -/
def GL_data128 : GLData where
  order := 128
  x := [⟨122236989606157641980521, 25⟩, ⟨366637909687334933302153, 25⟩, ⟨610819696041395681037870, 25⟩, ⟨854636405045154986364980, 25⟩, ⟨1097942311276437466729747, 25⟩, ⟨1340591994611877851175753, 25⟩, ⟨1582440427142249339974755, 25⟩, ⟨1823343059853371824103826, 25⟩, ⟨2063155909020792171540580, 25⟩, ⟨2301735642266599864109866, 25⟩, ⟨2538939664226943208556180, 25⟩, ⟨2774626201779044028062316, 25⟩, ⟨3008654388776772026671541, 25⟩, ⟨3240884350244133751832523, 25⟩, ⟨3471177285976355084261628, 25⟩, ⟨3699395553498590266165917, 25⟩, ⟨3925402750332674427356482, 25⟩, ⟨4149063795522750154922739, 25⟩, ⟨4370245010371041629370429, 25⟩, ⟨4588814198335521954490891, 25⟩, ⟨4804640724041720258582757, 25⟩, ⟨5017595591361444642896063, 25⟩, ⟨5227551520511754784539479, 25⟩, ⟨5434383024128103634441936, 25⟩, ⟨5637966482266180839144308, 25⟩, ⟨5838180216287630895500389, 25⟩, ⟨6034904561585486242035732, 25⟩, ⟨6228021939105849107615396, 25⟩, ⟨6417416925623075571535249, 25⟩, ⟨6602976322726460521059468, 25⟩, ⟨6784589224477192593677557, 25⟩, ⟨6962147083695143323850866, 25⟩, ⟨7135543776835874133438599, 25⟩, ⟨7304675667419088064717369, 25⟩, ⟨7469441667970619811698824, 25⟩, ⟨7629743300440947227797691, 25⟩, ⟨7785484755064119668504941, 25⟩, ⟨7936572947621932902433329, 25⟩, ⟨8082917575079136601196422, 25⟩, ⟨8224431169556438424645942, 25⟩, ⟨8361029150609068471168753, 25⟩, ⟨8492629875779689691636001, 25⟩, ⟨8619154689395484605906323, 25⟩, ⟨8740527969580317986954180, 25⟩, ⟨8856677173453972174082924, 25⟩, ⟨8967532880491581843864474, 25⟩, ⟨9073028834017568139214859, 25⟩, ⟨9173101980809605370364836, 25⟩, ⟨9267692508789478433346245, 25⟩, ⟨9356743882779163757831268, 25⟩, ⟨9440202878302201821211114, 25⟩, ⟨9518019613412643862177963, 25⟩, ⟨9590147578536999280989185, 25⟩, ⟨9656543664319652686458290, 25⟩, ⟨9717168187471365809043384, 25⟩, ⟨9771984914639073871653744, 25⟩, ⟨9820961084357185360247656, 25⟩, ⟨9864067427245862088712355, 25⟩, ⟨9901278184917343833379303, 25⟩, ⟨9932571129002129353034372, 25⟩, ⟨9957927585349811868641612, 25⟩, ⟨9977332486255140198821574, 25⟩, ⟨9990774599773758950119878, 25⟩, ⟨9998248879471319144736081, 25⟩]
  w := [⟨244461801962625182113259, 25⟩, ⟨244315690978500450548486, 25⟩, ⟨244023556338495820932980, 25⟩, ⟨243585572646906258532685, 25⟩, ⟨243002001679718653234426, 25⟩, ⟨242273192228152481200933, 25⟩, ⟨241399579890192849977167, 25⟩, ⟨240381686810240526375873, 25⟩, ⟨239220121367034556724504, 25⟩, ⟨237915577810034006387807, 25⟩, ⟨236468835844476151436514, 25⟩, ⟨234880760165359131530253, 25⟩, ⟨233152299940627601224157, 25⟩, ⟨231284488243870278792979, 25⟩, ⟨229278441436868469204110, 25⟩, ⟨227135358502364613097126, 25⟩, ⟨224856520327449668718246, 25⟩, ⟨222443288937997651046291, 25⟩, ⟨219897106684604914341221, 25⟩, ⟨217219495380520753752610, 25⟩, ⟨214412055392084601371119, 25⟩, ⟨211476464682213485370195, 25⟩, ⟨208414477807511491135839, 25⟩, ⟨205227924869600694322850, 25⟩, ⟨201918710421300411806732, 25⟩, ⟨198488812328308622199444, 25⟩, ⟨194940280587066028230219, 25⟩, ⟨191275236099509454865185, 25⟩, ⟨187495869405447086509195, 25⟩, ⟨183604439373313432212893, 25⟩, ⟨179603271850086859401969, 25⟩, ⟨175494758271177046487069, 25⟩, ⟨171281354231113768306810, 25⟩, ⟨166965578015892045890915, 25⟩, ⟨162550009097851870516575, 25⟩, ⟨158037286593993468589656, 25⟩, ⟨153430107688651440859909, 25⟩, ⟨148731226021473142523855, 25⟩, ⟨143943450041668461768239, 25⟩, ⟨139069641329519852442880, 25⟩, ⟨134112712886163323144890, 25⟩, ⟨129075627392673472204428, 25⟩, ⟨123961395439509229688217, 25⟩, ⟨118773073727402795758911, 25⟩, ⟨113513763240804166932817, 25⟩, ⟨108186607395030762476596, 25⟩, ⟨102794790158321571332153, 25⟩, ⟨97341534150068058635483, 25⟩, ⟨91830098716608743344787, 25⟩, ⟨86263777986167497049788, 25⟩, ⟨80645898904860579729286, 25⟩, ⟨74979819256347286876720, 25⟩, ⟨69268925668988135634267, 25⟩, ⟨63516631617071887872143, 25⟩, ⟨57726375428656985893346, 25⟩, ⟨51901618326763302050708, 25⟩, ⟨46045842567029551182905, 25⟩, ⟨40162549837386423131943, 25⟩, ⟨34255260409102157743378, 25⟩, ⟨28327514714579910952857, 25⟩, ⟨22382884309626187436221, 25⟩, ⟨16425030186690295387909, 25⟩, ⟨10458126793403487793129, 25⟩, ⟨4493809602920903763943, 25⟩]

/-- include/catima/gkq_integrator.h:172-190 -/
def GK_data7 : GKData where
  order := 7
  x := [⟨0, 1⟩, ⟨4342437493468025580021, 22⟩, ⟨774596669241483377036, 21⟩, ⟨9604912687080202834235, 22⟩]
  w := [⟨4509165386584741423451, 22⟩, ⟨4013974147759622229051, 22⟩, ⟨2684880898683334407286, 22⟩, ⟨1046562260264672651938, 22⟩]
  wg := [⟨8888888888888888888889, 22⟩, ⟨555555555555555555556, 21⟩, ⟨0, 0⟩, ⟨0, 0⟩]

/-- include/catima/gkq_integrator.h:192-228 -/
def GK_data15 : GKData where
  order := 15
  x := [⟨0, 1⟩, ⟨207784955007898467600689403773244913, 36⟩, ⟨405845151377397166906606412076961463, 36⟩, ⟨586087235467691130294144838258729598, 36⟩, ⟨741531185599394439863864773280788407, 36⟩, ⟨864864423359769072789712788640926201, 36⟩, ⟨949107912342758524526189684047851262, 36⟩, ⟨991455371120812639206854697526328517, 36⟩]
  w := [⟨209482141084727828012999174891714264, 36⟩, ⟨204432940075298892414161999234649085, 36⟩, ⟨190350578064785409913256402421013683, 36⟩, ⟨169004726639267902826583426598550284, 36⟩, ⟨140653259715525918745189590510237920, 36⟩, ⟨104790010322250183839876322541518017, 36⟩, ⟨630920926299785532907006631892042867, 37⟩, ⟨229353220105292249637320080589695920, 37⟩]
  wg := [⟨417959183673469387755102040816326531, 36⟩, ⟨381830050505118944950369775488975134, 36⟩, ⟨279705391489276667901467771423779582, 36⟩, ⟨129484966168869693270611432679082018, 36⟩]

/-- include/catima/gkq_integrator.h:230-277 -/
def GK_data21 : GKData where
  order := 21
  x := [⟨0, 17⟩, ⟨148874338981631211, 18⟩, ⟨294392862701460198, 18⟩, ⟨433395394129247191, 18⟩, ⟨562757134668604683, 18⟩, ⟨679409568299024406, 18⟩, ⟨780817726586416897, 18⟩, ⟨865063366688984511, 18⟩, ⟨930157491355708226, 18⟩, ⟨973906528517171720, 18⟩, ⟨995657163025808081, 18⟩]
  w := [⟨149445554002916906, 18⟩, ⟨147739104901338491, 18⟩, ⟨142775938577060081, 18⟩, ⟨134709217311473326, 18⟩, ⟨123491976262065851, 18⟩, ⟨109387158802297642, 18⟩, ⟨931254545836976055, 19⟩, ⟨750396748109199528, 19⟩, ⟨547558965743519960, 19⟩, ⟨325581623079647275, 19⟩, ⟨116946388673718743, 19⟩]
  wg := [⟨295524224714752870, 18⟩, ⟨269266719309996355, 18⟩, ⟨219086362515982044, 18⟩, ⟨149451349150580593, 18⟩, ⟨666713443086881376, 19⟩]

/-- include/catima/gkq_integrator.h:279-339 -/
def GK_data31 : GKData where
  order := 31
  x := [⟨0, 17⟩, ⟨101142066918717499, 18⟩, ⟨201194093997434522, 18⟩, ⟨299180007153168812, 18⟩, ⟨394151347077563370, 18⟩, ⟨485081863640239681, 18⟩, ⟨570972172608538848, 18⟩, ⟨650996741297416971, 18⟩, ⟨724417731360170047, 18⟩, ⟨790418501442465933, 18⟩, ⟨848206583410427216, 18⟩, ⟨897264532344081901, 18⟩, ⟨937273392400705904, 18⟩, ⟨967739075679139134, 18⟩, ⟨987992518020485428, 18⟩, ⟨998002298693397060, 18⟩]
  w := [⟨101330007014791549, 18⟩, ⟨100769845523875595, 18⟩, ⟨991735987217919593, 19⟩, ⟨966427269836236785, 19⟩, ⟨931265981708253212, 19⟩, ⟨885644430562117706, 19⟩, ⟨830805028231330210, 19⟩, ⟨768496807577203789, 19⟩, ⟨698541213187282587, 19⟩, ⟨620095678006706403, 19⟩, ⟨534815246909280873, 19⟩, ⟨445897513247648766, 19⟩, ⟨353463607913758462, 19⟩, ⟨254608473267153202, 19⟩, ⟨150079473293161225, 19⟩, ⟨537747987292334899, 20⟩]
  wg := [⟨202578241925561273, 18⟩, ⟨198431485327111576, 18⟩, ⟨186161000015562211, 18⟩, ⟨166269205816993934, 18⟩, ⟨139570677926154314, 18⟩, ⟨107159220467171935, 18⟩, ⟨703660474881081247, 19⟩, ⟨307532419961172684, 19⟩]

/-- include/catima/gkq_integrator.h:341-440 -/
def GK_data61 : GKData where
  order := 61
  x := [⟨0, 17⟩, ⟨514718425553176958, 19⟩, ⟨102806937966737030, 18⟩, ⟨153869913608583547, 18⟩, ⟨204525116682309891, 18⟩, ⟨254636926167889846, 18⟩, ⟨304073202273625077, 18⟩, ⟨352704725530878113, 18⟩, ⟨400401254830394393, 18⟩, ⟨447033769538089177, 18⟩, ⟨492480467861778575, 18⟩, ⟨536624148142019899, 18⟩, ⟨579345235826361692, 18⟩, ⟨620526182989242861, 18⟩, ⟨660061064126626961, 18⟩, ⟨697850494793315797, 18⟩, ⟨733790062453226805, 18⟩, ⟨767777432104826195, 18⟩, ⟨799727835821839083, 18⟩, ⟨829565762382768397, 18⟩, ⟨857205233546061099, 18⟩, ⟨882560535792052682, 18⟩, ⟨905573307699907799, 18⟩, ⟨926200047429274326, 18⟩, ⟨944374444748559979, 18⟩, ⟨960021864968307512, 18⟩, ⟨973116322501126268, 18⟩, ⟨983668123279747210, 18⟩, ⟨991630996870404595, 18⟩, ⟨996893484074649540, 18⟩, ⟨999484410050490638, 18⟩]
  w := [⟨514947294294515676, 19⟩, ⟨514261285374590259, 19⟩, ⟨512215478492587722, 19⟩, ⟨508817958987496065, 19⟩, ⟨504059214027823468, 19⟩, ⟨497956834270742064, 19⟩, ⟨490554345550297789, 19⟩, ⟨481858617570871291, 19⟩, ⟨471855465692991539, 19⟩, ⟨460592382710069881, 19⟩, ⟨448148001331626632, 19⟩, ⟨434525397013560693, 19⟩, ⟨419698102151642461, 19⟩, ⟨403745389515359591, 19⟩, ⟨386789456247275930, 19⟩, ⟨368823646518212292, 19⟩, ⟨349793380280600241, 19⟩, ⟨329814470574837260, 19⟩, ⟨309072575623877625, 19⟩, ⟨287540487650412928, 19⟩, ⟨265099548823331016, 19⟩, ⟨241911620780806014, 19⟩, ⟨218280358216091923, 19⟩, ⟨194141411939423812, 19⟩, ⟨169208891890532726, 19⟩, ⟨143697295070458048, 19⟩, ⟨118230152534963417, 19⟩, ⟨927327965951776343, 20⟩, ⟨663070391593129217, 20⟩, ⟨389046112709988405, 20⟩, ⟨138901369867700762, 20⟩]
  wg := [⟨102852652893558840, 18⟩, ⟨101762389748405505, 18⟩, ⟨995934205867952671, 19⟩, ⟨963687371746442596, 19⟩, ⟨921225222377861287, 19⟩, ⟨868997872010829798, 19⟩, ⟨807558952294202154, 19⟩, ⟨737559747377052063, 19⟩, ⟨659742298821804951, 19⟩, ⟨574931562176190665, 19⟩, ⟨484026728305940529, 19⟩, ⟨387991925696270496, 19⟩, ⟨287847078833233693, 19⟩, ⟨184664683110909591, 19⟩, ⟨796819249616660562, 20⟩]

end Catima
