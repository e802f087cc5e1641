import Mathlib.Data.Rat.Defs
/-
The table of load Love numbers (src/lib/pole_tide/ocean_pole_tide_geopotential.cpp:6-187), generated from the
source, in units of 1e-12.
-/
namespace Verif.PoleTide

/-- `kn` (ocean_pole_tide_geopotential.cpp:6-187). -/
def knTable : List Int := [
  -1000000000000, -1000000000000, -305402019500, -196029404100, -133665268900, -104706626700, -90335644290, -82069848040,
  -76554946440, -72438448150, -69134014660, -66358698190, -63956898770, -61832966410, -59921722010, -58177725160,
  -56567042050, -55064741100, -53652050580, -52314794220, -51042042790, -49825626700, -48659191310, -47537646520,
  -46457285560, -45414833590, -44408185280, -43434876030, -42493478230, -41582320610, -40700345570, -39846458320,
  -39019377590, -38218275090, -37442176490, -36690342060, -35961864740, -35255944120, -34571875760, -33908826310,
  -33266099090, -32642999230, -32038831740, -31452932800, -30884638960, -30333341910, -29798421080, -29279293730,
  -28775390040, -28286158680, -27811081920, -27349633530, -26901336370, -26465709450, -26042294180, -25630666300,
  -25230394520, -24841077740, -24462331270, -24093777950, -23735064050, -23385845300, -23045793090, -22714590300,
  -22391936330, -22077539190, -21771119370, -21472409080, -21181151700, -20897101390, -20620020590, -20349682200,
  -20085868070, -19828368950, -19576983190, -19331517280, -19091785440, -18857609220, -18628817060, -18405242750,
  -18186727810, -17973121610, -17764272770, -17560041640, -17360291750, -17164891630, -16973714980, -16786639420,
  -16603547440, -16424325600, -16248864780, -16077059110, -15908806880, -15744009760, -15582573060, -15424404860,
  -15269416730, -15117523090, -14968641460, -14822691680, -14679596560, -14539281350, -14401673870, -14266704010,
  -14134304110, -14004408610, -13876954160, -13751879180, -13629124160, -13508631420, -13390345160, -13274211070,
  -13160176690, -13048191060, -12938204880, -12830170140, -12724040380, -12619770500, -12517316780, -12416636640,
  -12317688860, -12220433360, -12124831270, -12030844760, -11938437100, -11847572600, -11758219830, -11670338920,
  -11583899970, -11498871180, -11415221550, -11332921030, -11251940190, -11172250530, -11093824280, -11016634540,
  -10940654880, -10865859760, -10792224240, -10719724120, -10648335700, -10578035970, -10508802500, -10440613520,
  -10373447650, -10307284180, -10242102880, -10177884100, -10114608540, -10052257490, -9990812687, -9930256346,
  -9870571027, -9811739803, -9753746115, -9696573861, -9640207245, -9584630905, -9529829829, -9475790189,
  -9422496073, -9369934305, -9318091242, -9266953580, -9216508278, -9166742633, -9117644217, -9069200890,
  -9021400853, -8974232435, -8927684326, -8881745447, -8836405029, -8791653407, -8747481667, -8703874181,
  -8660824198, -8618321971, -8576358051, -8534923154, -8494008256, -8453604422, -8413702992, -8374295452,
  -8335373508, -8296928978, -8258953895, -8221440446, -8184381010, -8147768058, -8111594272, -8075852456,
  -8040535598, -8005636771, -7971149225, -7937066335, -7903381636, -7870088750, -7837181442, -7804653597,
  -7772499254, -7740712516, -7709287634, -7678218959, -7647500968, -7617128214, -7587095379, -7557397242,
  -7528028665, -7498984668, -7470260263, -7441850636, -7413751027, -7385956807, -7358463369, -7331266234,
  -7304360991, -7277743343, -7251409005, -7225353835, -7199573711, -7174064656, -7148822685, -7123843938,
  -7099129566, -7074666551, -7050455306, -7026492490, -7002774540, -6979298005, -6956059431, -6933055469,
  -6910282814, -6887738228, -6865418504, -6843320529, -6821441187, -6799777491, -6778326425, -6757085071,
  -6736050549, -6715220049, -6694590762, -6674159952, -6653925199, -6633883871, -6614032563, -6594369232,
  -6574891356, -6555596461, -6536482218, -6517546015, -6498785614, -6480198683, -6461782835, -6443535971,
  -6425455846, -6407540263, -6389786969, -6372194033, -6354759310, -6337480778, -6320356275, -6303384010,
  -6286561980, -6269888285, -6253360871, -6236978078, -6220737994, -6204638851, -6188678733, -6172856062,
  -6157169047, -6141616004, -6126195168, -6110905001, -6095743854, -6080714363, -6065808661, -6051025499,
  -6036365150, -6021826113, -6007406839, -5993105878, -5978921847, -5964853301, -5950898825, -5937057006,
  -5923326579, -5909706151, -5896194416, -5882789995, -5869491718, -5856298304, -5843208448, -5830220904,
  -5817334546, -5804548161, -5791860577, -5779270522, -5766776986, -5754378816, -5742074899, -5729864025,
  -5717745257, -5705717481, -5693779662, -5681930652, -5670169557, -5658495321, -5646906981, -5635403426,
  -5623983856, -5612647214, -5601392619, -5590219039, -5579125640, -5568111507, -5557175755, -5546317422,
  -5535535712, -5524829768, -5514198739, -5503641734, -5493157962, -5482746632, -5472406939, -5462138054,
  -5451939170, -5441809594, -5431748532, -5421755212, -5411828857, -5401975569, -5392181719, -5382453176,
  -5372788210, -5363186748, -5353648059, -5344171504, -5334756310, -5325401926, -5316107680, -5306872920,
  -5297696936, -5288579215, -5279519432, -5270516389, -5261569543, -5252678535, -5243842709, -5235061516,
  -5226334273, -5217660524, -5209039665, -5200471169, -5191954431, -5183488963, -5175074221, -5166709698,
  -5158394787]

end Verif.PoleTide
