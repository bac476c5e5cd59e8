import Verif.Spec.Family

/-! Generated by tools/gen_cdf.py from src/cdf.rs: default probability tables, part 1. -/

namespace Av1.Default

/-- cdf.rs 109 (values), `struct CDF` (declared dimensions). -/
def intra_frame_y_mode : Family :=
  { name := "intra_frame_y_mode", dims := [5, 5, 14], tables := [
    [15588,17027,19338,20218,20682,21110,21825,23244,24189,28165,29093,30466,32768,0],
    [12016,18066,19516,20303,20719,21444,21888,23032,24434,28658,30172,31409,32768,0],
    [10052,10771,22296,22788,23055,23239,24133,25620,26160,29336,29929,31567,32768,0],
    [14091,15406,16442,18808,19136,19546,19998,22096,24746,29585,30958,32462,32768,0],
    [12122,13265,15603,16501,18609,20033,22391,25583,26437,30261,31073,32475,32768,0],
    [10023,19585,20848,21440,21832,22760,23089,24023,25381,29014,30482,31436,32768,0],
    [5983,24099,24560,24886,25066,25795,25913,26423,27610,29905,31276,31794,32768,0],
    [7444,12781,20177,20728,21077,21607,22170,23405,24469,27915,29090,30492,32768,0],
    [8537,14689,15432,17087,17408,18172,18408,19825,24649,29153,31096,32210,32768,0],
    [7543,14231,15496,16195,17905,20717,21984,24516,26001,29675,30981,31994,32768,0],
    [12613,13591,21383,22004,22312,22577,23401,25055,25729,29538,30305,32077,32768,0],
    [9687,13470,18506,19230,19604,20147,20695,22062,23219,27743,29211,30907,32768,0],
    [6183,6505,26024,26252,26366,26434,27082,28354,28555,30467,30794,32086,32768,0],
    [10718,11734,14954,17224,17565,17924,18561,21523,23878,28975,30287,32252,32768,0],
    [9194,9858,16501,17263,18424,19171,21563,25961,26561,30072,30737,32463,32768,0],
    [12602,14399,15488,18381,18778,19315,19724,21419,25060,29696,30917,32409,32768,0],
    [8203,13821,14524,17105,17439,18131,18404,19468,25225,29485,31158,32342,32768,0],
    [8451,9731,15004,17643,18012,18425,19070,21538,24605,29118,30078,32018,32768,0],
    [7714,9048,9516,16667,16817,16994,17153,18767,26743,30389,31536,32528,32768,0],
    [8843,10280,11496,15317,16652,17943,19108,22718,25769,29953,30983,32485,32768,0],
    [12578,13671,15979,16834,19075,20913,22989,25449,26219,30214,31150,32477,32768,0],
    [9563,13626,15080,15892,17756,20863,22207,24236,25380,29653,31143,32277,32768,0],
    [8356,8901,17616,18256,19350,20106,22598,25947,26466,29900,30523,32261,32768,0],
    [10835,11815,13124,16042,17018,18039,18947,22753,24615,29489,30883,32482,32768,0],
    [7618,8288,9859,10509,15386,18657,22903,28776,29180,31355,31802,32593,32768,0]] }

/-- cdf.rs 171 (values), `struct CDF` (declared dimensions). -/
def y_mode : Family :=
  { name := "y_mode", dims := [4, 14], tables := [
    [22801,23489,24293,24756,25601,26123,26606,27418,27945,29228,29685,30349,32768,0],
    [18673,19845,22631,23318,23950,24649,25527,27364,28152,29701,29984,30852,32768,0],
    [19770,20979,23396,23939,24241,24654,25136,27073,27830,29360,29730,30659,32768,0],
    [20155,21301,22838,23178,23261,23533,23703,24804,25352,26575,27016,28049,32768,0]] }

/-- cdf.rs 189 (values), `struct CDF` (declared dimensions). -/
def uv_mode_cfl_not_allowed : Family :=
  { name := "uv_mode_cfl_not_allowed", dims := [13, 14], tables := [
    [22631,24152,25378,25661,25986,26520,27055,27923,28244,30059,30941,31961,32768,0],
    [9513,26881,26973,27046,27118,27664,27739,27824,28359,29505,29800,31796,32768,0],
    [9845,9915,28663,28704,28757,28780,29198,29822,29854,30764,31777,32029,32768,0],
    [13639,13897,14171,25331,25606,25727,25953,27148,28577,30612,31355,32493,32768,0],
    [9764,9835,9930,9954,25386,27053,27958,28148,28243,31101,31744,32363,32768,0],
    [11825,13589,13677,13720,15048,29213,29301,29458,29711,31161,31441,32550,32768,0],
    [14175,14399,16608,16821,17718,17775,28551,30200,30245,31837,32342,32667,32768,0],
    [12885,13038,14978,15590,15673,15748,16176,29128,29267,30643,31961,32461,32768,0],
    [12026,13661,13874,15305,15490,15726,15995,16273,28443,30388,30767,32416,32768,0],
    [19052,19840,20579,20916,21150,21467,21885,22719,23174,28861,30379,32175,32768,0],
    [18627,19649,20974,21219,21492,21816,22199,23119,23527,27053,31397,32148,32768,0],
    [17026,19004,19997,20339,20586,21103,21349,21907,22482,25896,26541,31819,32768,0],
    [12124,13759,14959,14992,15007,15051,15078,15166,15255,15753,16039,16606,32768,0]] }

/-- cdf.rs 217 (values), `struct CDF` (declared dimensions). -/
def uv_mode_cfl_allowed : Family :=
  { name := "uv_mode_cfl_allowed", dims := [13, 15], tables := [
    [10407,11208,12900,13181,13823,14175,14899,15656,15986,20086,20995,22455,24212,32768,0],
    [4532,19780,20057,20215,20428,21071,21199,21451,22099,24228,24693,27032,29472,32768,0],
    [5273,5379,20177,20270,20385,20439,20949,21695,21774,23138,24256,24703,26679,32768,0],
    [6740,7167,7662,14152,14536,14785,15034,16741,18371,21520,22206,23389,24182,32768,0],
    [4987,5368,5928,6068,19114,20315,21857,22253,22411,24911,25380,26027,26376,32768,0],
    [5370,6889,7247,7393,9498,21114,21402,21753,21981,24780,25386,26517,27176,32768,0],
    [4816,4961,7204,7326,8765,8930,20169,20682,20803,23188,23763,24455,24940,32768,0],
    [6608,6740,8529,9049,9257,9356,9735,18827,19059,22336,23204,23964,24793,32768,0],
    [5998,7419,7781,8933,9255,9549,9753,10417,18898,22494,23139,24764,25989,32768,0],
    [10660,11298,12550,12957,13322,13624,14040,15004,15534,20714,21789,23443,24861,32768,0],
    [10522,11530,12552,12963,13378,13779,14245,15235,15902,20102,22696,23774,25838,32768,0],
    [10099,10691,12639,13049,13386,13665,14125,15163,15636,19676,20474,23519,25208,32768,0],
    [3144,5087,7382,7504,7593,7690,7801,8064,8232,9248,9875,10521,29048,32768,0]] }

/-- cdf.rs 245 (values), `struct CDF` (declared dimensions). -/
def angle_delta : Family :=
  { name := "angle_delta", dims := [8, 8], tables := [
    [2180,5032,7567,22776,26989,30217,32768,0],
    [2301,5608,8801,23487,26974,30330,32768,0],
    [3780,11018,13699,19354,23083,31286,32768,0],
    [4581,11226,15147,17138,21834,28397,32768,0],
    [1737,10927,14509,19588,22745,28823,32768,0],
    [2664,10176,12485,17650,21600,30495,32768,0],
    [2240,11096,15453,20341,22561,28917,32768,0],
    [3605,10428,12459,17676,21244,30655,32768,0]] }

/-- cdf.rs 255 (values), `struct CDF` (declared dimensions). -/
def intrabc : Family :=
  { name := "intrabc", dims := [3], tables := [
    [30531,32768,0]] }

/-- cdf.rs 256 (values), `struct CDF` (declared dimensions). -/
def partition_w8 : Family :=
  { name := "partition_w8", dims := [4, 5], tables := [
    [19132,25510,30392,32768,0],
    [13928,19855,28540,32768,0],
    [12522,23679,28629,32768,0],
    [9896,18783,25853,32768,0]] }

/-- cdf.rs 262 (values), `struct CDF` (declared dimensions). -/
def partition_w16 : Family :=
  { name := "partition_w16", dims := [4, 11], tables := [
    [15597,20929,24571,26706,27664,28821,29601,30571,31902,32768,0],
    [7925,11043,16785,22470,23971,25043,26651,28701,29834,32768,0],
    [5414,13269,15111,20488,22360,24500,25537,26336,32117,32768,0],
    [2662,6362,8614,20860,23053,24778,26436,27829,31171,32768,0]] }

/-- cdf.rs 268 (values), `struct CDF` (declared dimensions). -/
def partition_w32 : Family :=
  { name := "partition_w32", dims := [4, 11], tables := [
    [18462,20920,23124,27647,28227,29049,29519,30178,31544,32768,0],
    [7689,9060,12056,24992,25660,26182,26951,28041,29052,32768,0],
    [6015,9009,10062,24544,25409,26545,27071,27526,32047,32768,0],
    [1394,2208,2796,28614,29061,29466,29840,30185,31899,32768,0]] }

/-- cdf.rs 274 (values), `struct CDF` (declared dimensions). -/
def partition_w64 : Family :=
  { name := "partition_w64", dims := [4, 11], tables := [
    [20137,21547,23078,29566,29837,30261,30524,30892,31724,32768,0],
    [6732,7490,9497,27944,28250,28515,28969,29630,30104,32768,0],
    [5945,7663,8348,28683,29117,29749,30064,30298,32238,32768,0],
    [870,1212,1487,31198,31394,31574,31743,31881,32332,32768,0]] }

/-- cdf.rs 280 (values), `struct CDF` (declared dimensions). -/
def partition_w128 : Family :=
  { name := "partition_w128", dims := [4, 9], tables := [
    [27899,28219,28529,32484,32539,32619,32639,32768,0],
    [6607,6990,8268,32060,32219,32338,32371,32768,0],
    [5429,6676,7122,32027,32227,32531,32582,32768,0],
    [711,966,1172,32448,32538,32617,32664,32768,0]] }

/-- cdf.rs 286 (values), `struct CDF` (declared dimensions). -/
def tx_8x8 : Family :=
  { name := "tx_8x8", dims := [3, 3], tables := [
    [19968,32768,0],
    [19968,32768,0],
    [24320,32768,0]] }

/-- cdf.rs 291 (values), `struct CDF` (declared dimensions). -/
def tx_16x16 : Family :=
  { name := "tx_16x16", dims := [3, 4], tables := [
    [12272,30172,32768,0],
    [12272,30172,32768,0],
    [18677,30848,32768,0]] }

/-- cdf.rs 296 (values), `struct CDF` (declared dimensions). -/
def tx_32x32 : Family :=
  { name := "tx_32x32", dims := [3, 4], tables := [
    [12986,15180,32768,0],
    [12986,15180,32768,0],
    [24302,25602,32768,0]] }

/-- cdf.rs 301 (values), `struct CDF` (declared dimensions). -/
def tx_64x64 : Family :=
  { name := "tx_64x64", dims := [3, 4], tables := [
    [5782,11475,32768,0],
    [5782,11475,32768,0],
    [16803,22759,32768,0]] }

/-- cdf.rs 306 (values), `struct CDF` (declared dimensions). -/
def txfm_split : Family :=
  { name := "txfm_split", dims := [21, 3], tables := [
    [28581,32768,0],
    [23846,32768,0],
    [20847,32768,0],
    [24315,32768,0],
    [18196,32768,0],
    [12133,32768,0],
    [18791,32768,0],
    [10887,32768,0],
    [11005,32768,0],
    [27179,32768,0],
    [20004,32768,0],
    [11281,32768,0],
    [26549,32768,0],
    [19308,32768,0],
    [14224,32768,0],
    [28015,32768,0],
    [21546,32768,0],
    [14400,32768,0],
    [28165,32768,0],
    [22401,32768,0],
    [16088,32768,0]] }

/-- cdf.rs 315 (values), `struct CDF` (declared dimensions). -/
def filter_intra_mode : Family :=
  { name := "filter_intra_mode", dims := [6], tables := [
    [8949,12776,17211,29558,32768,0]] }

/-- cdf.rs 316 (values), `struct CDF` (declared dimensions). -/
def filter_intra : Family :=
  { name := "filter_intra", dims := [22, 3], tables := [
    [4621,32768,0],
    [6743,32768,0],
    [5893,32768,0],
    [7866,32768,0],
    [12551,32768,0],
    [9394,32768,0],
    [12408,32768,0],
    [14301,32768,0],
    [12756,32768,0],
    [22343,32768,0],
    [16384,32768,0],
    [16384,32768,0],
    [16384,32768,0],
    [16384,32768,0],
    [16384,32768,0],
    [16384,32768,0],
    [12770,32768,0],
    [10368,32768,0],
    [20229,32768,0],
    [18101,32768,0],
    [16384,32768,0],
    [16384,32768,0]] }

/-- cdf.rs 326 (values), `struct CDF` (declared dimensions). -/
def segment_id : Family :=
  { name := "segment_id", dims := [3, 9], tables := [
    [5622,7893,16093,18233,27809,28373,32533,32768,0],
    [14274,18230,22557,24935,29980,30851,32344,32768,0],
    [27527,28487,28723,28890,32397,32647,32679,32768,0]] }

/-- cdf.rs 331 (values), `struct CDF` (declared dimensions). -/
def segment_id_predicted : Family :=
  { name := "segment_id_predicted", dims := [3, 3], tables := [
    [16384,32768,0],
    [16384,32768,0],
    [16384,32768,0]] }

/-- cdf.rs 336 (values), `struct CDF` (declared dimensions). -/
def mv_class0_hp : Family :=
  { name := "mv_class0_hp", dims := [2, 2, 3], tables := [
    [20480,32768,0],
    [20480,32768,0],
    [20480,32768,0],
    [20480,32768,0]] }

/-- cdf.rs 337 (values), `struct CDF` (declared dimensions). -/
def mv_hp : Family :=
  { name := "mv_hp", dims := [2, 2, 3], tables := [
    [16384,32768,0],
    [16384,32768,0],
    [16384,32768,0],
    [16384,32768,0]] }

/-- cdf.rs 338 (values), `struct CDF` (declared dimensions). -/
def mv_sign : Family :=
  { name := "mv_sign", dims := [2, 2, 3], tables := [
    [16384,32768,0],
    [16384,32768,0],
    [16384,32768,0],
    [16384,32768,0]] }

/-- cdf.rs 339 (values), `struct CDF` (declared dimensions). -/
def mv_bit : Family :=
  { name := "mv_bit", dims := [2, 2, 10, 3], tables := [
    [17408,32768,0],
    [17920,32768,0],
    [18944,32768,0],
    [20480,32768,0],
    [22528,32768,0],
    [24576,32768,0],
    [28672,32768,0],
    [29952,32768,0],
    [29952,32768,0],
    [30720,32768,0],
    [17408,32768,0],
    [17920,32768,0],
    [18944,32768,0],
    [20480,32768,0],
    [22528,32768,0],
    [24576,32768,0],
    [28672,32768,0],
    [29952,32768,0],
    [29952,32768,0],
    [30720,32768,0],
    [17408,32768,0],
    [17920,32768,0],
    [18944,32768,0],
    [20480,32768,0],
    [22528,32768,0],
    [24576,32768,0],
    [28672,32768,0],
    [29952,32768,0],
    [29952,32768,0],
    [30720,32768,0],
    [17408,32768,0],
    [17920,32768,0],
    [18944,32768,0],
    [20480,32768,0],
    [22528,32768,0],
    [24576,32768,0],
    [28672,32768,0],
    [29952,32768,0],
    [29952,32768,0],
    [30720,32768,0]] }

/-- cdf.rs 351 (values), `struct CDF` (declared dimensions). -/
def mv_class0_bit : Family :=
  { name := "mv_class0_bit", dims := [2, 2, 3], tables := [
    [27648,32768,0],
    [27648,32768,0],
    [27648,32768,0],
    [27648,32768,0]] }

/-- cdf.rs 352 (values), `struct CDF` (declared dimensions). -/
def new_mv : Family :=
  { name := "new_mv", dims := [6, 3], tables := [
    [24035,32768,0],
    [16630,32768,0],
    [15339,32768,0],
    [8386,32768,0],
    [12222,32768,0],
    [4676,32768,0]] }

/-- cdf.rs 360 (values), `struct CDF` (declared dimensions). -/
def zero_mv : Family :=
  { name := "zero_mv", dims := [2, 3], tables := [
    [2175,32768,0],
    [1054,32768,0]] }

/-- cdf.rs 364 (values), `struct CDF` (declared dimensions). -/
def ref_mv : Family :=
  { name := "ref_mv", dims := [6, 3], tables := [
    [23974,32768,0],
    [24188,32768,0],
    [17848,32768,0],
    [28622,32768,0],
    [24312,32768,0],
    [19923,32768,0]] }

/-- cdf.rs 372 (values), `struct CDF` (declared dimensions). -/
def drl_mode : Family :=
  { name := "drl_mode", dims := [3, 3], tables := [
    [13104,32768,0],
    [24560,32768,0],
    [18945,32768,0]] }

/-- cdf.rs 377 (values), `struct CDF` (declared dimensions). -/
def is_inter : Family :=
  { name := "is_inter", dims := [4, 3], tables := [
    [806,32768,0],
    [16662,32768,0],
    [20186,32768,0],
    [26538,32768,0]] }

/-- cdf.rs 383 (values), `struct CDF` (declared dimensions). -/
def comp_mode : Family :=
  { name := "comp_mode", dims := [5, 3], tables := [
    [26828,32768,0],
    [24035,32768,0],
    [12031,32768,0],
    [10640,32768,0],
    [2901,32768,0]] }

/-- cdf.rs 390 (values), `struct CDF` (declared dimensions). -/
def skip_mode : Family :=
  { name := "skip_mode", dims := [3, 3], tables := [
    [32621,32768,0],
    [20708,32768,0],
    [8127,32768,0]] }

/-- cdf.rs 395 (values), `struct CDF` (declared dimensions). -/
def skip : Family :=
  { name := "skip", dims := [3, 3], tables := [
    [31671,32768,0],
    [16515,32768,0],
    [4576,32768,0]] }

/-- cdf.rs 400 (values), `struct CDF` (declared dimensions). -/
def comp_ref : Family :=
  { name := "comp_ref", dims := [3, 3, 3], tables := [
    [4946,32768,0],
    [9468,32768,0],
    [1503,32768,0],
    [19891,32768,0],
    [22441,32768,0],
    [15160,32768,0],
    [30731,32768,0],
    [31059,32768,0],
    [27544,32768,0]] }

/-- cdf.rs 411 (values), `struct CDF` (declared dimensions). -/
def comp_bwd_ref : Family :=
  { name := "comp_bwd_ref", dims := [3, 2, 3], tables := [
    [2235,32768,0],
    [1423,32768,0],
    [17182,32768,0],
    [15175,32768,0],
    [30606,32768,0],
    [30489,32768,0]] }

/-- cdf.rs 416 (values), `struct CDF` (declared dimensions). -/
def single_ref : Family :=
  { name := "single_ref", dims := [3, 6, 3], tables := [
    [4897,32768,0],
    [1555,32768,0],
    [4236,32768,0],
    [8650,32768,0],
    [904,32768,0],
    [1444,32768,0],
    [16973,32768,0],
    [16751,32768,0],
    [19647,32768,0],
    [24773,32768,0],
    [11014,32768,0],
    [15087,32768,0],
    [29744,32768,0],
    [30279,32768,0],
    [31194,32768,0],
    [31895,32768,0],
    [26875,32768,0],
    [30304,32768,0]] }

/-- cdf.rs 424 (values), `struct CDF` (declared dimensions). -/
def compound_mode : Family :=
  { name := "compound_mode", dims := [8, 9], tables := [
    [7760,13823,15808,17641,19156,20666,26891,32768,0],
    [10730,19452,21145,22749,24039,25131,28724,32768,0],
    [10664,20221,21588,22906,24295,25387,28436,32768,0],
    [13298,16984,20471,24182,25067,25736,26422,32768,0],
    [18904,23325,25242,27432,27898,28258,30758,32768,0],
    [10725,17454,20124,22820,24195,25168,26046,32768,0],
    [17125,24273,25814,27492,28214,28704,30592,32768,0],
    [13046,23214,24505,25942,27435,28442,29330,32768,0]] }

/-- cdf.rs 434 (values), `struct CDF` (declared dimensions). -/
def interp_filter : Family :=
  { name := "interp_filter", dims := [16, 4], tables := [
    [31935,32720,32768,0],
    [5568,32719,32768,0],
    [422,2938,32768,0],
    [28244,32608,32768,0],
    [31206,31953,32768,0],
    [4862,32121,32768,0],
    [770,1152,32768,0],
    [20889,25637,32768,0],
    [31910,32724,32768,0],
    [4120,32712,32768,0],
    [305,2247,32768,0],
    [27403,32636,32768,0],
    [31022,32009,32768,0],
    [2963,32093,32768,0],
    [601,943,32768,0],
    [14969,21398,32768,0]] }

/-- cdf.rs 452 (values), `struct CDF` (declared dimensions). -/
def motion_mode : Family :=
  { name := "motion_mode", dims := [22, 4], tables := [
    [10923,21845,32768,0],
    [10923,21845,32768,0],
    [10923,21845,32768,0],
    [7651,24760,32768,0],
    [4738,24765,32768,0],
    [5391,25528,32768,0],
    [19419,26810,32768,0],
    [5123,23606,32768,0],
    [11606,24308,32768,0],
    [26260,29116,32768,0],
    [20360,28062,32768,0],
    [21679,26830,32768,0],
    [29516,30701,32768,0],
    [28898,30397,32768,0],
    [30878,31335,32768,0],
    [32507,32558,32768,0],
    [10923,21845,32768,0],
    [10923,21845,32768,0],
    [28799,31390,32768,0],
    [26431,30774,32768,0],
    [28973,31594,32768,0],
    [29742,31203,32768,0]] }

/-- cdf.rs 476 (values), `struct CDF` (declared dimensions). -/
def mv_joint : Family :=
  { name := "mv_joint", dims := [2, 5], tables := [
    [4096,11264,19328,32768,0],
    [4096,11264,19328,32768,0]] }

/-- cdf.rs 477 (values), `struct CDF` (declared dimensions). -/
def mv_class : Family :=
  { name := "mv_class", dims := [2, 2, 12], tables := [
    [28672,30976,31858,32320,32551,32656,32740,32757,32762,32767,32768,0],
    [28672,30976,31858,32320,32551,32656,32740,32757,32762,32767,32768,0],
    [28672,30976,31858,32320,32551,32656,32740,32757,32762,32767,32768,0],
    [28672,30976,31858,32320,32551,32656,32740,32757,32762,32767,32768,0]] }

/-- cdf.rs 485 (values), `struct CDF` (declared dimensions). -/
def mv_class0_fr : Family :=
  { name := "mv_class0_fr", dims := [2, 2, 2, 5], tables := [
    [16384,24576,26624,32768,0],
    [12288,21248,24128,32768,0],
    [16384,24576,26624,32768,0],
    [12288,21248,24128,32768,0],
    [16384,24576,26624,32768,0],
    [12288,21248,24128,32768,0],
    [16384,24576,26624,32768,0],
    [12288,21248,24128,32768,0]] }

/-- cdf.rs 489 (values), `struct CDF` (declared dimensions). -/
def mv_fr : Family :=
  { name := "mv_fr", dims := [2, 2, 5], tables := [
    [8192,17408,21248,32768,0],
    [8192,17408,21248,32768,0],
    [8192,17408,21248,32768,0],
    [8192,17408,21248,32768,0]] }

/-- cdf.rs 493 (values), `struct CDF` (declared dimensions). -/
def palette_y_size : Family :=
  { name := "palette_y_size", dims := [7, 8], tables := [
    [7952,13000,18149,21478,25527,29241,32768,0],
    [7139,11421,16195,19544,23666,28073,32768,0],
    [7788,12741,17325,20500,24315,28530,32768,0],
    [8271,14064,18246,21564,25071,28533,32768,0],
    [12725,19180,21863,24839,27535,30120,32768,0],
    [9711,14888,16923,21052,25661,27875,32768,0],
    [14940,20797,21678,24186,27033,28999,32768,0]] }

/-- cdf.rs 502 (values), `struct CDF` (declared dimensions). -/
def palette_uv_size : Family :=
  { name := "palette_uv_size", dims := [7, 8], tables := [
    [8713,19979,27128,29609,31331,32272,32768,0],
    [5839,15573,23581,26947,29848,31700,32768,0],
    [4426,11260,17999,21483,25863,29430,32768,0],
    [3228,9464,14993,18089,22523,27420,32768,0],
    [3768,8886,13091,17852,22495,27207,32768,0],
    [2464,8451,12861,21632,25525,28555,32768,0],
    [1269,5435,10433,18963,21700,25865,32768,0]] }

/-- cdf.rs 511 (values), `struct CDF` (declared dimensions). -/
def palette_size_2_y_color : Family :=
  { name := "palette_size_2_y_color", dims := [5, 3], tables := [
    [28710,32768,0],
    [16384,32768,0],
    [10553,32768,0],
    [27036,32768,0],
    [31603,32768,0]] }

/-- cdf.rs 518 (values), `struct CDF` (declared dimensions). -/
def palette_size_3_y_color : Family :=
  { name := "palette_size_3_y_color", dims := [5, 4], tables := [
    [27877,30490,32768,0],
    [11532,25697,32768,0],
    [6544,30234,32768,0],
    [23018,28072,32768,0],
    [31915,32385,32768,0]] }

/-- cdf.rs 525 (values), `struct CDF` (declared dimensions). -/
def palette_size_4_y_color : Family :=
  { name := "palette_size_4_y_color", dims := [5, 5], tables := [
    [25572,28046,30045,32768,0],
    [9478,21590,27256,32768,0],
    [7248,26837,29824,32768,0],
    [19167,24486,28349,32768,0],
    [31400,31825,32250,32768,0]] }

/-- cdf.rs 532 (values), `struct CDF` (declared dimensions). -/
def palette_size_5_y_color : Family :=
  { name := "palette_size_5_y_color", dims := [5, 6], tables := [
    [24779,26955,28576,30282,32768,0],
    [8669,20364,24073,28093,32768,0],
    [4255,27565,29377,31067,32768,0],
    [19864,23674,26716,29530,32768,0],
    [31646,31893,32147,32426,32768,0]] }

/-- cdf.rs 539 (values), `struct CDF` (declared dimensions). -/
def palette_size_6_y_color : Family :=
  { name := "palette_size_6_y_color", dims := [5, 7], tables := [
    [23132,25407,26970,28435,30073,32768,0],
    [7443,17242,20717,24762,27982,32768,0],
    [6300,24862,26944,28784,30671,32768,0],
    [18916,22895,25267,27435,29652,32768,0],
    [31270,31550,31808,32059,32353,32768,0]] }

/-- cdf.rs 546 (values), `struct CDF` (declared dimensions). -/
def palette_size_7_y_color : Family :=
  { name := "palette_size_7_y_color", dims := [5, 8], tables := [
    [23105,25199,26464,27684,28931,30318,32768,0],
    [6950,15447,18952,22681,25567,28563,32768,0],
    [7560,23474,25490,27203,28921,30708,32768,0],
    [18544,22373,24457,26195,28119,30045,32768,0],
    [31198,31451,31670,31882,32123,32391,32768,0]] }

/-- cdf.rs 553 (values), `struct CDF` (declared dimensions). -/
def palette_size_8_y_color : Family :=
  { name := "palette_size_8_y_color", dims := [5, 9], tables := [
    [21689,23883,25163,26352,27506,28827,30195,32768,0],
    [6892,15385,17840,21606,24287,26753,29204,32768,0],
    [5651,23182,25042,26518,27982,29392,30900,32768,0],
    [19349,22578,24418,25994,27524,29031,30448,32768,0],
    [31028,31270,31504,31705,31927,32153,32392,32768,0]] }

/-- cdf.rs 560 (values), `struct CDF` (declared dimensions). -/
def palette_size_2_uv_color : Family :=
  { name := "palette_size_2_uv_color", dims := [5, 3], tables := [
    [29089,32768,0],
    [16384,32768,0],
    [8713,32768,0],
    [29257,32768,0],
    [31610,32768,0]] }

/-- cdf.rs 567 (values), `struct CDF` (declared dimensions). -/
def palette_size_3_uv_color : Family :=
  { name := "palette_size_3_uv_color", dims := [5, 4], tables := [
    [25257,29145,32768,0],
    [12287,27293,32768,0],
    [7033,27960,32768,0],
    [20145,25405,32768,0],
    [30608,31639,32768,0]] }

/-- cdf.rs 574 (values), `struct CDF` (declared dimensions). -/
def palette_size_4_uv_color : Family :=
  { name := "palette_size_4_uv_color", dims := [5, 5], tables := [
    [24210,27175,29903,32768,0],
    [9888,22386,27214,32768,0],
    [5901,26053,29293,32768,0],
    [18318,22152,28333,32768,0],
    [30459,31136,31926,32768,0]] }

/-- cdf.rs 581 (values), `struct CDF` (declared dimensions). -/
def palette_size_5_uv_color : Family :=
  { name := "palette_size_5_uv_color", dims := [5, 6], tables := [
    [22980,25479,27781,29986,32768,0],
    [8413,21408,24859,28874,32768,0],
    [2257,29449,30594,31598,32768,0],
    [19189,21202,25915,28620,32768,0],
    [31844,32044,32281,32518,32768,0]] }

/-- cdf.rs 588 (values), `struct CDF` (declared dimensions). -/
def palette_size_6_uv_color : Family :=
  { name := "palette_size_6_uv_color", dims := [5, 7], tables := [
    [22217,24567,26637,28683,30548,32768,0],
    [7307,16406,19636,24632,28424,32768,0],
    [4441,25064,26879,28942,30919,32768,0],
    [17210,20528,23319,26750,29582,32768,0],
    [30674,30953,31396,31735,32207,32768,0]] }

/-- cdf.rs 595 (values), `struct CDF` (declared dimensions). -/
def palette_size_7_uv_color : Family :=
  { name := "palette_size_7_uv_color", dims := [5, 8], tables := [
    [21239,23168,25044,26962,28705,30506,32768,0],
    [6545,15012,18004,21817,25503,28701,32768,0],
    [3448,26295,27437,28704,30126,31442,32768,0],
    [15889,18323,21704,24698,26976,29690,32768,0],
    [30988,31204,31479,31734,31983,32325,32768,0]] }

/-- cdf.rs 602 (values), `struct CDF` (declared dimensions). -/
def palette_size_8_uv_color : Family :=
  { name := "palette_size_8_uv_color", dims := [5, 9], tables := [
    [21442,23288,24758,26246,27649,28980,30563,32768,0],
    [5863,14933,17552,20668,23683,26411,29273,32768,0],
    [3415,25810,26877,27990,29223,30394,31618,32768,0],
    [17965,20084,22232,23974,26274,28402,30390,32768,0],
    [31190,31329,31516,31679,31825,32026,32322,32768,0]] }

/-- cdf.rs 609 (values), `struct CDF` (declared dimensions). -/
def palette_y_mode : Family :=
  { name := "palette_y_mode", dims := [7, 3, 3], tables := [
    [31676,32768,0],
    [3419,32768,0],
    [1261,32768,0],
    [31912,32768,0],
    [2859,32768,0],
    [980,32768,0],
    [31823,32768,0],
    [3400,32768,0],
    [781,32768,0],
    [32030,32768,0],
    [3561,32768,0],
    [904,32768,0],
    [32309,32768,0],
    [7337,32768,0],
    [1462,32768,0],
    [32265,32768,0],
    [4015,32768,0],
    [1521,32768,0],
    [32450,32768,0],
    [7946,32768,0],
    [129,32768,0]] }

/-- cdf.rs 618 (values), `struct CDF` (declared dimensions). -/
def palette_uv_mode : Family :=
  { name := "palette_uv_mode", dims := [2, 3], tables := [
    [32461,32768,0],
    [21488,32768,0]] }

/-- cdf.rs 619 (values), `struct CDF` (declared dimensions). -/
def delta_q : Family :=
  { name := "delta_q", dims := [5], tables := [
    [28160,32120,32677,32768,0]] }

/-- cdf.rs 620 (values), `struct CDF` (declared dimensions). -/
def delta_lf : Family :=
  { name := "delta_lf", dims := [5], tables := [
    [28160,32120,32677,32768,0]] }

/-- cdf.rs 621 (values), `struct CDF` (declared dimensions). -/
def delta_lf_multi : Family :=
  { name := "delta_lf_multi", dims := [4, 5], tables := [
    [28160,32120,32677,32768,0],
    [28160,32120,32677,32768,0],
    [28160,32120,32677,32768,0],
    [28160,32120,32677,32768,0]] }

/-- cdf.rs 622 (values), `struct CDF` (declared dimensions). -/
def intra_tx_type_set1 : Family :=
  { name := "intra_tx_type_set1", dims := [4, 13, 8], tables := [
    [1535,8035,9461,12751,23467,27825,32768,0],
    [564,3335,9709,10870,18143,28094,32768,0],
    [672,3247,3676,11982,19415,23127,32768,0],
    [5279,13885,15487,18044,23527,30252,32768,0],
    [4423,6074,7985,10416,25693,29298,32768,0],
    [1486,4241,9460,10662,16456,27694,32768,0],
    [439,2838,3522,6737,18058,23754,32768,0],
    [1190,4233,4855,11670,20281,24377,32768,0],
    [1045,4312,8647,10159,18644,29335,32768,0],
    [202,3734,4747,7298,17127,24016,32768,0],
    [447,4312,6819,8884,16010,23858,32768,0],
    [277,4369,5255,8905,16465,22271,32768,0],
    [3409,5436,10599,15599,19687,24040,32768,0],
    [1870,13742,14530,16498,23770,27698,32768,0],
    [326,8796,14632,15079,19272,27486,32768,0],
    [484,7576,7712,14443,19159,22591,32768,0],
    [1126,15340,15895,17023,20896,30279,32768,0],
    [655,4854,5249,5913,22099,27138,32768,0],
    [1299,6458,8885,9290,14851,25497,32768,0],
    [311,5295,5552,6885,16107,22672,32768,0],
    [883,8059,8270,11258,17289,21549,32768,0],
    [741,7580,9318,10345,16688,29046,32768,0],
    [110,7406,7915,9195,16041,23329,32768,0],
    [363,7974,9357,10673,15629,24474,32768,0],
    [153,7647,8112,9936,15307,19996,32768,0],
    [3511,6332,11165,15335,19323,23594,32768,0],
    [4681,9362,14043,18725,23406,28087,32768,0],
    [4681,9362,14043,18725,23406,28087,32768,0],
    [4681,9362,14043,18725,23406,28087,32768,0],
    [4681,9362,14043,18725,23406,28087,32768,0],
    [4681,9362,14043,18725,23406,28087,32768,0],
    [4681,9362,14043,18725,23406,28087,32768,0],
    [4681,9362,14043,18725,23406,28087,32768,0],
    [4681,9362,14043,18725,23406,28087,32768,0],
    [4681,9362,14043,18725,23406,28087,32768,0],
    [4681,9362,14043,18725,23406,28087,32768,0],
    [4681,9362,14043,18725,23406,28087,32768,0],
    [4681,9362,14043,18725,23406,28087,32768,0],
    [4681,9362,14043,18725,23406,28087,32768,0],
    [4681,9362,14043,18725,23406,28087,32768,0],
    [4681,9362,14043,18725,23406,28087,32768,0],
    [4681,9362,14043,18725,23406,28087,32768,0],
    [4681,9362,14043,18725,23406,28087,32768,0],
    [4681,9362,14043,18725,23406,28087,32768,0],
    [4681,9362,14043,18725,23406,28087,32768,0],
    [4681,9362,14043,18725,23406,28087,32768,0],
    [4681,9362,14043,18725,23406,28087,32768,0],
    [4681,9362,14043,18725,23406,28087,32768,0],
    [4681,9362,14043,18725,23406,28087,32768,0],
    [4681,9362,14043,18725,23406,28087,32768,0],
    [4681,9362,14043,18725,23406,28087,32768,0],
    [4681,9362,14043,18725,23406,28087,32768,0]] }

/-- cdf.rs 684 (values), `struct CDF` (declared dimensions). -/
def intra_tx_type_set2 : Family :=
  { name := "intra_tx_type_set2", dims := [4, 13, 6], tables := [
    [6554,13107,19661,26214,32768,0],
    [6554,13107,19661,26214,32768,0],
    [6554,13107,19661,26214,32768,0],
    [6554,13107,19661,26214,32768,0],
    [6554,13107,19661,26214,32768,0],
    [6554,13107,19661,26214,32768,0],
    [6554,13107,19661,26214,32768,0],
    [6554,13107,19661,26214,32768,0],
    [6554,13107,19661,26214,32768,0],
    [6554,13107,19661,26214,32768,0],
    [6554,13107,19661,26214,32768,0],
    [6554,13107,19661,26214,32768,0],
    [6554,13107,19661,26214,32768,0],
    [6554,13107,19661,26214,32768,0],
    [6554,13107,19661,26214,32768,0],
    [6554,13107,19661,26214,32768,0],
    [6554,13107,19661,26214,32768,0],
    [6554,13107,19661,26214,32768,0],
    [6554,13107,19661,26214,32768,0],
    [6554,13107,19661,26214,32768,0],
    [6554,13107,19661,26214,32768,0],
    [6554,13107,19661,26214,32768,0],
    [6554,13107,19661,26214,32768,0],
    [6554,13107,19661,26214,32768,0],
    [6554,13107,19661,26214,32768,0],
    [6554,13107,19661,26214,32768,0],
    [1127,12814,22772,27483,32768,0],
    [145,6761,11980,26667,32768,0],
    [362,5887,11678,16725,32768,0],
    [385,15213,18587,30693,32768,0],
    [25,2914,23134,27903,32768,0],
    [60,4470,11749,23991,32768,0],
    [37,3332,14511,21448,32768,0],
    [157,6320,13036,17439,32768,0],
    [119,6719,12906,29396,32768,0],
    [47,5537,12576,21499,32768,0],
    [269,6076,11258,23115,32768,0],
    [83,5615,12001,17228,32768,0],
    [1968,5556,12023,18547,32768,0],
    [6554,13107,19661,26214,32768,0],
    [6554,13107,19661,26214,32768,0],
    [6554,13107,19661,26214,32768,0],
    [6554,13107,19661,26214,32768,0],
    [6554,13107,19661,26214,32768,0],
    [6554,13107,19661,26214,32768,0],
    [6554,13107,19661,26214,32768,0],
    [6554,13107,19661,26214,32768,0],
    [6554,13107,19661,26214,32768,0],
    [6554,13107,19661,26214,32768,0],
    [6554,13107,19661,26214,32768,0],
    [6554,13107,19661,26214,32768,0],
    [6554,13107,19661,26214,32768,0]] }

/-- cdf.rs 746 (values), `struct CDF` (declared dimensions). -/
def inter_tx_type_set1 : Family :=
  { name := "inter_tx_type_set1", dims := [4, 17], tables := [
    [4458,5560,7695,9709,13330,14789,17537,20266,21504,22848,23934,25474,27727,28915,30631,32768,0],
    [1645,2573,4778,5711,7807,8622,10522,15357,17674,20408,22517,25010,27116,28856,30749,32768,0],
    [2048,4096,6144,8192,10240,12288,14336,16384,18432,20480,22528,24576,26624,28672,30720,32768,0],
    [2048,4096,6144,8192,10240,12288,14336,16384,18432,20480,22528,24576,26624,28672,30720,32768,0]] }

/-- cdf.rs 756 (values), `struct CDF` (declared dimensions). -/
def inter_tx_type_set2 : Family :=
  { name := "inter_tx_type_set2", dims := [4, 13], tables := [
    [2731,5461,8192,10923,13653,16384,19115,21845,24576,27307,30037,32768,0],
    [2731,5461,8192,10923,13653,16384,19115,21845,24576,27307,30037,32768,0],
    [770,2421,5225,12907,15819,18927,21561,24089,26595,28526,30529,32768,0],
    [2731,5461,8192,10923,13653,16384,19115,21845,24576,27307,30037,32768,0]] }

/-- cdf.rs 766 (values), `struct CDF` (declared dimensions). -/
def inter_tx_type_set3 : Family :=
  { name := "inter_tx_type_set3", dims := [4, 3], tables := [
    [16384,32768,0],
    [4167,32768,0],
    [1998,32768,0],
    [748,32768,0]] }

/-- cdf.rs 772 (values), `struct CDF` (declared dimensions). -/
def compound_idx : Family :=
  { name := "compound_idx", dims := [6, 3], tables := [
    [18244,32768,0],
    [12865,32768,0],
    [7053,32768,0],
    [13259,32768,0],
    [9334,32768,0],
    [4644,32768,0]] }

/-- cdf.rs 780 (values), `struct CDF` (declared dimensions). -/
def comp_group_idx : Family :=
  { name := "comp_group_idx", dims := [6, 3], tables := [
    [26607,32768,0],
    [22891,32768,0],
    [18840,32768,0],
    [24594,32768,0],
    [19934,32768,0],
    [22674,32768,0]] }

/-- cdf.rs 788 (values), `struct CDF` (declared dimensions). -/
def compound_type : Family :=
  { name := "compound_type", dims := [22, 3], tables := [
    [16384,32768,0],
    [16384,32768,0],
    [16384,32768,0],
    [23431,32768,0],
    [13171,32768,0],
    [11470,32768,0],
    [9770,32768,0],
    [9100,32768,0],
    [8233,32768,0],
    [6172,32768,0],
    [16384,32768,0],
    [16384,32768,0],
    [16384,32768,0],
    [16384,32768,0],
    [16384,32768,0],
    [16384,32768,0],
    [16384,32768,0],
    [16384,32768,0],
    [11820,32768,0],
    [7701,32768,0],
    [16384,32768,0],
    [16384,32768,0]] }

/-- cdf.rs 812 (values), `struct CDF` (declared dimensions). -/
def inter_intra : Family :=
  { name := "inter_intra", dims := [4, 3], tables := [
    [16384,32768,0],
    [26887,32768,0],
    [27597,32768,0],
    [30237,32768,0]] }

/-- cdf.rs 818 (values), `struct CDF` (declared dimensions). -/
def inter_intra_mode : Family :=
  { name := "inter_intra_mode", dims := [4, 5], tables := [
    [8192,16384,24576,32768,0],
    [1875,11082,27332,32768,0],
    [2473,9996,26388,32768,0],
    [4238,11537,25926,32768,0]] }

/-- cdf.rs 824 (values), `struct CDF` (declared dimensions). -/
def wedge_index : Family :=
  { name := "wedge_index", dims := [22, 17], tables := [
    [2048,4096,6144,8192,10240,12288,14336,16384,18432,20480,22528,24576,26624,28672,30720,32768,0],
    [2048,4096,6144,8192,10240,12288,14336,16384,18432,20480,22528,24576,26624,28672,30720,32768,0],
    [2048,4096,6144,8192,10240,12288,14336,16384,18432,20480,22528,24576,26624,28672,30720,32768,0],
    [2438,4440,6599,8663,11005,12874,15751,18094,20359,22362,24127,25702,27752,29450,31171,32768,0],
    [806,3266,6005,6738,7218,7367,7771,14588,16323,17367,18452,19422,22839,26127,29629,32768,0],
    [2779,3738,4683,7213,7775,8017,8655,14357,17939,21332,24520,27470,29456,30529,31656,32768,0],
    [1684,3625,5675,7108,9302,11274,14429,17144,19163,20961,22884,24471,26719,28714,30877,32768,0],
    [1142,3491,6277,7314,8089,8355,9023,13624,15369,16730,18114,19313,22521,26012,29550,32768,0],
    [2742,4195,5727,8035,8980,9336,10146,14124,17270,20533,23434,25972,27944,29570,31416,32768,0],
    [1727,3948,6101,7796,9841,12344,15766,18944,20638,22038,23963,25311,26988,28766,31012,32768,0],
    [2048,4096,6144,8192,10240,12288,14336,16384,18432,20480,22528,24576,26624,28672,30720,32768,0],
    [2048,4096,6144,8192,10240,12288,14336,16384,18432,20480,22528,24576,26624,28672,30720,32768,0],
    [2048,4096,6144,8192,10240,12288,14336,16384,18432,20480,22528,24576,26624,28672,30720,32768,0],
    [2048,4096,6144,8192,10240,12288,14336,16384,18432,20480,22528,24576,26624,28672,30720,32768,0],
    [2048,4096,6144,8192,10240,12288,14336,16384,18432,20480,22528,24576,26624,28672,30720,32768,0],
    [2048,4096,6144,8192,10240,12288,14336,16384,18432,20480,22528,24576,26624,28672,30720,32768,0],
    [2048,4096,6144,8192,10240,12288,14336,16384,18432,20480,22528,24576,26624,28672,30720,32768,0],
    [2048,4096,6144,8192,10240,12288,14336,16384,18432,20480,22528,24576,26624,28672,30720,32768,0],
    [154,987,1925,2051,2088,2111,2151,23033,23703,24284,24985,25684,27259,28883,30911,32768,0],
    [1135,1322,1493,2635,2696,2737,2770,21016,22935,25057,27251,29173,30089,30960,31933,32768,0],
    [2048,4096,6144,8192,10240,12288,14336,16384,18432,20480,22528,24576,26624,28672,30720,32768,0],
    [2048,4096,6144,8192,10240,12288,14336,16384,18432,20480,22528,24576,26624,28672,30720,32768,0]] }

/-- cdf.rs 848 (values), `struct CDF` (declared dimensions). -/
def wedge_inter_intra : Family :=
  { name := "wedge_inter_intra", dims := [22, 3], tables := [
    [16384,32768,0],
    [16384,32768,0],
    [16384,32768,0],
    [20036,32768,0],
    [24957,32768,0],
    [26704,32768,0],
    [27530,32768,0],
    [29564,32768,0],
    [29444,32768,0],
    [26872,32768,0],
    [16384,32768,0],
    [16384,32768,0],
    [16384,32768,0],
    [16384,32768,0],
    [16384,32768,0],
    [16384,32768,0],
    [16384,32768,0],
    [16384,32768,0],
    [16384,32768,0],
    [16384,32768,0],
    [16384,32768,0],
    [16384,32768,0]] }

/-- cdf.rs 872 (values), `struct CDF` (declared dimensions). -/
def use_obmc : Family :=
  { name := "use_obmc", dims := [22, 3], tables := [
    [16384,32768,0],
    [16384,32768,0],
    [16384,32768,0],
    [10437,32768,0],
    [9371,32768,0],
    [9301,32768,0],
    [17432,32768,0],
    [14423,32768,0],
    [15142,32768,0],
    [25817,32768,0],
    [22823,32768,0],
    [22083,32768,0],
    [30128,32768,0],
    [31014,32768,0],
    [31560,32768,0],
    [32638,32768,0],
    [16384,32768,0],
    [16384,32768,0],
    [23664,32768,0],
    [20901,32768,0],
    [24008,32768,0],
    [26879,32768,0]] }

/-- cdf.rs 896 (values), `struct CDF` (declared dimensions). -/
def comp_ref_type : Family :=
  { name := "comp_ref_type", dims := [5, 3], tables := [
    [1198,32768,0],
    [2070,32768,0],
    [9166,32768,0],
    [7499,32768,0],
    [22475,32768,0]] }

/-- cdf.rs 903 (values), `struct CDF` (declared dimensions). -/
def uni_comp_ref : Family :=
  { name := "uni_comp_ref", dims := [3, 3, 3], tables := [
    [5284,32768,0],
    [3865,32768,0],
    [3128,32768,0],
    [23152,32768,0],
    [14173,32768,0],
    [15270,32768,0],
    [31774,32768,0],
    [25120,32768,0],
    [26710,32768,0]] }

/-- cdf.rs 908 (values), `struct CDF` (declared dimensions). -/
def cfl_sign : Family :=
  { name := "cfl_sign", dims := [9], tables := [
    [1418,2123,13340,18405,26972,28343,32294,32768,0]] }

/-- cdf.rs 909 (values), `struct CDF` (declared dimensions). -/
def cfl_alpha : Family :=
  { name := "cfl_alpha", dims := [6, 17], tables := [
    [7637,20719,31401,32481,32657,32688,32692,32696,32700,32704,32708,32712,32716,32720,32724,32768,0],
    [14365,23603,28135,31168,32167,32395,32487,32573,32620,32647,32668,32672,32676,32680,32684,32768,0],
    [11532,22380,28445,31360,32349,32523,32584,32649,32673,32677,32681,32685,32689,32693,32697,32768,0],
    [26990,31402,32282,32571,32692,32696,32700,32704,32708,32712,32716,32720,32724,32728,32732,32768,0],
    [17248,26058,28904,30608,31305,31877,32126,32321,32394,32464,32516,32560,32576,32593,32622,32768,0],
    [14738,21678,25779,27901,29024,30302,30980,31843,32144,32413,32520,32594,32622,32656,32660,32768,0]] }

/-- cdf.rs 923 (values), `struct CDF` (declared dimensions). -/
def use_wiener : Family :=
  { name := "use_wiener", dims := [3], tables := [
    [11570,32768,0]] }

/-- cdf.rs 924 (values), `struct CDF` (declared dimensions). -/
def use_sgrproj : Family :=
  { name := "use_sgrproj", dims := [3], tables := [
    [16855,32768,0]] }

/-- cdf.rs 925 (values), `struct CDF` (declared dimensions). -/
def restoration_type : Family :=
  { name := "restoration_type", dims := [4], tables := [
    [9413,22581,32768,0]] }

def txb_skip_0 : List (List Nat) := [
    [31849,32768,0],
    [5892,32768,0],
    [12112,32768,0],
    [21935,32768,0],
    [20289,32768,0],
    [27473,32768,0],
    [32487,32768,0],
    [7654,32768,0],
    [19473,32768,0],
    [29984,32768,0],
    [9961,32768,0],
    [30242,32768,0],
    [32117,32768,0],
    [31548,32768,0],
    [1549,32768,0],
    [10130,32768,0],
    [16656,32768,0],
    [18591,32768,0],
    [26308,32768,0],
    [32537,32768,0],
    [5403,32768,0],
    [18096,32768,0],
    [30003,32768,0],
    [16384,32768,0],
    [16384,32768,0],
    [16384,32768,0],
    [29957,32768,0],
    [5391,32768,0],
    [18039,32768,0],
    [23566,32768,0],
    [22431,32768,0],
    [25822,32768,0],
    [32197,32768,0],
    [3778,32768,0],
    [15336,32768,0],
    [28981,32768,0],
    [16384,32768,0],
    [16384,32768,0],
    [16384,32768,0],
    [17920,32768,0],
    [1818,32768,0],
    [7282,32768,0],
    [25273,32768,0],
    [10923,32768,0],
    [31554,32768,0],
    [32624,32768,0],
    [1366,32768,0],
    [15628,32768,0],
    [30462,32768,0],
    [146,32768,0],
    [5132,32768,0],
    [31657,32768,0],
    [6308,32768,0],
    [117,32768,0],
    [1638,32768,0],
    [2161,32768,0],
    [16384,32768,0],
    [10923,32768,0],
    [30247,32768,0],
    [16384,32768,0],
    [16384,32768,0],
    [16384,32768,0],
    [16384,32768,0],
    [16384,32768,0],
    [16384,32768,0],
    [30371,32768,0],
    [7570,32768,0],
    [13155,32768,0],
    [20751,32768,0],
    [20969,32768,0],
    [27067,32768,0],
    [32013,32768,0],
    [5495,32768,0],
    [17942,32768,0],
    [28280,32768,0],
    [16384,32768,0],
    [16384,32768,0],
    [16384,32768,0],
    [31782,32768,0],
    [1836,32768,0],
    [10689,32768,0],
    [17604,32768,0],
    [21622,32768,0],
    [27518,32768,0],
    [32399,32768,0],
    [4419,32768,0],
    [16294,32768,0],
    [28345,32768,0],
    [16384,32768,0],
    [16384,32768,0],
    [16384,32768,0],
    [31901,32768,0],
    [10311,32768,0],
    [18047,32768,0],
    [24806,32768,0],
    [23288,32768,0],
    [27914,32768,0],
    [32296,32768,0],
    [4215,32768,0],
    [15756,32768,0],
    [28341,32768,0],
    [16384,32768,0],
    [16384,32768,0],
    [16384,32768,0],
    [26726,32768,0],
    [1045,32768,0],
    [11703,32768,0],
    [20590,32768,0],
    [18554,32768,0],
    [25970,32768,0],
    [31938,32768,0],
    [5583,32768,0],
    [21313,32768,0],
    [29390,32768,0],
    [641,32768,0],
    [22265,32768,0],
    [31452,32768,0],
    [26584,32768,0],
    [188,32768,0],
    [8847,32768,0],
    [24519,32768,0],
    [22938,32768,0],
    [30583,32768,0],
    [32608,32768,0],
    [16384,32768,0],
    [16384,32768,0],
    [16384,32768,0],
    [16384,32768,0],
    [16384,32768,0],
    [16384,32768,0],
    [29614,32768,0],
    [9068,32768,0],
    [12924,32768,0],
    [19538,32768,0],
    [17737,32768,0],
    [24619,32768,0],
    [30642,32768,0],
    [4119,32768,0],
    [16026,32768,0],
    [25657,32768,0],
    [16384,32768,0],
    [16384,32768,0],
    [16384,32768,0],
    [31957,32768,0],
    [3230,32768,0],
    [11153,32768,0],
    [18123,32768,0],
    [20143,32768,0],
    [26536,32768,0],
    [31986,32768,0],
    [3050,32768,0],
    [14603,32768,0],
    [25155,32768,0],
    [16384,32768,0],
    [16384,32768,0],
    [16384,32768,0],
    [32363,32768,0],
    [10692,32768,0],
    [19090,32768,0],
    [24357,32768,0],
    [24442,32768,0],
    [28312,32768,0],
    [32169,32768,0],
    [3648,32768,0],
    [15690,32768,0],
    [26815,32768,0],
    [16384,32768,0],
    [16384,32768,0],
    [16384,32768,0],
    [30669,32768,0],
    [3832,32768,0],
    [11663,32768,0],
    [18889,32768,0],
    [19782,32768,0],
    [23313,32768,0],
    [31330,32768,0],
    [5124,32768,0],
    [18719,32768,0],
    [28468,32768,0],
    [3082,32768,0],
    [20982,32768,0],
    [29443,32768,0],
    [28573,32768,0],
    [3183,32768,0],
    [17802,32768,0],
    [25977,32768,0],
    [26677,32768,0],
    [27832,32768,0],
    [32387,32768,0],
    [16384,32768,0],
    [16384,32768,0],
    [16384,32768,0],
    [16384,32768,0],
    [16384,32768,0],
    [16384,32768,0],
    [26887,32768,0],
    [6729,32768,0],
    [10361,32768,0],
    [17442,32768,0],
    [15045,32768,0]]

def txb_skip_1 : List (List Nat) := [
    [22478,32768,0],
    [29072,32768,0],
    [2713,32768,0],
    [11861,32768,0],
    [20773,32768,0],
    [16384,32768,0],
    [16384,32768,0],
    [16384,32768,0],
    [31903,32768,0],
    [2044,32768,0],
    [7528,32768,0],
    [14618,32768,0],
    [16182,32768,0],
    [24168,32768,0],
    [31037,32768,0],
    [2786,32768,0],
    [11194,32768,0],
    [20155,32768,0],
    [16384,32768,0],
    [16384,32768,0],
    [16384,32768,0],
    [32510,32768,0],
    [8430,32768,0],
    [17318,32768,0],
    [24154,32768,0],
    [23674,32768,0],
    [28789,32768,0],
    [32139,32768,0],
    [3440,32768,0],
    [13117,32768,0],
    [22702,32768,0],
    [16384,32768,0],
    [16384,32768,0],
    [16384,32768,0],
    [31671,32768,0],
    [2056,32768,0],
    [11746,32768,0],
    [16852,32768,0],
    [18635,32768,0],
    [24715,32768,0],
    [31484,32768,0],
    [4656,32768,0],
    [16074,32768,0],
    [24704,32768,0],
    [1806,32768,0],
    [14645,32768,0],
    [25336,32768,0],
    [31539,32768,0],
    [8433,32768,0],
    [20576,32768,0],
    [27904,32768,0],
    [27852,32768,0],
    [30026,32768,0],
    [32441,32768,0],
    [16384,32768,0],
    [16384,32768,0],
    [16384,32768,0],
    [16384,32768,0],
    [16384,32768,0],
    [16384,32768,0]]

/-- cdf.rs 926 (values), `struct CDF` (declared dimensions). -/
def txb_skip : Family :=
  { name := "txb_skip", dims := [4, 5, 13, 3], tables := txb_skip_0 ++ txb_skip_1 }

/-- cdf.rs 1196 (values), `struct CDF` (declared dimensions). -/
def eob_pt_16 : Family :=
  { name := "eob_pt_16", dims := [4, 2, 2, 6], tables := [
    [840,1039,1980,4895,32768,0],
    [370,671,1883,4471,32768,0],
    [3247,4950,9688,14563,32768,0],
    [1904,3354,7763,14647,32768,0],
    [2125,2551,5165,8946,32768,0],
    [513,765,1859,6339,32768,0],
    [7637,9498,14259,19108,32768,0],
    [2497,4096,8866,16993,32768,0],
    [4016,4897,8881,14968,32768,0],
    [716,1105,2646,10056,32768,0],
    [11139,13270,18241,23566,32768,0],
    [3192,5032,10297,19755,32768,0],
    [6708,8958,14746,22133,32768,0],
    [1222,2074,4783,15410,32768,0],
    [19575,21766,26044,29709,32768,0],
    [7297,10767,19273,28194,32768,0]] }

/-- cdf.rs 1214 (values), `struct CDF` (declared dimensions). -/
def eob_pt_32 : Family :=
  { name := "eob_pt_32", dims := [4, 2, 2, 7], tables := [
    [400,520,977,2102,6542,32768,0],
    [210,405,1315,3326,7537,32768,0],
    [2636,4273,7588,11794,20401,32768,0],
    [1786,3179,6902,11357,19054,32768,0],
    [989,1249,2019,4151,10785,32768,0],
    [313,441,1099,2917,8562,32768,0],
    [8394,10352,13932,18855,26014,32768,0],
    [2578,4124,8181,13670,24234,32768,0],
    [2515,3003,4452,8162,16041,32768,0],
    [574,821,1836,5089,13128,32768,0],
    [13468,16303,20361,25105,29281,32768,0],
    [3542,5502,10415,16760,25644,32768,0],
    [4617,5709,8446,13584,23135,32768,0],
    [1156,1702,3675,9274,20539,32768,0],
    [22086,24282,27010,29770,31743,32768,0],
    [7699,10897,20891,26926,31628,32768,0]] }

/-- cdf.rs 1232 (values), `struct CDF` (declared dimensions). -/
def eob_pt_64 : Family :=
  { name := "eob_pt_64", dims := [4, 2, 2, 8], tables := [
    [329,498,1101,1784,3265,7758,32768,0],
    [335,730,1459,5494,8755,12997,32768,0],
    [3505,5304,10086,13814,17684,23370,32768,0],
    [1563,2700,4876,10911,14706,22480,32768,0],
    [1260,1446,2253,3712,6652,13369,32768,0],
    [401,605,1029,2563,5845,12626,32768,0],
    [8609,10612,14624,18714,22614,29024,32768,0],
    [1923,3127,5867,9703,14277,27100,32768,0],
    [2374,2772,4583,7276,12288,19706,32768,0],
    [497,810,1315,3000,7004,15641,32768,0],
    [15050,17126,21410,24886,28156,30726,32768,0],
    [4034,6290,10235,14982,21214,28491,32768,0],
    [6307,7541,12060,16358,22553,27865,32768,0],
    [1289,2320,3971,7926,14153,24291,32768,0],
    [24212,25708,28268,30035,31307,32049,32768,0],
    [8726,12378,19409,26450,30038,32462,32768,0]] }

/-- cdf.rs 1250 (values), `struct CDF` (declared dimensions). -/
def eob_pt_128 : Family :=
  { name := "eob_pt_128", dims := [4, 2, 2, 9], tables := [
    [219,482,1140,2091,3680,6028,12586,32768,0],
    [371,699,1254,4830,9479,12562,17497,32768,0],
    [5245,7456,12880,15852,20033,23932,27608,32768,0],
    [2054,3472,5869,14232,18242,20590,26752,32768,0],
    [685,933,1488,2714,4766,8562,19254,32768,0],
    [217,352,618,2303,5261,9969,17472,32768,0],
    [8045,11200,15497,19595,23948,27408,30938,32768,0],
    [2310,4160,7471,14997,17931,20768,30240,32768,0],
    [1366,1738,2527,5016,9355,15797,24643,32768,0],
    [354,558,944,2760,7287,14037,21779,32768,0],
    [13627,16246,20173,24429,27948,30415,31863,32768,0],
    [6275,9889,14769,23164,27988,30493,32272,32768,0],
    [3472,4885,7489,12481,18517,24536,29635,32768,0],
    [886,1731,3271,8469,15569,22126,28383,32768,0],
    [24313,26062,28385,30107,31217,31898,32345,32768,0],
    [9165,13282,21150,30286,31894,32571,32712,32768,0]] }

/-- cdf.rs 1268 (values), `struct CDF` (declared dimensions). -/
def eob_pt_256 : Family :=
  { name := "eob_pt_256", dims := [4, 2, 2, 10], tables := [
    [310,584,1887,3589,6168,8611,11352,15652,32768,0],
    [998,1850,2998,5604,17341,19888,22899,25583,32768,0],
    [2520,3240,5952,8870,12577,17558,19954,24168,32768,0],
    [2203,4130,7435,10739,20652,23681,25609,27261,32768,0],
    [1448,2109,4151,6263,9329,13260,17944,23300,32768,0],
    [399,1019,1749,3038,10444,15546,22739,27294,32768,0],
    [6402,8148,12623,15072,18728,22847,26447,29377,32768,0],
    [1674,3252,5734,10159,22397,23802,24821,30940,32768,0],
    [3089,3920,6038,9460,14266,19881,25766,29176,32768,0],
    [1084,2358,3488,5122,11483,18103,26023,29799,32768,0],
    [11514,13794,17480,20754,24361,27378,29492,31277,32768,0],
    [6571,9610,15516,21826,29092,30829,31842,32708,32768,0],
    [5348,7113,11820,15924,22106,26777,30334,31757,32768,0],
    [2453,4474,6307,8777,16474,22975,29000,31547,32768,0],
    [23110,24597,27140,28894,30167,30927,31392,32094,32768,0],
    [9998,17661,25178,28097,31308,32038,32403,32695,32768,0]] }

/-- cdf.rs 1286 (values), `struct CDF` (declared dimensions). -/
def eob_pt_512 : Family :=
  { name := "eob_pt_512", dims := [4, 2, 2, 11], tables := [
    [641,983,3707,5430,10234,14958,18788,23412,26061,32768,0],
    [3277,6554,9830,13107,16384,19661,22938,26214,29491,32768,0],
    [5095,6446,9996,13354,16017,17986,20919,26129,29140,32768,0],
    [3277,6554,9830,13107,16384,19661,22938,26214,29491,32768,0],
    [1230,2278,5035,7776,11871,15346,19590,24584,28749,32768,0],
    [3277,6554,9830,13107,16384,19661,22938,26214,29491,32768,0],
    [7265,9979,15819,19250,21780,23846,26478,28396,31811,32768,0],
    [3277,6554,9830,13107,16384,19661,22938,26214,29491,32768,0],
    [2624,3936,6480,9686,13979,17726,23267,28410,31078,32768,0],
    [3277,6554,9830,13107,16384,19661,22938,26214,29491,32768,0],
    [12015,14769,19588,22052,24222,25812,27300,29219,32114,32768,0],
    [3277,6554,9830,13107,16384,19661,22938,26214,29491,32768,0],
    [5927,7809,10923,14597,19439,24135,28456,31142,32060,32768,0],
    [3277,6554,9830,13107,16384,19661,22938,26214,29491,32768,0],
    [21093,23043,25742,27658,29097,29716,30073,30820,31956,32768,0],
    [3277,6554,9830,13107,16384,19661,22938,26214,29491,32768,0]] }

/-- cdf.rs 1304 (values), `struct CDF` (declared dimensions). -/
def eob_pt_1024 : Family :=
  { name := "eob_pt_1024", dims := [4, 2, 2, 12], tables := [
    [393,421,751,1623,3160,6352,13345,18047,22571,25830,32768,0],
    [2979,5958,8937,11916,14895,17873,20852,23831,26810,29789,32768,0],
    [1865,1988,2930,4242,10533,16538,21354,27255,28546,31784,32768,0],
    [2979,5958,8937,11916,14895,17873,20852,23831,26810,29789,32768,0],
    [696,948,3145,5702,9706,13217,17851,21856,25692,28034,32768,0],
    [2979,5958,8937,11916,14895,17873,20852,23831,26810,29789,32768,0],
    [2672,3591,9330,17084,22725,24284,26527,28027,28377,30876,32768,0],
    [2979,5958,8937,11916,14895,17873,20852,23831,26810,29789,32768,0],
    [2784,3831,7041,10521,14847,18844,23155,26682,29229,31045,32768,0],
    [2979,5958,8937,11916,14895,17873,20852,23831,26810,29789,32768,0],
    [9577,12466,17739,20750,22061,23215,24601,25483,25843,32056,32768,0],
    [2979,5958,8937,11916,14895,17873,20852,23831,26810,29789,32768,0],
    [6698,8334,11961,15762,20186,23862,27434,29326,31082,32050,32768,0],
    [2979,5958,8937,11916,14895,17873,20852,23831,26810,29789,32768,0],
    [20569,22426,25569,26859,28053,28913,29486,29724,29807,32570,32768,0],
    [2979,5958,8937,11916,14895,17873,20852,23831,26810,29789,32768,0]] }

def eob_extra_0 : List (List Nat) := [
    [16384,32768,0],
    [16384,32768,0],
    [16384,32768,0],
    [16961,32768,0],
    [17223,32768,0],
    [7621,32768,0],
    [16384,32768,0],
    [16384,32768,0],
    [16384,32768,0],
    [16384,32768,0],
    [16384,32768,0],
    [16384,32768,0],
    [16384,32768,0],
    [16384,32768,0],
    [16384,32768,0],
    [16384,32768,0],
    [16384,32768,0],
    [16384,32768,0],
    [16384,32768,0],
    [16384,32768,0],
    [16384,32768,0],
    [16384,32768,0],
    [16384,32768,0],
    [16384,32768,0],
    [16384,32768,0],
    [19069,32768,0],
    [22525,32768,0],
    [13377,32768,0],
    [16384,32768,0],
    [16384,32768,0],
    [16384,32768,0],
    [16384,32768,0],
    [16384,32768,0],
    [16384,32768,0],
    [16384,32768,0],
    [16384,32768,0],
    [16384,32768,0],
    [16384,32768,0],
    [16384,32768,0],
    [16384,32768,0],
    [16384,32768,0],
    [16384,32768,0],
    [16384,32768,0],
    [16384,32768,0],
    [16384,32768,0],
    [16384,32768,0],
    [16384,32768,0],
    [20401,32768,0],
    [17025,32768,0],
    [12845,32768,0],
    [12873,32768,0],
    [14094,32768,0],
    [16384,32768,0],
    [16384,32768,0],
    [16384,32768,0],
    [16384,32768,0],
    [16384,32768,0],
    [16384,32768,0],
    [16384,32768,0],
    [16384,32768,0],
    [16384,32768,0],
    [16384,32768,0],
    [16384,32768,0],
    [16384,32768,0],
    [16384,32768,0],
    [16384,32768,0],
    [16384,32768,0],
    [16384,32768,0],
    [16384,32768,0],
    [20681,32768,0],
    [20701,32768,0],
    [15250,32768,0],
    [15017,32768,0],
    [14928,32768,0],
    [16384,32768,0],
    [16384,32768,0],
    [16384,32768,0],
    [16384,32768,0],
    [16384,32768,0],
    [16384,32768,0],
    [16384,32768,0],
    [16384,32768,0],
    [16384,32768,0],
    [16384,32768,0],
    [16384,32768,0],
    [16384,32768,0],
    [16384,32768,0],
    [16384,32768,0],
    [16384,32768,0],
    [16384,32768,0],
    [16384,32768,0],
    [23905,32768,0],
    [17194,32768,0],
    [16170,32768,0],
    [17695,32768,0],
    [13826,32768,0],
    [15810,32768,0],
    [12036,32768,0],
    [16384,32768,0],
    [16384,32768,0],
    [16384,32768,0],
    [16384,32768,0],
    [16384,32768,0],
    [16384,32768,0],
    [16384,32768,0],
    [16384,32768,0],
    [16384,32768,0],
    [16384,32768,0],
    [16384,32768,0],
    [16384,32768,0],
    [16384,32768,0],
    [16384,32768,0],
    [16384,32768,0],
    [23959,32768,0],
    [20799,32768,0],
    [19021,32768,0],
    [16203,32768,0],
    [17886,32768,0],
    [14144,32768,0],
    [12010,32768,0],
    [16384,32768,0],
    [16384,32768,0],
    [16384,32768,0],
    [16384,32768,0],
    [16384,32768,0],
    [16384,32768,0],
    [16384,32768,0],
    [16384,32768,0],
    [16384,32768,0],
    [16384,32768,0],
    [16384,32768,0],
    [16384,32768,0],
    [16384,32768,0],
    [16384,32768,0],
    [16384,32768,0],
    [27399,32768,0],
    [16327,32768,0],
    [18071,32768,0],
    [19584,32768,0],
    [20721,32768,0],
    [18432,32768,0],
    [19560,32768,0],
    [10150,32768,0],
    [8805,32768,0],
    [16384,32768,0],
    [16384,32768,0],
    [16384,32768,0],
    [16384,32768,0],
    [16384,32768,0],
    [16384,32768,0],
    [16384,32768,0],
    [16384,32768,0],
    [16384,32768,0],
    [16384,32768,0],
    [16384,32768,0],
    [16384,32768,0],
    [16384,32768,0],
    [24932,32768,0],
    [20833,32768,0],
    [12027,32768,0],
    [16670,32768,0],
    [19914,32768,0],
    [15106,32768,0],
    [17662,32768,0],
    [13783,32768,0],
    [28756,32768,0],
    [16384,32768,0],
    [16384,32768,0],
    [16384,32768,0],
    [16384,32768,0],
    [16384,32768,0],
    [16384,32768,0],
    [16384,32768,0],
    [16384,32768,0],
    [16384,32768,0],
    [16384,32768,0],
    [16384,32768,0],
    [16384,32768,0],
    [16384,32768,0],
    [23406,32768,0],
    [21845,32768,0],
    [18432,32768,0],
    [16384,32768,0],
    [17096,32768,0],
    [12561,32768,0],
    [17320,32768,0],
    [22395,32768,0],
    [21370,32768,0],
    [16384,32768,0],
    [16384,32768,0],
    [16384,32768,0],
    [16384,32768,0],
    [16384,32768,0],
    [16384,32768,0],
    [16384,32768,0],
    [16384,32768,0],
    [16384,32768,0],
    [16384,32768,0],
    [16384,32768,0],
    [16384,32768,0]]

def eob_extra_1 : List (List Nat) := [
    [16384,32768,0],
    [16384,32768,0],
    [16384,32768,0],
    [16384,32768,0],
    [16384,32768,0],
    [16384,32768,0],
    [16384,32768,0],
    [16384,32768,0],
    [16384,32768,0],
    [16384,32768,0],
    [16384,32768,0],
    [16384,32768,0],
    [16384,32768,0],
    [16384,32768,0],
    [16384,32768,0],
    [16384,32768,0],
    [16384,32768,0],
    [16384,32768,0],
    [16384,32768,0],
    [16384,32768,0],
    [16384,32768,0],
    [16384,32768,0],
    [16384,32768,0],
    [17471,32768,0],
    [20223,32768,0],
    [11357,32768,0],
    [16384,32768,0],
    [16384,32768,0],
    [16384,32768,0],
    [16384,32768,0],
    [16384,32768,0],
    [16384,32768,0],
    [16384,32768,0],
    [16384,32768,0],
    [16384,32768,0],
    [16384,32768,0],
    [16384,32768,0],
    [16384,32768,0],
    [16384,32768,0],
    [16384,32768,0],
    [16384,32768,0],
    [16384,32768,0],
    [16384,32768,0],
    [16384,32768,0],
    [16384,32768,0],
    [20335,32768,0],
    [21667,32768,0],
    [14818,32768,0],
    [16384,32768,0],
    [16384,32768,0],
    [16384,32768,0],
    [16384,32768,0],
    [16384,32768,0],
    [16384,32768,0],
    [16384,32768,0],
    [16384,32768,0],
    [16384,32768,0],
    [16384,32768,0],
    [16384,32768,0],
    [16384,32768,0],
    [16384,32768,0],
    [16384,32768,0],
    [16384,32768,0],
    [16384,32768,0],
    [16384,32768,0],
    [16384,32768,0],
    [16384,32768,0],
    [20430,32768,0],
    [20662,32768,0],
    [15367,32768,0],
    [16970,32768,0],
    [14657,32768,0],
    [16384,32768,0],
    [16384,32768,0],
    [16384,32768,0],
    [16384,32768,0],
    [16384,32768,0],
    [16384,32768,0],
    [16384,32768,0],
    [16384,32768,0],
    [16384,32768,0],
    [16384,32768,0],
    [16384,32768,0],
    [16384,32768,0],
    [16384,32768,0],
    [16384,32768,0],
    [16384,32768,0],
    [16384,32768,0],
    [16384,32768,0],
    [22117,32768,0],
    [22028,32768,0],
    [18650,32768,0],
    [16042,32768,0],
    [15885,32768,0],
    [16384,32768,0],
    [16384,32768,0],
    [16384,32768,0],
    [16384,32768,0],
    [16384,32768,0],
    [16384,32768,0],
    [16384,32768,0],
    [16384,32768,0],
    [16384,32768,0],
    [16384,32768,0],
    [16384,32768,0],
    [16384,32768,0],
    [16384,32768,0],
    [16384,32768,0],
    [16384,32768,0],
    [16384,32768,0],
    [16384,32768,0],
    [22409,32768,0],
    [21012,32768,0],
    [15650,32768,0],
    [17395,32768,0],
    [15469,32768,0],
    [20205,32768,0],
    [19511,32768,0],
    [16384,32768,0],
    [16384,32768,0],
    [16384,32768,0],
    [16384,32768,0],
    [16384,32768,0],
    [16384,32768,0],
    [16384,32768,0],
    [16384,32768,0],
    [16384,32768,0],
    [16384,32768,0],
    [16384,32768,0],
    [16384,32768,0],
    [16384,32768,0],
    [16384,32768,0],
    [16384,32768,0],
    [24220,32768,0],
    [22480,32768,0],
    [17737,32768,0],
    [18916,32768,0],
    [19268,32768,0],
    [18412,32768,0],
    [18844,32768,0],
    [16384,32768,0],
    [16384,32768,0],
    [16384,32768,0],
    [16384,32768,0],
    [16384,32768,0],
    [16384,32768,0],
    [16384,32768,0],
    [16384,32768,0],
    [16384,32768,0],
    [16384,32768,0],
    [16384,32768,0],
    [16384,32768,0],
    [16384,32768,0],
    [16384,32768,0],
    [16384,32768,0],
    [25991,32768,0],
    [20314,32768,0],
    [17731,32768,0],
    [19678,32768,0],
    [18649,32768,0],
    [17307,32768,0],
    [21798,32768,0],
    [17549,32768,0],
    [15630,32768,0],
    [16384,32768,0],
    [16384,32768,0],
    [16384,32768,0],
    [16384,32768,0],
    [16384,32768,0],
    [16384,32768,0],
    [16384,32768,0],
    [16384,32768,0],
    [16384,32768,0],
    [16384,32768,0],
    [16384,32768,0],
    [16384,32768,0],
    [16384,32768,0],
    [26585,32768,0],
    [21469,32768,0],
    [20432,32768,0],
    [17735,32768,0],
    [19280,32768,0],
    [15235,32768,0],
    [20297,32768,0],
    [22471,32768,0],
    [28997,32768,0],
    [16384,32768,0],
    [16384,32768,0],
    [16384,32768,0],
    [16384,32768,0],
    [16384,32768,0],
    [16384,32768,0],
    [16384,32768,0],
    [16384,32768,0],
    [16384,32768,0],
    [16384,32768,0],
    [16384,32768,0],
    [16384,32768,0],
    [16384,32768,0],
    [26605,32768,0]]

def eob_extra_2 : List (List Nat) := [
    [11304,32768,0],
    [16726,32768,0],
    [16560,32768,0],
    [20866,32768,0],
    [23524,32768,0],
    [19878,32768,0],
    [13469,32768,0],
    [23084,32768,0],
    [16384,32768,0],
    [16384,32768,0],
    [16384,32768,0],
    [16384,32768,0],
    [16384,32768,0],
    [16384,32768,0],
    [16384,32768,0],
    [16384,32768,0],
    [16384,32768,0],
    [16384,32768,0],
    [16384,32768,0],
    [16384,32768,0],
    [16384,32768,0],
    [16384,32768,0],
    [16384,32768,0],
    [16384,32768,0],
    [16384,32768,0],
    [16384,32768,0],
    [16384,32768,0],
    [16384,32768,0],
    [16384,32768,0],
    [16384,32768,0],
    [16384,32768,0],
    [16384,32768,0],
    [16384,32768,0],
    [16384,32768,0],
    [16384,32768,0],
    [16384,32768,0],
    [16384,32768,0],
    [16384,32768,0],
    [16384,32768,0],
    [16384,32768,0],
    [16384,32768,0],
    [16384,32768,0],
    [16384,32768,0],
    [18983,32768,0],
    [20512,32768,0],
    [14885,32768,0],
    [16384,32768,0],
    [16384,32768,0],
    [16384,32768,0],
    [16384,32768,0],
    [16384,32768,0],
    [16384,32768,0],
    [16384,32768,0],
    [16384,32768,0],
    [16384,32768,0],
    [16384,32768,0],
    [16384,32768,0],
    [16384,32768,0],
    [16384,32768,0],
    [16384,32768,0],
    [16384,32768,0],
    [16384,32768,0],
    [16384,32768,0],
    [16384,32768,0],
    [16384,32768,0],
    [20090,32768,0],
    [19444,32768,0],
    [17286,32768,0],
    [16384,32768,0],
    [16384,32768,0],
    [16384,32768,0],
    [16384,32768,0],
    [16384,32768,0],
    [16384,32768,0],
    [16384,32768,0],
    [16384,32768,0],
    [16384,32768,0],
    [16384,32768,0],
    [16384,32768,0],
    [16384,32768,0],
    [16384,32768,0],
    [16384,32768,0],
    [16384,32768,0],
    [16384,32768,0],
    [16384,32768,0],
    [16384,32768,0],
    [16384,32768,0],
    [19139,32768,0],
    [21487,32768,0],
    [18959,32768,0],
    [20910,32768,0],
    [19089,32768,0],
    [16384,32768,0],
    [16384,32768,0],
    [16384,32768,0],
    [16384,32768,0],
    [16384,32768,0],
    [16384,32768,0],
    [16384,32768,0],
    [16384,32768,0],
    [16384,32768,0],
    [16384,32768,0],
    [16384,32768,0],
    [16384,32768,0],
    [16384,32768,0],
    [16384,32768,0],
    [16384,32768,0],
    [16384,32768,0],
    [16384,32768,0],
    [20536,32768,0],
    [20664,32768,0],
    [20625,32768,0],
    [19123,32768,0],
    [14862,32768,0],
    [16384,32768,0],
    [16384,32768,0],
    [16384,32768,0],
    [16384,32768,0],
    [16384,32768,0],
    [16384,32768,0],
    [16384,32768,0],
    [16384,32768,0],
    [16384,32768,0],
    [16384,32768,0],
    [16384,32768,0],
    [16384,32768,0],
    [16384,32768,0],
    [16384,32768,0],
    [16384,32768,0],
    [16384,32768,0],
    [16384,32768,0],
    [19833,32768,0],
    [21502,32768,0],
    [17485,32768,0],
    [20267,32768,0],
    [18353,32768,0],
    [23329,32768,0],
    [21478,32768,0],
    [16384,32768,0],
    [16384,32768,0],
    [16384,32768,0],
    [16384,32768,0],
    [16384,32768,0],
    [16384,32768,0],
    [16384,32768,0],
    [16384,32768,0],
    [16384,32768,0],
    [16384,32768,0],
    [16384,32768,0],
    [16384,32768,0],
    [16384,32768,0],
    [16384,32768,0],
    [16384,32768,0],
    [22041,32768,0],
    [23434,32768,0],
    [20001,32768,0],
    [20554,32768,0],
    [20951,32768,0],
    [20145,32768,0],
    [15562,32768,0],
    [16384,32768,0],
    [16384,32768,0],
    [16384,32768,0],
    [16384,32768,0],
    [16384,32768,0],
    [16384,32768,0],
    [16384,32768,0],
    [16384,32768,0],
    [16384,32768,0],
    [16384,32768,0],
    [16384,32768,0],
    [16384,32768,0],
    [16384,32768,0],
    [16384,32768,0],
    [16384,32768,0],
    [23312,32768,0],
    [21607,32768,0],
    [16526,32768,0],
    [18957,32768,0],
    [18034,32768,0],
    [18934,32768,0],
    [24247,32768,0],
    [16921,32768,0],
    [17080,32768,0],
    [16384,32768,0],
    [16384,32768,0],
    [16384,32768,0],
    [16384,32768,0],
    [16384,32768,0],
    [16384,32768,0],
    [16384,32768,0],
    [16384,32768,0],
    [16384,32768,0],
    [16384,32768,0],
    [16384,32768,0],
    [16384,32768,0],
    [16384,32768,0],
    [26579,32768,0],
    [24910,32768,0],
    [18637,32768,0]]

def eob_extra_3 : List (List Nat) := [
    [19800,32768,0],
    [20388,32768,0],
    [9887,32768,0],
    [15642,32768,0],
    [30198,32768,0],
    [24721,32768,0],
    [16384,32768,0],
    [16384,32768,0],
    [16384,32768,0],
    [16384,32768,0],
    [16384,32768,0],
    [16384,32768,0],
    [16384,32768,0],
    [16384,32768,0],
    [16384,32768,0],
    [16384,32768,0],
    [16384,32768,0],
    [16384,32768,0],
    [16384,32768,0],
    [26998,32768,0],
    [16737,32768,0],
    [17838,32768,0],
    [18922,32768,0],
    [19515,32768,0],
    [18636,32768,0],
    [17333,32768,0],
    [15776,32768,0],
    [22658,32768,0],
    [16384,32768,0],
    [16384,32768,0],
    [16384,32768,0],
    [16384,32768,0],
    [16384,32768,0],
    [16384,32768,0],
    [16384,32768,0],
    [16384,32768,0],
    [16384,32768,0],
    [16384,32768,0],
    [16384,32768,0],
    [16384,32768,0],
    [16384,32768,0],
    [16384,32768,0],
    [16384,32768,0],
    [16384,32768,0],
    [16384,32768,0],
    [16384,32768,0],
    [16384,32768,0],
    [16384,32768,0],
    [16384,32768,0],
    [16384,32768,0],
    [16384,32768,0],
    [16384,32768,0],
    [16384,32768,0],
    [16384,32768,0],
    [16384,32768,0],
    [16384,32768,0],
    [16384,32768,0],
    [16384,32768,0],
    [16384,32768,0],
    [16384,32768,0],
    [16384,32768,0],
    [16384,32768,0],
    [16384,32768,0],
    [20177,32768,0],
    [20789,32768,0],
    [20262,32768,0],
    [16384,32768,0],
    [16384,32768,0],
    [16384,32768,0],
    [16384,32768,0],
    [16384,32768,0],
    [16384,32768,0],
    [16384,32768,0],
    [16384,32768,0],
    [16384,32768,0],
    [16384,32768,0],
    [16384,32768,0],
    [16384,32768,0],
    [16384,32768,0],
    [16384,32768,0],
    [16384,32768,0],
    [16384,32768,0],
    [16384,32768,0],
    [16384,32768,0],
    [16384,32768,0],
    [21416,32768,0],
    [20855,32768,0],
    [23410,32768,0],
    [16384,32768,0],
    [16384,32768,0],
    [16384,32768,0],
    [16384,32768,0],
    [16384,32768,0],
    [16384,32768,0],
    [16384,32768,0],
    [16384,32768,0],
    [16384,32768,0],
    [16384,32768,0],
    [16384,32768,0],
    [16384,32768,0],
    [16384,32768,0],
    [16384,32768,0],
    [16384,32768,0],
    [16384,32768,0],
    [16384,32768,0],
    [16384,32768,0],
    [16384,32768,0],
    [20238,32768,0],
    [21057,32768,0],
    [19159,32768,0],
    [22337,32768,0],
    [20159,32768,0],
    [16384,32768,0],
    [16384,32768,0],
    [16384,32768,0],
    [16384,32768,0],
    [16384,32768,0],
    [16384,32768,0],
    [16384,32768,0],
    [16384,32768,0],
    [16384,32768,0],
    [16384,32768,0],
    [16384,32768,0],
    [16384,32768,0],
    [16384,32768,0],
    [16384,32768,0],
    [16384,32768,0],
    [16384,32768,0],
    [16384,32768,0],
    [20125,32768,0],
    [20559,32768,0],
    [21707,32768,0],
    [22296,32768,0],
    [17333,32768,0],
    [16384,32768,0],
    [16384,32768,0],
    [16384,32768,0],
    [16384,32768,0],
    [16384,32768,0],
    [16384,32768,0],
    [16384,32768,0],
    [16384,32768,0],
    [16384,32768,0],
    [16384,32768,0],
    [16384,32768,0],
    [16384,32768,0],
    [16384,32768,0],
    [16384,32768,0],
    [16384,32768,0],
    [16384,32768,0],
    [16384,32768,0],
    [19941,32768,0],
    [20527,32768,0],
    [21470,32768,0],
    [22487,32768,0],
    [19558,32768,0],
    [22354,32768,0],
    [20331,32768,0],
    [16384,32768,0],
    [16384,32768,0],
    [16384,32768,0],
    [16384,32768,0],
    [16384,32768,0],
    [16384,32768,0],
    [16384,32768,0],
    [16384,32768,0],
    [16384,32768,0],
    [16384,32768,0],
    [16384,32768,0],
    [16384,32768,0],
    [16384,32768,0],
    [16384,32768,0],
    [16384,32768,0],
    [22752,32768,0],
    [25006,32768,0],
    [22075,32768,0],
    [21576,32768,0],
    [17740,32768,0],
    [21690,32768,0],
    [19211,32768,0],
    [16384,32768,0],
    [16384,32768,0],
    [16384,32768,0],
    [16384,32768,0],
    [16384,32768,0],
    [16384,32768,0],
    [16384,32768,0],
    [16384,32768,0],
    [16384,32768,0],
    [16384,32768,0],
    [16384,32768,0],
    [16384,32768,0],
    [16384,32768,0],
    [16384,32768,0],
    [16384,32768,0],
    [21442,32768,0],
    [22358,32768,0],
    [18503,32768,0],
    [20291,32768,0],
    [19945,32768,0]]

def eob_extra_4 : List (List Nat) := [
    [21294,32768,0],
    [21178,32768,0],
    [19400,32768,0],
    [10556,32768,0],
    [16384,32768,0],
    [16384,32768,0],
    [16384,32768,0],
    [16384,32768,0],
    [16384,32768,0],
    [16384,32768,0],
    [16384,32768,0],
    [16384,32768,0],
    [16384,32768,0],
    [16384,32768,0],
    [16384,32768,0],
    [16384,32768,0],
    [16384,32768,0],
    [24648,32768,0],
    [24949,32768,0],
    [20708,32768,0],
    [23905,32768,0],
    [20501,32768,0],
    [9558,32768,0],
    [9423,32768,0],
    [30365,32768,0],
    [19253,32768,0],
    [16384,32768,0],
    [16384,32768,0],
    [16384,32768,0],
    [16384,32768,0],
    [16384,32768,0],
    [16384,32768,0],
    [16384,32768,0],
    [16384,32768,0],
    [16384,32768,0],
    [16384,32768,0],
    [16384,32768,0],
    [16384,32768,0],
    [16384,32768,0],
    [26064,32768,0],
    [22098,32768,0],
    [19613,32768,0],
    [20525,32768,0],
    [17595,32768,0],
    [16618,32768,0],
    [20497,32768,0],
    [18989,32768,0],
    [15513,32768,0],
    [16384,32768,0],
    [16384,32768,0],
    [16384,32768,0],
    [16384,32768,0],
    [16384,32768,0],
    [16384,32768,0],
    [16384,32768,0],
    [16384,32768,0],
    [16384,32768,0],
    [16384,32768,0],
    [16384,32768,0],
    [16384,32768,0],
    [16384,32768,0],
    [16384,32768,0],
    [16384,32768,0],
    [16384,32768,0],
    [16384,32768,0],
    [16384,32768,0],
    [16384,32768,0],
    [16384,32768,0],
    [16384,32768,0],
    [16384,32768,0],
    [16384,32768,0],
    [16384,32768,0],
    [16384,32768,0],
    [16384,32768,0],
    [16384,32768,0],
    [16384,32768,0],
    [16384,32768,0],
    [16384,32768,0],
    [16384,32768,0],
    [16384,32768,0]]

/-- cdf.rs 1322 (values), `struct CDF` (declared dimensions). -/
def eob_extra : Family :=
  { name := "eob_extra", dims := [4, 5, 2, 22, 3], tables := eob_extra_0 ++ eob_extra_1 ++ eob_extra_2 ++ eob_extra_3 ++ eob_extra_4 }

/-- cdf.rs 1644 (values), `struct CDF` (declared dimensions). -/
def dc_sign : Family :=
  { name := "dc_sign", dims := [4, 2, 3, 3], tables := [
    [16000,32768,0],
    [13056,32768,0],
    [18816,32768,0],
    [15232,32768,0],
    [12928,32768,0],
    [17280,32768,0],
    [16000,32768,0],
    [13056,32768,0],
    [18816,32768,0],
    [15232,32768,0],
    [12928,32768,0],
    [17280,32768,0],
    [16000,32768,0],
    [13056,32768,0],
    [18816,32768,0],
    [15232,32768,0],
    [12928,32768,0],
    [17280,32768,0],
    [16000,32768,0],
    [13056,32768,0],
    [18816,32768,0],
    [15232,32768,0],
    [12928,32768,0],
    [17280,32768,0]] }

def part1 : List Family := [intra_frame_y_mode, y_mode, uv_mode_cfl_not_allowed, uv_mode_cfl_allowed, angle_delta, intrabc, partition_w8, partition_w16, partition_w32, partition_w64, partition_w128, tx_8x8, tx_16x16, tx_32x32, tx_64x64, txfm_split, filter_intra_mode, filter_intra, segment_id, segment_id_predicted, mv_class0_hp, mv_hp, mv_sign, mv_bit, mv_class0_bit, new_mv, zero_mv, ref_mv, drl_mode, is_inter, comp_mode, skip_mode, skip, comp_ref, comp_bwd_ref, single_ref, compound_mode, interp_filter, motion_mode, mv_joint, mv_class, mv_class0_fr, mv_fr, palette_y_size, palette_uv_size, palette_size_2_y_color, palette_size_3_y_color, palette_size_4_y_color, palette_size_5_y_color, palette_size_6_y_color, palette_size_7_y_color, palette_size_8_y_color, palette_size_2_uv_color, palette_size_3_uv_color, palette_size_4_uv_color, palette_size_5_uv_color, palette_size_6_uv_color, palette_size_7_uv_color, palette_size_8_uv_color, palette_y_mode, palette_uv_mode, delta_q, delta_lf, delta_lf_multi, intra_tx_type_set1, intra_tx_type_set2, inter_tx_type_set1, inter_tx_type_set2, inter_tx_type_set3, compound_idx, comp_group_idx, compound_type, inter_intra, inter_intra_mode, wedge_index, wedge_inter_intra, use_obmc, comp_ref_type, uni_comp_ref, cfl_sign, cfl_alpha, use_wiener, use_sgrproj, restoration_type, txb_skip, eob_pt_16, eob_pt_32, eob_pt_64, eob_pt_128, eob_pt_256, eob_pt_512, eob_pt_1024, eob_extra, dc_sign]

end Av1.Default
