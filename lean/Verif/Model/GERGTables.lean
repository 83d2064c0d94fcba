import Mathlib.Data.Rat.Defs
import Mathlib.Algebra.Order.Field.Rat

/-! # Tables of the GERG-2004 and GERG-2008 models (`/repo/include/teqp/models/GERG/GERG.hpp`)

Decimal literals are the exact decimal numbers of the source; the rounding to binary64 is not modelled.  A
`std::map` keyed by component names becomes a list keyed by the components; `std::map` keeps the first of
entries of equal key, and so do the look-ups. -/

set_option autoImplicit false

namespace Teqp.Model

/-- The components of the two models (`GERG.hpp` line 431 for GERG-2004, line 962 for GERG-2008). -/
inductive GFluid where
  | methane
  | nitrogen
  | carbonDioxide
  | ethane
  | propane
  | nButane
  | isobutane
  | nPentane
  | isopentane
  | nHexane
  | nHeptane
  | nOctane
  | hydrogen
  | oxygen
  | carbonMonoxide
  | water
  | helium
  | argon
  | hydrogenSulfide
  | nNonane
  | nDecane
  deriving DecidableEq, Repr

/-- Name of a component (`GERG.hpp` lines 431 and 962). -/
def GFluid.name : GFluid → String
  | .methane => "methane"
  | .nitrogen => "nitrogen"
  | .carbonDioxide => "carbondioxide"
  | .ethane => "ethane"
  | .propane => "propane"
  | .nButane => "n-butane"
  | .isobutane => "isobutane"
  | .nPentane => "n-pentane"
  | .isopentane => "isopentane"
  | .nHexane => "n-hexane"
  | .nHeptane => "n-heptane"
  | .nOctane => "n-octane"
  | .hydrogen => "hydrogen"
  | .oxygen => "oxygen"
  | .carbonMonoxide => "carbonmonoxide"
  | .water => "water"
  | .helium => "helium"
  | .argon => "argon"
  | .hydrogenSulfide => "hydrogensulfide"
  | .nNonane => "n-nonane"
  | .nDecane => "n-decane"

/-- `GERG2004::component_names` (`GERG.hpp` line 431). -/
def gergNames04 : List GFluid :=
  [.methane, .nitrogen, .carbonDioxide, .ethane, .propane, .nButane, .isobutane, .nPentane, .isopentane,
    .nHexane, .nHeptane, .nOctane, .hydrogen, .oxygen, .carbonMonoxide, .water, .helium, .argon]

/-- `GERG2008::component_names` (`GERG.hpp` line 962). -/
def gergNames08 : List GFluid :=
  [.methane, .nitrogen, .carbonDioxide, .ethane, .propane, .nButane, .isobutane, .nPentane, .isopentane,
    .nHexane, .nHeptane, .nOctane, .hydrogen, .oxygen, .carbonMonoxide, .water, .helium, .argon,
    .hydrogenSulfide, .nNonane, .nDecane]

/-- `PureInfo` (`GERG.hpp` lines 22-24), in the units of the tables: mol/dm^3, K, kg/kmol. -/
structure GInfo where
  rhoc : ℚ
  Tc : ℚ
  M : ℚ
  deriving DecidableEq

/-- `BetasGammas` (`GERG.hpp` lines 29-31). -/
structure GBetas where
  betaV : ℚ
  gammaV : ℚ
  betaT : ℚ
  gammaT : ℚ
  deriving DecidableEq

/-- `PureCoeffs` (`GERG.hpp` lines 25-28); the exponents `d`, `l` and the switches `c` of the tables are whole
numbers. -/
structure GPure where
  n : List ℚ := []
  t : List ℚ := []
  d : List ℕ := []
  c : List ℕ := []
  l : List ℕ := []
  deriving DecidableEq

/-- `DepartureCoeffs` (`GERG.hpp` lines 32-35); the exponents `d` are whole numbers. -/
structure GDep where
  n : List ℚ := []
  t : List ℚ := []
  d : List ℕ := []
  eta : List ℚ := []
  beta : List ℚ := []
  gamma : List ℚ := []
  epsilon : List ℚ := []
  deriving DecidableEq

/-- The table entry of the ideal-gas coefficients: seven `n`, four `theta` (`GERG.hpp` line 470). -/
structure GAig where
  n : List ℚ
  theta : List ℚ
  deriving DecidableEq

/-- `GERG2004::get_pure_info`: the table (`GERG.hpp` lines 438-457). -/
def gergInfoTable04 : List (GFluid × GInfo) :=
  [(.methane, ⟨10.139342719, 190.564, 16.04246⟩),
   (.nitrogen, ⟨11.1839, 126.192, 28.0134⟩),
   (.carbonDioxide, ⟨10.624978698, 304.1282, 44.0095⟩),
   (.ethane, ⟨6.87085454, 305.322, 30.06904⟩),
   (.propane, ⟨5.000043088, 369.825, 44.09562⟩),
   (.nButane, ⟨3.920016792, 425.125, 58.1222⟩),
   (.isobutane, ⟨3.86014294, 407.817, 58.1222⟩),
   (.nPentane, ⟨3.215577588, 469.7, 72.14878⟩),
   (.isopentane, ⟨3.271018581, 460.35, 72.14878⟩),
   (.nHexane, ⟨2.705877875, 507.82, 86.17536⟩),
   (.nHeptane, ⟨2.315324434, 540.13, 100.20194⟩),
   (.nOctane, ⟨2.056404127, 569.32, 114.22852⟩),
   (.hydrogen, ⟨14.94, 33.19, 2.01588⟩),
   (.oxygen, ⟨13.63, 154.595, 31.9988⟩),
   (.carbonMonoxide, ⟨10.85, 132.8, 28.0101⟩),
   (.water, ⟨17.87371609, 647.096, 18.01528⟩),
   (.helium, ⟨17.399, 5.1953, 4.002602⟩),
   (.argon, ⟨13.407429659, 150.687, 39.948⟩)]

/-- `GERG2008::get_pure_info`: the table (`GERG.hpp` lines 968-975). -/
def gergInfoTable08 : List (GFluid × GInfo) :=
  [(.carbonMonoxide, ⟨10.85, 132.86, 28.0101⟩),
   (.isopentane, ⟨3.271, 460.35, 72.14878⟩),
   (.nNonane, ⟨1.81, 594.55, 128.2551⟩),
   (.nDecane, ⟨1.64, 617.7, 142.28168⟩),
   (.hydrogenSulfide, ⟨10.19, 373.1, 34.08088⟩)]

/-- `GERG2004::get_alphaig_coeffs`: the table (`GERG.hpp` lines 470-489). -/
def gergAigTable04 : List (GFluid × GAig) :=
  [(.methane, ⟨[19.597538587, -83.959667892, 3.00088, 0.76315, 0.0046, 8.74432, -4.46921],
      [4.306474465, 0.936220902, 5.577233895, 5.722644361]⟩),
   (.nitrogen, ⟨[11.083437707, -22.202102428, 2.50031, 0.13732, -0.1466, 0.90066, 0],
      [5.25182262, -5.393067706, 13.788988208, 0]⟩),
   (.carbonDioxide, ⟨[11.925182741, -16.118762264, 2.50002, 2.04452, -1.06044, 2.03366, 0.01393],
      [3.022758166, -2.844425476, 1.589964364, 1.12159609]⟩),
   (.ethane, ⟨[24.675465518, -77.42531376, 3.00263, 4.33939, 1.23722, 13.1974, -6.01989],
      [1.831882406, 0.731306621, 3.378007481, 3.508721939]⟩),
   (.propane, ⟨[31.602934734, -84.463284382, 3.02939, 6.60569, 3.197, 19.1921, -8.37267],
      [1.297521801, 0.543210978, 2.583146083, 2.777773271]⟩),
   (.nButane, ⟨[20.88416879, -91.638478026, 3.33944, 9.44893, 6.89406, 24.4618, 14.7824],
      [1.101487798, 0.43195766, 4.502440459, 2.124516319]⟩),
   (.isobutane, ⟨[20.413751434, -94.467620036, 3.06714, 8.97575, 5.25156, 25.1423, 16.1388],
      [1.074673199, 0.485556021, 4.671261865, 2.19158348]⟩),
   (.nPentane, ⟨[14.536635738, -89.919548319, 3, 8.95043, 21.836, 33.4032, 0],
      [0.380391739, 1.789520971, 3.777411113, 0]⟩),
   (.isopentane, ⟨[15.449937973, -101.298172792, 3, 11.7618, 20.1101, 33.1688, 0],
      [0.635392636, 1.977271641, 4.169371131, 0]⟩),
   (.nHexane, ⟨[14.345993081, -96.165722367, 3, 11.6977, 26.8142, 38.6164, 0],
      [0.359036667, 1.691951873, 3.596924107, 0]⟩),
   (.nHeptane, ⟨[15.063809621, -97.345252349, 3, 13.7266, 30.4707, 43.5561, 0],
      [0.314348398, 1.54813656, 3.259326458, 0]⟩),
   (.nOctane, ⟨[15.864709639, -97.370667555, 3, 15.6865, 33.8029, 48.1731, 0],
      [0.27914354, 1.431644769, 2.973845992, 0]⟩),
   (.hydrogen, ⟨[13.796474934, -175.864487294, 1.47906, 0.95806, 0.45444, 1.56039, -1.3756],
      [6.891654113, 9.84763483, 49.76529075, 50.367279301]⟩),
   (.oxygen, ⟨[10.001874708, -14.996095135, 2.50146, 1.07558, 1.01334, 0, 0],
      [14.461722565, 7.223325463, 0, 0]⟩),
   (.carbonMonoxide, ⟨[10.814500335, -19.843695435, 2.50055, 1.02865, 0.00493, 0, 0],
      [11.675075301, 5.305158133, 0, 0]⟩),
   (.water, ⟨[8.20355305, -11.996306443, 3.00392, 0.01059, 0.98763, 3.06904, 0],
      [0.415386589, 1.763895929, 3.874803739, 0]⟩),
   (.helium, ⟨[13.628441975, -143.470759602, 1.5, 0, 0, 0, 0],
      [0, 0, 0, 0]⟩),
   (.argon, ⟨[8.316662546, -4.9465026, 1.5, 0, 0, 0, 0],
      [0, 0, 0, 0]⟩)]

/-- `GERG2008::get_alphaig_coeffs`: the table (`GERG.hpp` lines 1124-1132). -/
def gergAigTable08 : List (GFluid × GAig) :=
  [(.carbonMonoxide, ⟨[10.813340744, -19.834733959, 2.50055, 1.02865, 0.00493, 0, 0],
      [11.6698028, 5.302762306, 0, 0]⟩),
   (.isopentane, ⟨[15.449907693, -101.298172792, 3, 11.7618, 20.1101, 33.1688, 0],
      [0.635392636, 1.977271641, 4.169371131, 0]⟩),
   (.nNonane, ⟨[16.313913248, -102.160247463, 3, 18.0241, 38.1235, 53.3415, 0],
      [0.263819696, 1.370586158, 2.848860483, 0]⟩),
   (.nDecane, ⟨[15.870791919, -108.858547525, 3, 21.0069, 43.4931, 58.3657, 0],
      [0.267034159, 1.353835195, 2.833479035, 0]⟩),
   (.hydrogenSulfide, ⟨[9.336197742, -16.266508995, 3, 3.11942, 1.00243, 0, 0],
      [4.914580541, 2.27065398, 0, 0]⟩)]

/-- `GERG2004::get_pure_coeffs`: `n_dict_mne` (`GERG.hpp` lines 514-518). -/
def gergMne04 : List (GFluid × List ℚ) :=
  [(.methane, [0.57335704239162, -0.1676068752373e1, 0.23405291834916, -0.21947376343441, 0.16369201404128e-1,
      0.1500440638928e-1, 0.98990489492918e-1, 0.58382770929055, -0.7478686756039, 0.30033302857974,
      0.20985543806568, -0.18590151133061e-1, -0.15782558339049, 0.12716735220791, -0.32019743894346e-1,
      -0.68049729364536e-1, 0.24291412853736e-1, 0.51440451639444e-2, -0.19084949733532e-1,
      0.55229677241291e-2, -0.44197392976085e-2, 0.40061416708429e-1, -0.33752085907575e-1,
      -0.25127658213357e-2]),
   (.nitrogen, [0.59889711801201, -0.16941557480731e1, 0.24579736191718, -0.23722456755175, 0.17954918715141e-1,
      0.14592875720215e-1, 0.10008065936206, 0.73157115385532, -0.88372272336366, 0.31887660246708,
      0.20766491728799, -0.19379315454158e-1, -0.16936641554983, 0.13546846041701, -0.33066712095307e-1,
      -0.60690817018557e-1, 0.12797548292871e-1, 0.58743664107299e-2, -0.18451951971969e-1,
      0.47226622042472e-2, -0.52024079680599e-2, 0.43563505956635e-1, -0.36251690750939e-1,
      -0.28974026866543e-2]),
   (.ethane, [0.63596780450714, -0.17377981785459e1, 0.28914060926272, -0.33714276845694, 0.22405964699561e-1,
      0.15715424886913e-1, 0.11450634253745, 0.10612049379745e1, -0.12855224439423e1, 0.39414630777652,
      0.31390924682041, -0.21592277117247e-1, -0.21723666564905, -0.28999574439489, 0.42321173025732,
      0.4643410025926e-1, -0.13138398329741, 0.11492850364368e-1, -0.33387688429909e-1, 0.15183171583644e-1,
      -0.47610805647657e-2, 0.46917166277885e-1, -0.39401755804649e-1, -0.32569956247611e-2])]

/-- `GERG2004::get_pure_coeffs`: `n_dict_main` (`GERG.hpp` lines 520-532). -/
def gergMain04 : List (GFluid × List ℚ) :=
  [(.propane, [0.10403973107358e1, -0.28318404081403e1, 0.84393809606294, -0.76559591850023e-1, 0.9469737305728e-1,
      0.24796475497006e-3, 0.2774376042287, -0.43846000648377e-1, -0.2699106478435, -0.6931341308986e-1,
      -0.29632145981653e-1, 0.1404012675138e-1]),
   (.nButane, [0.10626277411455e1, -0.2862095182835e1, 0.88738233403777, -0.12570581155345, 0.10286308708106,
      0.25358040602654e-3, 0.32325200233982, -0.37950761057432e-1, -0.32534802014452, -0.79050969051011e-1,
      -0.20636720547775e-1, 0.5705380933475e-2]),
   (.isobutane, [0.104293315891e1, -0.28184272548892e1, 0.8617623239785, -0.10613619452487, 0.98615749302134e-1,
      0.23948208682322e-3, 0.3033000485695, -0.41598156135099e-1, -0.29991937470058, -0.80369342764109e-1,
      -0.29761373251151e-1, 0.1305963030314e-1]),
   (.nPentane, [0.10968643098001e1, -0.29988888298061e1, 0.99516886799212, -0.16170708558539, 0.11334460072775,
      0.26760595150748e-3, 0.40979881986931, -0.40876423083075e-1, -0.38169482469447, -0.10931956843993,
      -0.3207322332799e-1, 0.16877016216975e-1]),
   (.isopentane, [0.11017531966644e1, -0.3008236853198e1, 0.99411904271336, -0.14008636562629, 0.11193995351286,
      0.2954804254123e-3, 0.36370108598133, -0.48236083488293e-1, -0.35100280270615, -0.10185043812047,
      -0.35242601785454e-1, 0.19756797599888e-1]),
   (.nHexane, [0.10553238013661e1, -0.26120615890629e1, 0.7661388296726, -0.29770320622459, 0.11879907733358,
      0.27922861062617e-3, 0.46347589844105, 0.11433196980297e-1, -0.48256968738131, -0.93750558924659e-1,
      -0.67273247155994e-2, -0.51141583585428e-2]),
   (.nHeptane, [0.10543747645262e1, -0.26500681506144e1, 0.81730047827543, -0.30451391253428, 0.122538687108,
      0.27266472743928e-3, 0.4986582568167, -0.71432815084176e-3, -0.5423689552545, -0.13801821610756,
      -0.61595287380011e-2, 0.48602510393022e-3]),
   (.nOctane, [0.10722544875633e1, -0.24632951172003e1, 0.65386674054928, -0.36324974085628, 0.12713269626764,
      0.3071357277793e-3, 0.5265685698754, 0.19362862857653e-1, -0.58939426849155, -0.14069963991934,
      -0.78966330500036e-2, 0.33036597968109e-2]),
   (.oxygen, [0.88878286369701, -0.24879433312148e1, 0.59750190775886, 0.96501817061881e-2, 0.7197042871277e-1,
      0.22337443000195e-3, 0.18558686391474, -0.3812936803576e-1, -0.15352245383006, -0.26726814910919e-1,
      -0.25675298677127e-1, 0.95714302123668e-2]),
   (.carbonMonoxide, [0.92310041400851, -0.248858452058e1, 0.58095213783396, 0.28859164394654e-1, 0.70256257276544e-1,
      0.21687043269488e-3, 0.13758331015182, -0.51501116343466e-1, -0.14865357483379, -0.3885710088681e-1,
      -0.29100433948943e-1, 0.14155684466279e-1]),
   (.argon, [0.85095714803969, -0.2400322294348e1, 0.54127841476466, 0.16919770692538e-1, 0.68825965019035e-1,
      0.21428032815338e-3, 0.17429895321992, -0.33654495604194e-1, -0.13526799857691, -0.16387350791552e-1,
      -0.24987666851475e-1, 0.88769204815709e-2])]

/-- `GERG2008::get_pure_coeffs`: `n_dict_main` (`GERG.hpp` lines 1096-1106). -/
def gergMain08 : List (GFluid × List ℚ) :=
  [(.carbonMonoxide, [0.90554, -0.24515e1, 0.53149, 0.24173e-1, 0.72156e-1, 0.18818e-3, 0.19405, -0.43268e-1, -0.12778,
      -0.27896e-1, -0.34154e-1, 0.16329e-1]),
   (.isopentane, [0.10963e1, -0.30402e1, 0.10317e1, -0.1541, 0.11535, 0.29809e-3, 0.39571, -0.45881e-1, -0.35804,
      -0.10107, -0.35484e-1, 0.18156e-1]),
   (.hydrogenSulfide, [0.87641, -0.20367e1, 0.21634, -0.50199e-1, 0.66994e-1, 0.19076e-3, 0.20227, -0.45348e-2, -0.2223,
      -0.34714e-1, -0.14885e-1, 0.74154e-2]),
   (.nDecane, [0.10461e1, -0.24807e1, 0.74372, -0.52579, 0.15315, 0.32865e-3, 0.84178, 0.55424e-1, -0.73555, -0.18507,
      -0.20775e-1, 0.12335e-1]),
   (.nNonane, [0.11151e1, -0.2702e1, 0.83416, -0.38828, 0.1376, 0.28185e-3, 0.62037, 0.15847e-1, -0.61726, -0.15043,
      -0.12982e-1, 0.44325e-2])]

/-- The exponents of the main group (`GERG.hpp` lines 537-540; the same in lines 1111-1114). -/
def gergMainShape (n : List ℚ) : GPure where
  n := n
  t := [0.25, 1.125, 1.5, 1.375, 0.25, 0.875, 0.625, 1.75, 3.625, 3.625, 14.5, 12]
  d := [1, 1, 1, 2, 3, 7, 2, 5, 1, 4, 3, 4]
  c := [0, 0, 0, 0, 0, 0, 1, 1, 1, 1, 1, 1]
  l := [0, 0, 0, 0, 0, 0, 1, 1, 2, 2, 3, 3]

/-- The exponents for methane, nitrogen and ethane (`GERG.hpp` lines 546-549). -/
def gergMneShape (n : List ℚ) : GPure where
  n := n
  t := [0.125, 1.125, 0.375, 1.125, 0.625, 1.5, 0.625, 2.625, 2.75, 2.125, 2, 1.75, 4.5, 4.75, 5, 4, 4.5, 7.5,
    14, 11.5, 26, 28, 30, 16]
  d := [1, 1, 2, 2, 4, 4, 1, 1, 1, 2, 3, 6, 2, 3, 3, 4, 4, 2, 3, 4, 5, 6, 6, 7]
  c := [0, 0, 0, 0, 0, 0, 1, 1, 1, 1, 1, 1, 1, 1, 1, 1, 1, 1, 1, 1, 1, 1, 1, 1]
  l := [0, 0, 0, 0, 0, 0, 1, 1, 1, 1, 1, 1, 2, 2, 2, 2, 2, 3, 3, 3, 6, 6, 6, 6]

/-- The coefficients of carbondioxide (`GERG.hpp` lines 554-558). -/
def gergPure_carbonDioxide : GPure where
  n := [0.52646564804653, -0.14995725042592e1, 0.27329786733782, 0.12949500022786, 0.15404088341841,
    -0.58186950946814, -0.18022494838296, -0.95389904072812e-1, -0.80486819317679e-2, -0.3554775127309e-1,
    -0.28079014882405, -0.82435890081677e-1, 0.10832427979006e-1, -0.67073993161097e-2, -0.46827907600524e-2,
    -0.28359911832177e-1, 0.19500174744098e-1, -0.21609137507166, 0.43772794926972, -0.22130790113593,
    0.15190189957331e-1, -0.153809489533e-1]
  t := [0, 1.25, 1.625, 0.375, 0.375, 1.375, 1.125, 1.375, 0.125, 1.625, 3.75, 3.5, 7.5, 8, 6, 16, 11, 24, 26,
    28, 24, 26]
  d := [1, 1, 2, 3, 3, 3, 4, 5, 6, 6, 1, 4, 1, 1, 3, 3, 4, 5, 5, 5, 5, 5]
  c := [0, 0, 0, 0, 1, 1, 1, 1, 1, 1, 1, 1, 1, 1, 1, 1, 1, 1, 1, 1, 1, 1]
  l := [0, 0, 0, 0, 1, 1, 1, 1, 1, 1, 2, 2, 3, 3, 3, 3, 3, 5, 5, 5, 6, 6]

/-- The coefficients of hydrogen (`GERG.hpp` lines 563-567). -/
def gergPure_hydrogen : GPure where
  n := [0.53579928451252e1, -0.62050252530595e1, 0.13830241327086, -0.71397954896129e-1, 0.15474053959733e-1,
    -0.14976806405771, -0.26368723988451e-1, 0.56681303156066e-1, -0.60063958030436e-1, -0.45043942027132,
    0.424788402445, -0.21997640827139e-1, -0.1049952137453e-1, -0.28955902866816e-2]
  t := [0.5, 0.625, 0.375, 0.625, 1.125, 2.625, 0, 0.25, 1.375, 4, 4.25, 5, 8, 8]
  d := [1, 1, 2, 2, 4, 1, 5, 5, 5, 1, 1, 2, 5, 1]
  c := [0, 0, 0, 0, 0, 1, 1, 1, 1, 1, 1, 1, 1, 1]
  l := [0, 0, 0, 0, 0, 1, 1, 1, 1, 2, 2, 3, 3, 5]

/-- The coefficients of water (`GERG.hpp` lines 572-576). -/
def gergPure_water : GPure where
  n := [0.82728408749586, -0.18602220416584e1, -0.11199009613744e1, 0.15635753976056, 0.87375844859025,
    -0.36674403715731, 0.53987893432436e-1, 0.10957690214499e1, 0.53213037828563e-1, 0.13050533930825e-1,
    -0.41079520434476, 0.1463744334412, -0.55726838623719e-1, -0.112017741438e-1, -0.66062758068099e-2,
    0.46918522004538e-2]
  t := [0.5, 1.25, 1.875, 0.125, 1.5, 1, 0.75, 1.5, 0.625, 2.625, 5, 4, 4.5, 3, 4, 6]
  d := [1, 1, 1, 2, 2, 3, 4, 1, 5, 5, 1, 2, 4, 4, 1, 1]
  c := [0, 0, 0, 0, 0, 0, 0, 1, 1, 1, 1, 1, 1, 1, 1, 1]
  l := [0, 0, 0, 0, 0, 0, 0, 1, 1, 1, 2, 2, 2, 3, 5, 5]

/-- The coefficients of helium (`GERG.hpp` lines 581-585). -/
def gergPure_helium : GPure where
  n := [-0.45579024006737, 0.12516390754925e1, -0.15438231650621e1, 0.20467489707221e-1, -0.34476212380781,
    -0.20858459512787e-1, 0.16227414711778e-1, -0.57471818200892e-1, 0.19462416430715e-1,
    -0.3329568012302e-1, -0.10863577372367e-1, -0.22173365245954e-1]
  t := [0, 0.125, 0.75, 1, 0.75, 2.625, 0.125, 1.25, 2, 1, 4.5, 5]
  d := [1, 1, 1, 4, 1, 3, 5, 5, 5, 2, 1, 2]
  c := [0, 0, 0, 0, 1, 1, 1, 1, 1, 1, 1, 1]
  l := [0, 0, 0, 0, 1, 1, 1, 1, 1, 2, 3, 3]

/-- `GERG2004::get_betasgammas`: the table (`GERG.hpp` lines 598-752). -/
def gergBetasTable04 : List ((GFluid × GFluid) × GBetas) :=
  [((.methane, .nitrogen), ⟨0.998721377, 1.013950311, 0.99809883, 0.979273013⟩),
   ((.methane, .carbonDioxide), ⟨0.999518072, 1.002806594, 1.02262449, 0.975665369⟩),
   ((.methane, .ethane), ⟨0.997547866, 1.006617867, 0.996336508, 1.049707697⟩),
   ((.methane, .propane), ⟨1.00482707, 1.038470657, 0.989680305, 1.098655531⟩),
   ((.methane, .nButane), ⟨0.979105972, 1.045375122, 0.99417491, 1.171607691⟩),
   ((.methane, .isobutane), ⟨1.011240388, 1.054319053, 0.980315756, 1.161117729⟩),
   ((.methane, .nPentane), ⟨0.94833012, 1.124508039, 0.992127525, 1.249173968⟩),
   ((.methane, .isopentane), ⟨1, 1.343685343, 1, 1.188899743⟩),
   ((.methane, .nHexane), ⟨0.958015294, 1.052643846, 0.981844797, 1.330570181⟩),
   ((.methane, .nHeptane), ⟨0.962050831, 1.156655935, 0.977431529, 1.379850328⟩),
   ((.methane, .nOctane), ⟨0.994740603, 1.116549372, 0.957473785, 1.449245409⟩),
   ((.methane, .hydrogen), ⟨1, 1.018702573, 1, 1.352643115⟩),
   ((.methane, .oxygen), ⟨1, 1, 1, 0.95⟩),
   ((.methane, .carbonMonoxide), ⟨0.997340772, 1.006102927, 0.987411732, 0.987473033⟩),
   ((.methane, .water), ⟨1.012783169, 1.585018334, 1.063333913, 0.775810513⟩),
   ((.methane, .helium), ⟨1, 0.881405683, 1, 3.159776855⟩),
   ((.methane, .argon), ⟨1.034630259, 1.014678542, 0.990954281, 0.989843388⟩),
   ((.nitrogen, .carbonDioxide), ⟨0.977794634, 1.047578256, 1.005894529, 1.107654104⟩),
   ((.nitrogen, .ethane), ⟨0.978880168, 1.042352891, 1.007671428, 1.098650964⟩),
   ((.nitrogen, .propane), ⟨0.974424681, 1.081025408, 1.002677329, 1.201264026⟩),
   ((.nitrogen, .nButane), ⟨0.99608261, 1.146949309, 0.994515234, 1.304886838⟩),
   ((.nitrogen, .isobutane), ⟨0.98641583, 1.100576129, 0.99286813, 1.284462634⟩),
   ((.nitrogen, .nPentane), ⟨1, 1.078877166, 1, 1.419029041⟩),
   ((.nitrogen, .isopentane), ⟨1, 1.154135439, 1, 1.38177077⟩),
   ((.nitrogen, .nHexane), ⟨1, 1.195952177, 1, 1.472607971⟩),
   ((.nitrogen, .nHeptane), ⟨1, 1.40455409, 1, 1.520975334⟩),
   ((.nitrogen, .nOctane), ⟨1, 1.186067025, 1, 1.733280051⟩),
   ((.nitrogen, .hydrogen), ⟨0.972532065, 0.970115357, 0.946134337, 1.175696583⟩),
   ((.nitrogen, .oxygen), ⟨0.99952177, 0.997082328, 0.997190589, 0.995157044⟩),
   ((.nitrogen, .carbonMonoxide), ⟨1, 1.008690943, 1, 0.993425388⟩),
   ((.nitrogen, .water), ⟨1, 1.094749685, 1, 0.968808467⟩),
   ((.nitrogen, .helium), ⟨0.969501055, 0.932629867, 0.692868765, 1.47183158⟩),
   ((.nitrogen, .argon), ⟨1.004166412, 1.002212182, 0.999069843, 0.990034831⟩),
   ((.carbonDioxide, .ethane), ⟨1.002525718, 1.032876701, 1.013871147, 0.90094953⟩),
   ((.carbonDioxide, .propane), ⟨0.996898004, 1.047596298, 1.033620538, 0.908772477⟩),
   ((.carbonDioxide, .nButane), ⟨1.174760923, 1.222437324, 1.018171004, 0.911498231⟩),
   ((.carbonDioxide, .isobutane), ⟨1.076551882, 1.081909003, 1.023339824, 0.929982936⟩),
   ((.carbonDioxide, .nPentane), ⟨1.024311498, 1.068406078, 1.027000795, 0.979217302⟩),
   ((.carbonDioxide, .isopentane), ⟨1.060793104, 1.116793198, 1.019180957, 0.961218039⟩),
   ((.carbonDioxide, .nHexane), ⟨1, 0.851343711, 1, 1.038675574⟩),
   ((.carbonDioxide, .nHeptane), ⟨1.205469976, 1.164585914, 1.011806317, 1.046169823⟩),
   ((.carbonDioxide, .nOctane), ⟨1.026169373, 1.104043935, 1.02969078, 1.074455386⟩),
   ((.carbonDioxide, .hydrogen), ⟨0.904142159, 1.15279255, 0.942320195, 1.782924792⟩),
   ((.carbonDioxide, .oxygen), ⟨1, 1, 1, 1⟩),
   ((.carbonDioxide, .carbonMonoxide), ⟨1, 1, 1, 1⟩),
   ((.carbonDioxide, .water), ⟨0.949055959, 1.542328793, 0.997372205, 0.775453996⟩),
   ((.carbonDioxide, .helium), ⟨0.846647561, 0.864141549, 0.76837763, 3.207456948⟩),
   ((.carbonDioxide, .argon), ⟨1.008392428, 1.029205465, 0.996512863, 1.050971635⟩),
   ((.ethane, .propane), ⟨0.997607277, 1.00303472, 0.996199694, 1.01473019⟩),
   ((.ethane, .nButane), ⟨0.999157205, 1.006179146, 0.999130554, 1.034832749⟩),
   ((.ethane, .isobutane), ⟨1, 1.006616886, 1, 1.033283811⟩),
   ((.ethane, .nPentane), ⟨0.993851009, 1.026085655, 0.998688946, 1.066665676⟩),
   ((.ethane, .isopentane), ⟨1, 1.045439246, 1, 1.021150247⟩),
   ((.ethane, .nHexane), ⟨1, 1.169701102, 1, 1.092177796⟩),
   ((.ethane, .nHeptane), ⟨1, 1.057666085, 1, 1.134532014⟩),
   ((.ethane, .nOctane), ⟨1.007469726, 1.071917985, 0.984068272, 1.168636194⟩),
   ((.ethane, .hydrogen), ⟨0.925367171, 1.10607204, 0.932969831, 1.902008495⟩),
   ((.ethane, .oxygen), ⟨1, 1, 1, 1⟩),
   ((.ethane, .carbonMonoxide), ⟨1, 1.201417898, 1, 1.069224728⟩),
   ((.ethane, .water), ⟨1, 1, 1, 1⟩),
   ((.ethane, .helium), ⟨1, 1, 1, 1⟩),
   ((.ethane, .argon), ⟨1, 1, 1, 1⟩),
   ((.propane, .nButane), ⟨0.999795868, 1.003264179, 1.000310289, 1.007392782⟩),
   ((.propane, .isobutane), ⟨0.999243146, 1.001156119, 0.998012298, 1.005250774⟩),
   ((.propane, .nPentane), ⟨1.044919431, 1.019921513, 0.996484021, 1.008344412⟩),
   ((.propane, .isopentane), ⟨1.040459289, 0.999432118, 0.994364425, 1.0032695⟩),
   ((.propane, .nHexane), ⟨1, 1.057872566, 1, 1.025657518⟩),
   ((.propane, .nHeptane), ⟨1, 1.079648053, 1, 1.050044169⟩),
   ((.propane, .nOctane), ⟨1, 1.102764612, 1, 1.063694129⟩),
   ((.propane, .hydrogen), ⟨1, 1.07400611, 1, 2.308215191⟩),
   ((.propane, .oxygen), ⟨1, 1, 1, 1⟩),
   ((.propane, .carbonMonoxide), ⟨1, 1.108143673, 1, 1.197564208⟩),
   ((.propane, .water), ⟨1, 1.011759763, 1, 0.600340961⟩),
   ((.propane, .helium), ⟨1, 1, 1, 1⟩),
   ((.propane, .argon), ⟨1, 1, 1, 1⟩),
   ((.nButane, .isobutane), ⟨1.000880464, 1.00041444, 1.000077547, 1.001432824⟩),
   ((.nButane, .nPentane), ⟨1, 1.01815965, 1, 1.00214364⟩),
   ((.nButane, .isopentane), ⟨1, 1.002728262, 1, 1.000792201⟩),
   ((.nButane, .nHexane), ⟨1, 1.034995284, 1, 1.00915706⟩),
   ((.nButane, .nHeptane), ⟨1, 1.019174227, 1, 1.021283378⟩),
   ((.nButane, .nOctane), ⟨1, 1.046905515, 1, 1.033180106⟩),
   ((.nButane, .hydrogen), ⟨1, 1.232939523, 1, 2.509259945⟩),
   ((.nButane, .oxygen), ⟨1, 1, 1, 1⟩),
   ((.nButane, .carbonMonoxide), ⟨1, 1.084740904, 1, 1.174055065⟩),
   ((.nButane, .water), ⟨1, 1.223638763, 1, 0.615512682⟩),
   ((.nButane, .helium), ⟨1, 1, 1, 1⟩),
   ((.nButane, .argon), ⟨1, 1.214638734, 1, 1.245039498⟩),
   ((.isobutane, .nPentane), ⟨1, 1.002779804, 1, 1.002495889⟩),
   ((.isobutane, .isopentane), ⟨1, 1.002284197, 1, 1.001835788⟩),
   ((.isobutane, .nHexane), ⟨1, 1.010493989, 1, 1.006018054⟩),
   ((.isobutane, .nHeptane), ⟨1, 1.021668316, 1, 1.00988576⟩),
   ((.isobutane, .nOctane), ⟨1, 1.032807063, 1, 1.013945424⟩),
   ((.isobutane, .hydrogen), ⟨1, 1.147595688, 1, 1.895305393⟩),
   ((.isobutane, .oxygen), ⟨1, 1, 1, 1⟩),
   ((.isobutane, .carbonMonoxide), ⟨1, 1.087272232, 1, 1.161523504⟩),
   ((.isobutane, .water), ⟨1, 1, 1, 1⟩),
   ((.isobutane, .helium), ⟨1, 1, 1, 1⟩),
   ((.isobutane, .argon), ⟨1, 1, 1, 1⟩),
   ((.nPentane, .isopentane), ⟨1, 1.000024352, 1, 1.000050537⟩),
   ((.nPentane, .nHexane), ⟨1, 1.002480637, 1, 1.000761237⟩),
   ((.nPentane, .nHeptane), ⟨1, 1.008972412, 1, 1.002441051⟩),
   ((.nPentane, .nOctane), ⟨1, 1.069223964, 1, 1.016422347⟩),
   ((.nPentane, .hydrogen), ⟨1, 1.188334783, 1, 2.013859174⟩),
   ((.nPentane, .oxygen), ⟨1, 1, 1, 1⟩),
   ((.nPentane, .carbonMonoxide), ⟨1, 1.119954454, 1, 1.206195595⟩),
   ((.nPentane, .water), ⟨1, 0.95667731, 1, 0.447666011⟩),
   ((.nPentane, .helium), ⟨1, 1, 1, 1⟩),
   ((.nPentane, .argon), ⟨1, 1, 1, 1⟩),
   ((.isopentane, .nHexane), ⟨1, 1.002996055, 1, 1.001204174⟩),
   ((.isopentane, .nHeptane), ⟨1, 1.009928531, 1, 1.003194615⟩),
   ((.isopentane, .nOctane), ⟨1, 1.017880981, 1, 1.00564748⟩),
   ((.isopentane, .hydrogen), ⟨1, 1.184339122, 1, 1.996386669⟩),
   ((.isopentane, .oxygen), ⟨1, 1, 1, 1⟩),
   ((.isopentane, .carbonMonoxide), ⟨1, 1.116693501, 1, 1.199475627⟩),
   ((.isopentane, .water), ⟨1, 1, 1, 1⟩),
   ((.isopentane, .helium), ⟨1, 1, 1, 1⟩),
   ((.isopentane, .argon), ⟨1, 1, 1, 1⟩),
   ((.nHexane, .nHeptane), ⟨1, 1.001508227, 1, 0.999762786⟩),
   ((.nHexane, .nOctane), ⟨1, 1.006268954, 1, 1.001633952⟩),
   ((.nHexane, .hydrogen), ⟨1, 1.243461678, 1, 3.021197546⟩),
   ((.nHexane, .oxygen), ⟨1, 1, 1, 1⟩),
   ((.nHexane, .carbonMonoxide), ⟨1, 1.155145836, 1, 1.233435828⟩),
   ((.nHexane, .water), ⟨1, 1.170217596, 1, 0.569681333⟩),
   ((.nHexane, .helium), ⟨1, 1, 1, 1⟩),
   ((.nHexane, .argon), ⟨1, 1, 1, 1⟩),
   ((.nHeptane, .nOctane), ⟨1, 1.006767176, 1, 0.998793111⟩),
   ((.nHeptane, .hydrogen), ⟨1, 1.159131722, 1, 3.169143057⟩),
   ((.nHeptane, .oxygen), ⟨1, 1, 1, 1⟩),
   ((.nHeptane, .carbonMonoxide), ⟨1, 1.190354273, 1, 1.256295219⟩),
   ((.nHeptane, .water), ⟨1, 1, 1, 1⟩),
   ((.nHeptane, .helium), ⟨1, 1, 1, 1⟩),
   ((.nHeptane, .argon), ⟨1, 1, 1, 1⟩),
   ((.nOctane, .hydrogen), ⟨1, 1.305249405, 1, 2.191555216⟩),
   ((.nOctane, .oxygen), ⟨1, 1, 1, 1⟩),
   ((.nOctane, .carbonMonoxide), ⟨1, 1.219206702, 1, 1.276744779⟩),
   ((.nOctane, .water), ⟨1, 0.599484191, 1, 0.662072469⟩),
   ((.nOctane, .helium), ⟨1, 1, 1, 1⟩),
   ((.nOctane, .argon), ⟨1, 1, 1, 1⟩),
   ((.hydrogen, .oxygen), ⟨1, 1, 1, 1⟩),
   ((.hydrogen, .carbonMonoxide), ⟨1, 1.121416201, 1, 1.377504607⟩),
   ((.hydrogen, .water), ⟨1, 1, 1, 1⟩),
   ((.hydrogen, .helium), ⟨1, 1, 1, 1⟩),
   ((.hydrogen, .argon), ⟨1, 1, 1, 1⟩),
   ((.oxygen, .carbonMonoxide), ⟨1, 1, 1, 1⟩),
   ((.oxygen, .water), ⟨1, 1.143174289, 1, 0.964767932⟩),
   ((.oxygen, .helium), ⟨1, 1, 1, 1⟩),
   ((.oxygen, .argon), ⟨0.999746847, 0.993907223, 1.000023103, 0.990430423⟩),
   ((.carbonMonoxide, .water), ⟨1, 1, 1, 1⟩),
   ((.carbonMonoxide, .helium), ⟨1, 1, 1, 1⟩),
   ((.carbonMonoxide, .argon), ⟨1, 1.159720623, 1, 0.954215746⟩),
   ((.water, .helium), ⟨1, 1, 1, 1⟩),
   ((.water, .argon), ⟨1, 1.038993495, 1, 1.070941866⟩),
   ((.helium, .argon), ⟨1, 1, 1, 1⟩)]

/-- `GERG2008::get_betasgammas`: the table (`GERG.hpp` lines 997-1077). -/
def gergBetasTable08 : List ((GFluid × GFluid) × GBetas) :=
  [((.ethane, .isopentane), ⟨1, 1.045439935, 1, 1.021150247⟩),
   ((.nButane, .carbonMonoxide), ⟨1, 1.084740904, 1, 1.173916162⟩),
   ((.nButane, .isopentane), ⟨1, 1.002728434, 1, 1.000792201⟩),
   ((.isobutane, .carbonMonoxide), ⟨1, 1.087272232, 1, 1.161390082⟩),
   ((.isobutane, .isopentane), ⟨1, 1.002284353, 1, 1.001835788⟩),
   ((.nPentane, .carbonMonoxide), ⟨1, 1.119954454, 1, 1.206043295⟩),
   ((.isopentane, .carbonMonoxide), ⟨1, 1.116694577, 1, 1.199326059⟩),
   ((.nHexane, .carbonMonoxide), ⟨1, 1.155145836, 1, 1.233272781⟩),
   ((.nHeptane, .carbonMonoxide), ⟨1, 1.190354273, 1, 1.256123503⟩),
   ((.nOctane, .carbonMonoxide), ⟨1, 1.219206702, 1, 1.276565536⟩),
   ((.nPentane, .isopentane), ⟨1, 1.000024335, 1, 1.000050537⟩),
   ((.isopentane, .nHexane), ⟨1, 1.002995876, 1, 1.001204174⟩),
   ((.isopentane, .nHeptane), ⟨1, 1.009928206, 1, 1.003194615⟩),
   ((.isopentane, .nOctane), ⟨1, 1.017880545, 1, 1.00564748⟩),
   ((.isopentane, .hydrogen), ⟨1, 1.184340443, 1, 1.996386669⟩),
   ((.methane, .nNonane), ⟨1.002852287, 1.141895355, 0.947716769, 1.528532478⟩),
   ((.methane, .nDecane), ⟨1.033086292, 1.146089637, 0.937777823, 1.568231489⟩),
   ((.methane, .hydrogenSulfide), ⟨1.012599087, 1.040161207, 1.011090031, 0.961155729⟩),
   ((.nitrogen, .nNonane), ⟨1, 1.100405929, 0.95637945, 1.749119996⟩),
   ((.nitrogen, .nDecane), ⟨1, 1, 0.957934447, 1.822157123⟩),
   ((.nitrogen, .hydrogenSulfide), ⟨0.910394249, 1.256844157, 1.004692366, 0.9601742⟩),
   ((.carbonDioxide, .nNonane), ⟨1, 0.973386152, 1.00768862, 1.140671202⟩),
   ((.carbonDioxide, .nDecane), ⟨1.000151132, 1.183394668, 1.02002879, 1.145512213⟩),
   ((.carbonDioxide, .hydrogenSulfide), ⟨0.906630564, 1.024085837, 1.016034583, 0.92601888⟩),
   ((.ethane, .nNonane), ⟨1, 1.14353473, 1, 1.05603303⟩),
   ((.ethane, .nDecane), ⟨0.995676258, 1.098361281, 0.970918061, 1.237191558⟩),
   ((.ethane, .hydrogenSulfide), ⟨1.010817909, 1.030988277, 0.990197354, 0.90273666⟩),
   ((.propane, .nNonane), ⟨1, 1.199769134, 1, 1.109973833⟩),
   ((.propane, .nDecane), ⟨0.984104227, 1.053040574, 0.985331233, 1.140905252⟩),
   ((.propane, .hydrogenSulfide), ⟨0.936811219, 1.010593999, 0.992573556, 0.905829247⟩),
   ((.nButane, .nNonane), ⟨1, 1.049219137, 1, 1.014096448⟩),
   ((.nButane, .nDecane), ⟨0.976951968, 1.027845529, 0.993688386, 1.076466918⟩),
   ((.nButane, .hydrogenSulfide), ⟨0.908113163, 1.033366041, 0.985962886, 0.926156602⟩),
   ((.isobutane, .nNonane), ⟨1, 1.047298475, 1, 1.017817492⟩),
   ((.isobutane, .nDecane), ⟨1, 1.060243344, 1, 1.021624748⟩),
   ((.isobutane, .hydrogenSulfide), ⟨1.012994431, 0.988591117, 0.974550548, 0.937130844⟩),
   ((.nPentane, .nNonane), ⟨1, 1.034910633, 1, 1.103421755⟩),
   ((.nPentane, .nDecane), ⟨1, 1.016370338, 1, 1.049035838⟩),
   ((.nPentane, .hydrogenSulfide), ⟨0.984613203, 1.076539234, 0.962006651, 0.959065662⟩),
   ((.isopentane, .nNonane), ⟨1, 1.028994325, 1, 1.008191499⟩),
   ((.isopentane, .nDecane), ⟨1, 1.039372957, 1, 1.010825138⟩),
   ((.isopentane, .hydrogenSulfide), ⟨1, 0.835763343, 1, 0.982651529⟩),
   ((.nHexane, .nNonane), ⟨1, 1.02076168, 1, 1.055369591⟩),
   ((.nHexane, .nDecane), ⟨1.001516371, 1.013511439, 0.99764101, 1.028939539⟩),
   ((.nHexane, .hydrogenSulfide), ⟨0.754473958, 1.339283552, 0.985891113, 0.956075596⟩),
   ((.nHeptane, .nNonane), ⟨1, 1.001370076, 1, 1.001150096⟩),
   ((.nHeptane, .nDecane), ⟨1, 1.002972346, 1, 1.002229938⟩),
   ((.nHeptane, .hydrogenSulfide), ⟨0.828967164, 1.087956749, 0.988937417, 1.013453092⟩),
   ((.nOctane, .nNonane), ⟨1, 1.001357085, 1, 1.000235044⟩),
   ((.nOctane, .nDecane), ⟨1, 1.002553544, 1, 1.007186267⟩),
   ((.nOctane, .hydrogenSulfide), ⟨1, 1, 1, 1⟩),
   ((.nNonane, .nDecane), ⟨1, 1.00081052, 1, 1.000182392⟩),
   ((.nNonane, .hydrogen), ⟨1, 1.342647661, 1, 2.23435404⟩),
   ((.nNonane, .oxygen), ⟨1, 1, 1, 1⟩),
   ((.nNonane, .carbonMonoxide), ⟨1, 1.252151449, 1, 1.294070556⟩),
   ((.nNonane, .water), ⟨1, 1, 1, 1⟩),
   ((.nNonane, .hydrogenSulfide), ⟨1, 1.082905109, 1, 1.086557826⟩),
   ((.nNonane, .helium), ⟨1, 1, 1, 1⟩),
   ((.nNonane, .argon), ⟨1, 1, 1, 1⟩),
   ((.nDecane, .hydrogen), ⟨1.695358382, 1.120233729, 1.064818089, 3.786003724⟩),
   ((.nDecane, .oxygen), ⟨1, 1, 1, 1⟩),
   ((.nDecane, .carbonMonoxide), ⟨1, 0.87018496, 1.049594632, 1.803567587⟩),
   ((.nDecane, .water), ⟨1, 0.551405318, 0.897162268, 0.740416402⟩),
   ((.nDecane, .hydrogenSulfide), ⟨0.975187766, 1.171714677, 0.973091413, 1.103693489⟩),
   ((.nDecane, .helium), ⟨1, 1, 1, 1⟩),
   ((.nDecane, .argon), ⟨1, 1, 1, 1⟩),
   ((.hydrogen, .hydrogenSulfide), ⟨1, 1, 1, 1⟩),
   ((.oxygen, .hydrogenSulfide), ⟨1, 1, 1, 1⟩),
   ((.carbonMonoxide, .hydrogenSulfide), ⟨0.795660392, 1.101731308, 1.025536736, 1.022749748⟩),
   ((.water, .hydrogenSulfide), ⟨1, 1.014832832, 1, 0.940587083⟩),
   ((.hydrogenSulfide, .helium), ⟨1, 1, 1, 1⟩),
   ((.hydrogenSulfide, .argon), ⟨1, 1, 1, 1⟩)]

/-- `get_Fij`: the table (`GERG.hpp` lines 771-787). -/
def gergFTable : List ((GFluid × GFluid) × ℚ) :=
  [((.methane, .nitrogen), 1),
   ((.methane, .carbonDioxide), 1),
   ((.methane, .ethane), 1),
   ((.methane, .propane), 1),
   ((.methane, .nButane), 1),
   ((.methane, .isobutane), 0.771035405688),
   ((.methane, .hydrogen), 1),
   ((.nitrogen, .carbonDioxide), 1),
   ((.nitrogen, .ethane), 1),
   ((.ethane, .propane), 0.13042476515),
   ((.ethane, .nButane), 0.281570073085),
   ((.ethane, .isobutane), 0.260632376098),
   ((.propane, .nButane), 0.312572600489e-1),
   ((.propane, .isobutane), -0.551609771024e-1),
   ((.nButane, .isobutane), -0.551240293009e-1)]

/-- The pairs of the generalised departure function (`GERG.hpp` lines 811-815). -/
def gergGeneralized : List (GFluid × GFluid) :=
  [(.methane, .nButane), (.methane, .isobutane), (.ethane, .propane), (.ethane, .nButane),
    (.ethane, .isobutane), (.propane, .nButane), (.propane, .isobutane), (.nButane, .isobutane)]

/-- `get_departurecoeffs`: the binary specific functions (`GERG.hpp` lines 818-887). -/
def gergDepTable : List ((GFluid × GFluid) × GDep) :=
  [((.methane, .nitrogen),
    { n := [-0.98038985517335e-2, 0.42487270143005e-3, -0.34800214576142e-1, -0.13333813013896,
        -0.11993694974627e-1, 0.69243379775168e-1, -0.31022508148249, 0.24495491753226, 0.22369816716981],
      t := [0, 1.85, 7.85, 5.4, 0, 0.75, 2.8, 4.45, 4.25],
      d := [1, 4, 1, 2, 2, 2, 2, 2, 3],
      eta := [0, 0, 1, 1, 0.25, 0, 0, 0, 0],
      beta := [0, 0, 1, 1, 2.5, 3, 3, 3, 3],
      gamma := [0, 0, 0.5, 0.5, 0.5, 0.5, 0.5, 0.5, 0.5],
      epsilon := [0, 0, 0.5, 0.5, 0.5, 0.5, 0.5, 0.5, 0.5] }),
   ((.methane, .carbonDioxide),
    { n := [-0.10859387354942, 0.80228576727389e-1, -0.93303985115717e-2, 0.40989274005848e-1, -0.24338019772494,
        0.23855347281124],
      t := [2.6, 1.95, 0, 3.95, 7.95, 8],
      d := [1, 2, 3, 1, 2, 3],
      eta := [0, 0, 0, 1, 0.5, 0],
      beta := [0, 0, 0, 1, 2, 3],
      gamma := [0, 0, 0, 0.5, 0.5, 0.5],
      epsilon := [0, 0, 0, 0.5, 0.5, 0.5] }),
   ((.ethane, .methane),
    { n := [-0.80926050298746e-3, -0.75381925080059e-3, -0.41618768891219e-1, -0.23452173681569,
        0.14003840584586, 0.63281744807738e-1, -0.34660425848809e-1, -0.23918747334251, 0.19855255066891e-2,
        0.61777746171555e1, -0.69575358271105e1, 0.10630185306388e1],
      t := [0.65, 1.55, 3.1, 5.9, 7.05, 3.35, 1.2, 5.8, 2.7, 0.45, 0.55, 1.95],
      d := [3, 4, 1, 2, 2, 2, 2, 2, 2, 3, 3, 3],
      eta := [0, 0, 1, 1, 1, 0.875, 0.75, 0.5, 0, 0, 0, 0],
      beta := [0, 0, 1, 1, 1, 1.25, 1.5, 2, 3, 3, 3, 3],
      gamma := [0, 0, 0.5, 0.5, 0.5, 0.5, 0.5, 0.5, 0.5, 0.5, 0.5, 0.5],
      epsilon := [0, 0, 0.5, 0.5, 0.5, 0.5, 0.5, 0.5, 0.5, 0.5, 0.5, 0.5] }),
   ((.propane, .methane),
    { n := [0.13746429958576e-1, -0.74425012129552e-2, -0.45516600213685e-2, -0.54546603350237e-2,
        0.23682016824471e-2, 0.18007763721438, -0.44773942932486, 0.193273748882e-1, -0.30632197804624],
      t := [1.85, 3.95, 0, 1.85, 3.85, 5.25, 3.85, 0.2, 6.5],
      d := [3, 3, 4, 4, 4, 1, 1, 1, 2],
      eta := [0, 0, 0, 0, 0, 0.25, 0.25, 0, 0],
      beta := [0, 0, 0, 0, 0, 0.75, 1, 2, 3],
      gamma := [0, 0, 0, 0, 0, 0.5, 0.5, 0.5, 0.5],
      epsilon := [0, 0, 0, 0, 0, 0.5, 0.5, 0.5, 0.5] }),
   ((.nitrogen, .carbonDioxide),
    { n := [0.28661625028399, -0.10919833861247, -0.1137403208227e1, 0.76580544237358, 0.42638000926819e-2,
        0.17673538204534],
      t := [1.85, 1.4, 3.2, 2.5, 8, 3.75],
      d := [2, 3, 1, 1, 1, 2],
      eta := [0, 0, 0.25, 0.25, 0, 0],
      beta := [0, 0, 0.75, 1, 2, 3],
      gamma := [0, 0, 0.5, 0.5, 0.5, 0.5],
      epsilon := [0, 0, 0.5, 0.5, 0.5, 0.5] }),
   ((.nitrogen, .ethane),
    { n := [-0.47376518126608, 0.48961193461001, -0.57011062090535e-2, -0.1996682004132, -0.69411103101723,
        0.69226192739021],
      t := [0, 0.05, 0, 3.65, 4.9, 4.45],
      d := [2, 2, 3, 1, 2, 2],
      eta := [0, 0, 0, 1, 1, 0.875],
      beta := [0, 0, 0, 1, 1, 1.25],
      gamma := [0, 0, 0, 0.5, 0.5, 0.5],
      epsilon := [0, 0, 0, 0.5, 0.5, 0.5] }),
   ((.methane, .hydrogen),
    { n := [-0.25157134971934, -0.62203841111983e-2, 0.88850315184396e-1, -0.35592212573239e-1],
      t := [2, -1, 1.75, 1.4],
      d := [1, 3, 3, 4],
      eta := [0, 0, 0, 0],
      beta := [0, 0, 0, 0],
      gamma := [0, 0, 0, 0],
      epsilon := [0, 0, 0, 0] })]

/-- The generalised departure function (`GERG.hpp` lines 888-897). -/
def gergDepGeneral : GDep :=
    { n := [0.25574776844118e1, -0.79846357136353e1, 0.47859131465806e1, -0.73265392369587, 0.13805471345312e1,
        0.28349603476365, -0.49087385940425, -0.10291888921447, 0.11836314681968, 0.55527385721943e-4],
      t := [1, 1.55, 1.7, 0.25, 1.35, 0, 1.25, 0, 0.7, 5.4],
      d := [1, 1, 1, 2, 2, 3, 3, 4, 4, 4],
      eta := [0, 0, 0, 0, 0, 0, 0, 0, 0, 0],
      beta := [0, 0, 0, 0, 0, 0, 0, 0, 0, 0],
      gamma := [0, 0, 0, 0, 0, 0, 0, 0, 0, 0],
      epsilon := [0, 0, 0, 0, 0, 0, 0, 0, 0, 0] }

end Teqp.Model
