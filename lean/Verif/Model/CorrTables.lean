import Mathlib.Data.Rat.Defs

/-! # The coefficients of the correlation integrals

`/repo/include/teqp/models/saft/correlation_integrals.hpp`; the numbers are those of the source, row by row in the order of the
source (including rows whose key occurs twice). -/

set_option autoImplicit false

namespace Teqp.Model

/-- `Luckas_J_coeffs`, lines 19-32. -/
def luckasJTable : List (ℤ × List ℚ) := [
  (4, [-1.38410152, -7.05792933e-1, 2.60947023, 1.96828333e1, 1.1361951e1, -2.9851049e1, -3.15686398e1, -2.0094329e1, 5.1102932e1,
    1.4419415e1, 9.40061069, -2.36844608e1]),
  (5, [-6.89702637e-1, -1.62382602e-1, 1.16302441, 1.42067443e1, 4.59642681, -1.81421003e1, -2.45012804e1, -8.42839734, 3.25579587e1,
    1.16339969e1, 4.00080085, -1.54419815e1]),
  (6, [-4.57433648e-1, -4.74592642e-2, 7.36156406e-1, 1.1983056e1, 2.52201906, -1.40252699e1, -2.15154325e1, -4.69572629, 2.59035512e1,
    1.04390419e1, 2.24160266, -1.24580635e1]),
  (7, [-3.46551277e-1, -8.67899015e-3, 5.41729996e-1, 1.07102246e1, 1.58762511, -1.19085356e1, -1.98486869e1, -2.98067526,
    2.25425086e1, 9.79650295, 1.42953263, -1.09749041e1]),
  (8, [-2.85932401e-1, 7.44866141e-3, 4.35471488e-1, 9.87890138, 1.08489226, -1.06280961e1, -1.88507949e1, -2.04803671, 2.06131402e1,
    9.44834359, 9.8855176e-1, -1.01576036e1]),
  (9, [-2.509315e-1, 1.49604396e-2, 3.71768229e-1, 9.29877256, 7.84100755e-1, -9.78235175, -1.82609129e1, -1.48667167, 1.94537822e1,
    9.28527644, 7.24545266e-1, -9.70374243]),
  (10, [-2.30585563e-1, 1.86890174e-2, 3.3166088e-1, 8.88275358, 5.90996555e-1, -9.19786291, -1.79530632e1, -1.12502567, 1.87717642e1,
    9.25235661, 5.5590935e-1, -9.47729033]),
  (11, [-2.19221482e-1, 2.05982865e-2, 3.05823216e-1, 8.58399185, 4.60555635e-1, -8.78667564, -1.78552884e1, -8.80186074e-1,
    1.8414665e1, 9.31691675, 4.43027169e-1, -9.40608814]),
  (12, [-2.13591301e-1, 2.15809377e-2, 2.89113218e-1, 8.37291362, 3.68864477e-1, -8.49747359, -1.79188678e1, -7.07751483e-1,
    1.82906357e1, 9.45598216, 3.64636215e-1, -9.44579903]),
  (13, [-2.11696363e-1, 2.20767096e-2, 2.78453228e-1, 8.23384704, 3.02478832e-1, -8.30238277, -1.81183432e1, -5.82685843e-1,
    1.83497132e1, 9.65764061, 3.08765033e-1, -9.57226243]),
  (14, [-2.12238116e-1, 2.23157164e-2, 2.71883622e-1, 8.15208365, 2.53073339e-1, -8.17919021, -1.84273649e1, -4.89407317e-1,
    1.8550274e1, 9.90906951, 2.6796596e-1, -9.764952]),
  (15, [-2.14335965e-1, 2.24240261e-2, 2.68094773e-1, 8.11899188, 2.15506735e-1, -8.11465705, -1.88310645e1, -4.18309476e-1,
    1.88679367e1, 1.02033085e1, 2.37674032e-1, -1.00120648e1])]

/-- `Luckas_K_coeffs`, lines 60-65. -/
def luckasKTable : List ((ℤ × ℤ) × List ℚ) := [
  ((222, 333), [1.23746712e-2, 1.90127007e-4, 5.9286148e-3, 1.88387469e-4, 1.5149909e-1, -4.03661304e-3, -1.71653218e-1, 7.44958473e-2,
    4.61939219e-1, 7.6152754e-3, -1.30641988, 7.63483402e-1, 7.36061418e-3, -3.14115085e-3, -2.62332295e-1, 2.9906115e-1]),
  ((233, 344), [3.51281055e-3, 2.12654833e-4, 3.26699985e-3, 1.71420492e-4, 9.78591707e-2, -3.24426472e-3, -9.85906322e-2, 4.31053752e-2,
    2.6851549e-1, 6.25909413e-3, -7.46179517e-1, 4.10644114e-1, 1.28223189e-1, -2.54348393e-3, -5.402151e-1, 4.50896967e-1]),
  ((334, 445), [-1.77119569e-3, -2.6043707e-4, -2.65044611e-3, -1.96937245e-4, -8.97801454e-2, 2.93120169e-3, 8.77755068e-2, -3.76799716e-2,
    -2.19892289e-1, -5.73110168e-3, 6.37326406e-1, -3.52780095e-1, -1.5722899e-1, 2.04489194e-3, 5.59739399e-1, -4.42956307e-1]),
  ((444, 555), [1.07862851e-3, 2.8864726e-4, 2.07369614e-3, 1.79600129e-4, 7.57084957e-2, -2.28761197e-3, -7.33670248e-2, 3.12736172e-2,
    1.73518964e-1, 4.54174801e-3, -5.14488122e-1, 2.85483011e-1, 1.71670939e-1, -1.07503182e-3, -5.51880129e-1, 4.16887229e-1])]

/-- `GubbinsTwu_J_coeffs`, lines 95-129. -/
def gtJTable : List (ℤ × List ℚ) := [
  (4, [-0.257431, 0.439229, 0.414783, -0.457019, -0.14552, 0.299666]),
  (5, [-0.396724, 0.690721, 0.628935, -0.652622, -0.201462, -0.231635]),
  (6, [-0.488498, 0.863195, 0.761344, -0.750086, -0.218562, -0.538463]),
  (7, [-0.5566, 0.995172, 0.852903, -0.80471, -0.214736, -0.7617]),
  (8, [-0.611295, 1.10339, 0.921359, -0.838804, -0.197999, -0.940714]),
  (9, [-0.657866, 1.196189, 0.975721, -0.862346, -0.172526, -1.091678]),
  (10, [-0.69879, 1.278054, 1.020604, -0.880027, -0.140749, -1.222733]),
  (11, [-0.735855, 1.351533, 1.058986, -0.894024, -0.104174, -1.338626]),
  (12, [-0.769504, 1.418223, 1.092052, -0.905347, -0.06373, -1.442398]),
  (13, [-0.800934, 1.479538, 1.121453, -0.914864, -0.02015, -1.53607]),
  (14, [-0.829779, 1.535822, 1.147161, -0.922381, 0.026157, -1.621183]),
  (15, [-0.856655, 1.587957, 1.169885, -0.928269, 0.074849, -1.698853]),
  (16, [-0.881757, 1.636402, 1.190082, -0.932668, 0.12559, -1.769898]),
  (17, [-0.994998, 1.681421, 1.20761, -0.935419, 0.178283, -1.83507]),
  (18, [-0.926828, 1.723393, 1.223088, -0.936667, 0.232649, -1.894899]),
  (19, [-0.946773, 1.762571, 1.236007, -0.936403, 0.288687, -1.949858]),
  (20, [-0.965248, 1.79917, 1.246887, -0.93465, 0.346207, -2.000344]),
  (21, [-0.982191, 1.833319, 1.25561, -0.931384, 0.405158, -2.046682]),
  (22, [-0.997939, 1.865462, 1.262618, -0.926907, 0.46536, -2.089104]),
  (23, [-1.012232, 1.895591, 1.267649, -0.921117, 0.526812, -2.127879]),
  (24, [-1.025464, 1.924001, 1.271137, -0.914236, 0.589374, -2.163174]),
  (15, [-1.037283, 1.950746, 1.272812, -0.906279, 0.652984, -2.19514]),
  (16, [-1.048171, 1.976055, 1.273152, -0.897398, 0.717529, -2.223942]),
  (17, [-1.058118, 2.000177, 1.272334, -0.887913, 0.782867, -2.249616]),
  (18, [-1.067379, 2.023204, 1.270456, -0.877745, 0.848994, -2.272369]),
  (19, [-1.075455, 2.044986, 1.267349, -0.866935, 0.915713, -2.292167]),
  (30, [-1.683352, 2.066474, 1.264, -0.856364, 0.9829, -2.309055]),
  (31, [-1.090542, 2.087049, 1.259912, -0.845434, 1.050527, -2.323154]),
  (32, [-1.097422, 2.1072, 1.255618, -0.834664, 1.118425, -2.334465]),
  (33, [-1.104213, 2.127189, 1.251457, -0.824397, 1.186445, -2.342962]),
  (34, [-1.110868, 2.147097, 1.24747, -0.814738, 1.254509, -2.348686]),
  (35, [-1.117701, 2.166994, 1.244047, -0.80579, 1.322469, -2.351658]),
  (36, [-1.124468, 2.186826, 1.241051, -0.797564, 1.390261, -2.351903])]

/-- `GubbinsTwu_K_coeffs`, lines 148-154. -/
def gtKTable : List ((ℤ × ℤ) × List ℚ) := [
  ((222, 333), [-1.050534, 1.747476, 1.749366, -1.999227, -0.661046, -3.02872]),
  ((233, 344), [-1.30955, 2.24912, 2.135877, -2.27853, -0.773166, -3.70469]),
  ((334, 445), [-1.490116, 2.619997, 2.404319, -2.420706, -0.829466, -3.930928]),
  ((444, 555), [-1.616385, 2.881007, 2.5776, -2.48499, -0.828596, -4.175589]),
  ((666, 777), [-1.940503, 3.552034, 2.940925, -2.593808, -0.724353, -4.899975])]

/-- `Gottschalk_J_coeffs`, lines 181-216. -/
def gottJTable : List (ℤ × List ℚ) := [
  (4, [9.20762061490718e-1, 3.65233141807771e-1, 1.07871599009702, 1.46531395339295e-6, -3.13549715576067e1, -2.14347171035042e2,
    -4.46936442221474e2, -2.52046886389241e-5, 9.59476543889466e1, 6.72066160042726e2, 1.41943517935122e3, 9.03007555165018e-5,
    -9.58398037269371e1, -7.03598871905455e2, -1.51155093398986e3, -1.0143794413681e-4, 3.21143191531758e1, 2.49283638814592e2,
    5.45458916686374e2, 3.68350682469709e-5, -7.33315599725484e-2, 7.17782493862785e-1, -1.07882642679631, 4.0806847385747e1,
    -2.32614867704771e2, 4.4693774774913e2, -1.34367887089787e2, 7.47459457204644e2, -1.4194398698512e3, 1.48945273699473e2,
    -8.08058129527236e2, 1.51155630097149e3, -5.5929531112063e1, 2.96215796243915e2, -5.45460908392279e2]),
  (5, [7.78317650769383e-1, 5.99206004305284e-1, 1.51505659599139, 2.07056321821513e-6, -6.42594369009722, -6.77626651470902e1,
    -1.57366926125767e2, -2.37414367157603e-5, 2.17188616679221e1, 2.24978201318131e2, 5.26347478618125e2, 8.0147044417451e-5,
    -2.32101308927474e1, -2.52180339267828e2, -5.97690123563652e2, -8.70761423184869e-5, 8.99504653938558, 9.92714679182362e1,
    2.36531170237292e2, 3.04151384860261e-5, -1.22862207731153e-1, 9.21021403876641e-1, -1.5152017278619, 1.76561517446869e1,
    -8.96285624361416e1, 1.5736816159469e2, -6.05832340349862e1, 3.0144944421686e2, -5.26351643127702e2, 7.06451918826372e1,
    -3.45599503965135e2, 5.97694705736524e2, -2.82773060418931e1, 1.37292180369747e2, -2.36532795134605e2]),
  (6, [7.84353476631425e-1, 6.85720448356048e-1, 1.62670627229158, 2.54936277034233e-6, 4.47099585508689, -3.29222156231796,
    -2.9697650977211e1, -2.341490516229e-5, -8.52898508169395, 4.0052715729215e1, 1.54598567397736e2, 7.63141143915834e-5,
    3.60780542310039, -7.97013837912071e1, -2.43669064947076e2, -8.12331954077934e-5, 1.77013221710562, 4.84574605762221e1,
    1.28748817040483e2, 2.76192881583106e-5, -1.32142877177911e-1, 9.46992395582885e-1, -1.62688108898392, 7.38465356236924,
    -2.64295672330205e1, 2.96988758329901e1, -2.93410584260195e1, 1.14622191952606e2, -1.5460254052867e2, 3.92213457881652e1,
    -1.64050494048192e2, 2.43673328746399e2, -1.79349649900422e1, 8.03201352469139e1, -1.28750280199986e2]),
  (7, [8.35923369473595e-1, 8.36677758858304e-1, 1.8401223854057, 2.95158919217436e-6, 1.04308480601121e1, 3.22575024923935e1,
    4.09254052998227e1, -2.35327254022092e-5, -2.39853372239537e1, -5.60420962515534e1, -3.99584884375199e1, 7.4888696397116e-5,
    1.57078975270853e1, 1.77837968441997, -7.34290355928896e1, -7.85879121919987e-5, -6.34595861538581e-1, 2.85721518805557e1,
    8.43682899717243e1, 2.61866011224344e-5, -1.41092601741133e-1, 1.01019042121228, -1.84032278125301, 1.65577241238338,
    8.64349862727415, -4.09241683798187e1, -1.26779405410039e1, 1.61586056544664e1, 3.99545800444195e1, 2.34403357454985e1,
    -7.52869363354067e1, 7.34331560029303e1, -1.32014925766845e1, 5.58228957439797e1, -8.43696689061774e1]),
  (8, [9.02886845403022e-1, 1.02769111500633, 2.12557939856991, 3.30884284588769e-6, 1.41595577197002e1, 5.46287234614715e1,
    8.54695565374034e1, -2.39450498954028e-5, -3.30566685835116e1, -1.13226935704891e2, -1.56439178110236e2, 7.48562915203367e-5,
    2.18274693649861e1, 4.52813528223361e1, 1.92965724535634e1, -7.77178698112719e-5, -1.25134320159995, 2.07570070759725e1,
    6.52054274304816e1, 2.54971751898932e-5, -1.52360182248782e-1, 1.10529372907708, -2.12580262478853, -1.97895351806047,
    3.08158959370926e1, -8.5468293123578e1, -2.54084976437344, -4.31372009474484e1, 1.56435263043662e2, 1.44387151344809e1,
    -2.6062961658017e1, -1.92925002754545e1, -1.08036294999921e1, 4.44740568891303e1, -6.52067637965638e1]),
  (9, [9.73284132754527e-1, 1.23293164284334, 2.44074246112866, 3.63479166035722e-6, 1.67174462715029e1, 7.002246963995e1,
    1.16158760362537e2, -2.45560155993759e-5, -3.89167327709749e1, -1.50551276751452e2, -2.32829635433746e2, 7.57063283580941e-5,
    2.51319423922009e1, 7.03700239845212e1, 7.40030015633558e1, -7.79458611094211e-5, -1.12152974471362, 1.83362318747346e1,
    5.75828766638458e1, 2.52616458579501e-5, -1.64966573056078e-1, 1.21581105616643, -2.44098645171285, -4.4913548159561,
    4.6110655595925e1, -1.16157461170255e2, 4.1926062003163, -8.22024452335543e1, 2.32825669933358e2, 8.85838042849393,
    3.55498450267968, -7.39989203793414e1, -9.53342333742628, 3.92716913729602e1, -5.75841953599581e1]),
  (10, [1.04223495309261, 1.4382508036251, 2.76103690296554, 3.93574271718274e-6, 1.85981643581486e1, 8.13419695160953e1,
    1.38728720569235e2, -2.53099431715195e-5, -4.30050075793111e1, -1.76733223625615e2, -2.8657889254543e2, 7.71793435354036e-5,
    2.70119689230786e1, 8.57705324061707e1, 1.08416758911128e2, -7.89416678058119e-5, -6.83236277155773e-1, 1.84263231085444e1,
    5.55323841570129e1, 2.53410505830688e-5, -1.78015204105012e-1, 1.33132666525329, -2.7612999550281, -6.34001495228792,
    5.73603083320838e1, -1.38727379173325e2, 8.97092089417269, -1.09768331291691e2, 2.86574846563897e2, 5.16781511840307,
    2.25676562314139e1, -1.08412629687972e2, -8.85036010313623, 3.71308710980545e1, -5.55337020890003e1]),
  (11, [1.107926913749, 1.63731143991712, 3.07487098564526, 4.21496516230401e-6, 2.00467333231261e1, 9.00564035881871e1,
    1.56102294591843e2, -2.61090947624051e-5, -4.60131645751558e1, -1.96073167609769e2, -3.26376103924355e2, 7.89041513227051e-5,
    2.81092322295592e1, 9.56633853796457e1, 1.31144042205758e2, -8.02744322817779e-5, -1.26915685892609e-1, 1.9698758214715e1,
    5.62497567494725e1, 2.55720053847567e-5, -1.91014790095454e-1, 1.44659349566085, -3.07515161447037, -7.76278927093104,
    6.6018619311424e1, -1.56100909447001e2, 1.25327480671979e1, -1.30223970379329e2, 3.26371966219433e2, 2.59922862413025,
    3.54011696824408e1, -1.31139848207573e2, -8.48890760878314, 3.65757530391343e1, -5.62510821344157e1]),
  (12, [1.16965827151098, 1.82684954264429, 3.37590355645935, 4.47570393432011e-6, 2.12138009901427e1, 9.70527749736322e1,
    1.70033635519089e2, -2.69721000643629e-5, -4.83470863140914e1, -2.11053209462762e2, -3.57214715120972e2, 8.09237324473411e-5,
    2.87638804086634e1, 1.02265678511421e2, 1.46762697829593e2, -8.19749133346652e-5, 4.66540529562262e-1, 2.15508926134189e1,
    5.84309057120254e1, 2.59551198156766e-5, -2.03648645251421e-1, 1.55854124315951, -3.37620049068473, -8.90030256623619,
    7.29527220254803e1, -1.70032204074462e2, 1.52987110008881e1, -1.46080680389506e2, 3.57210472279538e2, 7.40166715063542e-1,
    4.44162790393081e1, -1.46758421148696e2, -8.31838388627907, 3.69048729652915e1, -5.84322464635614e1]),
  (13, [1.22741251262613, 2.00607768864444, 3.66217525098022, 4.71993621739865e-6, 2.21837119231629e1, 1.02843002826788e2,
    1.81545805943986e2, -2.78602888151284e-5, -5.02310375685327e1, -2.23096518264849e2, -3.81993635969731e2, 8.30927243141112e-5,
    2.91633996205828e1, 1.06856116529684e2, 1.57950181764932e2, -8.38758403632039e-5, 1.0518396536404, 2.36267034456939e1,
    6.12949031589567e1, 2.64271603932919e-5, -2.15797090643057e-1, 1.6660030087602, -3.66248736228464, -9.8367499700239,
    7.86737922217559e1, -1.81544327495736e2, 1.75203705104454e1, -1.588143294529e2, 3.81989281673596e2, -6.58144132249668e-1,
    5.10118913096645e1, -1.57945812868646e2, -8.25850046297216, 3.76932620608373e1, -6.12962639170733e1]),
  (14, [1.28136795926391, 2.1749592730144, 3.93312568058641, 4.94955958734804e-6, 2.30103733287144e1, 1.07754174847976e2,
    1.91292734312826e2, -2.87599468575202e-5, -5.18017710852761e1, -2.33076384339011e2, -4.02497725206121e2, 8.53538897221373e-5,
    2.94109028766102e1, 1.1016219006967e2, 1.66249715497417e2, -8.5908111213504e-5, 1.61054749645308, 2.57543607281281e1,
    6.44467741484034e1, 2.696020285022e-5, -2.27402921183491e-1, 1.76845939161741, -3.9334519730517, -1.06260178607678e1,
    8.35086815990992e1, -1.91291208775564e2, 1.9354069777508e1, -1.69336536500882e2, 4.02493255867338e2, -1.74355334344535,
    5.60038051703629e1, -1.66245248316514e2, -8.26486323118825, 3.87177444531142e1, -6.4448158072369e1]),
  (15, [1.3318411204316, 2.33411955421497, 4.18944168237444, 5.1673132426409e-6, 2.37303824327933e1, 1.12008992709853e2,
    1.99720130274194e2, -2.96714731877402e-5, -5.31510684170641e1, -2.41580594703172e2, -4.19929922838367e2, 8.76918485912694e-5,
    2.95732748319544e1, 1.12660947956635e2, 1.72677455554062e2, -8.80467759848402e-5, 2.13229530955574, 2.78289766231739e1,
    6.76406872254785e1, 2.75422401906343e-5, -2.3847439217909e-1, 1.86597576117483, -4.18978130339343, -1.13049285008236e1,
    8.76804033551091e1, -1.99718557683747e2, 2.09055516487606e1, -1.7826248280128e2, 4.1992533598785e2, -2.61436031087909,
    5.9931168283105e1, -1.72672885673652e2, -8.30888096737345, 3.9837357533503e1, -6.7642096691522e1]),
  (16, [1.37901453580487, 2.48364309923334, 4.43091941241471, 5.37094434472876e-6, 2.43666867062349e1, 1.15748951122614e2,
    2.07112676110216e2, -3.05576461793678e-5, -5.4327534547385e1, -2.48936916087072e2, -4.34974202787518e2, 9.00026599081091e-5,
    2.96720914562744e1, 1.14551788116269e2, 1.77690926653254e2, -9.01861269184086e-5, 2.62249641751012, 2.98444846757817e1,
    7.08315002966454e1, 2.81363946146929e-5, -2.48969513927785e-1, 1.95826618452608, -4.43127149976078, -1.18973355838225e1,
    9.13321553409123e1, -2.07111057683681e2, 2.22378640022909e1, -1.85948413655357e2, 4.34969499512783e2, -3.32182594508186,
    6.3052154581726e1, -1.7768625348747e2, -8.37929775237224, 4.10130053060035e1, -7.08329362497633e1]),
  (17, [1.42329483453259, 2.62475570057645, 4.65943926111186, 5.56506115419661e-6, 2.49382092559571e1, 1.19089798855698e2,
    2.13702444971429e2, -3.14416830448276e-5, -5.53789493395123e1, -2.55451174838178e2, -4.48256497596161e2, 9.23317693026102e-5,
    2.97421845700412e1, 1.16081630763158e2, 1.81815373684066e2, -9.23622863097125e-5, 3.07591811514003, 3.17481954712721e1,
    7.38956476257815e1, 2.87520274762349e-5, -2.58966940872702e-1, 2.04598834858149, -4.65980313142134, -1.24224905595897e1,
    9.4580260300306e1, -2.13700781309834e2, 2.34060475914358e1, -1.9271443995291e2, 4.48251678005583e2, -3.91665385265311,
    6.56450998722889e1, -1.8181059606844e2, -8.46169967222253, 4.21738049476203e1, -7.38971110680682e1]),
  (18, [1.46487986688771, 2.75781119069554, 4.87538489626357, 5.74996535750791e-6, 2.54583336209166e1, 1.22112654306814e2,
    2.19651728671712e2, -3.23195742737464e-5, -5.63357051139506e1, -2.61319306335556e2, -4.60180008396377e2, 9.46717350143917e-5,
    2.97994320165779e1, 1.17376800956199e2, 1.85330642961686e2, -9.45669424612126e-5, 3.49442456105804, 3.35326257808933e1,
    7.68017302249625e1, 2.93847161043507e-5, -2.68463742662802e-1, 2.12917436452168, -4.87575992159887, -1.28938060999294e1,
    9.75058897374463e1, -2.1965002039823e2, 2.44461442153439e1, -1.98767823420881e2, 4.60175072599579e2, -4.42834909958787,
    6.78635254606911e1, -1.8532575985708e2, -8.54969242279573, 4.32958378698199e1, -7.68032220045075e1]),
  (19, [1.50405173892267, 2.88362277605062, 5.07999120667182, 5.92604469473417e-6, 2.59354667120446e1, 1.24871330132418e2,
    2.25070150153215e2, -3.31803958529523e-5, -5.72143258691467e1, -2.66660318597808e2, -4.70998227208669e2, 9.69823332012314e-5,
    2.98502019141849e1, 1.18507844507944e2, 1.88404634917127e2, -9.67569683413023e-5, 3.88017829464858, 3.5194799060606e1,
    7.95302018297919e1, 3.00198806598087e-5, -2.77507503747319e-1, 2.20824753246461, -5.08037679924323, -1.33207423387379e1,
    1.00164860226746e2, -2.25068398340204e2, 2.53825854922138e1, -2.04243073834176e2, 4.70993177045989e2, -4.87689306386463,
    6.98048158892111e1, -1.88399647195429e2, -8.63855507501945, 4.43625231962265e1, -7.95317221255379e1]),
  (20, [1.54100328279558, 3.00266954662575, 5.27393566659271, 6.09415945053774e-6, 2.63774105308849e1, 1.27413164556161e2,
    2.30052463547866e2, -3.40253939789074e-5, -5.80296287767417e1, -2.7157243714248e2, -4.80915654063546e2, 9.92650136785895e-5,
    2.98960497968089e1, 1.19506216701979e2, 1.91119966460693e2, -9.89308520517353e-5, 4.23948590715034, 3.6758737196366e1,
    8.21168093762494e1, 3.06553292389476e-5, -2.86117565271862e-1, 2.28340794664721, -5.27433129555286, -1.37111418036073e1,
    1.02604585911448e2, -2.30050669185087e2, 2.62341990192763e1, -2.09246463173384e2, 4.80910491265385e2, -5.27371498425266,
    7.15201338963779e1, -1.91114875054018e2, -8.72841442026995, 4.53855833744261e1, -8.21183582480082e1]),
  (21, [1.57592570589578, 3.11547972422847, 5.4580088130218, 6.25494176916211e-6, 2.67897065333062e1, 1.29772605783096e2,
    2.34668211999885e2, -3.48532484959242e-5, -5.8793886945827e1, -2.76137463861208e2, -4.90102646554326e2, 1.01513434300736e-4,
    2.99433839785631e1, 1.20425528261947e2, 1.93597090633863e2, -1.01080902951699e-4, 4.57295583523636, 3.82198458561258e1,
    8.45450679969652e1, 3.12880011046094e-5, -2.94322006649778e-1, 2.35491934678179, -5.45841399302251, -1.40708827677293e1,
    1.04860161603625e2, -2.34666376096407e2, 2.70166549056331e1, -2.13866549098823e2, 4.90097373030852e2, -5.63187740502905,
    7.30763256172008e1, -1.93591896731791e2, -8.81620676140545, 4.6353125704672e1, -8.45466453849704e1]),
  (22, [1.60900825961173, 3.22261811562593, 5.63308559540984, 6.40891794235791e-6, 2.71778036617257e1, 1.31982609341781e2,
    2.38983196618107e2, -3.56637767166591e-5, -5.95183465510123e1, -2.80428197548586e2, -4.98709135990311e2, 1.03725487778243e-4,
    2.99962405990801e1, 1.21302391206201e2, 1.95920051613056e2, -1.03203705142104e-4, 4.88274003230585, 3.95835701434681e1,
    8.68192620501924e1, 3.19161200049031e-5, -3.02155352015219e-1, 2.42309304660182, -5.63349987746288, -1.44053694143779e1,
    1.0696443266837e2, -2.38981320187964e2, 2.77433818239864e1, -2.18180465979301e2, 4.98703753781356e2, -5.96086409520159,
    7.45208273809528e1, -1.95914756631356e2, -8.90075629697048, 4.7263986982353e1, -8.68208677760799e1]),
  (23, [1.64038713895882, 3.32445058086078, 5.79970909018179, 6.55660970751479e-6, 2.75444662037485e1, 1.34060977872376e2,
    2.43033859600483e2, -3.64564701959441e-5, -6.02072602813393e1, -2.8447733874829e2, -5.06806732181542e2, 1.05897781956132e-4,
    3.00533728654871e1, 1.2214192577977e2, 1.98110314541878e2, -1.05294628990197e-4, 5.17188567275133, 4.08614420321041e1,
    8.89564057580583e1, 3.25376394221698e-5, -3.09635875501101e-1, 2.48810739270049, -5.8001320620302, -1.47177935680668e1,
    1.08936038184627e2, -2.43031943654127e2, 2.84217482604887e1, -2.22227123741384e2, 5.06801243420412e2, -6.26506736216552,
    7.58699863926834e1, -1.98104920062177e2, -8.98206738744273, 4.81236479075982e1, -8.89580395563038e1]),
  (24, [1.67020443200837, 3.42140099815276, 5.95853765580093, 6.69840894914522e-6, 2.78930526241939e1, 1.36028113556687e2,
    2.46861020108306e2, -3.72310067882982e-5, -6.08674314883941e1, -2.88329138491471e2, -5.14486861098095e2, 1.08028129101535e-4,
    3.01168886930338e1, 1.22964616640737e2, 2.00215868634779e2, -1.07350503786213e-4, 5.44201052505886, 4.20584236016335e1,
    9.09621486648481e1, 3.31510705847126e-5, -3.16789437629183e-1, 2.55019779357427, -5.95896893383638, -1.50115277477622e1,
    1.10795394589427e2, -2.46859065650477e2, 2.90600228510382e1, -2.26053697347037e2, 5.14481267977772e2, -6.55012127222298,
    7.71513086649923e1, -2.00210376360154e2, -9.0596075405455, 4.89327947879041e1, -9.09638102017906e1]),
  (25, [1.69858241893384, 3.51383146424567, 6.1101327670295, 6.83467898952235e-6, 2.8226072381151e1, 1.37899434180988e2,
    2.50495665645592e2, -3.79872472701472e-5, -6.15035418005373e1, -2.92014997651087e2, -5.21815198226679e2, 1.10115026954262e-4,
    3.01874455538022e1, 1.23781369053218e2, 2.02264805180694e2, -1.09368981020166e-4, 5.6948733315975, 4.31809815927281e1,
    9.28457224160356e1, 3.37552638490026e-5, -3.23637864819024e-1, 2.60956446748588, -6.11057199392188, -1.52891635972671e1,
    1.12558071003605e2, -2.50493673669512e2, 2.96643274318387e1, -2.29694461142809e2, 5.21809502974935e2, -6.8198377271554,
    7.83819811959993e1, -2.02259216902342e2, -9.13327374320843, 4.96941916417939e1, -9.28474113053343e1]),
  (26, [1.72563745567752, 3.60209970881929, 6.25505759484812, 6.96570099794339e-6, 2.85457983567273e1, 1.39688812428945e2,
    2.53965586407395e2, -3.87246410925688e-5, -6.21213639673386e1, -2.95571274052985e2, -5.28865880318823e2, 1.12156012164777e-4,
    3.0269097097954e1, 1.2462038220566e2, 2.04316980665141e2, -1.11346905176455e-4, 5.93004362769523, 4.42241415079419e1,
    9.45950261097477e1, 3.43488730725869e-5, -3.30204068649846e-1, 2.66641357215509, -6.25550443468109, -1.55530041549626e1,
    1.14237984687935e2, -2.53963557915779e2, 3.0241151473867e1, -2.33187194459353e2, 5.2886008524455e2, -7.08001292349848,
    7.95936626624502e1, -2.04311298298325e2, -9.20155056361779, 5.04007111658153e1, -9.45967419051671e1]),
  (27, [1.75144878776709, 3.68641787224845, 6.39362836684418, 7.09187691162673e-6, 2.88534223106468e1, 1.41403782933734e2,
    2.5728614205622e2, -3.94446465479885e-5, -6.27182731696133e1, -2.98987216845496e2, -5.35622055129294e2, 1.14154318922925e-4,
    3.03511536400543e1, 1.25427573823103e2, 2.062735978941e2, -1.13286738611423e-4, 6.15485520260568, 4.52262229710043e1,
    9.62814211448931e1, 3.49323838780586e-5, -3.36498539596946e-1, 2.72084996005446, -6.39408251018918, -1.58043859155848e1,
    1.15842958993722e2, -2.57284077969126e2, 3.07901870850244e1, -2.36525792732876e2, 5.35616162370748e2, -7.3246448498572,
    8.07416362343625e1, -2.06267823234276e2, -9.26912587997417, 5.1085395263136e1, -9.62831634191737e1]),
  (28, [1.77612492556406, 3.76714309936743, 6.52642161071353, 7.21334681933824e-6, 2.91509816991197e1, 1.43056593492169e2,
    2.60481678391142e2, -4.01458946922934e-5, -6.33027205008539e1, -3.02312429317197e2, -5.42181737394782e2, 1.16105497189909e-4,
    3.04446519509872e1, 1.26267583620892e2, 2.08262360791635e2, -1.15183606471112e-4, 6.36458019057775, 4.6159456185009e1,
    9.78499678764775e1, 3.55039982827726e-5, -3.42546475798887e-1, 2.77309352313867, -6.52688276126928, -1.60452823818205e1,
    1.17385092358965e2, -2.60479579679392e2, 3.13193015603772e1, -2.39758669205122e2, 5.42175749265617e2, -7.56399600266558,
    8.18889684253144e1, -2.08256495834555e2, -9.33156547362775, 5.17210730790555e1, -9.78517361249164e1]),
  (29, [1.79973990990806, 3.84449357672667, 6.65377629753385, 7.33038223636712e-6, 2.94395284203774e1, 1.44653769106998e2,
    2.63565368442515e2, -4.08289841442877e-5, -6.38749482307467e1, -3.05550781935437e2, -5.48554901017772e2, 1.18010605554247e-4,
    3.05459438326717e1, 1.27123532397051e2, 2.10254192877394e2, -1.17038022680046e-4, 6.56229524461249, 4.70393939581073e1,
    9.93290631664773e1, 3.60636587940758e-5, -3.48360939299576e-1, 2.8232656237044, -6.65424417788091, -1.62768100582765e1,
    1.1887103185716e2, -2.63563236037397e2, 3.18298528651432e1, -2.4289192569437e2, 5.48548819764062e2, -7.79676471128741,
    8.30234611856164e1, -2.10248239586332e2, -9.39058648685896, 5.23205885921096e1, -9.93308568811239e1]),
  (30, [1.8223670259606, 3.91869548861636, 6.77605006001375, 7.4431916576125e-6, 2.97201627392746e1, 1.4620200966102e2,
    2.66550621366222e2, -4.14940559686928e-5, -6.44369141642077e1, -3.08715122924687e2, -5.54768243609049e2, 1.1986952662172e-4,
    3.06550722277103e1, 1.27998247160407e2, 2.12257161651836e2, -1.18849430330246e-4, 6.74894751211796, 4.78701204861315e1,
    1.00725379889822e2, 3.66109981179763e-5, -3.53956514699032e-1, 2.87149820313279, -6.77652440802723, -1.65000787165196e1,
    1.20307486174931e2, -2.66548456181876e2, 3.23243017280061e1, -2.45939410766486e2, 5.54762071463574e2, -8.02420687129143,
    8.41503548412694e1, -2.12251122004627e2, -9.44638397076602, 5.28865302800657e1, -1.00727198546794e2]),
  (31, [1.84407238906234, 3.989953291287, 6.89356663998026, 7.55196965273587e-6, 2.99937446782154e1, 1.47706622054152e2,
    2.69448109863484e2, -4.21412852643036e-5, -6.49900312187145e1, -3.11815042824966e2, -5.6084195226953e2, 1.21682281168064e-4,
    3.07718012775713e1, 1.28892664219676e2, 2.14275344390819e2, -1.2061745369935e-4, 6.92544187984713, 4.86556531456829e1,
    1.0204563070687e2, 3.71457300628269e-5, -3.59346443899873e-1, 2.91791099876114, -6.89404720767644, -1.67159828162184e1,
    1.21699820562542e2, -2.69445912796862e2, 3.28045676078239e1, -2.48911720213124e2, 5.6083569144912e2, -8.24719562139146,
    8.52727901817486e1, -2.14269220374457e2, -9.49919768121586, 5.34215932621662e1, -1.02047473769496e2]),
  (32, [1.86491675855887, 4.05845666764157, 7.00662758386778, 7.65690192535688e-6, 3.02610826031862e1, 1.49172525009831e2,
    2.72267671891917e2, -4.27709601850218e-5, -6.55357273872536e1, -3.14859848398573e2, -5.66795327718652e2, 1.23449254801958e-4,
    3.0896135940985e1, 1.29808584660037e2, 2.16314038706087e2, -1.2234212342965e-4, 7.09249650124115, 4.93991776772672e1,
    1.03295121552333e2, 3.76677217269641e-5, -3.64543206651067e-1, 2.96261629062055, -7.00711413651349, -1.69253353171803e1,
    1.23052953647657e2, -2.722654438183e2, 3.32724241192866e1, -2.51818846996072e2, 5.66788980408459e2, -8.4665880740352,
    8.63942632656849e1, -2.16307832298287e2, -9.54921000512114, 5.39278976932529e1, -1.03296988478458e2]),
  (33, [1.88495516362412, 4.12437681087135, 7.11550482015717, 7.7581479788929e-6, 3.05228086984206e1, 1.50603626789973e2,
    2.75017166338412e2, -4.33832387782641e-5, -6.60749783451623e1, -3.17856213837761e2, -5.72642461354325e2, 1.25170517298924e-4,
    3.10277563793945e1, 1.30745823780658e2, 2.18374514025207e2, -1.24023189453008e-4, 7.25086801869215, 5.01041855896732e1,
    1.0447984613974e2, 3.81767623747912e-5, -3.69557989198445e-1, 3.0057151871388, -7.11599713465615, -1.71287946014579e1,
    1.24370835590775e2, -2.75014908118616e2, 3.37292229706296e1, -2.54668207677145e2, 5.72636029725361e2, -8.682890303922,
    8.7516228061026e1, -2.18368227209872e2, -9.59667949311669, 5.44079456577635e1, -1.04481736377524e2]),
  (34, [1.90423814720649, 4.1878720726105, 7.2204506766161, 7.85586627942804e-6, 3.07794923553951e1, 1.52003423758102e2,
    2.77703605524606e2, -4.3978407266847e-5, -6.66087092417203e1, -3.20810306371066e2, -5.78396258386096e2, 1.26846524468003e-4,
    3.11664819048377e1, 1.31704676007628e2, 2.20458683574026e2, -1.25660820862988e-4, 7.40117498521146, 5.07735308154137e1,
    1.05604694471574e2, 3.86727947804182e-5, -3.74401276091243e-1, 3.04730201372642, -7.22094854107547, -1.73269442871869e1,
    1.25656981825138e2, -2.77701317999835e2, 3.41761779100406e1, -2.57466539374381e2, 5.78389744578777e2, -8.89658848016163,
    8.8640302937719e1, -2.20452318322644e2, -9.64181317756529, 5.48637732161057e1, -1.05606607466567e2]),
  (35, [1.92281533717408, 4.24910272760302, 7.32172334231576, 7.95020113544135e-6, 3.10315462895189e1, 1.53374595594571e2,
    2.80332458984096e2, -4.45565817457419e-5, -6.71377178976899e1, -3.23727756240385e2, -5.84068658984735e2, 1.2847706670798e-4,
    3.13126741835308e1, 1.32688536867639e2, 2.22574407829969e2, -1.27254409666895e-4, 7.54344375669761, 5.14068370367179e1,
    1.06668425782242e2, 3.91555262336584e-5, -3.79084181011374e-1, 3.0874749941912, -7.32222655477679, -1.75202588700289e1,
    1.26914182016175e2, -2.80330142989896e2, 3.46144386399448e1, -2.60220152375735e2, 5.84062065161257e2, -9.1085931211046,
    8.97709538200545e1, -2.22567966162972e2, -9.68438822092394, 5.5294515469747e1, -1.06670360957778e2]),
  (36, [1.94071903395404, 4.30815630128459, 7.41945486225346, 8.04129819154619e-6, 3.12795677114849e1, 1.54720456662477e2,
    2.8291013894697e2, -4.51185370132462e-5, -6.7662387856168e1, -3.26610593605394e2, -5.89663763708538e2, 1.30064679999137e-4,
    3.14642018299911e1, 1.33685768145537e2, 2.24699835988089e2, -1.2880667389219e-4, 7.67986766874738, 5.20159122266596e1,
    1.07693298076419e2, 3.96257342166686e-5, -3.83611089495781e-1, 3.12627897732626, -7.41996323155748, -1.77092249651606e1,
    1.28145532684806e2, -2.82907795262461e2, 3.5044387728777e1, -2.62931112874138e2, 5.89657091847996e2, -9.31746233172336,
    9.08979636154349e1, -2.2469331972573e2, -9.72592470392138, 5.57106237961232e1, -1.07695254916667e2])]

/-- `Gottschalk_K_coeffs`, lines 252-343, rows 1 to 14. -/
def gottKTable1 : List (((ℤ × ℤ × ℤ) × (ℤ × ℤ × ℤ)) × List ℚ) := [
  (((2, 2, 2), (3, 3, 3)), [5.42444082407911, 1.99461721851827, -7.79943499574988, -5.9530642335589, 1.14672051901995, 5.96687355992124, 1.57892985819129,
    -1.99235454796223, -5.41856353157736, -1.99001117059474, 1.08221237311497e1, 2.88930400287336, -7.71557411635195,
    5.18908612078444e-3, 2.12180709078436, -1.09482382065437, 6.3690981632359e-3, 2.79472187550309e-4, 1.92082140326594e-6,
    -1.74086067501819e-7, 3.92286590760404e-2, 2.0191479951826e-3, -1.24074155157559e-4, 2.80164785188307e-6, 6.19238462016263e-1,
    7.17311000046791e-4, -4.51094217237624e-5, -2.01742036513682e-7, -5.55505371928574e-1, -1.49546202491092e-2,
    9.02847562166521e-4, -1.62118687038889e-5, -9.31563262615475e-2, 1.93800947967539e-2, -1.18316966937579e-3, 2.24359377558566e-5,
    3.31240818053268e-2, -6.81951409579061e-3, 4.25234801807147e-4, -8.28079417586071e-6]),
  (((2, 3, 3), (3, 4, 4)), [3.99742731639367, 1.23579222175592, -5.82727703962485, -3.6050816924037, 1.28231084254979, 3.54340888289165,
    8.02274046417593e-1, -1.16362434398544, -3.99685528163714, -1.23243185481745, 7.66286420532143, 1.62072861591476,
    -5.13713300256105, 1.46021389124403e-1, 1.3170448728063, -6.64215770115759e-1, 3.10121371171748e-3, 1.86206269763217e-4,
    3.18435844304192e-6, -1.63867186774153e-7, 1.46001939047032e-1, 1.7062503828398e-3, -1.11890743211568e-4, 2.65557825596483e-6,
    1.88071510223345e-1, -1.52422445555933e-3, 1.46336372199072e-4, -4.63927881946733e-6, -2.72182167645867e-1, -4.7599004563555e-3,
    1.98565515993789e-4, -1.12062570555131e-6, -3.98107863229894e-2, 8.0870829205763e-3, -4.32515946570324e-4, 6.62645581034702e-6,
    1.5298600521716e-2, -3.1012856421418e-3, 1.7785731997918e-4, -3.06965046638737e-6]),
  (((2, 4, 4), (3, 5, 5)), [7.66792089283848e-1, 2.75297951453362e-1, -1.1496176741451, -8.33798059992107e-1, 3.39181596901623e-1, 8.59623929728455e-1,
    1.90773779211133e-1, -2.96619248685997e-1, -7.66001709604301e-1, -2.74735677874936e-1, 1.56612732669654, 4.08336841752989e-1,
    -1.27873004072718, -4.34059094383595e-3, 3.7708843377199e-1, -1.96035798884472e-1, 1.30948394348354e-4, 1.06139307725294e-4,
    -1.55856479654891e-6, 1.49407162096004e-8, 9.608753168078e-3, 1.83916452031763e-4, -3.05479964580661e-6, -4.31169678964768e-8,
    8.51673307442435e-2, 8.37068146866005e-4, -6.89417943049662e-5, 1.78242509581761e-6, -6.21438631057473e-2, -3.04535608194716e-3,
    2.20102808514677e-4, -5.14135739634171e-6, -1.45715095719363e-2, 3.33431639032812e-3, -2.32609567589275e-4, 5.24534888776091e-6,
    5.30333556533054e-3, -1.15021340573145e-3, 7.93113478132349e-5, -1.76212435918817e-6]),
  (((2, 5, 5), (3, 6, 6)), [-1.87888594114787, -3.98778496314823e-1, 2.78121043514766, 1.07393815987908, -5.82709875936336e-1, -9.46224511668149e-1,
    -1.8401746449159e-1, 2.7358611541088e-1, 1.88070012863321, 3.97610068626671e-1, -3.32288593227971, -3.59910905349272e-1,
    1.5289536204723, -1.87651821947185e-1, -1.93395713326451e-1, 9.70093774899509e-2, -1.67340512692621e-3, 5.75834788258873e-5,
    -6.99207163596071e-6, 1.72895835960648e-7, -1.68871652703438e-1, -1.18620808855092e-3, 8.69478929524077e-5,
    -2.08630774341105e-6, 1.72290885137602e-1, 3.5204529815323e-3, -2.86781557559445e-4, 7.1878266735035e-6, 1.97322734262047e-2,
    -4.36164922587827e-3, 3.8337341567224e-4, -1.01224194253523e-5, -4.56568358850074e-3, 1.94446731466216e-3, -2.04333883106063e-4,
    5.91427305521251e-6, -8.36681540227123e-4, -2.00506952873583e-4, 3.4743517198532e-5, -1.18319408899513e-6]),
  (((3, 3, 4), (4, 4, 5)), [-4.21691301848977, -1.1643932528082, 6.03076249607683, 3.31749501933008, -1.38852182725105, -3.1892464336882,
    -6.77570732417047e-1, 1.0265935420059, 4.21819503000668, 1.16111673692155, -7.72636214133521, -1.38976901618504,
    4.81781255315698, -2.2372474832562e-1, -1.1452685881765, 5.75038384512084e-1, -3.13798823141918e-3, -1.55466617345853e-4,
    -7.3787141269605e-6, 2.64062708357487e-7, -2.27498081628574e-1, -2.18661192717513e-3, 1.5332354859284e-4, -3.79011880542242e-6,
    -4.49432271819262e-2, 3.5109473329494e-3, -3.41099016003576e-4, 9.87987234529542e-6, 2.17337788297072e-1, 2.66965317505575e-4,
    1.86202219962895e-4, -8.77928754274318e-6, 2.29602946730767e-2, -4.42138580395699e-3, 1.29829969955861e-4, 1.05666955361128e-6,
    -1.09807185048123e-2, 2.12266918209122e-3, -9.64983334262941e-5, 9.97183436130033e-7]),
  (((3, 4, 5), (4, 5, 6)), [-1.87855990843247, -5.75022152153909e-1, 2.56326947679373, 1.66202221341208, -5.75969899254094e-1, -1.63807221446864,
    -3.78452161265661e-1, 5.42906220485095e-1, 1.87899815614151, 5.73413309667397e-1, -3.42230152470312, -7.34559024393395e-1,
    2.38025184286029, -5.0748119895549e-2, -6.45580635846515e-1, 3.32460131454282e-1, -1.22971525041235e-3, -1.27068315490571e-4,
    -4.25980434500255e-6, 1.55615720658725e-7, -6.62090575792389e-2, -1.21573491901178e-3, 8.3273185763962e-5, -2.09727273955416e-6,
    -1.27600488929121e-1, 1.25532790674025e-3, -1.60397196949211e-4, 5.07160737707647e-6, 1.37753294972694e-1, 1.37209920872661e-3,
    4.15123343754816e-5, -3.86928887350442e-6, 1.87254939648341e-2, -3.65839285590086e-3, 1.35891765079873e-4, -5.10958487388577e-7,
    -9.05447008188625e-3, 1.62841427456277e-3, -7.78079416794263e-5, 9.84642187550318e-7]),
  (((3, 5, 6), (4, 6, 7)), [5.38335404165607e-2, -1.65741037838703e-2, -1.33814036659934e-1, 6.19488310784084e-2, 3.65326991790176e-2, -8.19250914905983e-2,
    -3.01748955242906e-2, 3.46504157129119e-2, -5.40679568040414e-2, 1.65229992005511e-2, 1.0050710262188e-1, -4.91543004775631e-2,
    7.13948616025876e-2, 3.06024072086538e-2, -6.33515239163259e-2, 3.32898983440077e-2, -9.7494265188456e-6, -4.30427313575326e-5,
    4.30310988368452e-7, -9.40021705693541e-9, 2.03658137889129e-2, -7.06339662172058e-5, -2.2018776069221e-6, 1.46162457146041e-7,
    -5.63254788784857e-2, -2.04018244825023e-4, 2.64741552615823e-5, -9.28263294489165e-7, 2.17230134324291e-2, 5.67459951285132e-4,
    -6.15481638805597e-5, 1.9321402117259e-6, 4.65538957661885e-3, -7.29448873404259e-4, 6.32512865058604e-5, -1.77975109902218e-6,
    -2.18411916118892e-3, 3.07843071190017e-4, -2.32981002727147e-5, 6.0074670758997e-7]),
  (((4, 4, 6), (5, 5, 7)), [2.9676426065785, 7.03092275890737e-1, -4.22799276319446, -1.93798240899941, 9.75913428063972e-1, 1.79126747499097,
    3.56756102281384e-1, -5.53623607171459e-1, -2.96955048327906, -7.01234547867752e-1, 5.20683785048234, 7.24538047246824e-1,
    -2.82320489117913, 2.16237222473152e-1, 5.34316750117956e-1, -2.73623100163602e-1, 2.51067694055481e-3, 6.48121319346496e-5,
    1.03813558872693e-5, -2.7292695510289e-7, 2.30022151841588e-1, 1.96394886387731e-3, -1.29387918388819e-4, 2.98540598178787e-6,
    -1.38590452460763e-1, -4.03811614043725e-3, 3.52382867454668e-4, -8.69687788260969e-6, -6.99559346356186e-2,
    3.66886832331064e-3, -3.69164793734705e-4, 9.91160660064894e-6, -8.03236996487208e-3, 5.40971867915539e-4, 7.27854360508128e-5,
    -3.27263850871172e-6, 9.38208592331486e-3, -1.06228828205759e-3, 3.69836086799339e-5, -2.71732190829232e-7]),
  (((4, 5, 7), (5, 6, 8)), [1.42666820960381, 3.45017865101772e-1, -1.96247550830271, -9.46309065663811e-1, 4.18261135698539e-1, 8.72297454873067e-1,
    1.80511045525248e-1, -2.68920187738143e-1, -1.42778416603253, -3.4408308363985e-1, 2.44824471854885, 3.54124895173016e-1,
    -1.33897167236516, 9.82706489201847e-2, 2.71801448726778e-1, -1.36410348751957e-1, 1.49635868970185e-3, 2.06044447958276e-5,
    9.64997907128668e-6, -2.57887631481684e-7, 1.02390983909847e-1, 1.58582512677763e-3, -1.18610853006776e-4, 3.09612761642116e-6,
    -3.36211720100163e-2, -4.08798525378858e-3, 3.98633052642793e-4, -1.10581010597377e-5, -5.54837181394803e-2,
    5.29410031892766e-3, -5.57039406867244e-4, 1.63744825744623e-5, -4.5032746047482e-3, -1.74326489817204e-3, 2.91984200123208e-4,
    -9.85337179907661e-6, 8.13232243982234e-3, -1.870750342858e-4, -4.14164874759782e-5, 1.94084307164858e-6]),
  (((5, 5, 8), (6, 6, 9)), [-2.45313680665222, -5.03961693707401e-1, 3.61542108831159, 1.34553581412146, -9.00540909113099e-1, -1.1835398021814,
    -1.81976304349185e-1, 3.43662749685603e-1, 2.4546238613328, 5.02920854569119e-1, -4.28325510571952, -4.36862799852705e-1,
    2.05651578318504, -2.39451761124711e-1, -2.83796201602616e-1, 1.39881038940765e-1, -1.88308167853915e-3, 1.12147181018812e-6,
    -1.44167141323138e-5, 3.79021486968717e-7, -2.35933494539367e-1, -2.18182485306358e-3, 1.62894043457942e-4,
    -4.50008247306596e-6, 2.46819798294457e-1, 6.47152799012847e-3, -6.06575109311945e-4, 1.73646290143768e-5, -5.69627938667923e-3,
    -9.76232489964938e-3, 9.26177434500812e-4, -2.75112120711887e-5, 9.0574055361723e-3, 4.49085125154577e-3, -5.49244411590428e-4,
    1.79584150079129e-5, -1.47595392735166e-2, -3.76632235166816e-4, 1.02880075515404e-4, -4.00772991951897e-6]),
  (((4, 4, 4), (5, 5, 5)), [2.52469317017544, 8.26177202122772e-1, -3.23475676438786, -2.38752562438813, 6.64751555690522e-1, 2.36720544055216,
    5.61020579897902e-1, -7.90752294769291e-1, -2.52563549516801, -8.23601865216396e-1, 4.49270434521372, 1.07436718641049,
    -3.33558776232313, 2.60645228363244e-2, 9.96483096208423e-1, -5.04055524736721e-1, 2.19308744326541e-3, 1.73436487656116e-4,
    8.83524899927144e-6, -3.03344595365151e-7, 5.00925420993048e-2, 2.2792830739788e-3, -1.64388472223847e-4, 4.21196769901678e-6,
    3.0272765422329e-1, -3.58144672504402e-3, 3.98974204945052e-4, -1.19830744460333e-5, -2.56870885978387e-1, 7.83095522029698e-4,
    -3.32816774037648e-4, 1.33383686051992e-5, -2.0424180127112e-2, 3.34064037151345e-3, 2.32132740739504e-6, -4.98030179368835e-6,
    1.10108370256734e-2, -1.8142526163373e-3, 5.80093554272687e-5, 1.3955229025764e-7]),
  (((4, 5, 5), (5, 6, 6)), [2.73820204864218, 7.00346534765638e-1, -3.69680446680593, -1.93794572233433, 8.25216049483546e-1, 1.81783550868196,
    3.72288286378053e-1, -5.73134804753511e-1, -2.7401322475789, -6.98324464420398e-1, 4.69899890466331, 7.54355332066654e-1,
    -2.77229320850403, 1.55878886186388e-1, 6.36364810787289e-1, -3.16236796226066e-1, 2.79237676231657e-3, 7.52148076587529e-5,
    1.39103460900121e-5, -3.88906729643374e-7, 1.74680215860077e-1, 2.62776627228451e-3, -1.92606222849564e-4, 4.85224043818134e-6,
    3.9406961777602e-3, -6.2145732516326e-3, 5.98871575505814e-4, -1.62906364820491e-5, -1.36811818053603e-1, 7.0986749398649e-3,
    -7.74785192015546e-4, 2.27080125814711e-5, -3.21473595433954e-4, -1.79464065798033e-3, 3.65711004601243e-4,
    -1.27246062370887e-5, 7.22997515996539e-3, -4.53033813023508e-4, -4.11409808893549e-5, 2.27901440368552e-6]),
  (((4, 6, 6), (5, 7, 7)), [1.29384111976256, 3.01517415634568e-1, -1.76756306901941, -8.1717763839649e-1, 4.06092887383488e-1, 7.45911581200192e-1,
    1.39258891654649e-1, -2.28144489592101e-1, -1.2946207526888, -3.00788030952428e-1, 2.18542099110323, 2.94503416259083e-1,
    -1.18187057671453, 9.11775908280628e-2, 2.3593004811163e-1, -1.15561543388573e-1, 1.23370962460381e-3, 3.06126369696466e-5,
    8.49249637361334e-6, -2.2582679886309e-7, 1.01270814266103e-1, 1.41550535056254e-3, -1.06540811690883e-4, 2.74608894832916e-6,
    -4.58219033219442e-2, -3.82736622037145e-3, 3.71623212815945e-4, -1.00620224936095e-5, -4.3642252117461e-2, 5.37359451521211e-3,
    -5.4349063807869e-4, 1.53057095265201e-5, 1.40350030776433e-3, -2.31316350038478e-3, 3.09825182261389e-4, -9.57845012022372e-6,
    4.48634087204837e-3, 1.35983530300042e-4, -5.52343464494581e-5, 2.0314528234105e-6]),
  (((5, 5, 6), (6, 6, 7)), [-3.70136634997501, -8.10855126735133e-1, 5.20584279748819, 2.17538463560367, -1.25290061325714, -1.95114578106181,
    -3.33377734863412e-1, 5.84087353611391e-1, 3.70355160458242, 8.08998614652183e-1, -6.30544778456261, -7.4295058958677e-1,
    3.22045238641642, -3.02546701632756e-1, -5.50322328660079e-1, 2.70679560180526e-1, -3.07443194411638e-3, -3.98526991641814e-5,
    -2.0380172837817e-5, 5.35291050968957e-7, -3.24755755656466e-1, -3.34519617378408e-3, 2.51927589021366e-4, -6.46234145685049e-6,
    2.49563591899944e-1, 9.25591305745302e-3, -8.85469388980841e-4, 2.38065873858153e-5, 5.91751755698874e-2, -1.30690035985908e-2,
    1.29773257574842e-3, -3.62619054851207e-5, -6.0216677655807e-3, 5.76085993845291e-3, -7.41147689973064e-4, 2.26785848956448e-5,
    -9.28350093327664e-3, -4.48391258275365e-4, 1.34423638886403e-4, -4.82980395961881e-6])]

/-- `Gottschalk_K_coeffs`, lines 252-343, rows 15 to 28. -/
def gottKTable2 : List (((ℤ × ℤ × ℤ) × (ℤ × ℤ × ℤ)) × List ℚ) := [
  (((5, 6, 7), (6, 7, 8)), [-2.16051327067444, -4.80111541627028e-1, 3.04027396436748, 1.28681816461933, -7.8233707383273e-1, -1.15450727968039,
    -1.733505935779e-1, 3.45715807031252e-1, 2.16208403704912, 4.78954418133244e-1, -3.69782986235047, -4.41890147756103e-1,
    1.96392264267039, -1.79135190778744e-1, -3.64209223797836e-1, 1.72728271464056e-1, -2.18970386473126e-3, -2.43824809151223e-5,
    -1.70509750062217e-5, 4.28889831532858e-7, -1.8065921140924e-1, -2.62934062938358e-3, 1.90488189648742e-4, -4.97464288360169e-6,
    1.24961161973692e-1, 7.53575059443721e-3, -7.00275926403793e-4, 1.89311236001922e-5, 4.19514602248622e-2, -1.1517760492124e-2,
    1.07142440971427e-3, -2.98262647941179e-5, -1.22864231493349e-3, 5.68239521516594e-3, -6.49631468593113e-4, 1.94858861833733e-5,
    -1.07479233657747e-2, -7.58308433462482e-4, 1.31022979210949e-4, -4.40646205435013e-6]),
  (((6, 6, 8), (7, 7, 9)), [2.07922285265841, 4.49689383416868e-1, -2.98907769870169, -1.1890326437662, 8.41691987792347e-1, 1.04184491738024,
    9.7526878928237e-2, -3.01322347978421e-1, -2.08152499353535, -4.48445124326206e-1, 3.60615067846149, 3.89885026941236e-1,
    -1.92110726815679, 2.0202297684326e-1, 3.66399585167013e-1, -1.54926032770091e-1, 3.05038432324847e-3, -4.95303639845013e-5,
    2.61504960273063e-5, -6.33400482356003e-7, 1.71000775579826e-1, 3.92367572084467e-3, -2.83919666316309e-4, 7.52031235484024e-6,
    -1.21154928475634e-1, -1.31040823333925e-2, 1.14514291851804e-3, -3.06110931434252e-5, -5.7222002943258e-2, 2.23897485055873e-2,
    -1.9085347763804e-3, 5.15660284956579e-5, 1.51566160181385e-2, -1.41787609327888e-2, 1.32714908452968e-3, -3.70072404773128e-5,
    1.18530691089525e-2, 3.28522915663984e-3, -3.29733271179118e-4, 9.49359199002013e-6]),
  (((6, 6, 6), (7, 7, 7)), [3.03362160948971, 6.77504231915319e-1, -4.24091233889805, -1.81334679571913, 1.11228906562864, 1.6285486298634,
    2.3661412244906e-1, -4.89035534584509e-1, -3.03587676944252, -6.75841310146438e-1, 5.17078653212733, 6.22762831722895e-1,
    -2.7832098536942, 2.46200276819328e-1, 5.30245763528276e-1, -2.4997419553228e-1, 3.15683470303345e-3, 3.53491968900572e-5,
    2.43285516705086e-5, -6.04672589045143e-7, 2.50924754240327e-1, 3.78462484068214e-3, -2.70266804942229e-4, 6.95318205075812e-6,
    -1.64082036372382e-1, -1.08050584645463e-2, 9.89913747460235e-4, -2.63503293433327e-5, -6.34540561815912e-2,
    1.65257433035628e-2, -1.50935992188093e-3, 4.13175745275019e-5, 6.01313877319951e-3, -8.23016011791335e-3, 9.11858046813359e-4,
    -2.68183334801756e-5, 1.29767908479782e-2, 1.17834201905349e-3, -1.84620509816777e-4, 6.03103654033375e-6]),
  (((6, 7, 7), (7, 8, 8)), [2.12385865882337, 4.74044354223475e-1, -2.99977384062353, -1.2555501639339, 8.68262219301665e-1, 1.10955379616466,
    1.00545811896135e-1, -3.25376451684869e-1, -2.12637527467441, -4.72658072904979e-1, 3.65807157566822, 4.21275004326982e-1,
    -2.03531704879034, 1.93377354094246e-1, 4.23420708429173e-1, -1.7919375451373e-1, 3.41557383754562e-3, -3.98019685831941e-5,
    2.94878041155324e-5, -6.99863327215579e-7, 1.63393281499294e-1, 4.38978641355387e-3, -3.12990543703609e-4, 8.13124005749152e-6,
    -8.68929795002197e-2, -1.43643508440773e-2, 1.25319281063828e-3, -3.28773674938564e-5, -7.68799950714483e-2,
    2.44796255659694e-2, -2.07667607661142e-3, 5.50642927198501e-5, 2.10635310205435e-2, -1.54231054175639e-2, 1.43635747575903e-3,
    -3.92796952010118e-5, 1.05789631145059e-2, 3.60867569614606e-3, -3.56443183089879e-4, 1.00254993475866e-5]),
  (((7, 7, 8), (8, 8, 9)), [-1.83521600141229, -4.10261916830584e-1, 2.67996591457741, 1.07487603020855, -9.09328077490233e-1, -9.31055842350944e-1,
    3.20879853916012e-3, 2.64164858454417e-1, 1.83830228971058, 4.08857690787345e-1, -3.25899680724326, -3.51845552262491e-1,
    1.91968615900074, -1.97060394974711e-1, -4.4268678430714e-1, 1.65087060925399e-1, -4.18961365788193e-3, 1.19991121079668e-4,
    -4.0603754425858e-5, 9.30776238069481e-7, -1.26405571229386e-1, -5.9059326714225e-3, 4.16110684796396e-4, -1.10045753498526e-5,
    4.93510765772025e-2, 2.13542164682614e-2, -1.78751106604858e-3, 4.6740893675691e-5, 1.03015480530432e-1, -3.90838402519374e-2,
    3.13620140862478e-3, -8.20132446684021e-5, -4.32374466960945e-2, 2.79425669662889e-2, -2.3614668246425e-3, 6.23072649664213e-5,
    -8.71378127294456e-3, -7.7976998663335e-3, 6.50555872238753e-4, -1.71341000713707e-5]),
  (((8, 8, 8), (9, 9, 9)), [5.99056108156441e-1, 2.16425973044164e-1, -8.03514907877571e-1, -5.69088550592824e-1, 5.1551763432933e-1, 5.04674415388056e-1,
    -1.17183321177471e-1, -1.45613373180289e-1, -6.02608653049302e-1, -2.15022696910756e-1, 1.17307137106926, 2.27183568672246e-1,
    -1.23175968653969, 7.25672272366796e-2, 5.09842290348333e-1, -1.68523124334413e-1, 4.88955277515131e-3, -2.01672325899373e-4,
    5.27804186274834e-5, -1.1618180644367e-6, -5.18655658279383e-2, 7.65058925681998e-3, -5.21358805180214e-4, 1.40328989947858e-5,
    2.31375689976277e-1, -2.94190075579488e-2, 2.35203819232003e-3, -6.14519617831983e-5, -2.1384745905165e-1, 5.64428836651379e-2,
    -4.29025967569151e-3, 1.11459456876668e-4, 7.2961004021002e-2, -4.40064341699517e-2, 3.4487017024807e-3, -8.9055221785775e-5,
    3.32979107543257e-3, 1.366869307939e-2, -1.02208066530909e-3, 2.59045072305332e-5]),
  (((2, 2, 2), (3, 3, 6)), [3.96366350499318, 1.21081183311923, -5.56762231786707, -3.50926018612597, 1.24027923431943, 3.44876627038278,
    7.76708614552489e-1, -1.13638033208001, -3.96269360518256, -1.20776626080562, 7.35615817785038, 1.56087779310018,
    -4.99106632015915, 1.18956761174999e-1, 1.31760884554926, -6.64901984580326e-1, 2.70265488880742e-3, 2.54167414371651e-4,
    2.91515972437268e-6, -1.75336915420058e-7, 1.574755927984e-1, 1.86096827833057e-3, -1.23323243073014e-4, 2.94349786621319e-6,
    2.05814722357299e-1, -1.91382539983002e-3, 1.96043169198788e-4, -5.91507510462006e-6, -2.75122036541078e-1,
    -3.59983840467858e-3, 9.19312265876157e-5, 1.39954065172231e-6, -3.69784513705771e-2, 7.14352986880921e-3, -3.51153481253204e-4,
    4.75273349755366e-6, 1.46348441455056e-2, -2.86992643849973e-3, 1.57789093903397e-4, -2.61151123954221e-6]),
  (((2, 2, 2), (3, 3, 12)), [1.09569405921669, 4.53327742313695e-1, -8.69458223473977e-1, -1.2937702413637, 1.78239948251439e-1, 1.31434908490443,
    2.89080383174656e-1, -4.55794520135993e-1, -1.09661512263517, -4.51673973216571e-1, 1.58977277909167, 6.09828681372046e-1,
    -1.76686606888911, -9.61329699793359e-2, 7.49315341677805e-1, -3.54290393019408e-1, 2.89315176879881e-3, 2.37767300100376e-4,
    1.7533467687384e-5, -4.91703466865751e-7, -4.6198621855668e-2, 3.51195493043982e-3, -2.46304974166307e-4, 6.05725137709573e-6,
    4.11063859703134e-1, -8.40755579822658e-3, 8.00493290921231e-4, -2.09863969429372e-5, -2.62475125816473e-1, 1.14516297053478e-2,
    -1.14126400216326e-3, 3.10757925355771e-5, 1.28454533757823e-2, -5.21442550609911e-3, 6.55459729174026e-4, -1.93121033100343e-5,
    2.93820913330211e-3, 5.7189791962665e-4, -1.25142504058167e-4, 4.15776736744294e-6]),
  (((2, 2, 2), (3, 6, 6)), [2.27415369246848, 6.87051964317826e-1, -2.906532644484, -1.95382927601877, 6.26762636013123e-1, 1.90612075475626,
    4.22058439156731e-1, -6.27201133868517e-1, -2.27497907096434, -6.85016491691928e-1, 3.92925554014807, 8.42899375472339e-1,
    -2.74881821500736, 5.03899958671995e-2, 7.91044226868827e-1, -3.90749151318585e-1, 2.35969421872487e-3, 1.5166125172507e-4,
    8.36944971850097e-6, -2.68596018351308e-7, 8.28475099815497e-2, 2.19781500657567e-3, -1.5213841789141e-4, 3.67514195897042e-6,
    1.93197124364015e-1, -4.42690804753051e-3, 4.11506567301093e-4, -1.09707924604794e-5, -2.05281659933362e-1, 3.63181122486368e-3,
    -4.40101506993681e-4, 1.32774963316999e-5, -5.43213247717064e-3, 3.79762010725434e-4, 1.33561467467479e-4, -5.93017519151188e-6,
    5.85562487736765e-3, -8.4552898921399e-4, 1.19366888658718e-5, 6.04886414566997e-7]),
  (((2, 2, 2), (3, 6, 12)), [1.45711428717469, 3.79345607211065e-1, -1.80838801988371, -1.02246617773053, 5.00173290587974e-1, 9.4831092705832e-1,
    1.33438721808777e-1, -2.97981239209003e-1, -1.45862922701775, -3.781728802606e-1, 2.35683530195197, 3.8496072467597e-1,
    -1.54930462618775, 6.91340096346662e-2, 4.29982596584723e-1, -1.92406325199013e-1, 2.63708095273081e-3, 8.37540205445644e-5,
    2.16918348543406e-5, -5.28369417833344e-7, 7.93911143385322e-2, 3.33107986640394e-3, -2.34600720549181e-4, 5.86671079915824e-6,
    7.01481568716205e-2, -9.45881801101796e-3, 8.65996838922342e-4, -2.2274905590001e-5, -1.1722447879927e-1, 1.50883064509539e-2,
    -1.35368470023218e-3, 3.53529889803992e-5, 2.19228269475311e-2, -8.55278999254213e-3, 8.68076762072903e-4, -2.36720116070095e-5,
    1.87269310562354e-3, 1.68607102682949e-3, -1.95775117223111e-4, 5.60001914626679e-6]),
  (((2, 2, 2), (3, 12, 12)), [1.38387310618874e-1, 9.55965254603231e-2, -1.80320877975099e-1, -2.6888582321337e-1, 2.56705037114148e-1, 2.65114208170191e-1,
    -5.64932915669271e-2, -8.74550513743699e-2, -1.40111291572963e-1, -9.48400523593002e-2, 3.54977408558549e-1,
    1.34013961200359e-1, -6.30470327705896e-1, 6.9939842773968e-4, 2.91667452197786e-1, -1.05988401797715e-1, 2.61760499843661e-3,
    -2.15258621350382e-5, 3.16695501194685e-5, -6.14521791469028e-7, -5.1942799281693e-2, 3.77196725327215e-3, -2.2183905034596e-4,
    5.68604567122943e-6, 1.51850850984684e-1, -1.29093646782768e-2, 9.890669389713e-4, -2.39941838609328e-5, -1.06040359530616e-1,
    2.47232874746836e-2, -1.73719152035545e-3, 4.18868565743446e-5, 3.70021323321882e-2, -1.85245883357885e-2, 1.36347534128517e-3,
    -3.26953811691997e-5, -3.01411563317825e-4, 5.81636567915343e-3, -3.98815075465612e-4, 9.29565938824857e-6]),
  (((2, 2, 2), (6, 6, 6)), [1.30365956767415, 4.04742143947138e-1, -1.5009772598781, -1.13306463002599, 3.16563541011455e-1, 1.09992787119977,
    2.33930014479545e-1, -3.62059508861619e-1, -1.3047748727023, -4.03416387605182e-1, 2.11262216425893, 4.82156826744978e-1,
    -1.57821188108157, 1.31740334925099e-2, 5.04210581335472e-1, -2.41937493888934e-1, 2.06014542669338e-3, 8.86362845674465e-5,
    1.23372645091593e-5, -3.35037599324464e-7, 3.25273267213034e-2, 2.38025439446045e-3, -1.69686814560588e-4, 4.18558331397424e-6,
    1.76955499153299e-1, -5.89328830865488e-3, 5.52043054265674e-4, -1.44939642496496e-5, -1.56419496627933e-1, 7.72708804928279e-3,
    -7.6899265962905e-4, 2.1153138912263e-5, 6.5439507093394e-3, -3.13980698785231e-3, 4.19589094111326e-4, -1.27537000233863e-5,
    3.91436872706562e-3, 1.64468691213048e-4, -7.16306428671008e-5, 2.60670084803598e-6]),
  (((2, 2, 2), (6, 6, 12)), [9.69313938430882e-1, 2.39481910519004e-1, -1.33187155197051, -6.37754601349787e-1, 4.72978679180951e-1, 5.75444818406282e-1,
    1.90403525925378e-2, -1.73754480392963e-1, -9.70935463661557e-1, -2.38628375394792e-1, 1.67760424941279, 2.28909702114359e-1,
    -1.11008886501511, 7.63846215144944e-2, 2.98466090558403e-1, -1.19421360923316e-1, 2.49451702177867e-3, -2.65098906059939e-6,
    2.58239013782663e-5, -5.79619920233352e-7, 5.26999428715991e-2, 3.46468359943123e-3, -2.45985587932776e-4, 6.32510298708259e-6,
    2.53288258186367e-2, -1.13673056513463e-2, 1.01505604129914e-3, -2.60506437350839e-5, -7.88952628543248e-2, 2.0121848378098e-2,
    -1.71543359651796e-3, 4.4216130430925e-5, 2.96051015388309e-2, -1.34729019132557e-2, 1.23236291887608e-3, -3.23170259923243e-5,
    1.03231177585639e-3, 3.51438089639262e-3, -3.22542039637351e-4, 8.50191792307459e-6]),
  (((2, 2, 2), (6, 12, 12)), [9.97065966870546e-2, 5.81109213448232e-2, -2.34293612426661e-1, -1.57632370366886e-1, 3.34870559522734e-1, 1.4756635223056e-1,
    -1.08327187497869e-1, -4.51939022777532e-2, -1.01133806238832e-1, -5.75724895143917e-2, 3.40248596069865e-1,
    7.39552696041761e-2, -5.47051137290929e-1, 2.13659365955476e-2, 2.35853644759755e-1, -7.69357566137443e-2, 2.14715471405196e-3,
    -5.75132042693974e-5, 3.2469106119191e-5, -5.74523615571534e-7, -3.25599527899362e-2, 3.4304547902457e-3, -1.93793851458441e-4,
    5.70135495800715e-6, 8.34747238613064e-2, -1.38650632808454e-2, 1.0233622965498e-3, -2.64489100864207e-5, -7.24416803597826e-2,
    2.94744596969732e-2, -1.95372182973481e-3, 4.95930018109682e-5, 4.27162889105987e-2, -2.53796209741841e-2, 1.71814097330355e-3,
    -4.2104429716735e-5, -2.97616334981585e-3, 9.06671803656618e-3, -5.51806960076458e-4, 1.28738838522817e-5])]

/-- `Gottschalk_K_coeffs`, lines 252-343, rows 29 to 42. -/
def gottKTable3 : List (((ℤ × ℤ × ℤ) × (ℤ × ℤ × ℤ)) × List ℚ) := [
  (((2, 2, 2), (12, 12, 12)), [-8.83178597409363e-1, -1.16189639863513e-1, 1.83812952794056, 3.71505436452515e-1, -4.02668402977347e-1, -3.50918897721683e-1,
    -1.47426114588747e-1, 1.0652049321875e-1, 8.81679808601783e-1, 1.16613219813401e-1, -1.94813874470542, -1.24481139299373e-1,
    5.95953426765051e-1, -1.34052601470534e-1, 1.61476457017567e-1, -2.79539320292272e-2, 2.19201416222585e-3, -1.37402982282256e-4,
    3.68660232189071e-5, -4.2565812563192e-7, -1.47870666671157e-1, 3.53211174612161e-3, -9.82974900874897e-5, 5.58212331238644e-6,
    3.42691316702534e-1, -1.8918325839247e-2, 8.64501620282178e-4, -2.62287523563208e-5, -1.94609854105841e-1, 4.62116974677515e-2,
    -1.85302788180214e-3, 5.22143664549367e-5, 8.50648521530335e-2, -4.82284033624267e-2, 2.04977824941199e-3, -4.97462930409392e-5,
    -2.10435859132231e-2, 1.97001045973341e-2, -7.35139823987938e-4, 1.62051618577186e-5]),
  (((2, 3, 3), (6, 4, 4)), [2.48709160722113, 8.14623557716807e-1, -3.23743351698384, -2.3630089327231, 7.59964955462963e-1, 2.35378062409183,
    5.23024269786618e-1, -7.89822282665551e-1, -2.48721373609095, -8.12264201049929e-1, 4.46561563397715, 1.07263710070473,
    -3.39050681964737, 1.59816789769482e-2, 1.02740156662273, -5.10931805600228e-1, 2.40071619772779e-3, 2.19896049581253e-4,
    5.93987130148762e-6, -2.27457082279268e-7, 5.77274246024844e-2, 2.14205634129697e-3, -1.43453269249393e-4, 3.41089959172554e-6,
    2.87653835187192e-1, -3.53827133591083e-3, 3.35806313221199e-4, -9.1204222332036e-6, -2.50720767199628e-1, 1.19716689671888e-3,
    -2.60755648230157e-4, 9.15842347697722e-6, -1.49584341395779e-2, 2.58564140862829e-3, -2.52422249342803e-5,
    -2.35747954412039e-6, 8.44246105703105e-3, -1.50417848364801e-3, 5.94062968413987e-5, -4.55396025122914e-7]),
  (((2, 3, 3), (12, 4, 4)), [1.24951801300154, 4.36448527224609e-1, -1.22169406491795, -1.21800680296092, 3.77754494463151e-1, 1.20392499099074,
    2.01688958833152e-1, -4.06766775206736e-1, -1.25070240775823, -4.34996775504389e-1, 1.89877589500545, 5.35621470729081e-1,
    -1.81152056866076, -3.59482328587072e-2, 6.98310661322541e-1, -3.1821714273269e-1, 3.08636989358165e-3, 2.16691163621287e-4,
    2.54466709150315e-5, -6.38678370846716e-7, -7.33695724909097e-3, 4.31178421951461e-3, -3.00898437342642e-4, 7.37711234265972e-6,
    3.1617637676995e-1, -1.14719723239112e-2, 1.07324814563153e-3, -2.73910114827449e-5, -2.29323524728817e-1, 1.7659027149549e-2,
    -1.64210254879261e-3, 4.27141864501179e-5, 2.71578446373413e-2, -9.5842994261025e-3, 1.02767462572316e-3, -2.80527972643039e-5,
    1.10964649367046e-3, 1.72885216258023e-3, -2.24068099842389e-4, 6.47619439863572e-6]),
  (((2, 3, 3), (3, 4, 12)), [1.08515588732856, 3.42545784500216e-1, -1.18731309554769, -9.51980371678003e-1, 2.55421628989362e-1, 9.21948571326576e-1,
    1.8730276894822e-1, -3.03496918109531e-1, -1.08636751610855, -3.41346834757617e-1, 1.70946661253488, 4.02760421903787e-1,
    -1.32903110074566, 5.03279593951682e-3, 4.46986416530592e-1, -2.09931132888596e-1, 2.09878661519496e-3, 7.2253129325027e-5,
    1.48723054407663e-5, -3.96416545786189e-7, 1.95490811810503e-2, 2.60407313868554e-3, -1.93038577378348e-4, 4.90795244773349e-6,
    1.76881959694213e-1, -6.94181504813532e-3, 6.69216999667853e-4, -1.79327577854916e-5, -1.48851369631199e-1, 9.9182000866181e-3,
    -9.92343380647303e-4, 2.75541035710687e-5, 1.10763015554817e-2, -4.88886046883175e-3, 5.9885202688977e-4, -1.78442608543239e-5,
    2.82716571058687e-3, 6.87753428486073e-4, -1.23543591528254e-4, 4.0588521864943e-6]),
  (((2, 3, 3), (3, 12, 12)), [-4.86828860318145e-1, -3.59695148597922e-2, 9.94826631715215e-1, 1.17379951486997e-1, -3.14754325987821e-1,
    -1.17822885223364e-1, -5.44343869293285e-2, 4.09658325098212e-2, 4.84617214522467e-1, 3.66995786013807e-2, -9.90710671764797e-1,
    -1.78153973166789e-2, 2.77217223791506e-1, -6.12985476582742e-2, 1.24247097432409e-1, -1.83674168246447e-2, 2.78829090624218e-3,
    -1.1972255407564e-4, 1.30533879004854e-5, -1.94920910522441e-7, -1.16139979519636e-1, 3.04229535027922e-3, -9.59483560933801e-5,
    1.40651457700316e-6, 2.64169698199423e-1, -1.16713160655013e-2, 4.27434723198751e-4, -5.81850730930622e-6, -1.67210547861327e-1,
    2.2654956799485e-2, -8.29738402915446e-4, 1.17483461994081e-5, 4.87935487317387e-2, -1.81975788032725e-2, 7.27828592833675e-4,
    -1.09389706269535e-5, -5.89016960559294e-3, 5.76352588652056e-3, -2.36719194534497e-4, 3.68691110803219e-6]),
  (((2, 3, 3), (6, 4, 12)), [9.16239079440861e-1, 2.670248091675e-1, -1.04628714645591, -7.20116742781652e-1, 2.94869837710342e-1, 6.71822703028398e-1,
    8.36227129479069e-2, -2.12116925239988e-1, -9.17910570810646e-1, -2.65997241367277e-1, 1.45096638093059, 2.83248833130712e-1,
    -1.08917350071499, 3.24495526861838e-2, 3.63199083229603e-1, -1.53312026381939e-1, 2.65949405696782e-3, 1.53321446773728e-5,
    2.38599687803906e-5, -5.66030933048115e-7, 2.10641077819625e-2, 3.57997932650982e-3, -2.60112294109363e-4, 6.52553625212725e-6,
    1.32929807268911e-1, -1.1119704409326e-2, 1.00751595341931e-3, -2.5736256299416e-5, -1.35381767828453e-1, 1.84221431880392e-2,
    -1.63660032546167e-3, 4.22839943350039e-5, 2.8888181259312e-2, -1.14736628054731e-2, 1.11683478187179e-3, -2.97108652552125e-5,
    5.22533894334409e-4, 2.62757156498259e-3, -2.7361624666361e-4, 7.46868947004047e-6]),
  (((2, 3, 3), (6, 12, 12)), [3.62233810329425e-1, 8.87130743371768e-2, -6.42988857304298e-1, -2.30293857640669e-1, 3.9808011654382e-1, 1.96223684708755e-1,
    -8.82865665899836e-2, -5.35010573278998e-2, -3.63324237248247e-1, -8.82868150751841e-2, 7.75246575461757e-1,
    7.78355765028675e-2, -6.25131460776503e-1, 5.85302687146412e-2, 1.87740140395139e-1, -6.03616403661383e-2, 1.56668117056168e-3,
    -4.82523094075185e-5, 2.10765124978158e-5, -3.88389983505791e-7, 1.26449648674566e-2, 2.63183563558014e-3, -1.40110351518417e-4,
    4.26432331978797e-6, 3.2485467332177e-3, -1.12166199925556e-2, 7.66446861156966e-4, -2.0425395461085e-5, -3.74099339120944e-2,
    2.43860209557876e-2, -1.52394553972708e-3, 3.95806316964056e-5, 3.17224992227935e-2, -2.14871722087591e-2, 1.37740454026846e-3,
    -3.43897121900452e-5, -7.22082616613121e-4, 7.75415320889334e-3, -4.54225723490659e-4, 1.0790508972411e-5]),
  (((2, 3, 3), (12, 4, 12)), [1.93683621730188e-1, 9.48779482693755e-2, -3.64844832816155e-1, -2.66172910293e-1, 3.89942482044822e-1, 2.57987547608128e-1,
    -9.31316239929594e-2, -8.31754629261784e-2, -1.95542673405236e-1, -9.41248700690705e-2, 5.29131008383508e-1, 1.2683367122436e-1,
    -7.28019896514351e-1, 1.85186369221915e-2, 2.94562582981135e-1, -1.03463142508332e-1, 2.89365724002995e-3, -4.30641727386958e-5,
    4.00404209546169e-5, -7.5329254496141e-7, -3.81059066793331e-2, 4.27157217867238e-3, -2.62950561587322e-4, 7.01879874681738e-6,
    1.10372592431047e-1, -1.53780367411504e-2, 1.23785618535204e-3, -3.07669706944828e-5, -9.14383864982385e-2, 3.05491297127976e-2,
    -2.23482369215476e-3, 5.51288354923897e-5, 4.75534266723821e-2, -2.40035683535319e-2, 1.81796279075947e-3, -4.42565928419984e-5,
    -2.87688971358848e-3, 7.86739583744526e-3, -5.46337376103078e-4, 1.28615141115004e-5]),
  (((2, 3, 3), (12, 12, 12)), [-8.56767998062606e-1, -1.12267389498899e-1, 1.7870583039741, 3.60356557040957e-1, -3.93632305606741e-1, -3.41833617233225e-1,
    -1.4444636777619e-1, 1.04343973357701e-1, 8.55302315505216e-1, 1.12682353659085e-1, -1.89257138985816, -1.21348718618692e-1,
    5.80374625099467e-1, -1.29298532607381e-1, 1.57448313482758e-1, -2.66399459572409e-2, 2.14067859106142e-3, -1.3417100028237e-4,
    3.57169280626644e-5, -4.15147429302012e-7, -1.44218633818161e-1, 3.489527036472e-3, -9.75396380099295e-5, 5.52748991005034e-6,
    3.34799128684898e-1, -1.87184218486069e-2, 8.53532270869974e-4, -2.60188125860166e-5, -1.91542258891948e-1, 4.57563731849018e-2,
    -1.83643417309804e-3, 5.19160567996224e-5, 8.41351006643513e-2, -4.77920633896694e-2, 2.03306110328374e-3, -4.95087251481629e-5,
    -2.0827231120957e-2, 1.95220112965983e-2, -7.3101945601521e-4, 1.6177465245824e-5]),
  (((2, 4, 4), (6, 5, 5)), [4.91204534465989e-1, 2.26304017799304e-1, -4.38421348511054e-1, -6.67990199531446e-1, 1.29877449161853e-1, 6.97682963144099e-1,
    1.53210914755645e-1, -2.47053308993017e-1, -4.91059468708496e-1, -2.25598039415752e-1, 7.99968593488144e-1, 3.34169184002644e-1,
    -9.61473845037152e-1, -5.72824049623809e-2, 4.01693462286826e-1, -1.94219444098941e-1, 9.09624043216534e-4, 1.22525176146468e-4,
    3.32714440129555e-6, -1.09222645065891e-7, -3.05117426445932e-2, 1.11965376669438e-3, -7.01014572108851e-5, 1.57038858274316e-6,
    2.05345788201177e-1, -2.20871372086511e-3, 1.92595329568378e-4, -4.68836152288209e-6, -1.21276820550299e-1, 2.31937624816292e-3,
    -2.27474239338451e-4, 5.90329477623958e-6, 4.65828223537391e-4, -4.05444533542914e-4, 8.85145423158105e-5, -2.77621309388821e-6,
    1.99836350242776e-3, -2.25014291599808e-4, -2.70369773653361e-6, 3.14413507033425e-7]),
  (((2, 4, 4), (12, 5, 5)), [6.1584914638805e-1, 1.98617740177515e-1, -7.16001183401718e-1, -5.51303482294393e-1, 3.45740693297912e-1, 5.42084214631653e-1,
    3.68551572065524e-2, -1.8250890291161e-1, -6.16486032057765e-1, -1.97956701015939e-1, 1.01617882502841, 2.3655411494593e-1,
    -9.69321978576558e-1, -2.13395546092422e-3, 3.48513445166778e-1, -1.521094486487e-1, 1.78546598021408e-3, 1.61267501914234e-4,
    1.81286435456859e-5, -3.99214620347555e-7, 7.11111182078135e-3, 2.54362576570711e-3, -1.61579234388868e-4, 3.86787159469427e-6,
    1.12976269514505e-1, -6.85210996790427e-3, 6.22523969531788e-4, -1.51891869684231e-5, -8.92860287126681e-2, 1.18186307366488e-2,
    -1.0064259460738e-3, 2.46438052695226e-5, 2.39956460284245e-2, -7.1394891911599e-3, 6.69876313476115e-4, -1.68592776526638e-5,
    -2.27033033862627e-3, 1.62092441566963e-3, -1.5923027534269e-4, 4.06672634417366e-6]),
  (((2, 4, 4), (3, 5, 6)), [8.60179559432272e-1, 2.39082381588957e-1, -1.30655669905293, -6.96119286773134e-1, 3.61350870408834e-1, 6.8404594309367e-1,
    1.38555618406409e-1, -2.25110274900307e-1, -8.59969253365382e-1, -2.38601673824359e-1, 1.64933755786758, 3.02979201097245e-1,
    -1.07689956700523, 4.17916726931973e-2, 2.52818278045959e-1, -1.31881863918e-1, 3.31435610895814e-4, 6.88305088921507e-5,
    -3.11289404537992e-7, -4.37600684255666e-9, 5.04905627978601e-2, 2.33406652535613e-4, -7.87114992992017e-6, 7.19992964013779e-8,
    -8.0062476243693e-3, 2.35098687456057e-4, -2.66291034912399e-5, 8.72240814063782e-7, -2.78938196699941e-2, -1.52698027871242e-3,
    1.20243013533934e-4, -3.04915077872761e-6, -8.3253718052763e-3, 1.99976868081913e-3, -1.45451485991949e-4, 3.42652357107563e-6,
    3.65901263458512e-3, -7.69983080940444e-4, 5.40911169933928e-5, -1.23220202903823e-6]),
  (((2, 4, 4), (6, 5, 6)), [3.56980325368053e-1, 1.70133609834162e-1, -2.81414561119148e-1, -4.99336781605009e-1, 7.98746154017452e-2, 5.2069945102643e-1,
    1.14227400749982e-1, -1.8436143821176e-1, -3.57056785042625e-1, -1.69555205822094e-1, 5.56465952288825e-1, 2.494216415633e-1,
    -7.11295280553578e-1, -4.59942872729783e-2, 3.09560847058793e-1, -1.4821673680888e-1, 8.39821545971598e-4, 9.21042212690359e-5,
    3.93890488882738e-6, -1.14256496111266e-7, -2.80332911961569e-2, 1.04983251432625e-3, -6.65753036358984e-5, 1.507908049701e-6,
    1.69873525515944e-1, -2.23301257703125e-3, 1.9441747117089e-4, -4.72519586485317e-6, -1.00160271973968e-1, 2.6636492858767e-3,
    -2.47239284389099e-4, 6.28867255032332e-6, 2.23812826669261e-3, -8.07321623418646e-4, 1.12988733167837e-4, -3.25955623749689e-6,
    1.55393488638503e-3, -8.62235882899663e-5, -1.14082026064556e-5, 4.88214211480545e-7]),
  (((2, 4, 4), (12, 5, 6)), [3.81611606718559e-1, 1.42184785993772e-1, -4.23463735619708e-1, -3.98265667611006e-1, 2.55230802969191e-1, 3.97003215671714e-1,
    1.47541226776169e-2, -1.35296084047536e-1, -3.82312093303591e-1, -1.41618986078523e-1, 6.47322471599422e-1, 1.79634506873435e-1,
    -7.31156686147419e-1, -9.43695708086487e-3, 2.87694820391925e-1, -1.22176420495934e-1, 1.63913794873621e-3, 1.15317095172871e-4,
    1.83972163719741e-5, -3.91225831392537e-7, -1.25584391243793e-2, 2.4013525595693e-3, -1.53529680429933e-4, 3.72438354165346e-6,
    1.16146039329991e-1, -6.75845595576977e-3, 6.11069809002963e-4, -1.49420223573592e-5, -8.27972265234808e-2, 1.18694686503274e-2,
    -1.00240383794607e-3, 2.45970049593262e-5, 2.36872194593818e-2, -7.45153935394033e-3, 6.88227847802134e-4, -1.72729512971862e-5,
    -2.24752337797969e-3, 1.82252721699177e-3, -1.70968806517803e-4, 4.3137475202377e-6])]

/-- `Gottschalk_K_coeffs`, lines 252-343, rows 43 to 56. -/
def gottKTable4 : List (((ℤ × ℤ × ℤ) × (ℤ × ℤ × ℤ)) × List ℚ) := [
  (((2, 4, 4), (3, 5, 12)), [-5.97093610896162e-1, -6.71204757487351e-2, 1.25096385595524, 1.95574776550001e-1, -6.06391701533152e-1, -1.89163616898622e-1,
    2.09421252070718e-2, 6.45920314485965e-2, 5.95636844601141e-1, 6.75228357282237e-2, -1.29084144955009, -4.58478433558307e-2,
    6.23308359733981e-1, -7.5815089286732e-2, 3.36503655595912e-2, 1.62484211846014e-2, 1.87086656690265e-3, -1.45274475145892e-4,
    1.0007051514465e-5, -1.87688841818771e-7, -1.20667157279832e-1, 2.53917975501182e-3, -1.49933936941148e-4, 2.76113899482843e-6,
    2.91439464491417e-1, -1.03896147336924e-2, 6.28470826678137e-4, -1.15493528062968e-5, -2.03094504010782e-1, 1.79011070351042e-2,
    -1.09497567554037e-3, 2.0197068418111e-5, 4.54118791241198e-2, -1.31922040564109e-2, 8.24359966560333e-4, -1.53234172694203e-5,
    -9.06491465702085e-3, 3.43814630829309e-3, -2.20545332202168e-4, 4.14056772704528e-6]),
  (((2, 4, 4), (6, 5, 12)), [1.01991154602003e-1, 4.99965673575524e-2, -6.98317980390611e-2, -1.38757443409212e-1, 3.79445385381475e-2, 1.36253796927304e-1,
    1.04563179097763e-2, -4.53000509893121e-2, -1.0249972978008e-1, -4.97215395499016e-2, 1.55150359145498e-1, 6.50561954228087e-2,
    -2.21885965021889e-1, -6.28872246234061e-3, 1.07322890186776e-1, -4.2924054483729e-2, 8.34241883501578e-4, 5.35101424420289e-6,
    7.5963106013026e-6, -1.6597639675141e-7, -1.53975827203754e-2, 1.13631611779534e-3, -7.56474061442282e-5, 1.80813881796296e-6,
    6.80042235029781e-2, -3.57545833332568e-3, 2.96743470084059e-4, -7.13142309157723e-6, -4.77193463835041e-2, 6.11921151840211e-3,
    -4.88831369188543e-4, 1.17984458581119e-5, 9.61034907956349e-3, -3.98185305394863e-3, 3.41430679571209e-4, -8.39851461334603e-6,
    4.20071260574455e-4, 9.74905027600016e-4, -8.61094053252308e-5, 2.14314531781881e-6]),
  (((2, 4, 4), (12, 5, 12)), [-2.09695206894546e-1, -3.09754265626545e-3, 2.91045341498151e-1, -5.01432180340567e-3, 6.83642490228425e-2, 2.62915872327176e-2,
    -5.44178705880776e-2, -1.55141332038803e-2, 2.08860781602899e-1, 3.41886113744042e-3, -2.69537830656682e-1, 3.38925256380776e-2,
    -1.51893050511876e-1, -2.96286698033317e-2, 1.40057946983659e-1, -4.81379046998367e-2, 1.39508414040478e-3,
    -8.88195292666131e-6, 2.29919007918845e-5, -3.8630820129972e-7, -5.7073388424807e-2, 2.09709787930512e-3, -1.20152198297556e-4,
    3.23634422922683e-6, 1.11314956385403e-1, -7.51485303407415e-3, 6.04115020543755e-4, -1.4602904472557e-5, -6.22370821192072e-2,
    1.52057115410645e-2, -1.09075078679351e-3, 2.62726031448054e-5, 2.72930242512747e-2, -1.21577077832499e-2, 9.06706904484323e-4,
    -2.14686102307834e-5, -3.69151554051496e-3, 4.11049707652176e-3, -2.75421407629884e-4, 6.26489976446065e-6]),
  (((2, 4, 4), (3, 6, 6)), [8.32655713692796e-1, 2.00889344294448e-1, -1.2857812790724, -5.71416097546068e-1, 3.41453112665828e-1, 5.43053425493171e-1,
    1.05864128243013e-1, -1.72330777612701e-1, -8.32610149702538e-1, -2.00540856935938e-1, 1.56240442556432, 2.27798095370094e-1,
    -8.85629967261642e-1, 6.13031695719897e-2, 1.63567485093516e-1, -8.81392848015631e-2, 2.42385910897431e-4, 4.84625072614216e-5,
    -1.62751020802502e-7, -1.62885415624419e-9, 6.7315028728091e-2, 1.31037459003385e-4, -1.57054654614569e-6, -6.20389399266864e-8,
    -5.95508672339105e-2, 3.48491027468919e-4, -3.72209213181191e-5, 1.14757593984801e-6, -2.58758125265569e-3,
    -1.41821236980964e-3, 1.21559539969829e-4, -3.20714474011889e-6, -7.48813739194626e-3, 1.78560257706096e-3,
    -1.38329905959666e-4, 3.39081538976428e-6, 3.48527486314943e-3, -6.95406126810956e-4, 5.09298830789506e-5, -1.19750227058292e-6]),
  (((2, 4, 4), (6, 6, 6)), [5.50044820457894e-1, 1.69986349329987e-1, -6.42359617533748e-1, -4.77388776652787e-1, 1.74210455041752e-1, 4.6757750635147e-1,
    8.79856723191283e-2, -1.55703564235411e-1, -5.50237807902202e-1, -1.69522218009148e-1, 8.96465957289513e-1, 2.04496531249592e-1,
    -7.04071542793948e-1, 2.60490157392315e-3, 2.29027448136188e-1, -1.0919916205179e-1, 7.49208952029533e-4, 6.64802598847208e-5,
    4.30343677602492e-6, -1.15667788456553e-7, 1.62485665706853e-2, 9.44384031588509e-4, -6.19514849588484e-5, 1.4393627411238e-6,
    7.12538697129558e-2, -2.23545163477761e-3, 1.98465674695492e-4, -4.88387200183926e-6, -6.16910515347356e-2, 3.01907624155874e-3,
    -2.74980347076635e-4, 6.98696871589424e-6, 3.35032516022842e-3, -1.21854498066516e-3, 1.43952855318841e-4, -3.99812048093187e-6,
    1.30083882787558e-3, 5.38381528089374e-5, -2.18244707836736e-5, 7.32018154717498e-7]),
  (((2, 4, 4), (12, 6, 6)), [2.11607078160344e-1, 9.92875201498942e-2, -2.20261085226307e-1, -2.82187377697246e-1, 1.91640990088229e-1, 2.86672246329899e-1,
    -1.73924313784798e-3, -9.92385038091065e-2, -2.12332904291173e-1, -9.88038504109267e-2, 3.8477680694673e-1, 1.35761605720543e-1,
    -5.51752895380944e-1, -1.34340781904021e-2, 2.37758264630812e-1, -9.81125982304681e-2, 1.50289447979908e-3, 7.79228529151552e-5,
    1.837191114235e-5, -3.79350386600452e-7, -2.51195379745565e-2, 2.2473927620945e-3, -1.44777116452186e-4, 3.56905914826533e-6,
    1.12833500925654e-1, -6.59662309845822e-3, 5.94573260014122e-4, -1.46027324351625e-5, -7.50659218353046e-2, 1.17877296145632e-2,
    -9.88826731477201e-4, 2.4371826731445e-5, 2.28149171964114e-2, -7.68121996161952e-3, 6.99315652153725e-4, -1.7543667848563e-5,
    -2.1236379637054e-3, 2.00711891246567e-3, -1.80701875423722e-4, 4.52037932262624e-6]),
  (((2, 4, 4), (3, 6, 12)), [-1.23917131430615e-1, 5.00381328594561e-3, 4.98567925702175e-1, 1.74968106870966e-2, -4.95132417069142e-1, -5.90100648106972e-2,
    7.26420592984643e-2, 3.65852644830619e-2, 1.23652249930461e-1, -4.90663033059571e-3, -4.66214265324341e-1, -1.11913948117747e-2,
    4.51324774866426e-1, -1.10307166518962e-2, -6.7571671524175e-2, 4.26786003803108e-2, 1.64755920128342e-4, 4.96983846864711e-6,
    -6.92202635587918e-7, 2.12866005828315e-8, -3.99244837750804e-2, -1.89800176095346e-5, 1.27256465697378e-5,
    -4.95934616152374e-7, 1.1773265398001e-1, 3.16867973027892e-4, -8.47697820798933e-5, 3.09480096895179e-6, -8.61335657784796e-2,
    -8.38863100950171e-4, 1.73264894611628e-4, -6.29209932975937e-6, -2.53466988296046e-3, 8.66936634670435e-4,
    -1.43278377133637e-4, 5.19174824448699e-6, 3.13280152079527e-3, -3.21491265801214e-4, 4.24644858948031e-5, -1.51098551559716e-6]),
  (((2, 4, 4), (6, 6, 12)), [6.0215847320961e-2, 3.3571383595126e-2, -3.52072721054247e-2, -9.24097203465045e-2, 2.47838119776266e-2, 8.93077066111501e-2,
    2.41379233650454e-3, -2.89641234867262e-2, -6.06719848817142e-2, -3.33574353705144e-2, 9.48977812139591e-2, 4.358286598525e-2,
    -1.53016871330233e-1, -2.70559104075035e-3, 7.88830653976906e-2, -2.97508344577938e-2, 6.85900400054328e-4,
    -8.21697161993512e-6, 6.4966593949711e-6, -1.41912096049595e-7, -1.40994192757057e-2, 9.63137253284757e-4, -6.56309336913592e-5,
    1.6136790695229e-6, 5.35618289117815e-2, -3.23072460329314e-3, 2.67010498108573e-4, -6.55674278385255e-6, -3.83843584401637e-2,
    5.67259123351159e-3, -4.52016045406961e-4, 1.1142161821666e-5, 8.07608818600311e-3, -3.8894703789569e-3, 3.29021147016226e-4,
    -8.22483566085715e-6, 6.34803145534977e-4, 1.02290237975559e-3, -8.73432394888271e-5, 2.19578879393271e-6]),
  (((2, 4, 4), (12, 6, 12)), [-2.4178660149815e-1, -1.49117053707695e-2, 3.57056849730785e-1, 3.12682437157919e-2, 2.91595975333472e-2, -1.10802442129413e-2,
    -5.42419305842602e-2, -2.70276748125275e-3, 2.41011853905201e-1, 1.51867666791938e-2, -3.54040019898747e-1, 1.5770823904288e-2,
    -7.1864596842137e-2, -3.16024093788306e-2, 1.16863697119513e-1, -3.79130516448454e-2, 1.25327831896936e-3, -2.71779960438541e-5,
    2.13928652480253e-5, -3.54801665300065e-7, -5.60986658858459e-2, 1.91411906638116e-3, -1.12148149656427e-4, 3.15659389921402e-6,
    1.08010473072534e-1, -7.27101186277293e-3, 5.82586664646004e-4, -1.44532500509218e-5, -6.02085606551382e-2, 1.49752747657491e-2,
    -1.06961505146852e-3, 2.64014111422041e-5, 2.64184177878643e-2, -1.24427209050183e-2, 9.13362366902146e-4, -2.19801280499873e-5,
    -3.95624911864406e-3, 4.33511498337914e-3, -2.82907853783377e-4, 6.5149071994837e-6]),
  (((2, 4, 4), (3, 12, 12)), [-1.40154248354409e-1, -2.70108858253865e-2, 2.16032205599418e-1, 7.52329148981298e-2, -6.54554620388331e-2,
    -7.08701909103844e-2, -1.11834261455601e-2, 2.26339683948197e-2, 1.39978937812919e-1, 2.70114909484695e-2, -2.47222411804713e-1,
    -2.65955584406365e-2, 1.22065965946e-1, -8.34547187989307e-3, -1.45476777337756e-2, 8.37676315384955e-3, 3.04262725569157e-5,
    -5.61727542081234e-5, -1.479425789573e-7, -1.14837125065981e-7, -1.73718432749862e-2, -4.89982435812539e-5,
    -5.49948169657893e-5, 2.37586857351841e-6, 2.17247018434462e-2, -4.94004863131147e-4, 2.09820396219459e-4, -9.65867297499206e-6,
    -1.95367177726693e-3, 1.15977265277072e-3, -4.03297727165886e-4, 1.74231346290208e-5, -4.89697536587161e-3,
    -1.75652210493007e-3, 3.5064115151929e-4, -1.40548898653275e-5, 3.10981135747112e-3, 6.64715634097249e-4, -1.11939999334647e-4,
    4.21979109515617e-6]),
  (((2, 4, 4), (6, 12, 12)), [-1.43002488260432e-1, -1.38593257254311e-2, 1.86838298899772e-1, 3.0505728493596e-2, -2.78965022869596e-2, -2.17691411355536e-2,
    -1.21040859657748e-2, 5.10939619533897e-3, 1.42742668800566e-1, 1.3927725769116e-2, -1.92847635952159e-1, 2.51462689333148e-3,
    2.33390155270139e-2, -1.04605985509581e-2, 2.17614093420152e-2, -6.70004540914016e-3, 2.60579922682018e-4, -1.39659707891835e-5,
    1.19458496268926e-6, -5.71851090672802e-8, -2.81617218981588e-2, 2.07557848685943e-4, -3.13374955849746e-5, 9.47111790806825e-7,
    3.96004069873538e-2, -7.31230536469562e-4, 9.09840347914744e-5, -2.88136970018528e-6, -1.06189952248461e-2, 1.5206723192537e-3,
    -1.36020710491831e-4, 3.99568039747105e-6, 1.82538964105668e-4, -1.72566508103577e-3, 1.12445106458065e-4, -2.84003122899236e-6,
    1.41958328629995e-3, 7.93049609599446e-4, -4.28946646969033e-5, 9.48381769220892e-7]),
  (((2, 4, 4), (12, 12, 12)), [-5.21186762803597e-1, -7.22468152201332e-2, 1.00388318723651, 2.11407379627084e-1, -2.6157058863642e-1, -1.89002300849658e-1,
    -5.09017316977841e-2, 5.44923315558143e-2, 5.20491731303394e-1, 7.24211156334381e-2, -1.07528134780895, -6.15146286286645e-2,
    3.69565424499587e-1, -7.53114449752636e-2, 5.69867874864746e-2, -7.67575667423953e-3, 1.04001544775923e-3, -9.49698841201949e-5,
    1.82975693958675e-5, -2.87482433619943e-7, -8.40567662888255e-2, 1.78628907521573e-3, -1.06600421306041e-4, 3.74140024997038e-6,
    1.80224345182521e-1, -8.59193660035758e-3, 5.88552250520365e-4, -1.63410332385771e-5, -9.75026533657871e-2, 1.88812574121145e-2,
    -1.12155673812469e-3, 3.01780148095638e-5, 3.58947207146298e-2, -1.82780222664168e-2, 1.04932672959003e-3, -2.59109299641838e-5,
    -9.09807625495854e-3, 6.96880219720734e-3, -3.38350687496064e-4, 7.80260054835809e-6]),
  (((2, 5, 5), (6, 6, 6)), [-1.2443313836045, -2.18037864677534e-1, 1.94896947954401, 5.68033717144563e-1, -3.96466363297229e-1, -4.63643477340207e-1,
    -8.87627005743088e-2, 1.19492737749341e-1, 1.24637754005121, 2.17186449397032e-1, -2.21370003518629, -1.55276222175775e-1,
    7.77804265556897e-1, -1.47808337865195e-1, 2.83811262841364e-2, -7.940360380262e-3, -2.04413954141805e-3, 1.57879372423254e-4,
    -1.08052544526961e-5, 2.36117503841845e-7, -1.44068296442951e-1, -1.75614688895284e-3, 1.19961524497256e-4,
    -2.72085927280262e-6, 2.1412629503371e-1, 6.72176891197353e-3, -4.81948944848886e-4, 1.11444377014996e-5, -3.02660484796293e-2,
    -1.13157053348494e-2, 8.25416011883538e-4, -1.93673347755933e-5, -1.1448504699229e-2, 7.8508575179079e-3, -5.96029292139187e-4,
    1.43116140471199e-5, -2.83674859568024e-4, -1.85840684262438e-3, 1.49795414236868e-4, -3.71573576040264e-6]),
  (((2, 5, 5), (12, 6, 6)), [1.85663488502183, 2.48205566454942e-1, -3.82987792767809, -7.26634100838795e-1, 1.59763733642308, 6.78543151343123e-1,
    -2.29090102438894e-4, -2.14839125786112e-1, -1.8533660203626, -2.49005738118609e-1, 4.03810604108396, 2.12910172908566e-1,
    -1.85592633853643, 2.49283162695484e-1, -7.63743517339514e-2, -3.39005847948168e-2, -3.60888261888781e-3, 1.99544366630417e-4,
    -1.95243050750337e-6, -5.99706976147194e-9, 3.22994709746769e-1, -1.58626339868597e-3, 2.87909252755141e-5, 5.6198625757535e-7,
    -7.35385014522256e-1, 5.80010915706459e-3, -1.2321556594444e-5, -5.02300973585606e-6, 4.2896147912712e-1, -9.68516669391749e-3,
    1.8574525432819e-6, 9.3900918385712e-6, -7.40313282940066e-2, 8.05264259914837e-3, -5.2403003361575e-5, -6.18713192116812e-6,
    1.69856903352722e-2, -2.58068240273147e-3, 4.03629113041276e-5, 1.16055038425933e-6])]

/-- `Gottschalk_K_coeffs`, lines 252-343, rows 57 to 70. -/
def gottKTable5 : List (((ℤ × ℤ × ℤ) × (ℤ × ℤ × ℤ)) × List ℚ) := [
  (((3, 3, 4), (4, 4, 6)), [-3.70723211735836, -9.90149551648389e-1, 5.22132514352838, 2.79356963197773, -1.17508435423355, -2.66039314737498,
    -5.62710051981868e-1, 8.48855976831706e-1, 3.70880761212462, 9.8736229780126e-1, -6.65236163608207, -1.13950299042143,
    4.02600805574203, -2.08537097233115e-1, -9.31650595631495e-1, 4.66970619035377e-1, -2.90568973442556e-3, -1.2314459266569e-4,
    -8.27236618539623e-6, 2.58285845563832e-7, -2.1783141871083e-1, -2.21964640989811e-3, 1.50604265978083e-4, -3.52663476121474e-6,
    -1.10663536210512e-2, 4.22801683092204e-3, -3.72863049039343e-4, 9.66821420958472e-6, 1.83779061373971e-1, -2.14824173317675e-3,
    3.07969187656688e-4, -9.74127069736471e-6, 1.22209387316334e-2, -2.09538016668006e-3, 5.86461478424338e-6, 2.44018224990944e-6,
    -7.9989345325479e-3, 1.42224003024994e-3, -5.77829443034891e-5, 5.1446440322664e-7]),
  (((3, 3, 4), (4, 4, 12)), [-2.46238572126454, -5.57980619244945e-1, 3.35007965347792, 1.49271583687058, -8.52159884980992e-1, -1.348431675459,
    -2.11856990041501e-1, 4.09205448826163e-1, 2.46394420924314, 5.56623355875623e-1, -4.11767277988911, -5.16699861287642e-1,
    2.24179576256967, -1.80621211432981e-1, -4.46394009986152e-1, 2.12627589229555e-1, -2.36704106163026e-3, -5.88105370307554e-5,
    -1.80493033686186e-5, 4.72479124624985e-7, -2.01234167984236e-1, -2.88238591928955e-3, 2.15186570739545e-4,
    -5.64511608621298e-6, 1.08337777749093e-1, 8.04239652838452e-3, -7.81142571401022e-4, 2.14045045678398e-5, 6.58218803857033e-2,
    -1.2045307964084e-2, 1.18654759571041e-3, -3.35746350477213e-5, -9.85946143615434e-3, 5.95393833401949e-3, -7.1945322085656e-4,
    2.19230633907763e-5, -5.40375465088119e-3, -8.46848341548514e-4, 1.48198319580398e-4, -5.0052620909248e-6]),
  (((3, 3, 4), (4, 12, 5)), [-1.9557632122988, -4.92072148133158e-1, 2.47229166645376, 1.31873671733275, -6.66786731004371e-1, -1.20899763742613,
    -1.64162514551636e-1, 3.74093784399791e-1, 1.95794701838131, 4.90544425713515e-1, -3.17897259580157, -4.83413328087803e-1,
    1.99873500367457, -1.1076377766386e-1, -5.31185188899832e-1, 2.33862956465584e-1, -3.54040215779458e-3, -5.19364397550688e-5,
    -2.94159731604247e-5, 7.22637455797058e-7, -1.15262730498011e-1, -4.55938140777668e-3, 3.37265942488174e-4,
    -8.52785857205587e-6, -6.64351745018453e-2, 1.38203618215011e-2, -1.28510454883613e-3, 3.33586446357346e-5, 1.53216397392864e-1,
    -2.23675817891824e-2, 2.05756363711104e-3, -5.42252629704953e-5, -3.47721678466647e-2, 1.33224290584703e-2,
    -1.36567414626935e-3, 3.73655544308738e-5, -9.11969023126531e-4, -2.80696266706339e-3, 3.21537699550561e-4,
    -9.15346951776783e-6]),
  (((3, 3, 4), (4, 12, 6)), [-1.75063404153814, -4.27078357043118e-1, 2.31779962651943, 1.14351169636672, -6.8951928911037e-1, -1.04285961872176,
    -1.15701846590095e-1, 3.20387232029645e-1, 1.75256163017855, 4.25786119115329e-1, -2.92558923126779, -4.12062315505222e-1,
    1.81886891904327, -1.16576429530665e-1, -4.55636856475177e-1, 1.99971808925751e-1, -3.00131541717177e-3, -4.84030727699399e-5,
    -2.64177284708294e-5, 6.30259602614324e-7, -1.12429953079002e-1, -3.89822133001925e-3, 2.78880923467243e-4,
    -7.11789717997897e-6, -1.43114674597095e-2, 1.16966565861497e-2, -1.07555491308172e-3, 2.80367785779837e-5, 1.03704699577865e-1,
    -1.92844995543357e-2, 1.7286313900359e-3, -4.57202921359017e-5, -2.51649374492313e-2, 1.14033211016594e-2, -1.14729353127812e-3,
    3.15491913248303e-5, -3.85174004161254e-3, -2.45611058735632e-3, 2.71263212089194e-4, -7.74238384579979e-6]),
  (((3, 3, 4), (4, 12, 12)), [-1.34529699327074, -2.63785498837472e-1, 2.25216208018484, 6.947607931459e-1, -9.49921621022124e-1, -5.97920779256215e-1,
    8.01585352879578e-2, 1.67915969628222e-1, 1.3467476339645, 2.63095093993141e-1, -2.59686164211103, -2.12600037261421e-1,
    1.51019462550852, -1.72734968564147e-1, -2.77770034466109e-1, 1.03940456403553e-1, -2.11768639183897e-3, 8.3693544516459e-6,
    -2.7072623162141e-5, 5.19585786277139e-7, -1.29231504227771e-1, -3.1893231033386e-3, 1.73069491803784e-4, -5.05537736399785e-6,
    1.76549680595249e-1, 1.22247058227215e-2, -8.9656722541705e-4, 2.3686884846284e-5, -2.11838663516901e-2, -2.57368269054963e-2,
    1.70727964507714e-3, -4.43324376508274e-5, -2.7923256866622e-2, 2.07532240261204e-2, -1.43450620397336e-3, 3.64879367392959e-5,
    -4.12208441377565e-3, -7.06532430369278e-3, 4.45975779511816e-4, -1.08654857170312e-5]),
  (((3, 3, 4), (12, 12, 5)), [-3.73457750381787e-1, -1.29676479721794e-1, 7.23963371739668e-1, 3.57956252861244e-1, -6.0045438061866e-1, -3.35252029167953e-1,
    1.3640167889823e-1, 1.03505623606793e-1, 3.75524614061058e-1, 1.28837602860571e-1, -9.34420081872603e-1, -1.54558748973411e-1,
    1.01265897676182, -5.19602335661278e-2, -3.62793683549584e-1, 1.25477857197397e-1, -3.20825378999436e-3, 4.30736947876764e-5,
    -4.86800809473181e-5, 8.77552854801117e-7, 2.19706245497869e-2, -5.01473492561039e-3, 2.94903134619364e-4, -8.40377778652096e-6,
    -8.23018242051513e-2, 1.91975206602116e-2, -1.50378468661596e-3, 3.86229962690682e-5, 9.05943476340654e-2, -3.99612682979313e-2,
    2.81286608503239e-3, -7.14170552704677e-5, -5.7871474730641e-2, 3.30449712715675e-2, -2.39285476121989e-3, 5.93215727945123e-5,
    2.77260167845904e-3, -1.14415136038611e-2, 7.4883665597758e-4, -1.77984423495278e-5]),
  (((3, 3, 4), (12, 12, 6)), [-8.92888257907262e-2, -7.54121884790714e-2, 2.39537633566702e-1, 2.06771660135776e-1, -4.47445160594219e-1,
    -1.98406432981125e-1, 1.51075754643444e-1, 6.2618146516152e-2, 9.13015970482732e-2, 7.46514782332996e-2, -3.82130581099023e-1,
    -1.03034217005597e-1, 7.41380453364799e-1, -2.023377083277e-2, -3.36713421161724e-1, 1.10808809179064e-1, -3.06469236586434e-3,
    7.53047325190886e-5, -4.78459676594834e-5, 8.39373961650945e-7, 5.35355942728083e-2, -4.89635832236788e-3, 2.79430859395526e-4,
    -8.24413303654614e-6, -1.32408001795295e-1, 1.96370476738143e-2, -1.47237378587553e-3, 3.80714635351109e-5, 1.07235231719759e-1,
    -4.16930724714279e-2, 2.79279286626529e-3, -7.09291049876758e-5, -6.0728321565621e-2, 3.58575368729939e-2, -2.45029751655069e-3,
    6.00428922282653e-5, 4.42977636956611e-3, -1.28480378469399e-2, 7.86996866719787e-4, -1.83481993903654e-5]),
  (((3, 3, 4), (12, 12, 12)), [2.08007714944721, 2.9056878662043e-1, -4.02726290146672, -8.65875426815881e-1, 1.09959599490991, 7.99382170240862e-1,
    2.21214990456289e-1, -2.41645268255637e-1, -2.07694104027817, -2.91349155921737e-1, 4.31277304927115, 2.65301711987658e-1,
    -1.56114619119143, 2.850049456825e-1, -2.02651715864942e-1, 7.34187953888068e-3, -4.58436707702941e-3, 4.09116507647152e-4,
    -6.86969133343579e-5, 1.09804992565025e-6, 3.4039125925139e-1, -7.93573907985139e-3, 4.481285555133e-4, -1.55477280814619e-5,
    -7.33042115963881e-1, 3.88471756085526e-2, -2.50753706769947e-3, 7.05250230325453e-5, 4.24292888548302e-1, -8.63791296635536e-2,
    4.95445946577486e-3, -1.34909294291026e-4, -1.69852311302924e-1, 8.43819545265799e-2, -4.72956959875976e-3, 1.18748465190379e-4,
    4.38391133590594e-2, -3.21512747434537e-2, 1.56410189103109e-3, -3.68863125898188e-5]),
  (((3, 4, 5), (4, 6, 6)), [-2.14219478867797, -5.56388919625945e-1, 2.99246666861995, 1.56050552792949, -6.90346254451689e-1, -1.4800800461682,
    -3.09933996249723e-1, 4.71157065424091e-1, 2.1433061024435, 5.54872146001321e-1, -3.78916509620776, -6.2475237563451e-1,
    2.26386315404466, -1.22182944094495e-1, -5.11063920974932e-1, 2.5980310371642e-1, -1.77210854130973e-3, -8.0658259992082e-5,
    -7.11765599284802e-6, 2.10475982334403e-7, -1.35629351861916e-1, -1.51294249167547e-3, 1.0618460490532e-4, -2.62338421768196e-6,
    1.15510623042698e-2, 2.89311481718744e-3, -2.84639008432022e-4, 7.84117453762884e-6, 9.27883878526808e-2, -2.08300583195941e-3,
    2.89162668743261e-4, -9.29644363830471e-6, 7.71454861342198e-3, -9.80421293908016e-4, -5.72517068578153e-5, 3.728898068383e-6,
    -6.79507628932415e-3, 9.40236151986013e-4, -2.68565325103317e-5, -1.45767730530102e-7]),
  (((3, 4, 5), (4, 12, 6)), [-1.21902179831164, -2.80821798466656e-1, 1.67045540510032, 7.46312523249024e-1, -4.47951284486611e-1, -6.64463812838236e-1,
    -7.75837976689802e-2, 1.96783662000676e-1, 1.22049225567537, 2.79985525876706e-1, -2.06467322806163, -2.56818114708237e-1,
    1.15984461209493, -1.01829708341753e-1, -2.5515349613363e-1, 1.09398409665885e-1, -2.03804054071654e-3, 1.91742709575192e-5,
    -1.61857770997474e-5, 3.82880549561906e-7, -8.77438180158896e-2, -2.53028285134185e-3, 1.80229739880724e-4,
    -4.50218354880871e-6, 2.46068787954735e-2, 8.13276676152605e-3, -7.02683200184421e-4, 1.78361609480486e-5, 6.15647253659263e-2,
    -1.34443610796056e-2, 1.14196732015797e-3, -2.93445944947554e-5, -1.44475164820968e-2, 8.19622317113485e-3,
    -7.68461586290086e-4, 2.04348538009053e-5, -4.76032654861324e-3, -1.77204524402337e-3, 1.82811021415525e-4,
    -5.04857232845483e-6]),
  (((3, 4, 5), (12, 5, 6)), [-1.63271256346943, -3.82932572717439e-1, 2.25003321403445, 1.01924336680223, -7.59723676631457e-1, -9.20912855778278e-1,
    -5.56591736233016e-2, 2.79716784302978e-1, 1.63456410342381, 3.81785111829883e-1, -2.78617256743849, -3.5704145331517e-1,
    1.73590545560485, -1.23167469609902e-1, -4.22652963536268e-1, 1.77955511584026e-1, -3.08187044505806e-3, -5.92965809707587e-5,
    -3.07259319433022e-5, 7.00763838017694e-7, -1.14001174231705e-1, -4.18102888770165e-3, 2.9655396530925e-4, -7.57130222782881e-6,
    1.98097124394237e-2, 1.30261909368773e-2, -1.19747869230353e-3, 3.08112792627994e-5, 8.52303455502681e-2, -2.26488119441082e-2,
    1.98934843139378e-3, -5.1529207741515e-5, -3.65019331939101e-2, 1.4432978747918e-2, -1.38200808490245e-3, 3.67023098506245e-5,
    1.4155777884032e-5, -3.51219416499762e-3, 3.46625609290817e-4, -9.34397192810614e-6]),
  (((3, 4, 5), (12, 6, 6)), [-1.10866639533126, -2.86653801320056e-1, 1.51158838923164, 7.6949978430239e-1, -5.82572253938012e-1, -7.05429420564972e-1,
    -1.74810653960033e-2, 2.17519557871802e-1, 1.11053674901065, 2.85617430037238e-1, -1.93055227799086, -2.8649110652376e-1,
    1.37205620618919, -7.81325962128602e-2, -3.93683770014842e-1, 1.59343318605052e-1, -3.02859560049896e-3, -2.90123768013228e-5,
    -3.26528344961927e-5, 7.22796464876294e-7, -5.11421021086301e-2, -4.28985547478083e-3, 3.01281782754085e-4,
    -7.72797434672319e-6, -5.54686128782265e-2, 1.37766209230673e-2, -1.24484916727146e-3, 3.18769622874759e-5, 1.02371589331025e-1,
    -2.44338727209491e-2, 2.09767138878792e-3, -5.39739939735774e-5, -3.8321374402762e-2, 1.62255296876574e-2, -1.50024090102108e-3,
    3.93049677373676e-5, -8.45659675249376e-5, -4.22969623450116e-3, 3.91081490940473e-4, -1.02883695387754e-5]),
  (((3, 4, 5), (12, 12, 6)), [4.2203613437989e-2, -4.63335107636355e-2, 2.75528009716038e-2, 1.31534272217594e-1, -3.42087182912597e-1, -1.34181082708579e-1,
    1.34142202669116e-1, 4.48603062761677e-2, -4.04901449965272e-2, 4.56894014940592e-2, -1.28624097636404e-1, -7.92690573906222e-2,
    5.65425812909721e-1, -2.64944117363612e-3, -2.89243848880775e-1, 9.5013372768925e-2, -2.64407728826519e-3, 5.84134557217785e-5,
    -4.24332883671585e-5, 7.3202103294125e-7, 6.15321345678612e-2, -4.20633176378622e-3, 2.41549724721815e-4, -7.09698954927768e-6,
    -1.35787760567445e-1, 1.67788436936331e-2, -1.28123355174222e-3, 3.29980700166847e-5, 9.79436862084936e-2, -3.56701864314341e-2,
    2.43382166312832e-3, -6.17471652517643e-5, -5.39425120706943e-2, 3.06296750502488e-2, -2.13544293233678e-3, 5.2394328190349e-5,
    4.7667038811273e-3, -1.093356189693e-2, 6.82787902943595e-4, -1.59712727293293e-5]),
  (((3, 5, 6), (12, 6, 7)), [-2.12814715223691e-2, -4.84337190386468e-2, -1.38344596278707e-2, 1.45773172190172e-1, -1.20206150863916e-1, -1.611561015259e-1,
    1.38067022036716e-2, 6.03939789155916e-2, 2.1746435502608e-2, 4.81115844181384e-2, -7.50058967264267e-2, -8.45815027483801e-2,
    3.33241683585711e-1, 2.46447128048056e-2, -1.69164016866576e-1, 6.96687761422579e-2, -1.07167130607716e-3, -7.11190305954515e-5,
    -1.54363521609418e-5, 2.94628474786885e-7, 3.28219350853335e-2, -1.65371381133966e-3, 9.90454875679007e-5, -2.41773064348888e-6,
    -9.52570228946231e-2, 4.65658151252258e-3, -4.22189707197008e-4, 1.01013147818037e-5, 5.35990877578541e-2, -8.5395049750275e-3,
    7.01457075306429e-4, -1.68617538052863e-5, -2.01463885031864e-2, 5.57139209776242e-3, -5.00423481358254e-4, 1.22135708678633e-5,
    3.68700463831534e-3, -1.54863214274899e-3, 1.31518409918407e-4, -3.15093310580818e-6])]

/-- `Gottschalk_K_coeffs`, lines 252-343, rows 71 to 84. -/
def gottKTable6 : List (((ℤ × ℤ × ℤ) × (ℤ × ℤ × ℤ)) × List ℚ) := [
  (((4, 4, 6), (5, 6, 7)), [2.42471171246963, 5.98111578304175e-1, -3.31735119312623, -1.64575748101567, 7.42003029245372e-1, 1.52913756429282,
    3.09568017351098e-1, -4.76732246240731e-1, -2.42640777103813, -5.96483371589587e-1, 4.16352791539664, 6.24952315163663e-1,
    -2.35921218612033, 1.5463672332988e-1, 5.02988814568644e-1, -2.52282959083865e-1, 2.35532432889201e-3, 5.48800038070352e-5,
    1.33340873960453e-5, -3.60907282214358e-7, 1.68740067305738e-1, 2.35592265962969e-3, -1.72048387217972e-4, 4.36001418709393e-6,
    -4.10496463725966e-2, -5.67976648511862e-3, 5.48800889082219e-4, -1.49261682107265e-5, -9.70076400748637e-2,
    6.79760990957715e-3, -7.26990795947437e-4, 2.11671506795766e-5, -3.39571874688551e-3, -1.78237431676329e-3, 3.48893496190224e-4,
    -1.19991770663113e-5, 9.13225520140507e-3, -4.39710995973377e-4, -3.92452237293553e-5, 2.15206924094776e-6]),
  (((4, 4, 6), (5, 12, 7)), [1.59957513034679, 3.58307559889558e-1, -2.29472902464574, -9.44834286681192e-1, 7.5678913473334e-1, 8.31610685285424e-1,
    2.92194897515472e-2, -2.4256684587858e-1, -1.60178542973245, -3.57183086889964e-1, 2.79437388522168, 3.15173293500077e-1,
    -1.63761424718046, 1.52337610733654e-1, 3.66362563019571e-1, -1.46359958591074e-1, 3.14906029578788e-3, -3.37799247125936e-5,
    2.967016921719e-5, -6.67590917299572e-7, 1.17577117597625e-1, 4.20995972876501e-3, -2.93030783609522e-4, 7.48601665748881e-6,
    -5.44399369418769e-2, -1.42033255671242e-2, 1.2164597826502e-3, -3.09916618501428e-5, -7.11263497693859e-2, 2.52520987553995e-2,
    -2.07015043033801e-3, 5.29355298649815e-5, 3.12661736516941e-2, -1.69755346739686e-2, 1.49052016126997e-3, -3.87875493884272e-5,
    5.07831104863488e-3, 4.42414471667195e-3, -3.90561595111934e-4, 1.02314632555724e-5]),
  (((4, 4, 6), (6, 6, 7)), [3.28421180700385, 6.96283590676994e-1, -4.75812081795107, -1.87077251010954, 1.20170794356358, 1.67319064346826,
    2.7248259139476e-1, -4.98546431362431e-1, -3.28591498813726, -6.94794717724197e-1, 5.68658795951568, 6.29100060059805e-1,
    -2.84262659742446, 2.86535104409979e-1, 4.34911314453089e-1, -2.19895800764603e-1, 2.35861875817155e-3, 6.18055199281139e-5,
    1.34266269779516e-5, -3.39253372432458e-7, 3.08640288441451e-1, 2.17491379438731e-3, -1.50098157384575e-4, 3.63163209138049e-6,
    -2.96937302315386e-1, -5.25830023287318e-3, 4.8456419469028e-4, -1.22800859717657e-5, -7.94170734495787e-4, 6.73591799196108e-3,
    -6.41521169384202e-4, 1.69190341990938e-5, -4.78896150386373e-3, -1.69519536719705e-3, 2.81604412964891e-4,
    -8.65042611340179e-6, 1.0504382046927e-2, -4.87979529125309e-4, -1.83036190623158e-5, 1.15811670880611e-6]),
  (((4, 4, 6), (6, 12, 7)), [1.02964203214523, 2.63990673536201e-1, -1.44589510691442, -7.0148918649314e-1, 5.64960258103912e-1, 6.28169484723506e-1,
    -1.22082532862556e-2, -1.86770253690626e-1, -1.03190921866327, -2.62925437026585e-1, 1.83766437603691, 2.54039798406648e-1,
    -1.28927936765939, 9.386342657498e-2, 3.72678815892472e-1, -1.41315656261048e-1, 3.26115481676049e-3, -5.36681647084225e-5,
    3.35191590994787e-5, -7.37442797842412e-7, 4.14231288937743e-2, 4.63209367671081e-3, -3.21003421595738e-4, 8.28247088588293e-6,
    5.65566917461913e-2, -1.6077784618375e-2, 1.36531258416409e-3, -3.4817693742448e-5, -1.07004911902727e-1, 2.92725705763162e-2,
    -2.36683897412724e-3, 6.04270447448226e-5, 3.82366879186164e-2, -2.06553844891843e-2, 1.76546802122237e-3, -4.54999253150743e-5,
    3.75930849861333e-3, 5.77013398428882e-3, -4.83262176143273e-4, 1.24015937342744e-5]),
  (((4, 4, 6), (12, 12, 7)), [-2.4422481620296e-1, 2.17017916035434e-2, 3.20648439864878e-1, -5.57187097857241e-2, 3.06299165372921e-1, 6.04840330472082e-2,
    -1.87786415301081e-1, -2.04780032733642e-2, 2.41989020673614e-1, -2.09201693134567e-2, -2.37096739753885e-1,
    5.65949668837112e-2, -5.02953250408204e-1, -1.38066402617652e-2, 3.48823656001662e-1, -1.05664982753525e-1, 3.34586436248273e-3,
    -1.23207890961148e-4, 5.29813392566204e-5, -9.11902271460746e-7, -1.012602324747e-1, 5.55173817264656e-3, -3.15614988610061e-4,
    9.68893200158688e-6, 2.16971090643527e-1, -2.35688238883361e-2, 1.71899980712069e-3, -4.54460651970228e-5, -1.50008062225452e-1,
    5.11179232988955e-2, -3.34177469278489e-3, 8.64651574307884e-5, 7.71433357063696e-2, -4.57172578110295e-2, 3.02533966673539e-3,
    -7.4870727614896e-5, -8.54360635167774e-3, 1.67489972510378e-2, -9.92204789447278e-4, 2.33042927325621e-5]),
  (((4, 5, 7), (6, 6, 8)), [1.72741918308744, 3.83013942203293e-1, -2.42113776385364, -1.02828951990159, 5.80744865617337e-1, 9.22571607180167e-1,
    1.55339706893613e-1, -2.75922605730259e-1, -1.7286080428227, -3.82105506970524e-1, 2.9443275649863, 3.54014214999646e-1,
    -1.52304279862932, 1.41508229422945e-1, 2.72358698409495e-1, -1.31343882328208e-1, 1.67238651181296e-3, 1.3602327670043e-5,
    1.21773676551029e-5, -3.12571794381223e-7, 1.46127325622587e-1, 1.93862573940292e-3, -1.45160307271972e-4, 3.74910383355509e-6,
    -1.00910409597743e-1, -5.58169656550434e-3, 5.26798579314799e-4, -1.4143334750904e-5, -3.83730202310875e-2, 8.26725963166158e-3,
    -7.96516318504453e-4, 2.20743016516345e-5, 2.44890436160024e-3, -3.97729128970506e-3, 4.76488033481586e-4, -1.42583611042317e-5,
    6.77679002738495e-3, 4.49701529700884e-4, -9.30967839895484e-5, 3.16573817973124e-6]),
  (((4, 5, 7), (12, 6, 8)), [6.85589084539524e-1, 1.86442039920399e-1, -1.03412963464955, -5.04638551228071e-1, 5.1222784022504e-1, 4.64064702652484e-1,
    -3.98369448059543e-2, -1.42598915178705e-1, -6.87205620885474e-1, -1.85658191067657e-1, 1.31502660963412, 1.93810511185249e-1,
    -1.0452124050241, 6.34211351749864e-2, 3.1632855636268e-1, -1.21849399576737e-1, 2.43190258206402e-3, -7.26244445314874e-6,
    2.82642678725269e-5, -5.81996778203648e-7, 1.91803349190628e-2, 3.54626147724021e-3, -2.2785553524634e-4, 5.94736894493391e-6,
    4.56991489915694e-2, -1.2079802255907e-2, 1.00138188496591e-3, -2.5352010962079e-5, -6.86307445497723e-2, 2.27653341548192e-2,
    -1.75151715417748e-3, 4.42616701331217e-5, 2.98139811591405e-2, -1.64270855343967e-2, 1.33288263661068e-3, -3.3777130141571e-5,
    2.66316042536848e-3, 4.90996713150256e-3, -3.76056349478232e-4, 9.35072692855379e-6]),
  (((4, 5, 5), (6, 6, 6)), [2.24147610513806, 6.02055116983178e-1, -2.87641046633289, -1.66412500966842, 6.22923914070024e-1, 1.57109431803582,
    3.24775720015451e-1, -5.00312674919727e-1, -2.24326515961366, -6.00245064098009e-1, 3.75247253549786, 6.59766289693429e-1,
    -2.34702623342117, 1.01056540824634e-1, 6.02095012225147e-1, -2.94260153802399e-1, 2.71218914436578e-3, 7.29540385545158e-5,
    1.61359627880213e-5, -4.38931269903111e-7, 1.20406688048098e-1, 2.93285265300251e-3, -2.15758684330234e-4, 5.45301208460902e-6,
    8.56066809123827e-2, -7.35486168105023e-3, 7.0647859437964e-4, -1.90534432357053e-5, -1.56137076863385e-1, 9.42046369843523e-3,
    -9.77846550644861e-4, 2.78533134170535e-5, 4.00728293485119e-3, -3.51057439574123e-3, 5.23382700856309e-4, -1.67537765163827e-5,
    6.96252090494474e-3, 8.85329791162548e-6, -8.46750498311775e-5, 3.39751474308935e-6]),
  (((4, 5, 5), (12, 6, 6)), [2.10757089438872, 4.56257538523626e-1, -3.1058030088835, -1.20990175714815, 1.07557700614378, 1.07453527660576,
    3.6548080886521e-2, -3.18342010784468e-1, -2.10968631452471, -4.5501640071997e-1, 3.72546092667726, 4.0156616576636e-1,
    -2.15911992488224, 1.96768886123946e-1, 4.41660165127126e-1, -1.86095261781645e-1, 3.25169815956856e-3, 4.70428097476453e-5,
    3.33160679029189e-5, -7.39939884106178e-7, 1.76809549893196e-1, 4.32162763601032e-3, -2.93206267781705e-4, 7.65785552064696e-6,
    -1.40906320119016e-1, -1.3626085354725e-2, 1.21466996756827e-3, -3.15785896820714e-5, -3.51314278417602e-2, 2.44003895583237e-2,
    -2.04140652667883e-3, 5.33056099948611e-5, 2.99557397415148e-2, -1.57682052770709e-2, 1.43664042080153e-3, -3.83711016189579e-5,
    5.29147167077419e-3, 4.04928656547132e-3, -3.68271591758608e-4, 9.90579340515259e-6]),
  (((4, 6, 6), (6, 7, 7)), [9.98424008723157e-1, 2.52802293515746e-1, -1.29758192518085, -6.87444893656029e-1, 3.17273192120641e-1, 6.3666568663457e-1,
    1.08906810080517e-1, -1.98599605200764e-1, -9.99401436938611e-1, -2.52044355597286e-1, 1.65971517541259, 2.5921182853414e-1,
    -1.00965227266076, 5.64255149155451e-2, 2.5084857628435e-1, -1.16798042212264e-1, 1.51565063368185e-3, 2.40554311933963e-5,
    1.11186498587302e-5, -2.82324027470951e-7, 6.10946918632837e-2, 1.78063642424194e-3, -1.31141103639346e-4, 3.3162900149037e-6,
    1.9591498146828e-2, -5.03572944493089e-3, 4.7161965990809e-4, -1.23770477345939e-5, -6.45835134080525e-2, 7.61710055069952e-3,
    -7.19852042801623e-4, 1.93575454049974e-5, 7.40366772659415e-3, -3.96430593758295e-3, 4.43591461491892e-4, -1.26522752313313e-5,
    3.2031410971638e-3, 6.09501631077704e-4, -9.25941162151616e-5, 2.8771355151051e-6]),
  (((4, 6, 6), (12, 7, 7)), [5.40563537699066e-1, 1.55976455058877e-1, -8.2773319545766e-1, -4.29740375927118e-1, 4.51124796337535e-1, 4.06505204391334e-1,
    -3.31706250797056e-2, -1.29500876509379e-1, -5.41836945752523e-1, -1.55307512111538e-1, 1.06344286882181, 1.7457326993475e-1,
    -9.11222603539796e-1, 4.07371043962413e-2, 2.83602994300583e-1, -1.12737260630446e-1, 2.09603874128016e-3, 3.40818129601407e-5,
    2.72505148084715e-5, -5.45621772132865e-7, 1.03266353540452e-2, 3.06794661085578e-3, -1.94627230669998e-4, 5.11952106063117e-6,
    4.65351809683254e-2, -9.87825994217385e-3, 8.58485442087632e-4, -2.1813126962098e-5, -5.67380316298969e-2, 1.8644491605562e-2,
    -1.48173779876088e-3, 3.76838430491165e-5, 2.79170039709121e-2, -1.31236355539612e-2, 1.1124484186167e-3, -2.84636477704387e-5,
    2.11724033593322e-4, 3.90890106515983e-3, -3.0962140006745e-4, 7.7641719986874e-6]),
  (((4, 4, 4), (5, 5, 6)), [2.09066876605832, 7.00305205172485e-1, -2.54115357145426, -2.01562017178018, 4.96538161564588e-1, 2.00073937529836,
    4.78308733653519e-1, -6.7061215522251e-1, -2.09178807779157, -6.98038010355779e-1, 3.61494826543358, 9.08203460857226e-1,
    -2.7811270054017, 1.10653993888038e-3, 8.73587259399374e-1, -4.38949044796251e-1, 2.23609909490268e-3, 1.51097149111709e-4,
    1.10129442736985e-5, -3.46497092406433e-7, 2.75027898201453e-2, 2.49274624191111e-3, -1.81122954291999e-4, 4.6299396515325e-6,
    3.10142998400761e-1, -4.61775057635349e-3, 4.9029828898135e-4, -1.41874991849013e-5, -2.44600437119987e-1, 3.19935104647825e-3,
    -5.22836980952936e-4, 1.77924022347532e-5, -1.31979368622931e-2, 1.42374002051063e-3, 1.54957724813348e-4, -8.56575845178011e-6,
    9.7778994581081e-3, -1.31302112850423e-3, 1.66839380182426e-5, 1.12259833971293e-6]),
  (((4, 4, 4), (5, 6, 6)), [2.80825409360361, 7.39179789219227e-1, -3.76182467763305, -2.05608849322845, 8.7293102217713e-1, 1.94689147277941,
    3.96059198907514e-1, -6.21110048424397e-1, -2.81015642039096, -7.37000079487816e-1, 4.82659470268327, 8.16989465713922e-1,
    -2.96785161615455, 1.4078616854378e-1, 7.14981706463392e-1, -3.5636389484783e-1, 2.88489296900762e-3, 1.16533067840323e-4,
    1.28735532974487e-5, -3.53474440931333e-7, 1.68041027431493e-1, 2.55357679081748e-3, -1.74563202217657e-4, 4.14910780586812e-6,
    3.62387895130795e-2, -5.31315224693507e-3, 4.96723853295863e-4, -1.27611915321588e-5, -1.45739904279344e-1, 5.31541387304452e-3,
    -5.77233744262706e-4, 1.60783611176464e-5, -4.59436039826276e-3, -2.33715590420514e-4, 2.00607668599704e-4,
    -7.33576025833301e-6, 8.390320290042e-3, -9.12582433497657e-4, 7.30098242948148e-6, 7.17137042849203e-7]),
  (((4, 4, 4), (6, 6, 6)), [2.28704453837613, 6.23420825294131e-1, -2.89528161745118, -1.72381779815866, 6.22915421870956e-1, 1.63137937904704,
    3.37902828221505e-1, -5.21233955663722e-1, -2.28892637878413, -6.2151044841047e-1, 3.80685542335907, 6.87672520994337e-1,
    -2.42454925399041, 9.51147799877874e-2, 6.40634945624372e-1, -3.11685020389269e-1, 2.87786540442824e-3, 7.68627613323565e-5,
    1.73187684811669e-5, -4.72055988872222e-7, 1.16004646388561e-1, 3.15185773271094e-3, -2.32754957021284e-4, 5.89360269386325e-6,
    1.11576752739526e-1, -7.96450031776757e-3, 7.65609339541767e-4, -2.06702227528153e-5, -1.72425051475457e-1, 1.02901229020937e-2,
    -1.06582145230674e-3, 3.03444717002926e-5, 5.71433069158774e-3, -3.98560591008706e-3, 5.78317963837617e-4, -1.83981068308176e-5,
    6.66905997806971e-3, 1.02789098862284e-4, -9.70900352819812e-5, 3.78994297070215e-6])]

/-- `Gottschalk_K_coeffs`, lines 252-343, rows 85 to 90. -/
def gottKTable7 : List (((ℤ × ℤ × ℤ) × (ℤ × ℤ × ℤ)) × List ℚ) := [
  (((4, 4, 4), (5, 5, 12)), [2.10400894065802, 4.9347128571782e-1, -2.8309815078071, -1.31427690455168, 8.1396143276225e-1, 1.18552784412553,
    1.33355656625135e-1, -3.59118498161605e-1, -2.10623366060073, -4.92024462655871e-1, 3.52369358580079, 4.59498392000066e-1,
    -2.07639096804941, 1.54210358796116e-1, 4.80841121983828e-1, -2.11098605159052e-1, 3.33840719415964e-3, 3.27061547765378e-5,
    2.89247018994803e-5, -6.95443282249669e-7, 1.49912729692413e-1, 4.27315980884394e-3, -3.08479511514747e-4, 7.92278379809873e-6,
    -2.88608694823691e-2, -1.30103203937724e-2, 1.19435122299884e-3, -3.13120442226453e-5, -1.01605880615255e-1,
    2.14619773413301e-2, -1.92441421050299e-3, 5.11979259215601e-5, 2.70994004824335e-2, -1.27457500746471e-2, 1.28042470962859e-3,
    -3.54197457589606e-5, 4.58723590953162e-3, 2.75066935143207e-3, -3.03407264968036e-4, 8.71799262022716e-6]),
  (((4, 4, 4), (5, 6, 12)), [1.59300279608019, 3.95102847027918e-1, -2.12076977465298, -1.05555001918619, 6.64634454767674e-1, 9.58535721592745e-1,
    8.31826662459624e-2, -2.92383367716455e-1, -1.59523668135097, -3.93789428769852e-1, 2.6904700349523, 3.81209875872025e-1,
    -1.72231319846553, 1.13115541031027e-1, 4.50535980418951e-1, -1.90422624329005e-1, 3.31086179143518e-3, 6.13810751290889e-6,
    3.10095953822199e-5, -7.2483677217048e-7, 9.14915601377041e-2, 4.45146427192873e-3, -3.1763793344804e-4, 8.1769089295184e-6,
    3.66640661401226e-2, -1.4025602703347e-2, 1.26264036268026e-3, -3.28772560392929e-5, -1.13736964975119e-1, 2.38241244034205e-2,
    -2.07619946851404e-3, 5.46529037238005e-5, 3.01018179774281e-2, -1.49369798309964e-2, 1.43054247368578e-3, -3.87846791001815e-5,
    4.63103279378705e-3, 3.55897086509373e-3, -3.5609328875437e-4, 9.8651499649239e-6]),
  (((4, 4, 4), (5, 12, 12)), [9.7426249207394e-1, 2.15316799537894e-1, -1.69830685959792, -5.7180360180471e-1, 8.80773535430457e-1, 5.00684929238419e-1,
    -1.29333470581557e-1, -1.43169931354522e-1, -9.76111403498654e-1, -2.14521012575412e-1, 1.99880364574604, 1.9235246050193e-1,
    -1.39594676838876, 1.33485981967122e-1, 3.44008824416384e-1, -1.21452496451217e-1, 2.75340241894652e-3, -3.8327369934229e-5,
    3.91661848944953e-5, -7.25940777389933e-7, 6.68672924837183e-2, 4.36631715626199e-3, -2.43960521475298e-4, 7.21140327308856e-6,
    -7.05529670878929e-2, -1.72940394570158e-2, 1.2844890301359e-3, -3.38287543445531e-5, -2.87845837773862e-2, 3.67872914497333e-2,
    -2.46248423019562e-3, 6.36815941423171e-5, 4.59160706049164e-2, -3.08495302928968e-2, 2.1283367994665e-3, -5.34803919887172e-5,
    1.22522646638219e-3, 1.08292435977975e-2, -6.76563990898527e-4, 1.6227769133157e-5]),
  (((4, 4, 4), (6, 6, 12)), [1.79557081651173, 3.96650891685617e-1, -2.57041641719956, -1.04385265812719, 8.41018217806218e-1, 9.17521038702766e-1,
    3.5097965000494e-2, -2.67644268913609e-1, -1.79795285932241, -3.95419771097876e-1, 3.11853215645453, 3.44474276275012e-1,
    -1.79955285449388, 1.68028314554513e-1, 3.9077583802398e-1, -1.56774229630813e-1, 3.45869933286992e-3, -3.08282769500949e-5,
    3.39256973214047e-5, -7.71368381277e-7, 1.37755366311106e-1, 4.65724894356797e-3, -3.31873163675224e-4, 8.59688597826895e-6,
    -7.37799593649695e-2, -1.56171533743718e-2, 1.38006137841154e-3, -3.56748028406545e-5, -7.3610973803904e-2, 2.77550733169148e-2,
    -2.34593866686369e-3, 6.09033831962381e-5, 3.74434870034333e-2, -1.86089302631072e-2, 1.68714383537472e-3, -4.45973141194451e-5,
    3.26158780389532e-3, 4.84895256562969e-3, -4.4153902110903e-4, 1.17487048463485e-5]),
  (((4, 4, 4), (6, 12, 12)), [5.26585016899371e-1, 1.40290200037086e-1, -9.71161151794264e-1, -3.71417425361688e-1, 6.71635769757586e-1, 3.27384210270523e-1,
    -1.52402322285805e-1, -9.37306790186619e-2, -5.28508272956277e-1, -1.3953387048796e-1, 1.18470643391164, 1.36360417391982e-1,
    -1.05355010002278, 8.28582093897455e-2, 3.35284321968435e-1, -1.11127677454377e-1, 2.84815896047565e-3, -7.21529614889717e-5,
    4.19235564039182e-5, -7.52171366244631e-7, 8.17552465576421e-3, 4.65134583625585e-3, -2.53661202703718e-4, 7.69820041095422e-6,
    2.52765622631305e-2, -1.92526265203718e-2, 1.37693471821187e-3, -3.63863168392371e-5, -6.77965068743374e-2, 4.16297133807668e-2,
    -2.68090811469273e-3, 6.92855994315965e-5, 5.56656714454914e-2, -3.62860655519681e-2, 2.39170262475949e-3, -5.94668104376819e-5,
    -1.99395204912831e-3, 1.3114413804766e-2, -7.79717463888969e-4, 1.84139233254138e-5]),
  (((4, 4, 4), (12, 12, 12)), [-1.24210310396193, -1.59725506553029e-1, 2.60193506680308, 5.19196839945744e-1, -5.58524229711173e-1, -4.97671212949024e-1,
    -2.24037592516291e-1, 1.53912839719329e-1, 1.23991437175522, 1.60352910196943e-1, -2.74736064114001, -1.76852482240692e-1,
    8.1956936601163e-1, -1.83741422310728e-1, 2.4699047465386e-1, -4.22660445922953e-2, 3.18186809874449e-3, -1.93750789084718e-4,
    5.16422217935972e-5, -5.94605128815383e-7, -2.1330820667097e-1, 5.31405896303429e-3, -1.34971509208458e-4, 8.14206816038753e-6,
    4.97720726322018e-1, -2.87360094000296e-2, 1.24557723472852e-3, -3.86435412404371e-5, -2.89460246687436e-1, 7.06325150391368e-2,
    -2.7269299504777e-3, 7.7811939031864e-5, 1.28913776365168e-1, -7.40551432237739e-2, 3.06414023723629e-3, -7.48608079884618e-5,
    -3.16231452267994e-2, 3.03214856750955e-2, -1.11407204002267e-3, 2.46950448755328e-5])]

/-- `Gottschalk_K_coeffs`, lines 252-343. -/
def gottKTable : List (((ℤ × ℤ × ℤ) × (ℤ × ℤ × ℤ)) × List ℚ) :=
  gottKTable1 ++ gottKTable2 ++ gottKTable3 ++ gottKTable4 ++ gottKTable5 ++ gottKTable6 ++ gottKTable7

end Teqp.Model
