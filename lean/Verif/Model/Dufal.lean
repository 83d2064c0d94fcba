import Verif.Model.Assoc
import Verif.Model.Reducing

/-! # Association by the Dufal rule, and the factory of the association class

`/repo/include/teqp/models/association/association_types.hpp` lines 47-75, `association.hpp` lines 184-366 and the tables of
`/repo/src/data/Dufal_assoc.cpp`.

The combined parameters of two components are kept in `Eigen::ArrayXd` members, which have one column.  `resize(N, N)` and
element access with a column other than the first are outside the contract of that type: a build with Eigen's assertions
stops, a build without them allocates `N * N` numbers, addresses them by `row + column * N`, and copies only the first `N`
of them when the array is copied.  Both are modelled, by the parameter `asserts`. -/

set_option autoImplicit false

namespace Teqp.Model
open Finset

/-- `b_0`, `/repo/src/data/Dufal_assoc.cpp` lines 5-16. -/
def dufalB0 : List (List ℚ) := [
  [0.0132970702182068, -0.0177199122935443, 0.0293736747694974, -0.0205527304404423, 0.00861683420907605, -0.00228505275303600, 0.000390171133200072, -4.26035888869942e-5, 2.86246920519487e-6, -1.07315320963937e-7, 1.70912976772329e-9],
  [-0.0465504528847432, 0.332597325549352, -0.326575316241193, 0.144653671541451, -0.0363193315289496, 0.00569934220115537, -0.000581966173216051, 3.83608167089024e-5, -1.50305409953983e-6, 2.66749257811143e-8, 0],
  [0.164972499633366, -0.974898725377830, 0.919082550772666, -0.367978443660284, 0.0788054156983951, -0.00981102799831725, 0.000717901835772044, -2.91191052989125e-5, 5.17207032026779e-7, 0, 0],
  [-0.553080054304108, 1.07124021914524, -0.914915281734471, 0.328132391309741, -0.0577909160509185, 0.00539941935098940, -0.000249522541631115, 4.36324500072586e-6, 0, 0, 0],
  [0.697481173735912, -0.127802319197572, 0.238559496985344, -0.124364954974360, 0.0183583032370354, -0.00133946361388127, 3.68888649118614e-5, 0, 0, 0, 0],
  [-0.00682258598593205, -0.296768597044265, 0.346077751701231, 0.0122496582163678, -0.000805951611068984, 5.01775524378700e-5, 0, 0, 0, 0, 0],
  [-2.46482416179796, -1.45370322973416, -0.448827080921154, -0.00566229179136722, -0.000180870029200998, 0, 0, 0, 0, 0, 0],
  [8.78388694047369, 3.23807384513205, 0.281816142695178, 0.00340169105539079, 0, 0, 0, 0, 0, 0, 0],
  [-13.5178089781880, -2.48217551606281, -0.0783334040233511, 0, 0, 0, 0, 0, 0, 0, 0],
  [9.42415649943917, 0.687363680163044, 0, 0, 0, 0, 0, 0, 0, 0, 0],
  [-2.46151453173016, 0, 0, 0, 0, 0, 0, 0, 0, 0, 0]]

/-- `b_1`, `/repo/src/data/Dufal_assoc.cpp` lines 18-29. -/
def dufalB1 : List (List ℚ) := [
  [0.000556479463564548, -0.000282932524693843, -0.00212156862728691, 0.00224197388058698, -0.00115385075260200, 0.000345261305021541, -6.36772702454557e-5, 7.32538316171651e-6, -5.10881831259873e-7, 1.97049247692837e-8, -3.21285622252695e-10],
  [0.0492332122696642, -0.134456183191719, 0.108517185632299, -0.0425401431513956, 0.00954409805564329, -0.00131479859839035, 0.000113485041044446, -5.97590027689909e-6, 1.73112888670222e-7, -2.01831274082934e-9, 0],
  [-0.158447251265296, 0.430576656790814, -0.342386658999542, 0.126318819450003, -0.0257089028169037, 0.00310740070593876, -0.000226247702797060, 9.40337471999922e-6, -1.75927011626452e-7, 0, 0],
  [0.130961541597078, -0.358137806097004, 0.323521260711548, -0.113820803061658, 0.0192702466504444, -0.00169264438876774, 7.20470394807155e-5, -1.12895786020720e-6, 0, 0, 0],
  [-0.0678784049001058, -0.159716521155965, -0.0408260244006866, 0.0397261699377944, -0.00668853458452261, 0.000490515978818942, -1.26640904345952e-5, 0, 0, 0, 0],
  [0.611672146147809, 0.257963755040360, -0.150206376568020, 0.00387683716563604, 0.000113887448052591, -2.67212361539355e-5, 0, 0, 0, 0, 0],
  [-1.27512696874714, 0.421048118713917, 0.122792263121120, -0.00158386412295998, 0.000198370689434891, 0, 0, 0, 0, 0, 0],
  [0.269957785723510, -0.899401835359301, -0.0593934567946635, -0.00110977335239395, 0, 0, 0, 0, 0, 0, 0],
  [1.49379616940916, 0.628459498670159, 0.0177032259427776, 0, 0, 0, 0, 0, 0, 0, 0],
  [-1.50913781396606, -0.166624388301135, 0, 0, 0, 0, 0, 0, 0, 0, 0],
  [0.444942467424175, 0, 0, 0, 0, 0, 0, 0, 0, 0, 0]]

/-- `b_2`, `/repo/src/data/Dufal_assoc.cpp` lines 31-42. -/
def dufalB2 : List (List ℚ) := [
  [4.68753836985661e-5, -0.000201534029276569, 0.000408971640196116, -0.000334428221392103, 0.000154951071291061, -4.39272547633533e-5, 7.86877804626315e-6, -8.92538365355001e-7, 6.20541126317064e-8, -2.40904019797940e-9, 3.99225753392296e-11],
  [-0.00636142804034125, 0.0148870088793584, -0.0112930088940554, 0.00423537018032177, -0.000909633136025822, 0.000118406467168496, -9.31205117458790e-6, 4.07198179416416e-7, -7.24002263850399e-9, -2.85054817786792e-11, 0],
  [0.0211014984424621, -0.0495382445219106, 0.0371909493534914, -0.0132662359974178, 0.00264252348906371, -0.000316720398760111, 2.32682269109226e-5, -9.93969228161767e-7, 1.93247731973246e-8, 0, 0],
  [-0.0204522546881708, 0.0456627841733661, -0.0375241588712114, 0.0125888572116524, -0.00204736822270412, 0.000171672501041056, -6.91918528995779e-6, 1.02234151256019e-7, 0, 0, 0],
  [0.0267157884350682, 0.00604022182900132, 0.00822450412680841, -0.00502124889994980, 0.000803630265796884, -5.55280746686634e-5, 1.30402695735287e-6, 0, 0, 0, 0],
  [-0.131004401410042, -0.00985163509226622, 0.0128544254818812, -0.000216912930642026, -4.55721397631024e-5, 4.78472396442476e-6, 0, 0, 0, 0, 0],
  [0.260822991454304, -0.0626432527852684, -0.00959839254636274, 0.000223341727285368, -2.78886526475732e-5, 0, 0, 0, 0, 0, 0],
  [-0.179706752593973, 0.0989212484451187, 0.00388197187439871, 0.000151511550199890, 0, 0, 0, 0, 0, 0, 0],
  [-0.0315900588187112, -0.0607681438566115, -0.00141908354521815, 0, 0, 0, 0, 0, 0, 0, 0],
  [0.0926908832419059, 0.0151506077043458, 0, 0, 0, 0, 0, 0, 0, 0, 0],
  [-0.0312717011022248, 0, 0, 0, 0, 0, 0, 0, 0, 0, 0]]

/-- `b_3`, `/repo/src/data/Dufal_assoc.cpp` lines 44-55. -/
def dufalB3 : List (List ℚ) := [
  [-1.52750755540612e-6, 6.65734616244750e-6, -1.49163457856162e-5, 1.28251715836463e-5, -6.13363502620892e-6, 1.77374828289499e-6, -3.21719278338969e-7, 3.67816571475073e-8, -2.57070860278200e-9, 1.00187848111417e-10, -1.66615681224878e-12],
  [0.000352707112753263, -0.000761494022700993, 0.000551126114938543, -0.000197194099229223, 3.97623327839760e-5, -4.65836276873807e-6, 2.92850782905453e-7, -5.67255537711216e-9, -3.50155347187566e-10, 1.64319946681537e-11, 0],
  [-0.00127835416513710, 0.00272631887421459, -0.00195876152374924, 0.000680170219619246, -0.000133171449466011, 1.58508191731109e-5, -1.17119945008334e-6, 5.09014996522337e-8, -1.01109171728229e-9, 0, 0],
  [0.00164258140843764, -0.00294360803306568, 0.00215659810736663, -0.000685370482291315, 0.000107391347801278, -8.69254977310800e-6, 3.38632787324714e-7, -4.90436065438310e-9, 0, 0, 0],
  [-0.00296574649489361, 0.000737340818584580, -0.000762065788926240, 0.000315097078455367, -4.64683975120556e-5, 3.00942802764189e-6, -6.47808066443911e-8, 0, 0, 0, 0],
  [0.0104319873447675, -0.000775429459116355, -0.000379064014723981, -1.60783833898331e-5, 4.71880061366660e-6, -3.40226871507608e-7, 0, 0, 0, 0, 0],
  [-0.0195358884282327, 0.00420143444237083, 0.000297766652427410, -8.36498131244475e-6, 1.51044087021239e-6, 0, 0, 0, 0, 0, 0],
  [0.0164362361737192, -0.00527606737824625, -9.27089410962249e-5, -9.32930119768768e-6, 0, 0, 0, 0, 0, 0, 0],
  [-0.00439666318131193, 0.00287829011566385, 5.24103094975034e-5, 0, 0, 0, 0, 0, 0, 0, 0],
  [-0.00159566365617165, -0.000667764807450442, 0, 0, 0, 0, 0, 0, 0, 0, 0],
  [0.000861407443430205, 0, 0, 0, 0, 0, 0, 0, 0, 0, 0]]

/-- `b_4`, `/repo/src/data/Dufal_assoc.cpp` lines 57-68. -/
def dufalB4 : List (List ℚ) := [
  [-3.67201230932920e-8, 6.65433123492297e-8, 8.09753253026481e-8, -1.29349636796981e-7, 7.75034942364271e-8, -2.50442449553800e-8, 4.81969764886444e-9, -5.68335864091982e-10, 4.02544652605731e-11, -1.57057135789188e-12, 2.59018065150187e-14],
  [-1.00533098186312e-5, 2.04973785455268e-5, -1.42364525555262e-5, 4.84859626533717e-6, -9.03287394521535e-7, 8.95403985256519e-8, -3.05175477078061e-9, -2.51206227550094e-10, 2.85888337544568e-11, -8.35713691699930e-13, 0],
  [3.98289826660923e-5, -7.92066147384541e-5, 5.49066841157859e-5, -1.86402735397850e-5, 3.59640611239294e-6, -4.25136583233798e-7, 3.14701885589044e-8, -1.37942010763254e-9, 2.76625894833152e-11, 0, 0],
  [-6.22606152603800e-5, 9.78661859355705e-5, -6.54711127544114e-5, 1.98394792303955e-5, -3.01458972861098e-6, 2.38076581975360e-7, -9.12137235540096e-9, 1.33298781401136e-10, 0, 0, 0],
  [0.000124810638661335, -5.13612052054272e-5, 3.09432853737792e-5, -1.02009751236812e-5, 1.39714413579629e-6, -8.55034278983589e-8, 1.71150044927963e-9, 0, 0, 0, 0],
  [-0.000374044099050907, 5.60796050391817e-5, 1.84626127086989e-6, 1.34288528575647e-6, -1.94614655230730e-7, 1.14157863743549e-8, 0, 0, 0, 0, 0],
  [0.000672078359176232, -0.000138031320636187, -3.14894396008512e-6, 5.76785692862702e-8, -3.88710150387342e-8, 0, 0, 0, 0, 0, 0],
  [-0.000609145837554261, 0.000148275594790438, 2.61353677755675e-7, 2.91087061127825e-7, 0, 0, 0, 0, 0, 0, 0],
  [0.000252724106819134, -7.36076396864788e-5, -1.00642768627400e-6, 0, 0, 0, 0, 0, 0, 0, 0],
  [-2.49255867787548e-5, 1.59720037817341e-5, 0, 0, 0, 0, 0, 0, 0, 0, 0],
  [-7.70341617155424e-6, 0, 0, 0, 0, 0, 0, 0, 0, 0, 0]]

/-- `b_5`, `/repo/src/data/Dufal_assoc.cpp` lines 70-81. -/
def dufalB5 : List (List ℚ) := [
  [1.88048156944327e-9, -5.20041750295709e-9, 4.35881692094647e-9, -1.90967917025464e-9, 4.36098784939288e-10, -4.66145781784596e-11, 2.56821311477203e-13, 4.53836639240824e-13, -4.35569028016719e-14, 1.51660179879606e-15, -1.34231785680549e-17],
  [1.44492319539037e-7, -2.81833237588783e-7, 1.88795822312826e-7, -6.12284776821388e-8, 1.04054640162243e-8, -7.91894115995732e-10, -1.78097006314277e-11, 8.46173387258907e-12, -6.29468789021339e-13, 1.62914975397206e-14, 0],
  [-6.16808609401052e-7, 1.16624214027143e-6, -7.85736422030061e-7, 2.61841021616088e-7, -4.99004695268396e-8, 5.85970807128971e-9, -4.33266245043971e-10, 1.90360900947593e-11, -3.82506468133384e-13, 0, 0],
  [1.08977129458469e-6, -1.59381377689636e-6, 9.99496177147637e-7, -2.91595588554532e-7, 4.32652379690724e-8, -3.36277868350366e-9, 1.28216601435668e-10, -1.91702973428801e-12, 0, 0, 0],
  [-2.25971486750789e-6, 1.11917575440765e-6, -5.65159033070467e-7, 1.62627589914010e-7, -2.09918759575187e-8, 1.22756291392471e-9, -2.32414275161676e-11, 0, 0, 0, 0],
  [6.17883043382806e-6, -1.20280382926209e-6, 8.66499935530469e-8, -3.13263066251902e-8, 3.53265909236495e-9, -1.81505995831496e-10, 0, 0, 0, 0, 0],
  [-1.08048264112286e-5, 2.17366900821365e-6, -1.53022515538303e-8, 2.11500280833261e-9, 4.74260725560735e-10, 0, 0, 0, 0, 0, 0],
  [1.01466386059898e-5, -2.10287523493265e-6, 1.91184417519603e-8, -4.48828024315313e-9, 0, 0, 0, 0, 0, 0, 0],
  [-4.89026741776877e-6, 9.75457041464072e-7, 1.00074660431270e-8, 0, 0, 0, 0, 0, 0, 0, 0],
  [1.04333009405285e-6, -2.00783047336916e-7, 0, 0, 0, 0, 0, 0, 0, 0, 0],
  [-5.01517451094617e-8, 0, 0, 0, 0, 0, 0, 0, 0, 0, 0]]

/-- `b_6`, `/repo/src/data/Dufal_assoc.cpp` lines 83-94. -/
def dufalB6 : List (List ℚ) := [
  [-1.84421844661105e-11, 5.39073389353030e-11, -5.61963272868663e-11, 3.23187813505929e-11, -1.13265016166587e-11, 2.59326201844053e-12, -4.01407631594698e-13, 4.20546124661511e-14, -2.87018830339552e-15, 1.15159946184350e-16, -2.05485407533207e-18],
  [-8.27665331374217e-10, 1.55896078845997e-9, -1.01231143749898e-9, 3.13409590234525e-10, -4.81050397623846e-11, 2.30261130144263e-12, 3.82442150265529e-13, -7.05793035532524e-14, 4.59807633591802e-15, -1.12579371971295e-16, 0],
  [3.74547734805679e-9, -6.83326218348459e-9, 4.50304220343962e-9, -1.47842817249421e-9, 2.78924412091172e-10, -3.25532731205188e-11, 2.40008362810406e-12, -1.05309962007498e-13, 2.11144278824276e-15, 0, 0],
  [-7.12756897329521e-9, 1.00393010742688e-8, -6.02106444139650e-9, 1.70643459526364e-9, -2.48716300671280e-10, 1.91426474551801e-11, -7.31095625646731e-13, 1.12112566023581e-14, 0, 0, 0],
  [1.48400265810797e-8, -8.18214743502133e-9, 3.81858691213582e-9, -1.00814014221601e-9, 1.24324450815098e-10, -7.02051970613448e-12, 1.27771307749498e-13, 0, 0, 0, 0],
  [-3.82128399646057e-8, 8.61165773602971e-9, -1.03558713701492e-9, 2.39230607884171e-10, -2.35824243963634e-11, 1.10391700857033e-12, 0, 0, 0, 0, 0],
  [6.55633333711198e-8, -1.31376750286488e-8, 3.55287199097211e-10, -2.85768231341124e-11, -2.19531090111075e-12, 0, 0, 0, 0, 0, 0],
  [-6.26595167233416e-8, 1.18345081383843e-8, -1.95221464285268e-10, 2.70989222978676e-11, 0, 0, 0, 0, 0, 0, 0],
  [3.22964489272539e-8, -5.24025196193952e-9, -4.14196554462777e-11, 0, 0, 0, 0, 0, 0, 0, 0],
  [-8.35760085684382e-9, 1.03868339224250e-9, 0, 0, 0, 0, 0, 0, 0, 0, 0],
  [8.47595203890549e-10, 0, 0, 0, 0, 0, 0, 0, 0, 0, 0]]
/-- `DufalMatrices::bcoeffs`, `/repo/src/data/Dufal_assoc.cpp` lines 96-104. -/
def dufalB : List (List (List ℚ)) := [dufalB0, dufalB1, dufalB2, dufalB3, dufalB4, dufalB5, dufalB6]

/-- `bcoeffs.at(k)(i, j)`; the loops stay within the tables. -/
def dufalCoeff (k i j : ℕ) : ℚ := ((dufalB.getD k []).getD i []).getD j 0

/-- `get_I_Dufal`, `association.hpp` lines 299-320. -/
noncomputable def dufalI (Tstar rhostar lam : ℝ) : ℝ :=
  ∑ i ∈ range 11, ∑ j ∈ range (11 - i), (∑ k ∈ range 7, (dufalCoeff k i j : ℝ) * lam ^ k) * rhostar ^ i * Tstar ^ j

/-- The memory of an `Eigen::ArrayXd` member: its number of rows and the numbers allocated for it, `none` for one that is not
finite. -/
structure EigCol where
  rows : ℕ
  mem : List (Option ℝ)

/-- `resize(N, N)` and the assignment of every `(i, j)`, without assertions (`association_types.hpp` lines 58-72). -/
def EigCol.fill (N : ℕ) (f : ℕ → ℕ → Option ℝ) : EigCol := ⟨N, (List.range (N * N)).map fun k => f (k % N) (k / N)⟩

/-- A copy of the array: as many numbers as there are rows. -/
def EigCol.copy (a : EigCol) : EigCol := ⟨a.rows, a.mem.take a.rows⟩

/-- Element access by row and column, without assertions. -/
def EigCol.coeff (a : EigCol) (i j : ℕ) : Outcome ℝ :=
  match a.mem[i + j * a.rows]? with
  | none => .ub
  | some none => .nonFinite
  | some (some v) => .ok v

/-- The given members of `DufalData`, `association_types.hpp` lines 49-53. -/
structure DufalRaw where
  sigma : List ℝ
  eps : List ℝ
  lam : List ℝ
  kmat : SqMat
  epsHB : List ℝ
  KHB : List ℝ

/-- `DufalData` with the combined members, `association_types.hpp` lines 47-55. -/
structure DufalData where
  raw : DufalRaw
  sigma3 : EigCol
  epsK : EigCol
  lamR : EigCol
  epsHBK : EigCol
  K : EigCol

/-- A copy of the whole structure. -/
def DufalData.copy (d : DufalData) : DufalData := ⟨d.raw, d.sigma3.copy, d.epsK.copy, d.lamR.copy, d.epsHBK.copy, d.K.copy⟩

/-- A root, `none` of a negative number. -/
noncomputable def rootOpt (x : ℝ) : Option ℝ := if x < 0 then none else some (Real.sqrt x)

/-- The cube of the mean diameter, `association_types.hpp` line 67. -/
noncomputable def dufalSigma3 (d : DufalRaw) (i j : ℕ) : Option ℝ := some (((d.sigma.getD i 0 + d.sigma.getD j 0) / 2) ^ 3)

/-- The combined dispersion energy, `association_types.hpp` line 68. -/
noncomputable def dufalEps (R : ℝ) (d : DufalRaw) (i j : ℕ) : Option ℝ :=
  (rootOpt ((d.sigma.getD i 0 * d.sigma.getD j 0) ^ 3)).bind fun s =>
  (rootOpt (d.eps.getD i 0 * d.eps.getD j 0)).bind fun e =>
  let s3 := ((d.sigma.getD i 0 + d.sigma.getD j 0) / 2) ^ 3
  if s3 = 0 then none else some ((1 - d.kmat.val i j) * s / s3 * e / R)

/-- The combined repulsive exponent, `association_types.hpp` line 69. -/
noncomputable def dufalLam (d : DufalRaw) (i j : ℕ) : Option ℝ :=
  (rootOpt ((d.lam.getD i 0 - 3) * (d.lam.getD j 0 - 3))).bind fun s => some (3 + s)

/-- The combined association energy, `association_types.hpp` line 70. -/
noncomputable def dufalHB (R : ℝ) (d : DufalRaw) (i j : ℕ) : Option ℝ :=
  (rootOpt (d.epsHB.getD i 0 * d.epsHB.getD j 0)).bind fun s => some (s / R)

/-- The combined bonding volume, `association_types.hpp` line 71. -/
noncomputable def dufalK (d : DufalRaw) (i j : ℕ) : Option ℝ :=
  some (((cbrt (d.KHB.getD i 0) + cbrt (d.KHB.getD j 0)) / 2) ^ 3)

/-- `apply_mixing_rules`, `association_types.hpp` lines 57-74: stops if assertions are on and there is not exactly one
component; reads arrays shorter than the first one out of bounds. -/
noncomputable def dufalMix (asserts : Bool) (R : ℝ) (d : DufalRaw) : Outcome DufalData :=
  let N := d.sigma.length
  if asserts = true ∧ N ≠ 1 then .ub
  else if d.eps.length < N ∨ d.lam.length < N ∨ d.kmat.n < N ∨ d.epsHB.length < N ∨ d.KHB.length < N then .ub
  else .ok ⟨d, .fill N (dufalSigma3 d), .fill N (dufalEps R d), .fill N (dufalLam d), .fill N (dufalHB R d), .fill N (dufalK d)⟩

/-- The strength of two sites on the components `i` and `j`, `association.hpp` lines 355-359. -/
noncomputable def dufalPair (d : DufalData) (T rhostar : ℝ) (i j : ℕ) : Outcome ℝ :=
  (d.epsK.coeff i j).bind fun e =>
  (d.lamR.coeff i j).bind fun l =>
  (d.epsHBK.coeff i j).bind fun h =>
  (d.K.coeff i j).bind fun K =>
  if e = 0 ∨ T = 0 then .nonFinite else .ok ((Real.exp (h / T) - 1) * K * dufalI (T / e) rhostar l)

/-- The reduced density, `association.hpp` lines 325-335. -/
noncomputable def dufalRhostar (NA rho : ℝ) (x sigma : List ℝ) : ℝ :=
  rho * NA * ∑ i ∈ range x.length, ∑ j ∈ range x.length,
    x.getD i 0 * x.getD j 0 * ((sigma.getD i 0 + sigma.getD j 0) / 2) ^ 3

open Classical in
/-- `get_Delta` for the Dufal rule, `association.hpp` lines 322-366, as a function of the components of two sites.  A read out of
bounds for any pair of sites is undefined behaviour of the call. -/
noncomputable def dufalDelta (NA T rho : ℝ) (x : List ℝ) (d : DufalData) (sites : List AssocSite) : Outcome (ℕ → ℕ → ℝ) :=
  if d.raw.sigma.length < x.length then .ub
  else
    let p := dufalPair d T (dufalRhostar NA rho x d.raw.sigma)
    if ∃ I ∈ sites, ∃ J ∈ sites, p I.comp J.comp = .ub then .ub
    else if ∃ I ∈ sites, ∃ J ∈ sites, p I.comp J.comp = .nonFinite then .nonFinite
    else .ok fun i j => match p i j with | .ok v => v | _ => 0

/-- `Association` with the Dufal rule. -/
structure DufalModel where
  opts : AssocOptions
  ncomp : ℕ
  sites : List AssocSite
  D : List (List ℕ)
  data : DufalData

/-- The constructor, `association.hpp` lines 182-183; the data are copied into the variant and from there into the member. -/
def DufalModel.make (d : DufalData) (molecules : List (List String)) (o : AssocOptions) : Outcome DufalModel :=
  (makeMapper molecules).bind fun sites =>
  (makeD o molecules.length sites).bind fun D => .ok ⟨o, molecules.length, sites, D, d.copy.copy⟩

/-- The matrix entry used by the solver. -/
def DufalModel.Dmat (a : DufalModel) (I J : Fin a.sites.length) : ℕ := (a.D.getD I []).getD J 0

/-- The fractions of sites that are not bonded, started from ones: `association.hpp` lines 370-433. -/
noncomputable def DufalModel.fractions (a : DufalModel) (NA T rho : ℝ) (x : List ℝ) : Outcome (Fin a.sites.length → ℝ) :=
  (dufalDelta NA T rho x a.data a.sites).bind fun Δ =>
    .ok (assocSolve a.opts x.length rho NA (fun I J => Δ (a.sites.get I).comp (a.sites.get J).comp) a.Dmat
      (fun I => (a.sites.get I).count) (fun I => x.getD (a.sites.get I).comp 0) (fun _ => 1))

open Classical in
/-- `Association::alphar`, `association.hpp` lines 438-461. -/
noncomputable def DufalModel.alphar (a : DufalModel) (NA T rho : ℝ) (x : List ℝ) : Outcome ℝ :=
  if x.length ≠ a.ncomp then .throws .invalidArgument
  else (a.fractions NA T rho x).bind fun X =>
    if ∃ I, X I ≤ 0 then .nonFinite
    else .ok (assocSum x (fun I => (a.sites.get I).comp) (fun I => (a.sites.get I).count) X)

/-! ## The factory -/

/-- `toEig`, `association.hpp` lines 155-158: the first element of the array is addressed, which an empty one does not have. -/
def toEig (j : JTree) (k : String) : Outcome (List ℝ) :=
  ((j.at k).bind JTree.toRow).bind fun l => if l = [] then .ub else .ok l

/-- What a range-based loop over a JSON value visits: nothing for null, the value itself for a scalar. -/
def JTree.visited : JTree → List JTree
  | .null => []
  | .arr xs => xs
  | .obj fs => fs.map Prod.snd
  | v => [v]

/-- The set of site types, `association.hpp` lines 187-192. -/
def siteTypes (j : JTree) : Outcome (List String) :=
  (j.at "molecule_sites").bind fun v => (mapOutcome JTree.toStr (v.visited.flatMap JTree.visited)).bind fun l => .ok (uniqueSites l)

/-- The dispersion energies, `association.hpp` lines 243-251. -/
noncomputable def dufalEpsJson (R : ℝ) (j : JTree) : Outcome (List ℝ) :=
  if j.contains "epsilon / J/mol" then toEig j "epsilon / J/mol"
  else if j.contains "epsilon/kB / K" then (toEig j "epsilon/kB / K").bind fun l => .ok (l.map fun e => e * R)
  else .throws .invalidArgument

/-- The branch of the CR1 rule, `association.hpp` lines 227-237. -/
noncomputable def cr1Factory (types : List String) (j : JTree) : Outcome AssocModel :=
  (toEig j "b / m^3/mol").bind fun b =>
  (toEig j "beta").bind fun beta =>
  (toEig j "epsilon / J/mol").bind fun eps =>
  (getAssocOptions j).bind fun o =>
  (getPartners types j).bind fun ps =>
  (moleculeSites j).bind fun mols =>
  AssocModel.make ⟨b, beta, eps, o.radialDist⟩ mols { o with partners := ps }

/-- The branch of the Dufal rule, `association.hpp` lines 238-263. -/
noncomputable def dufalFactory (asserts : Bool) (R : ℝ) (types : List String) (j : JTree) : Outcome DufalModel :=
  (toEig j "sigma / m").bind fun sigma =>
  (dufalEpsJson R j).bind fun eps =>
  (toEig j "lambda_r").bind fun lam =>
  ((j.at "kmat").bind buildSquareMatrix).bind fun kmat =>
  (toEig j "epsilon_HB / J/mol").bind fun hb =>
  (toEig j "K_HB / m^3").bind fun K =>
  (dufalMix asserts R ⟨sigma, eps, lam, kmat, hb, K⟩).bind fun d =>
  (getAssocOptions j).bind fun o =>
  (getPartners types j).bind fun ps =>
  (moleculeSites j).bind fun mols =>
  DufalModel.make d mols { o with partners := ps }

/-- `Association::factory`, `association.hpp` lines 184-266. -/
noncomputable def assocFactory (asserts : Bool) (R : ℝ) (j : JTree) : Outcome (AssocModel ⊕ DufalModel) :=
  (siteTypes j).bind fun types =>
  if j.contains "Delta_rule" then
    ((j.at "Delta_rule").bind JTree.toStr).bind fun rule =>
    if rule = "CR1" then (cr1Factory types j).bind fun a => .ok (.inl a)
    else if rule = "Dufal" then (dufalFactory asserts R types j).bind fun a => .ok (.inr a)
    else .throws .stdInvalidArgument
  else .throws .stdInvalidArgument

end Teqp.Model
