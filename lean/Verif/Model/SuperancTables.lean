import Mathlib.Data.List.Basic

/-! # Interval ends of the shipped superancillary tables

Extracted from `/repo/include/teqp/models/cubicsuperancillary.hpp`.  Every triple is
`(xmin * 10^20, xmax * 10^20, number of coefficients)` of one expansion, in file order; the
coefficients themselves are not reproduced. -/

set_option autoImplicit false

namespace Teqp.Model

/-- `vdW_p` (`cubicsuperancillary.hpp` lines 70-223). -/
def ends_vdW_p : List (ℕ × ℕ × ℕ) :=
  [(2962962962962963000, 3796296296296296000, 19),
   (3796296296296296000, 4629629629629630000, 19),
   (4629629629629630000, 6296296296296297000, 19),
   (6296296296296297000, 9629629629629630000, 19),
   (9629629629629630000, 16296296296296295000, 19),
   (16296296296296295000, 29629629629629630000, 19)]

/-- `vdW_rhoL` (`cubicsuperancillary.hpp` lines 224-727). -/
def ends_vdW_rhoL : List (ℕ × ℕ × ℕ) :=
  [(2962962962962963000, 9629629629629630000, 19),
   (9629629629629630000, 16296296296296295000, 19),
   (16296296296296295000, 22962962962962963000, 19),
   (22962962962962963000, 26296296296296295000, 19),
   (26296296296296295000, 27962962962962960000, 19),
   (27962962962962960000, 28796296296296300000, 19),
   (28796296296296300000, 29212962962962963000, 19),
   (29212962962962963000, 29421296296296295000, 19),
   (29421296296296295000, 29525462962962960000, 19),
   (29525462962962960000, 29577546296296300000, 19),
   (29577546296296300000, 29603587962962963000, 19),
   (29603587962962963000, 29616608796296295000, 19),
   (29616608796296295000, 29623119212962960000, 19),
   (29623119212962960000, 29626374421296300000, 19),
   (29626374421296300000, 29628002025462963000, 19),
   (29628002025462963000, 29628815827546295000, 19),
   (29628815827546295000, 29629222728587960000, 19),
   (29629222728587960000, 29629426179108800000, 19),
   (29629426179108800000, 29629527904369213000, 19),
   (29629527904369213000, 29629629629629630000, 19)]

/-- `vdW_rhoV` (`cubicsuperancillary.hpp` lines 728-1306). -/
def ends_vdW_rhoV : List (ℕ × ℕ × ℕ) :=
  [(2962962962962963000, 3796296296296296000, 19),
   (3796296296296296000, 4629629629629630000, 19),
   (4629629629629630000, 6296296296296297000, 19),
   (6296296296296297000, 9629629629629630000, 19),
   (9629629629629630000, 16296296296296295000, 19),
   (16296296296296295000, 22962962962962963000, 19),
   (22962962962962963000, 26296296296296295000, 19),
   (26296296296296295000, 27962962962962960000, 19),
   (27962962962962960000, 28796296296296300000, 19),
   (28796296296296300000, 29212962962962963000, 19),
   (29212962962962963000, 29421296296296295000, 19),
   (29421296296296295000, 29525462962962960000, 19),
   (29525462962962960000, 29577546296296300000, 19),
   (29577546296296300000, 29603587962962963000, 19),
   (29603587962962963000, 29616608796296295000, 19),
   (29616608796296295000, 29623119212962960000, 19),
   (29623119212962960000, 29626374421296300000, 19),
   (29626374421296300000, 29628002025462963000, 19),
   (29628002025462963000, 29628815827546295000, 19),
   (29628815827546295000, 29629222728587960000, 19),
   (29629222728587960000, 29629426179108800000, 19),
   (29629426179108800000, 29629527904369213000, 19),
   (29629527904369213000, 29629629629629630000, 19)]

/-- `SRK_p` (`cubicsuperancillary.hpp` lines 1308-1461). -/
def ends_SRK_p : List (ℕ × ℕ × ℕ) :=
  [(2026768565353594500, 2596797224359293000, 19),
   (2596797224359293000, 3166825883364991000, 19),
   (3166825883364991000, 4306883201376388000, 19),
   (4306883201376388000, 6586997837399182000, 19),
   (6586997837399182000, 11147227109444770000, 19),
   (11147227109444770000, 20267685653535944000, 19)]

/-- `SRK_rhoL` (`cubicsuperancillary.hpp` lines 1462-1965). -/
def ends_SRK_rhoL : List (ℕ × ℕ × ℕ) :=
  [(2026768565353594500, 6586997837399182000, 19),
   (6586997837399182000, 11147227109444770000, 19),
   (11147227109444770000, 15707456381490356000, 19),
   (15707456381490356000, 17987571017513150000, 19),
   (17987571017513150000, 19127628335524546000, 19),
   (19127628335524546000, 19697656994530244000, 19),
   (19697656994530244000, 19982671324033094000, 19),
   (19982671324033094000, 20125178488784518000, 19),
   (20125178488784518000, 20196432071160230000, 19),
   (20196432071160230000, 20232058862348087000, 19),
   (20232058862348087000, 20249872257942014000, 19),
   (20249872257942014000, 20258778955738980000, 19),
   (20258778955738980000, 20263232304637463000, 19),
   (20263232304637463000, 20265458979086703000, 19),
   (20265458979086703000, 20266572316311324000, 19),
   (20266572316311324000, 20267128984923632000, 19),
   (20267128984923632000, 20267407319229788000, 19),
   (20267407319229788000, 20267546486382865000, 19),
   (20267546486382865000, 20267616069959404000, 19),
   (20267616069959404000, 20267685653535944000, 19)]

/-- `SRK_rhoV` (`cubicsuperancillary.hpp` lines 1966-2544). -/
def ends_SRK_rhoV : List (ℕ × ℕ × ℕ) :=
  [(2026768565353594500, 2596797224359293000, 19),
   (2596797224359293000, 3166825883364991000, 19),
   (3166825883364991000, 4306883201376388000, 19),
   (4306883201376388000, 6586997837399182000, 19),
   (6586997837399182000, 11147227109444770000, 19),
   (11147227109444770000, 15707456381490356000, 19),
   (15707456381490356000, 17987571017513150000, 19),
   (17987571017513150000, 19127628335524546000, 19),
   (19127628335524546000, 19697656994530244000, 19),
   (19697656994530244000, 19982671324033094000, 19),
   (19982671324033094000, 20125178488784518000, 19),
   (20125178488784518000, 20196432071160230000, 19),
   (20196432071160230000, 20232058862348087000, 19),
   (20232058862348087000, 20249872257942014000, 19),
   (20249872257942014000, 20258778955738980000, 19),
   (20258778955738980000, 20263232304637463000, 19),
   (20263232304637463000, 20265458979086703000, 19),
   (20265458979086703000, 20266572316311324000, 19),
   (20266572316311324000, 20267128984923632000, 19),
   (20267128984923632000, 20267407319229788000, 19),
   (20267407319229788000, 20267546486382865000, 19),
   (20267546486382865000, 20267616069959404000, 19),
   (20267616069959404000, 20267685653535944000, 19)]

/-- `PR_p` (`cubicsuperancillary.hpp` lines 2546-2699). -/
def ends_PR_p : List (ℕ × ℕ × ℕ) :=
  [(1701444200703503000, 2179975382151363300, 19),
   (2179975382151363300, 2658506563599223600, 19),
   (2658506563599223600, 3615568926494944000, 19),
   (3615568926494944000, 5529693652286385000, 19),
   (5529693652286385000, 9357943103869266000, 19),
   (9357943103869266000, 17014442007035030000, 19)]

/-- `PR_rhoL` (`cubicsuperancillary.hpp` lines 2700-3203). -/
def ends_PR_rhoL : List (ℕ × ℕ × ℕ) :=
  [(1701444200703503000, 5529693652286385000, 19),
   (5529693652286385000, 9357943103869266000, 19),
   (9357943103869266000, 13186192555452148000, 19),
   (13186192555452148000, 15100317281243590000, 19),
   (15100317281243590000, 16057379644139308000, 19),
   (16057379644139308000, 16535910825587170000, 19),
   (16535910825587170000, 16775176416311100000, 19),
   (16775176416311100000, 16894809211673065000, 19),
   (16894809211673065000, 16954625609354046000, 19),
   (16954625609354046000, 16984533808194538000, 19),
   (16984533808194538000, 16999487907614785000, 19),
   (16999487907614785000, 17006964957324908000, 19),
   (17006964957324908000, 17010703482179967000, 19),
   (17010703482179967000, 17012572744607500000, 19),
   (17012572744607500000, 17013507375821263000, 19),
   (17013507375821263000, 17013974691428146000, 19),
   (17013974691428146000, 17014208349231588000, 19),
   (17014208349231588000, 17014325178133310000, 19),
   (17014325178133310000, 17014383592584170000, 19),
   (17014383592584170000, 17014442007035030000, 19)]

/-- `PR_rhoV` (`cubicsuperancillary.hpp` lines 3204-3807). -/
def ends_PR_rhoV : List (ℕ × ℕ × ℕ) :=
  [(1701444200703503000, 2179975382151363300, 19),
   (2179975382151363300, 2658506563599223600, 19),
   (2658506563599223600, 3615568926494944000, 19),
   (3615568926494944000, 5529693652286385000, 19),
   (5529693652286385000, 7443818378077825000, 19),
   (7443818378077825000, 9357943103869266000, 19),
   (9357943103869266000, 13186192555452148000, 19),
   (13186192555452148000, 15100317281243590000, 19),
   (15100317281243590000, 16057379644139308000, 19),
   (16057379644139308000, 16535910825587170000, 19),
   (16535910825587170000, 16775176416311100000, 19),
   (16775176416311100000, 16894809211673065000, 19),
   (16894809211673065000, 16954625609354046000, 19),
   (16954625609354046000, 16984533808194538000, 19),
   (16984533808194538000, 16999487907614785000, 19),
   (16999487907614785000, 17006964957324908000, 19),
   (17006964957324908000, 17010703482179967000, 19),
   (17010703482179967000, 17012572744607500000, 19),
   (17012572744607500000, 17013507375821263000, 19),
   (17013507375821263000, 17013974691428146000, 19),
   (17013974691428146000, 17014208349231588000, 19),
   (17014208349231588000, 17014325178133310000, 19),
   (17014325178133310000, 17014383592584170000, 19),
   (17014383592584170000, 17014442007035030000, 19)]

/-- All nine shipped tables. -/
def shippedEnds : List (List (ℕ × ℕ × ℕ)) :=
  [ends_vdW_p, ends_vdW_rhoL, ends_vdW_rhoV, ends_SRK_p, ends_SRK_rhoL, ends_SRK_rhoV, ends_PR_p, ends_PR_rhoL, ends_PR_rhoV]

end Teqp.Model
