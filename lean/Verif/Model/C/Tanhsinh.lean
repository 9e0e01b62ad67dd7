import Verif.Model.C.Grid
import Mathlib.Analysis.SpecialFunctions.Log.Basic

/-!
# The double-exponential integrator, src/tanhsinh.c

The numbers of the two tables are the decimal numbers written in the source (rounding them to `double` is not
modelled).  The integrand is a function without side effects; the points at which it is called are recorded.
-/

namespace Coffe
open Classical

/-- A decimal number `m * 10^(-e)` of the source. -/
abbrev Dec := ℕ × ℕ

/-- Its value. -/
noncomputable def Dec.val (d : Dec) : ℝ := (d.1 : ℝ) / 10 ^ d.2

/-- `nodes`, src/tanhsinh.c:41-242. -/
def ts_nodes : List Dec := [
  (0, 20), (95136796407274694573, 20), (99997747719246159286, 20), (99999999999995705839, 20),
  (67427149224843582608, 20), (99751485645722438683, 20), (99999998887566488198, 20),
  (37720973816403417379, 20), (85956905868989663517, 20), (98704056050737689169, 20),
  (99968826402835320905, 20), (99999920473711471266, 20), (99999999995285644818, 20),
  (19435700332493543161, 20), (53914670538796776905, 20), (78060743898320029925, 20),
  (91487926326457461091, 20), (97396686819567744856, 20), (99405550663140214329, 20),
  (99906519645578584642, 20), (99990938469514399984, 20), (99999531604122052843, 20),
  (99999989278161241838, 20), (99999999914270509218, 20), (99999999999823216531, 20),
  (97923885287832333262, 21), (28787993274271591456, 20), (46125354393958570440, 20),
  (61027365750063894488, 20), (73101803479256151149, 20), (82331700550640237006, 20),
  (88989140278426019808, 20), (93516085752198468323, 20), (96411216422354729193, 20),
  (98145482667733517003, 20), (99112699244169880223, 20), (99610866543750854254, 20),
  (99845420876769773751, 20), (99945143443527460584, 20), (99982882207287494166, 20),
  (99995387100562796075, 20), (99998948201481850361, 20), (99999801714059543208, 20),
  (99999969889415261122, 20), (99999996423908091534, 20), (99999999678719909830, 20),
  (99999999978973286224, 20), (99999999999039393352, 20), (99999999999970809734, 20),
  (49055967305077886315, 21), (14641798429058794053, 20), (24156631953888365838, 20),
  (33314226457763809244, 20), (41995211127844715849, 20), (50101338937930910152, 20),
  (57558449063515165995, 20), (64317675898520470128, 20), (70355000514714201566, 20),
  (75669390863372994941, 20), (80279874134324126576, 20), (84221924635075686382, 20),
  (87543539763040867837, 20), (90301328151357387064, 20), (92556863406861266645, 20),
  (94373478605275715685, 20), (95813602271021369012, 20), (96936673289691733517, 20),
  (97797623518666497298, 20), (98445883116743083087, 20), (98924843109013389601, 20),
  (99271699719682728538, 20), (99517602615532735426, 20), (99688031812819187372, 20),
  (99803333631543375402, 20), (99879353429880589929, 20), (99928111192179195541, 20),
  (99958475035151758732, 20), (99976797159956083506, 20), (99987486504878034648, 20),
  (99993501992508242369, 20), (99996759306794345976, 20), (99998451990227082442, 20),
  (99999293787666288565, 20), (99999693244919035751, 20), (99999873547186590954, 20),
  (99999950700571943689, 20), (99999981889371276701, 20), (99999993755407837378, 20),
  (99999997987450320175, 20), (99999999396413420165, 20), (99999999832336194826, 20),
  (99999999957078777261, 20), (99999999989927772326, 20), (99999999997845533741, 20),
  (99999999999582460688, 20), (99999999999927152627, 20), (99999999999988636130, 20),
  (24539763574649160379, 21), (73525122985671294475, 21), (12222912220155764235, 20),
  (17046797238201051811, 20), (21806347346971200463, 20), (26484507658344795046, 20),
  (31065178055284596083, 20), (35533382516507453330, 20), (39875415046723775644, 20),
  (44078959903390086627, 20), (48133184611690504422, 20), (52028805069123015958, 20),
  (55758122826077823080, 20), (59315035359195315880, 20), (62695020805104287950, 20),
  (65895099174335012438, 20), (68913772506166767176, 20), (71750946748732412721, 20),
  (74407838354734739913, 20), (76886868676824658459, 20), (79191549237614211447, 20),
  (81326360850297385168, 20), (83296629391941087564, 20), (85108400798784873261, 20),
  (86768317577564598669, 20), (88283498824466895513, 20), (89661425428007602579, 20),
  (90909831816302043511, 20), (92036605303195280235, 20), (93049693799715340631, 20),
  (93957022393327475539, 20), (94766419061515309734, 20), (95485549580502268541, 20),
  (96121861515111640753, 20), (96682537031235585284, 20), (97174454156548730892, 20),
  (97604156025657673933, 20), (97977827580061576265, 20), (98301279148110110558, 20),
  (98579936302528343597, 20), (98818835380074264243, 20), (99022624046752774694, 20),
  (99195566300267761562, 20), (99341551316926403900, 20), (99464105571251119672, 20),
  (99566407681695316965, 20), (99651305464025377317, 20), (99721334704346870224, 20),
  (99778739195890653083, 20), (99825491617199629344, 20), (99863314864067747762, 20),
  (99893703483351217373, 20), (99917944893488591716, 20), (99937140114093768690, 20),
  (99952223765121720422, 20), (99963983134560036519, 20), (99973076151980848263, 20),
  (99980048143113838630, 20), (99985347277311141171, 20), (99989338654759256426, 20),
  (99992317012928932869, 20), (99994518061445869309, 20), (99996128480785666613, 20),
  (99997294642523223656, 20), (99998130127012072679, 20), (99998722128200062811, 20),
  (99999136844834487344, 20), (99999423962761663478, 20), (99999620334716617675, 20),
  (99999752962380516793, 20), (99999841381096473542, 20), (99999899541068996962, 20),
  (99999937270733536947, 20), (99999961398855024275, 20), (99999976602333243312, 20),
  (99999986037121459941, 20), (99999991800479471056, 20), (99999995264266446185, 20),
  (99999997311323594362, 20), (99999998500307631173, 20), (99999999178645609907, 20),
  (99999999558563361584, 20), (99999999767323673790, 20), (99999999879798350040, 20),
  (99999999939177687583, 20), (99999999969875436925, 20), (99999999985405611550, 20),
  (99999999993088839501, 20), (99999999996803321674, 20), (99999999998556879008, 20),
  (99999999999364632387, 20), (99999999999727404948, 20), (99999999999886126543, 20),
  (99999999999953722654, 20), (99999999999981720098, 20), (99999999999992987953, 20)]

/-- `weights`, src/tanhsinh.c:244-445. -/
def ts_weights : List Dec := [
  (15707963267948966192, 19), (230022394514788685, 18), (26620051375271690866, 23), (13581784274539090834, 31),
  (96597657941230114801, 20), (18343166989927842087, 21), (21431204556943039358, 26),
  (13896147592472563229, 19), (53107827542805397476, 20), (76385743570832304188, 21),
  (29025177479013135936, 22), (11983701363170720047, 24), (11631165814255782766, 28),
  (15232837186347052132, 19), (11934630258491569639, 19), (73743784836154784136, 20),
  (36046141846934367417, 20), (13742210773316772341, 20), (39175005493600779072, 21),
  (77426010260642407123, 22), (94994680428346871691, 23), (62482559240744082891, 24),
  (18263320593710659699, 25), (18687282268736410132, 27), (49378538776631926964, 30),
  (15587733555333301451, 19), (1466014426716965781, 18), (1297475750424977998, 18), (10816349854900704074, 19),
  (85017285645662006895, 20), (63040513516474369106, 20), (44083323627385823707, 20), (290240679312454185, 18),
  (17932441211072829296, 20), (10343215422333290062, 20), (55289683742240583845, 21),
  (27133510013712003219, 21), (12083543599157953493, 21), (48162981439284630173, 22),
  (16908739981426396472, 22), (51339382406790336017, 23), (13205234125609974879, 23),
  (28110164327940134749, 24), (48237182032615502124, 25), (64777566035929719908, 26),
  (65835185127183396672, 27), (48760060974240625869, 28), (25216347918530148572, 29),
  (86759314149796046502, 31), (15677814313072218572, 19), (15438811161769592204, 19),
  (14972262225410362896, 19), (14300083548722996676, 19), (13452788847662516615, 19),
  (12467012074518577048, 19), (11382722433763053734, 19), (10240449331118114483, 19),
  (90787937915489531693, 20), (79324270082051671787, 20), (68306851634426375464, 20),
  (57967810308778764708, 20), (48475809121475539287, 20), (39938474152571713515, 20),
  (32408253961152890402, 20), (258904639514053516, 18), (20352399885860174519, 20), (15732620348436615027, 20),
  (11949741128869592428, 20), (89103139240941462841, 21), (65155533432536205042, 21),
  (46668208054846613644, 21), (32698732726609031113, 21), (22379471063648476483, 21),
  (14937835096050129696, 21), (97072237393916892692, 22), (61300376320830301252, 22),
  (37542509774318343023, 22), (22250827064786427022, 22), (12733279447082382027, 22),
  (7018595156842422708, 22), (37166693621677760301, 23), (18856442976700318572, 23),
  (91390817490710122732, 24), (42183183841757600604, 24), (18481813599879217116, 24),
  (76595758525203162562, 25), (29916615878138787094, 25), (10968835125901264732, 25),
  (37595411862360630091, 26), (11992442782902770219, 26), (35434777171421953043, 27),
  (96498888961089633609, 28), (24091773256475940779, 28), (5482835779709497755, 28),
  (11306055347494680536, 29), (20989335404511469109, 30), (34841937670261059685, 31),
  (15700420292795931467, 19), (15640214037732320999, 19), (15520531698454121192, 19),
  (15342817381543034316, 19), (15109197230741697127, 19), (148224329788553807, 17), (14485862549613225916, 19),
  (14103329714462590129, 19), (13679105116808964881, 19), (13217801174437728579, 19),
  (12724283455378627082, 19), (12203581095793582207, 19), (11660798699324345766, 19),
  (11101031939653403796, 19), (10529288799552666556, 19), (99504180404613271514, 20),
  (93690461274566793366, 20), (87895234555278212039, 20), (82158803526696470334, 20),
  (7651792989089561367, 19), (71005590120546898385, 20), (65650824613162753076, 20),
  (60478673057840362158, 20), (55510187800363350959, 20), (5076251588319080997, 19), (4624903980553677613, 19),
  (41979566844501548066, 20), (37960556938665160999, 20), (3419537959230168323, 19),
  (30684590941791694932, 20), (27426222968906810637, 20), (24416077786983990868, 20),
  (21648020911729617038, 20), (19114268413342749532, 20), (16805663794826916233, 20),
  (14711941325785693248, 20), (12821973363120098675, 20), (11123999898874453035, 20),
  (96058391865189467849, 21), (82550788110701737654, 21), (70592469906866999352, 21),
  (60059642358636300319, 21), (5083075757257047107, 20), (42787652157725676034, 21),
  (35816505604196436523, 21), (29808628117310126969, 21), (24661087314753282511, 21),
  (20277183817500123926, 21), (16566786254247575375, 21), (13446536605285730674, 21),
  (10839937168255907211, 21), (86773307495391815854, 22), (68957859690660035329, 22),
  (54388997976239984331, 22), (42565295990178580165, 22), (33044669940348302363, 22),
  (25440657675291729678, 22), (19418357759843675814, 22), (14690143599429791058, 22),
  (11011261134519383862, 22), (81754101332469493115, 23), (60103987991147422573, 23),
  (43739495615911687786, 23), (31497209186021200274, 23), (22435965205008549104, 23),
  (15802788400701191949, 23), (11002112846666697224, 23), (75683996586201477788, 24),
  (51421497447658802092, 24), (344921247593431977, 22), (22832118109036146591, 24), (14908514031870608449, 24),
  (95981941283784710776, 25), (60899100320949039256, 25), (38061983264644899045, 25),
  (23421667208528096843, 25), (14183067155493917523, 25), (84473756384859863469, 26),
  (49458288702754198508, 26), (28449923659159806339, 26), (16069394579076224911, 26),
  (89071395140242387124, 27), (48420950198072369669, 27), (2579956822953589238, 26),
  (13464645522302038796, 27), (68784610955899001111, 28), (34371856744650090511, 28),
  (16788897682161906807, 28), (80099784479729665356, 29), (37299501843052790038, 29),
  (16939457789411646876, 29), (74967397573818224522, 30), (3230446433325236576, 29),
  (13542512912336274432, 30), (55182369468174885821, 31), (21835922099233609052, 31)]

/-- `offsets`, src/tanhsinh.c:449. -/
def ts_offsets : List ℕ := [1, 4, 7, 13, 25, 49, 97, 193]

/-- `num_levels`, src/tanhsinh.c:451. -/
def ts_num_levels : ℕ := ts_offsets.length - 1

/-- The loop `for (i = offsets[level]; i != offsets[level + 1]; ++i)` of src/tanhsinh.c:472-474 and 480-482.  The
state is the sum together with the points at which the integrand was called. -/
noncomputable def ts_panel (f : ℝ → ℝ) (c d : ℝ) (level : ℕ) (s : ℝ × List ℝ) : CRes (ℝ × List ℝ) := do
  let lo ← ld ts_offsets level
  let hi ← ld ts_offsets (level + 1)
  cfor (upTo lo hi) (fun i s => do
    let w ← ld ts_weights i
    let n ← ld ts_nodes i
    pure (s.1 + w.val * (f (c * n.val + d) + f (-c * n.val + d)),
      s.2 ++ [c * n.val + d, -c * n.val + d])) s

/-- Local variables of `integrate`, src/tanhsinh.c:460-467.  `calls` records the calls of the integrand. -/
structure TsState where
  integral : ℝ
  curr_delta : ℝ
  curr_est_err : ℝ
  dx : ℝ
  i : ℕ
  calls : List ℝ

/-- `DBL_MAX` -/
noncomputable def DBL_MAX : ℝ := 2 ^ 1024 - 2 ^ 971

/-- The loop over the levels, src/tanhsinh.c:476-521.  `log 0` is `0` here and minus infinity in C, and a division
by `log 1` gives `0` here and an infinity or NaN in C; `1.9 < r < 2.1` is false in all these cases.  The division
`abs_err /= c` of line 469 by zero gives NaN or an infinity, see `small`. -/
noncomputable def ts_levels (f : ℝ → ℝ) (c d abs_err : ℝ) : List ℕ → TsState → CRes TsState
  | [], s => .ok s
  | level :: rest, s => do
    let dx := s.dx * (1 / 2)
    let p ← ts_panel f c d level (0, s.calls)
    let new_contrib := p.1 * dx
    let i ← ld ts_offsets (level + 1)
    let prev_delta := s.curr_delta
    let curr_delta := |1 / 2 * s.integral - new_contrib|
    let s : TsState := { s with integral := 1 / 2 * s.integral + new_contrib, curr_delta := curr_delta,
                                dx := dx, i := i, calls := p.2 }
    if level = 1 then ts_levels f c d abs_err rest s
    else if curr_delta = 0 then pure s
    else
      let r := Real.log curr_delta / Real.log prev_delta
      let e := if 19 / 10 < r ∧ r < 21 / 10 then curr_delta * curr_delta else curr_delta
      let s : TsState := { s with curr_est_err := e }
      let small : Prop := if c = 0 then 0 < abs_err else e < 1 / 10 * (abs_err / c)
      if small then pure s else ts_levels f c d abs_err rest s

/-- What `integrate` returns through its result and its pointers. -/
structure TsResult where
  result : ℝ
  est_err : ℝ
  num_eval : ℕ
  calls : List ℝ

/-- `integrate`, src/tanhsinh.c:454-533.  The number of evaluations fits an `unsigned`. -/
noncomputable def ts_integrate (f : ℝ → ℝ) (c d abs_err : ℝ) : CRes TsResult := do
  let n0 ← ld ts_nodes 0
  let w0 ← ld ts_weights 0
  let x := c * n0.val + d
  let p ← ts_panel f c d 0 (f x * w0.val, [x])
  let i ← ld ts_offsets 1
  let s ← ts_levels f c d abs_err (upTo 1 ts_num_levels) ⟨p.1, DBL_MAX, DBL_MAX, 1, i, p.2⟩
  pure ⟨c * s.integral, s.curr_est_err * c, 2 * s.i - 1, s.calls⟩

/-- `tanhsinh_quad`, src/tanhsinh.c:535-544. -/
noncomputable def tanhsinh_quad (f : ℝ → ℝ) (a b abs_err : ℝ) : CRes TsResult :=
  ts_integrate f (1 / 2 * (b - a)) (1 / 2 * (b + a)) abs_err

/-- `coffe_integrate_1d_prec_double_exponential`, src/common.c:1042-1066; its argument `precision` is ignored. -/
noncomputable def coffe_integrate_1d_prec_double_exponential (f : ℝ → ℝ) (a b _precision : ℝ) : CRes ℝ := do
  let r ← tanhsinh_quad f a b 0
  pure r.result

end Coffe
