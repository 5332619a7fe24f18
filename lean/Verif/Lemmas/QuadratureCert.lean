import Verif.Lemmas.Quadrature
/-
The tables of the quadrature rules pass the checks of Lemmas/Quadrature.lean; evaluated by the kernel.
-/
namespace Verif.SingleQuad

/-- One-dimensional rules whose products the tensor rules are (row sums of the weights, units of 1e-15); used by the proofs only. -/
def nodes1 : Nat → List (Int × Int)
  | 1 => [(500000000000000, 1000000000000000)]
  | 2 => [(211324865405187, 500000000000000), (788675134594813, 500000000000000)]
  | 3 => [(112701665379258, 277777777777777), (500000000000000, 444444444444445), (887298334620742, 277777777777777)]
  | 4 => [(69431844202974, 173927422568728), (330009478207572, 326072577431274), (669990521792428, 326072577431274), (930568155797026, 173927422568728)]
  | 5 => [(46910077030668, 118463442528094), (230765344947158, 239314335249684), (500000000000000, 284444444444445), (769234655052841, 239314335249684), (953089922969332, 118463442528094)]
  | 6 => [(33765242898424, 85662246189586), (169395306766868, 180380786524070), (380690406958402, 233956967286346), (619309593041598, 233956967286346), (830604693233132, 180380786524070), (966234757101576, 85662246189586)]
  | 7 => [(25446043828621, 64742483084434), (129234407200303, 139852695744638), (297077424311301, 190915025252558), (500000000000000, 208979591836736), (702922575688699, 190915025252558), (870765592799697, 139852695744638), (974553956171379, 64742483084434)]
  | 8 => [(19855071751232, 50614268145190), (101666761293187, 111190517226688), (237233795041836, 156853322938946), (408282678752175, 181341891689182), (591717321247825, 181341891689182), (762766204958164, 156853322938946), (898333238706813, 111190517226688), (980144928248768, 50614268145190)]
  | 9 => [(15919880246187, 40637194180786), (81984446336682, 90324080347428), (193314283649705, 130305348201468), (337873288298096, 156173538520001), (500000000000000, 165119677500630), (662126711701905, 156173538520001), (806685716350295, 130305348201468), (918015553663318, 90324080347428), (984080119753813, 40637194180786)]
  | 10 => [(13046735741414, 33335672154344), (67468316655508, 74725674575290), (160295215850488, 109543181257992), (283302302935376, 134633359654998), (425562830509184, 147762112357378), (574437169490816, 147762112357378), (716697697064624, 134633359654998), (839704784149512, 109543181257992), (932531683344492, 74725674575290), (986953264258586, 33335672154344)]
  | 11 => [(10885670926972, 27834283558088), (56468700115952, 62790184732452), (134923997212975, 93145105463867), (240451935396594, 116596882295998), (365228422023828, 131402272255123), (500000000000000, 136462543388949), (634771577976172, 131402272255123), (759548064603406, 116596882295998), (865076002787025, 93145105463867), (943531299884048, 62790184732452), (989114329073028, 27834283558088)]
  | 12 => [(9219682876640, 23587668193256), (47941371814763, 53469662997658), (115048662902848, 80039164271672), (206341022856691, 101583713361534), (316084250500910, 116746268269176), (437383295744266, 124573522906698), (562616704255734, 124573522906698), (683915749499090, 116746268269176), (793658977143309, 101583713361534), (884951337097152, 80039164271672), (952058628185237, 53469662997658), (990780317123360, 23587668193256)]
  | 13 => [(7908472640706, 20242002382657), (41200800388511, 46060749918863), (99210954633345, 69436755109891), (178825330279830, 89072990380973), (275753624481777, 103908023768445), (384770842022433, 113141590131446), (500000000000000, 116275776615437), (615229157977567, 113141590131446), (724246375518223, 103908023768445), (821174669720170, 89072990380973), (900789045366655, 69436755109891), (958799199611489, 46060749918863), (992091527359294, 20242002382657)]
  | 14 => [(6858095651594, 17559730165874), (35782558168213, 40079043579880), (86399342465117, 60759285343952), (156353547594157, 78601583579096), (242375681820923, 92769198738970), (340443815536055, 102599231860648), (445972525646328, 107631926731578), (554027474353672, 107631926731578), (659556184463945, 102599231860648), (757624318179077, 92769198738970), (843646452405843, 78601583579096), (913600657534883, 60759285343952), (964217441831787, 40079043579880), (993141904348406, 17559730165874)]
  | 15 => [(6003740989757, 15376620998057), (31363303799647, 35183023744054), (75896708294786, 53579610233584), (137791134319915, 69785338963078), (214513913695731, 83134602908493), (302924326461218, 93080500007780), (399402953001283, 99215742663555), (500000000000000, 101289120962779), (600597046998717, 99215742663555), (697075673538782, 93080500007780), (785486086304269, 83134602908493), (862208865680085, 69785338963078), (924103291705214, 53579610233584), (968636696200353, 35183023744054), (993996259010243, 15376620998057)]
  | 16 => [(5299532504175, 13576229705878), (27712488463384, 31126761969324), (67184398806084, 47579255841246), (122297795822499, 62314485627764), (191061877798678, 74797994408288), (270991611171386, 84578259697500), (359198224610371, 91301707522460), (452493745081181, 94725305227534), (547506254918819, 94725305227534), (640801775389629, 91301707522460), (729008388828614, 84578259697500), (808938122201322, 74797994408288), (877702204177502, 62314485627764), (932815601193916, 47579255841246), (972287511536616, 31126761969324), (994700467495825, 13576229705878)]
  | 17 => [(4712262342791, 12074151434275), (24662239115616, 27729764686995), (59880423136507, 42518074158591), (109242998051599, 55941923596700), (171164420391655, 67568184234262), (243654731456762, 77022880538404), (324384118273062, 84002051078225), (410757909252076, 88281352683496), (500000000000000, 89723235178101), (589242090747924, 88281352683496), (675615881726938, 84002051078225), (756345268543238, 77022880538404), (828835579608345, 67568184234262), (890757001948401, 55941923596700), (940119576863493, 42518074158591), (975337760884384, 27729764686995), (995287737657209, 12074151434275)]
  | 18 => [(4217415789535, 10808006763238), (22088025214301, 24857274447486), (53698766751222, 38212865127444), (98147520513738, 50471022053142), (154156478469823, 61277603355738), (220114584463026, 70321457335324), (294124419268579, 77342337563132), (374056887154247, 82138241872914), (457612493479132, 84571191481572), (542387506520868, 84571191481572), (625943112845753, 82138241872914), (705875580731421, 77342337563132), (779885415536974, 70321457335324), (845843521530177, 61277603355738), (901852479486262, 50471022053142), (946301233248778, 38212865127444), (977911974785699, 24857274447486), (995782584210466, 10808006763238)]
  | 19 => [(3796578078208, 9730894114865), (19895923932585, 22407113382849), (48422048192591, 34522271368822), (88642671731429, 45745010811222), (139516911332385, 55783322773667), (199727347669160, 64376981269670), (267714629312020, 71303351086804), (341717950018185, 76383021032929), (419820677179887, 79484421696976), (500000000000000, 80527224924392), (580179322820113, 79484421696976), (658282049981815, 76383021032929), (732285370687980, 71303351086804), (800272652330841, 64376981269670), (860483088667615, 55783322773667), (911357328268571, 45745010811222), (951577951807409, 34522271368822), (980104076067415, 22407113382849), (996203421921792, 9730894114865)]
  | 20 => [(3435700407453, 8807003569578), (18014036361043, 20300714900194), (43882785874337, 31336024167058), (80441514088891, 41638370788354), (126834046769925, 50965059908620), (181973159636742, 59097265980762), (244566499024586, 65844319224588), (313146955642290, 71048054659194), (386107074429177, 74586493236302), (461736739433251, 76376693565362), (538263260566749, 76376693565362), (613892925570823, 74586493236302), (686853044357710, 71048054659194), (755433500975414, 65844319224588), (818026840363258, 59097265980762), (873165953230075, 50965059908620), (919558485911109, 41638370788354), (956117214125663, 31336024167058), (981985963638957, 20300714900194), (996564299592547, 8807003569578)]
  | _ => []

def triaCheck (order : Nat) : Bool :=
  match triaRule order with
  | .ok r => Nat.ble ((r.position + r.numOfPoints) * 3) 2019 && Nat.ble (r.position + r.numOfPoints) 673 &&
      checkA order (rows3 r.numOfPoints (gpTria.drop (r.position * 3)) (gwTria.drop r.position)) order
  | _ => false

def tensorCheck (n : Nat) : Bool :=
  match tensorRule n with
  | .ok r => Nat.beq r.numOfPoints (n * n) && Nat.ble ((r.position + r.numOfPoints) * 2) 5740 && Nat.ble (r.position + r.numOfPoints) 2870 &&
      Nat.beq (nodes1 n).length n && check1 (nodes1 n) (2 * n) && unitNodes (nodes1 n) &&
      consume (nodes1 n) (nodes1 n) (rows2 r.numOfPoints (gpTensor.drop (r.position * 2)) (gwTensor.drop r.position))
  | _ => false

theorem gpTria_length : gpTria.length = 2019 := by decide +kernel
theorem gwTria_length : gwTria.length = 673 := by decide +kernel
theorem gpTensor_length : gpTensor.length = 5740 := by decide +kernel
theorem gwTensor_length : gwTensor.length = 2870 := by decide +kernel

theorem triaCheck_1 : triaCheck 1 = true := by decide +kernel
theorem triaCheck_2 : triaCheck 2 = true := by decide +kernel
theorem triaCheck_3 : triaCheck 3 = true := by decide +kernel
theorem triaCheck_4 : triaCheck 4 = true := by decide +kernel
theorem triaCheck_5 : triaCheck 5 = true := by decide +kernel
theorem triaCheck_6 : triaCheck 6 = true := by decide +kernel
theorem triaCheck_7 : triaCheck 7 = true := by decide +kernel
theorem triaCheck_8 : triaCheck 8 = true := by decide +kernel
theorem triaCheck_9 : triaCheck 9 = true := by decide +kernel
theorem triaCheck_10 : triaCheck 10 = true := by decide +kernel
theorem triaCheck_11 : triaCheck 11 = true := by decide +kernel
theorem triaCheck_12 : triaCheck 12 = true := by decide +kernel
theorem triaCheck_13 : triaCheck 13 = true := by decide +kernel
theorem triaCheck_14 : triaCheck 14 = true := by decide +kernel
theorem triaCheck_15 : triaCheck 15 = true := by decide +kernel
theorem triaCheck_16 : triaCheck 16 = true := by decide +kernel
theorem triaCheck_17 : triaCheck 17 = true := by decide +kernel
theorem triaCheck_18 : triaCheck 18 = true := by decide +kernel
theorem triaCheck_19 : triaCheck 19 = true := by decide +kernel
theorem triaCheck_20 : triaCheck 20 = true := by decide +kernel
theorem tensorCheck_1 : tensorCheck 1 = true := by decide +kernel
theorem tensorCheck_2 : tensorCheck 2 = true := by decide +kernel
theorem tensorCheck_3 : tensorCheck 3 = true := by decide +kernel
theorem tensorCheck_4 : tensorCheck 4 = true := by decide +kernel
theorem tensorCheck_5 : tensorCheck 5 = true := by decide +kernel
theorem tensorCheck_6 : tensorCheck 6 = true := by decide +kernel
theorem tensorCheck_7 : tensorCheck 7 = true := by decide +kernel
theorem tensorCheck_8 : tensorCheck 8 = true := by decide +kernel
theorem tensorCheck_9 : tensorCheck 9 = true := by decide +kernel
theorem tensorCheck_10 : tensorCheck 10 = true := by decide +kernel
theorem tensorCheck_11 : tensorCheck 11 = true := by decide +kernel
theorem tensorCheck_12 : tensorCheck 12 = true := by decide +kernel
theorem tensorCheck_13 : tensorCheck 13 = true := by decide +kernel
theorem tensorCheck_14 : tensorCheck 14 = true := by decide +kernel
theorem tensorCheck_15 : tensorCheck 15 = true := by decide +kernel
theorem tensorCheck_16 : tensorCheck 16 = true := by decide +kernel
theorem tensorCheck_17 : tensorCheck 17 = true := by decide +kernel
theorem tensorCheck_18 : tensorCheck 18 = true := by decide +kernel
theorem tensorCheck_19 : tensorCheck 19 = true := by decide +kernel
theorem tensorCheck_20 : tensorCheck 20 = true := by decide +kernel

theorem triaCheck_all (order : Nat) (h1 : 1 ≤ order) (h2 : order ≤ 20) : triaCheck order = true := by
  interval_cases order
  · exact triaCheck_1
  · exact triaCheck_2
  · exact triaCheck_3
  · exact triaCheck_4
  · exact triaCheck_5
  · exact triaCheck_6
  · exact triaCheck_7
  · exact triaCheck_8
  · exact triaCheck_9
  · exact triaCheck_10
  · exact triaCheck_11
  · exact triaCheck_12
  · exact triaCheck_13
  · exact triaCheck_14
  · exact triaCheck_15
  · exact triaCheck_16
  · exact triaCheck_17
  · exact triaCheck_18
  · exact triaCheck_19
  · exact triaCheck_20

theorem tensorCheck_all (order : Nat) (h1 : 1 ≤ order) (h2 : order ≤ 20) : tensorCheck order = true := by
  interval_cases order
  · exact tensorCheck_1
  · exact tensorCheck_2
  · exact tensorCheck_3
  · exact tensorCheck_4
  · exact tensorCheck_5
  · exact tensorCheck_6
  · exact tensorCheck_7
  · exact tensorCheck_8
  · exact tensorCheck_9
  · exact tensorCheck_10
  · exact tensorCheck_11
  · exact tensorCheck_12
  · exact tensorCheck_13
  · exact tensorCheck_14
  · exact tensorCheck_15
  · exact tensorCheck_16
  · exact tensorCheck_17
  · exact tensorCheck_18
  · exact tensorCheck_19
  · exact tensorCheck_20

end Verif.SingleQuad
