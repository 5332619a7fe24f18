/-
Generated by tools/quadtables.py: the tables of lib/fiber/quadrature/gausstria.hpp and gausstensor.hpp.  The decimal literals are
taken at their decimal values (in the code each is rounded to the nearest double).
-/
set_option maxRecDepth 10000
namespace Verif.SingleQuad

/-- `gTriaAddress` (gausstria.hpp:62-87). -/
def gTriaAddress : List Int := [
  0, -2, 1, 4, -5, 8, 14, -8, 21, -11, -11, 30, 42, -14, 55, 70, -18, -18, 86, -21, 105, -24, -24, -24, 126, -27, 151, -32, 
  -32, -32, -32, -32, 178, -36, -36, -36, 211, -41, -41, -41, -41, 248, -47, -47, -47, -47, -47, 290, -51, -51, -51, 338, 
  -60, -60, -60, -60, -60, -60, -60, -60, 390, -69, -69, -69, -69, -69, -69, -69, -69, 451, -72, -72, 521, -78, -78, -78, 
  -78, -78, 594]

/-- `gTriaPointsPerOrder` (gausstria.hpp:90-95). -/
def gTriaPointsPerOrder : List Int := [
  1, 3, 4, 6, 7, 12, 13, 16, 19, 25, 27, 33, 37, 42, 48, 52, 61, 70, 73, 79]

/-- `gpTria`, in units of 1e-16 (gausstria.hpp:101-664), part 1. -/
def gpTria1 : List Int := [
  3333333333333330, 3333333333333330, 3333333333333330]

/-- `gpTria`, in units of 1e-16 (gausstria.hpp:101-664), part 2. -/
def gpTria2 : List Int := [
  6666666666666670, 1666666666666670, 1666666666666660, 1666666666666670, 6666666666666670, 1666666666666660, 
  1666666666666670, 1666666666666670, 6666666666666661]

/-- `gpTria`, in units of 1e-16 (gausstria.hpp:101-664), part 3. -/
def gpTria3 : List Int := [
  3333333333333330, 3333333333333330, 3333333333333340, 6000000000000000, 2000000000000000, 2000000000000000, 
  2000000000000000, 6000000000000000, 2000000000000000, 2000000000000000, 2000000000000000, 6000000000000000]

/-- `gpTria`, in units of 1e-16 (gausstria.hpp:101-664), part 4. -/
def gpTria4 : List Int := [
  1081030181680700, 4459484909159651, 4459484909159651, 8168475729804590, 915762135097710, 915762135097700, 
  4459484909159651, 1081030181680700, 4459484909159651, 4459484909159651, 4459484909159651, 1081030181680700, 
  915762135097710, 8168475729804590, 915762135097700, 915762135097710, 915762135097710, 8168475729804580]

/-- `gpTria`, in units of 1e-16 (gausstria.hpp:101-664), part 5. -/
def gpTria5 : List Int := [
  3333333333333330, 3333333333333330, 3333333333333340, 597158717897700, 4701420641051150, 4701420641051150, 
  7974269853530870, 1012865073234560, 1012865073234570, 4701420641051150, 597158717897700, 4701420641051150, 
  4701420641051150, 4701420641051150, 597158717897700, 1012865073234560, 7974269853530870, 1012865073234570, 
  1012865073234560, 1012865073234560, 7974269853530880]

/-- `gpTria`, in units of 1e-16 (gausstria.hpp:101-664), part 6. -/
def gpTria6 : List Int := [
  4375252483833840, 4375252483833840, 1249495032332320, 4375252483833840, 1249495032332320, 4375252483833840, 
  1249495032332320, 4375252483833840, 4375252483833840, 7971126518600710, 1654099273898410, 374774207500880, 
  7971126518600710, 374774207500880, 1654099273898410, 1654099273898410, 7971126518600710, 374774207500880, 
  374774207500880, 7971126518600710, 1654099273898410, 374774207500880, 1654099273898410, 7971126518600710, 
  1654099273898410, 374774207500880, 7971126518600710]

/-- `gpTria`, in units of 1e-16 (gausstria.hpp:101-664), part 7. -/
def gpTria7 : List Int := [
  5014265096581790, 2492867451709100, 2492867451709110, 8738219710169960, 630890144915020, 630890144915020, 
  531450498448170, 3103524510337841, 6365024991213991, 2492867451709100, 5014265096581790, 2492867451709110, 
  2492867451709100, 2492867451709100, 5014265096581800, 630890144915020, 8738219710169960, 630890144915020, 
  630890144915020, 630890144915020, 8738219710169960, 531450498448170, 6365024991213991, 3103524510337841, 
  3103524510337841, 6365024991213991, 531450498448170, 6365024991213991, 531450498448170, 3103524510337841, 
  3103524510337841, 531450498448170, 6365024991213991, 6365024991213991, 3103524510337841, 531450498448170]

/-- `gpTria`, in units of 1e-16 (gausstria.hpp:101-664), part 8. -/
def gpTria8 : List Int := [
  3333333333333330, 3333333333333330, 3333333333333330, 4793080678419200, 2603459660790400, 2603459660790401, 
  8697397941955681, 651301029022160, 651301029022160, 486903154253160, 3128654960048741, 6384441885698101, 
  2603459660790400, 4793080678419200, 2603459660790401, 2603459660790400, 2603459660790400, 4793080678419201, 
  651301029022160, 8697397941955681, 651301029022160, 651301029022160, 651301029022160, 8697397941955681, 486903154253160, 
  6384441885698101, 3128654960048741, 3128654960048741, 6384441885698101, 486903154253160, 6384441885698101, 
  486903154253160, 3128654960048741, 3128654960048741, 486903154253160, 6384441885698101, 6384441885698101, 
  3128654960048741, 486903154253160]

/-- `gpTria`, in units of 1e-16 (gausstria.hpp:101-664), part 9. -/
def gpTria9 : List Int := [
  649305131591650, 649305131591650, 8701389736816700, 649305131591650, 8701389736816700, 649305131591650, 8701389736816700, 
  649305131591650, 649305131591650, 1983844766815020, 5170399390693250, 2845755842491730, 1983844766815020, 
  2845755842491730, 5170399390693250, 2845755842491730, 1983844766815020, 5170399390693250, 5170399390693250, 
  1983844766815020, 2845755842491730, 5170399390693250, 2845755842491730, 1983844766815020, 2845755842491730, 
  5170399390693250, 1983844766815020, 6425773438226970, 438634717923710, 3135591843849320, 6425773438226970, 
  3135591843849320, 438634717923710, 3135591843849320, 6425773438226970, 438634717923710, 438634717923710, 
  6425773438226970, 3135591843849320, 438634717923710, 3135591843849320, 6425773438226970, 3135591843849320, 
  438634717923710, 6425773438226970]

/-- `gpTria`, in units of 1e-16 (gausstria.hpp:101-664), part 10. -/
def gpTria10 : List Int := [
  3333333333333330, 3333333333333330, 3333333333333330, 814148234145540, 4592925882927231, 4592925882927231, 
  6588613844964801, 1705693077517600, 1705693077517600, 8989055433659380, 505472283170310, 505472283170310, 83947774099580, 
  2631128296346380, 7284923929554041, 4592925882927231, 814148234145540, 4592925882927231, 4592925882927231, 
  4592925882927231, 814148234145540, 1705693077517600, 6588613844964801, 1705693077517600, 1705693077517600, 
  1705693077517600, 6588613844964801, 505472283170310, 8989055433659380, 505472283170310, 505472283170310, 505472283170310, 
  8989055433659380, 83947774099580, 7284923929554041, 2631128296346380, 2631128296346380, 7284923929554041, 83947774099580, 
  7284923929554041, 83947774099580, 2631128296346380, 2631128296346380, 83947774099580, 7284923929554041, 7284923929554041, 
  2631128296346380, 83947774099580]

/-- `gpTria`, in units of 1e-16 (gausstria.hpp:101-664), part 11. -/
def gpTria11 : List Int := [
  3333333333333329, 3333333333333329, 3333333333333340, 206349616025250, 4896825191987380, 4896825191987370, 
  1258208170141270, 4370895914929371, 4370895914929360, 6235929287619349, 1882035356190330, 1882035356190321, 
  9105409732110950, 447295133944530, 447295133944521, 368384120547360, 2219629891607660, 7411985987844981, 
  4896825191987380, 206349616025250, 4896825191987370, 4896825191987380, 4896825191987380, 206349616025240, 
  4370895914929371, 1258208170141270, 4370895914929360, 4370895914929371, 4370895914929371, 1258208170141260, 
  1882035356190330, 6235929287619350, 1882035356190321, 1882035356190330, 1882035356190330, 6235929287619340, 
  447295133944530, 9105409732110950, 447295133944521, 447295133944530, 447295133944530, 9105409732110941, 368384120547360, 
  7411985987844981, 2219629891607660, 2219629891607660, 7411985987844981, 368384120547360, 7411985987844981, 
  368384120547360, 2219629891607660, 2219629891607660, 368384120547360, 7411985987844981, 7411985987844981, 
  2219629891607660, 368384120547360]

/-- `gpTria`, in units of 1e-16 (gausstria.hpp:101-664), part 12. -/
def gpTria12 : List Int := [
  369603304333780, 4815198347833110, 4815198347833110, 4815198347833110, 369603304333780, 4815198347833110, 
  4815198347833110, 4815198347833110, 369603304333780, 1927920403641200, 4036039798179400, 4036039798179400, 
  4036039798179400, 1927920403641200, 4036039798179400, 4036039798179400, 4036039798179400, 1927920403641200, 
  9096219804312460, 451890097843770, 451890097843770, 451890097843770, 9096219804312460, 451890097843770, 451890097843770, 
  451890097843770, 9096219804312460, 1369912012649040, 2182900709713810, 6447187277637150, 1369912012649040, 
  6447187277637150, 2182900709713810, 2182900709713810, 1369912012649040, 6447187277637150, 2182900709713810, 
  6447187277637150, 1369912012649040, 6447187277637150, 1369912012649040, 2182900709713810, 6447187277637150, 
  2182900709713810, 1369912012649040, 304243617288200, 2220631655373180, 7475124727338620, 304243617288200, 
  7475124727338620, 2220631655373180, 2220631655373180, 304243617288200, 7475124727338620, 2220631655373180, 
  7475124727338620, 304243617288200, 7475124727338620, 304243617288200, 2220631655373180, 7475124727338620, 
  2220631655373180, 304243617288200]

/-- `gpTria`, in units of 1e-16 (gausstria.hpp:101-664), part 13. -/
def gpTria13 : List Int := [
  3333333333333329, 3333333333333329, 3333333333333340, 288447332326850, 4855776333836570, 4855776333836580, 
  7810368490299259, 1094815754850370, 1094815754850370, 1417072194148800, 3079398387641210, 5503529418209990, 
  250035347626860, 2466725606399030, 7283239045974110, 95408154002990, 668032510122000, 9236559335875009, 4855776333836570, 
  288447332326850, 4855776333836580, 4855776333836570, 4855776333836570, 288447332326860, 1094815754850370, 
  7810368490299259, 1094815754850370, 1094815754850370, 1094815754850370, 7810368490299260, 1417072194148800, 
  5503529418209990, 3079398387641210, 3079398387641210, 5503529418209990, 1417072194148800, 5503529418209990, 
  1417072194148800, 3079398387641210, 3079398387641210, 1417072194148800, 5503529418209990, 5503529418209990, 
  3079398387641210, 1417072194148800, 250035347626860, 7283239045974110, 2466725606399030, 2466725606399030, 
  7283239045974110, 250035347626860, 7283239045974110, 250035347626860, 2466725606399030, 2466725606399030, 
  250035347626860, 7283239045974110, 7283239045974110, 2466725606399030, 250035347626860, 95408154002990, 9236559335875000, 
  668032510122010, 668032510122000, 9236559335875000, 95408154003000, 9236559335875000, 95408154002990, 668032510122010, 
  668032510122000, 95408154002990, 9236559335875010, 9236559335875000, 668032510122000, 95408154003000]

/-- `gpTria`, in units of 1e-16 (gausstria.hpp:101-664), part 14. -/
def gpTria14 : List Int := [
  -692220965415170, 5346110482707580, 5346110482707590, 2020613940682900, 3989693029658549, 3989693029658550, 
  5933801991374351, 2033099004312820, 2033099004312830, 7612981754348371, 1193509122825810, 1193509122825820, 
  9352701037774480, 323649481112760, 323649481112760, 501781383104950, 3566206482612930, 5932012134282119, 210220165361660, 
  1714889803040420, 8074890031597919, 5346110482707580, -692220965415170, 5346110482707590, 5346110482707580, 
  5346110482707580, -692220965415160, 3989693029658549, 2020613940682900, 3989693029658550, 3989693029658549, 
  3989693029658549, 2020613940682900, 2033099004312820, 5933801991374351, 2033099004312830, 2033099004312820, 
  2033099004312820, 5933801991374361, 1193509122825810, 7612981754348371, 1193509122825820, 1193509122825810, 
  1193509122825810, 7612981754348381, 323649481112760, 9352701037774480, 323649481112760, 323649481112760, 323649481112760, 
  9352701037774480, 501781383104950, 5932012134282129, 3566206482612920, 3566206482612930, 5932012134282129, 
  501781383104940, 5932012134282129, 501781383104950, 3566206482612920, 3566206482612930, 501781383104950, 
  5932012134282119, 5932012134282129, 3566206482612930, 501781383104940, 210220165361660, 8074890031597919, 
  1714889803040420, 1714889803040420, 8074890031597919, 210220165361660, 8074890031597919, 210220165361660, 
  1714889803040420, 1714889803040420, 210220165361660, 8074890031597919, 8074890031597919, 1714889803040420, 
  210220165361660]

/-- `gpTria`, in units of 1e-16 (gausstria.hpp:101-664), part 15. -/
def gpTria15 : List Int := [
  235652204523900, 4882173897738051, 4882173897738050, 1205512154110790, 4397243922944600, 4397243922944611, 
  4575792299757679, 2712103850121160, 2712103850121161, 7448477089168280, 1275761455415860, 1275761455415859, 
  9573652990935791, 213173504532100, 213173504532110, 1153434945346980, 2757132696855141, 6089432357797879, 
  228383322222570, 2813255809899400, 6958360867878031, 257340505483300, 1162519159075970, 8580140335440730, 
  4882173897738051, 235652204523900, 4882173897738050, 4882173897738051, 4882173897738051, 235652204523900, 
  4397243922944600, 1205512154110790, 4397243922944611, 4397243922944600, 4397243922944600, 1205512154110800, 
  2712103850121160, 4575792299757679, 2712103850121161, 2712103850121160, 2712103850121160, 4575792299757680, 
  1275761455415860, 7448477089168280, 1275761455415859, 1275761455415860, 1275761455415860, 7448477089168279, 
  213173504532100, 9573652990935791, 213173504532110, 213173504532100, 213173504532100, 9573652990935801, 1153434945346980, 
  6089432357797880, 2757132696855140, 2757132696855141, 6089432357797880, 1153434945346979, 6089432357797880, 
  1153434945346980, 2757132696855140, 2757132696855141, 1153434945346980, 6089432357797879, 6089432357797880, 
  2757132696855141, 1153434945346979, 228383322222570, 6958360867878030, 2813255809899401, 2813255809899400, 
  6958360867878030, 228383322222571, 6958360867878030, 228383322222570, 2813255809899401, 2813255809899400, 
  228383322222570, 6958360867878031, 6958360867878030, 2813255809899400, 228383322222571, 257340505483300, 
  8580140335440730, 1162519159075970, 1162519159075970, 8580140335440730, 257340505483300, 8580140335440730, 
  257340505483300, 1162519159075970, 1162519159075970, 257340505483300, 8580140335440730, 8580140335440730, 
  1162519159075970, 257340505483300]

/-- `gpTria`, in units of 1e-16 (gausstria.hpp:101-664), part 16. -/
def gpTria16 : List Int := [
  3333333333333329, 3333333333333329, 3333333333333340, 99036301205910, 4950481849397050, 4950481849397041, 
  625667297808520, 4687166351095740, 4687166351095740, 1709573263974470, 4145213368012770, 4145213368012760, 
  5412008559143370, 2293995720428310, 2293995720428320, 7711510096073399, 1144244951963300, 1144244951963301, 
  9503772172730819, 248113913634590, 248113913634590, 948538283795790, 2687949970587610, 6363511745616601, 181007732788070, 
  2917300667342880, 6901691599869050, 222330766740900, 1263573854916690, 8514095378342410, 4950481849397050, 
  99036301205910, 4950481849397041, 4950481849397050, 4950481849397050, 99036301205900, 4687166351095740, 625667297808520, 
  4687166351095740, 4687166351095740, 4687166351095740, 625667297808520, 4145213368012770, 1709573263974470, 
  4145213368012760, 4145213368012770, 4145213368012770, 1709573263974460, 2293995720428310, 5412008559143370, 
  2293995720428320, 2293995720428310, 2293995720428310, 5412008559143380, 1144244951963300, 7711510096073399, 
  1144244951963301, 1144244951963300, 1144244951963300, 7711510096073399, 248113913634590, 9503772172730819, 
  248113913634590, 248113913634590, 248113913634590, 9503772172730819, 948538283795790, 6363511745616601, 2687949970587610, 
  2687949970587610, 6363511745616601, 948538283795790, 6363511745616601, 948538283795790, 2687949970587610, 
  2687949970587610, 948538283795790, 6363511745616601, 6363511745616601, 2687949970587610, 948538283795790, 
  181007732788070, 6901691599869050, 2917300667342881, 2917300667342880, 6901691599869050, 181007732788070, 
  6901691599869050, 181007732788070, 2917300667342881, 2917300667342880, 181007732788070, 6901691599869050, 
  6901691599869050, 2917300667342880, 181007732788070, 222330766740900, 8514095378342410, 1263573854916690, 
  1263573854916690, 8514095378342410, 222330766740900, 8514095378342410, 222330766740900, 1263573854916690, 
  1263573854916690, 222330766740900, 8514095378342410, 8514095378342410, 1263573854916690, 222330766740900]

/-- `gpTria`, in units of 1e-16 (gausstria.hpp:101-664), part 17. -/
def gpTria17 : List Int := [
  220721792756430, 4889639103621790, 4889639103621780, 1647105613190920, 4176447193404539, 4176447193404539, 
  4530449433823229, 2734775283088389, 2734775283088380, 6455889351749130, 1772055324125430, 1772055324125440, 
  8764002338182550, 617998830908730, 617998830908719, 9612180775025981, 193909612487010, 193909612487010, 571247574036480, 
  1722666878213560, 7706085547749961, 929162493569720, 3368614597963451, 5702222908466830, 146469500556540, 
  2983728821362581, 6869801678080881, 12683309328720, 1189744976969570, 8797571713701710, 4889639103621790, 
  220721792756430, 4889639103621780, 4889639103621790, 4889639103621790, 220721792756420, 4176447193404539, 
  1647105613190920, 4176447193404539, 4176447193404539, 4176447193404539, 1647105613190920, 2734775283088389, 
  4530449433823229, 2734775283088380, 2734775283088389, 2734775283088389, 4530449433823220, 1772055324125430, 
  6455889351749130, 1772055324125440, 1772055324125430, 1772055324125430, 6455889351749140, 617998830908730, 
  8764002338182550, 617998830908719, 617998830908730, 617998830908730, 8764002338182539, 193909612487010, 9612180775025981, 
  193909612487010, 193909612487010, 193909612487010, 9612180775025981, 571247574036480, 7706085547749961, 1722666878213560, 
  1722666878213560, 7706085547749961, 571247574036480, 7706085547749961, 571247574036480, 1722666878213560, 
  1722666878213560, 571247574036480, 7706085547749961, 7706085547749961, 1722666878213560, 571247574036480, 
  929162493569720, 5702222908466830, 3368614597963451, 3368614597963451, 5702222908466830, 929162493569720, 
  5702222908466830, 929162493569720, 3368614597963451, 3368614597963451, 929162493569720, 5702222908466830, 
  5702222908466830, 3368614597963451, 929162493569720, 146469500556540, 6869801678080881, 2983728821362581, 
  2983728821362581, 6869801678080881, 146469500556540, 6869801678080881, 146469500556540, 2983728821362581, 
  2983728821362581, 146469500556540, 6869801678080881, 6869801678080881, 2983728821362581, 146469500556540, 12683309328720, 
  8797571713701710, 1189744976969570, 1189744976969570, 8797571713701710, 12683309328720, 8797571713701710, 12683309328720, 
  1189744976969570, 1189744976969570, 12683309328720, 8797571713701710, 8797571713701710, 1189744976969570, 12683309328720]

/-- `gpTria`, in units of 1e-16 (gausstria.hpp:101-664), part 18. -/
def gpTria18 : List Int := [
  -139458337164860, 5069729168582429, 5069729168582430, 1371872914339550, 4314063542830230, 4314063542830220, 
  4446127103057109, 2776936448471439, 2776936448471450, 7470702179174919, 1264648910412540, 1264648910412541, 
  8583832280506280, 708083859746860, 708083859746859, 9620696595178530, 189651702410730, 189651702410741, 1337341619666210, 
  2613113711400871, 6049544668932921, 363666773969170, 3880467670902690, 5755865555128141, -101748831265710, 
  2857122200499159, 7244626630766551, 368438698758780, 2155996640722840, 7475564660518381, 124598093311990, 
  1035756165763860, 8839645740924151, 5069729168582429, -139458337164860, 5069729168582430, 5069729168582429, 
  5069729168582429, -139458337164859, 4314063542830230, 1371872914339550, 4314063542830220, 4314063542830230, 
  4314063542830230, 1371872914339540, 2776936448471439, 4446127103057109, 2776936448471450, 2776936448471439, 
  2776936448471439, 4446127103057120, 1264648910412540, 7470702179174919, 1264648910412541, 1264648910412540, 
  1264648910412540, 7470702179174919, 708083859746860, 8583832280506280, 708083859746859, 708083859746860, 708083859746860, 
  8583832280506280, 189651702410730, 9620696595178530, 189651702410741, 189651702410730, 189651702410730, 9620696595178540, 
  1337341619666210, 6049544668932911, 2613113711400880, 2613113711400871, 6049544668932911, 1337341619666220, 
  6049544668932911, 1337341619666210, 2613113711400880, 2613113711400871, 1337341619666210, 6049544668932921, 
  6049544668932911, 2613113711400871, 1337341619666220, 363666773969170, 5755865555128141, 3880467670902690, 
  3880467670902690, 5755865555128141, 363666773969170, 5755865555128141, 363666773969170, 3880467670902690, 
  3880467670902690, 363666773969170, 5755865555128141, 5755865555128141, 3880467670902690, 363666773969170, 
  -101748831265710, 7244626630766550, 2857122200499160, 2857122200499159, 7244626630766550, -101748831265709, 
  7244626630766550, -101748831265710, 2857122200499160, 2857122200499159, -101748831265710, 7244626630766551, 
  7244626630766550, 2857122200499159, -101748831265709, 368438698758780, 7475564660518381, 2155996640722840, 
  2155996640722840, 7475564660518381, 368438698758780, 7475564660518381, 368438698758780, 2155996640722840, 
  2155996640722840, 368438698758780, 7475564660518381, 7475564660518381, 2155996640722840, 368438698758780, 
  124598093311990, 8839645740924161, 1035756165763850, 1035756165763860, 8839645740924161, 124598093311980, 
  8839645740924161, 124598093311990, 1035756165763850, 1035756165763860, 124598093311990, 8839645740924151, 
  8839645740924161, 1035756165763860, 124598093311980]

/-- `gpTria`, in units of 1e-16 (gausstria.hpp:101-664), part 19. -/
def gpTria19 : List Int := [
  3333333333333329, 3333333333333329, 3333333333333340, 52389161031230, 4973805419484380, 4973805419484390, 
  1730611229012950, 4134694385493519, 4134694385493530, 590828018660170, 4704585990669911, 4704585990669921, 
  5188925000609579, 2405537499695210, 2405537499695210, 7040684115548540, 1479657942225730, 1479657942225730, 
  8490696246850519, 754651876574740, 754651876574740, 9668071947539501, 165964026230250, 165964026230250, 1035756922452520, 
  2965555965798871, 5998687111748609, 200834116554160, 3377230634030791, 6421935249415049, -43410026141390, 
  2047482816428120, 7995927209713269, 419417864680100, 1893584921306230, 7686997214013669, 143173202306810, 
  852836156826570, 9003990640866621, 4973805419484380, 52389161031230, 4973805419484390, 4973805419484380, 
  4973805419484380, 52389161031240, 4134694385493519, 1730611229012950, 4134694385493530, 4134694385493519, 
  4134694385493519, 1730611229012960, 4704585990669911, 590828018660170, 4704585990669921, 4704585990669911, 
  4704585990669911, 590828018660180, 2405537499695210, 5188925000609579, 2405537499695210, 2405537499695210, 
  2405537499695210, 5188925000609579, 1479657942225730, 7040684115548540, 1479657942225730, 1479657942225730, 
  1479657942225730, 7040684115548540, 754651876574740, 8490696246850519, 754651876574740, 754651876574740, 754651876574740, 
  8490696246850519, 165964026230250, 9668071947539501, 165964026230250, 165964026230250, 165964026230250, 9668071947539501, 
  1035756922452520, 5998687111748609, 2965555965798871, 2965555965798871, 5998687111748609, 1035756922452520, 
  5998687111748609, 1035756922452520, 2965555965798871, 2965555965798871, 1035756922452520, 5998687111748609, 
  5998687111748609, 2965555965798871, 1035756922452520, 200834116554160, 6421935249415049, 3377230634030791, 
  3377230634030791, 6421935249415049, 200834116554161, 6421935249415049, 200834116554160, 3377230634030791, 
  3377230634030791, 200834116554160, 6421935249415049, 6421935249415049, 3377230634030791, 200834116554161, 
  -43410026141390, 7995927209713270, 2047482816428119, 2047482816428120, 7995927209713270, -43410026141391, 
  7995927209713270, -43410026141390, 2047482816428119, 2047482816428120, -43410026141390, 7995927209713269, 
  7995927209713270, 2047482816428120, -43410026141391, 419417864680100, 7686997214013679, 1893584921306220, 
  1893584921306230, 7686997214013679, 419417864680090, 7686997214013679, 419417864680100, 1893584921306220, 
  1893584921306230, 419417864680100, 7686997214013669, 7686997214013679, 1893584921306230, 419417864680090, 
  143173202306810, 9003990640866611, 852836156826580, 852836156826570, 9003990640866611, 143173202306820, 9003990640866611, 
  143173202306810, 852836156826580, 852836156826570, 143173202306810, 9003990640866621, 9003990640866611, 852836156826570, 
  143173202306820]

/-- `gpTria`, in units of 1e-16 (gausstria.hpp:101-664), part 20. -/
def gpTria20 : List Int := [
  3333333333333329, 3333333333333329, 3333333333333340, 56589188864520, 4971705405567740, 4971705405567740, 
  356473547507510, 4821763226246250, 4821763226246240, 995200619584370, 4502399690207821, 4502399690207811, 
  1994675212452060, 4002662393773970, 4002662393773969, 4957174640580951, 2521412679709530, 2521412679709520, 
  6759059906830770, 1620470046584610, 1620470046584620, 8482482354785080, 758758822607460, 758758822607460, 
  9686905460643560, 156547269678220, 156547269678220, 101869288269190, 3343198673636580, 6554932038094229, 
  1354408716710360, 2922215377969439, 5723375905320201, 544239242905830, 3195748854231901, 6260011902862271, 
  128685608336370, 1907042241922920, 7964272149740709, 671657824135240, 1804832116487460, 7523510059377299, 
  146631822248280, 807113136795640, 9046255040956080, 4971705405567740, 56589188864520, 4971705405567740, 4971705405567740, 
  4971705405567740, 56589188864520, 4821763226246250, 356473547507510, 4821763226246240, 4821763226246250, 
  4821763226246250, 356473547507500, 4502399690207821, 995200619584370, 4502399690207811, 4502399690207821, 
  4502399690207821, 995200619584360, 4002662393773970, 1994675212452060, 4002662393773969, 4002662393773970, 
  4002662393773970, 1994675212452059, 2521412679709530, 4957174640580951, 2521412679709520, 2521412679709530, 
  2521412679709530, 4957174640580941, 1620470046584610, 6759059906830770, 1620470046584620, 1620470046584610, 
  1620470046584610, 6759059906830780, 758758822607460, 8482482354785080, 758758822607460, 758758822607460, 758758822607460, 
  8482482354785080, 156547269678220, 9686905460643560, 156547269678220, 156547269678220, 156547269678220, 9686905460643560, 
  101869288269190, 6554932038094229, 3343198673636580, 3343198673636580, 6554932038094229, 101869288269190, 
  6554932038094229, 101869288269190, 3343198673636580, 3343198673636580, 101869288269190, 6554932038094229, 
  6554932038094229, 3343198673636580, 101869288269190, 1354408716710360, 5723375905320201, 2922215377969439, 
  2922215377969439, 5723375905320201, 1354408716710360, 5723375905320201, 1354408716710360, 2922215377969439, 
  2922215377969439, 1354408716710360, 5723375905320201, 5723375905320201, 2922215377969439, 1354408716710360, 
  544239242905830, 6260011902862281, 3195748854231890, 3195748854231901, 6260011902862281, 544239242905820, 
  6260011902862281, 544239242905830, 3195748854231890, 3195748854231901, 544239242905830, 6260011902862271, 
  6260011902862281, 3195748854231901, 544239242905820, 128685608336370, 7964272149740709, 1907042241922920, 
  1907042241922920, 7964272149740709, 128685608336370, 7964272149740709, 128685608336370, 1907042241922920, 
  1907042241922920, 128685608336370, 7964272149740709, 7964272149740709, 1907042241922920, 128685608336370, 
  671657824135240, 7523510059377289, 1804832116487470, 1804832116487460, 7523510059377289, 671657824135250, 
  7523510059377289, 671657824135240, 1804832116487470, 1804832116487460, 671657824135240, 7523510059377299, 
  7523510059377289, 1804832116487460, 671657824135250, 146631822248280, 9046255040956080, 807113136795640, 807113136795640, 
  9046255040956080, 146631822248280, 9046255040956080, 146631822248280, 807113136795640, 807113136795640, 146631822248280, 
  9046255040956080, 9046255040956080, 807113136795640, 146631822248280]

/-- `gpTria`, in units of 1e-16 (gausstria.hpp:101-664), part 21. -/
def gpTria21 : List Int := [
  3333333333333329, 3333333333333329, 3333333333333340, 133103827381570, 4933448086309210, 4933448086309220, 
  615788115160860, 4692105942419570, 4692105942419570, 1274372082259890, 4362813958870060, 4362813958870050, 
  2103076586531680, 3948461706734160, 3948461706734160, 5004108623936861, 2497945688031570, 2497945688031570, 
  6771356125123150, 1614321937438430, 1614321937438420, 8468035450292570, 765982274853710, 765982274853720, 
  9514951212930999, 242524393534500, 242524393534500, 9137072655660710, 431463672169650, 431463672169640, 84305362024200, 
  3589114949409440, 6326579688566361, 1311865517371880, 2944024767519571, 5744109715108550, 502031515656750, 
  3250178016418139, 6247790467925110, 663292638109160, 1847375596660460, 7489331765230381, 119961945662360, 
  2187968000133210, 7692070054204429, 148581005901250, 1011795971364080, 8839623022734669, -352220152879490, 
  208747552825860, 10143472600053629, 4933448086309210, 133103827381570, 4933448086309220, 4933448086309210, 
  4933448086309210, 133103827381580, 4692105942419570, 615788115160860, 4692105942419570, 4692105942419570, 
  4692105942419570, 615788115160860, 4362813958870060, 1274372082259890, 4362813958870050, 4362813958870060, 
  4362813958870060, 1274372082259880, 3948461706734160, 2103076586531680, 3948461706734160, 3948461706734160, 
  3948461706734160, 2103076586531680, 2497945688031570, 5004108623936861, 2497945688031570, 2497945688031570, 
  2497945688031570, 5004108623936861, 1614321937438430, 6771356125123150, 1614321937438420, 1614321937438430, 
  1614321937438430, 6771356125123140, 765982274853710, 8468035450292570, 765982274853720, 765982274853710, 765982274853710, 
  8468035450292580, 242524393534500, 9514951212930999, 242524393534500, 242524393534500, 242524393534500, 9514951212930999, 
  431463672169650, 9137072655660710, 431463672169640, 431463672169650, 431463672169650, 9137072655660700, 84305362024200, 
  6326579688566361, 3589114949409440, 3589114949409440, 6326579688566361, 84305362024200, 6326579688566361, 84305362024200, 
  3589114949409440, 3589114949409440, 84305362024200, 6326579688566361, 6326579688566361, 3589114949409440, 84305362024200, 
  1311865517371880, 5744109715108550, 2944024767519571, 2944024767519571, 5744109715108550, 1311865517371880, 
  5744109715108550, 1311865517371880, 2944024767519571, 2944024767519571, 1311865517371880, 5744109715108550, 
  5744109715108550, 2944024767519571, 1311865517371880, 502031515656750, 6247790467925119, 3250178016418130, 
  3250178016418139, 6247790467925119, 502031515656741, 6247790467925119, 502031515656750, 3250178016418130, 
  3250178016418139, 502031515656750, 6247790467925110, 6247790467925119, 3250178016418139, 502031515656741, 
  663292638109160, 7489331765230371, 1847375596660470, 1847375596660460, 7489331765230371, 663292638109170, 
  7489331765230371, 663292638109160, 1847375596660470, 1847375596660460, 663292638109160, 7489331765230381, 
  7489331765230371, 1847375596660460, 663292638109170, 119961945662360, 7692070054204429, 2187968000133211, 
  2187968000133210, 7692070054204429, 119961945662360, 7692070054204429, 119961945662360, 2187968000133211, 
  2187968000133210, 119961945662360, 7692070054204429, 7692070054204429, 2187968000133210, 119961945662360, 
  148581005901250, 8839623022734669, 1011795971364080, 1011795971364080, 8839623022734669, 148581005901250, 
  8839623022734669, 148581005901250, 1011795971364080, 1011795971364080, 148581005901250, 8839623022734669, 
  8839623022734669, 1011795971364080, 148581005901250, -352220152879490, 10143472600053629, 208747552825861, 
  208747552825860, 10143472600053629, -352220152879489, 10143472600053629, -352220152879490, 208747552825861, 
  208747552825860, -352220152879490, 10143472600053629, 10143472600053629, 208747552825860, -352220152879489]

/-- `gpTria`, in units of 1e-16 (gausstria.hpp:101-664), part 22. -/
def gpTria22 : List Int := [
  3333333333333329, 3333333333333329, 3333333333333340, 207800258539870, 4896099870730061, 4896099870730070, 
  909262146042150, 4545368926978930, 4545368926978920, 1971666387011380, 4014166806494310, 4014166806494311, 
  4888966911938051, 2555516544030981, 2555516544030970, 6458441156957409, 1770779421521300, 1770779421521290, 
  7798778935440960, 1100610532279520, 1100610532279520, 8889427514963210, 555286242518400, 555286242518390, 
  9747562724455430, 126218637772290, 126218637772280, 36114178484120, 3957547873569431, 6006337947946450, 1344667545307800, 
  3079299838804361, 5576032615887841, 144460257761150, 2645669484065200, 7209870258173649, 469335788381780, 
  3585393522059511, 5945270689558711, 28611203505670, 1578074059685950, 8393314736808381, 2238614240979160, 
  750505969759110, 7010879789261731, 346470748167600, 1424216011133830, 8229313240698570, 101611192962780, 654946280829380, 
  9243442526207841, 4896099870730061, 207800258539870, 4896099870730070, 4896099870730061, 4896099870730061, 
  207800258539880, 4545368926978930, 909262146042150, 4545368926978920, 4545368926978930, 4545368926978930, 
  909262146042140, 4014166806494310, 1971666387011380, 4014166806494311, 4014166806494310, 4014166806494310, 
  1971666387011380, 2555516544030981, 4888966911938051, 2555516544030970, 2555516544030981, 2555516544030981, 
  4888966911938040, 1770779421521300, 6458441156957409, 1770779421521290, 1770779421521300, 1770779421521300, 
  6458441156957399, 1100610532279520, 7798778935440960, 1100610532279520, 1100610532279520, 1100610532279520, 
  7798778935440960, 555286242518400, 8889427514963210, 555286242518390, 555286242518400, 555286242518400, 8889427514963200, 
  126218637772290, 9747562724455430, 126218637772280, 126218637772290, 126218637772290, 9747562724455420, 36114178484120, 
  6006337947946450, 3957547873569431, 3957547873569431, 6006337947946450, 36114178484120, 6006337947946450, 36114178484120, 
  3957547873569431, 3957547873569431, 36114178484120, 6006337947946450, 6006337947946450, 3957547873569431, 36114178484120, 
  1344667545307800, 5576032615887841, 3079299838804360, 3079299838804361, 5576032615887841, 1344667545307799, 
  5576032615887841, 1344667545307800, 3079299838804360, 3079299838804361, 1344667545307800, 5576032615887841, 
  5576032615887841, 3079299838804361, 1344667545307799, 144460257761150, 7209870258173649, 2645669484065200, 
  2645669484065200, 7209870258173649, 144460257761150, 7209870258173649, 144460257761150, 2645669484065200, 
  2645669484065200, 144460257761150, 7209870258173649, 7209870258173649, 2645669484065200, 144460257761150, 
  469335788381780, 5945270689558711, 3585393522059510, 3585393522059511, 5945270689558711, 469335788381779, 
  5945270689558711, 469335788381780, 3585393522059510, 3585393522059511, 469335788381780, 5945270689558711, 
  5945270689558711, 3585393522059511, 469335788381779, 28611203505670, 8393314736808391, 1578074059685940, 
  1578074059685950, 8393314736808391, 28611203505660, 8393314736808391, 28611203505670, 1578074059685940, 1578074059685950, 
  28611203505670, 8393314736808381, 8393314736808391, 1578074059685950, 28611203505660, 2238614240979160, 7010879789261731, 
  750505969759110, 750505969759110, 7010879789261731, 2238614240979160, 7010879789261731, 2238614240979160, 
  750505969759110, 750505969759110, 2238614240979160, 7010879789261731, 7010879789261731, 750505969759110, 
  2238614240979160, 346470748167600, 8229313240698570, 1424216011133830, 1424216011133830, 8229313240698570, 
  346470748167600, 8229313240698570, 346470748167600, 1424216011133830, 1424216011133830, 346470748167600, 
  8229313240698570, 8229313240698570, 1424216011133830, 346470748167600, 101611192962780, 9243442526207841, 
  654946280829380, 654946280829380, 9243442526207841, 101611192962780, 9243442526207841, 101611192962780, 654946280829380, 
  654946280829380, 101611192962780, 9243442526207841, 9243442526207841, 654946280829380, 101611192962780]

/-- `gpTria`, in units of 1e-16 (gausstria.hpp:101-664), part 23. -/
def gpTria23 : List Int := [
  3333333333333329, 3333333333333329, 3333333333333340, -19009287044000, 5009504643522001, 5009504643522000, 
  235740841305430, 4882129579347291, 4882129579347280, 897266360994350, 4551366819502831, 4551366819502821, 
  1960074813634210, 4019962593182890, 4019962593182901, 4882141804811571, 2558929097594209, 2558929097594220, 
  6470234880097881, 1764882559951060, 1764882559951060, 7916582893264830, 1041708553367580, 1041708553367590, 
  8938620723181400, 530689638409300, 530689638409300, 9167625696079421, 416187151960290, 416187151960290, 9768361571863560, 
  115819214068220, 115819214068220, 487415836648390, 3448557702290010, 6064026461061600, 63141159486050, 3778432695948540, 
  6158426144565409, 1343165205473480, 3066354790623570, 5590480003902950, 139738939623920, 2494193627747420, 
  7366067432628660, 755491329097640, 2127757248028020, 7116751422874340, -83681532082270, 1469654360532390, 
  8614027171549879, 266860632587140, 1377269788289230, 8355869579123631, 105477192941410, 596961091490070, 
  9297561715568520, 5009504643522001, -19009287044000, 5009504643522000, 5009504643522001, 5009504643522001, 
  -19009287044001, 4882129579347291, 235740841305430, 4882129579347280, 4882129579347291, 4882129579347291, 
  235740841305420, 4551366819502831, 897266360994350, 4551366819502821, 4551366819502831, 4551366819502831, 
  897266360994340, 4019962593182890, 1960074813634210, 4019962593182901, 4019962593182890, 4019962593182890, 
  1960074813634221, 2558929097594209, 4882141804811571, 2558929097594220, 2558929097594209, 2558929097594209, 
  4882141804811581, 1764882559951060, 6470234880097881, 1764882559951060, 1764882559951060, 1764882559951060, 
  6470234880097881, 1041708553367580, 7916582893264830, 1041708553367590, 1041708553367580, 1041708553367580, 
  7916582893264840, 530689638409300, 8938620723181400, 530689638409300, 530689638409300, 530689638409300, 8938620723181400, 
  416187151960290, 9167625696079421, 416187151960290, 416187151960290, 416187151960290, 9167625696079421, 115819214068220, 
  9768361571863560, 115819214068220, 115819214068220, 115819214068220, 9768361571863560, 487415836648390, 6064026461061600, 
  3448557702290010, 3448557702290010, 6064026461061600, 487415836648390, 6064026461061600, 487415836648390, 
  3448557702290010, 3448557702290010, 487415836648390, 6064026461061600, 6064026461061600, 3448557702290010, 
  487415836648390, 63141159486050, 6158426144565409, 3778432695948541, 3778432695948540, 6158426144565409, 63141159486050, 
  6158426144565409, 63141159486050, 3778432695948541, 3778432695948540, 63141159486050, 6158426144565409, 6158426144565409, 
  3778432695948540, 63141159486050, 1343165205473480, 5590480003902950, 3066354790623570, 3066354790623570, 
  5590480003902950, 1343165205473480, 5590480003902950, 1343165205473480, 3066354790623570, 3066354790623570, 
  1343165205473480, 5590480003902950, 5590480003902950, 3066354790623570, 1343165205473480, 139738939623920, 
  7366067432628660, 2494193627747420, 2494193627747420, 7366067432628660, 139738939623920, 7366067432628660, 
  139738939623920, 2494193627747420, 2494193627747420, 139738939623920, 7366067432628660, 7366067432628660, 
  2494193627747420, 139738939623920, 755491329097640, 7116751422874340, 2127757248028020, 2127757248028020, 
  7116751422874340, 755491329097640, 7116751422874340, 755491329097640, 2127757248028020, 2127757248028020, 
  755491329097640, 7116751422874340, 7116751422874340, 2127757248028020, 755491329097640, -83681532082270, 
  8614027171549869, 1469654360532401, 1469654360532390, 8614027171549869, -83681532082260, 8614027171549869, 
  -83681532082270, 1469654360532401, 1469654360532390, -83681532082270, 8614027171549879, 8614027171549869, 
  1469654360532390, -83681532082260, 266860632587140, 8355869579123631, 1377269788289230, 1377269788289230, 
  8355869579123631, 266860632587139, 8355869579123631, 266860632587140, 1377269788289230, 1377269788289230, 
  266860632587140, 8355869579123631, 8355869579123631, 1377269788289230, 266860632587139, 105477192941410, 
  9297561715568530, 596961091490060, 596961091490070, 9297561715568530, 105477192941400, 9297561715568530, 105477192941410, 
  596961091490060, 596961091490070, 105477192941410, 9297561715568520, 9297561715568530, 596961091490070, 105477192941400]

/-- `gpTria`, in units of 1e-16 (gausstria.hpp:101-664). -/
def gpTria : List Int :=
  gpTria1 ++ (gpTria2 ++ (gpTria3 ++ (gpTria4 ++ (gpTria5 ++ (gpTria6 ++ (gpTria7 ++ (gpTria8 ++ (gpTria9 ++ (gpTria10 ++ (gpTria11 ++ (gpTria12 ++ (gpTria13 ++ (gpTria14 ++ (gpTria15 ++ (gpTria16 ++ (gpTria17 ++ (gpTria18 ++ (gpTria19 ++ (gpTria20 ++ (gpTria21 ++ (gpTria22 ++ (gpTria23))))))))))))))))))))))

/-- `gwTria`, in units of 1e-16 (gausstria.hpp:670-894), part 1. -/
def gwTria1 : List Int := [
  10000000000000000]

/-- `gwTria`, in units of 1e-16 (gausstria.hpp:670-894), part 2. -/
def gwTria2 : List Int := [
  3333333333333329, 3333333333333329, 3333333333333329]

/-- `gwTria`, in units of 1e-16 (gausstria.hpp:670-894), part 3. -/
def gwTria3 : List Int := [
  -5625000000000000, 5208333333333330, 5208333333333330, 5208333333333330]

/-- `gwTria`, in units of 1e-16 (gausstria.hpp:670-894), part 4. -/
def gwTria4 : List Int := [
  2233815896780110, 1099517436553220, 2233815896780110, 2233815896780110, 1099517436553220, 1099517436553220]

/-- `gwTria`, in units of 1e-16 (gausstria.hpp:670-894), part 5. -/
def gwTria5 : List Int := [
  2250000000000000, 1323941527885060, 1259391805448270, 1323941527885060, 1323941527885060, 1259391805448270, 
  1259391805448270]

/-- `gwTria`, in units of 1e-16 (gausstria.hpp:670-894), part 6. -/
def gwTria6 : List Int := [
  2059505047608870, 2059505047608870, 2059505047608870, 636914142862230, 636914142862230, 636914142862230, 636914142862230, 
  636914142862230, 636914142862230]

/-- `gwTria`, in units of 1e-16 (gausstria.hpp:670-894), part 7. -/
def gwTria7 : List Int := [
  1167862757263790, 508449063702070, 828510756183740, 1167862757263790, 1167862757263790, 508449063702070, 508449063702070, 
  828510756183740, 828510756183740, 828510756183740, 828510756183740, 828510756183740]

/-- `gwTria`, in units of 1e-16 (gausstria.hpp:670-894), part 8. -/
def gwTria8 : List Int := [
  -1495700444676820, 1756152574332080, 533472356088380, 771137608902570, 1756152574332080, 1756152574332080, 
  533472356088380, 533472356088380, 771137608902570, 771137608902570, 771137608902570, 771137608902570, 771137608902570]

/-- `gwTria`, in units of 1e-16 (gausstria.hpp:670-894), part 9. -/
def gwTria9 : List Int := [
  530778017902330, 530778017902330, 530778017902330, 708530836921360, 708530836921360, 708530836921360, 708530836921360, 
  708530836921360, 708530836921360, 692746820794150, 692746820794150, 692746820794150, 692746820794150, 692746820794150, 
  692746820794150]

/-- `gwTria`, in units of 1e-16 (gausstria.hpp:670-894), part 10. -/
def gwTria10 : List Int := [
  1443156076777870, 950916342672850, 1032173705347180, 324584976231980, 272303141744350, 950916342672850, 950916342672850, 
  1032173705347180, 1032173705347180, 324584976231980, 324584976231980, 272303141744350, 272303141744350, 272303141744350, 
  272303141744350, 272303141744350]

/-- `gwTria`, in units of 1e-16 (gausstria.hpp:670-894), part 11. -/
def gwTria11 : List Int := [
  971357962827990, 313347002271390, 778275410047740, 796477389272100, 255776756586980, 432835393772890, 313347002271390, 
  313347002271390, 778275410047740, 778275410047740, 796477389272100, 796477389272100, 255776756586980, 255776756586980, 
  432835393772890, 432835393772890, 432835393772890, 432835393772890, 432835393772890]

/-- `gwTria`, in units of 1e-16 (gausstria.hpp:670-894), part 12. -/
def gwTria12 : List Int := [
  516172025690210, 516172025690210, 516172025690210, 940800734583560, 940800734583560, 940800734583560, 259935710323200, 
  259935710323200, 259935710323200, 454695380476190, 454695380476190, 454695380476190, 454695380476190, 454695380476190, 
  454695380476190, 353517050891990, 353517050891990, 353517050891990, 353517050891990, 353517050891990, 353517050891990]

/-- `gwTria`, in units of 1e-16 (gausstria.hpp:670-894), part 13. -/
def gwTria13 : List Int := [
  908179903827540, 367259577564670, 453210594355280, 727579168454200, 283272425310570, 94216669637330, 367259577564670, 
  367259577564670, 453210594355280, 453210594355280, 727579168454200, 727579168454200, 727579168454200, 727579168454200, 
  727579168454200, 283272425310570, 283272425310570, 283272425310570, 283272425310570, 283272425310570, 94216669637330, 
  94216669637330, 94216669637330, 94216669637330, 94216669637330]

/-- `gwTria`, in units of 1e-16 (gausstria.hpp:670-894), part 14. -/
def gwTria14 : List Int := [
  9270063289610, 771495349148130, 593229773807740, 361845405034180, 136597310026780, 523371119622040, 207076596391410, 
  9270063289610, 9270063289610, 771495349148130, 771495349148130, 593229773807740, 593229773807740, 361845405034180, 
  361845405034180, 136597310026780, 136597310026780, 523371119622040, 523371119622040, 523371119622040, 523371119622040, 
  523371119622040, 207076596391410, 207076596391410, 207076596391410, 207076596391410, 207076596391410]

/-- `gwTria`, in units of 1e-16 (gausstria.hpp:670-894), part 15. -/
def gwTria15 : List Int := [
  257310664404550, 436925445380380, 628582242178850, 347961129307090, 61662610515590, 403715577663810, 223567732023030, 
  173162311086590, 257310664404550, 257310664404550, 436925445380380, 436925445380380, 628582242178850, 628582242178850, 
  347961129307090, 347961129307090, 61662610515590, 61662610515590, 403715577663810, 403715577663810, 403715577663810, 
  403715577663810, 403715577663810, 223567732023030, 223567732023030, 223567732023030, 223567732023030, 223567732023030, 
  173162311086590, 173162311086590, 173162311086590, 173162311086590, 173162311086590]

/-- `gwTria`, in units of 1e-16 (gausstria.hpp:670-894), part 16. -/
def gwTria16 : List Int := [
  525209234008020, 112801452093300, 314235183624540, 470725025041940, 473635865363550, 311675290457940, 79757714650740, 
  368484027287320, 174014633038220, 155217868390450, 112801452093300, 112801452093300, 314235183624540, 314235183624540, 
  470725025041940, 470725025041940, 473635865363550, 473635865363550, 311675290457940, 311675290457940, 79757714650740, 
  79757714650740, 368484027287320, 368484027287320, 368484027287320, 368484027287320, 368484027287320, 174014633038220, 
  174014633038220, 174014633038220, 174014633038220, 174014633038220, 155217868390450, 155217868390450, 155217868390450, 
  155217868390450, 155217868390450]

/-- `gwTria`, in units of 1e-16 (gausstria.hpp:670-894), part 17. -/
def gwTria17 : List Int := [
  218835813694290, 327883535441250, 517741045072920, 421625887369930, 144336996697770, 49234036024000, 246657532125640, 
  385715107870610, 144363081135340, 50102288385010, 218835813694290, 218835813694290, 327883535441250, 327883535441250, 
  517741045072920, 517741045072920, 421625887369930, 421625887369930, 144336996697770, 144336996697770, 49234036024000, 
  49234036024000, 246657532125640, 246657532125640, 246657532125640, 246657532125640, 246657532125640, 385715107870610, 
  385715107870610, 385715107870610, 385715107870610, 385715107870610, 144363081135340, 144363081135340, 144363081135340, 
  144363081135340, 144363081135340, 50102288385010, 50102288385010, 50102288385010, 50102288385010, 50102288385010]

/-- `gwTria`, in units of 1e-16 (gausstria.hpp:670-894), part 18. -/
def gwTria18 : List Int := [
  19168756428490, 442490272711450, 511865487188520, 236877358706880, 132897756900210, 47489166081920, 385500725995930, 
  272158143206240, 21820773667970, 215053198477310, 76739426310490, 19168756428490, 19168756428490, 442490272711450, 
  442490272711450, 511865487188520, 511865487188520, 236877358706880, 236877358706880, 132897756900210, 132897756900210, 
  47489166081920, 47489166081920, 385500725995930, 385500725995930, 385500725995930, 385500725995930, 385500725995930, 
  272158143206240, 272158143206240, 272158143206240, 272158143206240, 272158143206240, 21820773667970, 21820773667970, 
  21820773667970, 21820773667970, 21820773667970, 215053198477310, 215053198477310, 215053198477310, 215053198477310, 
  215053198477310, 76739426310490, 76739426310490, 76739426310490, 76739426310490, 76739426310490]

/-- `gwTria`, in units of 1e-16 (gausstria.hpp:670-894), part 19. -/
def gwTria19 : List Int := [
  468756974276420, 64058785785850, 417102967393870, 268914842500640, 421325227616500, 300002668427730, 142000989250240, 
  35824623512730, 327731474606270, 152983062484410, 23862441928390, 190847927558990, 68500545465420, 64058785785850, 
  64058785785850, 417102967393870, 417102967393870, 268914842500640, 268914842500640, 421325227616500, 421325227616500, 
  300002668427730, 300002668427730, 142000989250240, 142000989250240, 35824623512730, 35824623512730, 327731474606270, 
  327731474606270, 327731474606270, 327731474606270, 327731474606270, 152983062484410, 152983062484410, 152983062484410, 
  152983062484410, 152983062484410, 23862441928390, 23862441928390, 23862441928390, 23862441928390, 23862441928390, 
  190847927558990, 190847927558990, 190847927558990, 190847927558990, 190847927558990, 68500545465420, 68500545465420, 
  68500545465420, 68500545465420, 68500545465420]

/-- `gwTria`, in units of 1e-16 (gausstria.hpp:670-894), part 20. -/
def gwTria20 : List Int := [
  334371992908030, 50934154405070, 146708645276380, 243508783536720, 311075508689690, 312571112186200, 248156543396650, 
  140560730705570, 31946761737790, 81196553189930, 268057422831630, 184599932108220, 84768685343280, 182927967700250, 
  66656320041650, 50934154405070, 50934154405070, 146708645276380, 146708645276380, 243508783536720, 243508783536720, 
  311075508689690, 311075508689690, 312571112186200, 312571112186200, 248156543396650, 248156543396650, 140560730705570, 
  140560730705570, 31946761737790, 31946761737790, 81196553189930, 81196553189930, 81196553189930, 81196553189930, 
  81196553189930, 268057422831630, 268057422831630, 268057422831630, 268057422831630, 268057422831630, 184599932108220, 
  184599932108220, 184599932108220, 184599932108220, 184599932108220, 84768685343280, 84768685343280, 84768685343280, 
  84768685343280, 84768685343280, 182927967700250, 182927967700250, 182927967700250, 182927967700250, 182927967700250, 
  66656320041650, 66656320041650, 66656320041650, 66656320041650, 66656320041650]

/-- `gwTria`, in units of 1e-16 (gausstria.hpp:670-894), part 21. -/
def gwTria21 : List Int := [
  308099399376470, 90724366794040, 187613169395940, 194410979854770, 277539486108100, 322562253514570, 250740326169220, 
  152719279718320, 67939220229630, -22230987299200, 63319140764060, 272575380491380, 176767856494650, 183794846380700, 
  81047328081920, 76341290707250, 461876607940, 90724366794040, 90724366794040, 187613169395940, 187613169395940, 
  194410979854770, 194410979854770, 277539486108100, 277539486108100, 322562253514570, 322562253514570, 250740326169220, 
  250740326169220, 152719279718320, 152719279718320, 67939220229630, 67939220229630, -22230987299200, -22230987299200, 
  63319140764060, 63319140764060, 63319140764060, 63319140764060, 63319140764060, 272575380491380, 272575380491380, 
  272575380491380, 272575380491380, 272575380491380, 176767856494650, 176767856494650, 176767856494650, 176767856494650, 
  176767856494650, 183794846380700, 183794846380700, 183794846380700, 183794846380700, 183794846380700, 81047328081920, 
  81047328081920, 81047328081920, 81047328081920, 81047328081920, 76341290707250, 76341290707250, 76341290707250, 
  76341290707250, 76341290707250, 461876607940, 461876607940, 461876607940, 461876607940, 461876607940]

/-- `gwTria`, in units of 1e-16 (gausstria.hpp:670-894), part 22. -/
def gwTria22 : List Int := [
  329063313889190, 103307318912720, 223872472630160, 302661258694680, 304909678021980, 241592127416410, 160508035868010, 
  80845802617840, 20793620274850, 38848769049810, 255741606120220, 88809035733380, 161245467617310, 24919418174910, 
  182428401189510, 102585637361990, 37999288553020, 103307318912720, 103307318912720, 223872472630160, 223872472630160, 
  302661258694680, 302661258694680, 304909678021980, 304909678021980, 241592127416410, 241592127416410, 160508035868010, 
  160508035868010, 80845802617840, 80845802617840, 20793620274850, 20793620274850, 38848769049810, 38848769049810, 
  38848769049810, 38848769049810, 38848769049810, 255741606120220, 255741606120220, 255741606120220, 255741606120220, 
  255741606120220, 88809035733380, 88809035733380, 88809035733380, 88809035733380, 88809035733380, 161245467617310, 
  161245467617310, 161245467617310, 161245467617310, 161245467617310, 24919418174910, 24919418174910, 24919418174910, 
  24919418174910, 24919418174910, 182428401189510, 182428401189510, 182428401189510, 182428401189510, 182428401189510, 
  102585637361990, 102585637361990, 102585637361990, 102585637361990, 102585637361990, 37999288553020, 37999288553020, 
  37999288553020, 37999288553020, 37999288553020]

/-- `gwTria`, in units of 1e-16 (gausstria.hpp:670-894), part 23. -/
def gwTria23 : List Int := [
  330570555416240, 8670191856630, 116600527164480, 228769363564210, 304489826739380, 306248917253550, 243680576768000, 
  159974320320240, 76983018156020, -6320604974880, 17511343011930, 164658391895760, 48390335404850, 258049065346500, 
  84710910544410, 183549141062800, 7044046779080, 101126849274620, 35739093859500, 8670191856630, 8670191856630, 
  116600527164480, 116600527164480, 228769363564210, 228769363564210, 304489826739380, 304489826739380, 306248917253550, 
  306248917253550, 243680576768000, 243680576768000, 159974320320240, 159974320320240, 76983018156020, 76983018156020, 
  -6320604974880, -6320604974880, 17511343011930, 17511343011930, 164658391895760, 164658391895760, 164658391895760, 
  164658391895760, 164658391895760, 48390335404850, 48390335404850, 48390335404850, 48390335404850, 48390335404850, 
  258049065346500, 258049065346500, 258049065346500, 258049065346500, 258049065346500, 84710910544410, 84710910544410, 
  84710910544410, 84710910544410, 84710910544410, 183549141062800, 183549141062800, 183549141062800, 183549141062800, 
  183549141062800, 7044046779080, 7044046779080, 7044046779080, 7044046779080, 7044046779080, 101126849274620, 
  101126849274620, 101126849274620, 101126849274620, 101126849274620, 35739093859500, 35739093859500, 35739093859500, 
  35739093859500, 35739093859500]

/-- `gwTria`, in units of 1e-16 (gausstria.hpp:670-894). -/
def gwTria : List Int :=
  gwTria1 ++ (gwTria2 ++ (gwTria3 ++ (gwTria4 ++ (gwTria5 ++ (gwTria6 ++ (gwTria7 ++ (gwTria8 ++ (gwTria9 ++ (gwTria10 ++ (gwTria11 ++ (gwTria12 ++ (gwTria13 ++ (gwTria14 ++ (gwTria15 ++ (gwTria16 ++ (gwTria17 ++ (gwTria18 ++ (gwTria19 ++ (gwTria20 ++ (gwTria21 ++ (gwTria22 ++ (gwTria23))))))))))))))))))))))

/-- `gTensorAddress` (gausstensor.hpp:51-56). -/
def gTensorAddress : List Int := [
  0, 1, 5, 14, 30, 55, 91, 140, 204, 285, 385, 506, 650, 819, 1015, 1240, 1496, 1785, 2109, 2470]

/-- `gpTensor`, in units of 1e-15 (gausstensor.hpp:59-1538), part 1. -/
def gpTensor1 : List Int := [
  500000000000000, 500000000000000]

/-- `gpTensor`, in units of 1e-15 (gausstensor.hpp:59-1538), part 2. -/
def gpTensor2 : List Int := [
  211324865405187, 211324865405187, 211324865405187, 788675134594813, 788675134594813, 211324865405187, 788675134594813, 
  788675134594813]

/-- `gpTensor`, in units of 1e-15 (gausstensor.hpp:59-1538), part 3. -/
def gpTensor3 : List Int := [
  112701665379258, 112701665379258, 112701665379258, 500000000000000, 112701665379258, 887298334620742, 500000000000000, 
  112701665379258, 500000000000000, 500000000000000, 500000000000000, 887298334620742, 887298334620742, 112701665379258, 
  887298334620742, 500000000000000, 887298334620742, 887298334620742]

/-- `gpTensor`, in units of 1e-15 (gausstensor.hpp:59-1538), part 4. -/
def gpTensor4 : List Int := [
  69431844202974, 69431844202974, 69431844202974, 330009478207572, 69431844202974, 669990521792428, 69431844202974, 
  930568155797026, 330009478207572, 69431844202974, 330009478207572, 330009478207572, 330009478207572, 669990521792428, 
  330009478207572, 930568155797026, 669990521792428, 69431844202974, 669990521792428, 330009478207572, 669990521792428, 
  669990521792428, 669990521792428, 930568155797026, 930568155797026, 69431844202974, 930568155797026, 330009478207572, 
  930568155797026, 669990521792428, 930568155797026, 930568155797026]

/-- `gpTensor`, in units of 1e-15 (gausstensor.hpp:59-1538), part 5. -/
def gpTensor5 : List Int := [
  46910077030668, 46910077030668, 46910077030668, 230765344947158, 46910077030668, 500000000000000, 46910077030668, 
  769234655052841, 46910077030668, 953089922969332, 230765344947158, 46910077030668, 230765344947158, 230765344947158, 
  230765344947158, 500000000000000, 230765344947158, 769234655052841, 230765344947158, 953089922969332, 500000000000000, 
  46910077030668, 500000000000000, 230765344947158, 500000000000000, 500000000000000, 500000000000000, 769234655052841, 
  500000000000000, 953089922969332, 769234655052841, 46910077030668, 769234655052841, 230765344947158, 769234655052841, 
  500000000000000, 769234655052841, 769234655052841, 769234655052841, 953089922969332, 953089922969332, 46910077030668, 
  953089922969332, 230765344947158, 953089922969332, 500000000000000, 953089922969332, 769234655052841, 953089922969332, 
  953089922969332]

/-- `gpTensor`, in units of 1e-15 (gausstensor.hpp:59-1538), part 6. -/
def gpTensor6 : List Int := [
  33765242898424, 33765242898424, 33765242898424, 169395306766868, 33765242898424, 380690406958402, 33765242898424, 
  619309593041598, 33765242898424, 830604693233132, 33765242898424, 966234757101576, 169395306766868, 33765242898424, 
  169395306766868, 169395306766868, 169395306766868, 380690406958402, 169395306766868, 619309593041598, 169395306766868, 
  830604693233132, 169395306766868, 966234757101576, 380690406958402, 33765242898424, 380690406958402, 169395306766868, 
  380690406958402, 380690406958402, 380690406958402, 619309593041598, 380690406958402, 830604693233132, 380690406958402, 
  966234757101576, 619309593041598, 33765242898424, 619309593041598, 169395306766868, 619309593041598, 380690406958402, 
  619309593041598, 619309593041598, 619309593041598, 830604693233132, 619309593041598, 966234757101576, 830604693233132, 
  33765242898424, 830604693233132, 169395306766868, 830604693233132, 380690406958402, 830604693233132, 619309593041598, 
  830604693233132, 830604693233132, 830604693233132, 966234757101576, 966234757101576, 33765242898424, 966234757101576, 
  169395306766868, 966234757101576, 380690406958402, 966234757101576, 619309593041598, 966234757101576, 830604693233132, 
  966234757101576, 966234757101576]

/-- `gpTensor`, in units of 1e-15 (gausstensor.hpp:59-1538), part 7. -/
def gpTensor7 : List Int := [
  25446043828621, 25446043828621, 25446043828621, 129234407200303, 25446043828621, 297077424311301, 25446043828621, 
  500000000000000, 25446043828621, 702922575688699, 25446043828621, 870765592799697, 25446043828621, 974553956171379, 
  129234407200303, 25446043828621, 129234407200303, 129234407200303, 129234407200303, 297077424311301, 129234407200303, 
  500000000000000, 129234407200303, 702922575688699, 129234407200303, 870765592799697, 129234407200303, 974553956171379, 
  297077424311301, 25446043828621, 297077424311301, 129234407200303, 297077424311301, 297077424311301, 297077424311301, 
  500000000000000, 297077424311301, 702922575688699, 297077424311301, 870765592799697, 297077424311301, 974553956171379, 
  500000000000000, 25446043828621, 500000000000000, 129234407200303, 500000000000000, 297077424311301, 500000000000000, 
  500000000000000, 500000000000000, 702922575688699, 500000000000000, 870765592799697, 500000000000000, 974553956171379, 
  702922575688699, 25446043828621, 702922575688699, 129234407200303, 702922575688699, 297077424311301, 702922575688699, 
  500000000000000, 702922575688699, 702922575688699, 702922575688699, 870765592799697, 702922575688699, 974553956171379, 
  870765592799697, 25446043828621, 870765592799697, 129234407200303, 870765592799697, 297077424311301, 870765592799697, 
  500000000000000, 870765592799697, 702922575688699, 870765592799697, 870765592799697, 870765592799697, 974553956171379, 
  974553956171379, 25446043828621, 974553956171379, 129234407200303, 974553956171379, 297077424311301, 974553956171379, 
  500000000000000, 974553956171379, 702922575688699, 974553956171379, 870765592799697, 974553956171379, 974553956171379]

/-- `gpTensor`, in units of 1e-15 (gausstensor.hpp:59-1538), part 8. -/
def gpTensor8 : List Int := [
  19855071751232, 19855071751232, 19855071751232, 101666761293187, 19855071751232, 237233795041836, 19855071751232, 
  408282678752175, 19855071751232, 591717321247825, 19855071751232, 762766204958164, 19855071751232, 898333238706813, 
  19855071751232, 980144928248768, 101666761293187, 19855071751232, 101666761293187, 101666761293187, 101666761293187, 
  237233795041836, 101666761293187, 408282678752175, 101666761293187, 591717321247825, 101666761293187, 762766204958164, 
  101666761293187, 898333238706813, 101666761293187, 980144928248768, 237233795041836, 19855071751232, 237233795041836, 
  101666761293187, 237233795041836, 237233795041836, 237233795041836, 408282678752175, 237233795041836, 591717321247825, 
  237233795041836, 762766204958164, 237233795041836, 898333238706813, 237233795041836, 980144928248768, 408282678752175, 
  19855071751232, 408282678752175, 101666761293187, 408282678752175, 237233795041836, 408282678752175, 408282678752175, 
  408282678752175, 591717321247825, 408282678752175, 762766204958164, 408282678752175, 898333238706813, 408282678752175, 
  980144928248768, 591717321247825, 19855071751232, 591717321247825, 101666761293187, 591717321247825, 237233795041836, 
  591717321247825, 408282678752175, 591717321247825, 591717321247825, 591717321247825, 762766204958164, 591717321247825, 
  898333238706813, 591717321247825, 980144928248768, 762766204958164, 19855071751232, 762766204958164, 101666761293187, 
  762766204958164, 237233795041836, 762766204958164, 408282678752175, 762766204958164, 591717321247825, 762766204958164, 
  762766204958164, 762766204958164, 898333238706813, 762766204958164, 980144928248768, 898333238706813, 19855071751232, 
  898333238706813, 101666761293187, 898333238706813, 237233795041836, 898333238706813, 408282678752175, 898333238706813, 
  591717321247825, 898333238706813, 762766204958164, 898333238706813, 898333238706813, 898333238706813, 980144928248768, 
  980144928248768, 19855071751232, 980144928248768, 101666761293187, 980144928248768, 237233795041836, 980144928248768, 
  408282678752175, 980144928248768, 591717321247825, 980144928248768, 762766204958164, 980144928248768, 898333238706813, 
  980144928248768, 980144928248768]

/-- `gpTensor`, in units of 1e-15 (gausstensor.hpp:59-1538), part 9. -/
def gpTensor9 : List Int := [
  15919880246187, 15919880246187, 15919880246187, 81984446336682, 15919880246187, 193314283649705, 15919880246187, 
  337873288298096, 15919880246187, 500000000000000, 15919880246187, 662126711701905, 15919880246187, 806685716350295, 
  15919880246187, 918015553663318, 15919880246187, 984080119753813, 81984446336682, 15919880246187, 81984446336682, 
  81984446336682, 81984446336682, 193314283649705, 81984446336682, 337873288298096, 81984446336682, 500000000000000, 
  81984446336682, 662126711701905, 81984446336682, 806685716350295, 81984446336682, 918015553663318, 81984446336682, 
  984080119753813, 193314283649705, 15919880246187, 193314283649705, 81984446336682, 193314283649705, 193314283649705, 
  193314283649705, 337873288298096, 193314283649705, 500000000000000, 193314283649705, 662126711701905, 193314283649705, 
  806685716350295, 193314283649705, 918015553663318, 193314283649705, 984080119753813, 337873288298096, 15919880246187, 
  337873288298096, 81984446336682, 337873288298096, 193314283649705, 337873288298096, 337873288298096, 337873288298096, 
  500000000000000, 337873288298096, 662126711701905, 337873288298096, 806685716350295, 337873288298096, 918015553663318, 
  337873288298096, 984080119753813, 500000000000000, 15919880246187, 500000000000000, 81984446336682, 500000000000000, 
  193314283649705, 500000000000000, 337873288298096, 500000000000000, 500000000000000, 500000000000000, 662126711701905, 
  500000000000000, 806685716350295, 500000000000000, 918015553663318, 500000000000000, 984080119753813, 662126711701905, 
  15919880246187, 662126711701905, 81984446336682, 662126711701905, 193314283649705, 662126711701905, 337873288298096, 
  662126711701905, 500000000000000, 662126711701905, 662126711701905, 662126711701905, 806685716350295, 662126711701905, 
  918015553663318, 662126711701905, 984080119753813, 806685716350295, 15919880246187, 806685716350295, 81984446336682, 
  806685716350295, 193314283649705, 806685716350295, 337873288298096, 806685716350295, 500000000000000, 806685716350295, 
  662126711701905, 806685716350295, 806685716350295, 806685716350295, 918015553663318, 806685716350295, 984080119753813, 
  918015553663318, 15919880246187, 918015553663318, 81984446336682, 918015553663318, 193314283649705, 918015553663318, 
  337873288298096, 918015553663318, 500000000000000, 918015553663318, 662126711701905, 918015553663318, 806685716350295, 
  918015553663318, 918015553663318, 918015553663318, 984080119753813, 984080119753813, 15919880246187, 984080119753813, 
  81984446336682, 984080119753813, 193314283649705, 984080119753813, 337873288298096, 984080119753813, 500000000000000, 
  984080119753813, 662126711701905, 984080119753813, 806685716350295, 984080119753813, 918015553663318, 984080119753813, 
  984080119753813]

/-- `gpTensor`, in units of 1e-15 (gausstensor.hpp:59-1538), part 10. -/
def gpTensor10 : List Int := [
  13046735741414, 13046735741414, 13046735741414, 67468316655508, 13046735741414, 160295215850488, 13046735741414, 
  283302302935376, 13046735741414, 425562830509184, 13046735741414, 574437169490816, 13046735741414, 716697697064624, 
  13046735741414, 839704784149512, 13046735741414, 932531683344492, 13046735741414, 986953264258586, 67468316655508, 
  13046735741414, 67468316655508, 67468316655508, 67468316655508, 160295215850488, 67468316655508, 283302302935376, 
  67468316655508, 425562830509184, 67468316655508, 574437169490816, 67468316655508, 716697697064624, 67468316655508, 
  839704784149512, 67468316655508, 932531683344492, 67468316655508, 986953264258586, 160295215850488, 13046735741414, 
  160295215850488, 67468316655508, 160295215850488, 160295215850488, 160295215850488, 283302302935376, 160295215850488, 
  425562830509184, 160295215850488, 574437169490816, 160295215850488, 716697697064624, 160295215850488, 839704784149512, 
  160295215850488, 932531683344492, 160295215850488, 986953264258586, 283302302935376, 13046735741414, 283302302935376, 
  67468316655508, 283302302935376, 160295215850488, 283302302935376, 283302302935376, 283302302935376, 425562830509184, 
  283302302935376, 574437169490816, 283302302935376, 716697697064624, 283302302935376, 839704784149512, 283302302935376, 
  932531683344492, 283302302935376, 986953264258586, 425562830509184, 13046735741414, 425562830509184, 67468316655508, 
  425562830509184, 160295215850488, 425562830509184, 283302302935376, 425562830509184, 425562830509184, 425562830509184, 
  574437169490816, 425562830509184, 716697697064624, 425562830509184, 839704784149512, 425562830509184, 932531683344492, 
  425562830509184, 986953264258586, 574437169490816, 13046735741414, 574437169490816, 67468316655508, 574437169490816, 
  160295215850488, 574437169490816, 283302302935376, 574437169490816, 425562830509184, 574437169490816, 574437169490816, 
  574437169490816, 716697697064624, 574437169490816, 839704784149512, 574437169490816, 932531683344492, 574437169490816, 
  986953264258586, 716697697064624, 13046735741414, 716697697064624, 67468316655508, 716697697064624, 160295215850488, 
  716697697064624, 283302302935376, 716697697064624, 425562830509184, 716697697064624, 574437169490816, 716697697064624, 
  716697697064624, 716697697064624, 839704784149512, 716697697064624, 932531683344492, 716697697064624, 986953264258586, 
  839704784149512, 13046735741414, 839704784149512, 67468316655508, 839704784149512, 160295215850488, 839704784149512, 
  283302302935376, 839704784149512, 425562830509184, 839704784149512, 574437169490816, 839704784149512, 716697697064624, 
  839704784149512, 839704784149512, 839704784149512, 932531683344492, 839704784149512, 986953264258586, 932531683344492, 
  13046735741414, 932531683344492, 67468316655508, 932531683344492, 160295215850488, 932531683344492, 283302302935376, 
  932531683344492, 425562830509184, 932531683344492, 574437169490816, 932531683344492, 716697697064624, 932531683344492, 
  839704784149512, 932531683344492, 932531683344492, 932531683344492, 986953264258586, 986953264258586, 13046735741414, 
  986953264258586, 67468316655508, 986953264258586, 160295215850488, 986953264258586, 283302302935376, 986953264258586, 
  425562830509184, 986953264258586, 574437169490816, 986953264258586, 716697697064624, 986953264258586, 839704784149512, 
  986953264258586, 932531683344492, 986953264258586, 986953264258586]

/-- `gpTensor`, in units of 1e-15 (gausstensor.hpp:59-1538), part 11. -/
def gpTensor11 : List Int := [
  10885670926972, 10885670926972, 10885670926972, 56468700115952, 10885670926972, 134923997212975, 10885670926972, 
  240451935396594, 10885670926972, 365228422023828, 10885670926972, 500000000000000, 10885670926972, 634771577976172, 
  10885670926972, 759548064603406, 10885670926972, 865076002787025, 10885670926972, 943531299884048, 10885670926972, 
  989114329073028, 56468700115952, 10885670926972, 56468700115952, 56468700115952, 56468700115952, 134923997212975, 
  56468700115952, 240451935396594, 56468700115952, 365228422023828, 56468700115952, 500000000000000, 56468700115952, 
  634771577976172, 56468700115952, 759548064603406, 56468700115952, 865076002787025, 56468700115952, 943531299884048, 
  56468700115952, 989114329073028, 134923997212975, 10885670926972, 134923997212975, 56468700115952, 134923997212975, 
  134923997212975, 134923997212975, 240451935396594, 134923997212975, 365228422023828, 134923997212975, 500000000000000, 
  134923997212975, 634771577976172, 134923997212975, 759548064603406, 134923997212975, 865076002787025, 134923997212975, 
  943531299884048, 134923997212975, 989114329073028, 240451935396594, 10885670926972, 240451935396594, 56468700115952, 
  240451935396594, 134923997212975, 240451935396594, 240451935396594, 240451935396594, 365228422023828, 240451935396594, 
  500000000000000, 240451935396594, 634771577976172, 240451935396594, 759548064603406, 240451935396594, 865076002787025, 
  240451935396594, 943531299884048, 240451935396594, 989114329073028, 365228422023828, 10885670926972, 365228422023828, 
  56468700115952, 365228422023828, 134923997212975, 365228422023828, 240451935396594, 365228422023828, 365228422023828, 
  365228422023828, 500000000000000, 365228422023828, 634771577976172, 365228422023828, 759548064603406, 365228422023828, 
  865076002787025, 365228422023828, 943531299884048, 365228422023828, 989114329073028, 500000000000000, 10885670926972, 
  500000000000000, 56468700115952, 500000000000000, 134923997212975, 500000000000000, 240451935396594, 500000000000000, 
  365228422023828, 500000000000000, 500000000000000, 500000000000000, 634771577976172, 500000000000000, 759548064603406, 
  500000000000000, 865076002787025, 500000000000000, 943531299884048, 500000000000000, 989114329073028, 634771577976172, 
  10885670926972, 634771577976172, 56468700115952, 634771577976172, 134923997212975, 634771577976172, 240451935396594, 
  634771577976172, 365228422023828, 634771577976172, 500000000000000, 634771577976172, 634771577976172, 634771577976172, 
  759548064603406, 634771577976172, 865076002787025, 634771577976172, 943531299884048, 634771577976172, 989114329073028, 
  759548064603406, 10885670926972, 759548064603406, 56468700115952, 759548064603406, 134923997212975, 759548064603406, 
  240451935396594, 759548064603406, 365228422023828, 759548064603406, 500000000000000, 759548064603406, 634771577976172, 
  759548064603406, 759548064603406, 759548064603406, 865076002787025, 759548064603406, 943531299884048, 759548064603406, 
  989114329073028, 865076002787025, 10885670926972, 865076002787025, 56468700115952, 865076002787025, 134923997212975, 
  865076002787025, 240451935396594, 865076002787025, 365228422023828, 865076002787025, 500000000000000, 865076002787025, 
  634771577976172, 865076002787025, 759548064603406, 865076002787025, 865076002787025, 865076002787025, 943531299884048, 
  865076002787025, 989114329073028, 943531299884048, 10885670926972, 943531299884048, 56468700115952, 943531299884048, 
  134923997212975, 943531299884048, 240451935396594, 943531299884048, 365228422023828, 943531299884048, 500000000000000, 
  943531299884048, 634771577976172, 943531299884048, 759548064603406, 943531299884048, 865076002787025, 943531299884048, 
  943531299884048, 943531299884048, 989114329073028, 989114329073028, 10885670926972, 989114329073028, 56468700115952, 
  989114329073028, 134923997212975, 989114329073028, 240451935396594, 989114329073028, 365228422023828, 989114329073028, 
  500000000000000, 989114329073028, 634771577976172, 989114329073028, 759548064603406, 989114329073028, 865076002787025, 
  989114329073028, 943531299884048, 989114329073028, 989114329073028]

/-- `gpTensor`, in units of 1e-15 (gausstensor.hpp:59-1538), part 12. -/
def gpTensor12 : List Int := [
  9219682876640, 9219682876640, 9219682876640, 47941371814763, 9219682876640, 115048662902848, 9219682876640, 
  206341022856691, 9219682876640, 316084250500910, 9219682876640, 437383295744266, 9219682876640, 562616704255734, 
  9219682876640, 683915749499090, 9219682876640, 793658977143309, 9219682876640, 884951337097152, 9219682876640, 
  952058628185237, 9219682876640, 990780317123360, 47941371814763, 9219682876640, 47941371814763, 47941371814763, 
  47941371814763, 115048662902848, 47941371814763, 206341022856691, 47941371814763, 316084250500910, 47941371814763, 
  437383295744266, 47941371814763, 562616704255734, 47941371814763, 683915749499090, 47941371814763, 793658977143309, 
  47941371814763, 884951337097152, 47941371814763, 952058628185237, 47941371814763, 990780317123360, 115048662902848, 
  9219682876640, 115048662902848, 47941371814763, 115048662902848, 115048662902848, 115048662902848, 206341022856691, 
  115048662902848, 316084250500910, 115048662902848, 437383295744266, 115048662902848, 562616704255734, 115048662902848, 
  683915749499090, 115048662902848, 793658977143309, 115048662902848, 884951337097152, 115048662902848, 952058628185237, 
  115048662902848, 990780317123360, 206341022856691, 9219682876640, 206341022856691, 47941371814763, 206341022856691, 
  115048662902848, 206341022856691, 206341022856691, 206341022856691, 316084250500910, 206341022856691, 437383295744266, 
  206341022856691, 562616704255734, 206341022856691, 683915749499090, 206341022856691, 793658977143309, 206341022856691, 
  884951337097152, 206341022856691, 952058628185237, 206341022856691, 990780317123360, 316084250500910, 9219682876640, 
  316084250500910, 47941371814763, 316084250500910, 115048662902848, 316084250500910, 206341022856691, 316084250500910, 
  316084250500910, 316084250500910, 437383295744266, 316084250500910, 562616704255734, 316084250500910, 683915749499090, 
  316084250500910, 793658977143309, 316084250500910, 884951337097152, 316084250500910, 952058628185237, 316084250500910, 
  990780317123360, 437383295744266, 9219682876640, 437383295744266, 47941371814763, 437383295744266, 115048662902848, 
  437383295744266, 206341022856691, 437383295744266, 316084250500910, 437383295744266, 437383295744266, 437383295744266, 
  562616704255734, 437383295744266, 683915749499090, 437383295744266, 793658977143309, 437383295744266, 884951337097152, 
  437383295744266, 952058628185237, 437383295744266, 990780317123360, 562616704255734, 9219682876640, 562616704255734, 
  47941371814763, 562616704255734, 115048662902848, 562616704255734, 206341022856691, 562616704255734, 316084250500910, 
  562616704255734, 437383295744266, 562616704255734, 562616704255734, 562616704255734, 683915749499090, 562616704255734, 
  793658977143309, 562616704255734, 884951337097152, 562616704255734, 952058628185237, 562616704255734, 990780317123360, 
  683915749499090, 9219682876640, 683915749499090, 47941371814763, 683915749499090, 115048662902848, 683915749499090, 
  206341022856691, 683915749499090, 316084250500910, 683915749499090, 437383295744266, 683915749499090, 562616704255734, 
  683915749499090, 683915749499090, 683915749499090, 793658977143309, 683915749499090, 884951337097152, 683915749499090, 
  952058628185237, 683915749499090, 990780317123360, 793658977143309, 9219682876640, 793658977143309, 47941371814763, 
  793658977143309, 115048662902848, 793658977143309, 206341022856691, 793658977143309, 316084250500910, 793658977143309, 
  437383295744266, 793658977143309, 562616704255734, 793658977143309, 683915749499090, 793658977143309, 793658977143309, 
  793658977143309, 884951337097152, 793658977143309, 952058628185237, 793658977143309, 990780317123360, 884951337097152, 
  9219682876640, 884951337097152, 47941371814763, 884951337097152, 115048662902848, 884951337097152, 206341022856691, 
  884951337097152, 316084250500910, 884951337097152, 437383295744266, 884951337097152, 562616704255734, 884951337097152, 
  683915749499090, 884951337097152, 793658977143309, 884951337097152, 884951337097152, 884951337097152, 952058628185237, 
  884951337097152, 990780317123360, 952058628185237, 9219682876640, 952058628185237, 47941371814763, 952058628185237, 
  115048662902848, 952058628185237, 206341022856691, 952058628185237, 316084250500910, 952058628185237, 437383295744266, 
  952058628185237, 562616704255734, 952058628185237, 683915749499090, 952058628185237, 793658977143309, 952058628185237, 
  884951337097152, 952058628185237, 952058628185237, 952058628185237, 990780317123360, 990780317123360, 9219682876640, 
  990780317123360, 47941371814763, 990780317123360, 115048662902848, 990780317123360, 206341022856691, 990780317123360, 
  316084250500910, 990780317123360, 437383295744266, 990780317123360, 562616704255734, 990780317123360, 683915749499090, 
  990780317123360, 793658977143309, 990780317123360, 884951337097152, 990780317123360, 952058628185237, 990780317123360, 
  990780317123360]

/-- `gpTensor`, in units of 1e-15 (gausstensor.hpp:59-1538), part 13. -/
def gpTensor13 : List Int := [
  7908472640706, 7908472640706, 7908472640706, 41200800388511, 7908472640706, 99210954633345, 7908472640706, 
  178825330279830, 7908472640706, 275753624481777, 7908472640706, 384770842022433, 7908472640706, 500000000000000, 
  7908472640706, 615229157977567, 7908472640706, 724246375518223, 7908472640706, 821174669720170, 7908472640706, 
  900789045366655, 7908472640706, 958799199611489, 7908472640706, 992091527359294, 41200800388511, 7908472640706, 
  41200800388511, 41200800388511, 41200800388511, 99210954633345, 41200800388511, 178825330279830, 41200800388511, 
  275753624481777, 41200800388511, 384770842022433, 41200800388511, 500000000000000, 41200800388511, 615229157977567, 
  41200800388511, 724246375518223, 41200800388511, 821174669720170, 41200800388511, 900789045366655, 41200800388511, 
  958799199611489, 41200800388511, 992091527359294, 99210954633345, 7908472640706, 99210954633345, 41200800388511, 
  99210954633345, 99210954633345, 99210954633345, 178825330279830, 99210954633345, 275753624481777, 99210954633345, 
  384770842022433, 99210954633345, 500000000000000, 99210954633345, 615229157977567, 99210954633345, 724246375518223, 
  99210954633345, 821174669720170, 99210954633345, 900789045366655, 99210954633345, 958799199611489, 99210954633345, 
  992091527359294, 178825330279830, 7908472640706, 178825330279830, 41200800388511, 178825330279830, 99210954633345, 
  178825330279830, 178825330279830, 178825330279830, 275753624481777, 178825330279830, 384770842022433, 178825330279830, 
  500000000000000, 178825330279830, 615229157977567, 178825330279830, 724246375518223, 178825330279830, 821174669720170, 
  178825330279830, 900789045366655, 178825330279830, 958799199611489, 178825330279830, 992091527359294, 275753624481777, 
  7908472640706, 275753624481777, 41200800388511, 275753624481777, 99210954633345, 275753624481777, 178825330279830, 
  275753624481777, 275753624481777, 275753624481777, 384770842022433, 275753624481777, 500000000000000, 275753624481777, 
  615229157977567, 275753624481777, 724246375518223, 275753624481777, 821174669720170, 275753624481777, 900789045366655, 
  275753624481777, 958799199611489, 275753624481777, 992091527359294, 384770842022433, 7908472640706, 384770842022433, 
  41200800388511, 384770842022433, 99210954633345, 384770842022433, 178825330279830, 384770842022433, 275753624481777, 
  384770842022433, 384770842022433, 384770842022433, 500000000000000, 384770842022433, 615229157977567, 384770842022433, 
  724246375518223, 384770842022433, 821174669720170, 384770842022433, 900789045366655, 384770842022433, 958799199611489, 
  384770842022433, 992091527359294, 500000000000000, 7908472640706, 500000000000000, 41200800388511, 500000000000000, 
  99210954633345, 500000000000000, 178825330279830, 500000000000000, 275753624481777, 500000000000000, 384770842022433, 
  500000000000000, 500000000000000, 500000000000000, 615229157977567, 500000000000000, 724246375518223, 500000000000000, 
  821174669720170, 500000000000000, 900789045366655, 500000000000000, 958799199611489, 500000000000000, 992091527359294, 
  615229157977567, 7908472640706, 615229157977567, 41200800388511, 615229157977567, 99210954633345, 615229157977567, 
  178825330279830, 615229157977567, 275753624481777, 615229157977567, 384770842022433, 615229157977567, 500000000000000, 
  615229157977567, 615229157977567, 615229157977567, 724246375518223, 615229157977567, 821174669720170, 615229157977567, 
  900789045366655, 615229157977567, 958799199611489, 615229157977567, 992091527359294, 724246375518223, 7908472640706, 
  724246375518223, 41200800388511, 724246375518223, 99210954633345, 724246375518223, 178825330279830, 724246375518223, 
  275753624481777, 724246375518223, 384770842022433, 724246375518223, 500000000000000, 724246375518223, 615229157977567, 
  724246375518223, 724246375518223, 724246375518223, 821174669720170, 724246375518223, 900789045366655, 724246375518223, 
  958799199611489, 724246375518223, 992091527359294, 821174669720170, 7908472640706, 821174669720170, 41200800388511, 
  821174669720170, 99210954633345, 821174669720170, 178825330279830, 821174669720170, 275753624481777, 821174669720170, 
  384770842022433, 821174669720170, 500000000000000, 821174669720170, 615229157977567, 821174669720170, 724246375518223, 
  821174669720170, 821174669720170, 821174669720170, 900789045366655, 821174669720170, 958799199611489, 821174669720170, 
  992091527359294, 900789045366655, 7908472640706, 900789045366655, 41200800388511, 900789045366655, 99210954633345, 
  900789045366655, 178825330279830, 900789045366655, 275753624481777, 900789045366655, 384770842022433, 900789045366655, 
  500000000000000, 900789045366655, 615229157977567, 900789045366655, 724246375518223, 900789045366655, 821174669720170, 
  900789045366655, 900789045366655, 900789045366655, 958799199611489, 900789045366655, 992091527359294, 958799199611489, 
  7908472640706, 958799199611489, 41200800388511, 958799199611489, 99210954633345, 958799199611489, 178825330279830, 
  958799199611489, 275753624481777, 958799199611489, 384770842022433, 958799199611489, 500000000000000, 958799199611489, 
  615229157977567, 958799199611489, 724246375518223, 958799199611489, 821174669720170, 958799199611489, 900789045366655, 
  958799199611489, 958799199611489, 958799199611489, 992091527359294, 992091527359294, 7908472640706, 992091527359294, 
  41200800388511, 992091527359294, 99210954633345, 992091527359294, 178825330279830, 992091527359294, 275753624481777, 
  992091527359294, 384770842022433, 992091527359294, 500000000000000, 992091527359294, 615229157977567, 992091527359294, 
  724246375518223, 992091527359294, 821174669720170, 992091527359294, 900789045366655, 992091527359294, 958799199611489, 
  992091527359294, 992091527359294]

/-- `gpTensor`, in units of 1e-15 (gausstensor.hpp:59-1538), part 14. -/
def gpTensor14 : List Int := [
  6858095651594, 6858095651594, 6858095651594, 35782558168213, 6858095651594, 86399342465117, 6858095651594, 
  156353547594157, 6858095651594, 242375681820923, 6858095651594, 340443815536055, 6858095651594, 445972525646328, 
  6858095651594, 554027474353672, 6858095651594, 659556184463945, 6858095651594, 757624318179077, 6858095651594, 
  843646452405843, 6858095651594, 913600657534883, 6858095651594, 964217441831787, 6858095651594, 993141904348406, 
  35782558168213, 6858095651594, 35782558168213, 35782558168213, 35782558168213, 86399342465117, 35782558168213, 
  156353547594157, 35782558168213, 242375681820923, 35782558168213, 340443815536055, 35782558168213, 445972525646328, 
  35782558168213, 554027474353672, 35782558168213, 659556184463945, 35782558168213, 757624318179077, 35782558168213, 
  843646452405843, 35782558168213, 913600657534883, 35782558168213, 964217441831787, 35782558168213, 993141904348406, 
  86399342465117, 6858095651594, 86399342465117, 35782558168213, 86399342465117, 86399342465117, 86399342465117, 
  156353547594157, 86399342465117, 242375681820923, 86399342465117, 340443815536055, 86399342465117, 445972525646328, 
  86399342465117, 554027474353672, 86399342465117, 659556184463945, 86399342465117, 757624318179077, 86399342465117, 
  843646452405843, 86399342465117, 913600657534883, 86399342465117, 964217441831787, 86399342465117, 993141904348406, 
  156353547594157, 6858095651594, 156353547594157, 35782558168213, 156353547594157, 86399342465117, 156353547594157, 
  156353547594157, 156353547594157, 242375681820923, 156353547594157, 340443815536055, 156353547594157, 445972525646328, 
  156353547594157, 554027474353672, 156353547594157, 659556184463945, 156353547594157, 757624318179077, 156353547594157, 
  843646452405843, 156353547594157, 913600657534883, 156353547594157, 964217441831787, 156353547594157, 993141904348406, 
  242375681820923, 6858095651594, 242375681820923, 35782558168213, 242375681820923, 86399342465117, 242375681820923, 
  156353547594157, 242375681820923, 242375681820923, 242375681820923, 340443815536055, 242375681820923, 445972525646328, 
  242375681820923, 554027474353672, 242375681820923, 659556184463945, 242375681820923, 757624318179077, 242375681820923, 
  843646452405843, 242375681820923, 913600657534883, 242375681820923, 964217441831787, 242375681820923, 993141904348406, 
  340443815536055, 6858095651594, 340443815536055, 35782558168213, 340443815536055, 86399342465117, 340443815536055, 
  156353547594157, 340443815536055, 242375681820923, 340443815536055, 340443815536055, 340443815536055, 445972525646328, 
  340443815536055, 554027474353672, 340443815536055, 659556184463945, 340443815536055, 757624318179077, 340443815536055, 
  843646452405843, 340443815536055, 913600657534883, 340443815536055, 964217441831787, 340443815536055, 993141904348406, 
  445972525646328, 6858095651594, 445972525646328, 35782558168213, 445972525646328, 86399342465117, 445972525646328, 
  156353547594157, 445972525646328, 242375681820923, 445972525646328, 340443815536055, 445972525646328, 445972525646328, 
  445972525646328, 554027474353672, 445972525646328, 659556184463945, 445972525646328, 757624318179077, 445972525646328, 
  843646452405843, 445972525646328, 913600657534883, 445972525646328, 964217441831787, 445972525646328, 993141904348406, 
  554027474353672, 6858095651594, 554027474353672, 35782558168213, 554027474353672, 86399342465117, 554027474353672, 
  156353547594157, 554027474353672, 242375681820923, 554027474353672, 340443815536055, 554027474353672, 445972525646328, 
  554027474353672, 554027474353672, 554027474353672, 659556184463945, 554027474353672, 757624318179077, 554027474353672, 
  843646452405843, 554027474353672, 913600657534883, 554027474353672, 964217441831787, 554027474353672, 993141904348406, 
  659556184463945, 6858095651594, 659556184463945, 35782558168213, 659556184463945, 86399342465117, 659556184463945, 
  156353547594157, 659556184463945, 242375681820923, 659556184463945, 340443815536055, 659556184463945, 445972525646328, 
  659556184463945, 554027474353672, 659556184463945, 659556184463945, 659556184463945, 757624318179077, 659556184463945, 
  843646452405843, 659556184463945, 913600657534883, 659556184463945, 964217441831787, 659556184463945, 993141904348406, 
  757624318179077, 6858095651594, 757624318179077, 35782558168213, 757624318179077, 86399342465117, 757624318179077, 
  156353547594157, 757624318179077, 242375681820923, 757624318179077, 340443815536055, 757624318179077, 445972525646328, 
  757624318179077, 554027474353672, 757624318179077, 659556184463945, 757624318179077, 757624318179077, 757624318179077, 
  843646452405843, 757624318179077, 913600657534883, 757624318179077, 964217441831787, 757624318179077, 993141904348406, 
  843646452405843, 6858095651594, 843646452405843, 35782558168213, 843646452405843, 86399342465117, 843646452405843, 
  156353547594157, 843646452405843, 242375681820923, 843646452405843, 340443815536055, 843646452405843, 445972525646328, 
  843646452405843, 554027474353672, 843646452405843, 659556184463945, 843646452405843, 757624318179077, 843646452405843, 
  843646452405843, 843646452405843, 913600657534883, 843646452405843, 964217441831787, 843646452405843, 993141904348406, 
  913600657534883, 6858095651594, 913600657534883, 35782558168213, 913600657534883, 86399342465117, 913600657534883, 
  156353547594157, 913600657534883, 242375681820923, 913600657534883, 340443815536055, 913600657534883, 445972525646328, 
  913600657534883, 554027474353672, 913600657534883, 659556184463945, 913600657534883, 757624318179077, 913600657534883, 
  843646452405843, 913600657534883, 913600657534883, 913600657534883, 964217441831787, 913600657534883, 993141904348406, 
  964217441831787, 6858095651594, 964217441831787, 35782558168213, 964217441831787, 86399342465117, 964217441831787, 
  156353547594157, 964217441831787, 242375681820923, 964217441831787, 340443815536055, 964217441831787, 445972525646328, 
  964217441831787, 554027474353672, 964217441831787, 659556184463945, 964217441831787, 757624318179077, 964217441831787, 
  843646452405843, 964217441831787, 913600657534883, 964217441831787, 964217441831787, 964217441831787, 993141904348406, 
  993141904348406, 6858095651594, 993141904348406, 35782558168213, 993141904348406, 86399342465117, 993141904348406, 
  156353547594157, 993141904348406, 242375681820923, 993141904348406, 340443815536055, 993141904348406, 445972525646328, 
  993141904348406, 554027474353672, 993141904348406, 659556184463945, 993141904348406, 757624318179077, 993141904348406, 
  843646452405843, 993141904348406, 913600657534883, 993141904348406, 964217441831787, 993141904348406, 993141904348406]

/-- `gpTensor`, in units of 1e-15 (gausstensor.hpp:59-1538), part 15. -/
def gpTensor15 : List Int := [
  6003740989757, 6003740989757, 6003740989757, 31363303799647, 6003740989757, 75896708294786, 6003740989757, 
  137791134319915, 6003740989757, 214513913695731, 6003740989757, 302924326461218, 6003740989757, 399402953001283, 
  6003740989757, 500000000000000, 6003740989757, 600597046998717, 6003740989757, 697075673538782, 6003740989757, 
  785486086304269, 6003740989757, 862208865680085, 6003740989757, 924103291705214, 6003740989757, 968636696200353, 
  6003740989757, 993996259010243, 31363303799647, 6003740989757, 31363303799647, 31363303799647, 31363303799647, 
  75896708294786, 31363303799647, 137791134319915, 31363303799647, 214513913695731, 31363303799647, 302924326461218, 
  31363303799647, 399402953001283, 31363303799647, 500000000000000, 31363303799647, 600597046998717, 31363303799647, 
  697075673538782, 31363303799647, 785486086304269, 31363303799647, 862208865680085, 31363303799647, 924103291705214, 
  31363303799647, 968636696200353, 31363303799647, 993996259010243, 75896708294786, 6003740989757, 75896708294786, 
  31363303799647, 75896708294786, 75896708294786, 75896708294786, 137791134319915, 75896708294786, 214513913695731, 
  75896708294786, 302924326461218, 75896708294786, 399402953001283, 75896708294786, 500000000000000, 75896708294786, 
  600597046998717, 75896708294786, 697075673538782, 75896708294786, 785486086304269, 75896708294786, 862208865680085, 
  75896708294786, 924103291705214, 75896708294786, 968636696200353, 75896708294786, 993996259010243, 137791134319915, 
  6003740989757, 137791134319915, 31363303799647, 137791134319915, 75896708294786, 137791134319915, 137791134319915, 
  137791134319915, 214513913695731, 137791134319915, 302924326461218, 137791134319915, 399402953001283, 137791134319915, 
  500000000000000, 137791134319915, 600597046998717, 137791134319915, 697075673538782, 137791134319915, 785486086304269, 
  137791134319915, 862208865680085, 137791134319915, 924103291705214, 137791134319915, 968636696200353, 137791134319915, 
  993996259010243, 214513913695731, 6003740989757, 214513913695731, 31363303799647, 214513913695731, 75896708294786, 
  214513913695731, 137791134319915, 214513913695731, 214513913695731, 214513913695731, 302924326461218, 214513913695731, 
  399402953001283, 214513913695731, 500000000000000, 214513913695731, 600597046998717, 214513913695731, 697075673538782, 
  214513913695731, 785486086304269, 214513913695731, 862208865680085, 214513913695731, 924103291705214, 214513913695731, 
  968636696200353, 214513913695731, 993996259010243, 302924326461218, 6003740989757, 302924326461218, 31363303799647, 
  302924326461218, 75896708294786, 302924326461218, 137791134319915, 302924326461218, 214513913695731, 302924326461218, 
  302924326461218, 302924326461218, 399402953001283, 302924326461218, 500000000000000, 302924326461218, 600597046998717, 
  302924326461218, 697075673538782, 302924326461218, 785486086304269, 302924326461218, 862208865680085, 302924326461218, 
  924103291705214, 302924326461218, 968636696200353, 302924326461218, 993996259010243, 399402953001283, 6003740989757, 
  399402953001283, 31363303799647, 399402953001283, 75896708294786, 399402953001283, 137791134319915, 399402953001283, 
  214513913695731, 399402953001283, 302924326461218, 399402953001283, 399402953001283, 399402953001283, 500000000000000, 
  399402953001283, 600597046998717, 399402953001283, 697075673538782, 399402953001283, 785486086304269, 399402953001283, 
  862208865680085, 399402953001283, 924103291705214, 399402953001283, 968636696200353, 399402953001283, 993996259010243, 
  500000000000000, 6003740989757, 500000000000000, 31363303799647, 500000000000000, 75896708294786, 500000000000000, 
  137791134319915, 500000000000000, 214513913695731, 500000000000000, 302924326461218, 500000000000000, 399402953001283, 
  500000000000000, 500000000000000, 500000000000000, 600597046998717, 500000000000000, 697075673538782, 500000000000000, 
  785486086304269, 500000000000000, 862208865680085, 500000000000000, 924103291705214, 500000000000000, 968636696200353, 
  500000000000000, 993996259010243, 600597046998717, 6003740989757, 600597046998717, 31363303799647, 600597046998717, 
  75896708294786, 600597046998717, 137791134319915, 600597046998717, 214513913695731, 600597046998717, 302924326461218, 
  600597046998717, 399402953001283, 600597046998717, 500000000000000, 600597046998717, 600597046998717, 600597046998717, 
  697075673538782, 600597046998717, 785486086304269, 600597046998717, 862208865680085, 600597046998717, 924103291705214, 
  600597046998717, 968636696200353, 600597046998717, 993996259010243, 697075673538782, 6003740989757, 697075673538782, 
  31363303799647, 697075673538782, 75896708294786, 697075673538782, 137791134319915, 697075673538782, 214513913695731, 
  697075673538782, 302924326461218, 697075673538782, 399402953001283, 697075673538782, 500000000000000, 697075673538782, 
  600597046998717, 697075673538782, 697075673538782, 697075673538782, 785486086304269, 697075673538782, 862208865680085, 
  697075673538782, 924103291705214, 697075673538782, 968636696200353, 697075673538782, 993996259010243, 785486086304269, 
  6003740989757, 785486086304269, 31363303799647, 785486086304269, 75896708294786, 785486086304269, 137791134319915, 
  785486086304269, 214513913695731, 785486086304269, 302924326461218, 785486086304269, 399402953001283, 785486086304269, 
  500000000000000, 785486086304269, 600597046998717, 785486086304269, 697075673538782, 785486086304269, 785486086304269, 
  785486086304269, 862208865680085, 785486086304269, 924103291705214, 785486086304269, 968636696200353, 785486086304269, 
  993996259010243, 862208865680085, 6003740989757, 862208865680085, 31363303799647, 862208865680085, 75896708294786, 
  862208865680085, 137791134319915, 862208865680085, 214513913695731, 862208865680085, 302924326461218, 862208865680085, 
  399402953001283, 862208865680085, 500000000000000, 862208865680085, 600597046998717, 862208865680085, 697075673538782, 
  862208865680085, 785486086304269, 862208865680085, 862208865680085, 862208865680085, 924103291705214, 862208865680085, 
  968636696200353, 862208865680085, 993996259010243, 924103291705214, 6003740989757, 924103291705214, 31363303799647, 
  924103291705214, 75896708294786, 924103291705214, 137791134319915, 924103291705214, 214513913695731, 924103291705214, 
  302924326461218, 924103291705214, 399402953001283, 924103291705214, 500000000000000, 924103291705214, 600597046998717, 
  924103291705214, 697075673538782, 924103291705214, 785486086304269, 924103291705214, 862208865680085, 924103291705214, 
  924103291705214, 924103291705214, 968636696200353, 924103291705214, 993996259010243, 968636696200353, 6003740989757, 
  968636696200353, 31363303799647, 968636696200353, 75896708294786, 968636696200353, 137791134319915, 968636696200353, 
  214513913695731, 968636696200353, 302924326461218, 968636696200353, 399402953001283, 968636696200353, 500000000000000, 
  968636696200353, 600597046998717, 968636696200353, 697075673538782, 968636696200353, 785486086304269, 968636696200353, 
  862208865680085, 968636696200353, 924103291705214, 968636696200353, 968636696200353, 968636696200353, 993996259010243, 
  993996259010243, 6003740989757, 993996259010243, 31363303799647, 993996259010243, 75896708294786, 993996259010243, 
  137791134319915, 993996259010243, 214513913695731, 993996259010243, 302924326461218, 993996259010243, 399402953001283, 
  993996259010243, 500000000000000, 993996259010243, 600597046998717, 993996259010243, 697075673538782, 993996259010243, 
  785486086304269, 993996259010243, 862208865680085, 993996259010243, 924103291705214, 993996259010243, 968636696200353, 
  993996259010243, 993996259010243]

/-- `gpTensor`, in units of 1e-15 (gausstensor.hpp:59-1538), part 16. -/
def gpTensor16 : List Int := [
  5299532504175, 5299532504175, 5299532504175, 27712488463384, 5299532504175, 67184398806084, 5299532504175, 
  122297795822499, 5299532504175, 191061877798678, 5299532504175, 270991611171386, 5299532504175, 359198224610371, 
  5299532504175, 452493745081181, 5299532504175, 547506254918819, 5299532504175, 640801775389629, 5299532504175, 
  729008388828614, 5299532504175, 808938122201322, 5299532504175, 877702204177502, 5299532504175, 932815601193916, 
  5299532504175, 972287511536616, 5299532504175, 994700467495825, 27712488463384, 5299532504175, 27712488463384, 
  27712488463384, 27712488463384, 67184398806084, 27712488463384, 122297795822499, 27712488463384, 191061877798678, 
  27712488463384, 270991611171386, 27712488463384, 359198224610371, 27712488463384, 452493745081181, 27712488463384, 
  547506254918819, 27712488463384, 640801775389629, 27712488463384, 729008388828614, 27712488463384, 808938122201322, 
  27712488463384, 877702204177502, 27712488463384, 932815601193916, 27712488463384, 972287511536616, 27712488463384, 
  994700467495825, 67184398806084, 5299532504175, 67184398806084, 27712488463384, 67184398806084, 67184398806084, 
  67184398806084, 122297795822499, 67184398806084, 191061877798678, 67184398806084, 270991611171386, 67184398806084, 
  359198224610371, 67184398806084, 452493745081181, 67184398806084, 547506254918819, 67184398806084, 640801775389629, 
  67184398806084, 729008388828614, 67184398806084, 808938122201322, 67184398806084, 877702204177502, 67184398806084, 
  932815601193916, 67184398806084, 972287511536616, 67184398806084, 994700467495825, 122297795822499, 5299532504175, 
  122297795822499, 27712488463384, 122297795822499, 67184398806084, 122297795822499, 122297795822499, 122297795822499, 
  191061877798678, 122297795822499, 270991611171386, 122297795822499, 359198224610371, 122297795822499, 452493745081181, 
  122297795822499, 547506254918819, 122297795822499, 640801775389629, 122297795822499, 729008388828614, 122297795822499, 
  808938122201322, 122297795822499, 877702204177502, 122297795822499, 932815601193916, 122297795822499, 972287511536616, 
  122297795822499, 994700467495825, 191061877798678, 5299532504175, 191061877798678, 27712488463384, 191061877798678, 
  67184398806084, 191061877798678, 122297795822499, 191061877798678, 191061877798678, 191061877798678, 270991611171386, 
  191061877798678, 359198224610371, 191061877798678, 452493745081181, 191061877798678, 547506254918819, 191061877798678, 
  640801775389629, 191061877798678, 729008388828614, 191061877798678, 808938122201322, 191061877798678, 877702204177502, 
  191061877798678, 932815601193916, 191061877798678, 972287511536616, 191061877798678, 994700467495825, 270991611171386, 
  5299532504175, 270991611171386, 27712488463384, 270991611171386, 67184398806084, 270991611171386, 122297795822499, 
  270991611171386, 191061877798678, 270991611171386, 270991611171386, 270991611171386, 359198224610371, 270991611171386, 
  452493745081181, 270991611171386, 547506254918819, 270991611171386, 640801775389629, 270991611171386, 729008388828614, 
  270991611171386, 808938122201322, 270991611171386, 877702204177502, 270991611171386, 932815601193916, 270991611171386, 
  972287511536616, 270991611171386, 994700467495825, 359198224610371, 5299532504175, 359198224610371, 27712488463384, 
  359198224610371, 67184398806084, 359198224610371, 122297795822499, 359198224610371, 191061877798678, 359198224610371, 
  270991611171386, 359198224610371, 359198224610371, 359198224610371, 452493745081181, 359198224610371, 547506254918819, 
  359198224610371, 640801775389629, 359198224610371, 729008388828614, 359198224610371, 808938122201322, 359198224610371, 
  877702204177502, 359198224610371, 932815601193916, 359198224610371, 972287511536616, 359198224610371, 994700467495825, 
  452493745081181, 5299532504175, 452493745081181, 27712488463384, 452493745081181, 67184398806084, 452493745081181, 
  122297795822499, 452493745081181, 191061877798678, 452493745081181, 270991611171386, 452493745081181, 359198224610371, 
  452493745081181, 452493745081181, 452493745081181, 547506254918819, 452493745081181, 640801775389629, 452493745081181, 
  729008388828614, 452493745081181, 808938122201322, 452493745081181, 877702204177502, 452493745081181, 932815601193916, 
  452493745081181, 972287511536616, 452493745081181, 994700467495825, 547506254918819, 5299532504175, 547506254918819, 
  27712488463384, 547506254918819, 67184398806084, 547506254918819, 122297795822499, 547506254918819, 191061877798678, 
  547506254918819, 270991611171386, 547506254918819, 359198224610371, 547506254918819, 452493745081181, 547506254918819, 
  547506254918819, 547506254918819, 640801775389629, 547506254918819, 729008388828614, 547506254918819, 808938122201322, 
  547506254918819, 877702204177502, 547506254918819, 932815601193916, 547506254918819, 972287511536616, 547506254918819, 
  994700467495825, 640801775389629, 5299532504175, 640801775389629, 27712488463384, 640801775389629, 67184398806084, 
  640801775389629, 122297795822499, 640801775389629, 191061877798678, 640801775389629, 270991611171386, 640801775389629, 
  359198224610371, 640801775389629, 452493745081181, 640801775389629, 547506254918819, 640801775389629, 640801775389629, 
  640801775389629, 729008388828614, 640801775389629, 808938122201322, 640801775389629, 877702204177502, 640801775389629, 
  932815601193916, 640801775389629, 972287511536616, 640801775389629, 994700467495825, 729008388828614, 5299532504175, 
  729008388828614, 27712488463384, 729008388828614, 67184398806084, 729008388828614, 122297795822499, 729008388828614, 
  191061877798678, 729008388828614, 270991611171386, 729008388828614, 359198224610371, 729008388828614, 452493745081181, 
  729008388828614, 547506254918819, 729008388828614, 640801775389629, 729008388828614, 729008388828614, 729008388828614, 
  808938122201322, 729008388828614, 877702204177502, 729008388828614, 932815601193916, 729008388828614, 972287511536616, 
  729008388828614, 994700467495825, 808938122201322, 5299532504175, 808938122201322, 27712488463384, 808938122201322, 
  67184398806084, 808938122201322, 122297795822499, 808938122201322, 191061877798678, 808938122201322, 270991611171386, 
  808938122201322, 359198224610371, 808938122201322, 452493745081181, 808938122201322, 547506254918819, 808938122201322, 
  640801775389629, 808938122201322, 729008388828614, 808938122201322, 808938122201322, 808938122201322, 877702204177502, 
  808938122201322, 932815601193916, 808938122201322, 972287511536616, 808938122201322, 994700467495825, 877702204177502, 
  5299532504175, 877702204177502, 27712488463384, 877702204177502, 67184398806084, 877702204177502, 122297795822499, 
  877702204177502, 191061877798678, 877702204177502, 270991611171386, 877702204177502, 359198224610371, 877702204177502, 
  452493745081181, 877702204177502, 547506254918819, 877702204177502, 640801775389629, 877702204177502, 729008388828614, 
  877702204177502, 808938122201322, 877702204177502, 877702204177502, 877702204177502, 932815601193916, 877702204177502, 
  972287511536616, 877702204177502, 994700467495825, 932815601193916, 5299532504175, 932815601193916, 27712488463384, 
  932815601193916, 67184398806084, 932815601193916, 122297795822499, 932815601193916, 191061877798678, 932815601193916, 
  270991611171386, 932815601193916, 359198224610371, 932815601193916, 452493745081181, 932815601193916, 547506254918819, 
  932815601193916, 640801775389629, 932815601193916, 729008388828614, 932815601193916, 808938122201322, 932815601193916, 
  877702204177502, 932815601193916, 932815601193916, 932815601193916, 972287511536616, 932815601193916, 994700467495825, 
  972287511536616, 5299532504175, 972287511536616, 27712488463384, 972287511536616, 67184398806084, 972287511536616, 
  122297795822499, 972287511536616, 191061877798678, 972287511536616, 270991611171386, 972287511536616, 359198224610371, 
  972287511536616, 452493745081181, 972287511536616, 547506254918819, 972287511536616, 640801775389629, 972287511536616, 
  729008388828614, 972287511536616, 808938122201322, 972287511536616, 877702204177502, 972287511536616, 932815601193916, 
  972287511536616, 972287511536616, 972287511536616, 994700467495825, 994700467495825, 5299532504175, 994700467495825, 
  27712488463384, 994700467495825, 67184398806084, 994700467495825, 122297795822499, 994700467495825, 191061877798678, 
  994700467495825, 270991611171386, 994700467495825, 359198224610371, 994700467495825, 452493745081181, 994700467495825, 
  547506254918819, 994700467495825, 640801775389629, 994700467495825, 729008388828614, 994700467495825, 808938122201322, 
  994700467495825, 877702204177502, 994700467495825, 932815601193916, 994700467495825, 972287511536616, 994700467495825, 
  994700467495825]

/-- `gpTensor`, in units of 1e-15 (gausstensor.hpp:59-1538), part 17. -/
def gpTensor17 : List Int := [
  4712262342791, 4712262342791, 4712262342791, 24662239115616, 4712262342791, 59880423136507, 4712262342791, 
  109242998051599, 4712262342791, 171164420391655, 4712262342791, 243654731456762, 4712262342791, 324384118273062, 
  4712262342791, 410757909252076, 4712262342791, 500000000000000, 4712262342791, 589242090747924, 4712262342791, 
  675615881726938, 4712262342791, 756345268543238, 4712262342791, 828835579608345, 4712262342791, 890757001948401, 
  4712262342791, 940119576863493, 4712262342791, 975337760884384, 4712262342791, 995287737657209, 24662239115616, 
  4712262342791, 24662239115616, 24662239115616, 24662239115616, 59880423136507, 24662239115616, 109242998051599, 
  24662239115616, 171164420391655, 24662239115616, 243654731456762, 24662239115616, 324384118273062, 24662239115616, 
  410757909252076, 24662239115616, 500000000000000, 24662239115616, 589242090747924, 24662239115616, 675615881726938, 
  24662239115616, 756345268543238, 24662239115616, 828835579608345, 24662239115616, 890757001948401, 24662239115616, 
  940119576863493, 24662239115616, 975337760884384, 24662239115616, 995287737657209, 59880423136507, 4712262342791, 
  59880423136507, 24662239115616, 59880423136507, 59880423136507, 59880423136507, 109242998051599, 59880423136507, 
  171164420391655, 59880423136507, 243654731456762, 59880423136507, 324384118273062, 59880423136507, 410757909252076, 
  59880423136507, 500000000000000, 59880423136507, 589242090747924, 59880423136507, 675615881726938, 59880423136507, 
  756345268543238, 59880423136507, 828835579608345, 59880423136507, 890757001948401, 59880423136507, 940119576863493, 
  59880423136507, 975337760884384, 59880423136507, 995287737657209, 109242998051599, 4712262342791, 109242998051599, 
  24662239115616, 109242998051599, 59880423136507, 109242998051599, 109242998051599, 109242998051599, 171164420391655, 
  109242998051599, 243654731456762, 109242998051599, 324384118273062, 109242998051599, 410757909252076, 109242998051599, 
  500000000000000, 109242998051599, 589242090747924, 109242998051599, 675615881726938, 109242998051599, 756345268543238, 
  109242998051599, 828835579608345, 109242998051599, 890757001948401, 109242998051599, 940119576863493, 109242998051599, 
  975337760884384, 109242998051599, 995287737657209, 171164420391655, 4712262342791, 171164420391655, 24662239115616, 
  171164420391655, 59880423136507, 171164420391655, 109242998051599, 171164420391655, 171164420391655, 171164420391655, 
  243654731456762, 171164420391655, 324384118273062, 171164420391655, 410757909252076, 171164420391655, 500000000000000, 
  171164420391655, 589242090747924, 171164420391655, 675615881726938, 171164420391655, 756345268543238, 171164420391655, 
  828835579608345, 171164420391655, 890757001948401, 171164420391655, 940119576863493, 171164420391655, 975337760884384, 
  171164420391655, 995287737657209, 243654731456762, 4712262342791, 243654731456762, 24662239115616, 243654731456762, 
  59880423136507, 243654731456762, 109242998051599, 243654731456762, 171164420391655, 243654731456762, 243654731456762, 
  243654731456762, 324384118273062, 243654731456762, 410757909252076, 243654731456762, 500000000000000, 243654731456762, 
  589242090747924, 243654731456762, 675615881726938, 243654731456762, 756345268543238, 243654731456762, 828835579608345, 
  243654731456762, 890757001948401, 243654731456762, 940119576863493, 243654731456762, 975337760884384, 243654731456762, 
  995287737657209, 324384118273062, 4712262342791, 324384118273062, 24662239115616, 324384118273062, 59880423136507, 
  324384118273062, 109242998051599, 324384118273062, 171164420391655, 324384118273062, 243654731456762, 324384118273062, 
  324384118273062, 324384118273062, 410757909252076, 324384118273062, 500000000000000, 324384118273062, 589242090747924, 
  324384118273062, 675615881726938, 324384118273062, 756345268543238, 324384118273062, 828835579608345, 324384118273062, 
  890757001948401, 324384118273062, 940119576863493, 324384118273062, 975337760884384, 324384118273062, 995287737657209, 
  410757909252076, 4712262342791, 410757909252076, 24662239115616, 410757909252076, 59880423136507, 410757909252076, 
  109242998051599, 410757909252076, 171164420391655, 410757909252076, 243654731456762, 410757909252076, 324384118273062, 
  410757909252076, 410757909252076, 410757909252076, 500000000000000, 410757909252076, 589242090747924, 410757909252076, 
  675615881726938, 410757909252076, 756345268543238, 410757909252076, 828835579608345, 410757909252076, 890757001948401, 
  410757909252076, 940119576863493, 410757909252076, 975337760884384, 410757909252076, 995287737657209, 500000000000000, 
  4712262342791, 500000000000000, 24662239115616, 500000000000000, 59880423136507, 500000000000000, 109242998051599, 
  500000000000000, 171164420391655, 500000000000000, 243654731456762, 500000000000000, 324384118273062, 500000000000000, 
  410757909252076, 500000000000000, 500000000000000, 500000000000000, 589242090747924, 500000000000000, 675615881726938, 
  500000000000000, 756345268543238, 500000000000000, 828835579608345, 500000000000000, 890757001948401, 500000000000000, 
  940119576863493, 500000000000000, 975337760884384, 500000000000000, 995287737657209, 589242090747924, 4712262342791, 
  589242090747924, 24662239115616, 589242090747924, 59880423136507, 589242090747924, 109242998051599, 589242090747924, 
  171164420391655, 589242090747924, 243654731456762, 589242090747924, 324384118273062, 589242090747924, 410757909252076, 
  589242090747924, 500000000000000, 589242090747924, 589242090747924, 589242090747924, 675615881726938, 589242090747924, 
  756345268543238, 589242090747924, 828835579608345, 589242090747924, 890757001948401, 589242090747924, 940119576863493, 
  589242090747924, 975337760884384, 589242090747924, 995287737657209, 675615881726938, 4712262342791, 675615881726938, 
  24662239115616, 675615881726938, 59880423136507, 675615881726938, 109242998051599, 675615881726938, 171164420391655, 
  675615881726938, 243654731456762, 675615881726938, 324384118273062, 675615881726938, 410757909252076, 675615881726938, 
  500000000000000, 675615881726938, 589242090747924, 675615881726938, 675615881726938, 675615881726938, 756345268543238, 
  675615881726938, 828835579608345, 675615881726938, 890757001948401, 675615881726938, 940119576863493, 675615881726938, 
  975337760884384, 675615881726938, 995287737657209, 756345268543238, 4712262342791, 756345268543238, 24662239115616, 
  756345268543238, 59880423136507, 756345268543238, 109242998051599, 756345268543238, 171164420391655, 756345268543238, 
  243654731456762, 756345268543238, 324384118273062, 756345268543238, 410757909252076, 756345268543238, 500000000000000, 
  756345268543238, 589242090747924, 756345268543238, 675615881726938, 756345268543238, 756345268543238, 756345268543238, 
  828835579608345, 756345268543238, 890757001948401, 756345268543238, 940119576863493, 756345268543238, 975337760884384, 
  756345268543238, 995287737657209, 828835579608345, 4712262342791, 828835579608345, 24662239115616, 828835579608345, 
  59880423136507, 828835579608345, 109242998051599, 828835579608345, 171164420391655, 828835579608345, 243654731456762, 
  828835579608345, 324384118273062, 828835579608345, 410757909252076, 828835579608345, 500000000000000, 828835579608345, 
  589242090747924, 828835579608345, 675615881726938, 828835579608345, 756345268543238, 828835579608345, 828835579608345, 
  828835579608345, 890757001948401, 828835579608345, 940119576863493, 828835579608345, 975337760884384, 828835579608345, 
  995287737657209, 890757001948401, 4712262342791, 890757001948401, 24662239115616, 890757001948401, 59880423136507, 
  890757001948401, 109242998051599, 890757001948401, 171164420391655, 890757001948401, 243654731456762, 890757001948401, 
  324384118273062, 890757001948401, 410757909252076, 890757001948401, 500000000000000, 890757001948401, 589242090747924, 
  890757001948401, 675615881726938, 890757001948401, 756345268543238, 890757001948401, 828835579608345, 890757001948401, 
  890757001948401, 890757001948401, 940119576863493, 890757001948401, 975337760884384, 890757001948401, 995287737657209, 
  940119576863493, 4712262342791, 940119576863493, 24662239115616, 940119576863493, 59880423136507, 940119576863493, 
  109242998051599, 940119576863493, 171164420391655, 940119576863493, 243654731456762, 940119576863493, 324384118273062, 
  940119576863493, 410757909252076, 940119576863493, 500000000000000, 940119576863493, 589242090747924, 940119576863493, 
  675615881726938, 940119576863493, 756345268543238, 940119576863493, 828835579608345, 940119576863493, 890757001948401, 
  940119576863493, 940119576863493, 940119576863493, 975337760884384, 940119576863493, 995287737657209, 975337760884384, 
  4712262342791, 975337760884384, 24662239115616, 975337760884384, 59880423136507, 975337760884384, 109242998051599, 
  975337760884384, 171164420391655, 975337760884384, 243654731456762, 975337760884384, 324384118273062, 975337760884384, 
  410757909252076, 975337760884384, 500000000000000, 975337760884384, 589242090747924, 975337760884384, 675615881726938, 
  975337760884384, 756345268543238, 975337760884384, 828835579608345, 975337760884384, 890757001948401, 975337760884384, 
  940119576863493, 975337760884384, 975337760884384, 975337760884384, 995287737657209, 995287737657209, 4712262342791, 
  995287737657209, 24662239115616, 995287737657209, 59880423136507, 995287737657209, 109242998051599, 995287737657209, 
  171164420391655, 995287737657209, 243654731456762, 995287737657209, 324384118273062, 995287737657209, 410757909252076, 
  995287737657209, 500000000000000, 995287737657209, 589242090747924, 995287737657209, 675615881726938, 995287737657209, 
  756345268543238, 995287737657209, 828835579608345, 995287737657209, 890757001948401, 995287737657209, 940119576863493, 
  995287737657209, 975337760884384, 995287737657209, 995287737657209]

/-- `gpTensor`, in units of 1e-15 (gausstensor.hpp:59-1538), part 18. -/
def gpTensor18 : List Int := [
  4217415789535, 4217415789535, 4217415789535, 22088025214301, 4217415789535, 53698766751222, 4217415789535, 
  98147520513738, 4217415789535, 154156478469823, 4217415789535, 220114584463026, 4217415789535, 294124419268579, 
  4217415789535, 374056887154247, 4217415789535, 457612493479132, 4217415789535, 542387506520868, 4217415789535, 
  625943112845753, 4217415789535, 705875580731421, 4217415789535, 779885415536974, 4217415789535, 845843521530177, 
  4217415789535, 901852479486262, 4217415789535, 946301233248778, 4217415789535, 977911974785699, 4217415789535, 
  995782584210466, 22088025214301, 4217415789535, 22088025214301, 22088025214301, 22088025214301, 53698766751222, 
  22088025214301, 98147520513738, 22088025214301, 154156478469823, 22088025214301, 220114584463026, 22088025214301, 
  294124419268579, 22088025214301, 374056887154247, 22088025214301, 457612493479132, 22088025214301, 542387506520868, 
  22088025214301, 625943112845753, 22088025214301, 705875580731421, 22088025214301, 779885415536974, 22088025214301, 
  845843521530177, 22088025214301, 901852479486262, 22088025214301, 946301233248778, 22088025214301, 977911974785699, 
  22088025214301, 995782584210466, 53698766751222, 4217415789535, 53698766751222, 22088025214301, 53698766751222, 
  53698766751222, 53698766751222, 98147520513738, 53698766751222, 154156478469823, 53698766751222, 220114584463026, 
  53698766751222, 294124419268579, 53698766751222, 374056887154247, 53698766751222, 457612493479132, 53698766751222, 
  542387506520868, 53698766751222, 625943112845753, 53698766751222, 705875580731421, 53698766751222, 779885415536974, 
  53698766751222, 845843521530177, 53698766751222, 901852479486262, 53698766751222, 946301233248778, 53698766751222, 
  977911974785699, 53698766751222, 995782584210466, 98147520513738, 4217415789535, 98147520513738, 22088025214301, 
  98147520513738, 53698766751222, 98147520513738, 98147520513738, 98147520513738, 154156478469823, 98147520513738, 
  220114584463026, 98147520513738, 294124419268579, 98147520513738, 374056887154247, 98147520513738, 457612493479132, 
  98147520513738, 542387506520868, 98147520513738, 625943112845753, 98147520513738, 705875580731421, 98147520513738, 
  779885415536974, 98147520513738, 845843521530177, 98147520513738, 901852479486262, 98147520513738, 946301233248778, 
  98147520513738, 977911974785699, 98147520513738, 995782584210466, 154156478469823, 4217415789535, 154156478469823, 
  22088025214301, 154156478469823, 53698766751222, 154156478469823, 98147520513738, 154156478469823, 154156478469823, 
  154156478469823, 220114584463026, 154156478469823, 294124419268579, 154156478469823, 374056887154247, 154156478469823, 
  457612493479132, 154156478469823, 542387506520868, 154156478469823, 625943112845753, 154156478469823, 705875580731421, 
  154156478469823, 779885415536974, 154156478469823, 845843521530177, 154156478469823, 901852479486262, 154156478469823, 
  946301233248778, 154156478469823, 977911974785699, 154156478469823, 995782584210466, 220114584463026, 4217415789535, 
  220114584463026, 22088025214301, 220114584463026, 53698766751222, 220114584463026, 98147520513738, 220114584463026, 
  154156478469823, 220114584463026, 220114584463026, 220114584463026, 294124419268579, 220114584463026, 374056887154247, 
  220114584463026, 457612493479132, 220114584463026, 542387506520868, 220114584463026, 625943112845753, 220114584463026, 
  705875580731421, 220114584463026, 779885415536974, 220114584463026, 845843521530177, 220114584463026, 901852479486262, 
  220114584463026, 946301233248778, 220114584463026, 977911974785699, 220114584463026, 995782584210466, 294124419268579, 
  4217415789535, 294124419268579, 22088025214301, 294124419268579, 53698766751222, 294124419268579, 98147520513738, 
  294124419268579, 154156478469823, 294124419268579, 220114584463026, 294124419268579, 294124419268579, 294124419268579, 
  374056887154247, 294124419268579, 457612493479132, 294124419268579, 542387506520868, 294124419268579, 625943112845753, 
  294124419268579, 705875580731421, 294124419268579, 779885415536974, 294124419268579, 845843521530177, 294124419268579, 
  901852479486262, 294124419268579, 946301233248778, 294124419268579, 977911974785699, 294124419268579, 995782584210466, 
  374056887154247, 4217415789535, 374056887154247, 22088025214301, 374056887154247, 53698766751222, 374056887154247, 
  98147520513738, 374056887154247, 154156478469823, 374056887154247, 220114584463026, 374056887154247, 294124419268579, 
  374056887154247, 374056887154247, 374056887154247, 457612493479132, 374056887154247, 542387506520868, 374056887154247, 
  625943112845753, 374056887154247, 705875580731421, 374056887154247, 779885415536974, 374056887154247, 845843521530177, 
  374056887154247, 901852479486262, 374056887154247, 946301233248778, 374056887154247, 977911974785699, 374056887154247, 
  995782584210466, 457612493479132, 4217415789535, 457612493479132, 22088025214301, 457612493479132, 53698766751222, 
  457612493479132, 98147520513738, 457612493479132, 154156478469823, 457612493479132, 220114584463026, 457612493479132, 
  294124419268579, 457612493479132, 374056887154247, 457612493479132, 457612493479132, 457612493479132, 542387506520868, 
  457612493479132, 625943112845753, 457612493479132, 705875580731421, 457612493479132, 779885415536974, 457612493479132, 
  845843521530177, 457612493479132, 901852479486262, 457612493479132, 946301233248778, 457612493479132, 977911974785699, 
  457612493479132, 995782584210466, 542387506520868, 4217415789535, 542387506520868, 22088025214301, 542387506520868, 
  53698766751222, 542387506520868, 98147520513738, 542387506520868, 154156478469823, 542387506520868, 220114584463026, 
  542387506520868, 294124419268579, 542387506520868, 374056887154247, 542387506520868, 457612493479132, 542387506520868, 
  542387506520868, 542387506520868, 625943112845753, 542387506520868, 705875580731421, 542387506520868, 779885415536974, 
  542387506520868, 845843521530177, 542387506520868, 901852479486262, 542387506520868, 946301233248778, 542387506520868, 
  977911974785699, 542387506520868, 995782584210466, 625943112845753, 4217415789535, 625943112845753, 22088025214301, 
  625943112845753, 53698766751222, 625943112845753, 98147520513738, 625943112845753, 154156478469823, 625943112845753, 
  220114584463026, 625943112845753, 294124419268579, 625943112845753, 374056887154247, 625943112845753, 457612493479132, 
  625943112845753, 542387506520868, 625943112845753, 625943112845753, 625943112845753, 705875580731421, 625943112845753, 
  779885415536974, 625943112845753, 845843521530177, 625943112845753, 901852479486262, 625943112845753, 946301233248778, 
  625943112845753, 977911974785699, 625943112845753, 995782584210466, 705875580731421, 4217415789535, 705875580731421, 
  22088025214301, 705875580731421, 53698766751222, 705875580731421, 98147520513738, 705875580731421, 154156478469823, 
  705875580731421, 220114584463026, 705875580731421, 294124419268579, 705875580731421, 374056887154247, 705875580731421, 
  457612493479132, 705875580731421, 542387506520868, 705875580731421, 625943112845753, 705875580731421, 705875580731421, 
  705875580731421, 779885415536974, 705875580731421, 845843521530177, 705875580731421, 901852479486262, 705875580731421, 
  946301233248778, 705875580731421, 977911974785699, 705875580731421, 995782584210466, 779885415536974, 4217415789535, 
  779885415536974, 22088025214301, 779885415536974, 53698766751222, 779885415536974, 98147520513738, 779885415536974, 
  154156478469823, 779885415536974, 220114584463026, 779885415536974, 294124419268579, 779885415536974, 374056887154247, 
  779885415536974, 457612493479132, 779885415536974, 542387506520868, 779885415536974, 625943112845753, 779885415536974, 
  705875580731421, 779885415536974, 779885415536974, 779885415536974, 845843521530177, 779885415536974, 901852479486262, 
  779885415536974, 946301233248778, 779885415536974, 977911974785699, 779885415536974, 995782584210466, 845843521530177, 
  4217415789535, 845843521530177, 22088025214301, 845843521530177, 53698766751222, 845843521530177, 98147520513738, 
  845843521530177, 154156478469823, 845843521530177, 220114584463026, 845843521530177, 294124419268579, 845843521530177, 
  374056887154247, 845843521530177, 457612493479132, 845843521530177, 542387506520868, 845843521530177, 625943112845753, 
  845843521530177, 705875580731421, 845843521530177, 779885415536974, 845843521530177, 845843521530177, 845843521530177, 
  901852479486262, 845843521530177, 946301233248778, 845843521530177, 977911974785699, 845843521530177, 995782584210466, 
  901852479486262, 4217415789535, 901852479486262, 22088025214301, 901852479486262, 53698766751222, 901852479486262, 
  98147520513738, 901852479486262, 154156478469823, 901852479486262, 220114584463026, 901852479486262, 294124419268579, 
  901852479486262, 374056887154247, 901852479486262, 457612493479132, 901852479486262, 542387506520868, 901852479486262, 
  625943112845753, 901852479486262, 705875580731421, 901852479486262, 779885415536974, 901852479486262, 845843521530177, 
  901852479486262, 901852479486262, 901852479486262, 946301233248778, 901852479486262, 977911974785699, 901852479486262, 
  995782584210466, 946301233248778, 4217415789535, 946301233248778, 22088025214301, 946301233248778, 53698766751222, 
  946301233248778, 98147520513738, 946301233248778, 154156478469823, 946301233248778, 220114584463026, 946301233248778, 
  294124419268579, 946301233248778, 374056887154247, 946301233248778, 457612493479132, 946301233248778, 542387506520868, 
  946301233248778, 625943112845753, 946301233248778, 705875580731421, 946301233248778, 779885415536974, 946301233248778, 
  845843521530177, 946301233248778, 901852479486262, 946301233248778, 946301233248778, 946301233248778, 977911974785699, 
  946301233248778, 995782584210466, 977911974785699, 4217415789535, 977911974785699, 22088025214301, 977911974785699, 
  53698766751222, 977911974785699, 98147520513738, 977911974785699, 154156478469823, 977911974785699, 220114584463026, 
  977911974785699, 294124419268579, 977911974785699, 374056887154247, 977911974785699, 457612493479132, 977911974785699, 
  542387506520868, 977911974785699, 625943112845753, 977911974785699, 705875580731421, 977911974785699, 779885415536974, 
  977911974785699, 845843521530177, 977911974785699, 901852479486262, 977911974785699, 946301233248778, 977911974785699, 
  977911974785699, 977911974785699, 995782584210466, 995782584210466, 4217415789535, 995782584210466, 22088025214301, 
  995782584210466, 53698766751222, 995782584210466, 98147520513738, 995782584210466, 154156478469823, 995782584210466, 
  220114584463026, 995782584210466, 294124419268579, 995782584210466, 374056887154247, 995782584210466, 457612493479132, 
  995782584210466, 542387506520868, 995782584210466, 625943112845753, 995782584210466, 705875580731421, 995782584210466, 
  779885415536974, 995782584210466, 845843521530177, 995782584210466, 901852479486262, 995782584210466, 946301233248778, 
  995782584210466, 977911974785699, 995782584210466, 995782584210466]

/-- `gpTensor`, in units of 1e-15 (gausstensor.hpp:59-1538), part 19. -/
def gpTensor19 : List Int := [
  3796578078208, 3796578078208, 3796578078208, 19895923932585, 3796578078208, 48422048192591, 3796578078208, 
  88642671731429, 3796578078208, 139516911332385, 3796578078208, 199727347669160, 3796578078208, 267714629312020, 
  3796578078208, 341717950018185, 3796578078208, 419820677179887, 3796578078208, 500000000000000, 3796578078208, 
  580179322820113, 3796578078208, 658282049981815, 3796578078208, 732285370687980, 3796578078208, 800272652330841, 
  3796578078208, 860483088667615, 3796578078208, 911357328268571, 3796578078208, 951577951807409, 3796578078208, 
  980104076067415, 3796578078208, 996203421921792, 19895923932585, 3796578078208, 19895923932585, 19895923932585, 
  19895923932585, 48422048192591, 19895923932585, 88642671731429, 19895923932585, 139516911332385, 19895923932585, 
  199727347669160, 19895923932585, 267714629312020, 19895923932585, 341717950018185, 19895923932585, 419820677179887, 
  19895923932585, 500000000000000, 19895923932585, 580179322820113, 19895923932585, 658282049981815, 19895923932585, 
  732285370687980, 19895923932585, 800272652330841, 19895923932585, 860483088667615, 19895923932585, 911357328268571, 
  19895923932585, 951577951807409, 19895923932585, 980104076067415, 19895923932585, 996203421921792, 48422048192591, 
  3796578078208, 48422048192591, 19895923932585, 48422048192591, 48422048192591, 48422048192591, 88642671731429, 
  48422048192591, 139516911332385, 48422048192591, 199727347669160, 48422048192591, 267714629312020, 48422048192591, 
  341717950018185, 48422048192591, 419820677179887, 48422048192591, 500000000000000, 48422048192591, 580179322820113, 
  48422048192591, 658282049981815, 48422048192591, 732285370687980, 48422048192591, 800272652330841, 48422048192591, 
  860483088667615, 48422048192591, 911357328268571, 48422048192591, 951577951807409, 48422048192591, 980104076067415, 
  48422048192591, 996203421921792, 88642671731429, 3796578078208, 88642671731429, 19895923932585, 88642671731429, 
  48422048192591, 88642671731429, 88642671731429, 88642671731429, 139516911332385, 88642671731429, 199727347669160, 
  88642671731429, 267714629312020, 88642671731429, 341717950018185, 88642671731429, 419820677179887, 88642671731429, 
  500000000000000, 88642671731429, 580179322820113, 88642671731429, 658282049981815, 88642671731429, 732285370687980, 
  88642671731429, 800272652330841, 88642671731429, 860483088667615, 88642671731429, 911357328268571, 88642671731429, 
  951577951807409, 88642671731429, 980104076067415, 88642671731429, 996203421921792, 139516911332385, 3796578078208, 
  139516911332385, 19895923932585, 139516911332385, 48422048192591, 139516911332385, 88642671731429, 139516911332385, 
  139516911332385, 139516911332385, 199727347669160, 139516911332385, 267714629312020, 139516911332385, 341717950018185, 
  139516911332385, 419820677179887, 139516911332385, 500000000000000, 139516911332385, 580179322820113, 139516911332385, 
  658282049981815, 139516911332385, 732285370687980, 139516911332385, 800272652330841, 139516911332385, 860483088667615, 
  139516911332385, 911357328268571, 139516911332385, 951577951807409, 139516911332385, 980104076067415, 139516911332385, 
  996203421921792, 199727347669160, 3796578078208, 199727347669160, 19895923932585, 199727347669160, 48422048192591, 
  199727347669160, 88642671731429, 199727347669160, 139516911332385, 199727347669160, 199727347669160, 199727347669160, 
  267714629312020, 199727347669160, 341717950018185, 199727347669160, 419820677179887, 199727347669160, 500000000000000, 
  199727347669160, 580179322820113, 199727347669160, 658282049981815, 199727347669160, 732285370687980, 199727347669160, 
  800272652330841, 199727347669160, 860483088667615, 199727347669160, 911357328268571, 199727347669160, 951577951807409, 
  199727347669160, 980104076067415, 199727347669160, 996203421921792, 267714629312020, 3796578078208, 267714629312020, 
  19895923932585, 267714629312020, 48422048192591, 267714629312020, 88642671731429, 267714629312020, 139516911332385, 
  267714629312020, 199727347669160, 267714629312020, 267714629312020, 267714629312020, 341717950018185, 267714629312020, 
  419820677179887, 267714629312020, 500000000000000, 267714629312020, 580179322820113, 267714629312020, 658282049981815, 
  267714629312020, 732285370687980, 267714629312020, 800272652330841, 267714629312020, 860483088667615, 267714629312020, 
  911357328268571, 267714629312020, 951577951807409, 267714629312020, 980104076067415, 267714629312020, 996203421921792, 
  341717950018185, 3796578078208, 341717950018185, 19895923932585, 341717950018185, 48422048192591, 341717950018185, 
  88642671731429, 341717950018185, 139516911332385, 341717950018185, 199727347669160, 341717950018185, 267714629312020, 
  341717950018185, 341717950018185, 341717950018185, 419820677179887, 341717950018185, 500000000000000, 341717950018185, 
  580179322820113, 341717950018185, 658282049981815, 341717950018185, 732285370687980, 341717950018185, 800272652330841, 
  341717950018185, 860483088667615, 341717950018185, 911357328268571, 341717950018185, 951577951807409, 341717950018185, 
  980104076067415, 341717950018185, 996203421921792, 419820677179887, 3796578078208, 419820677179887, 19895923932585, 
  419820677179887, 48422048192591, 419820677179887, 88642671731429, 419820677179887, 139516911332385, 419820677179887, 
  199727347669160, 419820677179887, 267714629312020, 419820677179887, 341717950018185, 419820677179887, 419820677179887, 
  419820677179887, 500000000000000, 419820677179887, 580179322820113, 419820677179887, 658282049981815, 419820677179887, 
  732285370687980, 419820677179887, 800272652330841, 419820677179887, 860483088667615, 419820677179887, 911357328268571, 
  419820677179887, 951577951807409, 419820677179887, 980104076067415, 419820677179887, 996203421921792, 500000000000000, 
  3796578078208, 500000000000000, 19895923932585, 500000000000000, 48422048192591, 500000000000000, 88642671731429, 
  500000000000000, 139516911332385, 500000000000000, 199727347669160, 500000000000000, 267714629312020, 500000000000000, 
  341717950018185, 500000000000000, 419820677179887, 500000000000000, 500000000000000, 500000000000000, 580179322820113, 
  500000000000000, 658282049981815, 500000000000000, 732285370687980, 500000000000000, 800272652330841, 500000000000000, 
  860483088667615, 500000000000000, 911357328268571, 500000000000000, 951577951807409, 500000000000000, 980104076067415, 
  500000000000000, 996203421921792, 580179322820113, 3796578078208, 580179322820113, 19895923932585, 580179322820113, 
  48422048192591, 580179322820113, 88642671731429, 580179322820113, 139516911332385, 580179322820113, 199727347669160, 
  580179322820113, 267714629312020, 580179322820113, 341717950018185, 580179322820113, 419820677179887, 580179322820113, 
  500000000000000, 580179322820113, 580179322820113, 580179322820113, 658282049981815, 580179322820113, 732285370687980, 
  580179322820113, 800272652330841, 580179322820113, 860483088667615, 580179322820113, 911357328268571, 580179322820113, 
  951577951807409, 580179322820113, 980104076067415, 580179322820113, 996203421921792, 658282049981815, 3796578078208, 
  658282049981815, 19895923932585, 658282049981815, 48422048192591, 658282049981815, 88642671731429, 658282049981815, 
  139516911332385, 658282049981815, 199727347669160, 658282049981815, 267714629312020, 658282049981815, 341717950018185, 
  658282049981815, 419820677179887, 658282049981815, 500000000000000, 658282049981815, 580179322820113, 658282049981815, 
  658282049981815, 658282049981815, 732285370687980, 658282049981815, 800272652330841, 658282049981815, 860483088667615, 
  658282049981815, 911357328268571, 658282049981815, 951577951807409, 658282049981815, 980104076067415, 658282049981815, 
  996203421921792, 732285370687980, 3796578078208, 732285370687980, 19895923932585, 732285370687980, 48422048192591, 
  732285370687980, 88642671731429, 732285370687980, 139516911332385, 732285370687980, 199727347669160, 732285370687980, 
  267714629312020, 732285370687980, 341717950018185, 732285370687980, 419820677179887, 732285370687980, 500000000000000, 
  732285370687980, 580179322820113, 732285370687980, 658282049981815, 732285370687980, 732285370687980, 732285370687980, 
  800272652330841, 732285370687980, 860483088667615, 732285370687980, 911357328268571, 732285370687980, 951577951807409, 
  732285370687980, 980104076067415, 732285370687980, 996203421921792, 800272652330841, 3796578078208, 800272652330841, 
  19895923932585, 800272652330841, 48422048192591, 800272652330841, 88642671731429, 800272652330841, 139516911332385, 
  800272652330841, 199727347669160, 800272652330841, 267714629312020, 800272652330841, 341717950018185, 800272652330841, 
  419820677179887, 800272652330841, 500000000000000, 800272652330841, 580179322820113, 800272652330841, 658282049981815, 
  800272652330841, 732285370687980, 800272652330841, 800272652330841, 800272652330841, 860483088667615, 800272652330841, 
  911357328268571, 800272652330841, 951577951807409, 800272652330841, 980104076067415, 800272652330841, 996203421921792, 
  860483088667615, 3796578078208, 860483088667615, 19895923932585, 860483088667615, 48422048192591, 860483088667615, 
  88642671731429, 860483088667615, 139516911332385, 860483088667615, 199727347669160, 860483088667615, 267714629312020, 
  860483088667615, 341717950018185, 860483088667615, 419820677179887, 860483088667615, 500000000000000, 860483088667615, 
  580179322820113, 860483088667615, 658282049981815, 860483088667615, 732285370687980, 860483088667615, 800272652330841, 
  860483088667615, 860483088667615, 860483088667615, 911357328268571, 860483088667615, 951577951807409, 860483088667615, 
  980104076067415, 860483088667615, 996203421921792, 911357328268571, 3796578078208, 911357328268571, 19895923932585, 
  911357328268571, 48422048192591, 911357328268571, 88642671731429, 911357328268571, 139516911332385, 911357328268571, 
  199727347669160, 911357328268571, 267714629312020, 911357328268571, 341717950018185, 911357328268571, 419820677179887, 
  911357328268571, 500000000000000, 911357328268571, 580179322820113, 911357328268571, 658282049981815, 911357328268571, 
  732285370687980, 911357328268571, 800272652330841, 911357328268571, 860483088667615, 911357328268571, 911357328268571, 
  911357328268571, 951577951807409, 911357328268571, 980104076067415, 911357328268571, 996203421921792, 951577951807409, 
  3796578078208, 951577951807409, 19895923932585, 951577951807409, 48422048192591, 951577951807409, 88642671731429, 
  951577951807409, 139516911332385, 951577951807409, 199727347669160, 951577951807409, 267714629312020, 951577951807409, 
  341717950018185, 951577951807409, 419820677179887, 951577951807409, 500000000000000, 951577951807409, 580179322820113, 
  951577951807409, 658282049981815, 951577951807409, 732285370687980, 951577951807409, 800272652330841, 951577951807409, 
  860483088667615, 951577951807409, 911357328268571, 951577951807409, 951577951807409, 951577951807409, 980104076067415, 
  951577951807409, 996203421921792, 980104076067415, 3796578078208, 980104076067415, 19895923932585, 980104076067415, 
  48422048192591, 980104076067415, 88642671731429, 980104076067415, 139516911332385, 980104076067415, 199727347669160, 
  980104076067415, 267714629312020, 980104076067415, 341717950018185, 980104076067415, 419820677179887, 980104076067415, 
  500000000000000, 980104076067415, 580179322820113, 980104076067415, 658282049981815, 980104076067415, 732285370687980, 
  980104076067415, 800272652330841, 980104076067415, 860483088667615, 980104076067415, 911357328268571, 980104076067415, 
  951577951807409, 980104076067415, 980104076067415, 980104076067415, 996203421921792, 996203421921792, 3796578078208, 
  996203421921792, 19895923932585, 996203421921792, 48422048192591, 996203421921792, 88642671731429, 996203421921792, 
  139516911332385, 996203421921792, 199727347669160, 996203421921792, 267714629312020, 996203421921792, 341717950018185, 
  996203421921792, 419820677179887, 996203421921792, 500000000000000, 996203421921792, 580179322820113, 996203421921792, 
  658282049981815, 996203421921792, 732285370687980, 996203421921792, 800272652330841, 996203421921792, 860483088667615, 
  996203421921792, 911357328268571, 996203421921792, 951577951807409, 996203421921792, 980104076067415, 996203421921792, 
  996203421921792]

/-- `gpTensor`, in units of 1e-15 (gausstensor.hpp:59-1538), part 20. -/
def gpTensor20 : List Int := [
  3435700407453, 3435700407453, 3435700407453, 18014036361043, 3435700407453, 43882785874337, 3435700407453, 
  80441514088891, 3435700407453, 126834046769925, 3435700407453, 181973159636742, 3435700407453, 244566499024586, 
  3435700407453, 313146955642290, 3435700407453, 386107074429177, 3435700407453, 461736739433251, 3435700407453, 
  538263260566749, 3435700407453, 613892925570823, 3435700407453, 686853044357710, 3435700407453, 755433500975414, 
  3435700407453, 818026840363258, 3435700407453, 873165953230075, 3435700407453, 919558485911109, 3435700407453, 
  956117214125663, 3435700407453, 981985963638957, 3435700407453, 996564299592547, 18014036361043, 3435700407453, 
  18014036361043, 18014036361043, 18014036361043, 43882785874337, 18014036361043, 80441514088891, 18014036361043, 
  126834046769925, 18014036361043, 181973159636742, 18014036361043, 244566499024586, 18014036361043, 313146955642290, 
  18014036361043, 386107074429177, 18014036361043, 461736739433251, 18014036361043, 538263260566749, 18014036361043, 
  613892925570823, 18014036361043, 686853044357710, 18014036361043, 755433500975414, 18014036361043, 818026840363258, 
  18014036361043, 873165953230075, 18014036361043, 919558485911109, 18014036361043, 956117214125663, 18014036361043, 
  981985963638957, 18014036361043, 996564299592547, 43882785874337, 3435700407453, 43882785874337, 18014036361043, 
  43882785874337, 43882785874337, 43882785874337, 80441514088891, 43882785874337, 126834046769925, 43882785874337, 
  181973159636742, 43882785874337, 244566499024586, 43882785874337, 313146955642290, 43882785874337, 386107074429177, 
  43882785874337, 461736739433251, 43882785874337, 538263260566749, 43882785874337, 613892925570823, 43882785874337, 
  686853044357710, 43882785874337, 755433500975414, 43882785874337, 818026840363258, 43882785874337, 873165953230075, 
  43882785874337, 919558485911109, 43882785874337, 956117214125663, 43882785874337, 981985963638957, 43882785874337, 
  996564299592547, 80441514088891, 3435700407453, 80441514088891, 18014036361043, 80441514088891, 43882785874337, 
  80441514088891, 80441514088891, 80441514088891, 126834046769925, 80441514088891, 181973159636742, 80441514088891, 
  244566499024586, 80441514088891, 313146955642290, 80441514088891, 386107074429177, 80441514088891, 461736739433251, 
  80441514088891, 538263260566749, 80441514088891, 613892925570823, 80441514088891, 686853044357710, 80441514088891, 
  755433500975414, 80441514088891, 818026840363258, 80441514088891, 873165953230075, 80441514088891, 919558485911109, 
  80441514088891, 956117214125663, 80441514088891, 981985963638957, 80441514088891, 996564299592547, 126834046769925, 
  3435700407453, 126834046769925, 18014036361043, 126834046769925, 43882785874337, 126834046769925, 80441514088891, 
  126834046769925, 126834046769925, 126834046769925, 181973159636742, 126834046769925, 244566499024586, 126834046769925, 
  313146955642290, 126834046769925, 386107074429177, 126834046769925, 461736739433251, 126834046769925, 538263260566749, 
  126834046769925, 613892925570823, 126834046769925, 686853044357710, 126834046769925, 755433500975414, 126834046769925, 
  818026840363258, 126834046769925, 873165953230075, 126834046769925, 919558485911109, 126834046769925, 956117214125663, 
  126834046769925, 981985963638957, 126834046769925, 996564299592547, 181973159636742, 3435700407453, 181973159636742, 
  18014036361043, 181973159636742, 43882785874337, 181973159636742, 80441514088891, 181973159636742, 126834046769925, 
  181973159636742, 181973159636742, 181973159636742, 244566499024586, 181973159636742, 313146955642290, 181973159636742, 
  386107074429177, 181973159636742, 461736739433251, 181973159636742, 538263260566749, 181973159636742, 613892925570823, 
  181973159636742, 686853044357710, 181973159636742, 755433500975414, 181973159636742, 818026840363258, 181973159636742, 
  873165953230075, 181973159636742, 919558485911109, 181973159636742, 956117214125663, 181973159636742, 981985963638957, 
  181973159636742, 996564299592547, 244566499024586, 3435700407453, 244566499024586, 18014036361043, 244566499024586, 
  43882785874337, 244566499024586, 80441514088891, 244566499024586, 126834046769925, 244566499024586, 181973159636742, 
  244566499024586, 244566499024586, 244566499024586, 313146955642290, 244566499024586, 386107074429177, 244566499024586, 
  461736739433251, 244566499024586, 538263260566749, 244566499024586, 613892925570823, 244566499024586, 686853044357710, 
  244566499024586, 755433500975414, 244566499024586, 818026840363258, 244566499024586, 873165953230075, 244566499024586, 
  919558485911109, 244566499024586, 956117214125663, 244566499024586, 981985963638957, 244566499024586, 996564299592547, 
  313146955642290, 3435700407453, 313146955642290, 18014036361043, 313146955642290, 43882785874337, 313146955642290, 
  80441514088891, 313146955642290, 126834046769925, 313146955642290, 181973159636742, 313146955642290, 244566499024586, 
  313146955642290, 313146955642290, 313146955642290, 386107074429177, 313146955642290, 461736739433251, 313146955642290, 
  538263260566749, 313146955642290, 613892925570823, 313146955642290, 686853044357710, 313146955642290, 755433500975414, 
  313146955642290, 818026840363258, 313146955642290, 873165953230075, 313146955642290, 919558485911109, 313146955642290, 
  956117214125663, 313146955642290, 981985963638957, 313146955642290, 996564299592547, 386107074429177, 3435700407453, 
  386107074429177, 18014036361043, 386107074429177, 43882785874337, 386107074429177, 80441514088891, 386107074429177, 
  126834046769925, 386107074429177, 181973159636742, 386107074429177, 244566499024586, 386107074429177, 313146955642290, 
  386107074429177, 386107074429177, 386107074429177, 461736739433251, 386107074429177, 538263260566749, 386107074429177, 
  613892925570823, 386107074429177, 686853044357710, 386107074429177, 755433500975414, 386107074429177, 818026840363258, 
  386107074429177, 873165953230075, 386107074429177, 919558485911109, 386107074429177, 956117214125663, 386107074429177, 
  981985963638957, 386107074429177, 996564299592547, 461736739433251, 3435700407453, 461736739433251, 18014036361043, 
  461736739433251, 43882785874337, 461736739433251, 80441514088891, 461736739433251, 126834046769925, 461736739433251, 
  181973159636742, 461736739433251, 244566499024586, 461736739433251, 313146955642290, 461736739433251, 386107074429177, 
  461736739433251, 461736739433251, 461736739433251, 538263260566749, 461736739433251, 613892925570823, 461736739433251, 
  686853044357710, 461736739433251, 755433500975414, 461736739433251, 818026840363258, 461736739433251, 873165953230075, 
  461736739433251, 919558485911109, 461736739433251, 956117214125663, 461736739433251, 981985963638957, 461736739433251, 
  996564299592547, 538263260566749, 3435700407453, 538263260566749, 18014036361043, 538263260566749, 43882785874337, 
  538263260566749, 80441514088891, 538263260566749, 126834046769925, 538263260566749, 181973159636742, 538263260566749, 
  244566499024586, 538263260566749, 313146955642290, 538263260566749, 386107074429177, 538263260566749, 461736739433251, 
  538263260566749, 538263260566749, 538263260566749, 613892925570823, 538263260566749, 686853044357710, 538263260566749, 
  755433500975414, 538263260566749, 818026840363258, 538263260566749, 873165953230075, 538263260566749, 919558485911109, 
  538263260566749, 956117214125663, 538263260566749, 981985963638957, 538263260566749, 996564299592547, 613892925570823, 
  3435700407453, 613892925570823, 18014036361043, 613892925570823, 43882785874337, 613892925570823, 80441514088891, 
  613892925570823, 126834046769925, 613892925570823, 181973159636742, 613892925570823, 244566499024586, 613892925570823, 
  313146955642290, 613892925570823, 386107074429177, 613892925570823, 461736739433251, 613892925570823, 538263260566749, 
  613892925570823, 613892925570823, 613892925570823, 686853044357710, 613892925570823, 755433500975414, 613892925570823, 
  818026840363258, 613892925570823, 873165953230075, 613892925570823, 919558485911109, 613892925570823, 956117214125663, 
  613892925570823, 981985963638957, 613892925570823, 996564299592547, 686853044357710, 3435700407453, 686853044357710, 
  18014036361043, 686853044357710, 43882785874337, 686853044357710, 80441514088891, 686853044357710, 126834046769925, 
  686853044357710, 181973159636742, 686853044357710, 244566499024586, 686853044357710, 313146955642290, 686853044357710, 
  386107074429177, 686853044357710, 461736739433251, 686853044357710, 538263260566749, 686853044357710, 613892925570823, 
  686853044357710, 686853044357710, 686853044357710, 755433500975414, 686853044357710, 818026840363258, 686853044357710, 
  873165953230075, 686853044357710, 919558485911109, 686853044357710, 956117214125663, 686853044357710, 981985963638957, 
  686853044357710, 996564299592547, 755433500975414, 3435700407453, 755433500975414, 18014036361043, 755433500975414, 
  43882785874337, 755433500975414, 80441514088891, 755433500975414, 126834046769925, 755433500975414, 181973159636742, 
  755433500975414, 244566499024586, 755433500975414, 313146955642290, 755433500975414, 386107074429177, 755433500975414, 
  461736739433251, 755433500975414, 538263260566749, 755433500975414, 613892925570823, 755433500975414, 686853044357710, 
  755433500975414, 755433500975414, 755433500975414, 818026840363258, 755433500975414, 873165953230075, 755433500975414, 
  919558485911109, 755433500975414, 956117214125663, 755433500975414, 981985963638957, 755433500975414, 996564299592547, 
  818026840363258, 3435700407453, 818026840363258, 18014036361043, 818026840363258, 43882785874337, 818026840363258, 
  80441514088891, 818026840363258, 126834046769925, 818026840363258, 181973159636742, 818026840363258, 244566499024586, 
  818026840363258, 313146955642290, 818026840363258, 386107074429177, 818026840363258, 461736739433251, 818026840363258, 
  538263260566749, 818026840363258, 613892925570823, 818026840363258, 686853044357710, 818026840363258, 755433500975414, 
  818026840363258, 818026840363258, 818026840363258, 873165953230075, 818026840363258, 919558485911109, 818026840363258, 
  956117214125663, 818026840363258, 981985963638957, 818026840363258, 996564299592547, 873165953230075, 3435700407453, 
  873165953230075, 18014036361043, 873165953230075, 43882785874337, 873165953230075, 80441514088891, 873165953230075, 
  126834046769925, 873165953230075, 181973159636742, 873165953230075, 244566499024586, 873165953230075, 313146955642290, 
  873165953230075, 386107074429177, 873165953230075, 461736739433251, 873165953230075, 538263260566749, 873165953230075, 
  613892925570823, 873165953230075, 686853044357710, 873165953230075, 755433500975414, 873165953230075, 818026840363258, 
  873165953230075, 873165953230075, 873165953230075, 919558485911109, 873165953230075, 956117214125663, 873165953230075, 
  981985963638957, 873165953230075, 996564299592547, 919558485911109, 3435700407453, 919558485911109, 18014036361043, 
  919558485911109, 43882785874337, 919558485911109, 80441514088891, 919558485911109, 126834046769925, 919558485911109, 
  181973159636742, 919558485911109, 244566499024586, 919558485911109, 313146955642290, 919558485911109, 386107074429177, 
  919558485911109, 461736739433251, 919558485911109, 538263260566749, 919558485911109, 613892925570823, 919558485911109, 
  686853044357710, 919558485911109, 755433500975414, 919558485911109, 818026840363258, 919558485911109, 873165953230075, 
  919558485911109, 919558485911109, 919558485911109, 956117214125663, 919558485911109, 981985963638957, 919558485911109, 
  996564299592547, 956117214125663, 3435700407453, 956117214125663, 18014036361043, 956117214125663, 43882785874337, 
  956117214125663, 80441514088891, 956117214125663, 126834046769925, 956117214125663, 181973159636742, 956117214125663, 
  244566499024586, 956117214125663, 313146955642290, 956117214125663, 386107074429177, 956117214125663, 461736739433251, 
  956117214125663, 538263260566749, 956117214125663, 613892925570823, 956117214125663, 686853044357710, 956117214125663, 
  755433500975414, 956117214125663, 818026840363258, 956117214125663, 873165953230075, 956117214125663, 919558485911109, 
  956117214125663, 956117214125663, 956117214125663, 981985963638957, 956117214125663, 996564299592547, 981985963638957, 
  3435700407453, 981985963638957, 18014036361043, 981985963638957, 43882785874337, 981985963638957, 80441514088891, 
  981985963638957, 126834046769925, 981985963638957, 181973159636742, 981985963638957, 244566499024586, 981985963638957, 
  313146955642290, 981985963638957, 386107074429177, 981985963638957, 461736739433251, 981985963638957, 538263260566749, 
  981985963638957, 613892925570823, 981985963638957, 686853044357710, 981985963638957, 755433500975414, 981985963638957, 
  818026840363258, 981985963638957, 873165953230075, 981985963638957, 919558485911109, 981985963638957, 956117214125663, 
  981985963638957, 981985963638957, 981985963638957, 996564299592547, 996564299592547, 3435700407453, 996564299592547, 
  18014036361043, 996564299592547, 43882785874337, 996564299592547, 80441514088891, 996564299592547, 126834046769925, 
  996564299592547, 181973159636742, 996564299592547, 244566499024586, 996564299592547, 313146955642290, 996564299592547, 
  386107074429177, 996564299592547, 461736739433251, 996564299592547, 538263260566749, 996564299592547, 613892925570823, 
  996564299592547, 686853044357710, 996564299592547, 755433500975414, 996564299592547, 818026840363258, 996564299592547, 
  873165953230075, 996564299592547, 919558485911109, 996564299592547, 956117214125663, 996564299592547, 981985963638957, 
  996564299592547, 996564299592547]

/-- `gpTensor`, in units of 1e-15 (gausstensor.hpp:59-1538). -/
def gpTensor : List Int :=
  gpTensor1 ++ (gpTensor2 ++ (gpTensor3 ++ (gpTensor4 ++ (gpTensor5 ++ (gpTensor6 ++ (gpTensor7 ++ (gpTensor8 ++ (gpTensor9 ++ (gpTensor10 ++ (gpTensor11 ++ (gpTensor12 ++ (gpTensor13 ++ (gpTensor14 ++ (gpTensor15 ++ (gpTensor16 ++ (gpTensor17 ++ (gpTensor18 ++ (gpTensor19 ++ (gpTensor20)))))))))))))))))))

/-- `gwTensor`, in units of 1e-15 (gausstensor.hpp:1541-2305), part 1. -/
def gwTensor1 : List Int := [
  1000000000000000]

/-- `gwTensor`, in units of 1e-15 (gausstensor.hpp:1541-2305), part 2. -/
def gwTensor2 : List Int := [
  250000000000000, 250000000000000, 250000000000000, 250000000000000]

/-- `gwTensor`, in units of 1e-15 (gausstensor.hpp:1541-2305), part 3. -/
def gwTensor3 : List Int := [
  77160493827160, 123456790123457, 77160493827160, 123456790123457, 197530864197531, 123456790123457, 77160493827160, 
  123456790123457, 77160493827160]

/-- `gwTensor`, in units of 1e-15 (gausstensor.hpp:1541-2305), part 4. -/
def gwTensor4 : List Int := [
  30250748321401, 56712962962963, 56712962962963, 30250748321401, 56712962962963, 106323325752674, 106323325752674, 
  56712962962963, 56712962962963, 106323325752674, 106323325752674, 56712962962963, 30250748321401, 56712962962963, 
  56712962962963, 30250748321401]

/-- `gwTensor`, in units of 1e-15 (gausstensor.hpp:1541-2305), part 5. -/
def gwTensor5 : List Int := [
  14033587215607, 28350000000000, 33696268096880, 28350000000000, 14033587215607, 28350000000000, 57271351055998, 
  68071633137688, 57271351055998, 28350000000000, 33696268096880, 68071633137688, 80908641975309, 68071633137688, 
  33696268096880, 28350000000000, 57271351055998, 68071633137688, 57271351055998, 28350000000000, 14033587215607, 
  28350000000000, 33696268096880, 28350000000000, 14033587215607]

/-- `gwTensor`, in units of 1e-15 (gausstensor.hpp:1541-2305), part 6. -/
def gwTensor6 : List Int := [
  7338020422245, 15451823343096, 20041279329452, 20041279329452, 15451823343096, 7338020422245, 15451823343096, 
  32537228147042, 42201341771897, 42201341771897, 32537228147042, 15451823343096, 20041279329452, 42201341771897, 
  54735862541824, 54735862541824, 42201341771897, 20041279329452, 20041279329452, 42201341771897, 54735862541824, 
  54735862541824, 42201341771897, 20041279329452, 15451823343096, 32537228147042, 42201341771897, 42201341771897, 
  32537228147042, 15451823343096, 7338020422245, 15451823343096, 20041279329452, 20041279329452, 15451823343096, 
  7338020422245]

/-- `gwTensor`, in units of 1e-15 (gausstensor.hpp:1541-2305), part 7. -/
def gwTensor7 : List Int := [
  4191589115938, 9054410788560, 12360312792978, 13529857689482, 12360312792978, 9054410788560, 4191589115938, 
  9054410788560, 19558776507042, 26699980939726, 29226359273982, 26699980939726, 19558776507042, 9054410788560, 
  12360312792978, 26699980939726, 36448546867185, 39897344052780, 36448546867185, 26699980939726, 12360312792978, 
  13529857689482, 29226359273982, 39897344052780, 43672469804248, 39897344052780, 29226359273982, 13529857689482, 
  12360312792978, 26699980939726, 36448546867185, 39897344052780, 36448546867185, 26699980939726, 12360312792978, 
  9054410788560, 19558776507042, 26699980939726, 29226359273982, 26699980939726, 19558776507042, 9054410788560, 
  4191589115938, 9054410788560, 12360312792978, 13529857689482, 12360312792978, 9054410788560, 4191589115938]

/-- `gwTensor`, in units of 1e-15 (gausstensor.hpp:1541-2305), part 8. -/
def gwTensor8 : List Int := [
  2561804139873, 5627826654114, 7939016146696, 9178487131912, 9178487131912, 7939016146696, 5627826654114, 2561804139873, 
  5627826654114, 12363331121138, 17440602106306, 20163498731786, 20163498731786, 17440602106306, 12363331121138, 
  5627826654114, 7939016146696, 17440602106306, 24602964916989, 28444078299482, 28444078299482, 24602964916989, 
  17440602106306, 7939016146696, 9178487131912, 20163498731786, 28444078299482, 32884881681411, 32884881681411, 
  28444078299482, 20163498731786, 9178487131912, 9178487131912, 20163498731786, 28444078299482, 32884881681411, 
  32884881681411, 28444078299482, 20163498731786, 9178487131912, 7939016146696, 17440602106306, 24602964916989, 
  28444078299482, 28444078299482, 24602964916989, 17440602106306, 7939016146696, 5627826654114, 12363331121138, 
  17440602106306, 20163498731786, 20163498731786, 17440602106306, 12363331121138, 5627826654114, 2561804139873, 
  5627826654114, 7939016146696, 9178487131912, 9178487131912, 7939016146696, 5627826654114, 2561804139873]

/-- `gwTensor`, in units of 1e-15 (gausstensor.hpp:1541-2305), part 9. -/
def gwTensor9 : List Int := [
  1651381550887, 3670517192279, 5295243737658, 6346454410738, 6710000397662, 6346454410738, 5295243737658, 3670517192279, 
  1651381550887, 3670517192279, 8158439490609, 11769710740649, 14106231241423, 14914283017508, 14106231241423, 
  11769710740649, 8158439490609, 3670517192279, 5295243737658, 11769710740649, 16979483769906, 20350247316704, 
  21515977071634, 20350247316704, 16979483769906, 11769710740649, 5295243737658, 6346454410738, 14106231241423, 
  20350247316704, 24390174133858, 25787324314555, 24390174133858, 20350247316704, 14106231241423, 6346454410738, 
  6710000397662, 14914283017508, 21515977071634, 25787324314555, 27264507897912, 25787324314555, 21515977071634, 
  14914283017508, 6710000397662, 6346454410738, 14106231241423, 20350247316704, 24390174133858, 25787324314555, 
  24390174133858, 20350247316704, 14106231241423, 6346454410738, 5295243737658, 11769710740649, 16979483769906, 
  20350247316704, 21515977071634, 20350247316704, 16979483769906, 11769710740649, 5295243737658, 3670517192279, 
  8158439490609, 11769710740649, 14106231241423, 14914283017508, 14106231241423, 11769710740649, 8158439490609, 
  3670517192279, 1651381550887, 3670517192279, 5295243737658, 6346454410738, 6710000397662, 6346454410738, 5295243737658, 
  3670517192279, 1651381550887]

/-- `gwTensor`, in units of 1e-15 (gausstensor.hpp:1541-2305), part 10. -/
def gwTensor10 : List Int := [
  1111267037982, 2491030589154, 3651695577160, 4488093538497, 4925749334379, 4925749334379, 4488093538497, 3651695577160, 
  2491030589154, 1111267037982, 2491030589154, 5583926440732, 8185688114627, 10060568620557, 11041623522575, 
  11041623522575, 10060568620557, 8185688114627, 5583926440732, 2491030589154, 3651695577160, 8185688114627, 
  11999708560121, 14748166520060, 16186331857028, 16186331857028, 14748166520060, 11999708560121, 8185688114627, 
  3651695577160, 4488093538497, 10060568620557, 14748166520060, 18126141531992, 19893709616393, 19893709616393, 
  18126141531992, 14748166520060, 10060568620557, 4488093538497, 4925749334379, 11041623522575, 16186331857028, 
  19893709616393, 21833641848314, 21833641848314, 19893709616393, 16186331857028, 11041623522575, 4925749334379, 
  4925749334379, 11041623522575, 16186331857028, 19893709616393, 21833641848314, 21833641848314, 19893709616393, 
  16186331857028, 11041623522575, 4925749334379, 4488093538497, 10060568620557, 14748166520060, 18126141531992, 
  19893709616393, 19893709616393, 18126141531992, 14748166520060, 10060568620557, 4488093538497, 3651695577160, 
  8185688114627, 11999708560121, 14748166520060, 16186331857028, 16186331857028, 14748166520060, 11999708560121, 
  8185688114627, 3651695577160, 2491030589154, 5583926440732, 8185688114627, 10060568620557, 11041623522575, 
  11041623522575, 10060568620557, 8185688114627, 5583926440732, 2491030589154, 1111267037982, 2491030589154, 3651695577160, 
  4488093538497, 4925749334379, 4925749334379, 4488093538497, 3651695577160, 2491030589154, 1111267037982]

/-- `gwTensor`, in units of 1e-15 (gausstensor.hpp:1541-2305), part 11. -/
def gwTensor11 : List Int := [
  774747341192, 1747719806508, 2592627277529, 3245390683816, 3657488106126, 3798337127746, 3657488106126, 3245390683816, 
  2592627277529, 1747719806508, 774747341192, 1747719806508, 3942607298735, 5848598379000, 7321139778594, 8250772949163, 
  8568508308452, 8250772949163, 7321139778594, 5848598379000, 3942607298735, 1747719806508, 2592627277529, 5848598379000, 
  8676010671875, 10860428898219, 12239478507395, 12710817995831, 12239478507395, 10860428898219, 8676010671875, 
  5848598379000, 2592627277529, 3245390683816, 7321139778594, 10860428898219, 13594832961146, 15321095271557, 
  15911107109334, 15321095271557, 13594832961146, 10860428898219, 7321139778594, 3245390683816, 3657488106126, 
  8250772949163, 12239478507395, 15321095271557, 17266557153810, 17931488279021, 17266557153810, 15321095271557, 
  12239478507395, 8250772949163, 3657488106126, 3798337127746, 8568508308452, 12710817995831, 15911107109334, 
  17931488279021, 18622025748181, 17931488279021, 15911107109334, 12710817995831, 8568508308452, 3798337127746, 
  3657488106126, 8250772949163, 12239478507395, 15321095271557, 17266557153810, 17931488279021, 17266557153810, 
  15321095271557, 12239478507395, 8250772949163, 3657488106126, 3245390683816, 7321139778594, 10860428898219, 
  13594832961146, 15321095271557, 15911107109334, 15321095271557, 13594832961146, 10860428898219, 7321139778594, 
  3245390683816, 2592627277529, 5848598379000, 8676010671875, 10860428898219, 12239478507395, 12710817995831, 
  12239478507395, 10860428898219, 8676010671875, 5848598379000, 2592627277529, 1747719806508, 3942607298735, 5848598379000, 
  7321139778594, 8250772949163, 8568508308452, 8250772949163, 7321139778594, 5848598379000, 3942607298735, 1747719806508, 
  774747341192, 1747719806508, 2592627277529, 3245390683816, 3657488106126, 3798337127746, 3657488106126, 3245390683816, 
  2592627277529, 1747719806508, 774747341192]

/-- `gwTensor`, in units of 1e-15 (gausstensor.hpp:1541-2305), part 12. -/
def gwTensor12 : List Int := [
  556378090795, 1261224669194, 1887937249306, 2396122924611, 2753772238734, 2938398923988, 2938398923988, 2753772238734, 
  2396122924611, 1887937249306, 1261224669194, 556378090795, 1261224669194, 2859004861083, 4279667140221, 5431646919492, 
  6242383620587, 6660904288252, 6660904288252, 6242383620587, 5431646919492, 4279667140221, 2859004861083, 1261224669194, 
  1887937249306, 4279667140221, 6406267817308, 8130675521070, 9344273744101, 9970760663830, 9970760663830, 9344273744101, 
  8130675521070, 6406267817308, 4279667140221, 1887937249306, 2396122924611, 5431646919492, 8130675521070, 10319250820318, 
  11859519451885, 12654641043391, 12654641043391, 11859519451885, 10319250820318, 8130675521070, 5431646919492, 
  2396122924611, 2753772238734, 6242383620587, 9344273744101, 11859519451885, 13629691154779, 14543493924502, 
  14543493924502, 13629691154779, 11859519451885, 9344273744101, 6242383620587, 2753772238734, 2938398923988, 
  6660904288252, 9970760663830, 12654641043391, 14543493924502, 15518562609386, 15518562609386, 14543493924502, 
  12654641043391, 9970760663830, 6660904288252, 2938398923988, 2938398923988, 6660904288252, 9970760663830, 12654641043391, 
  14543493924502, 15518562609386, 15518562609386, 14543493924502, 12654641043391, 9970760663830, 6660904288252, 
  2938398923988, 2753772238734, 6242383620587, 9344273744101, 11859519451885, 13629691154779, 14543493924502, 
  14543493924502, 13629691154779, 11859519451885, 9344273744101, 6242383620587, 2753772238734, 2396122924611, 
  5431646919492, 8130675521070, 10319250820318, 11859519451885, 12654641043391, 12654641043391, 11859519451885, 
  10319250820318, 8130675521070, 5431646919492, 2396122924611, 1887937249306, 4279667140221, 6406267817308, 8130675521070, 
  9344273744101, 9970760663830, 9970760663830, 9344273744101, 8130675521070, 6406267817308, 4279667140221, 1887937249306, 
  1261224669194, 2859004861083, 4279667140221, 5431646919492, 6242383620587, 6660904288252, 6660904288252, 6242383620587, 
  5431646919492, 4279667140221, 2859004861083, 1261224669194, 556378090795, 1261224669194, 1887937249306, 2396122924611, 
  2753772238734, 2938398923988, 2938398923988, 2753772238734, 2396122924611, 1887937249306, 1261224669194, 556378090795]

/-- `gwTensor`, in units of 1e-15 (gausstensor.hpp:1541-2305), part 13. -/
def gwTensor13 : List Int := [
  409738660460, 932361809605, 1405538962378, 1803015683522, 2103306464698, 2290212337018, 2353654547295, 2290212337018, 
  2103306464698, 1803015683522, 1405538962378, 932361809605, 409738660460, 932361809605, 2121592683088, 3198309012294, 
  4102768734463, 4786081497362, 5211386488467, 5355749468305, 5211386488467, 4786081497362, 4102768734463, 3198309012294, 
  2121592683088, 932361809605, 1405538962378, 3198309012294, 4821462960191, 6184939419990, 7215036000362, 7856184886701, 
  8073812626059, 7856184886701, 7215036000362, 6184939419990, 4821462960191, 3198309012294, 1405538962378, 1803015683522, 
  4102768734463, 6184939419990, 7933997615409, 9255398401633, 10077859769466, 10357031132007, 10077859769466, 
  9255398401633, 7933997615409, 6184939419990, 4102768734463, 1803015683522, 2103306464698, 4786081497362, 7215036000362, 
  9255398401633, 10796877403464, 11756319036578, 12081986160251, 11756319036578, 10796877403464, 9255398401633, 
  7215036000362, 4786081497362, 2103306464698, 2290212337018, 5211386488467, 7856184886701, 10077859769466, 11756319036578, 
  12801019417473, 13155626260040, 12801019417473, 11756319036578, 10077859769466, 7856184886701, 5211386488467, 
  2290212337018, 2353654547295, 5355749468305, 8073812626059, 10357031132007, 12081986160251, 13155626260040, 
  13520056227523, 13155626260040, 12081986160251, 10357031132007, 8073812626059, 5355749468305, 2353654547295, 
  2290212337018, 5211386488467, 7856184886701, 10077859769466, 11756319036578, 12801019417473, 13155626260040, 
  12801019417473, 11756319036578, 10077859769466, 7856184886701, 5211386488467, 2290212337018, 2103306464698, 
  4786081497362, 7215036000362, 9255398401633, 10796877403464, 11756319036578, 12081986160251, 11756319036578, 
  10796877403464, 9255398401633, 7215036000362, 4786081497362, 2103306464698, 1803015683522, 4102768734463, 6184939419990, 
  7933997615409, 9255398401633, 10077859769466, 10357031132007, 10077859769466, 9255398401633, 7933997615409, 
  6184939419990, 4102768734463, 1803015683522, 1405538962378, 3198309012294, 4821462960191, 6184939419990, 7215036000362, 
  7856184886701, 8073812626059, 7856184886701, 7215036000362, 6184939419990, 4821462960191, 3198309012294, 1405538962378, 
  932361809605, 2121592683088, 3198309012294, 4102768734463, 4786081497362, 5211386488467, 5355749468305, 5211386488467, 
  4786081497362, 4102768734463, 3198309012294, 2121592683088, 932361809605, 409738660460, 932361809605, 1405538962378, 
  1803015683522, 2103306464698, 2290212337018, 2353654547295, 2290212337018, 2103306464698, 1803015683522, 1405538962378, 
  932361809605, 409738660460]

/-- `gwTensor`, in units of 1e-15 (gausstensor.hpp:1541-2305), part 14. -/
def gwTensor14 : List Int := [
  308344123498, 703777190569, 1066916655711, 1380222598259, 1629002097561, 1801614826699, 1889987590640, 1889987590640, 
  1801614826699, 1629002097561, 1380222598259, 1066916655711, 703777190569, 308344123498, 703777190569, 1606329734278, 
  2435174045183, 3150276293714, 3718100759130, 4112079085005, 4313784682061, 4313784682061, 4112079085005, 3718100759130, 
  3150276293714, 2435174045183, 1606329734278, 703777190569, 1066916655711, 2435174045183, 3691690755508, 4775776045169, 
  5636590217311, 6233856004691, 6539638948403, 6539638948403, 6233856004691, 5636590217311, 4775776045169, 3691690755508, 
  2435174045183, 1066916655711, 1380222598259, 3150276293714, 4775776045169, 6178208941142, 7291805928247, 8064462098246, 
  8460039884771, 8460039884771, 8064462098246, 7291805928247, 6178208941142, 4775776045169, 3150276293714, 1380222598259, 
  1629002097561, 3718100759130, 5636590217311, 7291805928247, 8606124234670, 9518048530946, 9984927601620, 9984927601620, 
  9518048530946, 8606124234670, 7291805928247, 5636590217311, 3718100759130, 1629002097561, 1801614826699, 4112079085005, 
  6233856004691, 8064462098246, 9518048530946, 10526602378395, 11042953006342, 11042953006342, 10526602378395, 
  9518048530946, 8064462098246, 6233856004691, 4112079085005, 1801614826699, 1889987590640, 4313784682061, 6539638948403, 
  8460039884771, 9984927601620, 11042953006342, 11584631651952, 11584631651952, 11042953006342, 9984927601620, 
  8460039884771, 6539638948403, 4313784682061, 1889987590640, 1889987590640, 4313784682061, 6539638948403, 8460039884771, 
  9984927601620, 11042953006342, 11584631651952, 11584631651952, 11042953006342, 9984927601620, 8460039884771, 
  6539638948403, 4313784682061, 1889987590640, 1801614826699, 4112079085005, 6233856004691, 8064462098246, 9518048530946, 
  10526602378395, 11042953006342, 11042953006342, 10526602378395, 9518048530946, 8064462098246, 6233856004691, 
  4112079085005, 1801614826699, 1629002097561, 3718100759130, 5636590217311, 7291805928247, 8606124234670, 9518048530946, 
  9984927601620, 9984927601620, 9518048530946, 8606124234670, 7291805928247, 5636590217311, 3718100759130, 1629002097561, 
  1380222598259, 3150276293714, 4775776045169, 6178208941142, 7291805928247, 8064462098246, 8460039884771, 8460039884771, 
  8064462098246, 7291805928247, 6178208941142, 4775776045169, 3150276293714, 1380222598259, 1066916655711, 2435174045183, 
  3691690755508, 4775776045169, 5636590217311, 6233856004691, 6539638948403, 6539638948403, 6233856004691, 5636590217311, 
  4775776045169, 3691690755508, 2435174045183, 1066916655711, 703777190569, 1606329734278, 2435174045183, 3150276293714, 
  3718100759130, 4112079085005, 4313784682061, 4313784682061, 4112079085005, 3718100759130, 3150276293714, 2435174045183, 
  1606329734278, 703777190569, 308344123498, 703777190569, 1066916655711, 1380222598259, 1629002097561, 1801614826699, 
  1889987590640, 1889987590640, 1801614826699, 1629002097561, 1380222598259, 1066916655711, 703777190569, 308344123498]

/-- `gwTensor`, in units of 1e-15 (gausstensor.hpp:1541-2305), part 15. -/
def gwTensor15 : List Int := [
  236440473318, 540996021678, 823873359786, 1073062708456, 1278329280748, 1431263570929, 1525602871978, 1557484424271, 
  1525602871978, 1431263570929, 1278329280748, 1073062708456, 823873359786, 540996021678, 236440473318, 540996021678, 
  1237845159775, 1885092699045, 2455259237725, 2924926708082, 3274853441882, 3490709829916, 3563657547848, 3490709829916, 
  3274853441882, 2924926708082, 2455259237725, 1885092699045, 1237845159775, 540996021678, 823873359786, 1885092699045, 
  2870774632783, 3739071261660, 4454319620761, 4987216910764, 5315940820949, 5427031622088, 5315940820949, 4987216910764, 
  4454319620761, 3739071261660, 2870774632783, 1885092699045, 823873359786, 1073062708456, 2455259237725, 3739071261660, 
  4869993534192, 5801576443530, 6495654243896, 6923804232250, 7068495639660, 6923804232250, 6495654243896, 5801576443530, 
  4869993534192, 3739071261660, 2455259237725, 1073062708456, 1278329280748, 2924926708082, 4454319620761, 5801576443530, 
  6911362200753, 7738210406671, 8248261368606, 8420630850191, 8248261368606, 7738210406671, 6911362200753, 5801576443530, 
  4454319620761, 2924926708082, 1278329280748, 1431263570929, 3274853441882, 4987216910764, 6495654243896, 7738210406671, 
  8663979481699, 9235050935767, 9428042024564, 9235050935767, 8663979481699, 7738210406671, 6495654243896, 4987216910764, 
  3274853441882, 1431263570929, 1525602871978, 3490709829916, 5315940820949, 6923804232250, 8248261368606, 9235050935767, 
  9843763592281, 10049475360061, 9843763592281, 9235050935767, 8248261368606, 6923804232250, 5315940820949, 3490709829916, 
  1525602871978, 1557484424271, 3563657547848, 5427031622088, 7068495639660, 8420630850191, 9428042024564, 10049475360061, 
  10259486025413, 10049475360061, 9428042024564, 8420630850191, 7068495639660, 5427031622088, 3563657547848, 1557484424271, 
  1525602871978, 3490709829916, 5315940820949, 6923804232250, 8248261368606, 9235050935767, 9843763592281, 10049475360061, 
  9843763592281, 9235050935767, 8248261368606, 6923804232250, 5315940820949, 3490709829916, 1525602871978, 1431263570929, 
  3274853441882, 4987216910764, 6495654243896, 7738210406671, 8663979481699, 9235050935767, 9428042024564, 9235050935767, 
  8663979481699, 7738210406671, 6495654243896, 4987216910764, 3274853441882, 1431263570929, 1278329280748, 2924926708082, 
  4454319620761, 5801576443530, 6911362200753, 7738210406671, 8248261368606, 8420630850191, 8248261368606, 7738210406671, 
  6911362200753, 5801576443530, 4454319620761, 2924926708082, 1278329280748, 1073062708456, 2455259237725, 3739071261660, 
  4869993534192, 5801576443530, 6495654243896, 6923804232250, 7068495639660, 6923804232250, 6495654243896, 5801576443530, 
  4869993534192, 3739071261660, 2455259237725, 1073062708456, 823873359786, 1885092699045, 2870774632783, 3739071261660, 
  4454319620761, 4987216910764, 5315940820949, 5427031622088, 5315940820949, 4987216910764, 4454319620761, 3739071261660, 
  2870774632783, 1885092699045, 823873359786, 540996021678, 1237845159775, 1885092699045, 2455259237725, 2924926708082, 
  3274853441882, 3490709829916, 3563657547848, 3490709829916, 3274853441882, 2924926708082, 2455259237725, 1885092699045, 
  1237845159775, 540996021678, 236440473318, 540996021678, 823873359786, 1073062708456, 1278329280748, 1431263570929, 
  1525602871978, 1557484424271, 1525602871978, 1431263570929, 1278329280748, 1073062708456, 823873359786, 540996021678, 
  236440473318]

/-- `gwTensor`, in units of 1e-15 (gausstensor.hpp:1541-2305), part 16. -/
def gwTensor16 : List Int := [
  184314013027, 422584070496, 645946906535, 845995770886, 1015474753626, 1148253881777, 1239532953864, 1286012502728, 
  1286012502728, 1239532953864, 1148253881777, 1015474753626, 845995770886, 645946906535, 422584070496, 184314013027, 
  422584070496, 968875310695, 1480988171248, 1939648161376, 2328219367730, 2632647357384, 2841926517444, 2948492028289, 
  2948492028289, 2841926517444, 2632647357384, 2328219367730, 1939648161376, 1480988171248, 968875310695, 422584070496, 
  645946906535, 1480988171248, 2263785586407, 2964876854299, 3558832912364, 4024170656755, 4344067300954, 4506959532061, 
  4506959532061, 4344067300954, 4024170656755, 3558832912364, 2964876854299, 2263785586407, 1480988171248, 645946906535, 
  845995770886, 1939648161376, 2964876854299, 3883095119053, 4660998547541, 5270450748341, 5689418941199, 5902758671187, 
  5902758671187, 5689418941199, 5270450748341, 4660998547541, 3883095119053, 2964876854299, 1939648161376, 845995770886, 
  1015474753626, 2328219367730, 3558832912364, 4660998547541, 5594739967502, 6326284195916, 6829184608732, 7085262850733, 
  7085262850733, 6829184608732, 6326284195916, 5594739967502, 4660998547541, 3558832912364, 2328219367730, 1015474753626, 
  1148253881777, 2632647357384, 4024170656755, 5270450748341, 6326284195916, 7153482013458, 7722139529660, 8011701465459, 
  8011701465459, 7722139529660, 7153482013458, 6326284195916, 5270450748341, 4024170656755, 2632647357384, 1148253881777, 
  1239532953864, 2841926517444, 4344067300954, 5689418941199, 6829184608732, 7722139529660, 8336001796517, 8648582112860, 
  8648582112860, 8336001796517, 7722139529660, 6829184608732, 5689418941199, 4344067300954, 2841926517444, 1239532953864, 
  1286012502728, 2948492028289, 4506959532061, 5902758671187, 7085262850733, 8011701465459, 8648582112860, 8972883450450, 
  8972883450450, 8648582112860, 8011701465459, 7085262850733, 5902758671187, 4506959532061, 2948492028289, 1286012502728, 
  1286012502728, 2948492028289, 4506959532061, 5902758671187, 7085262850733, 8011701465459, 8648582112860, 8972883450450, 
  8972883450450, 8648582112860, 8011701465459, 7085262850733, 5902758671187, 4506959532061, 2948492028289, 1286012502728, 
  1239532953864, 2841926517444, 4344067300954, 5689418941199, 6829184608732, 7722139529660, 8336001796517, 8648582112860, 
  8648582112860, 8336001796517, 7722139529660, 6829184608732, 5689418941199, 4344067300954, 2841926517444, 1239532953864, 
  1148253881777, 2632647357384, 4024170656755, 5270450748341, 6326284195916, 7153482013458, 7722139529660, 8011701465459, 
  8011701465459, 7722139529660, 7153482013458, 6326284195916, 5270450748341, 4024170656755, 2632647357384, 1148253881777, 
  1015474753626, 2328219367730, 3558832912364, 4660998547541, 5594739967502, 6326284195916, 6829184608732, 7085262850733, 
  7085262850733, 6829184608732, 6326284195916, 5594739967502, 4660998547541, 3558832912364, 2328219367730, 1015474753626, 
  845995770886, 1939648161376, 2964876854299, 3883095119053, 4660998547541, 5270450748341, 5689418941199, 5902758671187, 
  5902758671187, 5689418941199, 5270450748341, 4660998547541, 3883095119053, 2964876854299, 1939648161376, 845995770886, 
  645946906535, 1480988171248, 2263785586407, 2964876854299, 3558832912364, 4024170656755, 4344067300954, 4506959532061, 
  4506959532061, 4344067300954, 4024170656755, 3558832912364, 2964876854299, 2263785586407, 1480988171248, 645946906535, 
  422584070496, 968875310695, 1480988171248, 1939648161376, 2328219367730, 2632647357384, 2841926517444, 2948492028289, 
  2948492028289, 2841926517444, 2632647357384, 2328219367730, 1939648161376, 1480988171248, 968875310695, 422584070496, 
  184314013027, 422584070496, 645946906535, 845995770886, 1015474753626, 1148253881777, 1239532953864, 1286012502728, 
  1286012502728, 1239532953864, 1148253881777, 1015474753626, 845995770886, 645946906535, 422584070496, 184314013027]

/-- `gwTensor`, in units of 1e-15 (gausstensor.hpp:1541-2305), part 17. -/
def gwTensor17 : List Int := [
  145785132858, 334813378068, 513369666085, 675451257031, 815828488583, 929985923525, 1014253485508, 1065922421123, 
  1083331928713, 1065922421123, 1014253485508, 929985923525, 815828488583, 675451257031, 513369666085, 334813378068, 
  145785132858, 334813378068, 768939849596, 1179016191362, 1551256377474, 1873649849144, 2135826352844, 2329357109624, 
  2448021136163, 2488004198445, 2448021136163, 2329357109624, 2135826352844, 1873649849144, 1551256377474, 1179016191362, 
  768939849596, 334813378068, 513369666085, 1179016191362, 1807786630155, 2378542856059, 2872869068034, 3274864546640, 
  3571605437218, 3753553100217, 3814859167051, 3753553100217, 3571605437218, 3274864546640, 2872869068034, 2378542856059, 
  1807786630155, 1179016191362, 513369666085, 675451257031, 1551256377474, 2378542856059, 3129498815699, 3779894200001, 
  4308808098277, 4699236323384, 4938628686834, 5019290367182, 4938628686834, 4699236323384, 4308808098277, 3779894200001, 
  3129498815699, 2378542856059, 1551256377474, 675451257031, 815828488583, 1873649849144, 2872869068034, 3779894200001, 
  4565459520715, 5204296182473, 5675866063309, 5965010702568, 6062436084608, 5965010702568, 5675866063309, 5204296182473, 
  4565459520715, 3779894200001, 2872869068034, 1873649849144, 815828488583, 929985923525, 2135826352844, 3274864546640, 
  4308808098277, 5204296182473, 5932524126433, 6470079945179, 6799684081510, 6910742024642, 6799684081510, 6470079945179, 
  5932524126433, 5204296182473, 4308808098277, 3274864546640, 2135826352844, 929985923525, 1014253485508, 2329357109624, 
  3571605437218, 4699236323384, 5675866063309, 6470079945179, 7056344585349, 7415814697374, 7536935784335, 7415814697374, 
  7056344585349, 6470079945179, 5675866063309, 4699236323384, 3571605437218, 2329357109624, 1014253485508, 1065922421123, 
  2448021136163, 3753553100217, 4938628686834, 5965010702568, 6799684081510, 7415814697374, 7793597231628, 7920888568662, 
  7793597231628, 7415814697374, 6799684081510, 5965010702568, 4938628686834, 3753553100217, 2448021136163, 1065922421123, 
  1083331928713, 2488004198445, 3814859167051, 5019290367182, 6062436084608, 6910742024642, 7536935784335, 7920888568662, 
  8050258930825, 7920888568662, 7536935784335, 6910742024642, 6062436084608, 5019290367182, 3814859167051, 2488004198445, 
  1083331928713, 1065922421123, 2448021136163, 3753553100217, 4938628686834, 5965010702568, 6799684081510, 7415814697374, 
  7793597231628, 7920888568662, 7793597231628, 7415814697374, 6799684081510, 5965010702568, 4938628686834, 3753553100217, 
  2448021136163, 1065922421123, 1014253485508, 2329357109624, 3571605437218, 4699236323384, 5675866063309, 6470079945179, 
  7056344585349, 7415814697374, 7536935784335, 7415814697374, 7056344585349, 6470079945179, 5675866063309, 4699236323384, 
  3571605437218, 2329357109624, 1014253485508, 929985923525, 2135826352844, 3274864546640, 4308808098277, 5204296182473, 
  5932524126433, 6470079945179, 6799684081510, 6910742024642, 6799684081510, 6470079945179, 5932524126433, 5204296182473, 
  4308808098277, 3274864546640, 2135826352844, 929985923525, 815828488583, 1873649849144, 2872869068034, 3779894200001, 
  4565459520715, 5204296182473, 5675866063309, 5965010702568, 6062436084608, 5965010702568, 5675866063309, 5204296182473, 
  4565459520715, 3779894200001, 2872869068034, 1873649849144, 815828488583, 675451257031, 1551256377474, 2378542856059, 
  3129498815699, 3779894200001, 4308808098277, 4699236323384, 4938628686834, 5019290367182, 4938628686834, 4699236323384, 
  4308808098277, 3779894200001, 3129498815699, 2378542856059, 1551256377474, 675451257031, 513369666085, 1179016191362, 
  1807786630155, 2378542856059, 2872869068034, 3274864546640, 3571605437218, 3753553100217, 3814859167051, 3753553100217, 
  3571605437218, 3274864546640, 2872869068034, 2378542856059, 1807786630155, 1179016191362, 513369666085, 334813378068, 
  768939849596, 1179016191362, 1551256377474, 1873649849144, 2135826352844, 2329357109624, 2448021136163, 2488004198445, 
  2448021136163, 2329357109624, 2135826352844, 1873649849144, 1551256377474, 1179016191362, 768939849596, 334813378068, 
  145785132858, 334813378068, 513369666085, 675451257031, 815828488583, 929985923525, 1014253485508, 1065922421123, 
  1083331928713, 1065922421123, 1014253485508, 929985923525, 815828488583, 675451257031, 513369666085, 334813378068, 
  145785132858]

/-- `gwTensor`, in units of 1e-15 (gausstensor.hpp:1541-2305), part 18. -/
def gwTensor18 : List Int := [
  116813010194, 268657590344, 413004904740, 545491147698, 662288751504, 760034786481, 835916507467, 887750673683, 
  914046009508, 914046009508, 887750673683, 835916507467, 760034786481, 662288751504, 545491147698, 413004904740, 
  268657590344, 116813010194, 268657590344, 617884092958, 949867675898, 1254572046820, 1523194204098, 1747999764531, 
  1922519711217, 2041732820869, 2102209317008, 2102209317008, 2041732820869, 1922519711217, 1747999764531, 1523194204098, 
  1254572046820, 949867675898, 617884092958, 268657590344, 413004904740, 949867675898, 1460223061248, 1928642358561, 
  2341592792366, 2687184364720, 2955472313941, 3138737558495, 3231707533753, 3231707533753, 3138737558495, 2955472313941, 
  2687184364720, 2341592792366, 1928642358561, 1460223061248, 949867675898, 413004904740, 545491147698, 1254572046820, 
  1928642358561, 2547324067089, 3092743270331, 3549195823980, 3903546824791, 4145601016974, 4268394470327, 4268394470327, 
  4145601016974, 3903546824791, 3549195823980, 3092743270331, 2547324067089, 1928642358561, 1254572046820, 545491147698, 
  662288751504, 1523194204098, 2341592792366, 3092743270331, 3754944673023, 4309130369992, 4739353083799, 5033234605826, 
  5182319926930, 5182319926930, 5033234605826, 4739353083799, 4309130369992, 3754944673023, 3092743270331, 2341592792366, 
  1523194204098, 662288751504, 760034786481, 1747999764531, 2687184364720, 3549195823980, 4309130369992, 4945107361764, 
  5438825891160, 5776080871465, 5947169433569, 5947169433569, 5776080871465, 5438825891160, 4945107361764, 4309130369992, 
  3549195823980, 2687184364720, 1747999764531, 760034786481, 835916507467, 1922519711217, 2955472313941, 3903546824791, 
  4739353083799, 5438825891160, 5981837179730, 6352763629777, 6540933639684, 6540933639684, 6352763629777, 5981837179730, 
  5438825891160, 4739353083799, 3903546824791, 2955472313941, 1922519711217, 835916507467, 887750673683, 2041732820869, 
  3138737558495, 4145601016974, 5033234605826, 5776080871465, 6352763629777, 6746690777974, 6946528981394, 6946528981394, 
  6746690777974, 6352763629777, 5776080871465, 5033234605826, 4145601016974, 3138737558495, 2041732820869, 887750673683, 
  914046009508, 2102209317008, 3231707533753, 4268394470327, 5182319926930, 5947169433569, 6540933639684, 6946528981394, 
  7152286428613, 7152286428613, 6946528981394, 6540933639684, 5947169433569, 5182319926930, 4268394470327, 3231707533753, 
  2102209317008, 914046009508, 914046009508, 2102209317008, 3231707533753, 4268394470327, 5182319926930, 5947169433569, 
  6540933639684, 6946528981394, 7152286428613, 7152286428613, 6946528981394, 6540933639684, 5947169433569, 5182319926930, 
  4268394470327, 3231707533753, 2102209317008, 914046009508, 887750673683, 2041732820869, 3138737558495, 4145601016974, 
  5033234605826, 5776080871465, 6352763629777, 6746690777974, 6946528981394, 6946528981394, 6746690777974, 6352763629777, 
  5776080871465, 5033234605826, 4145601016974, 3138737558495, 2041732820869, 887750673683, 835916507467, 1922519711217, 
  2955472313941, 3903546824791, 4739353083799, 5438825891160, 5981837179730, 6352763629777, 6540933639684, 6540933639684, 
  6352763629777, 5981837179730, 5438825891160, 4739353083799, 3903546824791, 2955472313941, 1922519711217, 835916507467, 
  760034786481, 1747999764531, 2687184364720, 3549195823980, 4309130369992, 4945107361764, 5438825891160, 5776080871465, 
  5947169433569, 5947169433569, 5776080871465, 5438825891160, 4945107361764, 4309130369992, 3549195823980, 2687184364720, 
  1747999764531, 760034786481, 662288751504, 1523194204098, 2341592792366, 3092743270331, 3754944673023, 4309130369992, 
  4739353083799, 5033234605826, 5182319926930, 5182319926930, 5033234605826, 4739353083799, 4309130369992, 3754944673023, 
  3092743270331, 2341592792366, 1523194204098, 662288751504, 545491147698, 1254572046820, 1928642358561, 2547324067089, 
  3092743270331, 3549195823980, 3903546824791, 4145601016974, 4268394470327, 4268394470327, 4145601016974, 3903546824791, 
  3549195823980, 3092743270331, 2547324067089, 1928642358561, 1254572046820, 545491147698, 413004904740, 949867675898, 
  1460223061248, 1928642358561, 2341592792366, 2687184364720, 2955472313941, 3138737558495, 3231707533753, 3231707533753, 
  3138737558495, 2955472313941, 2687184364720, 2341592792366, 1928642358561, 1460223061248, 949867675898, 413004904740, 
  268657590344, 617884092958, 949867675898, 1254572046820, 1523194204098, 1747999764531, 1922519711217, 2041732820869, 
  2102209317008, 2102209317008, 2041732820869, 1922519711217, 1747999764531, 1523194204098, 1254572046820, 949867675898, 
  617884092958, 268657590344, 116813010194, 268657590344, 413004904740, 545491147698, 662288751504, 760034786481, 
  835916507467, 887750673683, 914046009508, 914046009508, 887750673683, 835916507467, 760034786481, 662288751504, 
  545491147698, 413004904740, 268657590344, 116813010194]

/-- `gwTensor`, in units of 1e-15 (gausstensor.hpp:1541-2305), part 19. -/
def gwTensor19 : List Int := [
  94690300275, 218041247748, 335932567295, 445139856487, 542821607286, 626445588170, 693845359461, 743275089845, 
  773454491314, 783601899103, 773454491314, 743275089845, 693845359461, 626445588170, 542821607286, 445139856487, 
  335932567295, 218041247748, 94690300275, 218041247748, 502078730152, 773544448795, 1025013643947, 1249943238262, 
  1442502318555, 1597702272379, 1711523012809, 1781016449134, 1804382659287, 1781016449134, 1711523012809, 1597702272379, 
  1442502318555, 1249943238262, 1025013643947, 773544448795, 502078730152, 218041247748, 335932567295, 773544448795, 
  1191787220462, 1579221676995, 1925767006647, 2222439617297, 2461553635725, 2636915380069, 2743982775417, 2779982711418, 
  2743982775417, 2636915380069, 2461553635725, 2222439617297, 1925767006647, 1579221676995, 1191787220462, 773544448795, 
  335932567295, 445139856487, 1025013643947, 1579221676995, 2092606014119, 2551808703367, 2944925704175, 3261772566342, 
  3494142122945, 3636015729852, 3683718774764, 3636015729852, 3494142122945, 3261772566342, 2944925704175, 2551808703367, 
  2092606014119, 1579221676995, 1025013643947, 445139856487, 542821607286, 1249943238262, 1925767006647, 2551808703367, 
  3111779099671, 3591161925360, 3977537848519, 4260898716708, 4433905151001, 4492076180025, 4433905151001, 4260898716708, 
  3977537848519, 3591161925360, 3111779099671, 2551808703367, 1925767006647, 1249943238262, 542821607286, 626445588170, 
  1442502318555, 2222439617297, 2944925704175, 3591161925360, 4144395717395, 4590294497380, 4917308314358, 5116967126817, 
  5184099650656, 5116967126817, 4917308314358, 4590294497380, 4144395717395, 3591161925360, 2944925704175, 2222439617297, 
  1442502318555, 626445588170, 693845359461, 1597702272379, 2461553635725, 3261772566342, 3977537848519, 4590294497380, 
  5084167876208, 5446365365782, 5667505626191, 5741860990830, 5667505626191, 5446365365782, 5084167876208, 4590294497380, 
  3977537848519, 3261772566342, 2461553635725, 1597702272379, 693845359461, 743275089845, 1711523012809, 2636915380069, 
  3494142122945, 4260898716708, 4917308314358, 5446365365782, 5834365902117, 6071260254270, 6150912715123, 6071260254270, 
  5834365902117, 5446365365782, 4917308314358, 4260898716708, 3494142122945, 2636915380069, 1711523012809, 743275089845, 
  773454491314, 1781016449134, 2743982775417, 3636015729852, 4433905151001, 5116967126817, 5667505626191, 6071260254270, 
  6317773292503, 6400659903978, 6317773292503, 6071260254270, 5667505626191, 5116967126817, 4433905151001, 3636015729852, 
  2743982775417, 1781016449134, 773454491314, 783601899103, 1804382659287, 2779982711418, 3683718774764, 4492076180025, 
  5184099650656, 5741860990830, 6150912715123, 6400659903978, 6484633954024, 6400659903978, 6150912715123, 5741860990830, 
  5184099650656, 4492076180025, 3683718774764, 2779982711418, 1804382659287, 783601899103, 773454491314, 1781016449134, 
  2743982775417, 3636015729852, 4433905151001, 5116967126817, 5667505626191, 6071260254270, 6317773292503, 6400659903978, 
  6317773292503, 6071260254270, 5667505626191, 5116967126817, 4433905151001, 3636015729852, 2743982775417, 1781016449134, 
  773454491314, 743275089845, 1711523012809, 2636915380069, 3494142122945, 4260898716708, 4917308314358, 5446365365782, 
  5834365902117, 6071260254270, 6150912715123, 6071260254270, 5834365902117, 5446365365782, 4917308314358, 4260898716708, 
  3494142122945, 2636915380069, 1711523012809, 743275089845, 693845359461, 1597702272379, 2461553635725, 3261772566342, 
  3977537848519, 4590294497380, 5084167876208, 5446365365782, 5667505626191, 5741860990830, 5667505626191, 5446365365782, 
  5084167876208, 4590294497380, 3977537848519, 3261772566342, 2461553635725, 1597702272379, 693845359461, 626445588170, 
  1442502318555, 2222439617297, 2944925704175, 3591161925360, 4144395717395, 4590294497380, 4917308314358, 5116967126817, 
  5184099650656, 5116967126817, 4917308314358, 4590294497380, 4144395717395, 3591161925360, 2944925704175, 2222439617297, 
  1442502318555, 626445588170, 542821607286, 1249943238262, 1925767006647, 2551808703367, 3111779099671, 3591161925360, 
  3977537848519, 4260898716708, 4433905151001, 4492076180025, 4433905151001, 4260898716708, 3977537848519, 3591161925360, 
  3111779099671, 2551808703367, 1925767006647, 1249943238262, 542821607286, 445139856487, 1025013643947, 1579221676995, 
  2092606014119, 2551808703367, 2944925704175, 3261772566342, 3494142122945, 3636015729852, 3683718774764, 3636015729852, 
  3494142122945, 3261772566342, 2944925704175, 2551808703367, 2092606014119, 1579221676995, 1025013643947, 445139856487, 
  335932567295, 773544448795, 1191787220462, 1579221676995, 1925767006647, 2222439617297, 2461553635725, 2636915380069, 
  2743982775417, 2779982711418, 2743982775417, 2636915380069, 2461553635725, 2222439617297, 1925767006647, 1579221676995, 
  1191787220462, 773544448795, 335932567295, 218041247748, 502078730152, 773544448795, 1025013643947, 1249943238262, 
  1442502318555, 1597702272379, 1711523012809, 1781016449134, 1804382659287, 1781016449134, 1711523012809, 1597702272379, 
  1442502318555, 1249943238262, 1025013643947, 773544448795, 502078730152, 218041247748, 94690300275, 218041247748, 
  335932567295, 445139856487, 542821607286, 626445588170, 693845359461, 743275089845, 773454491314, 783601899103, 
  773454491314, 743275089845, 693845359461, 626445588170, 542821607286, 445139856487, 335932567295, 218041247748, 
  94690300275]

/-- `gwTensor`, in units of 1e-15 (gausstensor.hpp:1541-2305), part 20. -/
def gwTensor20 : List Int := [
  77563311875, 178788468591, 275976476696, 366709280164, 448849464539, 520469832445, 579891154447, 625720470995, 
  656883512174, 672649812863, 672649812863, 656883512174, 625720470995, 579891154447, 520469832445, 448849464539, 
  366709280164, 275976476696, 178788468591, 77563311875, 178788468591, 412119025459, 636143692721, 845288694283, 
  1034627151076, 1199716748056, 1336686752376, 1442326301850, 1514159134595, 1550501481090, 1550501481090, 1514159134595, 
  1442326301850, 1336686752376, 1199716748056, 1034627151076, 845288694283, 636143692721, 412119025459, 178788468591, 
  275976476696, 636143692721, 981946410598, 1304780993301, 1597042348972, 1851873354980, 2063299178485, 2226363557823, 
  2337244154589, 2393341915364, 2393341915364, 2337244154589, 2226363557823, 2063299178485, 1851873354980, 1597042348972, 
  1304780993301, 981946410598, 636143692721, 275976476696, 366709280164, 845288694283, 1304780993301, 1733753921908, 
  2122102061726, 2460713873485, 2741650178180, 2958325243691, 3105660061176, 3180201086263, 3180201086263, 3105660061176, 
  2958325243691, 2741650178180, 2460713873485, 2122102061726, 1733753921908, 1304780993301, 845288694283, 366709280164, 
  448849464539, 1034627151076, 1597042348972, 2122102061726, 2597437331489, 3011895701145, 3355759673923, 3620968362097, 
  3801305096162, 3892542763181, 3892542763181, 3801305096162, 3620968362097, 3355759673923, 3011895701145, 2597437331489, 
  2122102061726, 1597042348972, 1034627151076, 448849464539, 520469832445, 1199716748056, 1851873354980, 2460713873485, 
  3011895701145, 3492486846401, 3891219246538, 4198745783610, 4407857829358, 4513653774363, 4513653774363, 4407857829358, 
  4198745783610, 3891219246538, 3492486846401, 3011895701145, 2460713873485, 1851873354980, 1199716748056, 520469832445, 
  579891154447, 1336686752376, 2063299178485, 2741650178180, 3355759673923, 3891219246538, 4335474374149, 4678110791266, 
  4911096870494, 5028971392436, 5028971392436, 4911096870494, 4678110791266, 4335474374149, 3891219246538, 3355759673923, 
  2741650178180, 2063299178485, 1336686752376, 579891154447, 625720470995, 1442326301850, 2226363557823, 2958325243691, 
  3620968362097, 4198745783610, 4678110791266, 5047826070855, 5299225248290, 5426415499120, 5426415499120, 5299225248290, 
  5047826070855, 4678110791266, 4198745783610, 3620968362097, 2958325243691, 2226363557823, 1442326301850, 625720470995, 
  656883512174, 1514159134595, 2337244154589, 3105660061176, 3801305096162, 4407857829358, 4911096870494, 5299225248290, 
  5563144973289, 5696669738024, 5696669738024, 5563144973289, 5299225248290, 4911096870494, 4407857829358, 3801305096162, 
  3105660061176, 2337244154589, 1514159134595, 656883512174, 672649812863, 1550501481090, 2393341915364, 3180201086263, 
  3892542763181, 4513653774363, 5028971392436, 5426415499120, 5696669738024, 5833399319977, 5833399319977, 5696669738024, 
  5426415499120, 5028971392436, 4513653774363, 3892542763181, 3180201086263, 2393341915364, 1550501481090, 672649812863, 
  672649812863, 1550501481090, 2393341915364, 3180201086263, 3892542763181, 4513653774363, 5028971392436, 5426415499120, 
  5696669738024, 5833399319977, 5833399319977, 5696669738024, 5426415499120, 5028971392436, 4513653774363, 3892542763181, 
  3180201086263, 2393341915364, 1550501481090, 672649812863, 656883512174, 1514159134595, 2337244154589, 3105660061176, 
  3801305096162, 4407857829358, 4911096870494, 5299225248290, 5563144973289, 5696669738024, 5696669738024, 5563144973289, 
  5299225248290, 4911096870494, 4407857829358, 3801305096162, 3105660061176, 2337244154589, 1514159134595, 656883512174, 
  625720470995, 1442326301850, 2226363557823, 2958325243691, 3620968362097, 4198745783610, 4678110791266, 5047826070855, 
  5299225248290, 5426415499120, 5426415499120, 5299225248290, 5047826070855, 4678110791266, 4198745783610, 3620968362097, 
  2958325243691, 2226363557823, 1442326301850, 625720470995, 579891154447, 1336686752376, 2063299178485, 2741650178180, 
  3355759673923, 3891219246538, 4335474374149, 4678110791266, 4911096870494, 5028971392436, 5028971392436, 4911096870494, 
  4678110791266, 4335474374149, 3891219246538, 3355759673923, 2741650178180, 2063299178485, 1336686752376, 579891154447, 
  520469832445, 1199716748056, 1851873354980, 2460713873485, 3011895701145, 3492486846401, 3891219246538, 4198745783610, 
  4407857829358, 4513653774363, 4513653774363, 4407857829358, 4198745783610, 3891219246538, 3492486846401, 3011895701145, 
  2460713873485, 1851873354980, 1199716748056, 520469832445, 448849464539, 1034627151076, 1597042348972, 2122102061726, 
  2597437331489, 3011895701145, 3355759673923, 3620968362097, 3801305096162, 3892542763181, 3892542763181, 3801305096162, 
  3620968362097, 3355759673923, 3011895701145, 2597437331489, 2122102061726, 1597042348972, 1034627151076, 448849464539, 
  366709280164, 845288694283, 1304780993301, 1733753921908, 2122102061726, 2460713873485, 2741650178180, 2958325243691, 
  3105660061176, 3180201086263, 3180201086263, 3105660061176, 2958325243691, 2741650178180, 2460713873485, 2122102061726, 
  1733753921908, 1304780993301, 845288694283, 366709280164, 275976476696, 636143692721, 981946410598, 1304780993301, 
  1597042348972, 1851873354980, 2063299178485, 2226363557823, 2337244154589, 2393341915364, 2393341915364, 2337244154589, 
  2226363557823, 2063299178485, 1851873354980, 1597042348972, 1304780993301, 981946410598, 636143692721, 275976476696, 
  178788468591, 412119025459, 636143692721, 845288694283, 1034627151076, 1199716748056, 1336686752376, 1442326301850, 
  1514159134595, 1550501481090, 1550501481090, 1514159134595, 1442326301850, 1336686752376, 1199716748056, 1034627151076, 
  845288694283, 636143692721, 412119025459, 178788468591, 77563311875, 178788468591, 275976476696, 366709280164, 
  448849464539, 520469832445, 579891154447, 625720470995, 656883512174, 672649812863, 672649812863, 656883512174, 
  625720470995, 579891154447, 520469832445, 448849464539, 366709280164, 275976476696, 178788468591, 77563311875]

/-- `gwTensor`, in units of 1e-15 (gausstensor.hpp:1541-2305). -/
def gwTensor : List Int :=
  gwTensor1 ++ (gwTensor2 ++ (gwTensor3 ++ (gwTensor4 ++ (gwTensor5 ++ (gwTensor6 ++ (gwTensor7 ++ (gwTensor8 ++ (gwTensor9 ++ (gwTensor10 ++ (gwTensor11 ++ (gwTensor12 ++ (gwTensor13 ++ (gwTensor14 ++ (gwTensor15 ++ (gwTensor16 ++ (gwTensor17 ++ (gwTensor18 ++ (gwTensor19 ++ (gwTensor20)))))))))))))))))))

end Verif.SingleQuad
