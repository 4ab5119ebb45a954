import Verif.PhysProps

/-!
# The fitted models shipped with the code, generated by `tools/mkfluids.py`

The numbers are the decimals written in the files under `/repo/auxi/tools/materialphysicalproperties/data/` that `gases.py:84-404` and `liquids.py:41-53` load.
Only the models that these modules use are listed.
-/
namespace Auxi.Phys

/-- A file with a fitted model (`polynomial.py:72-77`): `_coeffs` and the limits in `state_schema`. -/
structure DataPoly where
  /-- `_coeffs`, from highest to lowest power -/
  coeffs : List ℚ
  /-- `state_schema['T']['min']` -/
  tmin : ℚ
  /-- `state_schema['T']['max']` -/
  tmax : ℚ

/-- The object read from the file (`polynomial.py:72-77`, `/repo/auxi/core/objects.py:44-51`). -/
noncomputable def DataPoly.poly (d : DataPoly) : Poly := ⟨d.coeffs.map (fun q : ℚ => (q : ℝ)), (d.tmin : ℝ), some (d.tmax : ℝ)⟩

/-- The models of a gas (`gases.py:107-118`). -/
structure DataGas where
  /-- heat capacity -/
  Cp : DataPoly
  /-- viscosity -/
  mu : DataPoly
  /-- conductivity -/
  k : DataPoly
  /-- density, if it is not that of an ideal gas -/
  rho : Option DataPoly

/-- The models of a liquid (`liquids.py:41-53`). -/
structure DataLiquid where
  /-- expansion coefficient -/
  beta : DataPoly
  /-- heat capacity -/
  Cp : DataPoly
  /-- conductivity -/
  k : DataPoly
  /-- viscosity -/
  mu : DataPoly
  /-- kinematic viscosity -/
  nu : DataPoly
  /-- density -/
  rho : DataPoly

/-- `air-*-polynomialmodelt-dataset-air-lienhard2018.json` (`gases.py:92-118`). -/
def dataAir : DataGas :=
  ⟨⟨[(-(13012109843801189 / 100000000000000000000000000000000000000000000000000)), 1357064561574007 / 1000000000000000000000000000000000000000000000, (-(12718518109737139 / 2000000000000000000000000000000000000000000)), 17696366708542497 / 1000000000000000000000000000000000000000, (-(16283165805702993 / 500000000000000000000000000000000000)), 1044373407191013 / 25000000000000000000000000000000, (-(19180066035846667 / 500000000000000000000000000000)), 3185902894472763 / 125000000000000000000000000, (-(611627907450297 / 50000000000000000000000)), 4180380314008743 / 1000000000000000000000, (-(246570052590327 / 250000000000000000)), 15207679644226813 / 100000000000000000, (-(13789942147727643 / 1000000000000000)), 3914382822399519 / 2500000000000], 100, 1500⟩,
   ⟨[(-(203204454726267 / 4000000000000000000000000000000000000000000)), 3352618357793687 / 10000000000000000000000000000000000000000, (-(9221667676313281 / 10000000000000000000000000000000000000)), 13735217463942501 / 10000000000000000000000000000000000, (-(3027912678239127 / 2500000000000000000000000000000)), 6617046847097609 / 10000000000000000000000000000, (-(2452940306436969 / 10000000000000000000000000)), 2593684633860551 / 25000000000000000000000, (-(1372444169890097 / 1000000000000000000000))], 100, 1500⟩,
   ⟨[(-(5698050879902593 / 125000000000000000000000000000000000000000)), 382149617738499 / 1250000000000000000000000000000000000, (-(8551724401167753 / 10000000000000000000000000000000000)), 6484544999813231 / 5000000000000000000000000000000, (-(11687496602755807 / 10000000000000000000000000000)), 6610324137591409 / 10000000000000000000000000, (-(5205553964009797 / 20000000000000000000000)), 271819148908901 / 2000000000000000000, (-(2152960486212657 / 1000000000000000000))], 100, 1500⟩, none⟩

/-- `argon-*-polynomialmodelt-dataset-argon-lienhard2018.json` (`gases.py:131-156`). -/
def dataAr : DataGas :=
  ⟨⟨[(-(14270971546994227 / 1000000000000000000000000000000000)), 1245499369373431 / 25000000000000000000000000000, (-(7320399036976879 / 100000000000000000000000000)), 29355291824877547 / 500000000000000000000000, (-(695153849471621 / 25000000000000000000)), 7812073005282607 / 1000000000000000000, (-(3045381853163957 / 2500000000000000)), 3018945221447393 / 5000000000000], 150, 700⟩,
   ⟨[419580419580421 / 12500000000000000000000000000, (-(14973026973027 / 200000000000000000000000)), 2007532467532469 / 20000000000000000000000, (-(1458941058941051 / 1000000000000000000000))], 150, 700⟩,
   ⟨[13742553742553893 / 500000000000000000000000000, (-(6004950604950647 / 100000000000000000000000)), 3951799681799691 / 50000000000000000000, (-(371238483738487 / 312500000000000000))], 150, 700⟩, none⟩

/-- `ammonia-*-polynomialmodelt-dataset-ammonia-lienhard2018.json` (`gases.py:169-193`). -/
def dataNH3 : DataGas :=
  ⟨⟨[(-(375541645553849 / 125000000000000000000000)), 5769748018328997 / 1000000000000000000000, (-(4427677857117183 / 1000000000000000000)), 425505358486517 / 250000000000000, (-(204406678262097 / 625000000000)), 1360477345237889 / 50000000000], 240, 473⟩,
   ⟨[5739822797796963 / 500000000000000000000000000, 591389910387317 / 20000000000000000000000, 705097977163309 / 2500000000000000000000], 240, 473⟩,
   ⟨[(-(262087376919513 / 500000000000000000000000)), 2058624722771253 / 2500000000000000000000, (-(2612454336815151 / 10000000000000000000)), 21758034198389467 / 500000000000000000], 240, 473⟩,
   some ⟨[(-(5879297995312473 / 10000000000000000000000000000000)), 8983369034585009 / 10000000000000000000000000000, (-(39507792627120233 / 100000000000000000000000000)), (-(5915904487827819 / 100000000000000000000000)), 418897413517049 / 4000000000000000000, (-(3442709169576243 / 100000000000000000)), 4644810865013409 / 1000000000000000], 240, 473⟩⟩

/-- `carbon-dioxide-*-polynomialmodelt-dataset-carbon-dioxide-lienhard2018.json` (`gases.py:206-230`). -/
def dataCO2 : DataGas :=
  ⟨⟨[(-(269375675234451 / 2500000000000000000000000)), 5836188557112053 / 25000000000000000000000, (-(4936838764012763 / 25000000000000000000)), 4033485524907529 / 50000000000000000, (-(14938655491431351 / 1000000000000000)), 4440610816720009 / 2500000000000], 220, 600⟩,
   ⟨[(-(8404516355093217 / 500000000000000000000000000)), 5837612541969651 / 100000000000000000000000, (-(194533691896429 / 200000000000000000000))], 220, 600⟩,
   ⟨[(-(5890816236559711 / 50000000000000000000000000)), 3799160149195793 / 25000000000000000000000, 4964210754827057 / 250000000000000000000, 1892357830996239 / 5000000000000000000], 220, 600⟩,
   some ⟨[1908207238143249 / 2000000000000000000000000000000, (-(6339290602114489 / 2500000000000000000000000000)), 563216624019051 / 200000000000000000000000, (-(16900864031409751 / 10000000000000000000000)), 5900166958030721 / 10000000000000000000, (-(744565551229423 / 6250000000000000)), 2544601259022411 / 200000000000000], 220, 600⟩⟩

/-- `carbon-monoxide-*-polynomialmodelt-dataset-carbon-monoxide-lienhard2018.json` (`gases.py:243-268`). -/
def dataCO : DataGas :=
  ⟨⟨[(-(1442700472355099 / 5000000000000000000000000000)), 233044500478097 / 250000000000000000000000, (-(1202354235124177 / 1000000000000000000000)), 505383154394911 / 625000000000000000, (-(1364823365078943 / 5000000000000000)), 5375274087697343 / 5000000000000], 250, 1000⟩,
   ⟨[710505136084601 / 50000000000000000000000000000, (-(3937137966456053 / 100000000000000000000000000)), 6388404467229647 / 100000000000000000000000, 8503871234153549 / 5000000000000000000000], 250, 1000⟩,
   ⟨[19986169576063027 / 1000000000000000000000000000, (-(2197214891833787 / 40000000000000000000000)), 1876876694551267 / 20000000000000000000, 2781658988850359 / 1000000000000000000], 250, 1000⟩, none⟩

/-- `nitrogen-*-polynomialmodelt-dataset-nitrogen-lienhard2018.json` (`gases.py:281-306`). -/
def dataN2 : DataGas :=
  ⟨⟨[(-(32943493366811207 / 1000000000000000000000000000000)), 30904068342385863 / 100000000000000000000000000, (-(2478030204475059 / 2500000000000000000000)), 269359499631557 / 200000000000000000, (-(5840779878861221 / 10000000000000000)), 1116816136431907 / 1000000000000], 100, 1600⟩,
   ⟨[(-(320734256764931 / 40000000000000000000000000000000)), 4390894069997713 / 125000000000000000000000000000, (-(241518536062631 / 4000000000000000000000000)), 1493672331531003 / 20000000000000000000000, 1751736041855119 / 500000000000000000000000], 100, 1600⟩,
   ⟨[(-(5353887665966631 / 500000000000000000000000000000)), 203467958710147 / 5000000000000000000000000, (-(6064690644916883 / 100000000000000000000000)), 4877264020005671 / 50000000000000000000, 386064892723093 / 400000000000000000], 100, 1600⟩, none⟩

/-- `oxygen-*-polynomialmodelt-dataset-oxygen-lienhard2018.json` (`gases.py:319-344`). -/
def dataO2 : DataGas :=
  ⟨⟨[2277644164610979 / 100000000000000000000000000000, 8532593250795851 / 10000000000000000000000000, (-(331353197517067 / 125000000000000000000)), 6809449824328851 / 2500000000000000000, (-(2140554056568091 / 2500000000000000)), 996287575475637 / 1000000000000], 100, 1000⟩,
   ⟨[(-(3199729370217693 / 125000000000000000000000000000000)), 991163346550151 / 12500000000000000000000000000, (-(5042038964366949 / 50000000000000000000000000)), 4880319832502867 / 50000000000000000000000, (-(6964558047174189 / 5000000000000000000000))], 100, 1000⟩,
   ⟨[(-(4352166757263019 / 100000000000000000000000000000)), 86668496540077 / 800000000000000000000000, (-(10804746711727473 / 100000000000000000000000)), 89604082681899 / 781250000000000000, (-(2662458650180551 / 2500000000000000000))], 100, 1000⟩, none⟩

/-- `water-vapour-*-polynomialmodelt-dataset-water-vapour-lienhard2018.json` (`gases.py:357-382`). -/
def dataH2O : DataGas :=
  ⟨⟨[341430860649631 / 156250000000000000000000000000000, (-(101192767412513 / 8000000000000000000000000000)), 790975674385397 / 25000000000000000000000000, (-(2233384086402287 / 50000000000000000000000)), 155760081722991 / 4000000000000000000, (-(2147525017638811 / 100000000000000000)), 14645519678858129 / 2000000000000000, (-(2825559411974421 / 2000000000000)), 12012803865512747 / 100000000000], 7463 / 20, 21463 / 20⟩,
   ⟨[1521013277645147 / 100000000000000000000000000000000, (-(53606600503434437 / 1000000000000000000000000000000)), 3257307218565531 / 50000000000000000000000000, 8194280198117093 / 1000000000000000000000000, 26407099651034833 / 10000000000000000000000], 7463 / 20, 21463 / 20⟩,
   ⟨[3092751920049371 / 50000000000000000000000000000, (-(441773932220813 / 2000000000000000000000000)), 642711610358521 / 2000000000000000000000, (-(139247753559413 / 1562500000000000000)), 23819663309908673 / 1000000000000000000], 7463 / 20, 21463 / 20⟩, none⟩

/-- The gases by the keys of `materials` (`gases.py:396-404`). -/
def gasData : List (Str × DataGas) :=
  [("Air".toList, dataAir), ("Ar".toList, dataAr), ("NH3".toList, dataNH3), ("CO2".toList, dataCO2), ("CO".toList, dataCO), ("N2".toList, dataN2), ("O2".toList, dataO2), ("H2O".toList, dataH2O)]

/-- `water-*.json` (`liquids.py:41-53`). -/
def dataWater : DataLiquid :=
  ⟨⟨[793900454201073 / 500000000000000000000000000000000000000000, (-(3731478426764157 / 500000000000000000000000000000000000000)), 15842202051322773 / 1000000000000000000000000000000000000, (-(5011524715758067 / 250000000000000000000000000000000)), 2099794705179759 / 125000000000000000000000000000, (-(1223463651905437 / 125000000000000000000000000)), 4045969977419189 / 1000000000000000000000000, (-(2373065959108109 / 2000000000000000000000)), 12096244378433679 / 50000000000000000000, (-(4082852806740817 / 125000000000000000)), 1051333943844857 / 400000000000000, (-(1193888510510269 / 12500000000000))], 6829 / 25, 620⟩,
   ⟨[2030999248359661 / 12500000000000000000000000000000000, (-(217170934287523 / 312500000000000000000000000000)), 830101643631309 / 625000000000000000000000000, (-(746683615074249 / 500000000000000000000000)), 10938270577183833 / 10000000000000000000000, (-(27264182233959 / 50000000000000000)), 9367369736347561 / 50000000000000000, (-(876072334068127 / 20000000000000)), 1334016818082989 / 200000000000, (-(186664317539599 / 312500000)), 23895321144308947 / 1000000000], 6829 / 25, 620⟩,
   ⟨[4014203387792431 / 100000000000000000000000000000000000, (-(14725504184644487 / 100000000000000000000000000000000)), 294250509093441 / 1250000000000000000000000000, (-(21391433541830797 / 100000000000000000000000000)), 6032354564198387 / 50000000000000000000000, (-(8629785799423579 / 200000000000000000000)), 1905247378252311 / 200000000000000000, (-(9449199286281 / 8000000000000)), 12629892447211141 / 200000000000000], 6829 / 25, 620⟩,
   ⟨[(-(39576855369151983 / 100000000000000000000000000000000000000000000)), 19927922071799127 / 10000000000000000000000000000000000000000, (-(453489957755581 / 100000000000000000000000000000000000)), 3078069045745341 / 500000000000000000000000000000000, (-(692367268519773 / 125000000000000000000000000000)), 86705659695719 / 25000000000000000000000000, (-(3855447738599963 / 2500000000000000000000000)), 4870077015784609 / 10000000000000000000000, (-(10704987432006421 / 100000000000000000000)), 975114862219733 / 62500000000000000, (-(13572740897938709 / 10000000000000000)), 5341590211114753 / 100000000000000], 6829 / 25, 620⟩,
   ⟨[(-(3276269721374497 / 10000000000000000000000000000000000000000000000)), 2070058243623051 / 1250000000000000000000000000000000000000000, (-(37835940848643 / 10000000000000000000000000000000000000)), 322336870075773 / 62500000000000000000000000000000000, (-(72814215654911 / 15625000000000000000000000000000)), 117234070869989 / 40000000000000000000000000000, (-(6546105385127657 / 5000000000000000000000000000)), 4154203772561557 / 10000000000000000000000000, (-(9177027189394479 / 100000000000000000000000)), 2688964210331519 / 200000000000000000000, (-(5880187448228819 / 5000000000000000000)), 23275252364492127 / 500000000000000000], 6829 / 25, 620⟩,
   ⟨[(-(19452728260949 / 7812500000000000000000000000)), 34228892601489327 / 5000000000000000000000000000, (-(3955087041600527 / 500000000000000000000000)), 4941601559444423 / 1000000000000000000000, (-(17826134754078127 / 10000000000000000000)), 452866316327529 / 1250000000000000, (-(2298285426298289 / 62500000000000)), 23011927270572223 / 10000000000000], 6829 / 25, 620⟩⟩

/-- The molar mass used for a gas (`gases.py:92,131,169,206,243,281,319,357`): a number for air, otherwise that of the formula (no error occurs for these formulas). -/
def gasMass (f : Str) : ℚ := if f = "Air".toList then 28.9645 else match Stoich.molarMass f with
  | .ok m => m
  | .error _ => 0

/-- The material of a gas (`gases.py:109-118,147-156,185-193,222-230,259-268,297-306,335-344,373-382`): `IgRhoT(mm, 101325.0)` except for ammonia and carbon dioxide,
`IgBetaT()` and the fitted models. -/
noncomputable def gasMat (f : Str) (d : DataGas) : Mat :=
  ⟨none, some betaT, some d.Cp.poly.calculate, some d.k.poly.calculate, some d.mu.poly.calculate, none, some (match d.rho with
    | some p => p.poly.calculate
    | none => rhoT (gasMass f) 101325)⟩

/-- The material water (`liquids.py:46-53`). -/
noncomputable def water : Mat :=
  ⟨none, some dataWater.beta.poly.calculate, some dataWater.Cp.poly.calculate, some dataWater.k.poly.calculate, some dataWater.mu.poly.calculate,
    some dataWater.nu.poly.calculate, some dataWater.rho.poly.calculate⟩

/-- A model of one of the `materials` (`gases.py:396-404`); only asked for keys of `materials`. -/
noncomputable def gasPoly (f : DataGas → DataPoly) (i : Str) : Poly := match gasData.lookup i with
  | some d => (f d).poly
  | none => ⟨[], 0, none⟩

/-- The models that the mixture models use (`gases.py:460,547,628`). -/
noncomputable def shippedGases : Gases := ⟨gasPoly DataGas.mu, gasPoly DataGas.Cp⟩

end Auxi.Phys
