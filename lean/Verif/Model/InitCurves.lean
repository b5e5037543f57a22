import Verif.Model.Init

/-!
# The initialisation functions of the six curves

Every statement of `init_*_fields()` and `init_*_params()` in program order.  `.big n` is `bigint<…>("n")`, `.lit c n` is
`c("n")`.  The local constants `temp_Fq6`, `temp_Fq12` of `init_bls12_381_fields` are kept as variables.
-/
namespace Libff.Init
set_option maxRecDepth 100000

/-- `init_alt_bn128_fields()`, libff/algebra/curves/alt_bn128/alt_bn128_fields.cpp:24-142 (the branch for 8-byte limbs), statement by statement. -/
def init_alt_bn128_fields : List Cmd :=
  [.assign (.glob .alt_bn128_modulus_r) (.big 21888242871839275222246405745257275088548364400416034343698204186575808495617),
   .check (.fn (.modulusIsValid .alt_bn128_Fr)),
   .assign (.stat .alt_bn128_Fr .Rsquared) (.big 944936681149208446651664254269745548490766851729442924617792859073125903783),
   .assign (.stat .alt_bn128_Fr .Rcubed) (.big 5866548545943845227489894872040244720403868105578784105281690076696998248512),
   .assign (.stat .alt_bn128_Fr .inv) (.num 0xc2e1f593efffffff),
   .assign (.stat .alt_bn128_Fr .num_bits) (.num 254),
   .assign (.stat .alt_bn128_Fr .euler) (.big 10944121435919637611123202872628637544274182200208017171849102093287904247808),
   .assign (.stat .alt_bn128_Fr .s) (.num 28),
   .assign (.stat .alt_bn128_Fr .t) (.big 81540058820840996586704275553141814055101440848469862132140264610111),
   .assign (.stat .alt_bn128_Fr .t_minus_1_over_2) (.big 40770029410420498293352137776570907027550720424234931066070132305055),
   .assign (.stat .alt_bn128_Fr .multiplicative_generator) (.lit .alt_bn128_Fr 5),
   .assign (.stat .alt_bn128_Fr .root_of_unity) (.lit .alt_bn128_Fr 19103219067921713944291392827692070036145651957329286315305642004821462161904),
   .assign (.stat .alt_bn128_Fr .nqr) (.lit .alt_bn128_Fr 5),
   .assign (.stat .alt_bn128_Fr .nqr_to_t) (.lit .alt_bn128_Fr 19103219067921713944291392827692070036145651957329286315305642004821462161904),
   .assign (.glob .alt_bn128_modulus_q) (.big 21888242871839275222246405745257275088696311157297823662689037894645226208583),
   .check (.fn (.modulusIsValid .alt_bn128_Fq)),
   .assign (.stat .alt_bn128_Fq .Rsquared) (.big 3096616502983703923843567936837374451735540968419076528771170197431451843209),
   .assign (.stat .alt_bn128_Fq .Rcubed) (.big 14921786541159648185948152738563080959093619838510245177710943249661917737183),
   .assign (.stat .alt_bn128_Fq .inv) (.num 0x87d20782e4866389),
   .assign (.stat .alt_bn128_Fq .num_bits) (.num 254),
   .assign (.stat .alt_bn128_Fq .euler) (.big 10944121435919637611123202872628637544348155578648911831344518947322613104291),
   .assign (.stat .alt_bn128_Fq .s) (.num 1),
   .assign (.stat .alt_bn128_Fq .t) (.big 10944121435919637611123202872628637544348155578648911831344518947322613104291),
   .assign (.stat .alt_bn128_Fq .t_minus_1_over_2) (.big 5472060717959818805561601436314318772174077789324455915672259473661306552145),
   .assign (.stat .alt_bn128_Fq .multiplicative_generator) (.lit .alt_bn128_Fq 3),
   .assign (.stat .alt_bn128_Fq .root_of_unity) (.lit .alt_bn128_Fq 21888242871839275222246405745257275088696311157297823662689037894645226208582),
   .assign (.stat .alt_bn128_Fq .nqr) (.lit .alt_bn128_Fq 3),
   .assign (.stat .alt_bn128_Fq .nqr_to_t) (.lit .alt_bn128_Fq 21888242871839275222246405745257275088696311157297823662689037894645226208582),
   .assign (.stat .alt_bn128_Fq2 .euler) (.big 239547588008311421220994022608339370399626158265550411218223901127035046843189118723920525909718935985594116157406550130918127817069793474323196511433944),
   .assign (.stat .alt_bn128_Fq2 .s) (.num 4),
   .assign (.stat .alt_bn128_Fq2 .t) (.big 29943448501038927652624252826042421299953269783193801402277987640879380855398639840490065738714866998199264519675818766364765977133724184290399563929243),
   .assign (.stat .alt_bn128_Fq2 .t_minus_1_over_2) (.big 14971724250519463826312126413021210649976634891596900701138993820439690427699319920245032869357433499099632259837909383182382988566862092145199781964621),
   .assign (.stat .alt_bn128_Fq2 .non_residue) (.lit .alt_bn128_Fq 21888242871839275222246405745257275088696311157297823662689037894645226208582),
   .assign (.stat .alt_bn128_Fq2 .nqr) (.make2 .alt_bn128_Fq2 (.lit .alt_bn128_Fq 2) (.lit .alt_bn128_Fq 1)),
   .assign (.stat .alt_bn128_Fq2 .nqr_to_t) (.make2 .alt_bn128_Fq2 (.lit .alt_bn128_Fq 5033503716262624267312492558379982687175200734934877598599011485707452665730) (.lit .alt_bn128_Fq 314498342015008975724433667930697407966947188435857772134235984660852259084)),
   .assign (.frob1 .alt_bn128_Fq2 0) (.lit .alt_bn128_Fq 1),
   .assign (.frob1 .alt_bn128_Fq2 1) (.lit .alt_bn128_Fq 21888242871839275222246405745257275088696311157297823662689037894645226208582),
   .assign (.stat .alt_bn128_Fq6 .euler) (.big 54983881929589686859421330580436722067327518475677921018330059996100303337308374128867212097882912112983831801410554574313444299768848493499132680619944337947109683847095663735032892840493676667020945747527482211376837044019175877068998572693741735838873805855113185414083578466773124823719245338616604713715536237007459144818392105176489621967934260959676496778033242067460465148059540293548160766892478385479634355306233598756643954842572490928255038258184),
   .assign (.stat .alt_bn128_Fq6 .s) (.num 4),
   .assign (.stat .alt_bn128_Fq6 .t) (.big 6872985241198710857427666322554590258415939809459740127291257499512537917163546766108401512235364014122978975176319321789180537471106061687391585077493042243388710480886957966879111605061709583377618218440935276422104630502396984633624821586717716979859225731889148176760447308346640602964905667327075589214442029625932393102299013147061202745991782619959562097254155258432558143507442536693520095861559798184954294413279199844580494355321561366031879782273),
   .assign (.stat .alt_bn128_Fq6 .t_minus_1_over_2) (.big 3436492620599355428713833161277295129207969904729870063645628749756268958581773383054200756117682007061489487588159660894590268735553030843695792538746521121694355240443478983439555802530854791688809109220467638211052315251198492316812410793358858489929612865944574088380223654173320301482452833663537794607221014812966196551149506573530601372995891309979781048627077629216279071753721268346760047930779899092477147206639599922290247177660780683015939891136),
   .assign (.stat .alt_bn128_Fq6 .non_residue) (.make2 .alt_bn128_Fq2 (.lit .alt_bn128_Fq 9) (.lit .alt_bn128_Fq 1)),
   .assign (.stat .alt_bn128_Fq6 .nqr) (.make3 .alt_bn128_Fq6 (.fn (.one .alt_bn128_Fq2)) (.fn (.one .alt_bn128_Fq2)) (.fn (.zero .alt_bn128_Fq2))),
   .assign (.stat .alt_bn128_Fq6 .nqr_to_t) (.make3 .alt_bn128_Fq6 (.make2 .alt_bn128_Fq2 (.lit .alt_bn128_Fq 5033503716262624267312492558379982687175200734934877598599011485707452665730) (.lit .alt_bn128_Fq 314498342015008975724433667930697407966947188435857772134235984660852259084)) (.fn (.zero .alt_bn128_Fq2)) (.fn (.zero .alt_bn128_Fq2))),
   .assign (.frob1 .alt_bn128_Fq6 0) (.make2 .alt_bn128_Fq2 (.lit .alt_bn128_Fq 1) (.lit .alt_bn128_Fq 0)),
   .assign (.frob1 .alt_bn128_Fq6 1) (.make2 .alt_bn128_Fq2 (.lit .alt_bn128_Fq 21575463638280843010398324269430826099269044274347216827212613867836435027261) (.lit .alt_bn128_Fq 10307601595873709700152284273816112264069230130616436755625194854815875713954)),
   .assign (.frob1 .alt_bn128_Fq6 2) (.make2 .alt_bn128_Fq2 (.lit .alt_bn128_Fq 21888242871839275220042445260109153167277707414472061641714758635765020556616) (.lit .alt_bn128_Fq 0)),
   .assign (.frob1 .alt_bn128_Fq6 3) (.make2 .alt_bn128_Fq2 (.lit .alt_bn128_Fq 3772000881919853776433695186713858239009073593817195771773381919316419345261) (.lit .alt_bn128_Fq 2236595495967245188281701248203181795121068902605861227855261137820944008926)),
   .assign (.frob1 .alt_bn128_Fq6 4) (.make2 .alt_bn128_Fq2 (.lit .alt_bn128_Fq 2203960485148121921418603742825762020974279258880205651966) (.lit .alt_bn128_Fq 0)),
   .assign (.frob1 .alt_bn128_Fq6 5) (.make2 .alt_bn128_Fq2 (.lit .alt_bn128_Fq 18429021223477853657660792034369865839114504446431234726392080002137598044644) (.lit .alt_bn128_Fq 9344045779998320333812420223237981029506012124075525679208581902008406485703)),
   .assign (.frob2 .alt_bn128_Fq6 0) (.make2 .alt_bn128_Fq2 (.lit .alt_bn128_Fq 1) (.lit .alt_bn128_Fq 0)),
   .assign (.frob2 .alt_bn128_Fq6 1) (.make2 .alt_bn128_Fq2 (.lit .alt_bn128_Fq 2581911344467009335267311115468803099551665605076196740867805258568234346338) (.lit .alt_bn128_Fq 19937756971775647987995932169929341994314640652964949448313374472400716661030)),
   .assign (.frob2 .alt_bn128_Fq6 2) (.make2 .alt_bn128_Fq2 (.lit .alt_bn128_Fq 2203960485148121921418603742825762020974279258880205651966) (.lit .alt_bn128_Fq 0)),
   .assign (.frob2 .alt_bn128_Fq6 3) (.make2 .alt_bn128_Fq2 (.lit .alt_bn128_Fq 5324479202449903542726783395506214481928257762400643279780343368557297135718) (.lit .alt_bn128_Fq 16208900380737693084919495127334387981393726419856888799917914180988844123039)),
   .assign (.frob2 .alt_bn128_Fq6 4) (.make2 .alt_bn128_Fq2 (.lit .alt_bn128_Fq 21888242871839275220042445260109153167277707414472061641714758635765020556616) (.lit .alt_bn128_Fq 0)),
   .assign (.frob2 .alt_bn128_Fq6 5) (.make2 .alt_bn128_Fq2 (.lit .alt_bn128_Fq 13981852324922362344252311234282257507216387789820983642040889267519694726527) (.lit .alt_bn128_Fq 7629828391165209371577384193250820201684255241773809077146787135900891633097)),
   .assign (.stat .alt_bn128_Fq12 .euler) (.big 6046454544094118612696716508779587437811568806609539163841022840837511675160439295069809579470726816362285317189074189593010054711753278639030702124756988051901885569977000289997599951414317131996165287196109395898133161740013239988829752143532179604518165694875197942363932902896787023077343173967301933187884822930425779835600094553409788472766995397098779224084577400247916395053836588211398337628249873407897812725149537397072024263099073319957010694902377620764165854039228100130298506833349170306223081328235904174970970518121250400602839440810166295636043817507659038897236852814335786356948857070112253134835836163750873451077756241110472389278187119977689288845930658178394590186562743353071320465908984361117040009944460908570918928026578161925375182627523989293890456243197793702483966432294320134848198228187915704499812007832429165557659647468827260733943113908864341788809250341940281027139567362472080),
   .assign (.stat .alt_bn128_Fq12 .s) (.num 5),
   .assign (.stat .alt_bn128_Fq12 .t) (.big 377903409005882413293544781798724214863223050413096197740063927552344479697527455941863098716920426022642832324317136849563128419484579914939418882797311753243867848123562518124849996963394820749760330449756837243633322608750827499301859508970761225282385355929699871397745806431049188942333948372956370824242801433151611239725005909588111779547937212318673701505286087515494774690864786763212396101765617087993613295321846087317001516443692082497313168431398601297760365877451756258143656677084323144138942583014744010935685657382578150037677465050635393477252738594228689931077303300895986647309303566882015820927239760234429590692359765069404524329886694998605580552870666136149661886660171459566957529119311522569815000621528806785682433001661135120335948914220249330868153515199862106405247902018395008428012389261744731531238250489526822847353727966801703795871444619304021361800578146371267564196222960154505),
   .assign (.stat .alt_bn128_Fq12 .t_minus_1_over_2) (.big 188951704502941206646772390899362107431611525206548098870031963776172239848763727970931549358460213011321416162158568424781564209742289957469709441398655876621933924061781259062424998481697410374880165224878418621816661304375413749650929754485380612641192677964849935698872903215524594471166974186478185412121400716575805619862502954794055889773968606159336850752643043757747387345432393381606198050882808543996806647660923043658500758221846041248656584215699300648880182938725878129071828338542161572069471291507372005467842828691289075018838732525317696738626369297114344965538651650447993323654651783441007910463619880117214795346179882534702262164943347499302790276435333068074830943330085729783478764559655761284907500310764403392841216500830567560167974457110124665434076757599931053202623951009197504214006194630872365765619125244763411423676863983400851897935722309652010680900289073185633782098111480077252),
   .assign (.stat .alt_bn128_Fq12 .non_residue) (.make2 .alt_bn128_Fq2 (.lit .alt_bn128_Fq 9) (.lit .alt_bn128_Fq 1)),
   .assign (.stat .alt_bn128_Fq12 .nqr) (.make2 .alt_bn128_Fq12 (.fn (.one .alt_bn128_Fq6)) (.fn (.one .alt_bn128_Fq6))),
   .assign (.stat .alt_bn128_Fq12 .nqr_to_t) (.make2 .alt_bn128_Fq12 (.fn (.zero .alt_bn128_Fq6)) (.make3 .alt_bn128_Fq6 (.fn (.zero .alt_bn128_Fq2)) (.make2 .alt_bn128_Fq2 (.lit .alt_bn128_Fq 7299059822208274084482252430043382812017501266368539931062816119060212104055) (.lit .alt_bn128_Fq 9394737973577957017988251966646482882049672572091998406660728871491334118516)) (.fn (.zero .alt_bn128_Fq2)))),
   .assign (.frob1 .alt_bn128_Fq12 0) (.make2 .alt_bn128_Fq2 (.lit .alt_bn128_Fq 1) (.lit .alt_bn128_Fq 0)),
   .assign (.frob1 .alt_bn128_Fq12 1) (.make2 .alt_bn128_Fq2 (.lit .alt_bn128_Fq 8376118865763821496583973867626364092589906065868298776909617916018768340080) (.lit .alt_bn128_Fq 16469823323077808223889137241176536799009286646108169935659301613961712198316)),
   .assign (.frob1 .alt_bn128_Fq12 2) (.make2 .alt_bn128_Fq2 (.lit .alt_bn128_Fq 21888242871839275220042445260109153167277707414472061641714758635765020556617) (.lit .alt_bn128_Fq 0)),
   .assign (.frob1 .alt_bn128_Fq12 3) (.make2 .alt_bn128_Fq2 (.lit .alt_bn128_Fq 11697423496358154304825782922584725312912383441159505038794027105778954184319) (.lit .alt_bn128_Fq 303847389135065887422783454877609941456349188919719272345083954437860409601)),
   .assign (.frob1 .alt_bn128_Fq12 4) (.make2 .alt_bn128_Fq2 (.lit .alt_bn128_Fq 21888242871839275220042445260109153167277707414472061641714758635765020556616) (.lit .alt_bn128_Fq 0)),
   .assign (.frob1 .alt_bn128_Fq12 5) (.make2 .alt_bn128_Fq2 (.lit .alt_bn128_Fq 3321304630594332808241809054958361220322477375291206261884409189760185844239) (.lit .alt_bn128_Fq 5722266937896532885780051958958348231143373700109372999374820235121374419868)),
   .assign (.frob1 .alt_bn128_Fq12 6) (.make2 .alt_bn128_Fq2 (.lit .alt_bn128_Fq 21888242871839275222246405745257275088696311157297823662689037894645226208582) (.lit .alt_bn128_Fq 0)),
   .assign (.frob1 .alt_bn128_Fq12 7) (.make2 .alt_bn128_Fq2 (.lit .alt_bn128_Fq 13512124006075453725662431877630910996106405091429524885779419978626457868503) (.lit .alt_bn128_Fq 5418419548761466998357268504080738289687024511189653727029736280683514010267)),
   .assign (.frob1 .alt_bn128_Fq12 8) (.make2 .alt_bn128_Fq2 (.lit .alt_bn128_Fq 2203960485148121921418603742825762020974279258880205651966) (.lit .alt_bn128_Fq 0)),
   .assign (.frob1 .alt_bn128_Fq12 9) (.make2 .alt_bn128_Fq2 (.lit .alt_bn128_Fq 10190819375481120917420622822672549775783927716138318623895010788866272024264) (.lit .alt_bn128_Fq 21584395482704209334823622290379665147239961968378104390343953940207365798982)),
   .assign (.frob1 .alt_bn128_Fq12 10) (.make2 .alt_bn128_Fq2 (.lit .alt_bn128_Fq 2203960485148121921418603742825762020974279258880205651967) (.lit .alt_bn128_Fq 0)),
   .assign (.frob1 .alt_bn128_Fq12 11) (.make2 .alt_bn128_Fq2 (.lit .alt_bn128_Fq 18566938241244942414004596690298913868373833782006617400804628704885040364344) (.lit .alt_bn128_Fq 16165975933942742336466353786298926857552937457188450663314217659523851788715))]

/-- `init_alt_bn128_params()`, libff/algebra/curves/alt_bn128/alt_bn128_init.cpp:33-185 (the branch for 8-byte limbs), statement by statement. The call of `init_alt_bn128_fields()` at its beginning is put in front in `Curve.init`. -/
def init_alt_bn128_params : List Cmd :=
  [.assign (.glob .alt_bn128_coeff_b) (.lit .alt_bn128_Fq 3),
   .assign (.glob .alt_bn128_twist) (.make2 .alt_bn128_Fq2 (.lit .alt_bn128_Fq 9) (.lit .alt_bn128_Fq 1)),
   .assign (.glob .alt_bn128_twist_coeff_b) (.times .alt_bn128_Fq2 (.var (.glob .alt_bn128_coeff_b)) (.call (.inverse .alt_bn128_Fq2) (.var (.glob .alt_bn128_twist)))),
   .assign (.glob .alt_bn128_twist_mul_by_b_c0) (.times .alt_bn128_Fq (.var (.glob .alt_bn128_coeff_b)) (.var (.stat .alt_bn128_Fq2 .non_residue))),
   .assign (.glob .alt_bn128_twist_mul_by_b_c1) (.times .alt_bn128_Fq (.var (.glob .alt_bn128_coeff_b)) (.var (.stat .alt_bn128_Fq2 .non_residue))),
   .assign (.glob .alt_bn128_twist_mul_by_q_X) (.make2 .alt_bn128_Fq2 (.lit .alt_bn128_Fq 21575463638280843010398324269430826099269044274347216827212613867836435027261) (.lit .alt_bn128_Fq 10307601595873709700152284273816112264069230130616436755625194854815875713954)),
   .assign (.glob .alt_bn128_twist_mul_by_q_Y) (.make2 .alt_bn128_Fq2 (.lit .alt_bn128_Fq 2821565182194536844548159561693502659359617185244120367078079554186484126554) (.lit .alt_bn128_Fq 3505843767911556378687030309984248845540243509899259641013678093033130930403)),
   .assign (.stat .alt_bn128_G1 .G1_zero) (.make3 .alt_bn128_G1 (.fn (.zero .alt_bn128_Fq)) (.fn (.one .alt_bn128_Fq)) (.fn (.zero .alt_bn128_Fq))),
   .assign (.stat .alt_bn128_G1 .G1_one) (.make3 .alt_bn128_G1 (.lit .alt_bn128_Fq 1) (.lit .alt_bn128_Fq 2) (.fn (.one .alt_bn128_Fq))),
   .assign (.stat .alt_bn128_G1 .initialized) (.bool true),
   .assign (.stat .alt_bn128_G1 .h) (.big 1),
   .clear (.stat .alt_bn128_G1 .wnaf_window_table),
   .push (.stat .alt_bn128_G1 .wnaf_window_table) (.num 11),
   .push (.stat .alt_bn128_G1 .wnaf_window_table) (.num 24),
   .push (.stat .alt_bn128_G1 .wnaf_window_table) (.num 60),
   .push (.stat .alt_bn128_G1 .wnaf_window_table) (.num 127),
   .clear (.stat .alt_bn128_G1 .fixed_base_exp_window_table),
   .push (.stat .alt_bn128_G1 .fixed_base_exp_window_table) (.num 1),
   .push (.stat .alt_bn128_G1 .fixed_base_exp_window_table) (.num 5),
   .push (.stat .alt_bn128_G1 .fixed_base_exp_window_table) (.num 11),
   .push (.stat .alt_bn128_G1 .fixed_base_exp_window_table) (.num 32),
   .push (.stat .alt_bn128_G1 .fixed_base_exp_window_table) (.num 55),
   .push (.stat .alt_bn128_G1 .fixed_base_exp_window_table) (.num 162),
   .push (.stat .alt_bn128_G1 .fixed_base_exp_window_table) (.num 360),
   .push (.stat .alt_bn128_G1 .fixed_base_exp_window_table) (.num 815),
   .push (.stat .alt_bn128_G1 .fixed_base_exp_window_table) (.num 2373),
   .push (.stat .alt_bn128_G1 .fixed_base_exp_window_table) (.num 6978),
   .push (.stat .alt_bn128_G1 .fixed_base_exp_window_table) (.num 7122),
   .push (.stat .alt_bn128_G1 .fixed_base_exp_window_table) (.num 0),
   .push (.stat .alt_bn128_G1 .fixed_base_exp_window_table) (.num 57818),
   .push (.stat .alt_bn128_G1 .fixed_base_exp_window_table) (.num 0),
   .push (.stat .alt_bn128_G1 .fixed_base_exp_window_table) (.num 169679),
   .push (.stat .alt_bn128_G1 .fixed_base_exp_window_table) (.num 439759),
   .push (.stat .alt_bn128_G1 .fixed_base_exp_window_table) (.num 936073),
   .push (.stat .alt_bn128_G1 .fixed_base_exp_window_table) (.num 0),
   .push (.stat .alt_bn128_G1 .fixed_base_exp_window_table) (.num 4666555),
   .push (.stat .alt_bn128_G1 .fixed_base_exp_window_table) (.num 7580404),
   .push (.stat .alt_bn128_G1 .fixed_base_exp_window_table) (.num 0),
   .push (.stat .alt_bn128_G1 .fixed_base_exp_window_table) (.num 34552892),
   .assign (.stat .alt_bn128_G2 .G2_zero) (.make3 .alt_bn128_G2 (.fn (.zero .alt_bn128_Fq2)) (.fn (.one .alt_bn128_Fq2)) (.fn (.zero .alt_bn128_Fq2))),
   .assign (.stat .alt_bn128_G2 .G2_one) (.make3 .alt_bn128_G2 (.make2 .alt_bn128_Fq2 (.lit .alt_bn128_Fq 10857046999023057135944570762232829481370756359578518086990519993285655852781) (.lit .alt_bn128_Fq 11559732032986387107991004021392285783925812861821192530917403151452391805634)) (.make2 .alt_bn128_Fq2 (.lit .alt_bn128_Fq 8495653923123431417604973247489272438418190587263600148770280649306958101930) (.lit .alt_bn128_Fq 4082367875863433681332203403145435568316851327593401208105741076214120093531)) (.fn (.one .alt_bn128_Fq2))),
   .assign (.stat .alt_bn128_G2 .initialized) (.bool true),
   .assign (.stat .alt_bn128_G2 .h) (.big 21888242871839275222246405745257275088844257914179612981679871602714643921549),
   .clear (.stat .alt_bn128_G2 .wnaf_window_table),
   .push (.stat .alt_bn128_G2 .wnaf_window_table) (.num 5),
   .push (.stat .alt_bn128_G2 .wnaf_window_table) (.num 15),
   .push (.stat .alt_bn128_G2 .wnaf_window_table) (.num 39),
   .push (.stat .alt_bn128_G2 .wnaf_window_table) (.num 109),
   .clear (.stat .alt_bn128_G2 .fixed_base_exp_window_table),
   .push (.stat .alt_bn128_G2 .fixed_base_exp_window_table) (.num 1),
   .push (.stat .alt_bn128_G2 .fixed_base_exp_window_table) (.num 5),
   .push (.stat .alt_bn128_G2 .fixed_base_exp_window_table) (.num 10),
   .push (.stat .alt_bn128_G2 .fixed_base_exp_window_table) (.num 25),
   .push (.stat .alt_bn128_G2 .fixed_base_exp_window_table) (.num 59),
   .push (.stat .alt_bn128_G2 .fixed_base_exp_window_table) (.num 154),
   .push (.stat .alt_bn128_G2 .fixed_base_exp_window_table) (.num 334),
   .push (.stat .alt_bn128_G2 .fixed_base_exp_window_table) (.num 743),
   .push (.stat .alt_bn128_G2 .fixed_base_exp_window_table) (.num 2034),
   .push (.stat .alt_bn128_G2 .fixed_base_exp_window_table) (.num 4988),
   .push (.stat .alt_bn128_G2 .fixed_base_exp_window_table) (.num 8888),
   .push (.stat .alt_bn128_G2 .fixed_base_exp_window_table) (.num 26271),
   .push (.stat .alt_bn128_G2 .fixed_base_exp_window_table) (.num 39768),
   .push (.stat .alt_bn128_G2 .fixed_base_exp_window_table) (.num 106276),
   .push (.stat .alt_bn128_G2 .fixed_base_exp_window_table) (.num 141703),
   .push (.stat .alt_bn128_G2 .fixed_base_exp_window_table) (.num 462423),
   .push (.stat .alt_bn128_G2 .fixed_base_exp_window_table) (.num 926872),
   .push (.stat .alt_bn128_G2 .fixed_base_exp_window_table) (.num 0),
   .push (.stat .alt_bn128_G2 .fixed_base_exp_window_table) (.num 4873049),
   .push (.stat .alt_bn128_G2 .fixed_base_exp_window_table) (.num 5706708),
   .push (.stat .alt_bn128_G2 .fixed_base_exp_window_table) (.num 0),
   .push (.stat .alt_bn128_G2 .fixed_base_exp_window_table) (.num 31673815),
   .assign (.glob .alt_bn128_ate_loop_count) (.big 29793968203157093288),
   .assign (.glob .alt_bn128_ate_is_loop_count_neg) (.bool false),
   .assign (.glob .alt_bn128_final_exponent_z) (.big 4965661367192848881),
   .assign (.glob .alt_bn128_final_exponent_is_z_neg) (.bool false)]

/-- `init_bls12_381_fields()`, libff/algebra/curves/bls12_381/bls12_381_fields.cpp:24-150 (the branch for 8-byte limbs), statement by statement. -/
def init_bls12_381_fields : List Cmd :=
  [.assign (.glob .bls12_381_modulus_r) (.big 52435875175126190479447740508185965837690552500527637822603658699938581184513),
   .check (.fn (.modulusIsValid .bls12_381_Fr)),
   .assign (.stat .bls12_381_Fr .Rsquared) (.big 3294906474794265442129797520630710739278575682199800681788903916070560242797),
   .assign (.stat .bls12_381_Fr .Rcubed) (.big 49829253988540319354550742249276084460127446355315915089527227471280320770991),
   .assign (.stat .bls12_381_Fr .inv) (.num 0xfffffffeffffffff),
   .assign (.stat .bls12_381_Fr .num_bits) (.num 255),
   .assign (.stat .bls12_381_Fr .euler) (.big 26217937587563095239723870254092982918845276250263818911301829349969290592256),
   .assign (.stat .bls12_381_Fr .s) (.num 32),
   .assign (.stat .bls12_381_Fr .t) (.big 12208678567578594777604504606729831043093128246378069236549469339647),
   .assign (.stat .bls12_381_Fr .t_minus_1_over_2) (.big 6104339283789297388802252303364915521546564123189034618274734669823),
   .assign (.stat .bls12_381_Fr .multiplicative_generator) (.lit .bls12_381_Fr 7),
   .assign (.stat .bls12_381_Fr .root_of_unity) (.lit .bls12_381_Fr 10238227357739495823651030575849232062558860180284477541189508159991286009131),
   .assign (.stat .bls12_381_Fr .nqr) (.lit .bls12_381_Fr 5),
   .assign (.stat .bls12_381_Fr .nqr_to_t) (.lit .bls12_381_Fr 937917089079007706106976984802249742464848817460758522850752807661925904159),
   .assign (.glob .bls12_381_modulus_q) (.big 4002409555221667393417789825735904156556882819939007885332058136124031650490837864442687629129015664037894272559787),
   .check (.fn (.modulusIsValid .bls12_381_Fq)),
   .assign (.stat .bls12_381_Fq .Rsquared) (.big 2708263910654730174793787626328176511836455197166317677006154293982164122222515399004018013397331347120527951271750),
   .assign (.stat .bls12_381_Fq .Rcubed) (.big 1639067542774625894236716575548084905938753837211594095883637014582201460755008380976950835174037649440777609978336),
   .assign (.stat .bls12_381_Fq .inv) (.num 0x89f3fffcfffcfffd),
   .assign (.stat .bls12_381_Fq .num_bits) (.num 381),
   .assign (.stat .bls12_381_Fq .euler) (.big 2001204777610833696708894912867952078278441409969503942666029068062015825245418932221343814564507832018947136279893),
   .assign (.stat .bls12_381_Fq .s) (.num 1),
   .assign (.stat .bls12_381_Fq .t) (.big 2001204777610833696708894912867952078278441409969503942666029068062015825245418932221343814564507832018947136279893),
   .assign (.stat .bls12_381_Fq .t_minus_1_over_2) (.big 1000602388805416848354447456433976039139220704984751971333014534031007912622709466110671907282253916009473568139946),
   .assign (.stat .bls12_381_Fq .multiplicative_generator) (.lit .bls12_381_Fq 2),
   .assign (.stat .bls12_381_Fq .root_of_unity) (.lit .bls12_381_Fq 4002409555221667393417789825735904156556882819939007885332058136124031650490837864442687629129015664037894272559786),
   .assign (.stat .bls12_381_Fq .nqr) (.lit .bls12_381_Fq 2),
   .assign (.stat .bls12_381_Fq .nqr_to_t) (.lit .bls12_381_Fq 4002409555221667393417789825735904156556882819939007885332058136124031650490837864442687629129015664037894272559786),
   .assign (.stat .bls12_381_Fq2 .euler) (.big 8009641123864852705971874322159486308847560049665276329931192268492988374245678571700328039651096714987477192770085365265551942269853452968100101210518217905546506517135906379008203984748165830709270511838887449985712996744742684),
   .assign (.stat .bls12_381_Fq2 .s) (.num 3),
   .assign (.stat .bls12_381_Fq2 .t) (.big 2002410280966213176492968580539871577211890012416319082482798067123247093561419642925082009912774178746869298192521341316387985567463363242025025302629554476386626629283976594752050996187041457677317627959721862496428249186185671),
   .assign (.stat .bls12_381_Fq2 .t_minus_1_over_2) (.big 1001205140483106588246484290269935788605945006208159541241399033561623546780709821462541004956387089373434649096260670658193992783731681621012512651314777238193313314641988297376025498093520728838658813979860931248214124593092835),
   .assign (.stat .bls12_381_Fq2 .non_residue) (.lit .bls12_381_Fq 4002409555221667393417789825735904156556882819939007885332058136124031650490837864442687629129015664037894272559786),
   .assign (.stat .bls12_381_Fq2 .nqr) (.make2 .bls12_381_Fq2 (.lit .bls12_381_Fq 1) (.lit .bls12_381_Fq 1)),
   .assign (.stat .bls12_381_Fq2 .nqr_to_t) (.make2 .bls12_381_Fq2 (.lit .bls12_381_Fq 1028732146235106349975324479215795277384839936929757896155643118032610843298655225875571310552543014690878354869257) (.lit .bls12_381_Fq 2973677408986561043442465346520108879172042883009249989176415018091420807192182638567116318576472649347015917690530)),
   .assign (.frob1 .bls12_381_Fq2 0) (.lit .bls12_381_Fq 1),
   .assign (.frob1 .bls12_381_Fq2 1) (.lit .bls12_381_Fq 4002409555221667393417789825735904156556882819939007885332058136124031650490837864442687629129015664037894272559786),
   .assign (.stat .bls12_381_Fq6 .euler) (.big 2055413310034685917547178203792332860309200402936847589812920000288065092529207803123633643715541786709826434451838736589343077145131547730677239238709119957418812725813020019072447905749622639458475428333968607374368296677805649623279453957078554617849238494880183853748680971697400556718575273783648469851242261268044817816320342666827076722752447529192782544353128746147119308457784830083683331872908234688282360216434156907659346229509903716136077317578274075669149520898024347473697702653612215721050521068924301068068177428715185971771314610791504467157081688941868360291264332276621620347148228840040620536292141825333889929315303120837632621009405712364239501893128509197213249204),
   .assign (.stat .bls12_381_Fq6 .s) (.num 3),
   .assign (.stat .bls12_381_Fq6 .t) (.big 513853327508671479386794550948083215077300100734211897453230000072016273132301950780908410928885446677456608612959684147335769286282886932669309809677279989354703181453255004768111976437405659864618857083492151843592074169451412405819863489269638654462309623720045963437170242924350139179643818445912117462810565317011204454080085666706769180688111882298195636088282186536779827114446207520920832968227058672070590054108539226914836557377475929034019329394568518917287380224506086868424425663403053930262630267231075267017044357178796492942828652697876116789270422235467090072816083069155405086787057210010155134073035456333472482328825780209408155252351428091059875473282127299303312301),
   .assign (.stat .bls12_381_Fq6 .t_minus_1_over_2) (.big 256926663754335739693397275474041607538650050367105948726615000036008136566150975390454205464442723338728304306479842073667884643141443466334654904838639994677351590726627502384055988218702829932309428541746075921796037084725706202909931744634819327231154811860022981718585121462175069589821909222956058731405282658505602227040042833353384590344055941149097818044141093268389913557223103760460416484113529336035295027054269613457418278688737964517009664697284259458643690112253043434212212831701526965131315133615537633508522178589398246471414326348938058394635211117733545036408041534577702543393528605005077567036517728166736241164412890104704077626175714045529937736641063649651656150),
   .assign (.stat .bls12_381_Fq6 .non_residue) (.make2 .bls12_381_Fq2 (.lit .bls12_381_Fq 1) (.lit .bls12_381_Fq 1)),
   .assign (.stat .bls12_381_Fq6 .nqr) (.make3 .bls12_381_Fq6 (.fn (.one .bls12_381_Fq2)) (.fn (.one .bls12_381_Fq2)) (.fn (.zero .bls12_381_Fq2))),
   .assign (.glob .temp_Fq6) (.lit .bls12_381_Fq 2973677408986561043442465346520108879172042883009249989176415018091420807192182638567116318576472649347015917690530),
   .assign (.stat .bls12_381_Fq6 .nqr_to_t) (.make3 .bls12_381_Fq6 (.make2 .bls12_381_Fq2 (.var (.glob .temp_Fq6)) (.var (.glob .temp_Fq6))) (.fn (.zero .bls12_381_Fq2)) (.fn (.zero .bls12_381_Fq2))),
   .assign (.frob1 .bls12_381_Fq6 0) (.make2 .bls12_381_Fq2 (.lit .bls12_381_Fq 1) (.lit .bls12_381_Fq 0)),
   .assign (.frob1 .bls12_381_Fq6 1) (.make2 .bls12_381_Fq2 (.lit .bls12_381_Fq 0) (.lit .bls12_381_Fq 4002409555221667392624310435006688643935503118305586438271171395842971157480381377015405980053539358417135540939436)),
   .assign (.frob1 .bls12_381_Fq6 2) (.make2 .bls12_381_Fq2 (.lit .bls12_381_Fq 793479390729215512621379701633421447060886740281060493010456487427281649075476305620758731620350) (.lit .bls12_381_Fq 0)),
   .assign (.frob1 .bls12_381_Fq6 3) (.make2 .bls12_381_Fq2 (.lit .bls12_381_Fq 0) (.lit .bls12_381_Fq 1)),
   .assign (.frob1 .bls12_381_Fq6 4) (.make2 .bls12_381_Fq2 (.lit .bls12_381_Fq 4002409555221667392624310435006688643935503118305586438271171395842971157480381377015405980053539358417135540939436) (.lit .bls12_381_Fq 0)),
   .assign (.frob1 .bls12_381_Fq6 5) (.make2 .bls12_381_Fq2 (.lit .bls12_381_Fq 0) (.lit .bls12_381_Fq 793479390729215512621379701633421447060886740281060493010456487427281649075476305620758731620350)),
   .assign (.frob2 .bls12_381_Fq6 0) (.make2 .bls12_381_Fq2 (.lit .bls12_381_Fq 1) (.lit .bls12_381_Fq 0)),
   .assign (.frob2 .bls12_381_Fq6 1) (.make2 .bls12_381_Fq2 (.lit .bls12_381_Fq 4002409555221667392624310435006688643935503118305586438271171395842971157480381377015405980053539358417135540939437) (.lit .bls12_381_Fq 0)),
   .assign (.frob2 .bls12_381_Fq6 2) (.make2 .bls12_381_Fq2 (.lit .bls12_381_Fq 4002409555221667392624310435006688643935503118305586438271171395842971157480381377015405980053539358417135540939436) (.lit .bls12_381_Fq 0)),
   .assign (.frob2 .bls12_381_Fq6 3) (.make2 .bls12_381_Fq2 (.lit .bls12_381_Fq 4002409555221667393417789825735904156556882819939007885332058136124031650490837864442687629129015664037894272559786) (.lit .bls12_381_Fq 0)),
   .assign (.frob2 .bls12_381_Fq6 4) (.make2 .bls12_381_Fq2 (.lit .bls12_381_Fq 793479390729215512621379701633421447060886740281060493010456487427281649075476305620758731620350) (.lit .bls12_381_Fq 0)),
   .assign (.frob2 .bls12_381_Fq6 5) (.make2 .bls12_381_Fq2 (.lit .bls12_381_Fq 793479390729215512621379701633421447060886740281060493010456487427281649075476305620758731620351) (.lit .bls12_381_Fq 0)),
   .assign (.stat .bls12_381_Fq12 .euler) (.big 8449447750135487786386536757818793037762212639342076082205056847631733761148676203741427004279811604310124627720997651209436163312046716101406555444534056553905972881135427726135605097321972002720919419048783869265906393932051047566846865645537445401927480806531298215098847356094235816649364892109670440467529068420483514604958227574975684523172972030890413264728910407591429122273713939807943312686028606857384445300974718185252243030424132803825766945752994243167774120254336745536274773695755236419654903551716949533916736161356917292005946710404303427406932182969676190623946300563008385561067630240219756654157397637890286330848719683460121962833606725529824544406779592032379877481161935446771592034623134923586682924411766146441443826237891460264954006869515216384416084230467353291905946958928033381087520589971371287973778883772765769448885014782339635406211030364946185240866112535299846033397062857243558317578752011446545428814448631806454295214618395979841593811680597003781998317840382782546961827784098634063653000816109224177006797686172283652468801058995095156111444990095100275331923214789575776693004575479181896731908522983715647603567520167155789018111526068121587518840305926270907547770597694123975462831369590179741045378187314102710120072893107485626654026731724301176856186957627412379772915464547093068089747231550221016170764028215685592439765640),
   .assign (.stat .bls12_381_Fq12 .s) (.num 4),
   .assign (.stat .bls12_381_Fq12 .t) (.big 1056180968766935973298317094727349129720276579917759510275632105953966720143584525467678375534976450538765578465124706401179520414005839512675819430566757069238246610141928465766950637165246500340114927381097983658238299241506380945855858205692180675240935100816412276887355919511779477081170611513708805058441133552560439325619778446871960565396621503861301658091113800948928640284214242475992914085753575857173055662621839773156530378803016600478220868219124280395971765031792093192034346711969404552456862943964618691739592020169614661500743338800537928425866522871209523827993287570376048195133453780027469581769674704736285791356089960432515245354200840691228068050847449004047484685145241930846449004327891865448335365551470768305180478279736432533119250858689402048052010528808419161488243369866004172635940073746421410996722360471595721181110626847792454425776378795618273155108264066912480754174632857155444789697344001430818178601806078975806786901827299497480199226460074625472749789730047847818370228473012329257956625102013653022125849710771535456558600132374386894513930623761887534416490401848696972086625571934897737091488565372964455950445940020894473627263940758515198439855038240783863443471324711765496932853921198772467630672273414262838765009111638435703331753341465537647107023369703426547471614433068386633511218403943777627021345503526960699054970705),
   .assign (.stat .bls12_381_Fq12 .t_minus_1_over_2) (.big 528090484383467986649158547363674564860138289958879755137816052976983360071792262733839187767488225269382789232562353200589760207002919756337909715283378534619123305070964232883475318582623250170057463690548991829119149620753190472927929102846090337620467550408206138443677959755889738540585305756854402529220566776280219662809889223435980282698310751930650829045556900474464320142107121237996457042876787928586527831310919886578265189401508300239110434109562140197985882515896046596017173355984702276228431471982309345869796010084807330750371669400268964212933261435604761913996643785188024097566726890013734790884837352368142895678044980216257622677100420345614034025423724502023742342572620965423224502163945932724167682775735384152590239139868216266559625429344701024026005264404209580744121684933002086317970036873210705498361180235797860590555313423896227212888189397809136577554132033456240377087316428577722394848672000715409089300903039487903393450913649748740099613230037312736374894865023923909185114236506164628978312551006826511062924855385767728279300066187193447256965311880943767208245200924348486043312785967448868545744282686482227975222970010447236813631970379257599219927519120391931721735662355882748466426960599386233815336136707131419382504555819217851665876670732768823553511684851713273735807216534193316755609201971888813510672751763480349527485352),
   .assign (.stat .bls12_381_Fq12 .non_residue) (.make2 .bls12_381_Fq2 (.lit .bls12_381_Fq 1) (.lit .bls12_381_Fq 1)),
   .assign (.stat .bls12_381_Fq12 .nqr) (.make2 .bls12_381_Fq12 (.fn (.zero .bls12_381_Fq6)) (.fn (.one .bls12_381_Fq6))),
   .assign (.glob .temp_Fq12) (.lit .bls12_381_Fq 3357996710086603428986649435961018971596863377125478091385687488711898724126407611022502097010210262797519903698974),
   .assign (.stat .bls12_381_Fq12 .nqr_to_t) (.make2 .bls12_381_Fq12 (.fn (.zero .bls12_381_Fq6)) (.make3 .bls12_381_Fq6 (.fn (.zero .bls12_381_Fq2)) (.make2 .bls12_381_Fq2 (.var (.glob .temp_Fq12)) (.var (.glob .temp_Fq12))) (.fn (.zero .bls12_381_Fq2)))),
   .assign (.frob1 .bls12_381_Fq12 0) (.make2 .bls12_381_Fq2 (.lit .bls12_381_Fq 1) (.lit .bls12_381_Fq 0)),
   .assign (.frob1 .bls12_381_Fq12 1) (.make2 .bls12_381_Fq2 (.lit .bls12_381_Fq 3850754370037169011952147076051364057158807420970682438676050522613628423219637725072182697113062777891589506424760) (.lit .bls12_381_Fq 151655185184498381465642749684540099398075398968325446656007613510403227271200139370504932015952886146304766135027)),
   .assign (.frob1 .bls12_381_Fq12 2) (.make2 .bls12_381_Fq2 (.lit .bls12_381_Fq 793479390729215512621379701633421447060886740281060493010456487427281649075476305620758731620351) (.lit .bls12_381_Fq 0)),
   .assign (.frob1 .bls12_381_Fq12 3) (.make2 .bls12_381_Fq2 (.lit .bls12_381_Fq 2973677408986561043442465346520108879172042883009249989176415018091420807192182638567116318576472649347015917690530) (.lit .bls12_381_Fq 1028732146235106349975324479215795277384839936929757896155643118032610843298655225875571310552543014690878354869257)),
   .assign (.frob1 .bls12_381_Fq12 4) (.make2 .bls12_381_Fq2 (.lit .bls12_381_Fq 793479390729215512621379701633421447060886740281060493010456487427281649075476305620758731620350) (.lit .bls12_381_Fq 0)),
   .assign (.frob1 .bls12_381_Fq12 5) (.make2 .bls12_381_Fq2 (.lit .bls12_381_Fq 3125332594171059424908108096204648978570118281977575435832422631601824034463382777937621250592425535493320683825557) (.lit .bls12_381_Fq 877076961050607968509681729531255177986764537961432449499635504522207616027455086505066378536590128544573588734230)),
   .assign (.frob1 .bls12_381_Fq12 6) (.make2 .bls12_381_Fq2 (.lit .bls12_381_Fq 4002409555221667393417789825735904156556882819939007885332058136124031650490837864442687629129015664037894272559786) (.lit .bls12_381_Fq 0)),
   .assign (.frob1 .bls12_381_Fq12 7) (.make2 .bls12_381_Fq2 (.lit .bls12_381_Fq 151655185184498381465642749684540099398075398968325446656007613510403227271200139370504932015952886146304766135027) (.lit .bls12_381_Fq 3850754370037169011952147076051364057158807420970682438676050522613628423219637725072182697113062777891589506424760)),
   .assign (.frob1 .bls12_381_Fq12 8) (.make2 .bls12_381_Fq2 (.lit .bls12_381_Fq 4002409555221667392624310435006688643935503118305586438271171395842971157480381377015405980053539358417135540939436) (.lit .bls12_381_Fq 0)),
   .assign (.frob1 .bls12_381_Fq12 9) (.make2 .bls12_381_Fq2 (.lit .bls12_381_Fq 1028732146235106349975324479215795277384839936929757896155643118032610843298655225875571310552543014690878354869257) (.lit .bls12_381_Fq 2973677408986561043442465346520108879172042883009249989176415018091420807192182638567116318576472649347015917690530)),
   .assign (.frob1 .bls12_381_Fq12 10) (.make2 .bls12_381_Fq2 (.lit .bls12_381_Fq 4002409555221667392624310435006688643935503118305586438271171395842971157480381377015405980053539358417135540939437) (.lit .bls12_381_Fq 0)),
   .assign (.frob1 .bls12_381_Fq12 11) (.make2 .bls12_381_Fq2 (.lit .bls12_381_Fq 877076961050607968509681729531255177986764537961432449499635504522207616027455086505066378536590128544573588734230) (.lit .bls12_381_Fq 3125332594171059424908108096204648978570118281977575435832422631601824034463382777937621250592425535493320683825557))]

/-- `init_bls12_381_params()`, libff/algebra/curves/bls12_381/bls12_381_init.cpp:27-181 (the branch for 8-byte limbs), statement by statement. The call of `init_bls12_381_fields()` at its beginning is put in front in `Curve.init`. -/
def init_bls12_381_params : List Cmd :=
  [.assign (.glob .bls12_381_coeff_b) (.lit .bls12_381_Fq 4),
   .assign (.glob .bls12_381_twist) (.make2 .bls12_381_Fq2 (.lit .bls12_381_Fq 1) (.lit .bls12_381_Fq 1)),
   .assign (.glob .bls12_381_twist_coeff_b) (.times .bls12_381_Fq2 (.var (.glob .bls12_381_coeff_b)) (.var (.glob .bls12_381_twist))),
   .assign (.glob .bls12_381_twist_mul_by_b_c0) (.times .bls12_381_Fq (.var (.glob .bls12_381_coeff_b)) (.var (.stat .bls12_381_Fq2 .non_residue))),
   .assign (.glob .bls12_381_twist_mul_by_b_c1) (.times .bls12_381_Fq (.var (.glob .bls12_381_coeff_b)) (.var (.stat .bls12_381_Fq2 .non_residue))),
   .assign (.glob .bls12_381_twist_mul_by_q_X) (.make2 .bls12_381_Fq2 (.lit .bls12_381_Fq 0) (.lit .bls12_381_Fq 4002409555221667392624310435006688643935503118305586438271171395842971157480381377015405980053539358417135540939437)),
   .assign (.glob .bls12_381_twist_mul_by_q_Y) (.make2 .bls12_381_Fq2 (.lit .bls12_381_Fq 2973677408986561043442465346520108879172042883009249989176415018091420807192182638567116318576472649347015917690530) (.lit .bls12_381_Fq 1028732146235106349975324479215795277384839936929757896155643118032610843298655225875571310552543014690878354869257)),
   .assign (.stat .bls12_381_G1 .G1_zero) (.make3 .bls12_381_G1 (.fn (.zero .bls12_381_Fq)) (.fn (.one .bls12_381_Fq)) (.fn (.zero .bls12_381_Fq))),
   .assign (.stat .bls12_381_G1 .G1_one) (.make3 .bls12_381_G1 (.lit .bls12_381_Fq 3685416753713387016781088315183077757961620795782546409894578378688607592378376318836054947676345821548104185464507) (.lit .bls12_381_Fq 1339506544944476473020471379941921221584933875938349620426543736416511423956333506472724655353366534992391756441569) (.fn (.one .bls12_381_Fq))),
   .assign (.stat .bls12_381_G1 .h) (.big 76329603384216526031706109802092473003),
   .clear (.stat .bls12_381_G1 .wnaf_window_table),
   .push (.stat .bls12_381_G1 .wnaf_window_table) (.num 11),
   .push (.stat .bls12_381_G1 .wnaf_window_table) (.num 24),
   .push (.stat .bls12_381_G1 .wnaf_window_table) (.num 60),
   .push (.stat .bls12_381_G1 .wnaf_window_table) (.num 127),
   .clear (.stat .bls12_381_G1 .fixed_base_exp_window_table),
   .push (.stat .bls12_381_G1 .fixed_base_exp_window_table) (.num 1),
   .push (.stat .bls12_381_G1 .fixed_base_exp_window_table) (.num 5),
   .push (.stat .bls12_381_G1 .fixed_base_exp_window_table) (.num 11),
   .push (.stat .bls12_381_G1 .fixed_base_exp_window_table) (.num 32),
   .push (.stat .bls12_381_G1 .fixed_base_exp_window_table) (.num 55),
   .push (.stat .bls12_381_G1 .fixed_base_exp_window_table) (.num 162),
   .push (.stat .bls12_381_G1 .fixed_base_exp_window_table) (.num 360),
   .push (.stat .bls12_381_G1 .fixed_base_exp_window_table) (.num 815),
   .push (.stat .bls12_381_G1 .fixed_base_exp_window_table) (.num 2373),
   .push (.stat .bls12_381_G1 .fixed_base_exp_window_table) (.num 6978),
   .push (.stat .bls12_381_G1 .fixed_base_exp_window_table) (.num 7122),
   .push (.stat .bls12_381_G1 .fixed_base_exp_window_table) (.num 0),
   .push (.stat .bls12_381_G1 .fixed_base_exp_window_table) (.num 57818),
   .push (.stat .bls12_381_G1 .fixed_base_exp_window_table) (.num 0),
   .push (.stat .bls12_381_G1 .fixed_base_exp_window_table) (.num 169679),
   .push (.stat .bls12_381_G1 .fixed_base_exp_window_table) (.num 439759),
   .push (.stat .bls12_381_G1 .fixed_base_exp_window_table) (.num 936073),
   .push (.stat .bls12_381_G1 .fixed_base_exp_window_table) (.num 0),
   .push (.stat .bls12_381_G1 .fixed_base_exp_window_table) (.num 4666555),
   .push (.stat .bls12_381_G1 .fixed_base_exp_window_table) (.num 7580404),
   .push (.stat .bls12_381_G1 .fixed_base_exp_window_table) (.num 0),
   .push (.stat .bls12_381_G1 .fixed_base_exp_window_table) (.num 34552892),
   .assign (.stat .bls12_381_G2 .G2_zero) (.make3 .bls12_381_G2 (.fn (.zero .bls12_381_Fq2)) (.fn (.one .bls12_381_Fq2)) (.fn (.zero .bls12_381_Fq2))),
   .assign (.stat .bls12_381_G2 .G2_one) (.make3 .bls12_381_G2 (.make2 .bls12_381_Fq2 (.lit .bls12_381_Fq 352701069587466618187139116011060144890029952792775240219908644239793785735715026873347600343865175952761926303160) (.lit .bls12_381_Fq 3059144344244213709971259814753781636986470325476647558659373206291635324768958432433509563104347017837885763365758)) (.make2 .bls12_381_Fq2 (.lit .bls12_381_Fq 1985150602287291935568054521177171638300868978215655730859378665066344726373823718423869104263333984641494340347905) (.lit .bls12_381_Fq 927553665492332455747201965776037880757740193453592970025027978793976877002675564980949289727957565575433344219582)) (.fn (.one .bls12_381_Fq2))),
   .assign (.stat .bls12_381_G2 .h) (.big 305502333931268344200999753193121504214466019254188142667664032982267604182971884026507427359259977847832272839041616661285803823378372096355777062779109),
   .clear (.stat .bls12_381_G2 .wnaf_window_table),
   .push (.stat .bls12_381_G2 .wnaf_window_table) (.num 5),
   .push (.stat .bls12_381_G2 .wnaf_window_table) (.num 15),
   .push (.stat .bls12_381_G2 .wnaf_window_table) (.num 39),
   .push (.stat .bls12_381_G2 .wnaf_window_table) (.num 109),
   .clear (.stat .bls12_381_G2 .fixed_base_exp_window_table),
   .push (.stat .bls12_381_G2 .fixed_base_exp_window_table) (.num 1),
   .push (.stat .bls12_381_G2 .fixed_base_exp_window_table) (.num 5),
   .push (.stat .bls12_381_G2 .fixed_base_exp_window_table) (.num 10),
   .push (.stat .bls12_381_G2 .fixed_base_exp_window_table) (.num 25),
   .push (.stat .bls12_381_G2 .fixed_base_exp_window_table) (.num 59),
   .push (.stat .bls12_381_G2 .fixed_base_exp_window_table) (.num 154),
   .push (.stat .bls12_381_G2 .fixed_base_exp_window_table) (.num 334),
   .push (.stat .bls12_381_G2 .fixed_base_exp_window_table) (.num 743),
   .push (.stat .bls12_381_G2 .fixed_base_exp_window_table) (.num 2034),
   .push (.stat .bls12_381_G2 .fixed_base_exp_window_table) (.num 4988),
   .push (.stat .bls12_381_G2 .fixed_base_exp_window_table) (.num 8888),
   .push (.stat .bls12_381_G2 .fixed_base_exp_window_table) (.num 26271),
   .push (.stat .bls12_381_G2 .fixed_base_exp_window_table) (.num 39768),
   .push (.stat .bls12_381_G2 .fixed_base_exp_window_table) (.num 106276),
   .push (.stat .bls12_381_G2 .fixed_base_exp_window_table) (.num 141703),
   .push (.stat .bls12_381_G2 .fixed_base_exp_window_table) (.num 462423),
   .push (.stat .bls12_381_G2 .fixed_base_exp_window_table) (.num 926872),
   .push (.stat .bls12_381_G2 .fixed_base_exp_window_table) (.num 0),
   .push (.stat .bls12_381_G2 .fixed_base_exp_window_table) (.num 4873049),
   .push (.stat .bls12_381_G2 .fixed_base_exp_window_table) (.num 5706708),
   .push (.stat .bls12_381_G2 .fixed_base_exp_window_table) (.num 0),
   .push (.stat .bls12_381_G2 .fixed_base_exp_window_table) (.num 31673815),
   .assign (.glob .bls12_381_ate_loop_count) (.big 15132376222941642752),
   .assign (.glob .bls12_381_ate_is_loop_count_neg) (.bool true),
   .assign (.glob .bls12_381_final_exponent) (.big 322277361516934140462891564586510139908379969514828494218366688025288661041104682794998680497580008899973249814104447692778988208376779573819485263026159588510513834876303014016798809919343532899164848730280942609956670917565618115867287399623286813270357901731510188149934363360381614501334086825442271920079363289954510565375378443704372994881406797882676971082200626541916413184642520269678897559532260949334760604962086348898118982248842634379637598665468817769075878555493752214492790122785850202957575200176084204422751485957336465472324810982833638490904279282696134323072515220044451592646885410572234451732790590013479358343841220074174848221722017083597872017638514103174122784843925578370430843522959600095676285723737049438346544753168912974976791528535276317256904336520179281145394686565050419250614107803233314658825463117900250701199181529205942363159325765991819433914303908860460720581408201373164047773794825411011922305820065611121544561808414055302212057471395719432072209245600258134364584636810093520285711072578721435517884103526483832733289802426157301542744476740008494780363354305116978805620671467071400711358839553375340724899735460480144599782014906586543813292157922220645089192130209334926661588737007768565838519456601560804957985667880395221049249803753582637708560),
   .assign (.glob .bls12_381_final_exponent_z) (.big 15132376222941642752),
   .assign (.glob .bls12_381_final_exponent_is_z_neg) (.bool true)]

/-- `init_bn128_fields()`, libff/algebra/curves/bn128/bn128_fields.cpp:17-72 (the branch for 8-byte limbs), statement by statement. -/
def init_bn128_fields : List Cmd :=
  [.assign (.glob .bn_Param) (.fn .bnParamInit),
   .assign (.glob .bn128_modulus_r) (.big 21888242871839275222246405745257275088548364400416034343698204186575808495617),
   .check (.fn (.modulusIsValid .bn128_Fr)),
   .assign (.stat .bn128_Fr .Rsquared) (.big 944936681149208446651664254269745548490766851729442924617792859073125903783),
   .assign (.stat .bn128_Fr .Rcubed) (.big 5866548545943845227489894872040244720403868105578784105281690076696998248512),
   .assign (.stat .bn128_Fr .inv) (.num 0xc2e1f593efffffff),
   .assign (.stat .bn128_Fr .num_bits) (.num 254),
   .assign (.stat .bn128_Fr .euler) (.big 10944121435919637611123202872628637544274182200208017171849102093287904247808),
   .assign (.stat .bn128_Fr .s) (.num 28),
   .assign (.stat .bn128_Fr .t) (.big 81540058820840996586704275553141814055101440848469862132140264610111),
   .assign (.stat .bn128_Fr .t_minus_1_over_2) (.big 40770029410420498293352137776570907027550720424234931066070132305055),
   .assign (.stat .bn128_Fr .multiplicative_generator) (.lit .bn128_Fr 5),
   .assign (.stat .bn128_Fr .root_of_unity) (.lit .bn128_Fr 19103219067921713944291392827692070036145651957329286315305642004821462161904),
   .assign (.stat .bn128_Fr .nqr) (.lit .bn128_Fr 5),
   .assign (.stat .bn128_Fr .nqr_to_t) (.lit .bn128_Fr 19103219067921713944291392827692070036145651957329286315305642004821462161904),
   .assign (.glob .bn128_modulus_q) (.big 21888242871839275222246405745257275088696311157297823662689037894645226208583),
   .check (.fn (.modulusIsValid .bn128_Fq)),
   .assign (.stat .bn128_Fq .Rsquared) (.big 3096616502983703923843567936837374451735540968419076528771170197431451843209),
   .assign (.stat .bn128_Fq .Rcubed) (.big 14921786541159648185948152738563080959093619838510245177710943249661917737183),
   .assign (.stat .bn128_Fq .inv) (.num 0x87d20782e4866389),
   .assign (.stat .bn128_Fq .num_bits) (.num 254),
   .assign (.stat .bn128_Fq .euler) (.big 10944121435919637611123202872628637544348155578648911831344518947322613104291),
   .assign (.stat .bn128_Fq .s) (.num 1),
   .assign (.stat .bn128_Fq .t) (.big 10944121435919637611123202872628637544348155578648911831344518947322613104291),
   .assign (.stat .bn128_Fq .t_minus_1_over_2) (.big 5472060717959818805561601436314318772174077789324455915672259473661306552145),
   .assign (.stat .bn128_Fq .multiplicative_generator) (.lit .bn128_Fq 3),
   .assign (.stat .bn128_Fq .root_of_unity) (.lit .bn128_Fq 21888242871839275222246405745257275088696311157297823662689037894645226208582),
   .assign (.stat .bn128_Fq .nqr) (.lit .bn128_Fq 3),
   .assign (.stat .bn128_Fq .nqr_to_t) (.lit .bn128_Fq 21888242871839275222246405745257275088696311157297823662689037894645226208582)]

/-- `init_bn128_params()`, libff/algebra/curves/bn128/bn128_init.cpp:30-176 (the branch for 8-byte limbs), statement by statement. The call of `init_bn128_fields()` at its beginning is put in front in `Curve.init`. -/
def init_bn128_params : List Cmd :=
  [.assign (.glob .bn128_coeff_b) (.lit .bn_Fp 3),
   .assign (.glob .bn128_Fq_s) (.num 1),
   .assign (.glob .bn128_Fq_nqr_to_t) (.lit .bn_Fp 21888242871839275222246405745257275088696311157297823662689037894645226208582),
   .assign (.glob .bn128_Fq_t_minus_1_over_2) (.lit .mie_Vuint 5472060717959818805561601436314318772174077789324455915672259473661306552145),
   .assign (.glob .bn128_twist_coeff_b) (.make2 .bn_Fp2 (.lit .bn_Fp 19485874751759354771024239261021720505790618469301721065564631296452457478373) (.lit .bn_Fp 266929791119991161246907387137283842545076965332900288569378510910307636690)),
   .assign (.glob .bn128_Fq2_s) (.num 4),
   .assign (.glob .bn128_Fq2_nqr_to_t) (.make2 .bn_Fp2 (.lit .bn_Fp 5033503716262624267312492558379982687175200734934877598599011485707452665730) (.lit .bn_Fp 314498342015008975724433667930697407966947188435857772134235984660852259084)),
   .assign (.glob .bn128_Fq2_t_minus_1_over_2) (.lit .mie_Vuint 14971724250519463826312126413021210649976634891596900701138993820439690427699319920245032869357433499099632259837909383182382988566862092145199781964621),
   .assign (.stat .bn128_G1 .G1_zero_X) (.lit .bn_Fp 1),
   .assign (.stat .bn128_G1 .G1_zero_Y) (.lit .bn_Fp 1),
   .assign (.stat .bn128_G1 .G1_zero_Z) (.lit .bn_Fp 0),
   .assign (.stat .bn128_G1 .G1_one_X) (.lit .bn_Fp 1),
   .assign (.stat .bn128_G1 .G1_one_Y) (.lit .bn_Fp 2),
   .assign (.stat .bn128_G1 .G1_one_Z) (.lit .bn_Fp 1),
   .assign (.stat .bn128_G1 .initialized) (.bool true),
   .assign (.stat .bn128_G1 .h) (.big 1),
   .clear (.stat .bn128_G1 .wnaf_window_table),
   .push (.stat .bn128_G1 .wnaf_window_table) (.num 10),
   .push (.stat .bn128_G1 .wnaf_window_table) (.num 24),
   .push (.stat .bn128_G1 .wnaf_window_table) (.num 40),
   .push (.stat .bn128_G1 .wnaf_window_table) (.num 132),
   .clear (.stat .bn128_G1 .fixed_base_exp_window_table),
   .push (.stat .bn128_G1 .fixed_base_exp_window_table) (.num 1),
   .push (.stat .bn128_G1 .fixed_base_exp_window_table) (.num 4),
   .push (.stat .bn128_G1 .fixed_base_exp_window_table) (.num 10),
   .push (.stat .bn128_G1 .fixed_base_exp_window_table) (.num 25),
   .push (.stat .bn128_G1 .fixed_base_exp_window_table) (.num 62),
   .push (.stat .bn128_G1 .fixed_base_exp_window_table) (.num 158),
   .push (.stat .bn128_G1 .fixed_base_exp_window_table) (.num 362),
   .push (.stat .bn128_G1 .fixed_base_exp_window_table) (.num 807),
   .push (.stat .bn128_G1 .fixed_base_exp_window_table) (.num 2090),
   .push (.stat .bn128_G1 .fixed_base_exp_window_table) (.num 4460),
   .push (.stat .bn128_G1 .fixed_base_exp_window_table) (.num 9280),
   .push (.stat .bn128_G1 .fixed_base_exp_window_table) (.num 43303),
   .push (.stat .bn128_G1 .fixed_base_exp_window_table) (.num 0),
   .push (.stat .bn128_G1 .fixed_base_exp_window_table) (.num 0),
   .push (.stat .bn128_G1 .fixed_base_exp_window_table) (.num 210999),
   .push (.stat .bn128_G1 .fixed_base_exp_window_table) (.num 506869),
   .push (.stat .bn128_G1 .fixed_base_exp_window_table) (.num 930023),
   .push (.stat .bn128_G1 .fixed_base_exp_window_table) (.num 0),
   .push (.stat .bn128_G1 .fixed_base_exp_window_table) (.num 0),
   .push (.stat .bn128_G1 .fixed_base_exp_window_table) (.num 8350812),
   .push (.stat .bn128_G1 .fixed_base_exp_window_table) (.num 21708139),
   .push (.stat .bn128_G1 .fixed_base_exp_window_table) (.num 29482996),
   .assign (.stat .bn128_G2 .G2_zero_X) (.make2 .bn_Fp2 (.lit .bn_Fp 1) (.lit .bn_Fp 0)),
   .assign (.stat .bn128_G2 .G2_zero_Y) (.make2 .bn_Fp2 (.lit .bn_Fp 1) (.lit .bn_Fp 0)),
   .assign (.stat .bn128_G2 .G2_zero_Z) (.make2 .bn_Fp2 (.lit .bn_Fp 0) (.lit .bn_Fp 0)),
   .assign (.stat .bn128_G2 .G2_one_X) (.make2 .bn_Fp2 (.lit .bn_Fp 15267802884793550383558706039165621050290089775961208824303765753922461897946) (.lit .bn_Fp 9034493566019742339402378670461897774509967669562610788113215988055021632533)),
   .assign (.stat .bn128_G2 .G2_one_Y) (.make2 .bn_Fp2 (.lit .bn_Fp 644888581738283025171396578091639672120333224302184904896215738366765861164) (.lit .bn_Fp 20532875081203448695448744255224543661959516361327385779878476709582931298750)),
   .assign (.stat .bn128_G2 .G2_one_Z) (.make2 .bn_Fp2 (.lit .bn_Fp 1) (.lit .bn_Fp 0)),
   .assign (.stat .bn128_G2 .initialized) (.bool true),
   .assign (.stat .bn128_G2 .h) (.big 21888242871839275222246405745257275088844257914179612981679871602714643921549),
   .clear (.stat .bn128_G2 .wnaf_window_table),
   .push (.stat .bn128_G2 .wnaf_window_table) (.num 7),
   .push (.stat .bn128_G2 .wnaf_window_table) (.num 18),
   .push (.stat .bn128_G2 .wnaf_window_table) (.num 35),
   .push (.stat .bn128_G2 .wnaf_window_table) (.num 116),
   .clear (.stat .bn128_G2 .fixed_base_exp_window_table),
   .push (.stat .bn128_G2 .fixed_base_exp_window_table) (.num 1),
   .push (.stat .bn128_G2 .fixed_base_exp_window_table) (.num 4),
   .push (.stat .bn128_G2 .fixed_base_exp_window_table) (.num 11),
   .push (.stat .bn128_G2 .fixed_base_exp_window_table) (.num 26),
   .push (.stat .bn128_G2 .fixed_base_exp_window_table) (.num 61),
   .push (.stat .bn128_G2 .fixed_base_exp_window_table) (.num 154),
   .push (.stat .bn128_G2 .fixed_base_exp_window_table) (.num 353),
   .push (.stat .bn128_G2 .fixed_base_exp_window_table) (.num 772),
   .push (.stat .bn128_G2 .fixed_base_exp_window_table) (.num 2026),
   .push (.stat .bn128_G2 .fixed_base_exp_window_table) (.num 4399),
   .push (.stat .bn128_G2 .fixed_base_exp_window_table) (.num 10493),
   .push (.stat .bn128_G2 .fixed_base_exp_window_table) (.num 37055),
   .push (.stat .bn128_G2 .fixed_base_exp_window_table) (.num 49929),
   .push (.stat .bn128_G2 .fixed_base_exp_window_table) (.num 114503),
   .push (.stat .bn128_G2 .fixed_base_exp_window_table) (.num 161445),
   .push (.stat .bn128_G2 .fixed_base_exp_window_table) (.num 470648),
   .push (.stat .bn128_G2 .fixed_base_exp_window_table) (.num 1059822),
   .push (.stat .bn128_G2 .fixed_base_exp_window_table) (.num 0),
   .push (.stat .bn128_G2 .fixed_base_exp_window_table) (.num 5450848),
   .push (.stat .bn128_G2 .fixed_base_exp_window_table) (.num 5566796),
   .push (.stat .bn128_G2 .fixed_base_exp_window_table) (.num 0),
   .push (.stat .bn128_G2 .fixed_base_exp_window_table) (.num 33055218),
   .assign (.stat .bn128_GT .GT_one_elem) (.lit .bn_Fp12 1)]

/-- `init_edwards_fields()`, libff/algebra/curves/edwards/edwards_fields.cpp:24-108 (the branch for 8-byte limbs), statement by statement. -/
def init_edwards_fields : List Cmd :=
  [.assign (.glob .edwards_modulus_r) (.big 1552511030102430251236801561344621993261920897571225601),
   .check (.fn (.modulusIsValid .edwards_Fr)),
   .assign (.stat .edwards_Fr .Rsquared) (.big 621738487827897760168419760282818735947979812540885779),
   .assign (.stat .edwards_Fr .Rcubed) (.big 899968968216802386013510389846941393831065658679774050),
   .assign (.stat .edwards_Fr .inv) (.num 0xdde553277fffffff),
   .assign (.stat .edwards_Fr .num_bits) (.num 181),
   .assign (.stat .edwards_Fr .euler) (.big 776255515051215125618400780672310996630960448785612800),
   .assign (.stat .edwards_Fr .s) (.num 31),
   .assign (.stat .edwards_Fr .t) (.big 722944284836962004768104088187507350585386575),
   .assign (.stat .edwards_Fr .t_minus_1_over_2) (.big 361472142418481002384052044093753675292693287),
   .assign (.stat .edwards_Fr .multiplicative_generator) (.lit .edwards_Fr 19),
   .assign (.stat .edwards_Fr .root_of_unity) (.lit .edwards_Fr 695314865466598274460565335217615316274564719601897184),
   .assign (.stat .edwards_Fr .nqr) (.lit .edwards_Fr 11),
   .assign (.stat .edwards_Fr .nqr_to_t) (.lit .edwards_Fr 1326707053668679463752768729767248251415639579872144553),
   .assign (.glob .edwards_modulus_q) (.big 6210044120409721004947206240885978274523751269793792001),
   .check (.fn (.modulusIsValid .edwards_Fq)),
   .assign (.stat .edwards_Fq .Rsquared) (.big 5943559676554581037560514598978484097352477055348195432),
   .assign (.stat .edwards_Fq .Rcubed) (.big 1081560488703514202058739223469726982199727506489234349),
   .assign (.stat .edwards_Fq .inv) (.num 0x76eb690b7fffffff),
   .assign (.stat .edwards_Fq .num_bits) (.num 183),
   .assign (.stat .edwards_Fq .euler) (.big 3105022060204860502473603120442989137261875634896896000),
   .assign (.stat .edwards_Fq .s) (.num 31),
   .assign (.stat .edwards_Fq .t) (.big 2891777139347848019072416350658041552884388375),
   .assign (.stat .edwards_Fq .t_minus_1_over_2) (.big 1445888569673924009536208175329020776442194187),
   .assign (.stat .edwards_Fq .multiplicative_generator) (.lit .edwards_Fq 61),
   .assign (.stat .edwards_Fq .root_of_unity) (.lit .edwards_Fq 4692813029219384139894873043933463717810008194158530536),
   .assign (.stat .edwards_Fq .nqr) (.lit .edwards_Fq 23),
   .assign (.stat .edwards_Fq .nqr_to_t) (.lit .edwards_Fq 2626736066325740702418554487368721595489070118548299138),
   .assign (.stat .edwards_Fq3 .euler) (.big 119744082713971502962992613191067836698205043373978948903839934564152994858051284658545502971203325031831647424413111161318314144765646525057914792711854057586688000),
   .assign (.stat .edwards_Fq3 .s) (.num 31),
   .assign (.stat .edwards_Fq3 .t) (.big 111520367408144756185815309352304634357062208814526860512643991563611659089151103662834971185031649686239331424621037357783237607000066456438894190557165125),
   .assign (.stat .edwards_Fq3 .t_minus_1_over_2) (.big 55760183704072378092907654676152317178531104407263430256321995781805829544575551831417485592515824843119665712310518678891618803500033228219447095278582562),
   .assign (.stat .edwards_Fq3 .non_residue) (.lit .edwards_Fq 61),
   .assign (.stat .edwards_Fq3 .nqr) (.make3 .edwards_Fq3 (.lit .edwards_Fq 23) (.lit .edwards_Fq 0) (.lit .edwards_Fq 0)),
   .assign (.stat .edwards_Fq3 .nqr_to_t) (.make3 .edwards_Fq3 (.lit .edwards_Fq 104810943629412208121981114244673004633270996333237516) (.lit .edwards_Fq 0) (.lit .edwards_Fq 0)),
   .assign (.frob1 .edwards_Fq3 0) (.lit .edwards_Fq 1),
   .assign (.frob1 .edwards_Fq3 1) (.lit .edwards_Fq 1073752683758513276629212192812154536507607213288832061),
   .assign (.frob1 .edwards_Fq3 2) (.lit .edwards_Fq 5136291436651207728317994048073823738016144056504959939),
   .assign (.frob2 .edwards_Fq3 0) (.lit .edwards_Fq 1),
   .assign (.frob2 .edwards_Fq3 1) (.lit .edwards_Fq 5136291436651207728317994048073823738016144056504959939),
   .assign (.frob2 .edwards_Fq3 2) (.lit .edwards_Fq 1073752683758513276629212192812154536507607213288832061),
   .assign (.stat .edwards_Fq6 .euler) (.big 28677290690020897805365935843851174495046307392705069144101373373330885210311370318733027669285930295433693090881034720818190496854917686657535109348176830861059800012474722471292022005286908893541416599742789523143737959708214461870605874121090272322517073698670457333498341250241297120220551099521678676677016084977733861376000),
   .assign (.stat .edwards_Fq6 .s) (.num 32),
   .assign (.stat .edwards_Fq6 .t) (.big 13353904099213377481962524281745392128381089955896637003916023938605042738053654468959675947803040172641022638828044161581523016493263508499383511649527042573811393236962483483968312854546545489477653335660132357451942730559136002264267706368626222164610900775841650242683636606783278808100405661166495958658408413165125),
   .assign (.stat .edwards_Fq6 .t_minus_1_over_2) (.big 6676952049606688740981262140872696064190544977948318501958011969302521369026827234479837973901520086320511319414022080790761508246631754249691755824763521286905696618481241741984156427273272744738826667830066178725971365279568001132133853184313111082305450387920825121341818303391639404050202830583247979329204206582562),
   .assign (.stat .edwards_Fq6 .non_residue) (.lit .edwards_Fq 61),
   .assign (.stat .edwards_Fq6 .nqr) (.make2 .edwards_Fq6 (.make3 .edwards_Fq3 (.lit .edwards_Fq 5) (.lit .edwards_Fq 0) (.lit .edwards_Fq 0)) (.fn (.one .edwards_Fq3))),
   .assign (.stat .edwards_Fq6 .nqr_to_t) (.make2 .edwards_Fq6 (.fn (.zero .edwards_Fq3)) (.make3 .edwards_Fq3 (.lit .edwards_Fq 0) (.lit .edwards_Fq 6018622460271751604575462891699668290753365582464183006) (.lit .edwards_Fq 0))),
   .assign (.frob1 .edwards_Fq6 0) (.lit .edwards_Fq 1),
   .assign (.frob1 .edwards_Fq6 1) (.lit .edwards_Fq 1073752683758513276629212192812154536507607213288832062),
   .assign (.frob1 .edwards_Fq6 2) (.lit .edwards_Fq 1073752683758513276629212192812154536507607213288832061),
   .assign (.frob1 .edwards_Fq6 3) (.lit .edwards_Fq 6210044120409721004947206240885978274523751269793792000),
   .assign (.frob1 .edwards_Fq6 4) (.lit .edwards_Fq 5136291436651207728317994048073823738016144056504959939),
   .assign (.frob1 .edwards_Fq6 5) (.lit .edwards_Fq 5136291436651207728317994048073823738016144056504959940),
   .assign (.stat .edwards_Fp2 .non_residue) (.var (.stat .edwards_Fq3 .non_residue))]

/-- `init_edwards_params()`, libff/algebra/curves/edwards/edwards_init.cpp:39-181 (the branch for 8-byte limbs), statement by statement. The call of `init_edwards_fields()` at its beginning is put in front in `Curve.init`. -/
def init_edwards_params : List Cmd :=
  [.assign (.glob .edwards_coeff_a) (.fn (.one .edwards_Fq)),
   .assign (.glob .edwards_coeff_d) (.lit .edwards_Fq 600581931845324488256649384912508268813600056237543024),
   .assign (.glob .edwards_twist) (.make3 .edwards_Fq3 (.fn (.zero .edwards_Fq)) (.fn (.one .edwards_Fq)) (.fn (.zero .edwards_Fq))),
   .assign (.glob .edwards_twist_coeff_a) (.times .edwards_Fq3 (.var (.glob .edwards_coeff_a)) (.var (.glob .edwards_twist))),
   .assign (.glob .edwards_twist_coeff_d) (.times .edwards_Fq3 (.var (.glob .edwards_coeff_d)) (.var (.glob .edwards_twist))),
   .assign (.glob .edwards_twist_mul_by_a_c0) (.times .edwards_Fq (.var (.glob .edwards_coeff_a)) (.var (.stat .edwards_Fq3 .non_residue))),
   .assign (.glob .edwards_twist_mul_by_a_c1) (.var (.glob .edwards_coeff_a)),
   .assign (.glob .edwards_twist_mul_by_a_c2) (.var (.glob .edwards_coeff_a)),
   .assign (.glob .edwards_twist_mul_by_d_c0) (.times .edwards_Fq (.var (.glob .edwards_coeff_d)) (.var (.stat .edwards_Fq3 .non_residue))),
   .assign (.glob .edwards_twist_mul_by_d_c1) (.var (.glob .edwards_coeff_d)),
   .assign (.glob .edwards_twist_mul_by_d_c2) (.var (.glob .edwards_coeff_d)),
   .assign (.glob .edwards_twist_mul_by_q_Y) (.lit .edwards_Fq 1073752683758513276629212192812154536507607213288832062),
   .assign (.glob .edwards_twist_mul_by_q_Z) (.lit .edwards_Fq 1073752683758513276629212192812154536507607213288832062),
   .assign (.stat .edwards_G1 .G1_zero) (.make2 .edwards_G1 (.fn (.zero .edwards_Fq)) (.fn (.one .edwards_Fq))),
   .assign (.stat .edwards_G1 .G1_one) (.make2 .edwards_G1 (.lit .edwards_Fq 3713709671941291996998665608188072510389821008693530490) (.lit .edwards_Fq 4869953702976555123067178261685365085639705297852816679)),
   .assign (.stat .edwards_G1 .initialized) (.bool true),
   .clear (.stat .edwards_G1 .wnaf_window_table),
   .push (.stat .edwards_G1 .wnaf_window_table) (.num 9),
   .push (.stat .edwards_G1 .wnaf_window_table) (.num 14),
   .push (.stat .edwards_G1 .wnaf_window_table) (.num 24),
   .push (.stat .edwards_G1 .wnaf_window_table) (.num 117),
   .clear (.stat .edwards_G1 .fixed_base_exp_window_table),
   .push (.stat .edwards_G1 .fixed_base_exp_window_table) (.num 1),
   .push (.stat .edwards_G1 .fixed_base_exp_window_table) (.num 4),
   .push (.stat .edwards_G1 .fixed_base_exp_window_table) (.num 10),
   .push (.stat .edwards_G1 .fixed_base_exp_window_table) (.num 25),
   .push (.stat .edwards_G1 .fixed_base_exp_window_table) (.num 60),
   .push (.stat .edwards_G1 .fixed_base_exp_window_table) (.num 149),
   .push (.stat .edwards_G1 .fixed_base_exp_window_table) (.num 370),
   .push (.stat .edwards_G1 .fixed_base_exp_window_table) (.num 849),
   .push (.stat .edwards_G1 .fixed_base_exp_window_table) (.num 1765),
   .push (.stat .edwards_G1 .fixed_base_exp_window_table) (.num 4430),
   .push (.stat .edwards_G1 .fixed_base_exp_window_table) (.num 13389),
   .push (.stat .edwards_G1 .fixed_base_exp_window_table) (.num 15368),
   .push (.stat .edwards_G1 .fixed_base_exp_window_table) (.num 74912),
   .push (.stat .edwards_G1 .fixed_base_exp_window_table) (.num 0),
   .push (.stat .edwards_G1 .fixed_base_exp_window_table) (.num 438107),
   .push (.stat .edwards_G1 .fixed_base_exp_window_table) (.num 0),
   .push (.stat .edwards_G1 .fixed_base_exp_window_table) (.num 1045626),
   .push (.stat .edwards_G1 .fixed_base_exp_window_table) (.num 1577434),
   .push (.stat .edwards_G1 .fixed_base_exp_window_table) (.num 0),
   .push (.stat .edwards_G1 .fixed_base_exp_window_table) (.num 0),
   .push (.stat .edwards_G1 .fixed_base_exp_window_table) (.num 17350594),
   .push (.stat .edwards_G1 .fixed_base_exp_window_table) (.num 0),
   .assign (.stat .edwards_G2 .G2_zero) (.make2 .edwards_G2 (.fn (.zero .edwards_Fq3)) (.fn (.one .edwards_Fq3))),
   .assign (.stat .edwards_G2 .G2_one) (.make2 .edwards_G2 (.make3 .edwards_Fq3 (.lit .edwards_Fq 4531683359223370252210990718516622098304721701253228128) (.lit .edwards_Fq 5339624155305731263217400504407647531329993548123477368) (.lit .edwards_Fq 3964037981777308726208525982198654699800283729988686552)) (.make3 .edwards_Fq3 (.lit .edwards_Fq 364634864866983740775341816274081071386963546650700569) (.lit .edwards_Fq 3264380230116139014996291397901297105159834497864380415) (.lit .edwards_Fq 3504781284999684163274269077749440837914479176282903747))),
   .assign (.stat .edwards_G2 .initialized) (.bool true),
   .clear (.stat .edwards_G2 .wnaf_window_table),
   .push (.stat .edwards_G2 .wnaf_window_table) (.num 6),
   .push (.stat .edwards_G2 .wnaf_window_table) (.num 12),
   .push (.stat .edwards_G2 .wnaf_window_table) (.num 42),
   .push (.stat .edwards_G2 .wnaf_window_table) (.num 97),
   .clear (.stat .edwards_G2 .fixed_base_exp_window_table),
   .push (.stat .edwards_G2 .fixed_base_exp_window_table) (.num 1),
   .push (.stat .edwards_G2 .fixed_base_exp_window_table) (.num 5),
   .push (.stat .edwards_G2 .fixed_base_exp_window_table) (.num 11),
   .push (.stat .edwards_G2 .fixed_base_exp_window_table) (.num 26),
   .push (.stat .edwards_G2 .fixed_base_exp_window_table) (.num 61),
   .push (.stat .edwards_G2 .fixed_base_exp_window_table) (.num 146),
   .push (.stat .edwards_G2 .fixed_base_exp_window_table) (.num 357),
   .push (.stat .edwards_G2 .fixed_base_exp_window_table) (.num 823),
   .push (.stat .edwards_G2 .fixed_base_exp_window_table) (.num 1589),
   .push (.stat .edwards_G2 .fixed_base_exp_window_table) (.num 4136),
   .push (.stat .edwards_G2 .fixed_base_exp_window_table) (.num 14298),
   .push (.stat .edwards_G2 .fixed_base_exp_window_table) (.num 16745),
   .push (.stat .edwards_G2 .fixed_base_exp_window_table) (.num 51769),
   .push (.stat .edwards_G2 .fixed_base_exp_window_table) (.num 99811),
   .push (.stat .edwards_G2 .fixed_base_exp_window_table) (.num 193307),
   .push (.stat .edwards_G2 .fixed_base_exp_window_table) (.num 0),
   .push (.stat .edwards_G2 .fixed_base_exp_window_table) (.num 907185),
   .push (.stat .edwards_G2 .fixed_base_exp_window_table) (.num 1389683),
   .push (.stat .edwards_G2 .fixed_base_exp_window_table) (.num 0),
   .push (.stat .edwards_G2 .fixed_base_exp_window_table) (.num 6752696),
   .push (.stat .edwards_G2 .fixed_base_exp_window_table) (.num 193642895),
   .push (.stat .edwards_G2 .fixed_base_exp_window_table) (.num 226760202),
   .assign (.glob .edwards_ate_loop_count) (.big 4492509698523932320491110403),
   .assign (.glob .edwards_final_exponent_last_chunk_abs_of_w0) (.big 17970038794095729281964441603),
   .assign (.glob .edwards_final_exponent_last_chunk_is_w0_neg) (.bool true),
   .assign (.glob .edwards_final_exponent_last_chunk_w1) (.big 4)]

/-- `init_mnt4_fields()`, libff/algebra/curves/mnt/mnt4/mnt4_fields.cpp:27-104 (the branch for 8-byte limbs), statement by statement. -/
def init_mnt4_fields : List Cmd :=
  [.assign (.glob .mnt46_modulus_A) (.big 475922286169261325753349249653048451545124878552823515553267735739164647307408490559963137),
   .check (.fn (.modulusIsValid .mnt46_FpA)),
   .assign (.stat .mnt46_FpA .Rsquared) (.big 163983144722506446826715124368972380525894397127205577781234305496325861831001705438796139),
   .assign (.stat .mnt46_FpA .Rcubed) (.big 207236281459091063710247635236340312578688659363066707916716212805695955118593239854980171),
   .assign (.stat .mnt46_FpA .inv) (.num 0xbb4334a3ffffffff),
   .assign (.stat .mnt46_FpA .num_bits) (.num 298),
   .assign (.stat .mnt46_FpA .euler) (.big 237961143084630662876674624826524225772562439276411757776633867869582323653704245279981568),
   .assign (.stat .mnt46_FpA .s) (.num 34),
   .assign (.stat .mnt46_FpA .t) (.big 27702323054502562488973446286577291993024111641153199339359284829066871159442729),
   .assign (.stat .mnt46_FpA .t_minus_1_over_2) (.big 13851161527251281244486723143288645996512055820576599669679642414533435579721364),
   .assign (.stat .mnt46_FpA .multiplicative_generator) (.lit .mnt46_FpA 10),
   .assign (.stat .mnt46_FpA .root_of_unity) (.lit .mnt46_FpA 120638817826913173458768829485690099845377008030891618010109772937363554409782252579816313),
   .assign (.stat .mnt46_FpA .nqr) (.lit .mnt46_FpA 5),
   .assign (.stat .mnt46_FpA .nqr_to_t) (.lit .mnt46_FpA 406220604243090401056429458730298145937262552508985450684842547562990900634752279902740880),
   .assign (.glob .mnt46_modulus_B) (.big 475922286169261325753349249653048451545124879242694725395555128576210262817955800483758081),
   .check (.fn (.modulusIsValid .mnt46_FpB)),
   .assign (.stat .mnt46_FpB .Rsquared) (.big 273000478523237720910981655601160860640083126627235719712980612296263966512828033847775776),
   .assign (.stat .mnt46_FpB .Rcubed) (.big 427298980065529822574935274648041073124704261331681436071990730954930769758106792920349077),
   .assign (.stat .mnt46_FpB .inv) (.num 0xb071a1b67165ffff),
   .assign (.stat .mnt46_FpB .num_bits) (.num 298),
   .assign (.stat .mnt46_FpB .euler) (.big 237961143084630662876674624826524225772562439621347362697777564288105131408977900241879040),
   .assign (.stat .mnt46_FpB .s) (.num 17),
   .assign (.stat .mnt46_FpB .t) (.big 3630998887399759870554727551674258816109656366292531779446068791017229177993437198515),
   .assign (.stat .mnt46_FpB .t_minus_1_over_2) (.big 1815499443699879935277363775837129408054828183146265889723034395508614588996718599257),
   .assign (.stat .mnt46_FpB .multiplicative_generator) (.lit .mnt46_FpB 17),
   .assign (.stat .mnt46_FpB .root_of_unity) (.lit .mnt46_FpB 264706250571800080758069302369654305530125675521263976034054878017580902343339784464690243),
   .assign (.stat .mnt46_FpB .nqr) (.lit .mnt46_FpB 17),
   .assign (.stat .mnt46_FpB .nqr_to_t) (.lit .mnt46_FpB 264706250571800080758069302369654305530125675521263976034054878017580902343339784464690243),
   .assign (.stat .mnt4_Fq2 .euler) (.big 113251011236288135098249345249154230895914381858788918106847214243419142422924133497460817468249854833067260038985710370091920860837014281886963086681184370139950267830740466401280),
   .assign (.stat .mnt4_Fq2 .s) (.num 18),
   .assign (.stat .mnt4_Fq2 .t) (.big 864036645784668999467844736092790457885088972921668381552484239528039111503022258739172496553419912972009735404859240494475714575477709059806542104196047745818712370534824115),
   .assign (.stat .mnt4_Fq2 .t_minus_1_over_2) (.big 432018322892334499733922368046395228942544486460834190776242119764019555751511129369586248276709956486004867702429620247237857287738854529903271052098023872909356185267412057),
   .assign (.stat .mnt4_Fq2 .non_residue) (.lit .mnt46_FpB 17),
   .assign (.stat .mnt4_Fq2 .nqr) (.make2 .mnt4_Fq2 (.lit .mnt46_FpB 8) (.lit .mnt46_FpB 1)),
   .assign (.stat .mnt4_Fq2 .nqr_to_t) (.make2 .mnt4_Fq2 (.lit .mnt46_FpB 0) (.lit .mnt46_FpB 29402818985595053196743631544512156561638230562612542604956687802791427330205135130967658)),
   .assign (.frob1 .mnt4_Fq2 0) (.lit .mnt46_FpB 1),
   .assign (.frob1 .mnt4_Fq2 1) (.lit .mnt46_FpB 475922286169261325753349249653048451545124879242694725395555128576210262817955800483758080),
   .assign (.stat .mnt4_Fq4 .euler) (.big 25651583092083722860389456294636122410439879926586580563315945736434716064849132519766511207459420384360697907406346373215133006874856109796738702470938129733457580420092444037238870266485480310448412800447687355912222889117273270333186953365310343339095195101362180341777704896596606135620801390396337387451719858347266414533678045654385500808110588904079360),
   .assign (.stat .mnt4_Fq4 .s) (.num 19),
   .assign (.stat .mnt4_Fq4 .t) (.big 97853023880324260179097962549728860513457793909403154614700110383738388308903246001306576566541368043368140821099648945675403621196197928606943902858498114522772142105455185078578454080526276819032336427489041732453242832631199914295909703694573758465176372914742204062567538820635246794207768975816106366927031930340829523215019400231878283722345691315),
   .assign (.stat .mnt4_Fq4 .t_minus_1_over_2) (.big 48926511940162130089548981274864430256728896954701577307350055191869194154451623000653288283270684021684070410549824472837701810598098964303471951429249057261386071052727592539289227040263138409516168213744520866226621416315599957147954851847286879232588186457371102031283769410317623397103884487908053183463515965170414761607509700115939141861172845657),
   .assign (.stat .mnt4_Fq4 .non_residue) (.lit .mnt46_FpB 17),
   .assign (.stat .mnt4_Fq4 .nqr) (.make2 .mnt4_Fq4 (.make2 .mnt4_Fq2 (.lit .mnt46_FpB 4) (.lit .mnt46_FpB 0)) (.fn (.one .mnt4_Fq2))),
   .assign (.stat .mnt4_Fq4 .nqr_to_t) (.make2 .mnt4_Fq4 (.fn (.zero .mnt4_Fq2)) (.make2 .mnt4_Fq2 (.lit .mnt46_FpB 29121826399401736230321201250169476571908331476055427845679523445723222361523083487327506) (.lit .mnt46_FpB 0))),
   .assign (.frob1 .mnt4_Fq4 0) (.lit .mnt46_FpB 1),
   .assign (.frob1 .mnt4_Fq4 1) (.lit .mnt46_FpB 7684163245453501615621351552473337069301082060976805004625011694147890954040864167002308),
   .assign (.frob1 .mnt4_Fq4 2) (.lit .mnt46_FpB 475922286169261325753349249653048451545124879242694725395555128576210262817955800483758080),
   .assign (.frob1 .mnt4_Fq4 3) (.lit .mnt46_FpB 468238122923807824137727898100575114475823797181717920390930116882062371863914936316755773)]

/-- `init_mnt4_params()`, libff/algebra/curves/mnt/mnt4/mnt4_init.cpp:42-196 (the branch for 8-byte limbs), statement by statement. The call of `init_mnt4_fields()` at its beginning is put in front in `Curve.init`. -/
def init_mnt4_params : List Cmd :=
  [.assign (.stat .mnt4_G1 .coeff_a) (.lit .mnt46_FpB 2),
   .assign (.stat .mnt4_G1 .coeff_b) (.lit .mnt46_FpB 423894536526684178289416011533888240029318103673896002803341544124054745019340795360841685),
   .assign (.glob .mnt4_twist) (.make2 .mnt4_Fq2 (.fn (.zero .mnt46_FpB)) (.fn (.one .mnt46_FpB))),
   .assign (.glob .mnt4_twist_coeff_a) (.make2 .mnt4_Fq2 (.times .mnt46_FpB (.var (.stat .mnt4_G1 .coeff_a)) (.var (.stat .mnt4_Fq2 .non_residue))) (.fn (.zero .mnt46_FpB))),
   .assign (.glob .mnt4_twist_coeff_b) (.make2 .mnt4_Fq2 (.fn (.zero .mnt46_FpB)) (.times .mnt46_FpB (.var (.stat .mnt4_G1 .coeff_b)) (.var (.stat .mnt4_Fq2 .non_residue)))),
   .assign (.stat .mnt4_G2 .twist) (.var (.glob .mnt4_twist)),
   .assign (.stat .mnt4_G2 .coeff_a) (.var (.glob .mnt4_twist_coeff_a)),
   .assign (.stat .mnt4_G2 .coeff_b) (.var (.glob .mnt4_twist_coeff_b)),
   .assign (.glob .mnt4_twist_mul_by_a_c0) (.times .mnt46_FpB (.var (.stat .mnt4_G1 .coeff_a)) (.var (.stat .mnt4_Fq2 .non_residue))),
   .assign (.glob .mnt4_twist_mul_by_a_c1) (.times .mnt46_FpB (.var (.stat .mnt4_G1 .coeff_a)) (.var (.stat .mnt4_Fq2 .non_residue))),
   .assign (.glob .mnt4_twist_mul_by_b_c0) (.times .mnt46_FpB (.var (.stat .mnt4_G1 .coeff_b)) (.call (.squared .mnt46_FpB) (.var (.stat .mnt4_Fq2 .non_residue)))),
   .assign (.glob .mnt4_twist_mul_by_b_c1) (.times .mnt46_FpB (.var (.stat .mnt4_G1 .coeff_b)) (.var (.stat .mnt4_Fq2 .non_residue))),
   .assign (.glob .mnt4_twist_mul_by_q_X) (.lit .mnt46_FpB 475922286169261325753349249653048451545124879242694725395555128576210262817955800483758080),
   .assign (.glob .mnt4_twist_mul_by_q_Y) (.lit .mnt46_FpB 7684163245453501615621351552473337069301082060976805004625011694147890954040864167002308),
   .assign (.stat .mnt4_G1 .G1_zero) (.make3 .mnt4_G1 (.fn (.zero .mnt46_FpB)) (.fn (.one .mnt46_FpB)) (.fn (.zero .mnt46_FpB))),
   .assign (.stat .mnt4_G1 .G1_one) (.make3 .mnt4_G1 (.lit .mnt46_FpB 60760244141852568949126569781626075788424196370144486719385562369396875346601926534016838) (.lit .mnt46_FpB 363732850702582978263902770815145784459747722357071843971107674179038674942891694705904306) (.fn (.one .mnt46_FpB))),
   .assign (.stat .mnt4_G1 .initialized) (.bool true),
   .assign (.stat .mnt4_G1 .h) (.big 1),
   .clear (.stat .mnt4_G1 .wnaf_window_table),
   .push (.stat .mnt4_G1 .wnaf_window_table) (.num 11),
   .push (.stat .mnt4_G1 .wnaf_window_table) (.num 24),
   .push (.stat .mnt4_G1 .wnaf_window_table) (.num 60),
   .push (.stat .mnt4_G1 .wnaf_window_table) (.num 127),
   .clear (.stat .mnt4_G1 .fixed_base_exp_window_table),
   .push (.stat .mnt4_G1 .fixed_base_exp_window_table) (.num 1),
   .push (.stat .mnt4_G1 .fixed_base_exp_window_table) (.num 5),
   .push (.stat .mnt4_G1 .fixed_base_exp_window_table) (.num 10),
   .push (.stat .mnt4_G1 .fixed_base_exp_window_table) (.num 25),
   .push (.stat .mnt4_G1 .fixed_base_exp_window_table) (.num 60),
   .push (.stat .mnt4_G1 .fixed_base_exp_window_table) (.num 144),
   .push (.stat .mnt4_G1 .fixed_base_exp_window_table) (.num 345),
   .push (.stat .mnt4_G1 .fixed_base_exp_window_table) (.num 855),
   .push (.stat .mnt4_G1 .fixed_base_exp_window_table) (.num 1805),
   .push (.stat .mnt4_G1 .fixed_base_exp_window_table) (.num 3912),
   .push (.stat .mnt4_G1 .fixed_base_exp_window_table) (.num 11265),
   .push (.stat .mnt4_G1 .fixed_base_exp_window_table) (.num 27898),
   .push (.stat .mnt4_G1 .fixed_base_exp_window_table) (.num 57597),
   .push (.stat .mnt4_G1 .fixed_base_exp_window_table) (.num 145299),
   .push (.stat .mnt4_G1 .fixed_base_exp_window_table) (.num 157205),
   .push (.stat .mnt4_G1 .fixed_base_exp_window_table) (.num 601601),
   .push (.stat .mnt4_G1 .fixed_base_exp_window_table) (.num 1107377),
   .push (.stat .mnt4_G1 .fixed_base_exp_window_table) (.num 1789647),
   .push (.stat .mnt4_G1 .fixed_base_exp_window_table) (.num 4392627),
   .push (.stat .mnt4_G1 .fixed_base_exp_window_table) (.num 8221211),
   .push (.stat .mnt4_G1 .fixed_base_exp_window_table) (.num 0),
   .push (.stat .mnt4_G1 .fixed_base_exp_window_table) (.num 42363731),
   .assign (.stat .mnt4_G2 .G2_zero) (.make3 .mnt4_G2 (.fn (.zero .mnt4_Fq2)) (.fn (.one .mnt4_Fq2)) (.fn (.zero .mnt4_Fq2))),
   .assign (.stat .mnt4_G2 .G2_one) (.make3 .mnt4_G2 (.make2 .mnt4_Fq2 (.lit .mnt46_FpB 438374926219350099854919100077809681842783509163790991847867546339851681564223481322252708) (.lit .mnt46_FpB 37620953615500480110935514360923278605464476459712393277679280819942849043649216370485641)) (.make2 .mnt4_Fq2 (.lit .mnt46_FpB 37437409008528968268352521034936931842973546441370663118543015118291998305624025037512482) (.lit .mnt46_FpB 424621479598893882672393190337420680597584695892317197646113820787463109735345923009077489)) (.fn (.one .mnt4_Fq2))),
   .assign (.stat .mnt4_G2 .initialized) (.bool true),
   .assign (.stat .mnt4_G2 .h) (.big 475922286169261325753349249653048451545124879932565935237842521413255878328503110407553025),
   .clear (.stat .mnt4_G2 .wnaf_window_table),
   .push (.stat .mnt4_G2 .wnaf_window_table) (.num 5),
   .push (.stat .mnt4_G2 .wnaf_window_table) (.num 15),
   .push (.stat .mnt4_G2 .wnaf_window_table) (.num 39),
   .push (.stat .mnt4_G2 .wnaf_window_table) (.num 109),
   .clear (.stat .mnt4_G2 .fixed_base_exp_window_table),
   .push (.stat .mnt4_G2 .fixed_base_exp_window_table) (.num 1),
   .push (.stat .mnt4_G2 .fixed_base_exp_window_table) (.num 4),
   .push (.stat .mnt4_G2 .fixed_base_exp_window_table) (.num 10),
   .push (.stat .mnt4_G2 .fixed_base_exp_window_table) (.num 25),
   .push (.stat .mnt4_G2 .fixed_base_exp_window_table) (.num 60),
   .push (.stat .mnt4_G2 .fixed_base_exp_window_table) (.num 143),
   .push (.stat .mnt4_G2 .fixed_base_exp_window_table) (.num 345),
   .push (.stat .mnt4_G2 .fixed_base_exp_window_table) (.num 821),
   .push (.stat .mnt4_G2 .fixed_base_exp_window_table) (.num 1794),
   .push (.stat .mnt4_G2 .fixed_base_exp_window_table) (.num 3920),
   .push (.stat .mnt4_G2 .fixed_base_exp_window_table) (.num 11301),
   .push (.stat .mnt4_G2 .fixed_base_exp_window_table) (.num 18960),
   .push (.stat .mnt4_G2 .fixed_base_exp_window_table) (.num 44199),
   .push (.stat .mnt4_G2 .fixed_base_exp_window_table) (.num 0),
   .push (.stat .mnt4_G2 .fixed_base_exp_window_table) (.num 150800),
   .push (.stat .mnt4_G2 .fixed_base_exp_window_table) (.num 548695),
   .push (.stat .mnt4_G2 .fixed_base_exp_window_table) (.num 1051769),
   .push (.stat .mnt4_G2 .fixed_base_exp_window_table) (.num 2023926),
   .push (.stat .mnt4_G2 .fixed_base_exp_window_table) (.num 3787109),
   .push (.stat .mnt4_G2 .fixed_base_exp_window_table) (.num 7107480),
   .push (.stat .mnt4_G2 .fixed_base_exp_window_table) (.num 0),
   .push (.stat .mnt4_G2 .fixed_base_exp_window_table) (.num 38760027),
   .assign (.glob .mnt4_ate_loop_count) (.big 689871209842287392837045615510547309923794944),
   .assign (.glob .mnt4_ate_is_loop_count_neg) (.bool false),
   .assign (.glob .mnt4_final_exponent) (.big 107797360357109903430794490309592072278927783803031854357910908121903439838772861497177116410825586743089760869945394610511917274977971559062689561855016270594656570874331111995170645233717143416875749097203441437192367065467706065411650403684877366879441766585988546560),
   .assign (.glob .mnt4_final_exponent_last_chunk_abs_of_w0) (.big 689871209842287392837045615510547309923794945),
   .assign (.glob .mnt4_final_exponent_last_chunk_is_w0_neg) (.bool false),
   .assign (.glob .mnt4_final_exponent_last_chunk_w1) (.big 1)]

/-- `init_mnt6_fields()`, libff/algebra/curves/mnt/mnt6/mnt6_fields.cpp:27-111 (the branch for 8-byte limbs), statement by statement. -/
def init_mnt6_fields : List Cmd :=
  [.assign (.glob .mnt46_modulus_B) (.big 475922286169261325753349249653048451545124879242694725395555128576210262817955800483758081),
   .check (.fn (.modulusIsValid .mnt46_FpB)),
   .assign (.stat .mnt46_FpB .Rsquared) (.big 273000478523237720910981655601160860640083126627235719712980612296263966512828033847775776),
   .assign (.stat .mnt46_FpB .Rcubed) (.big 427298980065529822574935274648041073124704261331681436071990730954930769758106792920349077),
   .assign (.stat .mnt46_FpB .inv) (.num 0xb071a1b67165ffff),
   .assign (.stat .mnt46_FpB .num_bits) (.num 298),
   .assign (.stat .mnt46_FpB .euler) (.big 237961143084630662876674624826524225772562439621347362697777564288105131408977900241879040),
   .assign (.stat .mnt46_FpB .s) (.num 17),
   .assign (.stat .mnt46_FpB .t) (.big 3630998887399759870554727551674258816109656366292531779446068791017229177993437198515),
   .assign (.stat .mnt46_FpB .t_minus_1_over_2) (.big 1815499443699879935277363775837129408054828183146265889723034395508614588996718599257),
   .assign (.stat .mnt46_FpB .multiplicative_generator) (.lit .mnt46_FpB 17),
   .assign (.stat .mnt46_FpB .root_of_unity) (.lit .mnt46_FpB 264706250571800080758069302369654305530125675521263976034054878017580902343339784464690243),
   .assign (.stat .mnt46_FpB .nqr) (.lit .mnt46_FpB 17),
   .assign (.stat .mnt46_FpB .nqr_to_t) (.lit .mnt46_FpB 264706250571800080758069302369654305530125675521263976034054878017580902343339784464690243),
   .assign (.glob .mnt46_modulus_A) (.big 475922286169261325753349249653048451545124878552823515553267735739164647307408490559963137),
   .check (.fn (.modulusIsValid .mnt46_FpA)),
   .assign (.stat .mnt46_FpA .Rsquared) (.big 163983144722506446826715124368972380525894397127205577781234305496325861831001705438796139),
   .assign (.stat .mnt46_FpA .Rcubed) (.big 207236281459091063710247635236340312578688659363066707916716212805695955118593239854980171),
   .assign (.stat .mnt46_FpA .inv) (.num 0xbb4334a3ffffffff),
   .assign (.stat .mnt46_FpA .num_bits) (.num 298),
   .assign (.stat .mnt46_FpA .euler) (.big 237961143084630662876674624826524225772562439276411757776633867869582323653704245279981568),
   .assign (.stat .mnt46_FpA .s) (.num 34),
   .assign (.stat .mnt46_FpA .t) (.big 27702323054502562488973446286577291993024111641153199339359284829066871159442729),
   .assign (.stat .mnt46_FpA .t_minus_1_over_2) (.big 13851161527251281244486723143288645996512055820576599669679642414533435579721364),
   .assign (.stat .mnt46_FpA .multiplicative_generator) (.lit .mnt46_FpA 10),
   .assign (.stat .mnt46_FpA .root_of_unity) (.lit .mnt46_FpA 120638817826913173458768829485690099845377008030891618010109772937363554409782252579816313),
   .assign (.stat .mnt46_FpA .nqr) (.lit .mnt46_FpA 5),
   .assign (.stat .mnt46_FpA .nqr_to_t) (.lit .mnt46_FpA 406220604243090401056429458730298145937262552508985450684842547562990900634752279902740880),
   .assign (.stat .mnt6_Fq3 .euler) (.big 53898680178554951715397245154796036139463891589001478629193136369124915637741423690184935056189295242736833704290747216410090671804540908400210778934462129625646263095398323485795557551284190224166851571615834194321908328559167529729507439069424158411618728014749106176),
   .assign (.stat .mnt6_Fq3 .s) (.num 34),
   .assign (.stat .mnt6_Fq3 .t) (.big 6274632199033507112809136178669989590936327770934612330653836993631547740397674926811006741620285348354004521888069251599964996777072188956687550402067383940523288107407084140669968625447269322370045302856694231080113482726640944570478452261237446033817102203),
   .assign (.stat .mnt6_Fq3 .t_minus_1_over_2) (.big 3137316099516753556404568089334994795468163885467306165326918496815773870198837463405503370810142674177002260944034625799982498388536094478343775201033691970261644053703542070334984312723634661185022651428347115540056741363320472285239226130618723016908551101),
   .assign (.stat .mnt6_Fq3 .non_residue) (.lit .mnt46_FpA 5),
   .assign (.stat .mnt6_Fq3 .nqr) (.make3 .mnt6_Fq3 (.lit .mnt46_FpA 5) (.lit .mnt46_FpA 0) (.lit .mnt46_FpA 0)),
   .assign (.stat .mnt6_Fq3 .nqr_to_t) (.make3 .mnt6_Fq3 (.lit .mnt46_FpA 154361449678783505076984156275977937654331103361174469632346230549735979552469642799720052) (.lit .mnt46_FpA 0) (.lit .mnt46_FpA 0)),
   .assign (.frob1 .mnt6_Fq3 0) (.lit .mnt46_FpA 1),
   .assign (.frob1 .mnt6_Fq3 1) (.lit .mnt46_FpA 471738898967521029133040851318449165997304108729558973770077319830005517129946578866686956),
   .assign (.frob1 .mnt6_Fq3 2) (.lit .mnt46_FpA 4183387201740296620308398334599285547820769823264541783190415909159130177461911693276180),
   .assign (.frob2 .mnt6_Fq3 0) (.lit .mnt46_FpA 1),
   .assign (.frob2 .mnt6_Fq3 1) (.lit .mnt46_FpA 4183387201740296620308398334599285547820769823264541783190415909159130177461911693276180),
   .assign (.frob2 .mnt6_Fq3 2) (.lit .mnt46_FpA 471738898967521029133040851318449165997304108729558973770077319830005517129946578866686956),
   .assign (.stat .mnt6_Fq6 .euler) (.big 5810135449980304883458330322095291308782409998888627392716003571657556187993772370764833589492533062889518837877391327519721391945218338205520638708217218142560592395762000904244952641817702503236596390200424885243404760954857204010811553368230438805100520138917875345043409872160393969038819851306130935281801223313744881543615360884552109851303547212609185435570387523149780308979035592069180747953000755531869142327042207668768296881030935139706074910917829157651610581536611575608256606920332948110215549184448842466566234011340898304),
   .assign (.stat .mnt6_Fq6 .s) (.num 35),
   .assign (.stat .mnt6_Fq6 .t) (.big 338194394133769958481328231404494221134950057538728427183581724044491780688623686482014227046895135595085963017621038453637237657398121559848114772945247715255280048339744151118499729888147121716558257478779699027270821444390877383459100579390677088237165015826343753435847458438970728837816268863746135919459701010127603166248612157334114299813724775601247409100783262585160573302944865547422130356601017732864079433903226609619351620845900332770896779310297521160194334896316959965523367684819557943277500405933756990507607931),
   .assign (.stat .mnt6_Fq6 .t_minus_1_over_2) (.big 169097197066884979240664115702247110567475028769364213591790862022245890344311843241007113523447567797542981508810519226818618828699060779924057386472623857627640024169872075559249864944073560858279128739389849513635410722195438691729550289695338544118582507913171876717923729219485364418908134431873067959729850505063801583124306078667057149906862387800623704550391631292580286651472432773711065178300508866432039716951613304809675810422950166385448389655148760580097167448158479982761683842409778971638750202966878495253803965),
   .assign (.stat .mnt6_Fq6 .non_residue) (.lit .mnt46_FpA 5),
   .assign (.stat .mnt6_Fq6 .nqr) (.make2 .mnt6_Fq6 (.make3 .mnt6_Fq3 (.lit .mnt46_FpA 2) (.lit .mnt46_FpA 0) (.lit .mnt46_FpA 0)) (.fn (.one .mnt6_Fq3))),
   .assign (.stat .mnt6_Fq6 .nqr_to_t) (.make2 .mnt6_Fq6 (.fn (.zero .mnt6_Fq3)) (.make3 .mnt6_Fq3 (.lit .mnt46_FpA 0) (.lit .mnt46_FpA 95371092960829291863271933246328602470562937077363363183769791678780911004969735451493071) (.lit .mnt46_FpA 0))),
   .assign (.frob1 .mnt6_Fq6 0) (.lit .mnt46_FpA 1),
   .assign (.frob1 .mnt6_Fq6 1) (.lit .mnt46_FpA 471738898967521029133040851318449165997304108729558973770077319830005517129946578866686957),
   .assign (.frob1 .mnt6_Fq6 2) (.lit .mnt46_FpA 471738898967521029133040851318449165997304108729558973770077319830005517129946578866686956),
   .assign (.frob1 .mnt6_Fq6 3) (.lit .mnt46_FpA 475922286169261325753349249653048451545124878552823515553267735739164647307408490559963136),
   .assign (.frob1 .mnt6_Fq6 4) (.lit .mnt46_FpA 4183387201740296620308398334599285547820769823264541783190415909159130177461911693276180),
   .assign (.frob1 .mnt6_Fq6 5) (.lit .mnt46_FpA 4183387201740296620308398334599285547820769823264541783190415909159130177461911693276181),
   .assign (.stat .mnt6_Fp2 .non_residue) (.var (.stat .mnt6_Fq3 .non_residue))]

/-- `init_mnt6_params()`, libff/algebra/curves/mnt/mnt6/mnt6_init.cpp:44-201 (the branch for 8-byte limbs), statement by statement. The call of `init_mnt6_fields()` at its beginning is put in front in `Curve.init`. -/
def init_mnt6_params : List Cmd :=
  [.assign (.stat .mnt6_G1 .coeff_a) (.lit .mnt46_FpA 11),
   .assign (.stat .mnt6_G1 .coeff_b) (.lit .mnt46_FpA 106700080510851735677967319632585352256454251201367587890185989362936000262606668469523074),
   .assign (.glob .mnt6_twist) (.make3 .mnt6_Fq3 (.fn (.zero .mnt46_FpA)) (.fn (.one .mnt46_FpA)) (.fn (.zero .mnt46_FpA))),
   .assign (.glob .mnt6_twist_coeff_a) (.make3 .mnt6_Fq3 (.fn (.zero .mnt46_FpA)) (.fn (.zero .mnt46_FpA)) (.var (.stat .mnt6_G1 .coeff_a))),
   .assign (.glob .mnt6_twist_coeff_b) (.make3 .mnt6_Fq3 (.times .mnt46_FpA (.var (.stat .mnt6_G1 .coeff_b)) (.var (.stat .mnt6_Fq3 .non_residue))) (.fn (.zero .mnt46_FpA)) (.fn (.zero .mnt46_FpA))),
   .assign (.stat .mnt6_G2 .twist) (.var (.glob .mnt6_twist)),
   .assign (.stat .mnt6_G2 .coeff_a) (.var (.glob .mnt6_twist_coeff_a)),
   .assign (.stat .mnt6_G2 .coeff_b) (.var (.glob .mnt6_twist_coeff_b)),
   .assign (.glob .mnt6_twist_mul_by_a_c0) (.times .mnt46_FpA (.var (.stat .mnt6_G1 .coeff_a)) (.var (.stat .mnt6_Fq3 .non_residue))),
   .assign (.glob .mnt6_twist_mul_by_a_c1) (.times .mnt46_FpA (.var (.stat .mnt6_G1 .coeff_a)) (.var (.stat .mnt6_Fq3 .non_residue))),
   .assign (.glob .mnt6_twist_mul_by_a_c2) (.var (.stat .mnt6_G1 .coeff_a)),
   .assign (.glob .mnt6_twist_mul_by_b_c0) (.times .mnt46_FpA (.var (.stat .mnt6_G1 .coeff_b)) (.var (.stat .mnt6_Fq3 .non_residue))),
   .assign (.glob .mnt6_twist_mul_by_b_c1) (.times .mnt46_FpA (.var (.stat .mnt6_G1 .coeff_b)) (.var (.stat .mnt6_Fq3 .non_residue))),
   .assign (.glob .mnt6_twist_mul_by_b_c2) (.times .mnt46_FpA (.var (.stat .mnt6_G1 .coeff_b)) (.var (.stat .mnt6_Fq3 .non_residue))),
   .assign (.glob .mnt6_twist_mul_by_q_X) (.lit .mnt46_FpA 4183387201740296620308398334599285547820769823264541783190415909159130177461911693276180),
   .assign (.glob .mnt6_twist_mul_by_q_Y) (.lit .mnt46_FpA 475922286169261325753349249653048451545124878552823515553267735739164647307408490559963136),
   .assign (.stat .mnt6_G1 .G1_zero) (.make3 .mnt6_G1 (.fn (.zero .mnt46_FpA)) (.fn (.one .mnt46_FpA)) (.fn (.zero .mnt46_FpA))),
   .assign (.stat .mnt6_G1 .G1_one) (.make3 .mnt6_G1 (.lit .mnt46_FpA 336685752883082228109289846353937104185698209371404178342968838739115829740084426881123453) (.lit .mnt46_FpA 402596290139780989709332707716568920777622032073762749862342374583908837063963736098549800) (.fn (.one .mnt46_FpA))),
   .assign (.stat .mnt6_G1 .initialized) (.bool true),
   .assign (.stat .mnt6_G1 .h) (.big 1),
   .clear (.stat .mnt6_G1 .wnaf_window_table),
   .push (.stat .mnt6_G1 .wnaf_window_table) (.num 11),
   .push (.stat .mnt6_G1 .wnaf_window_table) (.num 24),
   .push (.stat .mnt6_G1 .wnaf_window_table) (.num 60),
   .push (.stat .mnt6_G1 .wnaf_window_table) (.num 127),
   .clear (.stat .mnt6_G1 .fixed_base_exp_window_table),
   .push (.stat .mnt6_G1 .fixed_base_exp_window_table) (.num 1),
   .push (.stat .mnt6_G1 .fixed_base_exp_window_table) (.num 4),
   .push (.stat .mnt6_G1 .fixed_base_exp_window_table) (.num 10),
   .push (.stat .mnt6_G1 .fixed_base_exp_window_table) (.num 25),
   .push (.stat .mnt6_G1 .fixed_base_exp_window_table) (.num 60),
   .push (.stat .mnt6_G1 .fixed_base_exp_window_table) (.num 146),
   .push (.stat .mnt6_G1 .fixed_base_exp_window_table) (.num 350),
   .push (.stat .mnt6_G1 .fixed_base_exp_window_table) (.num 845),
   .push (.stat .mnt6_G1 .fixed_base_exp_window_table) (.num 1840),
   .push (.stat .mnt6_G1 .fixed_base_exp_window_table) (.num 3904),
   .push (.stat .mnt6_G1 .fixed_base_exp_window_table) (.num 11309),
   .push (.stat .mnt6_G1 .fixed_base_exp_window_table) (.num 24016),
   .push (.stat .mnt6_G1 .fixed_base_exp_window_table) (.num 72289),
   .push (.stat .mnt6_G1 .fixed_base_exp_window_table) (.num 138413),
   .push (.stat .mnt6_G1 .fixed_base_exp_window_table) (.num 156390),
   .push (.stat .mnt6_G1 .fixed_base_exp_window_table) (.num 562560),
   .push (.stat .mnt6_G1 .fixed_base_exp_window_table) (.num 1036742),
   .push (.stat .mnt6_G1 .fixed_base_exp_window_table) (.num 2053819),
   .push (.stat .mnt6_G1 .fixed_base_exp_window_table) (.num 4370224),
   .push (.stat .mnt6_G1 .fixed_base_exp_window_table) (.num 8215704),
   .push (.stat .mnt6_G1 .fixed_base_exp_window_table) (.num 0),
   .push (.stat .mnt6_G1 .fixed_base_exp_window_table) (.num 42682375),
   .assign (.stat .mnt6_G2 .G2_zero) (.make3 .mnt6_G2 (.fn (.zero .mnt6_Fq3)) (.fn (.one .mnt6_Fq3)) (.fn (.zero .mnt6_Fq3))),
   .assign (.stat .mnt6_G2 .G2_one) (.make3 .mnt6_G2 (.make3 .mnt6_Fq3 (.lit .mnt46_FpA 421456435772811846256826561593908322288509115489119907560382401870203318738334702321297427) (.lit .mnt46_FpA 103072927438548502463527009961344915021167584706439945404959058962657261178393635706405114) (.lit .mnt46_FpA 143029172143731852627002926324735183809768363301149009204849580478324784395590388826052558)) (.make3 .mnt6_Fq3 (.lit .mnt46_FpA 464673596668689463130099227575639512541218133445388869383893594087634649237515554342751377) (.lit .mnt46_FpA 100642907501977375184575075967118071807821117960152743335603284583254620685343989304941678) (.lit .mnt46_FpA 123019855502969896026940545715841181300275180157288044663051565390506010149881373807142903)) (.fn (.one .mnt6_Fq3))),
   .assign (.stat .mnt6_G2 .initialized) (.bool true),
   .assign (.stat .mnt6_G2 .h) (.big 226502022472576270196498690498308461791828762732602586162207535351960270082712694977333372361549082214519252261735048131889018501404377856786623430385820659037970876666767495659520),
   .clear (.stat .mnt6_G2 .wnaf_window_table),
   .push (.stat .mnt6_G2 .wnaf_window_table) (.num 5),
   .push (.stat .mnt6_G2 .wnaf_window_table) (.num 15),
   .push (.stat .mnt6_G2 .wnaf_window_table) (.num 39),
   .push (.stat .mnt6_G2 .wnaf_window_table) (.num 109),
   .clear (.stat .mnt6_G2 .fixed_base_exp_window_table),
   .push (.stat .mnt6_G2 .fixed_base_exp_window_table) (.num 1),
   .push (.stat .mnt6_G2 .fixed_base_exp_window_table) (.num 4),
   .push (.stat .mnt6_G2 .fixed_base_exp_window_table) (.num 10),
   .push (.stat .mnt6_G2 .fixed_base_exp_window_table) (.num 25),
   .push (.stat .mnt6_G2 .fixed_base_exp_window_table) (.num 60),
   .push (.stat .mnt6_G2 .fixed_base_exp_window_table) (.num 144),
   .push (.stat .mnt6_G2 .fixed_base_exp_window_table) (.num 346),
   .push (.stat .mnt6_G2 .fixed_base_exp_window_table) (.num 819),
   .push (.stat .mnt6_G2 .fixed_base_exp_window_table) (.num 1782),
   .push (.stat .mnt6_G2 .fixed_base_exp_window_table) (.num 4002),
   .push (.stat .mnt6_G2 .fixed_base_exp_window_table) (.num 10870),
   .push (.stat .mnt6_G2 .fixed_base_exp_window_table) (.num 18023),
   .push (.stat .mnt6_G2 .fixed_base_exp_window_table) (.num 43161),
   .push (.stat .mnt6_G2 .fixed_base_exp_window_table) (.num 0),
   .push (.stat .mnt6_G2 .fixed_base_exp_window_table) (.num 149743),
   .push (.stat .mnt6_G2 .fixed_base_exp_window_table) (.num 551844),
   .push (.stat .mnt6_G2 .fixed_base_exp_window_table) (.num 1041828),
   .push (.stat .mnt6_G2 .fixed_base_exp_window_table) (.num 1977372),
   .push (.stat .mnt6_G2 .fixed_base_exp_window_table) (.num 3703620),
   .push (.stat .mnt6_G2 .fixed_base_exp_window_table) (.num 7057237),
   .push (.stat .mnt6_G2 .fixed_base_exp_window_table) (.num 0),
   .push (.stat .mnt6_G2 .fixed_base_exp_window_table) (.num 38554492),
   .assign (.glob .mnt6_ate_loop_count) (.big 689871209842287392837045615510547309923794944),
   .assign (.glob .mnt6_ate_is_loop_count_neg) (.bool true),
   .assign (.glob .mnt6_final_exponent) (.big 24416320138090509697890595414313438768353977489862543935904010715439066975957855922532159264213056712140358746422742237328406558352706591021642230618060502855451264045397444793186876199015256781648746888625527075466063075011307800862173764236311342105211681121426931616843635215852236649271569251468773714424208521977615548771268520882870120900360322044218806712027729351845307690474985502587527753847200130592058098363641559341826790559426614919168),
   .assign (.glob .mnt6_final_exponent_last_chunk_abs_of_w0) (.big 689871209842287392837045615510547309923794944),
   .assign (.glob .mnt6_final_exponent_last_chunk_is_w0_neg) (.bool true),
   .assign (.glob .mnt6_final_exponent_last_chunk_w1) (.big 1)]

/-- `init_public_params()` of the six curve classes, which call `init_*_params()` (alt_bn128_pp.cpp:12-15, bls12_381_pp.cpp:5-8,
bn128_pp.cpp:13-16, edwards_pp.cpp:12-15, mnt4_pp.cpp:18-21, mnt6_pp.cpp:18-21). -/
def Curve.init : Curve → List Cmd
  | .alt_bn128 => init_alt_bn128_fields ++ init_alt_bn128_params
  | .bls12_381 => init_bls12_381_fields ++ init_bls12_381_params
  | .bn128 => init_bn128_fields ++ init_bn128_params
  | .edwards => init_edwards_fields ++ init_edwards_params
  | .mnt4 => init_mnt4_fields ++ init_mnt4_params
  | .mnt6 => init_mnt6_fields ++ init_mnt6_params

end Libff.Init
