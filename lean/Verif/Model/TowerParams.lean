import Verif.Model.Ext
import Verif.Model.Params

/-!
# The static data of the extension fields of all curves

Values copied from the `init_*_fields()` functions.  Elements are given by the integers their coefficients
are constructed from, nested as in the constructor calls; `dec2` … `dec12` build the element from them.
-/
namespace Libff

/-- Static members `euler`, `s`, `t`, `t_minus_1_over_2`, `nqr`, `nqr_to_t` of an extension field class
(fp2.hpp:28-35 and alike). -/
structure ExtField (E : Type) where
  euler : Nat
  s : Nat
  t : Nat
  tMinus1Over2 : Nat
  nqr : E
  nqrToT : E

section Decode
variable {K : Type} (of : Nat → K)
/-- `Fp2_model(c0, c1)`. -/
def dec2 {nr : K → K} (v : Nat × Nat) : Quad K nr := ⟨of v.1, of v.2⟩
/-- `Fp3_model(c0, c1, c2)`. -/
def dec3 {nr : K → K} (v : Nat × Nat × Nat) : Cubic K nr := ⟨of v.1, of v.2.1, of v.2.2⟩
/-- `Fp4_model(c0, c1)`. -/
def dec4 {nr : K → K} {nr' : Quad K nr → Quad K nr} (v : (Nat × Nat) × (Nat × Nat)) :
    Quad (Quad K nr) nr' := ⟨dec2 of v.1, dec2 of v.2⟩
/-- `Fp6_2over3_model(c0, c1)`. -/
def dec6q {nr : K → K} {nr' : Cubic K nr → Cubic K nr} (v : (Nat × Nat × Nat) × (Nat × Nat × Nat)) :
    Quad (Cubic K nr) nr' := ⟨dec3 of v.1, dec3 of v.2⟩
/-- `Fp6_3over2_model(c0, c1, c2)`. -/
def dec6c {nr : K → K} {nr' : Quad K nr → Quad K nr} (v : (Nat × Nat) × (Nat × Nat) × (Nat × Nat)) :
    Cubic (Quad K nr) nr' := ⟨dec2 of v.1, dec2 of v.2.1, dec2 of v.2.2⟩
/-- `Fp12_2over3over2_model(c0, c1)`. -/
def dec12 {nr : K → K} {nr' : Quad K nr → Quad K nr} {nr'' : Cubic (Quad K nr) nr' → Cubic (Quad K nr) nr'}
    (v : ((Nat × Nat) × (Nat × Nat) × (Nat × Nat)) × ((Nat × Nat) × (Nat × Nat) × (Nat × Nat))) :
    Quad (Cubic (Quad K nr) nr') nr'' := ⟨dec6c of v.1, dec6c of v.2⟩
end Decode

/-- `alt_bn128_Fq2`, libff/algebra/curves/alt_bn128/alt_bn128_fields.cpp:76-84. -/
def alt_bn128_Fq2_data : ExtField (Nat × Nat) where
  euler := 239547588008311421220994022608339370399626158265550411218223901127035046843189118723920525909718935985594116157406550130918127817069793474323196511433944
  s := 4
  t := 29943448501038927652624252826042421299953269783193801402277987640879380855398639840490065738714866998199264519675818766364765977133724184290399563929243
  tMinus1Over2 := 14971724250519463826312126413021210649976634891596900701138993820439690427699319920245032869357433499099632259837909383182382988566862092145199781964621
  nqr := (2, 1)
  nqrToT := (5033503716262624267312492558379982687175200734934877598599011485707452665730, 314498342015008975724433667930697407966947188435857772134235984660852259084)
/-- `alt_bn128_Fq2::non_residue`, libff/algebra/curves/alt_bn128/alt_bn128_fields.cpp:80. -/
def alt_bn128_Fq2_nonResidue : Nat := 21888242871839275222246405745257275088696311157297823662689037894645226208582
/-- `alt_bn128_Fq2::Frobenius_coeffs_c1`, libff/algebra/curves/alt_bn128/alt_bn128_fields.cpp:83-84. -/
def alt_bn128_Fq2_frob_c1 : List (Nat) :=
  [1,
   21888242871839275222246405745257275088696311157297823662689037894645226208582]

/-- `alt_bn128_Fq6`, libff/algebra/curves/alt_bn128/alt_bn128_fields.cpp:88-110. -/
def alt_bn128_Fq6_data : ExtField ((Nat × Nat) × (Nat × Nat) × (Nat × Nat)) where
  euler := 54983881929589686859421330580436722067327518475677921018330059996100303337308374128867212097882912112983831801410554574313444299768848493499132680619944337947109683847095663735032892840493676667020945747527482211376837044019175877068998572693741735838873805855113185414083578466773124823719245338616604713715536237007459144818392105176489621967934260959676496778033242067460465148059540293548160766892478385479634355306233598756643954842572490928255038258184
  s := 4
  t := 6872985241198710857427666322554590258415939809459740127291257499512537917163546766108401512235364014122978975176319321789180537471106061687391585077493042243388710480886957966879111605061709583377618218440935276422104630502396984633624821586717716979859225731889148176760447308346640602964905667327075589214442029625932393102299013147061202745991782619959562097254155258432558143507442536693520095861559798184954294413279199844580494355321561366031879782273
  tMinus1Over2 := 3436492620599355428713833161277295129207969904729870063645628749756268958581773383054200756117682007061489487588159660894590268735553030843695792538746521121694355240443478983439555802530854791688809109220467638211052315251198492316812410793358858489929612865944574088380223654173320301482452833663537794607221014812966196551149506573530601372995891309979781048627077629216279071753721268346760047930779899092477147206639599922290247177660780683015939891136
  nqr := ((1, 0), (1, 0), (0, 0))
  nqrToT := ((5033503716262624267312492558379982687175200734934877598599011485707452665730, 314498342015008975724433667930697407966947188435857772134235984660852259084), (0, 0), (0, 0))
/-- `alt_bn128_Fq6::non_residue`, libff/algebra/curves/alt_bn128/alt_bn128_fields.cpp:95. -/
def alt_bn128_Fq6_nonResidue : Nat × Nat := (9, 1)
/-- `alt_bn128_Fq6::Frobenius_coeffs_c1`, libff/algebra/curves/alt_bn128/alt_bn128_fields.cpp:99-104. -/
def alt_bn128_Fq6_frob_c1 : List (Nat × Nat) :=
  [(1, 0),
   (21575463638280843010398324269430826099269044274347216827212613867836435027261, 10307601595873709700152284273816112264069230130616436755625194854815875713954),
   (21888242871839275220042445260109153167277707414472061641714758635765020556616, 0),
   (3772000881919853776433695186713858239009073593817195771773381919316419345261, 2236595495967245188281701248203181795121068902605861227855261137820944008926),
   (2203960485148121921418603742825762020974279258880205651966, 0),
   (18429021223477853657660792034369865839114504446431234726392080002137598044644, 9344045779998320333812420223237981029506012124075525679208581902008406485703)]
/-- `alt_bn128_Fq6::Frobenius_coeffs_c2`, libff/algebra/curves/alt_bn128/alt_bn128_fields.cpp:105-110. -/
def alt_bn128_Fq6_frob_c2 : List (Nat × Nat) :=
  [(1, 0),
   (2581911344467009335267311115468803099551665605076196740867805258568234346338, 19937756971775647987995932169929341994314640652964949448313374472400716661030),
   (2203960485148121921418603742825762020974279258880205651966, 0),
   (5324479202449903542726783395506214481928257762400643279780343368557297135718, 16208900380737693084919495127334387981393726419856888799917914180988844123039),
   (21888242871839275220042445260109153167277707414472061641714758635765020556616, 0),
   (13981852324922362344252311234282257507216387789820983642040889267519694726527, 7629828391165209371577384193250820201684255241773809077146787135900891633097)]

/-- `alt_bn128_Fq12`, libff/algebra/curves/alt_bn128/alt_bn128_fields.cpp:114-142. -/
def alt_bn128_Fq12_data : ExtField (((Nat × Nat) × (Nat × Nat) × (Nat × Nat)) × ((Nat × Nat) × (Nat × Nat) × (Nat × Nat))) where
  euler := 6046454544094118612696716508779587437811568806609539163841022840837511675160439295069809579470726816362285317189074189593010054711753278639030702124756988051901885569977000289997599951414317131996165287196109395898133161740013239988829752143532179604518165694875197942363932902896787023077343173967301933187884822930425779835600094553409788472766995397098779224084577400247916395053836588211398337628249873407897812725149537397072024263099073319957010694902377620764165854039228100130298506833349170306223081328235904174970970518121250400602839440810166295636043817507659038897236852814335786356948857070112253134835836163750873451077756241110472389278187119977689288845930658178394590186562743353071320465908984361117040009944460908570918928026578161925375182627523989293890456243197793702483966432294320134848198228187915704499812007832429165557659647468827260733943113908864341788809250341940281027139567362472080
  s := 5
  t := 377903409005882413293544781798724214863223050413096197740063927552344479697527455941863098716920426022642832324317136849563128419484579914939418882797311753243867848123562518124849996963394820749760330449756837243633322608750827499301859508970761225282385355929699871397745806431049188942333948372956370824242801433151611239725005909588111779547937212318673701505286087515494774690864786763212396101765617087993613295321846087317001516443692082497313168431398601297760365877451756258143656677084323144138942583014744010935685657382578150037677465050635393477252738594228689931077303300895986647309303566882015820927239760234429590692359765069404524329886694998605580552870666136149661886660171459566957529119311522569815000621528806785682433001661135120335948914220249330868153515199862106405247902018395008428012389261744731531238250489526822847353727966801703795871444619304021361800578146371267564196222960154505
  tMinus1Over2 := 188951704502941206646772390899362107431611525206548098870031963776172239848763727970931549358460213011321416162158568424781564209742289957469709441398655876621933924061781259062424998481697410374880165224878418621816661304375413749650929754485380612641192677964849935698872903215524594471166974186478185412121400716575805619862502954794055889773968606159336850752643043757747387345432393381606198050882808543996806647660923043658500758221846041248656584215699300648880182938725878129071828338542161572069471291507372005467842828691289075018838732525317696738626369297114344965538651650447993323654651783441007910463619880117214795346179882534702262164943347499302790276435333068074830943330085729783478764559655761284907500310764403392841216500830567560167974457110124665434076757599931053202623951009197504214006194630872365765619125244763411423676863983400851897935722309652010680900289073185633782098111480077252
  nqr := (((1, 0), (0, 0), (0, 0)), ((1, 0), (0, 0), (0, 0)))
  nqrToT := (((0, 0), (0, 0), (0, 0)), ((0, 0), (7299059822208274084482252430043382812017501266368539931062816119060212104055, 9394737973577957017988251966646482882049672572091998406660728871491334118516), (0, 0)))
/-- `alt_bn128_Fq12::non_residue`, libff/algebra/curves/alt_bn128/alt_bn128_fields.cpp:127. -/
def alt_bn128_Fq12_nonResidue : Nat × Nat := (9, 1)
/-- `alt_bn128_Fq12::Frobenius_coeffs_c1`, libff/algebra/curves/alt_bn128/alt_bn128_fields.cpp:131-142. -/
def alt_bn128_Fq12_frob_c1 : List (Nat × Nat) :=
  [(1, 0),
   (8376118865763821496583973867626364092589906065868298776909617916018768340080, 16469823323077808223889137241176536799009286646108169935659301613961712198316),
   (21888242871839275220042445260109153167277707414472061641714758635765020556617, 0),
   (11697423496358154304825782922584725312912383441159505038794027105778954184319, 303847389135065887422783454877609941456349188919719272345083954437860409601),
   (21888242871839275220042445260109153167277707414472061641714758635765020556616, 0),
   (3321304630594332808241809054958361220322477375291206261884409189760185844239, 5722266937896532885780051958958348231143373700109372999374820235121374419868),
   (21888242871839275222246405745257275088696311157297823662689037894645226208582, 0),
   (13512124006075453725662431877630910996106405091429524885779419978626457868503, 5418419548761466998357268504080738289687024511189653727029736280683514010267),
   (2203960485148121921418603742825762020974279258880205651966, 0),
   (10190819375481120917420622822672549775783927716138318623895010788866272024264, 21584395482704209334823622290379665147239961968378104390343953940207365798982),
   (2203960485148121921418603742825762020974279258880205651967, 0),
   (18566938241244942414004596690298913868373833782006617400804628704885040364344, 16165975933942742336466353786298926857552937457188450663314217659523851788715)]

/-- `bls12_381_Fq2`, libff/algebra/curves/bls12_381/bls12_381_fields.cpp:75-83. -/
def bls12_381_Fq2_data : ExtField (Nat × Nat) where
  euler := 8009641123864852705971874322159486308847560049665276329931192268492988374245678571700328039651096714987477192770085365265551942269853452968100101210518217905546506517135906379008203984748165830709270511838887449985712996744742684
  s := 3
  t := 2002410280966213176492968580539871577211890012416319082482798067123247093561419642925082009912774178746869298192521341316387985567463363242025025302629554476386626629283976594752050996187041457677317627959721862496428249186185671
  tMinus1Over2 := 1001205140483106588246484290269935788605945006208159541241399033561623546780709821462541004956387089373434649096260670658193992783731681621012512651314777238193313314641988297376025498093520728838658813979860931248214124593092835
  nqr := (1, 1)
  nqrToT := (1028732146235106349975324479215795277384839936929757896155643118032610843298655225875571310552543014690878354869257, 2973677408986561043442465346520108879172042883009249989176415018091420807192182638567116318576472649347015917690530)
/-- `bls12_381_Fq2::non_residue`, libff/algebra/curves/bls12_381/bls12_381_fields.cpp:79. -/
def bls12_381_Fq2_nonResidue : Nat := 4002409555221667393417789825735904156556882819939007885332058136124031650490837864442687629129015664037894272559786
/-- `bls12_381_Fq2::Frobenius_coeffs_c1`, libff/algebra/curves/bls12_381/bls12_381_fields.cpp:82-83. -/
def bls12_381_Fq2_frob_c1 : List (Nat) :=
  [1,
   4002409555221667393417789825735904156556882819939007885332058136124031650490837864442687629129015664037894272559786]

/-- `bls12_381_Fq6`, libff/algebra/curves/bls12_381/bls12_381_fields.cpp:87-112. -/
def bls12_381_Fq6_data : ExtField ((Nat × Nat) × (Nat × Nat) × (Nat × Nat)) where
  euler := 2055413310034685917547178203792332860309200402936847589812920000288065092529207803123633643715541786709826434451838736589343077145131547730677239238709119957418812725813020019072447905749622639458475428333968607374368296677805649623279453957078554617849238494880183853748680971697400556718575273783648469851242261268044817816320342666827076722752447529192782544353128746147119308457784830083683331872908234688282360216434156907659346229509903716136077317578274075669149520898024347473697702653612215721050521068924301068068177428715185971771314610791504467157081688941868360291264332276621620347148228840040620536292141825333889929315303120837632621009405712364239501893128509197213249204
  s := 3
  t := 513853327508671479386794550948083215077300100734211897453230000072016273132301950780908410928885446677456608612959684147335769286282886932669309809677279989354703181453255004768111976437405659864618857083492151843592074169451412405819863489269638654462309623720045963437170242924350139179643818445912117462810565317011204454080085666706769180688111882298195636088282186536779827114446207520920832968227058672070590054108539226914836557377475929034019329394568518917287380224506086868424425663403053930262630267231075267017044357178796492942828652697876116789270422235467090072816083069155405086787057210010155134073035456333472482328825780209408155252351428091059875473282127299303312301
  tMinus1Over2 := 256926663754335739693397275474041607538650050367105948726615000036008136566150975390454205464442723338728304306479842073667884643141443466334654904838639994677351590726627502384055988218702829932309428541746075921796037084725706202909931744634819327231154811860022981718585121462175069589821909222956058731405282658505602227040042833353384590344055941149097818044141093268389913557223103760460416484113529336035295027054269613457418278688737964517009664697284259458643690112253043434212212831701526965131315133615537633508522178589398246471414326348938058394635211117733545036408041534577702543393528605005077567036517728166736241164412890104704077626175714045529937736641063649651656150
  nqr := ((1, 0), (1, 0), (0, 0))
  nqrToT := ((2973677408986561043442465346520108879172042883009249989176415018091420807192182638567116318576472649347015917690530, 2973677408986561043442465346520108879172042883009249989176415018091420807192182638567116318576472649347015917690530), (0, 0), (0, 0))
/-- `bls12_381_Fq6::non_residue`, libff/algebra/curves/bls12_381/bls12_381_fields.cpp:97. -/
def bls12_381_Fq6_nonResidue : Nat × Nat := (1, 1)
/-- `bls12_381_Fq6::Frobenius_coeffs_c1`, libff/algebra/curves/bls12_381/bls12_381_fields.cpp:101-106. -/
def bls12_381_Fq6_frob_c1 : List (Nat × Nat) :=
  [(1, 0),
   (0, 4002409555221667392624310435006688643935503118305586438271171395842971157480381377015405980053539358417135540939436),
   (793479390729215512621379701633421447060886740281060493010456487427281649075476305620758731620350, 0),
   (0, 1),
   (4002409555221667392624310435006688643935503118305586438271171395842971157480381377015405980053539358417135540939436, 0),
   (0, 793479390729215512621379701633421447060886740281060493010456487427281649075476305620758731620350)]
/-- `bls12_381_Fq6::Frobenius_coeffs_c2`, libff/algebra/curves/bls12_381/bls12_381_fields.cpp:107-112. -/
def bls12_381_Fq6_frob_c2 : List (Nat × Nat) :=
  [(1, 0),
   (4002409555221667392624310435006688643935503118305586438271171395842971157480381377015405980053539358417135540939437, 0),
   (4002409555221667392624310435006688643935503118305586438271171395842971157480381377015405980053539358417135540939436, 0),
   (4002409555221667393417789825735904156556882819939007885332058136124031650490837864442687629129015664037894272559786, 0),
   (793479390729215512621379701633421447060886740281060493010456487427281649075476305620758731620350, 0),
   (793479390729215512621379701633421447060886740281060493010456487427281649075476305620758731620351, 0)]

/-- `bls12_381_Fq12`, libff/algebra/curves/bls12_381/bls12_381_fields.cpp:116-150. -/
def bls12_381_Fq12_data : ExtField (((Nat × Nat) × (Nat × Nat) × (Nat × Nat)) × ((Nat × Nat) × (Nat × Nat) × (Nat × Nat))) where
  euler := 8449447750135487786386536757818793037762212639342076082205056847631733761148676203741427004279811604310124627720997651209436163312046716101406555444534056553905972881135427726135605097321972002720919419048783869265906393932051047566846865645537445401927480806531298215098847356094235816649364892109670440467529068420483514604958227574975684523172972030890413264728910407591429122273713939807943312686028606857384445300974718185252243030424132803825766945752994243167774120254336745536274773695755236419654903551716949533916736161356917292005946710404303427406932182969676190623946300563008385561067630240219756654157397637890286330848719683460121962833606725529824544406779592032379877481161935446771592034623134923586682924411766146441443826237891460264954006869515216384416084230467353291905946958928033381087520589971371287973778883772765769448885014782339635406211030364946185240866112535299846033397062857243558317578752011446545428814448631806454295214618395979841593811680597003781998317840382782546961827784098634063653000816109224177006797686172283652468801058995095156111444990095100275331923214789575776693004575479181896731908522983715647603567520167155789018111526068121587518840305926270907547770597694123975462831369590179741045378187314102710120072893107485626654026731724301176856186957627412379772915464547093068089747231550221016170764028215685592439765640
  s := 4
  t := 1056180968766935973298317094727349129720276579917759510275632105953966720143584525467678375534976450538765578465124706401179520414005839512675819430566757069238246610141928465766950637165246500340114927381097983658238299241506380945855858205692180675240935100816412276887355919511779477081170611513708805058441133552560439325619778446871960565396621503861301658091113800948928640284214242475992914085753575857173055662621839773156530378803016600478220868219124280395971765031792093192034346711969404552456862943964618691739592020169614661500743338800537928425866522871209523827993287570376048195133453780027469581769674704736285791356089960432515245354200840691228068050847449004047484685145241930846449004327891865448335365551470768305180478279736432533119250858689402048052010528808419161488243369866004172635940073746421410996722360471595721181110626847792454425776378795618273155108264066912480754174632857155444789697344001430818178601806078975806786901827299497480199226460074625472749789730047847818370228473012329257956625102013653022125849710771535456558600132374386894513930623761887534416490401848696972086625571934897737091488565372964455950445940020894473627263940758515198439855038240783863443471324711765496932853921198772467630672273414262838765009111638435703331753341465537647107023369703426547471614433068386633511218403943777627021345503526960699054970705
  tMinus1Over2 := 528090484383467986649158547363674564860138289958879755137816052976983360071792262733839187767488225269382789232562353200589760207002919756337909715283378534619123305070964232883475318582623250170057463690548991829119149620753190472927929102846090337620467550408206138443677959755889738540585305756854402529220566776280219662809889223435980282698310751930650829045556900474464320142107121237996457042876787928586527831310919886578265189401508300239110434109562140197985882515896046596017173355984702276228431471982309345869796010084807330750371669400268964212933261435604761913996643785188024097566726890013734790884837352368142895678044980216257622677100420345614034025423724502023742342572620965423224502163945932724167682775735384152590239139868216266559625429344701024026005264404209580744121684933002086317970036873210705498361180235797860590555313423896227212888189397809136577554132033456240377087316428577722394848672000715409089300903039487903393450913649748740099613230037312736374894865023923909185114236506164628978312551006826511062924855385767728279300066187193447256965311880943767208245200924348486043312785967448868545744282686482227975222970010447236813631970379257599219927519120391931721735662355882748466426960599386233815336136707131419382504555819217851665876670732768823553511684851713273735807216534193316755609201971888813510672751763480349527485352
  nqr := (((0, 0), (0, 0), (0, 0)), ((1, 0), (0, 0), (0, 0)))
  nqrToT := (((0, 0), (0, 0), (0, 0)), ((0, 0), (3357996710086603428986649435961018971596863377125478091385687488711898724126407611022502097010210262797519903698974, 3357996710086603428986649435961018971596863377125478091385687488711898724126407611022502097010210262797519903698974), (0, 0)))
/-- `bls12_381_Fq12::non_residue`, libff/algebra/curves/bls12_381/bls12_381_fields.cpp:135. -/
def bls12_381_Fq12_nonResidue : Nat × Nat := (1, 1)
/-- `bls12_381_Fq12::Frobenius_coeffs_c1`, libff/algebra/curves/bls12_381/bls12_381_fields.cpp:139-150. -/
def bls12_381_Fq12_frob_c1 : List (Nat × Nat) :=
  [(1, 0),
   (3850754370037169011952147076051364057158807420970682438676050522613628423219637725072182697113062777891589506424760, 151655185184498381465642749684540099398075398968325446656007613510403227271200139370504932015952886146304766135027),
   (793479390729215512621379701633421447060886740281060493010456487427281649075476305620758731620351, 0),
   (2973677408986561043442465346520108879172042883009249989176415018091420807192182638567116318576472649347015917690530, 1028732146235106349975324479215795277384839936929757896155643118032610843298655225875571310552543014690878354869257),
   (793479390729215512621379701633421447060886740281060493010456487427281649075476305620758731620350, 0),
   (3125332594171059424908108096204648978570118281977575435832422631601824034463382777937621250592425535493320683825557, 877076961050607968509681729531255177986764537961432449499635504522207616027455086505066378536590128544573588734230),
   (4002409555221667393417789825735904156556882819939007885332058136124031650490837864442687629129015664037894272559786, 0),
   (151655185184498381465642749684540099398075398968325446656007613510403227271200139370504932015952886146304766135027, 3850754370037169011952147076051364057158807420970682438676050522613628423219637725072182697113062777891589506424760),
   (4002409555221667392624310435006688643935503118305586438271171395842971157480381377015405980053539358417135540939436, 0),
   (1028732146235106349975324479215795277384839936929757896155643118032610843298655225875571310552543014690878354869257, 2973677408986561043442465346520108879172042883009249989176415018091420807192182638567116318576472649347015917690530),
   (4002409555221667392624310435006688643935503118305586438271171395842971157480381377015405980053539358417135540939437, 0),
   (877076961050607968509681729531255177986764537961432449499635504522207616027455086505066378536590128544573588734230, 3125332594171059424908108096204648978570118281977575435832422631601824034463382777937621250592425535493320683825557)]

/-- `mnt4_Fq2`, libff/algebra/curves/mnt/mnt4/mnt4_fields.cpp:79-87. -/
def mnt4_Fq2_data : ExtField (Nat × Nat) where
  euler := 113251011236288135098249345249154230895914381858788918106847214243419142422924133497460817468249854833067260038985710370091920860837014281886963086681184370139950267830740466401280
  s := 18
  t := 864036645784668999467844736092790457885088972921668381552484239528039111503022258739172496553419912972009735404859240494475714575477709059806542104196047745818712370534824115
  tMinus1Over2 := 432018322892334499733922368046395228942544486460834190776242119764019555751511129369586248276709956486004867702429620247237857287738854529903271052098023872909356185267412057
  nqr := (8, 1)
  nqrToT := (0, 29402818985595053196743631544512156561638230562612542604956687802791427330205135130967658)
/-- `mnt4_Fq2::non_residue`, libff/algebra/curves/mnt/mnt4/mnt4_fields.cpp:83. -/
def mnt4_Fq2_nonResidue : Nat := 17
/-- `mnt4_Fq2::Frobenius_coeffs_c1`, libff/algebra/curves/mnt/mnt4/mnt4_fields.cpp:86-87. -/
def mnt4_Fq2_frob_c1 : List (Nat) :=
  [1,
   475922286169261325753349249653048451545124879242694725395555128576210262817955800483758080]

/-- `mnt4_Fq4`, libff/algebra/curves/mnt/mnt4/mnt4_fields.cpp:91-104. -/
def mnt4_Fq4_data : ExtField ((Nat × Nat) × (Nat × Nat)) where
  euler := 25651583092083722860389456294636122410439879926586580563315945736434716064849132519766511207459420384360697907406346373215133006874856109796738702470938129733457580420092444037238870266485480310448412800447687355912222889117273270333186953365310343339095195101362180341777704896596606135620801390396337387451719858347266414533678045654385500808110588904079360
  s := 19
  t := 97853023880324260179097962549728860513457793909403154614700110383738388308903246001306576566541368043368140821099648945675403621196197928606943902858498114522772142105455185078578454080526276819032336427489041732453242832631199914295909703694573758465176372914742204062567538820635246794207768975816106366927031930340829523215019400231878283722345691315
  tMinus1Over2 := 48926511940162130089548981274864430256728896954701577307350055191869194154451623000653288283270684021684070410549824472837701810598098964303471951429249057261386071052727592539289227040263138409516168213744520866226621416315599957147954851847286879232588186457371102031283769410317623397103884487908053183463515965170414761607509700115939141861172845657
  nqr := ((4, 0), (1, 0))
  nqrToT := ((0, 0), (29121826399401736230321201250169476571908331476055427845679523445723222361523083487327506, 0))
/-- `mnt4_Fq4::non_residue`, libff/algebra/curves/mnt/mnt4/mnt4_fields.cpp:98. -/
def mnt4_Fq4_nonResidue : Nat := 17
/-- `mnt4_Fq4::Frobenius_coeffs_c1`, libff/algebra/curves/mnt/mnt4/mnt4_fields.cpp:101-104. -/
def mnt4_Fq4_frob_c1 : List (Nat) :=
  [1,
   7684163245453501615621351552473337069301082060976805004625011694147890954040864167002308,
   475922286169261325753349249653048451545124879242694725395555128576210262817955800483758080,
   468238122923807824137727898100575114475823797181717920390930116882062371863914936316755773]

/-- `mnt6_Fq3`, libff/algebra/curves/mnt/mnt6/mnt6_fields.cpp:79-91. -/
def mnt6_Fq3_data : ExtField (Nat × Nat × Nat) where
  euler := 53898680178554951715397245154796036139463891589001478629193136369124915637741423690184935056189295242736833704290747216410090671804540908400210778934462129625646263095398323485795557551284190224166851571615834194321908328559167529729507439069424158411618728014749106176
  s := 34
  t := 6274632199033507112809136178669989590936327770934612330653836993631547740397674926811006741620285348354004521888069251599964996777072188956687550402067383940523288107407084140669968625447269322370045302856694231080113482726640944570478452261237446033817102203
  tMinus1Over2 := 3137316099516753556404568089334994795468163885467306165326918496815773870198837463405503370810142674177002260944034625799982498388536094478343775201033691970261644053703542070334984312723634661185022651428347115540056741363320472285239226130618723016908551101
  nqr := (5, 0, 0)
  nqrToT := (154361449678783505076984156275977937654331103361174469632346230549735979552469642799720052, 0, 0)
/-- `mnt6_Fq3::non_residue`, libff/algebra/curves/mnt/mnt6/mnt6_fields.cpp:83. -/
def mnt6_Fq3_nonResidue : Nat := 5
/-- `mnt6_Fq3::Frobenius_coeffs_c1`, libff/algebra/curves/mnt/mnt6/mnt6_fields.cpp:86-88. -/
def mnt6_Fq3_frob_c1 : List (Nat) :=
  [1,
   471738898967521029133040851318449165997304108729558973770077319830005517129946578866686956,
   4183387201740296620308398334599285547820769823264541783190415909159130177461911693276180]
/-- `mnt6_Fq3::Frobenius_coeffs_c2`, libff/algebra/curves/mnt/mnt6/mnt6_fields.cpp:89-91. -/
def mnt6_Fq3_frob_c2 : List (Nat) :=
  [1,
   4183387201740296620308398334599285547820769823264541783190415909159130177461911693276180,
   471738898967521029133040851318449165997304108729558973770077319830005517129946578866686956]

/-- `mnt6_Fq6`, libff/algebra/curves/mnt/mnt6/mnt6_fields.cpp:95-111. -/
def mnt6_Fq6_data : ExtField ((Nat × Nat × Nat) × (Nat × Nat × Nat)) where
  euler := 5810135449980304883458330322095291308782409998888627392716003571657556187993772370764833589492533062889518837877391327519721391945218338205520638708217218142560592395762000904244952641817702503236596390200424885243404760954857204010811553368230438805100520138917875345043409872160393969038819851306130935281801223313744881543615360884552109851303547212609185435570387523149780308979035592069180747953000755531869142327042207668768296881030935139706074910917829157651610581536611575608256606920332948110215549184448842466566234011340898304
  s := 35
  t := 338194394133769958481328231404494221134950057538728427183581724044491780688623686482014227046895135595085963017621038453637237657398121559848114772945247715255280048339744151118499729888147121716558257478779699027270821444390877383459100579390677088237165015826343753435847458438970728837816268863746135919459701010127603166248612157334114299813724775601247409100783262585160573302944865547422130356601017732864079433903226609619351620845900332770896779310297521160194334896316959965523367684819557943277500405933756990507607931
  tMinus1Over2 := 169097197066884979240664115702247110567475028769364213591790862022245890344311843241007113523447567797542981508810519226818618828699060779924057386472623857627640024169872075559249864944073560858279128739389849513635410722195438691729550289695338544118582507913171876717923729219485364418908134431873067959729850505063801583124306078667057149906862387800623704550391631292580286651472432773711065178300508866432039716951613304809675810422950166385448389655148760580097167448158479982761683842409778971638750202966878495253803965
  nqr := ((2, 0, 0), (1, 0, 0))
  nqrToT := ((0, 0, 0), (0, 95371092960829291863271933246328602470562937077363363183769791678780911004969735451493071, 0))
/-- `mnt6_Fq6::non_residue`, libff/algebra/curves/mnt/mnt6/mnt6_fields.cpp:102. -/
def mnt6_Fq6_nonResidue : Nat := 5
/-- `mnt6_Fq6::Frobenius_coeffs_c1`, libff/algebra/curves/mnt/mnt6/mnt6_fields.cpp:105-110. -/
def mnt6_Fq6_frob_c1 : List (Nat) :=
  [1,
   471738898967521029133040851318449165997304108729558973770077319830005517129946578866686957,
   471738898967521029133040851318449165997304108729558973770077319830005517129946578866686956,
   475922286169261325753349249653048451545124878552823515553267735739164647307408490559963136,
   4183387201740296620308398334599285547820769823264541783190415909159130177461911693276180,
   4183387201740296620308398334599285547820769823264541783190415909159130177461911693276181]

/-- `edwards_Fq3`, libff/algebra/curves/edwards/edwards_fields.cpp:76-88. -/
def edwards_Fq3_data : ExtField (Nat × Nat × Nat) where
  euler := 119744082713971502962992613191067836698205043373978948903839934564152994858051284658545502971203325031831647424413111161318314144765646525057914792711854057586688000
  s := 31
  t := 111520367408144756185815309352304634357062208814526860512643991563611659089151103662834971185031649686239331424621037357783237607000066456438894190557165125
  tMinus1Over2 := 55760183704072378092907654676152317178531104407263430256321995781805829544575551831417485592515824843119665712310518678891618803500033228219447095278582562
  nqr := (23, 0, 0)
  nqrToT := (104810943629412208121981114244673004633270996333237516, 0, 0)
/-- `edwards_Fq3::non_residue`, libff/algebra/curves/edwards/edwards_fields.cpp:80. -/
def edwards_Fq3_nonResidue : Nat := 61
/-- `edwards_Fq3::Frobenius_coeffs_c1`, libff/algebra/curves/edwards/edwards_fields.cpp:83-85. -/
def edwards_Fq3_frob_c1 : List (Nat) :=
  [1,
   1073752683758513276629212192812154536507607213288832061,
   5136291436651207728317994048073823738016144056504959939]
/-- `edwards_Fq3::Frobenius_coeffs_c2`, libff/algebra/curves/edwards/edwards_fields.cpp:86-88. -/
def edwards_Fq3_frob_c2 : List (Nat) :=
  [1,
   5136291436651207728317994048073823738016144056504959939,
   1073752683758513276629212192812154536507607213288832061]

/-- `edwards_Fq6`, libff/algebra/curves/edwards/edwards_fields.cpp:92-108. -/
def edwards_Fq6_data : ExtField ((Nat × Nat × Nat) × (Nat × Nat × Nat)) where
  euler := 28677290690020897805365935843851174495046307392705069144101373373330885210311370318733027669285930295433693090881034720818190496854917686657535109348176830861059800012474722471292022005286908893541416599742789523143737959708214461870605874121090272322517073698670457333498341250241297120220551099521678676677016084977733861376000
  s := 32
  t := 13353904099213377481962524281745392128381089955896637003916023938605042738053654468959675947803040172641022638828044161581523016493263508499383511649527042573811393236962483483968312854546545489477653335660132357451942730559136002264267706368626222164610900775841650242683636606783278808100405661166495958658408413165125
  tMinus1Over2 := 6676952049606688740981262140872696064190544977948318501958011969302521369026827234479837973901520086320511319414022080790761508246631754249691755824763521286905696618481241741984156427273272744738826667830066178725971365279568001132133853184313111082305450387920825121341818303391639404050202830583247979329204206582562
  nqr := ((5, 0, 0), (1, 0, 0))
  nqrToT := ((0, 0, 0), (0, 6018622460271751604575462891699668290753365582464183006, 0))
/-- `edwards_Fq6::non_residue`, libff/algebra/curves/edwards/edwards_fields.cpp:99. -/
def edwards_Fq6_nonResidue : Nat := 61
/-- `edwards_Fq6::Frobenius_coeffs_c1`, libff/algebra/curves/edwards/edwards_fields.cpp:102-107. -/
def edwards_Fq6_frob_c1 : List (Nat) :=
  [1,
   1073752683758513276629212192812154536507607213288832062,
   1073752683758513276629212192812154536507607213288832061,
   6210044120409721004947206240885978274523751269793792000,
   5136291436651207728317994048073823738016144056504959939,
   5136291436651207728317994048073823738016144056504959940]

end Libff
